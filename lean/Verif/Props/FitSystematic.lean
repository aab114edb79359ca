import Verif.Lemmas.FitSystematic
import Verif.Props.FitFound

/-! # C156: the first fit with systematic parameters -/

namespace Verif

open Session

variable {env : FitEnv} {keyOf : ℕ → PyStr} {a : FitArgs} {ts : List Spectrum} {d : ℕ} {st : FitState}
  {rnd : ℝ → ℚ} {g : GridSearch} {vss : List (List ℝ)}

/-- **C156.** A fit by grid search is made from data, floating backgrounds with one rate each, global
parameters (scale, shift or resolution), and perhaps fixed backgrounds and a signal. At the values `u`,
`x u` are the contents of the floating backgrounds, each shrunk to the region and with the global
parameters applied to it, one after the other, and of the signal, shrunk and with the last of them
applied, and `G u` is the statistic of the data and the sum of the fixed backgrounds, the floating ones scaled to their rates, and the signal. Then the
constructor accepts its arguments, and the first `fit()` finds the first of the combinations of values
with the smallest sum of statistic and penalty, and returns the statistic and the penalty there.
(Partial: the suppositions of C62 and C99; at most one axis is projected out; the values are not
rounded.) -/
theorem c156_best_partial (hg : a.Given ts st) (he : a.Evaluable env keyOf d st) (hs : a.Settings st)
    (hy : a.Systematic st) (hl : (st.view d).cfg.length ≤ a.roi.length + 1) {ns : List PyStr}
    (hns : RoiNames (st.view d).cfg (inOrder a.roi) ns) {c : ℕ → NdArray ℚ}
    (hc : ∀ r ∈ d :: a.fixed.map Prod.fst, RegionContents (inOrder a.roi) ns (st.view r) (c r))
    (hsearch : SystematicSearch rnd g vss a.globalPars.length a.floating.length)
    (hex : ∀ vs ∈ vss, ∀ x ∈ vs, ((rnd x : ℚ) : ℝ) = x) {x : List ℝ → ℕ → NdArray ℚ}
    (hx : ∀ u, Combination vss u → ∀ r ∈ a.floating,
      SystematicContents env st (inOrder a.roi) ns a.globalPars (a.globalPars.zip (u.map rnd))
        (st.view r) (x u r))
    (hxs : ∀ u, Combination vss u → ∀ r ∈ a.signal.toList,
      LastContents env st (inOrder a.roi) ns a.globalPars (a.globalPars.zip (u.map rnd))
        (st.view r) (x u r)) {G : List ℝ → ℝ}
    (hG : ∀ u, Combination vss u → a.stat.Total (comparedContents a.singleBin (c d))
      (comparedContents a.singleBin (a.systematicAt st c (x u) (c d).shape
        ((u.map rnd).drop a.globalPars.length))) (G u)) :
    ∃ ses st' g' raw pen u, init keyOf a st = (st', .ok ses) ∧
      (ses.fit (fun f => fitGrid env f rnd g) st').2 = .ok (.inr (g', raw, pen)) ∧
      FirstBest vss (fun u => G u + a.penaltyAt st u) u ∧
      g'.pars.map FitPar.bestFit = u.map some ∧ raw.ravel = [G u] ∧
      pen.ravel = [a.penaltyAt st u] := by
  obtain ⟨ses, st', f, i1, i2, f0, f1, f2, f3, f4, f5, f6, hpar, hev⟩ :=
    systematic_evaluated hg he hs hy hl hns hc
  rw [hy.statPerBin] at f3
  rw [hy.perBin] at f4
  have hone : ∀ r, ∃ p, r ∈ a.floating → (st.objs r).fit = some [p] := fun r => by
    by_cases hm : r ∈ a.floating
    · obtain ⟨p, hp⟩ := hy.one r hm
      exact ⟨p, fun _ => hp⟩
    · exact ⟨0, fun h => absurd h hm⟩
  choose par hp using hone
  have hpars := hy.parameters hp
  have hnum : (a.parameters st).length = a.globalPars.length + a.floating.length := by
    rw [hpars, List.length_append, List.length_map]
  have len : ∀ u, Combination vss u → (u.map rnd).length = (a.parameters st).length := fun u hu => by
    rw [List.length_map, hu.length_eq, hsearch.number, hnum]
  have hFS : FitSearch env f st' rnd g vss :=
    { values := hsearch.values
      counts := hsearch.counts
      number := by rw [hsearch.number, f1, hnum]
      floating := f6
      form := fun u r _ h => form_total hsearch.form f3 f4 h
      rates := fun u hu e hm hk => by
        rw [f1, hpars, zip_append_drop _ _ _ (by rw [len u hu, hnum]; omega)] at hm
        rcases List.mem_append.1 hm with hm | hm
        · have hmem := (List.of_mem_zip hm).1
          rw [hpar] at hk
          obtain ⟨y, hy1, hy2⟩ := List.mem_map.1 hmem
          obtain ⟨hy3, hy4⟩ := List.mem_filter.1 hy1
          have := he.globals y hy3 hy4
          rw [hy2] at this
          exact absurd hk this
        · have hmem := (List.of_mem_zip hm).2
          rw [← List.map_drop] at hmem
          obtain ⟨y, hy1, hy2⟩ := List.mem_map.1 hmem
          obtain ⟨vs, hvs, hyv⟩ := forall₂_mem_left (List.forall₂_drop a.globalPars.length hu) hy1
          rw [← hy2]
          exact hsearch.nonzero vs hvs y hyv
      sigmas := hsearch.sigmas
      nonempty := .inr fun h0 => by
        have := hsearch.counts.length_eq
        rw [h0, hsearch.number] at this
        have h1 := List.length_pos_of_ne_nil hy.floating
        simp at this
        omega }
  obtain ⟨g', raw, pen, u, hres, r⟩ := grid_found f0 f1 f2 f3 f4 f5 f6 hpar hy.sigmas hsearch.ready
    hsearch.nodup hFS hex (fun u hu => hev (u.map rnd) (len u hu) (x u) (hx u hu) (hxs u hu)) hG
  exact ⟨ses, st', g', raw, pen, u, i1, by rw [i2, hres]; rfl, r⟩

/-- **C156, recovered values.** When in the region the data are what the fit expects at the values `w₀`
of the grid, the expected contents are at or above the threshold on the whole grid, parameters with a
sigma have their priors in `w₀`, and at no other combination of which this is true the expected
contents are the same, then the first `fit()` finds exactly `w₀`, with statistic zero (except the
extended likelihood) and penalty zero. (Partial: as above; not for the statistic that ignores bins with
too few expected events.) -/
theorem c156_recovers_partial (hg : a.Given ts st) (he : a.Evaluable env keyOf d st)
    (hs : a.Settings st) (hy : a.Systematic st) (hst : a.stat ≠ .bcChiUp)
    (hl : (st.view d).cfg.length ≤ a.roi.length + 1) {ns : List PyStr}
    (hns : RoiNames (st.view d).cfg (inOrder a.roi) ns) {c : ℕ → NdArray ℚ}
    (hc : ∀ r ∈ d :: a.fixed.map Prod.fst, RegionContents (inOrder a.roi) ns (st.view r) (c r))
    (hsearch : SystematicSearch rnd g vss a.globalPars.length a.floating.length)
    (hex : ∀ vs ∈ vss, ∀ x ∈ vs, ((rnd x : ℚ) : ℝ) = x) {x : List ℝ → ℕ → NdArray ℚ}
    (hx : ∀ u, Combination vss u → ∀ r ∈ a.floating,
      SystematicContents env st (inOrder a.roi) ns a.globalPars (a.globalPars.zip (u.map rnd))
        (st.view r) (x u r))
    (hxs : ∀ u, Combination vss u → ∀ r ∈ a.signal.toList,
      LastContents env st (inOrder a.roi) ns a.globalPars (a.globalPars.zip (u.map rnd))
        (st.view r) (x u r))
    {e : List ℝ → List ℝ} (hE : ∀ u, Combination vss u → e u = comparedContents a.singleBin
      (a.systematicAt st c (x u) (c d).shape ((u.map rnd).drop a.globalPars.length)))
    (hcount : ∀ u, Combination vss u → ∀ y ∈ e u, zeroThreshold ≤ y)
    (w₀ : List ℝ) (hw₀ : Combination vss w₀) (htruth : comparedContents a.singleBin (c d) = e w₀)
    (hprior : List.Forall₂ (fun p v => (st.params p).sigma ≠ none → v = (st.params p).prior)
      (a.parameters st) w₀)
    (hother : ∀ u, Combination vss u → e u = e w₀ →
      List.Forall₂ (fun p v => (st.params p).sigma ≠ none → v = (st.params p).prior)
        (a.parameters st) u → u = w₀) :
    ∃ ses st' g' raw pen, init keyOf a st = (st', .ok ses) ∧
      (ses.fit (fun f => fitGrid env f rnd g) st').2 = .ok (.inr (g', raw, pen)) ∧
      g'.pars.map FitPar.bestFit = w₀.map some ∧ (a.stat ≠ .extLL → raw.ravel = [0]) ∧
      pen.ravel = [0] := by
  have hlen : ∀ u, Combination vss u → (comparedContents a.singleBin (c d)).length =
      (e u).length := fun u hu => by
    rw [hE u hu]
    exact (compared_length _ (a := c d) (b := a.systematicAt st c (x u) (c d).shape
      ((u.map rnd).drop a.globalPars.length)) rfl).symm
  have h : ∀ u, ∃ v, Combination vss u → a.stat.Total (comparedContents a.singleBin (c d)) (e u) v := by
    intro u
    by_cases hu : Combination vss u
    · obtain ⟨v, hv⟩ := exists_total a.stat (hlen u hu)
      exact ⟨v, fun _ => hv⟩
    · exact ⟨0, fun h => absurd h hu⟩
  choose G hG using h
  obtain ⟨ses, st', g', raw, pen, u, h1, h2, ⟨idx, b1, b2⟩, h4, h5, h6⟩ := c156_best_partial hg he hs hy
    hl hns hc hsearch hex hx hxs (G := G) fun u hu => by rw [← hE u hu]; exact hG u hu
  obtain ⟨idx₀, hi₀⟩ := valuesAt_of_comb hw₀
  have hle := (b2 idx₀ w₀ hi₀).1
  obtain ⟨a1, a2, a3⟩ := agreement_best hst (hlen u b1.comb)
    (fun y hy => hcount w₀ hw₀ y (htruth ▸ hy)) (hcount u b1.comb) (hG u b1.comb)
    (by have := hG w₀ hw₀; rw [← htruth] at this; exact this)
  have hpen : ∀ w, Combination vss w → 0 ≤ a.penaltyAt st w ∧ (a.penaltyAt st w = 0 ↔
      List.Forall₂ (fun p v => (st.params p).sigma ≠ none → v = (st.params p).prior)
        (a.parameters st) w) := by
    intro w hw
    have hun := penalties_unrounded (rnd := rnd) (s := a.stat)
      (ps := (a.parameters st).map st.params) (u := w) fun y hy => by
        obtain ⟨vs, hvs, hm⟩ := forall₂_mem_left hw hy
        exact hex vs hvs y hm
    have hl : (w.map rnd).length = (a.parameters st).length := by
      rw [List.length_map, hw.length_eq, hsearch.number, hy.number]
    obtain ⟨p1, p2⟩ := penalties_zero (s := a.stat) (params := st.params) (ps := a.parameters st)
      (args := w.map rnd) hl hy.sigmas
    have e1 : a.penaltyAt st w = (List.zipWith (penaltyTerm a.stat)
        ((a.parameters st).map st.params) w).sum := by
      unfold FitArgs.penaltyAt
      rw [List.zipWith_map_left]
      rfl
    rw [hun, ← e1] at p1 p2
    refine ⟨p1, p2.trans ?_⟩
    rw [List.forall₂_map_right_iff]
    have hr : ∀ y ∈ w, ((rnd y : ℚ) : ℝ) = y := fun y hy => by
      obtain ⟨vs, hvs, hm⟩ := forall₂_mem_left hw hy
      exact hex vs hvs y hm
    clear * - hr
    generalize a.parameters st = ps
    induction w generalizing ps with
    | nil => cases ps <;> simp
    | cons y w ih =>
      cases ps with
      | nil => simp
      | cons p ps =>
        rw [List.forall₂_cons, List.forall₂_cons, hr y List.mem_cons_self]
        exact and_congr_right fun _ => ih (fun z hz => hr z (List.mem_cons_of_mem _ hz)) ps
  have z₀ := (hpen w₀ hw₀).2.2 hprior
  obtain ⟨z1, z2⟩ := hpen u b1.comb
  have hle : G u + a.penaltyAt st u ≤ G w₀ + a.penaltyAt st w₀ := hle
  have hz : a.penaltyAt st u = 0 := by linarith
  obtain rfl : u = w₀ := hother u b1.comb (by rw [← htruth]; exact a2 (by linarith)) (z2.1 hz)
  refine ⟨ses, st', g', raw, pen, h1, h2, h4, fun h => ?_, by rw [h6, hz]⟩
  rw [h5, a3 h]

/-! ### a case that meets the hypotheses -/

namespace Ex

/-- Data, a fixed background, two floating ones, a signal, and a global parameter for the resolution. -/
def systematicArgs : FitArgs := { exWhole with config := [(lit "global", (2, true))] }

/-- Light yield 20 or resolution 5, and values of the two rates. -/
def systematicValues : List (List ℝ) := [[5, 20], [8, 10], [7, 5, 3]]

/-- A search over these values. -/
def systematicSearch : GridSearch :=
  GridSearch.new [gridPar (lit "global") (some 2) [5, 20], gridPar (lit "rate") (some 2) [8, 10],
    gridPar (lit "rate") none [7, 5, 3]] [4] (some (lit "fit")) false

end Ex

theorem ex_systematic : Ex.systematicArgs.Systematic Ex.fitState where
  floating := by simp [Ex.systematicArgs, exWhole]
  global := by simp [Ex.systematicArgs]
  one := by
    intro r hr
    have : r = 2 ∨ r = 3 := by simpa [Ex.systematicArgs, exWhole] using hr
    rcases this with rfl | rfl
    · exact ⟨0, rfl⟩
    · exact ⟨1, rfl⟩
  sigmas := by
    intro p hp
    have : p = 2 ∨ p = 0 ∨ p = 1 := by
      have : p ∈ [2, 0, 1] := hp
      simpa using this
    rcases this with rfl | rfl | rfl <;> simp [Ex.fitState, Ex.fitParam]
  statPerBin := rfl
  perBin := rfl

theorem ex_systematicSearch : SystematicSearch Ex.toInt Ex.systematicSearch Ex.systematicValues
    Ex.systematicArgs.globalPars.length Ex.systematicArgs.floating.length where
  ready := ⟨rfl, rfl⟩
  form := rfl
  values := .cons rfl (.cons rfl (.cons rfl .nil))
  counts := .cons ⟨rfl, by simp⟩ (.cons ⟨rfl, by simp⟩ (.cons ⟨rfl, by simp⟩ .nil))
  number := rfl
  nodup := by
    intro vs hvs
    have : vs = [5, 20] ∨ vs = [8, 10] ∨ vs = [7, 5, 3] := by
      simpa [Ex.systematicValues] using hvs
    rcases this with rfl | rfl | rfl <;> norm_num
  nonzero := by
    intro vs hvs x hx
    have : vs = [8, 10] ∨ vs = [7, 5, 3] := by
      have : vs ∈ ([[8, 10], [7, 5, 3]] : List (List ℝ)) := hvs
      simpa using this
    rcases this with rfl | rfl
    · have hx : x = 8 ∨ x = 10 := by simpa using hx
      rcases hx with rfl | rfl <;> simp [Ex.toInt]
    · have hx : x = 7 ∨ x = 5 ∨ x = 3 := by simpa using hx
      rcases hx with rfl | rfl | rfl <;> simp [Ex.toInt]
  sigmas := by
    intro q hq
    have : q = Ex.gridPar (lit "global") (some 2) [5, 20] ∨
        q = Ex.gridPar (lit "rate") (some 2) [8, 10] ∨
        q = Ex.gridPar (lit "rate") none [7, 5, 3] := by
      simpa [Ex.systematicSearch, GridSearch.new] using hq
    rcases this with rfl | rfl | rfl <;> simp [Ex.gridPar]

theorem ex_unrounded : ∀ vs ∈ Ex.systematicValues, ∀ x ∈ vs, ((Ex.toInt x : ℚ) : ℝ) = x := by
  intro vs hvs x hx
  have : vs = [5, 20] ∨ vs = [8, 10] ∨ vs = [7, 5, 3] := by
    simpa [Ex.systematicValues] using hvs
  rcases this with rfl | rfl | rfl
  · have hx : x = 5 ∨ x = 20 := by simpa using hx
    rcases hx with rfl | rfl <;> simp [Ex.toInt]
  · have hx : x = 8 ∨ x = 10 := by simpa using hx
    rcases hx with rfl | rfl <;> simp [Ex.toInt]
  · have hx : x = 7 ∨ x = 5 ∨ x = 3 := by simpa using hx
    rcases hx with rfl | rfl | rfl <;> simp [Ex.toInt]

/-- The resolution can be applied to the spectra in the region. -/
theorem ex_applied (v : ℚ) {r : ℕ} (hr : r < 5) : ∃ t, AppliedTo Ex.fitEnv .resolution
    (some (lit "energy_mc")) v ((Ex.fitState.view r).shrink exFitKw).st.norm t := by
  have key : ∀ r < 5, ((((Ex.fitState.view r).shrink exFitKw).st.norm).weightedSmear Ex.flat.suffix
      Ex.flat.sigma Ex.flat.weight Ex.flat.numSigma (lit "energy_mc")).toBool = true := by
    decide +kernel
  have := key r hr
  cases h : (((Ex.fitState.view r).shrink exFitKw).st.norm).weightedSmear Ex.flat.suffix
      Ex.flat.sigma Ex.flat.weight Ex.flat.numSigma (lit "energy_mc") with
  | error e => rw [h] at this; cases this
  | ok t =>
    by_cases hv : 10 < v
    · exact ⟨t, .lightYield _ _ _ _ hv h⟩
    · exact ⟨t, .energyResolution _ _ _ _ (not_lt.1 hv) h⟩

theorem ex_systematicContents (v : ℚ) (l : List ℚ) {r : ℕ} (hr : r < 5) :
    ∃ c, SystematicContents Ex.fitEnv Ex.fitState (inOrder exWhole.roi) [lit "energy_mc"]
      Ex.systematicArgs.globalPars (Ex.systematicArgs.globalPars.zip (v :: l)) (Ex.fitState.view r) c ∧
      c.shape = [2] := by
  obtain ⟨t, ht⟩ := ex_applied v hr
  have hal := convolve_alike (appliedTo_iff.1 ht)
  have key : ∀ r < 5, ((Ex.fitState.view r).shrink exFitKw).err = none ∧
      ((Ex.fitState.view r).shrink exFitKw).st.norm.data.shape = [2] ∧
      ((Ex.fitState.view r).shrink exFitKw).st.norm.cfg.map SPar.name = [lit "energy_mc"] := by
    decide +kernel
  obtain ⟨k1, k2, k3⟩ := key r hr
  have e1 : pick [lit "energy_mc"] (t.cfg.map SPar.name) t.data.norm.shape = [2] := by
    show pick _ _ t.data.shape = _
    rw [hal.cfg, hal.shape, k2, k3]; rfl
  refine ⟨⟨[2], fun idx => sumIdx t.data.shape fun full =>
    if pick [lit "energy_mc"] (t.cfg.map SPar.name) full = idx then t.data.norm.get full else 0⟩,
    ⟨((Ex.fitState.view r).shrink exFitKw).st.norm, { t with data := t.data.norm },
    ⟨exFitKw, ?_, k1, ⟨rfl, rfl, rfl, rfl, rfl⟩, rfl, fun _ hi => (NdArray.norm_get hi).symm⟩, ?_,
    .cons 2 v [] _ t _ ?_ ht (.nil _), ?_⟩, rfl⟩
  · show AsksRoi [Ex.fitAxis] (inOrder [(lit "energy", ((2 : ℚ), (1 : ℚ)))]) exFitKw
    rw [exInit_roi]
    exact exFit_asks
  · exact NdArray.norm_norm _
  · exact List.mem_cons_self
  · exact ⟨e1.symm, fun idx _ => rfl⟩

example : ∃ (G : List ℝ → ℝ) (ses : Session) (st' : FitState) (g' : GridSearch) (raw pen : NdArray ℝ)
    (u : List ℝ), init Ex.keyOf Ex.systematicArgs Ex.fitState = (st', .ok ses) ∧
    (ses.fit (fun f => fitGrid Ex.fitEnv f Ex.toInt Ex.systematicSearch) st').2 =
      .ok (.inr (g', raw, pen)) ∧
    FirstBest Ex.systematicValues (fun u => G u + Ex.systematicArgs.penaltyAt Ex.fitState u) u ∧
    g'.pars.map FitPar.bestFit = u.map some ∧ raw.ravel = [G u] ∧
    pen.ravel = [Ex.systematicArgs.penaltyAt Ex.fitState u] := by
  obtain ⟨-, -, ns, -, hns, c, hc, -⟩ := c137_contents_partial (exWhole_given [])
    (exWhole_evaluable (.inl rfl)) (by simp [exWhole]) (by simp)
    (by simp [FitState.view, Ex.fitState, exWhole])
  obtain rfl : ns = [lit "energy_mc"] := roiNames_unique
    ((exWhole_given []).able 0 (by simp [FitArgs.kept, exWhole])).dims made_names hns
  have hx : ∀ (u : List ℝ) (r : ℕ), ∃ c, Combination Ex.systematicValues u →
      r ∈ Ex.systematicArgs.floating ++ Ex.systematicArgs.signal.toList →
      SystematicContents Ex.fitEnv Ex.fitState (inOrder exWhole.roi) [lit "energy_mc"]
        Ex.systematicArgs.globalPars (Ex.systematicArgs.globalPars.zip (u.map Ex.toInt))
        (Ex.fitState.view r) c := by
    intro u r
    by_cases hr : r < 5
    · cases u with
      | nil => exact ⟨⟨[], fun _ => 0⟩, fun h => by cases h⟩
      | cons v l =>
        obtain ⟨c, h, -⟩ := ex_systematicContents (Ex.toInt v) (l.map Ex.toInt) hr
        exact ⟨c, fun _ _ => h⟩
    · refine ⟨⟨[], fun _ => 0⟩, fun _ h => ?_⟩
      have : r = 2 ∨ r = 3 ∨ r = 4 := by simpa [Ex.systematicArgs, exWhole] using h
      omega
  choose x hx using hx
  have h : ∀ u : List ℝ, ∃ v, Ex.systematicArgs.stat.Total
      (comparedContents Ex.systematicArgs.singleBin (c 0))
      (comparedContents Ex.systematicArgs.singleBin (Ex.systematicArgs.systematicAt Ex.fitState c (x u)
        (c 0).shape ((u.map Ex.toInt).drop Ex.systematicArgs.globalPars.length))) v := fun u =>
    exists_total _ (compared_length _ (a := c 0) (b := Ex.systematicArgs.systematicAt Ex.fitState c (x u)
      (c 0).shape ((u.map Ex.toInt).drop Ex.systematicArgs.globalPars.length)) rfl).symm
  choose G hG using h
  exact ⟨G, c156_best_partial (exWhole_given [(lit "global", (2, true))])
    (exWhole_evaluable (.inr rfl))
    { floating := fun _ => .inl (by simp)
      fixed := (fun h => by cases h)
      dimension := by simp [Ex.fitState, Ex.fitParam]
      perBin := by simp [exWhole] } ex_systematic
    (by simp [FitState.view, Ex.fitState, exWhole]) hns
    (fun r hr => (hc r (by
      have : r = 0 ∨ r = 1 := by simpa [exWhole] using hr
      simp only [FitArgs.kept, exWhole]
      rcases this with rfl | rfl <;> simp)).1)
    ex_systematicSearch ex_unrounded (fun u hu r hr => hx u r hu (List.mem_append_left _ hr))
    (fun u hu r hr => by
      obtain ⟨t, w, t1, t2, t3, t4⟩ := hx u r hu (List.mem_append_right _ hr)
      exact ⟨t, w, t1, t2, .inr ⟨[], 2, rfl, by simp, t3⟩, t4⟩) fun u _ => hG u⟩

/-! ### data made with systematic parameters -/

namespace Ex

/-- Light yields smear, resolutions leave everything in its bin (except in the last one). -/
def resolutionEnv : FitEnv := { fitEnv with smearRes := fun _ => narrow }

/-- The state with data of 10 and 5 in the region from 1 to 2. -/
noncomputable def resolutionState : FitState := { fitState with
  objs := fun r => if r = 0 then { fitObj 0 with data := four 8 (19 / 2) 10 5 } else fitObj r }

/-- Contents of the region of data and fixed background. -/
def resolutionContents (r : ℕ) : NdArray ℚ := ⟨[2], fun idx => match r, idx with
  | 0, [0] => 10
  | 0, [1] => 5
  | 1, [0] => 1
  | 1, [1] => 1
  | _, _ => 0⟩

/-- Contents of the floating backgrounds and the signal at a resolution (10) or a light yield (20). -/
noncomputable def smearedContents (u : List ℝ) (r : ℕ) : NdArray ℚ := ⟨[2], fun idx => match r, idx with
  | 2, [0] => if u.head? = some 20 then 7 else 3
  | 3, [0] => if u.head? = some 20 then 3 else 2
  | 4, [0] => 1
  | _, _ => 0⟩

/-- Resolution 10 or light yield 20, and values of the two rates. -/
def resolutionValues : List (List ℝ) := [[10, 20], [8, 10], [7, 5, 3]]

/-- A search over these values. -/
def resolutionSearch : GridSearch :=
  GridSearch.new [gridPar (lit "global") (some 2) [10, 20], gridPar (lit "rate") (some 2) [8, 10],
    gridPar (lit "rate") none [7, 5, 3]] [4] (some (lit "fit")) false

end Ex

theorem resolution_given : Ex.systematicArgs.Given
    [(((Ex.resolutionState.view 1).shrink exFitKw).st.scale 20).st] Ex.resolutionState where
  region := (exWhole_given []).region
  some := by simp [Ex.systematicArgs, exWhole]
  alloc := (exWhole_given []).alloc
  own := by
    show (([0, 4, 2, 3] ++ [1]).map (fun r => (Ex.resolutionState.objs r).cfg)).Nodup
    decide
  able := by
    intro r hr
    have : r = 0 ∨ r = 4 ∨ r = 2 ∨ r = 3 ∨ r = 1 := by
      simpa [FitArgs.kept, Ex.systematicArgs, exWhole] using hr
    have h := (exWhole_given []).able r hr
    rcases this with rfl | rfl | rfl | rfl | rfl
    · exact ⟨⟨h.wf.axes, h.wf.names, h.wf.shape⟩, h.aligned, h.dims, h.edges, h.has⟩
    all_goals exact ⟨⟨h.wf.axes, h.wf.names, h.wf.shape⟩, h.aligned, h.dims, h.edges, h.has⟩
  fixed := by
    have h := (exWhole_given []).fixed
    refine ⟨h.alloc, h.own, h.region, h.dims, h.names, ?_, h.axes⟩
    refine .cons ⟨exFitKw, ?_, by decide +kernel, rfl, by decide +kernel⟩ .nil
    show AsksRoi [Ex.fitAxis] (inOrder [(lit "energy", ((2 : ℚ), (1 : ℚ)))]) exFitKw
    rw [exInit_roi]
    exact exFit_asks

theorem resolution_evaluable :
    Ex.systematicArgs.Evaluable Ex.resolutionEnv Ex.keyOf 0 Ex.resolutionState := by
  have h := exWhole_evaluable (config := [(lit "global", (2, true))]) (.inr rfl)
  refine ⟨rfl, h.str, rfl, h.backgrounds, fun _ _ => rfl, h.dims, ?_, h.names, h.pars, h.globals,
    h.rates⟩
  intro r hr
  have : r = 2 ∨ r = 3 ∨ r = 4 := by simpa [Ex.systematicArgs, exWhole] using hr
  rcases this with rfl | rfl | rfl <;> simp [FitState.view, Ex.resolutionState, Ex.fitObj]

theorem resolution_search : SystematicSearch Ex.toInt Ex.resolutionSearch Ex.resolutionValues
    Ex.systematicArgs.globalPars.length Ex.systematicArgs.floating.length where
  ready := ⟨rfl, rfl⟩
  form := rfl
  values := .cons rfl (.cons rfl (.cons rfl .nil))
  counts := .cons ⟨rfl, by simp⟩ (.cons ⟨rfl, by simp⟩ (.cons ⟨rfl, by simp⟩ .nil))
  number := rfl
  nodup := by
    intro vs hvs
    have : vs = [10, 20] ∨ vs = [8, 10] ∨ vs = [7, 5, 3] := by
      simpa [Ex.resolutionValues] using hvs
    rcases this with rfl | rfl | rfl <;> norm_num
  nonzero := by
    intro vs hvs x hx
    have : vs = [8, 10] ∨ vs = [7, 5, 3] := by
      have : vs ∈ ([[8, 10], [7, 5, 3]] : List (List ℝ)) := hvs
      simpa using this
    rcases this with rfl | rfl
    · have hx : x = 8 ∨ x = 10 := by simpa using hx
      rcases hx with rfl | rfl <;> simp [Ex.toInt]
    · have hx : x = 7 ∨ x = 5 ∨ x = 3 := by simpa using hx
      rcases hx with rfl | rfl | rfl <;> simp [Ex.toInt]
  sigmas := by
    intro q hq
    have : q = Ex.gridPar (lit "global") (some 2) [10, 20] ∨
        q = Ex.gridPar (lit "rate") (some 2) [8, 10] ∨
        q = Ex.gridPar (lit "rate") none [7, 5, 3] := by
      simpa [Ex.resolutionSearch, GridSearch.new] using hq
    rcases this with rfl | rfl | rfl <;> simp [Ex.gridPar]

theorem resolution_comb {u : List ℝ} (hu : Combination Ex.resolutionValues u) :
    ∃ v p q, u = [v, p, q] ∧ (v = 10 ∨ v = 20) ∧ (p = 8 ∨ p = 10) ∧ (q = 7 ∨ q = 5 ∨ q = 3) := by
  obtain ⟨v, l, hv, hl, rfl⟩ := List.forall₂_cons_right_iff.1 hu
  obtain ⟨p, l', hp, hl', rfl⟩ := List.forall₂_cons_right_iff.1 hl
  obtain ⟨q, l'', hq, hl'', rfl⟩ := List.forall₂_cons_right_iff.1 hl'
  cases hl''
  exact ⟨v, p, q, rfl, by simpa using hv, by simpa using hp, by simpa using hq⟩

theorem resolution_applied (v : ℚ) (hv : v = 10 ∨ v = 20) {r : ℕ} (hr : r = 2 ∨ r = 3 ∨ r = 4)
    {x : List ℚ} (hx : x = if v = 20 then (if r = 2 then [7, 0] else if r = 3 then [3, 0] else [1, 0])
      else (if r = 2 then [3, 0] else if r = 3 then [2, 0] else [1, 0])) :
    ∃ t, AppliedTo Ex.resolutionEnv .resolution (some (lit "energy_mc")) v
        ((Ex.resolutionState.view r).shrink exFitKw).st.norm t ∧
      (allIdx [2]).map (fun i => t.data.get i) = x := by
  have key : ∀ r ∈ [2, 3, 4], ∀ v ∈ [(10 : ℚ), 20],
      (convolve Ex.resolutionEnv .resolution (some (lit "energy_mc")) v
        ((Ex.resolutionState.view r).shrink exFitKw).st.norm).map
          (fun t => (allIdx [2]).map (fun i => t.data.get i)) =
        .ok (if v = 20 then (if r = 2 then [7, 0] else if r = 3 then [3, 0] else [1, 0])
          else (if r = 2 then [3, 0] else if r = 3 then [2, 0] else [1, 0])) := by
    decide +kernel
  have := key r (by simpa using hr) v (by simpa using hv)
  rw [← hx] at this
  cases h : convolve Ex.resolutionEnv .resolution (some (lit "energy_mc")) v
        ((Ex.resolutionState.view r).shrink exFitKw).st.norm with
  | error e => rw [h] at this; cases this
  | ok t =>
    rw [h] at this
    exact ⟨t, appliedTo_iff.2 h, Except.ok.inj this⟩

theorem resolution_contents : ∀ r ∈ (0 : ℕ) :: Ex.systematicArgs.fixed.map Prod.fst,
    RegionContents (inOrder exWhole.roi) [lit "energy_mc"] (Ex.resolutionState.view r)
      (Ex.resolutionContents r) := by
  intro r hr
  have : r = 0 ∨ r = 1 := by simpa [Ex.systematicArgs, exWhole] using hr
  have key : ∀ r < 2, ((Ex.resolutionState.view r).shrink exFitKw).err = none ∧
      pick [lit "energy_mc"] (((Ex.resolutionState.view r).shrink exFitKw).st.cfg.map SPar.name)
        ((Ex.resolutionState.view r).shrink exFitKw).st.data.shape = [2] ∧
      ∀ idx ∈ allIdx [2], (Ex.resolutionContents r).get idx =
        sumIdx ((Ex.resolutionState.view r).shrink exFitKw).st.data.shape (fun full =>
          if pick [lit "energy_mc"] (((Ex.resolutionState.view r).shrink exFitKw).st.cfg.map SPar.name)
            full = idx then ((Ex.resolutionState.view r).shrink exFitKw).st.data.get full else 0) := by
    decide +kernel
  obtain ⟨k1, k2, k3⟩ := key r (by omega)
  refine ⟨((Ex.resolutionState.view r).shrink exFitKw).st, ⟨exFitKw, ?_, k1,
    ⟨⟨rfl, rfl, rfl, rfl, rfl⟩, rfl, fun _ _ => rfl⟩⟩, k2.symm, fun idx hi => ?_⟩
  · show AsksRoi [Ex.fitAxis] (inOrder [(lit "energy", ((2 : ℚ), (1 : ℚ)))]) exFitKw
    rw [exInit_roi]
    exact exFit_asks
  · exact k3 idx (mem_allIdx.2 hi)

theorem resolution_smeared {u : List ℝ} (hu : Combination Ex.resolutionValues u) {r : ℕ}
    (hr : r = 2 ∨ r = 3 ∨ r = 4) :
    SystematicContents Ex.resolutionEnv Ex.resolutionState (inOrder exWhole.roi) [lit "energy_mc"]
      Ex.systematicArgs.globalPars (Ex.systematicArgs.globalPars.zip (u.map Ex.toInt))
      (Ex.resolutionState.view r) (Ex.smearedContents u r) := by
  obtain ⟨v, p, q, rfl, hv, -, -⟩ := resolution_comb hu
  have hv' : Ex.toInt v = 10 ∨ Ex.toInt v = 20 := by
    rcases hv with rfl | rfl <;> simp [Ex.toInt]
  obtain ⟨t, ht, hd⟩ := resolution_applied (Ex.toInt v) hv' hr rfl
  have hal := convolve_alike (appliedTo_iff.1 ht)
  have key : ∀ r < 5, ((Ex.resolutionState.view r).shrink exFitKw).err = none ∧
      ((Ex.resolutionState.view r).shrink exFitKw).st.norm.data.shape = [2] ∧
      ((Ex.resolutionState.view r).shrink exFitKw).st.norm.cfg.map SPar.name = [lit "energy_mc"] := by
    decide +kernel
  obtain ⟨k1, k2, k3⟩ := key r (by omega)
  have k4 : t.data.norm.shape = [2] := hal.shape.trans k2
  have k5 : t.cfg.map SPar.name = [lit "energy_mc"] := by rw [hal.cfg]; exact k3
  refine ⟨((Ex.resolutionState.view r).shrink exFitKw).st.norm, { t with data := t.data.norm },
    ⟨exFitKw, ?_, k1, ⟨rfl, rfl, rfl, rfl, rfl⟩, rfl, fun _ hi => (NdArray.norm_get hi).symm⟩,
    NdArray.norm_norm _, .cons 2 (Ex.toInt v) [] _ t _ List.mem_cons_self ht (.nil _), ?_, ?_⟩
  · show AsksRoi [Ex.fitAxis] (inOrder [(lit "energy", ((2 : ℚ), (1 : ℚ)))]) exFitKw
    rw [exInit_roi]
    exact exFit_asks
  · show [2] = pick _ (t.cfg.map SPar.name) t.data.norm.shape
    rw [k4, k5]; rfl
  · intro idx hi
    show _ = sumIdx t.data.norm.shape fun full =>
      if pick [lit "energy_mc"] (t.cfg.map SPar.name) full = idx then t.data.norm.get full else 0
    have hi : InB [2] idx := hi
    rw [k4, k5]
    have e : ∀ f : List ℕ → ℚ, sumIdx [2] f = f [0] + f [1] := fun f => by
      simp [sumIdx, Finset.sum_range_succ]
    have g : ∀ i, InB [2] i → t.data.norm.get i = t.data.get i := fun i hi =>
      NdArray.norm_get (by rw [show t.data.shape = [2] from hal.shape.trans k2]; exact hi)
    have g0 := g [0] (.cons (by decide) .nil)
    have g1 := g [1] (.cons (by decide) .nil)
    have hd : [t.data.get [0], t.data.get [1]] = _ := hd
    have hm : idx = [0] ∨ idx = [1] := by
      have := mem_allIdx.2 hi
      simpa [allIdx, List.range_succ] using this
    rw [e, g0, g1]
    rcases hv with rfl | rfl <;> rcases hr with rfl | rfl | rfl <;>
      simp [Ex.toInt] at hd <;> rcases hm with rfl | rfl <;>
      simp [Ex.smearedContents, pick, hd]

theorem resolution_expected {v p q : ℝ} (hv : v = 10 ∨ v = 20) (hp : p = 8 ∨ p = 10)
    (hq : q = 7 ∨ q = 5 ∨ q = 3) :
    comparedContents false (Ex.systematicArgs.systematicAt Ex.resolutionState Ex.resolutionContents
      (Ex.smearedContents [v, p, q]) [2] (([v, p, q].map Ex.toInt).drop 1)) =
    [if v = 20 then 6 + 7 / 10 * p + 3 / 10 * q else 6 + 3 / 10 * p + 2 / 10 * q, 5] := by
  have e : ∀ a : NdArray ℚ, a.shape = [2] → comparedContents false a =
      [((a.get [0] : ℚ) : ℝ), ((a.get [1] : ℚ) : ℝ)] := fun a ha => by
    unfold comparedContents
    rw [ha]
    rfl
  have d1 : (Ex.resolutionState.view 1).numDecays = 4 := rfl
  have d2 : (Ex.resolutionState.view 2).numDecays = 10 := rfl
  have d3 : (Ex.resolutionState.view 3).numDecays = 10 := rfl
  rw [e _ rfl]
  rcases hv with rfl | rfl <;> rcases hp with rfl | rfl <;> rcases hq with rfl | rfl | rfl <;>
    simp [FitArgs.systematicAt, Ex.systematicArgs, exWhole, Ex.resolutionContents,
      Ex.smearedContents, Ex.toInt, d1, d2, d3] <;> norm_num

/-- The fit finds resolution 10, and rates 10 and 5. -/
example : ∃ ses st' g' raw pen, init Ex.keyOf Ex.systematicArgs Ex.resolutionState = (st', .ok ses) ∧
    (ses.fit (fun f => fitGrid Ex.resolutionEnv f Ex.toInt Ex.resolutionSearch) st').2 =
      .ok (.inr (g', raw, pen)) ∧
    g'.pars.map FitPar.bestFit = ([10, 10, 5] : List ℝ).map some ∧
    (Ex.systematicArgs.stat ≠ .extLL → raw.ravel = [0]) ∧ pen.ravel = [0] := by
  have h0 : Combination Ex.resolutionValues [10, 10, 5] :=
    .cons (by simp) (.cons (by simp) (.cons (by simp) .nil))
  have hE : ∀ {v p q : ℝ}, (v = 10 ∨ v = 20) → (p = 8 ∨ p = 10) → (q = 7 ∨ q = 5 ∨ q = 3) →
      comparedContents Ex.systematicArgs.singleBin (Ex.systematicArgs.systematicAt Ex.resolutionState
        Ex.resolutionContents (Ex.smearedContents [v, p, q]) (Ex.resolutionContents 0).shape
        (([v, p, q].map Ex.toInt).drop Ex.systematicArgs.globalPars.length)) =
      [if v = 20 then 6 + 7 / 10 * p + 3 / 10 * q else 6 + 3 / 10 * p + 2 / 10 * q, 5] :=
    fun hv hp hq => resolution_expected hv hp hq
  refine c156_recovers_partial resolution_given resolution_evaluable
    { floating := fun _ => .inl (by simp [Ex.systematicArgs])
      fixed := (fun h => by cases h)
      dimension := by simp [Ex.systematicArgs, Ex.resolutionState, Ex.fitState, Ex.fitParam]
      perBin := by simp [Ex.systematicArgs, exWhole] }
    ⟨ex_systematic.floating, ex_systematic.global, ?_, ex_systematic.sigmas,
      rfl, rfl⟩ (by simp [Ex.systematicArgs, exWhole])
    (by simp [FitState.view, Ex.resolutionState, Ex.fitState, Ex.systematicArgs, exWhole]) made_names
    resolution_contents resolution_search ?_
    (fun u hu r hr => resolution_smeared hu (by
      have : r = 2 ∨ r = 3 := by simpa [Ex.systematicArgs, exWhole] using hr
      tauto))
    (fun u hu r hr => by
      obtain ⟨t, w, t1, t2, t3, t4⟩ := resolution_smeared hu (r := r) (by
        have : r = 4 := by simpa [Ex.systematicArgs, exWhole, eq_comm] using hr
        tauto)
      exact ⟨t, w, t1, t2, .inr ⟨[], 2, rfl, by simp, t3⟩, t4⟩)
    (e := fun u => comparedContents Ex.systematicArgs.singleBin (Ex.systematicArgs.systematicAt
      Ex.resolutionState Ex.resolutionContents (Ex.smearedContents u) (Ex.resolutionContents 0).shape
      ((u.map Ex.toInt).drop Ex.systematicArgs.globalPars.length)))
    (fun u _ => rfl) ?_ [10, 10, 5] h0 ?_ ?_ ?_
  · intro r hr
    have : r = 2 ∨ r = 3 := by simpa [Ex.systematicArgs, exWhole] using hr
    rcases this with rfl | rfl
    · exact ⟨0, rfl⟩
    · exact ⟨1, rfl⟩
  · intro vs hvs x hx
    have : vs = [10, 20] ∨ vs = [8, 10] ∨ vs = [7, 5, 3] := by
      simpa [Ex.resolutionValues] using hvs
    rcases this with rfl | rfl | rfl
    · have hx : x = 10 ∨ x = 20 := by simpa using hx
      rcases hx with rfl | rfl <;> simp [Ex.toInt]
    · have hx : x = 8 ∨ x = 10 := by simpa using hx
      rcases hx with rfl | rfl <;> simp [Ex.toInt]
    · have hx : x = 7 ∨ x = 5 ∨ x = 3 := by simpa using hx
      rcases hx with rfl | rfl | rfl <;> simp [Ex.toInt]
  · intro u hu y hy
    obtain ⟨v, p, q, rfl, hv, hp, hq⟩ := resolution_comb hu
    rw [hE hv hp hq] at hy
    have hz : zeroThreshold ≤ 5 := by unfold zeroThreshold; norm_num
    rcases List.mem_cons.1 hy with rfl | hy
    · rcases hp with rfl | rfl <;> rcases hq with rfl | rfl | rfl <;> split <;> linarith
    · rw [List.mem_singleton.1 hy]; exact hz
  · rw [hE (.inl rfl) (.inr rfl) (.inr (.inl rfl))]
    show [(((10 : ℚ)) : ℝ), ((5 : ℚ) : ℝ)] = _
    norm_num
  · show List.Forall₂ _ [2, 0, 1] _
    refine .cons ?_ (.cons ?_ (.cons ?_ .nil)) <;>
      simp [Ex.resolutionState, Ex.fitState, Ex.fitParam]
  · intro u hu he hpr
    obtain ⟨v, p, q, rfl, hv, hp, hq⟩ := resolution_comb hu
    rw [hE hv hp hq, hE (.inl rfl) (.inr rfl) (.inr (.inl rfl))] at he
    have he := (List.cons.inj he).1
    rcases hv with rfl | rfl <;> rcases hp with rfl | rfl <;> rcases hq with rfl | rfl | rfl <;>
      first
      | rfl
      | (exfalso; norm_num at he)

end Verif
