import Verif.Lemmas.RecoverCore

/-! # C144: a fit made from its arguments recovers the rates the data have been made of -/

namespace Verif

open Session

variable {env : FitEnv} {keyOf : ℕ → PyStr} {a : FitArgs} {ts : List Spectrum} {d : ℕ} {st : FitState}
  {rnd : ℝ → ℚ} {g : GridSearch} {vss : List (List ℝ)}

theorem ratesOnly_parameters (h : a.OwnRates st) {par : ℕ → ℕ}
    (hp : ∀ r ∈ a.floating, (st.objs r).fit = some [par r]) :
    a.parameters st = a.floating.map par := by
  unfold FitArgs.parameters FitArgs.ownPars
  rw [h.config, List.map_nil, List.nil_append]
  clear h
  generalize a.floating = l at hp
  induction l with
  | nil => rfl
  | cons r l ih =>
    rw [List.flatMap_cons, hp r (by simp), List.map_cons, ih fun r hr => hp r (by simp [hr])]
    rfl

/-- **C144.** A fit is made from data, floating backgrounds with one rate each, and perhaps fixed
backgrounds and a signal. In the region the data are the sum of the given spectra with the floating
backgrounds scaled to `w₀`, one value of the grid for each rate; the expected contents are at or
above the threshold on the whole grid; the values of rates with a sigma are their priors; and in the
region the floating backgrounds are linearly independent. Then the constructor accepts its
arguments, and the first `fit()` finds exactly `w₀`, with statistic zero (except the extended
likelihood) and penalty zero. (Partial: the suppositions of C62 and C99; at most one axis is
projected out, see C11.) -/
theorem c144_region_partial (hg : a.Given ts st) (he : a.Evaluable env keyOf d st)
    (hs : a.Settings st) (hr : a.RatesOnly st) (hsearch : RateSearch rnd g vss a.floating.length)
    (hl : (st.view d).cfg.length ≤ a.roi.length + 1) {ns : List PyStr}
    (hns : RoiNames (st.view d).cfg (inOrder a.roi) ns) {c : ℕ → NdArray ℚ}
    (hc : ∀ r ∈ a.kept ++ a.fixed.map Prod.fst, RegionContents (inOrder a.roi) ns (st.view r) (c r))
    (w₀ : List ℝ) (hw₀ : Combination vss w₀)
    (htruth : ∀ idx, InB (c d).shape idx → (c d).get idx = a.sumAt st (w₀.map rnd) c idx)
    (hcount : ∀ w, Combination vss w → ∀ idx, InB (c d).shape idx →
      zeroThreshold ≤ ((a.sumAt st (w.map rnd) c idx : ℚ) : ℝ))
    (hprior : List.Forall₂ (fun p v => (st.params p).sigma ≠ none →
      ((v : ℚ) : ℝ) = (st.params p).prior) (a.parameters st) (w₀.map rnd))
    (hind : Independent (c d).shape (a.floating.map c)) :
    ∃ ses st' result, init keyOf a st = (st', .ok ses) ∧
      (ses.fit (fun f => fitGrid env f rnd g) st').2 = .ok (.inr result) ∧
      FoundExactly a.stat w₀ result := by
  have hreg := inOrder_isDict hg.region
  have hdk : d ∈ a.kept := by simp [FitArgs.kept, he.data]
  obtain ⟨ses, st', n1, i1, i2, i3⟩ := c137_fit_partial hg he hr.floating hs
  obtain ⟨ses₂, st₂, n2, j1, -, j2, j3, j4⟩ := c137_ready_partial hg he hr.floating
  obtain ⟨ses₃, st₃, n3, k1, k2, c', k3, k4⟩ := c137_contents_partial hg he hr.floating
    (by rw [hr.config]; simp) hl
  rw [i1] at j1 k1
  cases j1
  cases k1
  have hdims := (hg.able d (List.mem_append_left _ hdk)).dims
  obtain rfl : n1 = ns := roiNames_unique hdims hns i2
  obtain rfl : n2 = n1 := roiNames_unique hdims i2 j2
  obtain rfl : n3 = n2 := roiNames_unique hdims i2 k2
  have hmade := made_init keyOf a st
  rw [i1] at hmade
  have hpar := hmade.params
  dsimp only at hpar
  -- the contents are those of the fit
  have hcc : ∀ r ∈ a.kept ++ a.fixed.map Prod.fst, (c' r).shape = (c r).shape ∧
      ∀ idx, InB (c r).shape idx → (c' r).get idx = (c r).get idx := fun r hm =>
    regionContents_unique hreg (hg.able r hm) (hc r hm) (k3 r hm).1
  have hcd := hcc d (List.mem_append_left _ hdk)
  have hshape : ∀ r ∈ a.kept ++ a.fixed.map Prod.fst, (c r).shape = (c d).shape := fun r hm => by
    rw [← (hcc r hm).1, (k3 r hm).2, hcd.1]
  have hget : ∀ r ∈ a.kept ++ a.fixed.map Prod.fst, ∀ idx, InB (c d).shape idx →
      (c' r).get idx = (c r).get idx := fun r hm idx hi =>
    (hcc r hm).2 idx (by rw [hshape r hm]; exact hi)
  -- parameters
  have hone : ∀ r, ∃ p, r ∈ a.floating → (st.objs r).fit = some [p] := fun r => by
    by_cases hm : r ∈ a.floating
    · obtain ⟨p, hp⟩ := hr.one r hm
      exact ⟨p, fun _ => hp⟩
    · exact ⟨0, fun h => absurd h hm⟩
  choose par hp using hone
  have hpars := ratesOnly_parameters hr.toOwnRates hp
  have hfn : a.floating.Nodup := by
    have := he.pars
    rw [hpars] at this
    exact this.of_map _
  have len : ∀ w, Combination vss w → (w.map rnd).length = a.floating.length := fun w hw => by
    rw [List.length_map, hw.length_eq, hsearch.number]
  have len' : ∀ w, Combination vss w → (w.map rnd).length = (a.parameters st).length := fun w hw => by
    rw [len w hw, hpars, List.length_map]
  rw [j3] at j4 k4
  generalize hf : a.read st d ses.fixed n3 = f at j4 k4 i3
  have f1 : f.pars = a.parameters st := by rw [← hf]; rfl
  have f2 : f.stat = a.stat := by rw [← hf]; rfl
  have f3 : f.statPerBin = false := by rw [← hf]; exact hr.statPerBin
  have f4 : f.perBin = false := by rw [← hf]; exact hr.perBin
  have f5 : f.singleBin = false := by rw [← hf]; exact hr.singleBin
  obtain ⟨fl, f6⟩ : ∃ fl, f.floating = some fl := ⟨_, by rw [← hf]; rfl⟩
  have hsig : ∀ p ∈ f.pars, (st'.params p).sigma ≠ some 0 := fun p hm => by
    rw [hpar]; exact hr.sigmas p (f1 ▸ hm)
  -- contents on the grid
  have hev : ∀ w, Combination vss w → ∃ e, evaluatedContents env f (w.map rnd) st' = .ok (c' d, some e) ∧
      e.shape = (c d).shape ∧ ∀ idx, InB (c d).shape idx → e.get idx = a.sumAt st (w.map rnd) c idx := by
    intro w hw
    obtain ⟨rate, hrate⟩ := exists_map_eq hfn (len w hw)
    obtain ⟨e, e1, e2, e3⟩ := k4 [] (by simp) (w.map rnd) (len' w hw) rate fun r hm => by
      refine ⟨par r, hp r hm, ?_⟩
      rw [hpars, ← hrate, List.zip_map', List.mem_map]
      exact ⟨r, hm, rfl⟩
    refine ⟨e, e1, e2.trans hcd.1, fun idx hi => ?_⟩
    rw [e3 idx (by rw [hcd.1]; exact hi)]
    unfold FitArgs.sumAt
    rw [← hrate, List.zipWith_map_right, List.zipWith_self]
    congr 1
    · congr 1
      · congr 1
        refine List.map_congr_left fun x hx => ?_
        rw [hget _ (List.mem_append_right _ (List.mem_map_of_mem hx)) idx hi]
      · congr 1
        refine List.map_congr_left fun r hm => ?_
        rw [hget _ (by simp only [FitArgs.kept, List.mem_append]; tauto) idx hi]
    · congr 1
      refine List.map_congr_left fun r hm => ?_
      rw [hget _ (by simp only [FitArgs.kept, List.mem_append]; tauto) idx hi]
  obtain ⟨result, h1, h2⟩ := recovers_core (fl := a.floating) (n := fun r => (st.view r).numDecays) (cc := c)
    (base := fun idx => (a.fixed.map (fun e => e.2 / (st.view e.1).numDecays * (c e.1).get idx)).sum +
      (a.signal.toList.map (fun r => (c r).get idx)).sum) j4 hsearch hr.floating
    (by rw [f1, hpars, List.length_map]) f3 f4 f5 f6 (by rw [f2]; exact hr.stat) hsig hcd.1
    (fun w hw => by
      obtain ⟨e, e1, e2, e3⟩ := hev w hw
      exact ⟨e, e1, e2, fun idx hi => by rw [e3 idx hi, sumAt_base]⟩) w₀ hw₀
    (fun idx hi => by
      rw [hget d (List.mem_append_left _ hdk) idx hi, htruth idx hi, sumAt_base])
    (fun w hw idx hi => by
      have := hcount w hw idx hi
      rw [sumAt_base] at this
      exact this)
    (by
      rw [f1]
      refine hprior.imp fun p v h => ?_
      rw [hpar]
      exact h)
    (fun r hm => he.decays r (List.mem_append_left _ hm)) hind
  refine ⟨ses, st', result, i1, ?_, by rw [← f2]; exact h2⟩
  rw [i3, show (fitGrid env f rnd g st').2 = .ok result from h1]
  rfl

/-- **C144, whole spectra.** The same when the data are this sum in every bin of their whole range,
inside and outside the region. (Partial: as before.) -/
theorem c144_recovers_partial (hg : a.Given ts st) (he : a.Evaluable env keyOf d st)
    (hs : a.Settings st) (hr : a.RatesOnly st) (hsearch : RateSearch rnd g vss a.floating.length)
    (hl : (st.view d).cfg.length ≤ a.roi.length + 1) {ns : List PyStr}
    (hns : RoiNames (st.view d).cfg (inOrder a.roi) ns) {c : ℕ → NdArray ℚ}
    (hc : ∀ r ∈ a.kept ++ a.fixed.map Prod.fst, RegionContents (inOrder a.roi) ns (st.view r) (c r))
    (w₀ : List ℝ) (hw₀ : Combination vss w₀)
    (htruth : ∀ idx, InB (st.view d).data.shape idx →
      (st.view d).data.get idx = a.sumAt st (w₀.map rnd) (fun r => (st.view r).data) idx)
    (hcount : ∀ w, Combination vss w → ∀ idx, InB (c d).shape idx →
      zeroThreshold ≤ ((a.sumAt st (w.map rnd) c idx : ℚ) : ℝ))
    (hprior : List.Forall₂ (fun p v => (st.params p).sigma ≠ none →
      ((v : ℚ) : ℝ) = (st.params p).prior) (a.parameters st) (w₀.map rnd))
    (hind : Independent (c d).shape (a.floating.map c)) :
    ∃ ses st' result, init keyOf a st = (st', .ok ses) ∧
      (ses.fit (fun f => fitGrid env f rnd g) st').2 = .ok (.inr result) ∧
      FoundExactly a.stat w₀ result := by
  refine c144_region_partial hg he hs hr hsearch hl hns hc w₀ hw₀ (fun idx hi => ?_) hcount hprior hind
  have hdk : d ∈ a.kept := by simp [FitArgs.kept, he.data]
  rw [sumAt_terms]
  refine regionContents_linear (inOrder_isDict hg.region) (s := st.view) (ns := ns)
    (fun r hm => ?_) (fun full hf => by rw [htruth full hf, sumAt_terms]) hi
  rcases List.mem_cons.1 hm with rfl | hm
  · have hm := List.mem_append_left (a.fixed.map Prod.fst) hdk
    exact ⟨hg.able _ hm, rfl, hc _ hm⟩
  · obtain ⟨e, he', rfl⟩ := List.mem_map.1 hm
    have h1 := sumTerms_mem he'
    have h2 : e.2 ∈ a.kept ++ a.fixed.map Prod.fst := by
      simp only [FitArgs.kept, List.mem_append] at h1 ⊢; tauto
    exact ⟨hg.able _ h2, he.axes _ h1, hc _ h2⟩

/-! ### a case that meets the hypotheses -/

namespace Ex

/-- The state of the examples, with data that are the sum of the other spectra: the fixed background
scaled to 20 decays, the floating ones scaled to 10 and 5 decays, and the signal. -/
noncomputable def madeState : FitState := { fitState with
  objs := fun r => if r = 0 then { fitObj 0 with data := four 8 (19 / 2) 10 (19 / 2) } else fitObj r }

/-- Contents of the region from 1 to 2. -/
def madeContents (r : ℕ) : NdArray ℚ := ⟨[2], fun idx => match r, idx with
  | 0, [0] => 10
  | 0, [1] => 19 / 2
  | 1, [0] => 1
  | 1, [1] => 1
  | 2, [0] => 3
  | 2, [1] => 4
  | 3, [0] => 2
  | 3, [1] => 1
  | 4, [0] => 1
  | _, _ => 0⟩

end Ex

theorem made_given : exWhole.Given
    [(((Ex.madeState.view 1).shrink exFitKw).st.scale 20).st] Ex.madeState where
  region := (exWhole_given []).region
  some := by simp [exWhole]
  alloc := (exWhole_given []).alloc
  own := by
    show (([0, 4, 2, 3] ++ [1]).map (fun r => (Ex.madeState.objs r).cfg)).Nodup
    decide
  able := by
    intro r hr
    have : r = 0 ∨ r = 4 ∨ r = 2 ∨ r = 3 ∨ r = 1 := by simpa [FitArgs.kept, exWhole] using hr
    have h := (exWhole_given []).able r hr
    rcases this with rfl | rfl | rfl | rfl | rfl
    · exact ⟨⟨h.wf.axes, h.wf.names, h.wf.shape⟩, h.aligned, h.dims, h.edges, h.has⟩
    all_goals exact ⟨⟨h.wf.axes, h.wf.names, h.wf.shape⟩, h.aligned, h.dims, h.edges, h.has⟩
  fixed := by
    have h := (exWhole_given []).fixed
    refine ⟨h.alloc, h.own, h.region, h.dims, h.names, ?_, h.axes⟩
    refine .cons ⟨exFitKw, ?_, by decide +kernel, rfl, by decide +kernel⟩ .nil
    show AsksRoi [Ex.fitAxis] (inOrder [(lit "energy", ((2 : ℚ), (1 : ℚ)))]) exFitKw
    rw [exInit_roi]
    exact exFit_asks

theorem made_evaluable : exWhole.Evaluable Ex.fitEnv Ex.keyOf 0 Ex.madeState := by
  have h := exWhole_evaluable (config := []) (.inl rfl)
  refine ⟨rfl, h.str, rfl, h.backgrounds, fun _ _ => rfl, h.dims, ?_, h.names, h.pars, h.globals,
    h.rates⟩
  intro r hr
  have : r = 2 ∨ r = 3 ∨ r = 4 := by simpa [exWhole] using hr
  rcases this with rfl | rfl | rfl <;> simp [FitState.view, Ex.madeState, Ex.fitObj]

theorem made_contents : ∀ r ∈ exWhole.kept ++ exWhole.fixed.map Prod.fst,
    RegionContents (inOrder exWhole.roi) [lit "energy_mc"] (Ex.madeState.view r) (Ex.madeContents r) := by
  intro r hr
  have : r = 0 ∨ r = 4 ∨ r = 2 ∨ r = 3 ∨ r = 1 := by simpa [FitArgs.kept, exWhole] using hr
  have key : ∀ r < 5, ((Ex.madeState.view r).shrink exFitKw).err = none ∧
      pick [lit "energy_mc"] (((Ex.madeState.view r).shrink exFitKw).st.cfg.map SPar.name)
        ((Ex.madeState.view r).shrink exFitKw).st.data.shape = [2] ∧
      ∀ idx ∈ allIdx [2], (Ex.madeContents r).get idx =
        sumIdx ((Ex.madeState.view r).shrink exFitKw).st.data.shape (fun full =>
          if pick [lit "energy_mc"] (((Ex.madeState.view r).shrink exFitKw).st.cfg.map SPar.name) full =
            idx then ((Ex.madeState.view r).shrink exFitKw).st.data.get full else 0) := by
    decide +kernel
  obtain ⟨k1, k2, k3⟩ := key r (by omega)
  refine ⟨((Ex.madeState.view r).shrink exFitKw).st, ⟨exFitKw, ?_, k1,
    ⟨⟨rfl, rfl, rfl, rfl, rfl⟩, rfl, fun _ _ => rfl⟩⟩, k2.symm, fun idx hi => ?_⟩
  · show AsksRoi [Ex.fitAxis] (inOrder [(lit "energy", ((2 : ℚ), (1 : ℚ)))]) exFitKw
    rw [exInit_roi]
    exact exFit_asks
  · exact k3 idx (mem_allIdx.2 hi)

theorem made_ratesOnly : exWhole.RatesOnly Ex.madeState where
  floating := by simp [exWhole]
  config := rfl
  one := by
    intro r hr
    have : r = 2 ∨ r = 3 := by simpa [exWhole] using hr
    rcases this with rfl | rfl
    · exact ⟨0, rfl⟩
    · exact ⟨1, rfl⟩
  sigmas := by
    intro p hp
    have : p = 0 ∨ p = 1 := by
      have : p ∈ [0, 1] := hp
      simpa using this
    rcases this with rfl | rfl <;> simp [Ex.madeState, Ex.fitState, Ex.fitParam]
  statPerBin := rfl
  perBin := rfl
  singleBin := rfl
  stat := by simp [exWhole]

theorem made_search : RateSearch Ex.toInt Ex.closedSearch Ex.closedValues exWhole.floating.length where
  ready := ⟨rfl, rfl⟩
  form := rfl
  values := .cons rfl (.cons rfl .nil)
  counts := .cons ⟨rfl, by simp⟩ (.cons ⟨rfl, by simp⟩ .nil)
  number := rfl
  nodup := by
    intro vs hvs
    have : vs = [8, 10] ∨ vs = [7, 5, 3] := by simpa [Ex.closedValues] using hvs
    rcases this with rfl | rfl <;> norm_num
  injective := by
    intro vs hvs x hx y hy
    have : vs = [8, 10] ∨ vs = [7, 5, 3] := by simpa [Ex.closedValues] using hvs
    rcases this with rfl | rfl
    · have hx : x = 8 ∨ x = 10 := by simpa using hx
      have hy : y = 8 ∨ y = 10 := by simpa using hy
      rcases hx with rfl | rfl <;> rcases hy with rfl | rfl <;> simp [Ex.toInt]
    · have hx : x = 7 ∨ x = 5 ∨ x = 3 := by simpa using hx
      have hy : y = 7 ∨ y = 5 ∨ y = 3 := by simpa using hy
      rcases hx with rfl | rfl | rfl <;> rcases hy with rfl | rfl | rfl <;> simp [Ex.toInt]
  nonzero := by
    intro vs hvs x hx
    have : vs = [8, 10] ∨ vs = [7, 5, 3] := by simpa [Ex.closedValues] using hvs
    rcases this with rfl | rfl
    · have hx : x = 8 ∨ x = 10 := by simpa using hx
      rcases hx with rfl | rfl <;> simp [Ex.toInt]
    · have hx : x = 7 ∨ x = 5 ∨ x = 3 := by simpa using hx
      rcases hx with rfl | rfl | rfl <;> simp [Ex.toInt]
  sigmas := by
    intro q hq
    have : q = Ex.gridPar (lit "rate") (some 2) [8, 10] ∨
        q = Ex.gridPar (lit "rate") none [7, 5, 3] := by
      simpa [Ex.closedSearch, GridSearch.new] using hq
    rcases this with rfl | rfl <;> simp [Ex.gridPar]

/-- The fit made from these spectra finds the rates 10 and 5. -/
example : ∃ ses st' result, init Ex.keyOf exWhole Ex.madeState = (st', .ok ses) ∧
    (ses.fit (fun f => fitGrid Ex.fitEnv f Ex.toInt Ex.closedSearch) st').2 = .ok (.inr result) ∧
    FoundExactly .bcChi [10, 5] result := by
  have hm : ([10, 5] : List ℝ).map Ex.toInt = [10, 5] := by simp [Ex.toInt]
  refine c144_recovers_partial made_given made_evaluable
    { floating := fun _ => .inr ⟨2, by simp [exWhole], by simp [Ex.madeState, Ex.fitObj]⟩
      fixed := (fun h => by cases h)
      dimension := by simp [exWhole]
      perBin := by simp [exWhole] }
    made_ratesOnly made_search (by simp [FitState.view, Ex.madeState, Ex.fitState, exWhole])
    (ns := [lit "energy_mc"]) (c := Ex.madeContents) ?_ made_contents [10, 5]
    (.cons (by simp) (.cons (by simp) .nil)) ?_ ?_ ?_ ?_
  · exact .cons ⟨⟨lit "mc", by decide, rfl⟩, Ex.fitAxis, by simp [FitState.view, Ex.madeState, Ex.fitState],
      rfl⟩ .nil
  · have : ∀ idx ∈ allIdx [4], (Ex.madeState.view 0).data.get idx =
        exWhole.sumAt Ex.madeState [10, 5] (fun r => (Ex.madeState.view r).data) idx := by
      decide +kernel
    intro idx hi
    rw [hm]
    exact this idx (mem_allIdx.2 hi)
  · have : ∀ a ∈ [(8 : ℚ), 10], ∀ b ∈ [(7 : ℚ), 5, 3], ∀ idx ∈ allIdx [2],
        1 ≤ exWhole.sumAt Ex.madeState [a, b] Ex.madeContents idx := by decide +kernel
    intro w hw idx hi
    obtain ⟨a, ha, b, hb, -, e⟩ := closed_combination hw
    rw [e]
    have h1 : zeroThreshold ≤ 1 := by unfold zeroThreshold; norm_num
    exact h1.trans (by exact_mod_cast this a ha b hb idx (mem_allIdx.2 hi))
  · rw [hm]
    exact .cons (by simp [Ex.madeState, Ex.fitState, Ex.fitParam])
      (.cons (by simp [Ex.madeState, Ex.fitState, Ex.fitParam]) .nil)
  · intro c hc h x hx
    match c, hc with
    | [a, b], _ =>
      have h0 := h [0] (by decide)
      have h1 := h [1] (by decide)
      simp only [exWhole, List.map_cons, List.map_nil, List.zipWith_cons_cons, List.zipWith_nil_right,
        List.sum_cons, List.sum_nil, Ex.madeContents] at h0 h1
      have : x = a ∨ x = b := by simpa using hx
      rcases this with rfl | rfl <;> linarith

end Verif
