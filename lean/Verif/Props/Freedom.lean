import Verif.Lemmas.Freedom
import Verif.Props.MoreData
import Verif.Props.LimitFloating

/-! # C169: limits with backgrounds that float and that are fixed at their best rates -/

namespace Verif

open Session

variable {env : FitEnv} {keyOf : ℕ → PyStr} {a b : FitArgs} {ts ts' : List Spectrum} {r d : ℕ}
  {st : FitState} {rnd : ℝ → ℚ} {vss : List (List ℝ)} {v : List ℝ}

/-- **C169.** A limit is set on a signal with floating backgrounds. A second program is given these
backgrounds as fixed ones, with the rates `v` of the best fit without signal as numbers of decays. When
the first program's threshold is larger by the penalty of these rates, its limit is not below the second
one: if the first limit is found, so is the second, and it is not larger; if the second raises
`LimitError`, so does the first. Hence for the same threshold freedom of the backgrounds only weakens a
limit, if the best rates have no penalty. (Partial: the suppositions of C147; the signal has no negative
contents, one of the scalings is zero, the threshold is not negative, and the contents count.) -/
theorem c169_partial (hf : a.FixingAll b (v.map rnd)) (h : a.LimitOn r d ts st) (h' : b.LimitOn r d ts' st)
    (he : (a.withSignal r).Evaluable env keyOf d st) (ho : a.OwnRates st) {ns : List PyStr}
    (hns : RoiNames (st.view d).cfg (inOrder a.roi) ns) {c : ℕ → NdArray ℚ}
    (hc : ∀ q ∈ (a.withSignal r).kept ++ a.fixed.map Prod.fst,
      RegionContents (inOrder a.roi) ns (st.view q) (c q)) {search : GridSearch}
    (hsearch : RateSearch rnd search vss a.floating.length)
    (hsame : List.Forall₂ (fun p (q : FitPar) => q.prior = (st.params p).prior ∧
      q.sigma = (st.params p).sigma) (a.parameters st) search.pars)
    (hex : ∀ vs ∈ vss, ∀ x ∈ vs, ((rnd x : ℚ) : ℝ) = x) {G₀ : List ℝ → ℝ}
    (hG₀ : ∀ u, Combination vss u → a.stat.Total (comparedContents a.singleBin (c d))
      (comparedContents a.singleBin (a.backgroundAt st c (c d).shape (u.map rnd))) (G₀ u))
    (hv : FirstBest vss (fun u => G₀ u + a.penaltyAt st u) v)
    (hsig : ∀ s ∈ comparedContents a.singleBin (c r), 0 ≤ s) (hdec : 0 < (st.view r).numDecays)
    (hs : a.stat.Sound (comparedContents a.singleBin (c d))
      (comparedContents a.singleBin (a.backgroundAt st c (c d).shape (v.map rnd))))
    (search' : GridSearch) (hpars' : search'.pars = []) :
    ∃ ses₁ st₁ w₁ ses₂ st₂ w₂,
      init keyOf a st = (st₁, .ok ses₁) ∧ init keyOf b st = (st₂, .ok ses₂) ∧
      Fitter.limitInit ⟨ses₁, st₁, search⟩ r true = (w₁, .ok ()) ∧
      Fitter.limitInit ⟨ses₂, st₂, search'⟩ r true = (w₂, .ok ()) ∧
      ∀ (calls calls' : List LimitCall) (scales : List ℝ), Testable rnd (allScales calls ++ scales) →
      Testable rnd (allScales calls' ++ scales) → PlainScales rnd scales → 0 ∈ scales →
      ∀ (sigmas : List (Option ℝ)), (∀ s ∈ sigmas, s ≠ none) → ∀ (limit : ℝ), 0 ≤ limit →
      (∀ x, ((w₁.afterCalls env rnd r calls).limitOf env rnd r scales sigmas none
          (limit + a.penaltyAt st v)).2 = .ok x →
        ∃ x', x' ≤ x ∧
          ((w₂.afterCalls env rnd r calls').limitOf env rnd r scales sigmas none limit).2 = .ok x') ∧
      (((w₂.afterCalls env rnd r calls').limitOf env rnd r scales sigmas none limit).2 =
          .error .limitError →
        ((w₁.afterCalls env rnd r calls).limitOf env rnd r scales sigmas none
          (limit + a.penaltyAt st v)).2 = .error .limitError) := by
  have hg := h.given
  have hreg := inOrder_isDict hg.region
  have hdm : d ∈ (a.withSignal r).kept ++ a.fixed.map Prod.fst := by simp [FitArgs.kept, h.data]
  have hrm : r ∈ (a.withSignal r).kept ++ a.fixed.map Prod.fst := by simp [FitArgs.kept]
  have hshape : (c r).shape = (c d).shape :=
    same_shape hreg (hg.able d hdm) (hg.able r hrm) (h.axes r hrm) (hc d hdm) (hc r hrm)
  have e1 : b.roi = a.roi := by rw [hf.rest]
  have e2 : b.stat = a.stat := by rw [hf.rest]
  have e3 : b.singleBin = a.singleBin := by rw [hf.rest]
  have hvc : Combination vss v := by obtain ⟨i, hi, -⟩ := hv; exact hi.comb
  have hfix : b.fixed ≠ [] := by
    intro h0
    have hp := hf.fixed
    rw [h0] at hp
    have := List.nil_perm.1 hp
    rw [List.append_eq_nil_iff, List.zip_eq_nil_iff, List.map_eq_nil_iff] at this
    rcases this.1 with h1 | h1
    · exact ho.floating h1
    · rw [h1] at hvc
      have := hvc.length_eq
      rw [hsearch.number, List.length_nil] at this
      exact ho.floating (List.length_eq_zero_iff.1 this.symm)
  set obs := comparedContents a.singleBin (c d) with hobs
  set sig := (comparedContents a.singleBin (c r)).map (fun x => x / ((st.view r).numDecays : ℝ)) with hsg'
  set bkg : List ℝ → List ℝ := fun u =>
    comparedContents a.singleBin (a.backgroundAt st c (c d).shape (u.map rnd)) with hbkg
  have hcnt : b.Counts r d ts' st obs (bkg v) sig := by
    refine ⟨h', hfix, by rw [hf.rest], by rw [hf.rest]; exact ho.statPerBin, ns, c, ?_, ?_, ?_, ?_, ?_⟩
    · rw [e1]; exact hns
    · intro q hq
      rw [e1]
      exact hc q ((hf.withSignal r).mem_spectra hq)
    · rw [e3]
    · rw [e3, hf.fixedTotal h.signal]
    · rw [e3]
  have hlb : ∀ u, obs.length = (bkg u).length := fun u =>
    (compared_length _ (a := c d) (b := a.backgroundAt st c (c d).shape (u.map rnd)) rfl).symm
  have hls : ∀ u, (bkg u).length = sig.length := fun u => by
    rw [← hlb, hlb v]; exact hcnt.lengths.2
  have hl : ∀ u x, obs.length = (expectedAt (bkg u) sig x).length := fun u x => by
    simp [expectedAt, ← hls u, ← hlb u]
  have hsig' : ∀ s ∈ sig, 0 ≤ s := by
    intro s hm
    obtain ⟨t, ht, rfl⟩ := List.mem_map.1 hm
    exact div_nonneg (hsig t ht) (by exact_mod_cast hdec.le)
  obtain ⟨ses₁, st₁, w₁, i1, i2, i3⟩ := c147_floating_partial (rnd := rnd) h he ho hns hc hsearch hsame hex
  obtain ⟨ses₂, st₂, w₂, j1, j2, j3⟩ := hcnt.outcome (env := env) (keyOf := keyOf) (rnd := rnd) search' hpars'
  refine ⟨ses₁, st₁, w₁, ses₂, st₂, w₂, i1, j1, i2, j2, ?_⟩
  intro calls calls' scales ht ht' hp hz sigmas hsg limit hlim
  set F : ℝ → ℝ := fun x => a.stat.sumBins obs (expectedAt (bkg v) sig x) with hF
  have hF0 : F 0 = a.stat.sumBins obs (bkg v) := by
    rw [hF]; dsimp only; rw [expectedAt_zero (hls v)]
  have hGv : G₀ v = F 0 := by
    rw [hF0]
    exact (total_iff _ (hlb v) _).1 (hG₀ v hvc)
  have hG : ∀ (x : ℝ) (u : List ℝ), ∃ g, (npCloseReal x 0 → g = G₀ u) ∧ (¬ npCloseReal x 0 →
      a.stat.Total obs (expectedAt (bkg u) (comparedContents a.singleBin (c r))
        ((rnd x : ℝ) / ((st.view r).numDecays : ℝ))) g) := by
    intro x u
    by_cases hx : npCloseReal x 0
    · exact ⟨G₀ u, fun _ => rfl, fun h => absurd hx h⟩
    · obtain ⟨g, hg⟩ := exists_total a.stat (expected_length (sb := a.singleBin) (o := c d)
        (b := a.backgroundAt st c (c d).shape (u.map rnd)) rfl hshape
        ((rnd x : ℝ) / ((st.view r).numDecays : ℝ)))
      exact ⟨g, fun h => absurd h hx, fun _ => hg⟩
  choose G hG using hG
  obtain ⟨u₀, u, m1, m2, t, -, k1, k2⟩ := i3 calls scales ht hp.some hp.increasing G₀ G hG₀
    (fun x _ u _ => hG x u) sigmas hsg (limit + a.penaltyAt st v)
  obtain rfl : u₀ = v := FirstBest.unique (fun _ _ => rfl) hv m1
  obtain ⟨s, hbs, b1, b2⟩ := j3 calls' scales ht' hp sigmas hsg limit
  rw [e2] at hbs
  simp only [e2] at b1 b2
  rw [← hF0] at b1 b2
  have hGF : ∀ x ∈ scales, G x u₀ = F x := by
    intro x hx
    by_cases h0 : npCloseReal x 0
    · rw [(hG x u₀).1 h0, hp.zero x hx h0, hGv]
    · have := (hG x u₀).2 h0
      rw [hp.exact x hx h0, ← expectedAt_map] at this
      exact (total_iff _ (hl u₀ x) _).1 this
  -- where the first program crosses its threshold, the second crosses its own
  have below : ∀ x ∈ scales, limit + a.penaltyAt st u₀ < G x (u x) - G₀ u₀ + a.penaltyAt st (u x) →
      s ≤ x ∧ limit < F x - F 0 := by
    intro x hx hcr
    have hle : G x (u x) + a.penaltyAt st (u x) ≤ G x u₀ + a.penaltyAt st u₀ := by
      obtain ⟨i, -, hmin⟩ := m2 x hx
      obtain ⟨j, hj⟩ := valuesAt_of_comb hvc
      exact (hmin j u₀ hj).1
    rw [hGF x hx] at hle
    rw [hGv] at hcr
    have hlt : limit < F x - F 0 := by linarith
    refine ⟨?_, hlt⟩
    by_contra hcon
    have hxs := not_le.1 hcon
    have hx0 : 0 < x := lt_of_le_of_ne (hp.nonneg x hx) (by rintro rfl; linarith)
    have h1 := c132_above a.stat obs (bkg u₀) sig (hls u₀) hsig' 0 x s hx0 hxs.le
      (by rw [expectedAt_zero (hls u₀)]; exact hs) _ _ _
      ((total_iff _ (hl u₀ 0) _).2 rfl) ((total_iff _ (hl u₀ x) _).2 rfl) ((total_iff _ (hl u₀ s) _).2 rfl)
      (by change F 0 ≤ F x; linarith)
    change F x ≤ F s at h1
    have h2 : F s ≤ F 0 := (hbs.2 0 hz).1
    linarith
  refine ⟨fun x hx => ?_, fun herr => ?_⟩
  · obtain ⟨f1, f2, f3, -⟩ := (k1 x).1 hx
    obtain ⟨g1, g2⟩ := below x f1 f3
    classical
    obtain ⟨y, hy, hmin⟩ := Finset.exists_min_image
      (scales.toFinset.filter fun y => s ≤ y ∧ limit < F y - F 0) id
      ⟨x, by simp only [Finset.mem_filter, List.mem_toFinset]; exact ⟨f1, g1, g2⟩⟩
    simp only [Finset.mem_filter, List.mem_toFinset, id] at hy hmin
    refine ⟨y, hmin x ⟨f1, g1, g2⟩, (b1 y).2 ⟨hy.1, hy.2.1, hy.2.2, fun z hz' hbz hzy => ?_⟩⟩
    by_contra hcon
    exact absurd (hmin z ⟨hz', hbz, not_le.1 hcon⟩) (not_le.2 hzy)
  · rw [k2]
    intro y hy _
    by_contra hcon
    obtain ⟨g1, g2⟩ := below y hy (not_le.1 hcon)
    have := b2.1 herr y hy g1
    linarith

/-! ### cases that meet the hypotheses -/

namespace Ex

/-- The floating backgrounds fixed to `x` and 3 decays. -/
def allFixed (x : ℚ) : FitArgs := { limitArgs [] with fixed := [(1, 20), (2, x), (3, 3)] }

/-- Both rates have one value. -/
def onlySearch : GridSearch :=
  GridSearch.new [gridPar (lit "rate") (some 2) [8], gridPar (lit "rate") none [3]] [4]
    (some (lit "fit")) false

end Ex

theorem ex_allFixed (x : ℝ) :
    (Ex.limitArgs [2, 3]).FixingAll (Ex.allFixed (Ex.toInt x)) ([x, 3].map Ex.toInt) where
  fixed := by
    rw [show ([x, 3] : List ℝ).map Ex.toInt = [Ex.toInt x, 3] by simp [Ex.toInt]]
    exact (List.perm_append_comm (l₁ := [((1 : ℕ), (20 : ℚ))]) (l₂ := [(2, Ex.toInt x), (3, 3)]))
  rest := rfl

theorem allFixed_limitOn {x : ℚ} (hx : x = 8 ∨ x = 10) : (Ex.allFixed x).LimitOn 4 0
    [(((Ex.limitState.view 1).shrink exFitKw).st.scale 20).st,
      (((Ex.limitState.view 2).shrink exFitKw).st.scale x).st,
      (((Ex.limitState.view 3).shrink exFitKw).st.scale 3).st] Ex.limitState := by
  have h := ex_limitOn (floating := [2, 3]) (.inr rfl)
  have hg := h.given
  have hm : ∀ r ∈ [1, 2, 3], r = 1 ∨ r = 2 ∨ r = 3 := fun r hr => by simpa using hr
  have hv : ∀ e ∈ [((1 : ℕ), (20 : ℚ)), (2, x), (3, 3)], (Ex.limitState.view e.1).cfg = [Ex.fitAxis] :=
    fun _ _ => rfl
  refine ⟨⟨hg.region, hg.some, ?_, ?_, ?_, ?_⟩, ?_, rfl, rfl, fun _ _ => rfl, h.fit, h.decays, h.region⟩
  · intro r hr
    refine hg.alloc r ?_
    have : r = 0 ∨ r = 4 := by simpa [FitArgs.kept, Ex.limitArgs, Ex.allFixed] using hr
    simp [FitArgs.kept, Ex.limitArgs]
    omega
  · show (([0, 4] ++ [1, 2, 3]).map (fun r => (Ex.limitState.objs r).cfg)).Nodup
    decide
  · intro r hr
    refine hg.able r ?_
    have : r = 0 ∨ r = 4 ∨ r = 1 ∨ r = 2 ∨ r = 3 := by
      simpa [FitArgs.kept, Ex.limitArgs, Ex.allFixed] using hr
    simp [FitArgs.kept, Ex.limitArgs]
    omega
  · show Suppliable (inOrder [(lit "energy", ((2 : ℚ), (1 : ℚ)))]) [(1, 20), (2, x), (3, 3)] _ Ex.limitState
    rw [exInit_roi]
    refine ⟨?_, ?_, by unfold IsDict; decide, fun e he => by rw [hv e he]; exact fitAxis_dims,
      fun e he => by rw [hv e he]; simp, .cons ?_ (.cons ?_ (.cons ?_ .nil)), ?_⟩
    · intro r hr
      show r < 5
      have := hm r hr
      omega
    · show ([1, 2, 3].map (fun r => (Ex.limitState.objs r).cfg)).Nodup
      decide
    · exact ⟨exFitKw, exFit_asks, by decide +kernel, rfl, by decide +kernel⟩
    · rcases hx with rfl | rfl <;> exact ⟨exFitKw, exFit_asks, by decide +kernel, rfl, by decide +kernel⟩
    · exact ⟨exFitKw, exFit_asks, by decide +kernel, rfl, by decide +kernel⟩
    · have key : ∀ t ∈ [(((Ex.limitState.view 1).shrink exFitKw).st.scale 20).st,
          (((Ex.limitState.view 2).shrink exFitKw).st.scale x).st,
          (((Ex.limitState.view 3).shrink exFitKw).st.scale 3).st],
          t.cfg = ((((Ex.limitState.view 1).shrink exFitKw).st.scale 20).st).cfg ∧
          t.data.shape = ((((Ex.limitState.view 1).shrink exFitKw).st.scale 20).st).data.shape := by
        intro t ht
        simp only [List.mem_cons, List.not_mem_nil, or_false] at ht
        rcases hx with rfl | rfl <;> rcases ht with rfl | rfl | rfl <;> decide +kernel
      intro t ht t' ht'
      exact ⟨(key _ ht').1.trans (key _ ht).1.symm, (key _ ht').2.trans (key _ ht).2.symm⟩
  · exact
      { floating := by simp [Ex.limitArgs, Ex.allFixed]
        fixed := by simp [Ex.limitArgs, Ex.allFixed]
        dimension := by simp [Ex.limitArgs, Ex.allFixed]
        perBin := by simp [Ex.limitArgs, Ex.allFixed] }

theorem ex_floatCompared {a b : ℚ} (ha : (8 : ℝ) ≤ a) (hb : (3 : ℝ) ≤ b) :
    Stat.pearson.Total (comparedContents false (Ex.limitContents 0))
      (comparedContents false ((Ex.limitArgs [2, 3]).backgroundAt Ex.limitState Ex.limitContents
        (Ex.limitContents 0).shape [a, b])) (Ex.floatStat 0 [(a : ℝ), (b : ℝ)]) := by
  obtain ⟨e1, -, -⟩ := ex_limitCompared
  rw [e1, ex_floatBackground]
  have := ex_floatTotal (e₁ := 5 + 3 * (a : ℝ) / 10 + 2 * (b : ℝ) / 10)
    (e₂ := 5 + 4 * (a : ℝ) / 10 + (b : ℝ) / 10) (by linarith) (by linarith)
  simpa [Ex.floatStat] using this

/-- Without signal the rates 10 and 3 fit best, and have no penalty. -/
theorem ex_firstBest : FirstBest Ex.closedValues
    (fun u => Ex.floatStat 0 u + (Ex.limitArgs [2, 3]).penaltyAt Ex.limitState u) [10, 3] := by
  refine ⟨[1, 2], ⟨.cons rfl (.cons rfl .nil), rfl⟩, fun idx' u' hu' => ?_⟩
  obtain ⟨x, hx, y, hy, rfl, -⟩ := closed_combination hu'.comb
  have hx : x = 8 ∨ x = 10 := by simpa using hx
  have hy : y = 7 ∨ y = 5 ∨ y = 3 := by simpa using hy
  by_cases hbest : x = 10 ∧ y = 3
  · obtain ⟨rfl, rfl⟩ := hbest
    norm_num at hu' ⊢
    have hv : ValuesAt Ex.closedValues [1, 2] [10, 3] := ⟨.cons rfl (.cons rfl .nil), rfl⟩
    exact (ValuesAt.idx_eq made_search.nodup hv hu').le
  · have : Ex.floatStat 0 [10, 3] + (Ex.limitArgs [2, 3]).penaltyAt Ex.limitState [10, 3] <
        Ex.floatStat 0 [(x : ℝ), (y : ℝ)] +
          (Ex.limitArgs [2, 3]).penaltyAt Ex.limitState [(x : ℝ), (y : ℝ)] := by
      rw [ex_floatPenalty, ex_floatPenalty]
      simp only [Ex.floatStat, List.getD_cons_zero, List.getD_cons_succ]
      rcases hx with rfl | rfl <;> rcases hy with rfl | rfl | rfl <;> first | exact absurd ⟨rfl, rfl⟩ hbest | norm_num
    exact ⟨this.le, fun e => absurd e this.ne'⟩

/-- Were the rates 10 and 3 fixed, the limit would not be larger: the best rates have no penalty. -/
example : ∃ ses₁ st₁ w₁ ses₂ st₂ w₂,
    init Ex.keyOf (Ex.limitArgs [2, 3]) Ex.limitState = (st₁, .ok ses₁) ∧
    init Ex.keyOf (Ex.allFixed 10) Ex.limitState = (st₂, .ok ses₂) ∧
    Fitter.limitInit ⟨ses₁, st₁, Ex.closedSearch⟩ 4 true = (w₁, .ok ()) ∧
    Fitter.limitInit ⟨ses₂, st₂, GridSearch.new [] [] none false⟩ 4 true = (w₂, .ok ()) ∧
    (((w₁.afterCalls Ex.fitEnv Ex.toInt 4 [.statistics [4]]).limitOf Ex.fitEnv Ex.toInt 4
      [0, 4, 10, 20] [] none 3).2 = .ok 20 → ∃ x ≤ 20,
      ((w₂.afterCalls Ex.fitEnv Ex.toInt 4 []).limitOf Ex.fitEnv Ex.toInt 4 [0, 4, 10, 20] [] none 3).2 =
        .ok x) := by
  have e10 : Ex.toInt 10 = 10 := by simp [Ex.toInt]
  have e3 : Ex.toInt 3 = 3 := by simp [Ex.toInt]
  have hall := ex_allFixed 10
  rw [e10] at hall
  have hcomb : ∀ u, Combination Ex.closedValues u → ∃ a b : ℚ, u = [(a : ℝ), (b : ℝ)] ∧
      u.map Ex.toInt = [a, b] ∧ (8 : ℝ) ≤ a ∧ (3 : ℝ) ≤ b := by
    intro u hu
    obtain ⟨a, ha, b, hb, e, e'⟩ := closed_combination hu
    refine ⟨a, b, e, e', ?_, ?_⟩
    · have : a = 8 ∨ a = 10 := by simpa using ha
      rcases this with rfl | rfl <;> norm_num
    · have : b = 7 ∨ b = 5 ∨ b = 3 := by simpa using hb
      rcases this with rfl | rfl | rfl <;> norm_num
  obtain ⟨ses₁, st₁, w₁, ses₂, st₂, w₂, h1, h2, h3, h4, h5⟩ := c169_partial (env := Ex.fitEnv)
    (keyOf := Ex.keyOf) (rnd := Ex.toInt) (vss := Ex.closedValues) (search := Ex.closedSearch) hall
    (ex_limitOn (.inr rfl)) (allFixed_limitOn (.inr rfl)) ex_floatEvaluable ex_floatRates ex_limitNames
    (ex_limitContents' (.inr rfl)) made_search (.cons ⟨rfl, rfl⟩ (.cons ⟨rfl, rfl⟩ .nil)) (by
      intro vs hvs x hx
      have : vs = [8, 10] ∨ vs = [7, 5, 3] := by simpa [Ex.closedValues] using hvs
      rcases this with rfl | rfl
      · have hx : x = 8 ∨ x = 10 := by simpa using hx
        rcases hx with rfl | rfl <;> simp [Ex.toInt]
      · have hx : x = 7 ∨ x = 5 ∨ x = 3 := by simpa using hx
        rcases hx with rfl | rfl | rfl <;> simp [Ex.toInt])
    (fun u hu => by
      obtain ⟨a, b, rfl, e, ha, hb⟩ := hcomb u hu
      rw [e]
      exact ex_floatCompared ha hb) ex_firstBest
    (by
      rw [show (Ex.limitArgs [2, 3]).singleBin = false from rfl, ex_limitCompared.2.2]
      norm_num) (by exact_mod_cast (by rw [ex_limitDecays]; norm_num : (0 : ℝ) < ((Ex.limitState.view 4).numDecays : ℝ)))
    (by
      rw [show (Ex.limitArgs [2, 3]).singleBin = false from rfl, ex_limitCompared.1, List.map_cons,
        List.map_cons, List.map_nil, e10, e3, ex_floatBackground]
      simp only [Ex.limitArgs, Stat.Sound, Stat.SoundBin, List.forall₂_cons]
      norm_num [zeroThreshold]) (GridSearch.new [] [] none false) rfl
  refine ⟨ses₁, st₁, w₁, ses₂, st₂, w₂, h1, h2, h3, h4, fun h => ?_⟩
  have := (h5 [.statistics [4]] [] _ (ex_plain.2 _ (.inr rfl)) (ex_plain.2 _ (.inl rfl)) ex_plain.1
    (by simp) [] (by simp) 3 (by norm_num)).1 20
  rw [ex_floatPenalty] at this
  norm_num at this
  exact this h

theorem ex_onlySearch : RateSearch Ex.toInt Ex.onlySearch [[8], [3]] 2 where
  ready := ⟨rfl, rfl⟩
  form := rfl
  values := .cons rfl (.cons rfl .nil)
  counts := .cons ⟨rfl, by simp⟩ (.cons ⟨rfl, by simp⟩ .nil)
  number := rfl
  nodup := by
    intro vs hvs
    have : vs = [8] ∨ vs = [3] := by simpa using hvs
    rcases this with rfl | rfl <;> simp
  injective := by
    intro vs hvs x hx y hy _
    have : vs = [8] ∨ vs = [3] := by simpa using hvs
    rcases this with rfl | rfl <;> simp at hx hy <;> rw [hx, hy]
  nonzero := by
    intro vs hvs x hx
    have : vs = [8] ∨ vs = [3] := by simpa using hvs
    rcases this with rfl | rfl <;> simp at hx <;> rw [hx] <;> simp [Ex.toInt]
  sigmas := by
    intro q hq
    have : q = Ex.gridPar (lit "rate") (some 2) [8] ∨ q = Ex.gridPar (lit "rate") none [3] := by
      simpa [Ex.onlySearch, GridSearch.new] using hq
    rcases this with rfl | rfl <;> simp [Ex.gridPar]

theorem only_combination {u : List ℝ} (h : Combination [[8], [3]] u) : u = [8, 3] := by
  obtain ⟨x, _, hx, h1, rfl⟩ := List.forall₂_cons_right_iff.1 h
  obtain ⟨y, _, hy, h2, rfl⟩ := List.forall₂_cons_right_iff.1 h1
  cases h2
  rw [List.mem_singleton.1 hx, List.mem_singleton.1 hy]

theorem allFixed_counts : (Ex.allFixed 8).Counts 4 0
    [(((Ex.limitState.view 1).shrink exFitKw).st.scale 20).st,
      (((Ex.limitState.view 2).shrink exFitKw).st.scale 8).st,
      (((Ex.limitState.view 3).shrink exFitKw).st.scale 3).st] Ex.limitState [7, 8] [8, 17 / 2]
    [1 / 2, 0] where
  limitOn := allFixed_limitOn (.inl rfl)
  fixed := by simp [Ex.allFixed]
  floating := rfl
  statPerBin := rfl
  contents := by
    obtain ⟨e1, -, e3⟩ := ex_limitCompared
    have hall := ex_allFixed 8
    have e8 : Ex.toInt 8 = 8 := by simp [Ex.toInt]
    have e3' : Ex.toInt 3 = 3 := by simp [Ex.toInt]
    rw [e8] at hall
    refine ⟨_, Ex.limitContents, ex_limitNames, fun q hq => ?_, e1.symm, ?_, ?_⟩
    · exact ex_limitContents' (.inr rfl) q ((hall.withSignal 4).mem_spectra hq)
    · rw [hall.fixedTotal rfl, show (Ex.allFixed 8).singleBin = false from rfl, List.map_cons,
        List.map_cons, List.map_nil, e8, e3', ex_floatBackground]
      norm_num
    · rw [show (Ex.allFixed 8).singleBin = false from rfl, e3, ex_limitDecays]
      norm_num

/-- **C169, negation for the same threshold.** The rates of the floating backgrounds can only be 8 and 3;
the first has the prior 10 and the sigma 2, so its penalty is 1. With the threshold 1 the limit is 4. When
the backgrounds are fixed at these rates, it is 10: the code adds the penalty to the statistic of every
scaling, but not to that of the fit without signal that it subtracts, and so freedom of the backgrounds
makes the limit stronger. -/
theorem c169_negation : ∃ ses₁ st₁ w₁ ses₂ st₂ w₂,
    (Ex.limitArgs [2, 3]).FixingAll (Ex.allFixed 8) ([8, 3].map Ex.toInt) ∧
    FirstBest [[8], [3]]
      (fun u => Ex.floatStat 0 u + (Ex.limitArgs [2, 3]).penaltyAt Ex.limitState u) [8, 3] ∧
    (Ex.limitArgs [2, 3]).penaltyAt Ex.limitState [8, 3] = 1 ∧
    init Ex.keyOf (Ex.limitArgs [2, 3]) Ex.limitState = (st₁, .ok ses₁) ∧
    init Ex.keyOf (Ex.allFixed 8) Ex.limitState = (st₂, .ok ses₂) ∧
    Fitter.limitInit ⟨ses₁, st₁, Ex.onlySearch⟩ 4 true = (w₁, .ok ()) ∧
    Fitter.limitInit ⟨ses₂, st₂, GridSearch.new [] [] none false⟩ 4 true = (w₂, .ok ()) ∧
    (w₁.limitOf Ex.fitEnv Ex.toInt 4 [0, 4, 10, 20] [] none 1).2 = .ok 4 ∧
    (w₂.limitOf Ex.fitEnv Ex.toInt 4 [0, 4, 10, 20] [] none 1).2 = .ok 10 := by
  have e8 : Ex.toInt 8 = 8 := by simp [Ex.toInt]
  have e3' : Ex.toInt 3 = 3 := by simp [Ex.toInt]
  have em : ([8, 3] : List ℝ).map Ex.toInt = [8, 3] := by
    rw [List.map_cons, List.map_cons, List.map_nil, e8, e3']
  have hall := ex_allFixed 8
  rw [e8] at hall
  obtain ⟨e1, -, e3⟩ := ex_limitCompared
  have hpen : (Ex.limitArgs [2, 3]).penaltyAt Ex.limitState [8, 3] = 1 := by
    rw [ex_floatPenalty]; norm_num
  have hbest : ∀ F : List ℝ → ℝ, FirstBest [[8], [3]] F [8, 3] := fun F => by
    have hv : ValuesAt [[(8 : ℝ)], [3]] [0, 0] [8, 3] := ⟨.cons rfl (.cons rfl .nil), rfl⟩
    refine ⟨[0, 0], hv, fun idx u hu => ?_⟩
    obtain rfl := only_combination hu.comb
    exact ⟨le_rfl, fun _ => (ValuesAt.idx_eq ex_onlySearch.nodup hv hu).le⟩
  have hst : ∀ x : ℝ, Ex.floatStat x [8, 3] = (1 + x / 2) ^ 2 / (8 + x / 2) + 1 / 34 := fun x => by
    simp only [Ex.floatStat, List.getD_cons_zero, List.getD_cons_succ]
    norm_num
    ring
  have hbin : ∀ x : ℝ, 0 ≤ x → Stat.pearson.sumBins [7, 8] (expectedAt [8, 17 / 2] [1 / 2, 0] x) =
      (1 + x / 2) ^ 2 / (8 + x / 2) + 1 / 34 := fun x hx => by
    have := ex_floatTotal (e₁ := 8 + x / 2) (e₂ := 17 / 2) (by linarith) (by norm_num)
    rw [show expectedAt [8, 17 / 2] [1 / 2, 0] x = [8 + x / 2, 17 / 2] by
      simp [expectedAt]; ring]
    refine ((total_iff _ (by simp) _).1 this).symm.trans ?_
    norm_num
    ring
  obtain ⟨ses₁, st₁, w₁, i1, i2, i3⟩ := c147_floating_partial (env := Ex.fitEnv) (keyOf := Ex.keyOf)
    (rnd := Ex.toInt) (vss := [[8], [3]]) (search := Ex.onlySearch) (ex_limitOn (.inr rfl))
    ex_floatEvaluable ex_floatRates ex_limitNames (ex_limitContents' (.inr rfl)) ex_onlySearch
    (.cons ⟨rfl, rfl⟩ (.cons ⟨rfl, rfl⟩ .nil)) (by
      intro vs hvs x hx
      have : vs = [8] ∨ vs = [3] := by simpa using hvs
      rcases this with rfl | rfl <;> simp at hx <;> rw [hx] <;> simp [Ex.toInt])
  obtain ⟨ses₂, st₂, w₂, j1, j2, j3⟩ := allFixed_counts.outcome (env := Ex.fitEnv) (keyOf := Ex.keyOf)
    (rnd := Ex.toInt) (GridSearch.new [] [] none false) rfl
  refine ⟨ses₁, st₁, w₁, ses₂, st₂, w₂, hall, hbest _, hpen, i1, j1, i2, j2, ?_, ?_⟩
  · have ht := ex_plain.2 [] (.inl rfl)
    obtain ⟨u₀, u, m1, m2, b, hb, k1, -⟩ := i3 [] [0, 4, 10, 20] ht ex_plain.1.some ex_plain.1.increasing
      (Ex.floatStat 0) Ex.floatStat
      (by
        intro u hu
        obtain rfl := only_combination hu
        rw [em]
        have := ex_floatCompared (a := 8) (b := 3) (by norm_num) (by norm_num)
        norm_num at this
        exact this)
      (by
        intro x hx u hu
        obtain rfl := only_combination hu
        have hx : x ∈ ([0, 4, 10, 20] : List ℝ) := hx
        refine ⟨fun hcl => by rw [ex_plain.1.zero x hx hcl], fun hcl => ?_⟩
        rw [em, show (Ex.limitArgs [2, 3]).singleBin = false from rfl, e1, e3, ex_floatBackground,
          ex_limitDecays, ex_plain.1.exact x hx hcl]
        have hx0 := ex_plain.1.nonneg x hx
        have := ex_floatTotal (e₁ := 8 + x / 2) (e₂ := 17 / 2) (by linarith) (by norm_num)
        rw [hst]
        simp only [expectedAt]
        convert this using 1
        · rfl
        · norm_num
        · norm_num
          ring) [] (by simp) 1
    obtain rfl := FirstBest.unique (fun _ _ => rfl) (hbest _) m1
    have hu : ∀ y ∈ ([0, 4, 10, 20] : List ℝ), u y = [8, 3] := fun y hy =>
      FirstBest.unique (fun _ _ => rfl) (hbest _) (m2 y hy)
    have hb4 : b ≤ 4 := by
      have h1 := (hb.2 0 (by simp)).1
      have h4 : b = 0 ∨ b = 4 ∨ b = 10 ∨ b = 20 := by simpa using hb.1
      dsimp only at h1
      rw [hu b hb.1, hu 0 (by simp), hst, hst] at h1
      rcases h4 with rfl | rfl | rfl | rfl
      · norm_num
      · norm_num
      · norm_num at h1
      · norm_num at h1
    refine (k1 4).2 ⟨by simp, hb4, ?_, fun y hy _ hlt => ?_⟩
    · dsimp only
      rw [hu 4 (by simp), hst, hst, hpen]
      norm_num
    · have h4 : y = 0 ∨ y = 4 ∨ y = 10 ∨ y = 20 := by simpa using hy
      dsimp only
      rw [hu y hy, hst, hst, hpen]
      rcases h4 with rfl | rfl | rfl | rfl
      · norm_num
      · exact absurd hlt (lt_irrefl _)
      · norm_num at hlt
      · norm_num at hlt
  · have ht := ex_plain.2 [] (.inl rfl)
    obtain ⟨b, hb, k1, -⟩ := j3 [] [0, 4, 10, 20] ht ex_plain.1 [] (by simp) 1
    have h0 : Stat.pearson.sumBins [7, 8] [8, 17 / 2] = 1 / 8 + 1 / 34 := by
      have := hbin 0 le_rfl
      rw [expectedAt_zero (by simp)] at this
      rw [this]
      norm_num
    have hstat : (Ex.allFixed 8).stat = .pearson := rfl
    rw [hstat] at hb
    simp only [hstat, h0] at k1
    have hb10 : b ≤ 10 := by
      have h1 := (hb.2 0 (by simp)).1
      have h4 : b = 0 ∨ b = 4 ∨ b = 10 ∨ b = 20 := by simpa using hb.1
      dsimp only at h1
      rw [hbin b (ex_plain.1.nonneg b hb.1), hbin 0 le_rfl] at h1
      rcases h4 with rfl | rfl | rfl | rfl
      · norm_num
      · norm_num
      · norm_num
      · norm_num at h1
    refine (k1 10).2 ⟨by simp, hb10, ?_, fun y hy _ hlt => ?_⟩
    · dsimp only
      rw [hbin 10 (by norm_num)]
      norm_num
    · have h4 : y = 0 ∨ y = 4 ∨ y = 10 ∨ y = 20 := by simpa using hy
      dsimp only
      rw [hbin y (ex_plain.1.nonneg y hy)]
      rcases h4 with rfl | rfl | rfl | rfl
      · norm_num
      · norm_num
      · exact absurd hlt (lt_irrefl _)
      · norm_num at hlt

end Verif
