import Verif.Props.Expected
import Verif.Props.SensitivityLimit

/-! # C173: with floating backgrounds more signal can weaken an expected limit -/

namespace Verif

open Session

namespace Ex

/-- The example of expected limits, with `k` signal events in the second bin of the region. -/
noncomputable def shapeState (k : ℚ) : FitState := { expectedState with
  objs := fun r => if r = 4 then { expectedState.objs 4 with data := four 0 1 1 k }
    else expectedState.objs r }

/-- Contents of the region from 1 to 2. -/
def shapeContents (k : ℚ) (r : ℕ) : NdArray ℚ :=
  if r = 4 then ⟨[2], fun idx => if idx = [0] then 1 else if idx = [1] then k else 0⟩ else expectedContents r

/-- The first rate is 10, the second 5 or 10; both priors are 10. -/
def shapeSearch : GridSearch :=
  GridSearch.new [gridPar (lit "rate") (some 2) [10], gridPar (lit "rate") none [5, 10]] [4]
    (some (lit "fit")) false

/-- The value lists of the search. -/
def shapeValues : List (List ℝ) := [[10], [5, 10]]

/-- The statistic at the second rate `y`, with the signal scaled to `x` decays. -/
noncomputable def shapeStat (k : ℚ) (x y : ℝ) : ℝ :=
  (10 - (8 + y / 5 + x / 2)) ^ 2 / (8 + y / 5 + x / 2) +
    (10 - (9 + y / 10 + x * k / 2)) ^ 2 / (9 + y / 10 + x * k / 2)

end Ex

theorem shape_limitOn {k : ℚ} (hk : k = 0 ∨ k = 1 / 2) : (Ex.limitArgs [2, 3]).LimitOn 4 0
    [(((Ex.shapeState k).view 1).shrink exFitKw).st.scale 20 |>.st] (Ex.shapeState k) :=
  have h := ex_expectedOn
  { given :=
      { region := h.given.region
        some := h.given.some
        alloc := h.given.alloc
        own := by
          show ([0, 4, 2, 3, 1] : List ℕ).Nodup
          decide
        able := by
          intro q hq
          have hm : q = 0 ∨ q = 4 ∨ q = 2 ∨ q = 3 ∨ q = 1 := by
            have : q ∈ [0, 4, 2, 3, 1] := hq
            simpa using this
          have h := h.given.able q hq
          rcases hm with rfl | rfl | rfl | rfl | rfl <;>
            exact ⟨⟨h.wf.axes, h.wf.names, h.wf.shape⟩, h.aligned, h.dims, h.edges, h.has⟩
        fixed := by
          have h := h.given.fixed
          refine ⟨h.alloc, h.own, h.region, h.dims, h.names, ?_, ?_⟩
          · refine .cons ⟨exFitKw, ?_, ?_, rfl, ?_⟩ .nil
            · show AsksRoi [Ex.fitAxis] (inOrder [(lit "energy", ((2 : ℚ), (1 : ℚ)))]) exFitKw
              rw [exInit_roi]
              exact exFit_asks
            · rcases hk with rfl | rfl <;> decide +kernel
            · rcases hk with rfl | rfl <;> decide +kernel
          · simp }
    settings := ⟨fun _ => .inr ⟨2, by simp [Ex.limitArgs], by
        simp [Ex.shapeState, Ex.expectedState, Ex.limitState, Ex.fitObj]⟩,
      by simp [Ex.limitArgs], by simp [Ex.limitArgs], by simp [Ex.limitArgs]⟩
    signal := rfl
    data := rfl
    axes := fun _ _ => rfl
    fit := by simp [Ex.shapeState, Ex.expectedState, Ex.limitState]
    decays := h.decays
    region := h.region }

theorem shape_contents {k : ℚ} (hk : k = 0 ∨ k = 1 / 2) :
    ∀ q ∈ ((Ex.limitArgs [2, 3]).withSignal 4).kept ++ (Ex.limitArgs [2, 3]).fixed.map Prod.fst,
    RegionContents (inOrder (Ex.limitArgs [2, 3]).roi) [lit "energy_mc"] ((Ex.shapeState k).view q)
      (Ex.shapeContents k q) := by
  intro q hq
  have hq5 : q < 5 := by
    have : q ∈ [0, 4, 2, 3, 1] := hq
    simp only [List.mem_cons, List.not_mem_nil, or_false] at this
    omega
  have key : ∀ r < 5, (((Ex.shapeState k).view r).shrink exFitKw).err = none ∧
      pick [lit "energy_mc"] ((((Ex.shapeState k).view r).shrink exFitKw).st.cfg.map SPar.name)
        (((Ex.shapeState k).view r).shrink exFitKw).st.data.shape = [2] ∧
      ∀ idx ∈ allIdx [2], (Ex.shapeContents k r).get idx =
        sumIdx (((Ex.shapeState k).view r).shrink exFitKw).st.data.shape (fun full =>
          if pick [lit "energy_mc"] ((((Ex.shapeState k).view r).shrink exFitKw).st.cfg.map SPar.name) full =
            idx then (((Ex.shapeState k).view r).shrink exFitKw).st.data.get full else 0) := by
    rcases hk with rfl | rfl <;> decide +kernel
  obtain ⟨k1, k2, k3⟩ := key q hq5
  have hs : (Ex.shapeContents k q).shape = [2] := by
    unfold Ex.shapeContents Ex.expectedContents
    split
    · rfl
    · split <;> rfl
  refine ⟨(((Ex.shapeState k).view q).shrink exFitKw).st, ⟨exFitKw, ?_, k1,
    ⟨⟨rfl, rfl, rfl, rfl, rfl⟩, rfl, fun _ _ => rfl⟩⟩, ?_, fun idx hi => ?_⟩
  · show AsksRoi [Ex.fitAxis] (inOrder [(lit "energy", ((2 : ℚ), (1 : ℚ)))]) exFitKw
    rw [exInit_roi]
    exact exFit_asks
  · rw [k2, hs]
  · rw [hs] at hi
    exact k3 idx (mem_allIdx.2 hi)

theorem shape_evaluable (k : ℚ) : ((Ex.limitArgs [2, 3]).withSignal 4).Evaluable Ex.fitEnv Ex.keyOf 0
    (Ex.shapeState k) :=
  have h := ex_expectedEvaluable
  ⟨rfl, h.str, rfl, by
    have := h.backgrounds
    exact this, fun _ _ => rfl, h.dims, by
    intro r hr
    have : r = 2 ∨ r = 3 ∨ r = 4 := by simpa [Ex.limitArgs] using hr
    rcases this with rfl | rfl | rfl <;>
      simp [FitState.view, Ex.shapeState, Ex.expectedState, Ex.limitState, Ex.fitObj],
    h.names, h.pars, h.globals, h.rates⟩

theorem shape_own (k : ℚ) : (Ex.limitArgs [2, 3]).OwnRates (Ex.shapeState k) :=
  have h := ex_expectedOwn
  ⟨h.floating, h.config, by
    intro r hr
    have : r = 2 ∨ r = 3 := by simpa [Ex.limitArgs] using hr
    rcases this with rfl | rfl
    · exact ⟨0, rfl⟩
    · exact ⟨1, rfl⟩, h.sigmas, h.statPerBin, h.perBin⟩

theorem shape_rates (k : ℚ) : ∀ q ∈ (Ex.limitArgs [2, 3]).floating,
    ((Ex.shapeState k).objs q).fit = some [q - 2] ∧ Ex.studyRate q = some (q - 2) := by
  intro r hr
  have : r = 2 ∨ r = 3 := by simpa [Ex.limitArgs] using hr
  rcases this with rfl | rfl <;> exact ⟨rfl, rfl⟩

theorem shape_values {vs : List ℝ} (hvs : vs ∈ Ex.shapeValues) {x : ℝ} (hx : x ∈ vs) : x = 5 ∨ x = 10 := by
  have : vs = [10] ∨ vs = [5, 10] := by simpa [Ex.shapeValues] using hvs
  rcases this with rfl | rfl
  · exact .inr (List.mem_singleton.1 hx)
  · simpa using hx

theorem shape_exact : ∀ vs ∈ Ex.shapeValues, ∀ x ∈ vs, ((Ex.toInt x : ℚ) : ℝ) = x := by
  intro vs hvs x hx
  rcases shape_values hvs hx with rfl | rfl <;> simp [Ex.toInt]

theorem shape_search : RateSearch Ex.toInt Ex.shapeSearch Ex.shapeValues
    (Ex.limitArgs [2, 3]).floating.length where
  ready := ⟨rfl, rfl⟩
  form := rfl
  values := .cons rfl (.cons rfl .nil)
  counts := .cons ⟨rfl, by simp⟩ (.cons ⟨rfl, by simp⟩ .nil)
  number := rfl
  nodup := by
    intro vs hvs
    have : vs = [10] ∨ vs = [5, 10] := by simpa [Ex.shapeValues] using hvs
    rcases this with rfl | rfl <;> norm_num
  injective := by
    intro vs hvs x hx y hy he
    have := shape_exact vs hvs x hx
    rw [he, shape_exact vs hvs y hy] at this
    exact this.symm
  nonzero := by
    intro vs hvs x hx
    rcases shape_values hvs hx with rfl | rfl <;> simp [Ex.toInt]
  sigmas := by
    intro q hq
    have : q = Ex.gridPar (lit "rate") (some 2) [10] ∨ q = Ex.gridPar (lit "rate") none [5, 10] := by
      simpa [Ex.shapeSearch, GridSearch.new] using hq
    rcases this with rfl | rfl <;> simp [Ex.gridPar]

theorem shape_compared (k y : ℚ) :
    comparedContents false ((Ex.limitArgs [2, 3]).backgroundAt (Ex.shapeState k) (Ex.shapeContents k)
      (Ex.shapeContents k 0).shape [10, y]) = [8 + (y : ℝ) / 5, 9 + (y : ℝ) / 10] ∧
    comparedContents false (Ex.shapeContents k 4) = [1, (k : ℝ)] := by
  have e : allIdx [2] = [[0], [1]] := rfl
  refine ⟨?_, ?_⟩
  · have h1 : ((Ex.shapeState k).view 1).numDecays = 4 := rfl
    have h2 : ((Ex.shapeState k).view 2).numDecays = 10 := rfl
    have h3 : ((Ex.shapeState k).view 3).numDecays = 10 := rfl
    simp only [comparedContents, Bool.false_eq_true, if_false, FitArgs.backgroundAt]
    show (allIdx [2]).map _ = _
    rw [e]
    simp [FitArgs.sumAt, Ex.limitArgs, Ex.shapeContents, Ex.expectedContents, Ex.limitContents, h1, h2, h3]
    constructor <;> ring
  · simp [comparedContents, Ex.shapeContents, e]

theorem shape_combination {u : List ℝ} (h : Combination Ex.shapeValues u) :
    ∃ y : ℚ, (y = 5 ∨ y = 10) ∧ u = [10, (y : ℝ)] ∧ u.map Ex.toInt = [10, y] := by
  obtain ⟨x, _, hx, h1, rfl⟩ := List.forall₂_cons_right_iff.1 h
  obtain ⟨y, _, hy, h2, rfl⟩ := List.forall₂_cons_right_iff.1 h1
  cases h2
  rw [List.mem_singleton.1 hx]
  have hy : y = 5 ∨ y = 10 := by simpa using hy
  rcases hy with rfl | rfl
  · exact ⟨5, .inl rfl, by norm_num, by simp [Ex.toInt]⟩
  · exact ⟨10, .inr rfl, by norm_num, by simp [Ex.toInt]⟩

/-- The expected limit in terms of the smallest statistic. -/
theorem shape_limit {k : ℚ} (hk : k = 0 ∨ k = 1 / 2) :
    ∃ ses st' u₁ w, init Ex.keyOf (Ex.limitArgs [2, 3]) (Ex.shapeState k) = (st', .ok ses) ∧
      ses.study Ex.toInt Ex.studyRate st' = ((ses, u₁), .ok ()) ∧
      Fitter.limitInit ⟨ses, u₁, Ex.shapeSearch⟩ 4 true = (w, .ok ()) ∧
      ∃ M : ℝ → ℝ, M 0 = 0 ∧ (M 2 = Ex.shapeStat k 2 5 ∨ M 2 = Ex.shapeStat k 2 10) ∧
        M 2 ≤ Ex.shapeStat k 2 5 ∧
        ((w.limitOf Ex.fitEnv Ex.toInt 4 [0, 2] [] none (1 / 100)).2 = .ok 2 ↔
          1 / 100 < M 2 ∧ M 0 ≤ 1 / 100) ∧
        ((w.limitOf Ex.fitEnv Ex.toInt 4 [0, 2] [] none (1 / 100)).2 = .error .limitError ↔
          M 0 ≤ 1 / 100 ∧ M 2 ≤ 1 / 100) := by
  have hk0 : (0 : ℝ) ≤ k := by rcases hk with rfl | rfl <;> norm_num
  have hpri : (Ex.limitArgs [2, 3]).floating.map (fun q => ((Ex.shapeState k).params (q - 2)).prior) =
      [10, 10] := rfl
  have hten : Combination Ex.shapeValues [10, 10] := .cons (by simp) (.cons (by simp) .nil)
  have ho : ([10, 10] : List ℝ) = comparedContents false ((Ex.limitArgs [2, 3]).backgroundAt
      (Ex.shapeState k) (Ex.shapeContents k) (Ex.shapeContents k 0).shape
      (([10, 10] : List ℝ).map Ex.toInt)) := by
    rw [show ([10, 10] : List ℝ).map Ex.toInt = [10, 10] by simp [Ex.toInt], (shape_compared k 10).1]
    norm_num
  obtain ⟨ses, st', u₁, w, h1, h2, h3, h4⟩ := c152_expected_partial (env := Ex.fitEnv)
    (keyOf := Ex.keyOf) (rnd := Ex.toInt) (par := fun q => q - 2) (shape_limitOn hk) (shape_evaluable k)
    (shape_own k) (by simp [Ex.limitArgs]) (shape_rates k) ex_limitNames (shape_contents hk)
    shape_search (.cons ⟨rfl, rfl⟩ (.cons ⟨rfl, rfl⟩ .nil)) shape_exact
    (by simp [Ex.limitArgs]) (fun _ _ => rfl) (by rw [hpri]; exact hten)
    (B := fun u => comparedContents false ((Ex.limitArgs [2, 3]).backgroundAt
      (Ex.shapeState k) (Ex.shapeContents k) (Ex.shapeContents k 0).shape (u.map Ex.toInt)))
    (fun _ => rfl) (o := [10, 10]) (by rw [hpri]; exact ho)
    (by
      intro v hv
      have : v = 10 := by simpa using hv
      rw [this, zeroThreshold]
      norm_num)
  refine ⟨ses, st', u₁, w, h1, h2, h3, ?_⟩
  have hsub : ∀ x ∈ ([0, 2] : List ℝ), x = 0 ∨ x = 2 := fun x hx => by simpa using hx
  have hd : (((Ex.shapeState k).view 4).numDecays : ℝ) = 2 := ex_limitDecays
  have hc : ¬ npCloseReal 2 0 := by
    unfold npCloseReal
    norm_num
  obtain ⟨M, m1, m2, m3, m4⟩ := h4 [] [0, 2]
    (fun x hx hcl => by
      rcases hsub x hx with rfl | rfl
      · exact absurd (by unfold npCloseReal; norm_num) hcl
      · simp [Ex.toInt]) (by simp) (by
      intro x hx
      rcases hsub x hx with rfl | rfl <;> norm_num) (by norm_num)
    (fun x u => Ex.shapeStat k x (u.getD 1 0))
    (by
      intro x hx u hu
      obtain ⟨y, hy, rfl, e⟩ := shape_combination hu
      have hy0 : (5 : ℝ) ≤ y := by rcases hy with rfl | rfl <;> norm_num
      obtain ⟨e1, e2⟩ := shape_compared k y
      rw [e, e1]
      refine ⟨fun hcl => ?_, fun hcl => ?_⟩
      · rcases hsub x hx with rfl | rfl
        · have := ex_expectedTotal (e₁ := 8 + (y : ℝ) / 5) (e₂ := 9 + (y : ℝ) / 10) (by linarith)
            (by linarith)
          simpa [Ex.shapeStat, Ex.limitArgs] using this
        · exact absurd hcl hc
      · rcases hsub x hx with rfl | rfl
        · exact absurd (by unfold npCloseReal; norm_num) hcl
        · rw [show (Ex.limitArgs [2, 3]).singleBin = false from rfl, e2, hd,
            show ((Ex.toInt 2 : ℚ) : ℝ) = 2 by simp [Ex.toInt]]
          have := ex_expectedTotal (e₁ := 8 + (y : ℝ) / 5 + 2 / 2) (e₂ := 9 + (y : ℝ) / 10 + 2 * (k : ℝ) / 2)
            (by linarith) (by linarith)
          simpa [expectedAt, Ex.shapeStat, Ex.limitArgs] using this) [] (by simp) (1 / 100)
  have hpen : ∀ b : ℝ, (Ex.limitArgs [2, 3]).penaltyAt (Ex.shapeState k) [10, b] = 0 := fun b =>
    (ex_floatPenalty 10 b).trans (by norm_num)
  obtain ⟨⟨u, hu, hMu⟩, hmin⟩ := m1 2 (by simp)
  refine ⟨M, m2, ?_, ?_, (m3 2).trans ⟨fun ⟨_, g1, g2⟩ => ⟨g1, g2 0 (by simp) (by norm_num)⟩, fun ⟨g1, g2⟩ =>
    ⟨by simp, g1, fun y hy hlt => ?_⟩⟩, m4.trans ⟨fun g => ⟨g 0 (by simp), g 2 (by simp)⟩, fun ⟨g1, g2⟩ y hy => ?_⟩⟩
  · obtain ⟨y, hy, rfl, -⟩ := shape_combination hu
    dsimp only at hMu
    rw [hpen, add_zero] at hMu
    rcases hy with rfl | rfl
    · exact .inl (hMu.symm.trans (by norm_num))
    · exact .inr (hMu.symm.trans (by norm_num))
  · have := hmin [10, 5] (.cons (by simp) (.cons (by simp) .nil))
    dsimp only at this
    rw [hpen, add_zero] at this
    exact this
  · rcases hsub y hy with rfl | rfl
    · exact g2
    · exact absurd hlt (lt_irrefl _)
  · rcases hsub y hy with rfl | rfl
    · exact g1
    · exact g2

/-- **C173, negation with floating backgrounds.** There more signal can weaken an expected limit: two programs
differ in nothing but one more bin with signal, and have the limit 2 without it and none with it, for the same
scalings and threshold. With it the signal looks like one of the backgrounds. -/
theorem c173_floating_negation : ∃ ses₁ st₁ u₁ w₁ ses₂ st₂ u₂ w₂,
    ((Ex.shapeState 0).objs 4).data = Ex.four 0 1 1 0 ∧
    (Ex.shapeState (1 / 2)).objs 4 = { (Ex.shapeState 0).objs 4 with data := Ex.four 0 1 1 (1 / 2) } ∧
    (∀ r ≠ 4, (Ex.shapeState (1 / 2)).objs r = (Ex.shapeState 0).objs r) ∧
    init Ex.keyOf (Ex.limitArgs [2, 3]) (Ex.shapeState 0) = (st₁, .ok ses₁) ∧
    init Ex.keyOf (Ex.limitArgs [2, 3]) (Ex.shapeState (1 / 2)) = (st₂, .ok ses₂) ∧
    ses₁.study Ex.toInt Ex.studyRate st₁ = ((ses₁, u₁), .ok ()) ∧
    ses₂.study Ex.toInt Ex.studyRate st₂ = ((ses₂, u₂), .ok ()) ∧
    Fitter.limitInit ⟨ses₁, u₁, Ex.shapeSearch⟩ 4 true = (w₁, .ok ()) ∧
    Fitter.limitInit ⟨ses₂, u₂, Ex.shapeSearch⟩ 4 true = (w₂, .ok ()) ∧
    (w₁.limitOf Ex.fitEnv Ex.toInt 4 [0, 2] [] none (1 / 100)).2 = .ok 2 ∧
    (w₂.limitOf Ex.fitEnv Ex.toInt 4 [0, 2] [] none (1 / 100)).2 = .error .limitError := by
  obtain ⟨ses₁, st₁, u₁, w₁, h1, h2, h3, M, h4, h5, h6, h7, -⟩ := shape_limit (k := 0) (.inl rfl)
  obtain ⟨ses₂, st₂, u₂, w₂, k1, k2, k3, N, k4, k5, k6, -, k8⟩ := shape_limit (k := 1 / 2) (.inr rfl)
  refine ⟨ses₁, st₁, u₁, w₁, ses₂, st₂, u₂, w₂, rfl, rfl, fun r hr => ?_, h1, k1, h2, k2, h3, k3,
    h7.2 ⟨?_, ?_⟩, k8.2 ⟨?_, ?_⟩⟩
  · simp [Ex.shapeState, hr]
  · rcases h5 with h5 | h5 <;> rw [h5] <;> norm_num [Ex.shapeStat]
  · rw [h4]; norm_num
  · rw [k4]; norm_num
  · refine k6.trans ?_
    norm_num [Ex.shapeStat]

end Verif
