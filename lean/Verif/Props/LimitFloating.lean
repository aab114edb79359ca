import Verif.Lemmas.LimitFloating

/-! # C147: limits set with a fit made from its arguments, with floating backgrounds -/

namespace Verif

open Session

variable {env : FitEnv} {keyOf : ℕ → PyStr} {a : FitArgs} {ts : List Spectrum} {r d : ℕ}
  {st : FitState} {rnd : ℝ → ℚ} {vss : List (List ℝ)}

/-- **C147, floating backgrounds.** A fit by grid search is made from data, fixed and floating
backgrounds with a rate each, and a limit from it and a signal. `G₀ u` is the statistic of the data
and the backgrounds in the region, the floating ones scaled to the rates `u`, and `G x u` that with
the signal scaled to `x` decays added (without it when `x` is zero, or close to zero). Then both
constructors succeed, and whatever limits have been set or statistics asked for before: the rates are
fitted anew for every scaling, at the first of the combinations of their values with the smallest sum
of statistic and penalty; the limit is the first tested scaling from the best one on at which the
statistic there, with the penalty there, exceeds that of the best fit without signal by more than the
threshold; and when there is none the limit fails with `LimitError`. (Partial: the suppositions of
C99 and C62; at most one axis is projected out; the values of the rates are not rounded.) -/
theorem c147_floating_partial (h : a.LimitOn r d ts st)
    (he : (a.withSignal r).Evaluable env keyOf d st) (ho : a.OwnRates st) {ns : List PyStr}
    (hns : RoiNames (st.view d).cfg (inOrder a.roi) ns) {c : ℕ → NdArray ℚ}
    (hc : ∀ q ∈ (a.withSignal r).kept ++ a.fixed.map Prod.fst,
      RegionContents (inOrder a.roi) ns (st.view q) (c q)) {search : GridSearch}
    (hsearch : RateSearch rnd search vss a.floating.length)
    (hsame : List.Forall₂ (fun p (q : FitPar) => q.prior = (st.params p).prior ∧
      q.sigma = (st.params p).sigma) (a.parameters st) search.pars)
    (hex : ∀ vs ∈ vss, ∀ x ∈ vs, ((rnd x : ℚ) : ℝ) = x) :
    ∃ ses st' w, init keyOf a st = (st', .ok ses) ∧
      Fitter.limitInit ⟨ses, st', search⟩ r true = (w, .ok ()) ∧
      ∀ (calls : List LimitCall) (scales : List ℝ), Testable rnd (allScales calls ++ scales) →
      scales ≠ [] → scales.Pairwise (· < ·) → ∀ (G₀ : List ℝ → ℝ) (G : ℝ → List ℝ → ℝ),
      (∀ u, Combination vss u → a.stat.Total (comparedContents a.singleBin (c d))
        (comparedContents a.singleBin (a.backgroundAt st c (c d).shape (u.map rnd))) (G₀ u)) →
      (∀ x ∈ allScales calls ++ scales, ∀ u, Combination vss u → (npCloseReal x 0 → G x u = G₀ u) ∧
        (¬ npCloseReal x 0 → a.stat.Total (comparedContents a.singleBin (c d))
          (expectedAt (comparedContents a.singleBin (a.backgroundAt st c (c d).shape (u.map rnd)))
            (comparedContents a.singleBin (c r)) ((rnd x : ℝ) / ((st.view r).numDecays : ℝ)))
          (G x u))) →
      ∀ (sigmas : List (Option ℝ)), (∀ s ∈ sigmas, s ≠ none) → ∀ (limit : ℝ),
      ∃ (best₀ : List ℝ) (best : ℝ → List ℝ),
        FirstBest vss (fun u => G₀ u + a.penaltyAt st u) best₀ ∧
        (∀ x ∈ scales, FirstBest vss (fun u => G x u + a.penaltyAt st u) (best x)) ∧
        ∃ b, BestScale scales (fun x => G x (best x)) b ∧
          (∀ x, ((w.afterCalls env rnd r calls).limitOf env rnd r scales sigmas none limit).2 = .ok x ↔
            FirstCrossing scales (fun y => G y (best y) - G₀ best₀ + a.penaltyAt st (best y))
              b limit x) ∧
          (((w.afterCalls env rnd r calls).limitOf env rnd r scales sigmas none limit).2 =
              .error .limitError ↔
            ∀ y ∈ scales, b ≤ y → G y (best y) - G₀ best₀ + a.penaltyAt st (best y) ≤ limit) := by
  obtain ⟨ses, st', w, h1, h2, h3, h4, h5, h6, h7, h8, h9, f, f1, f2, f3, f4, f5, f6, f7, hoff, hon⟩ :=
    limit_evaluated h he ho hns hc search
  exact ⟨ses, st', w, h1, h2,
    limit_found ho hsearch hsame hex h3 h4 h5 h6 h7 h8 f1 f2 f3 f4 f5 f6 f7 hoff hon⟩

/-! ### a case that meets the hypotheses -/

theorem ex_floatEvaluable : ((Ex.limitArgs [2, 3]).withSignal 4).Evaluable Ex.fitEnv Ex.keyOf 0
    Ex.limitState := by
  have h := exWhole_evaluable (config := []) (.inl rfl)
  refine ⟨rfl, h.str, rfl, h.backgrounds, fun _ _ => rfl, h.dims, ?_, h.names, h.pars, h.globals,
    h.rates⟩
  intro r hr
  have : r = 2 ∨ r = 3 ∨ r = 4 := by simpa [Ex.limitArgs] using hr
  rcases this with rfl | rfl | rfl <;> simp [FitState.view, Ex.limitState, Ex.fitObj]

theorem ex_floatRates : (Ex.limitArgs [2, 3]).OwnRates Ex.limitState where
  floating := by simp [Ex.limitArgs]
  config := rfl
  one := by
    intro r hr
    have : r = 2 ∨ r = 3 := by simpa [Ex.limitArgs] using hr
    rcases this with rfl | rfl
    · exact ⟨0, rfl⟩
    · exact ⟨1, rfl⟩
  sigmas := by
    intro p hp
    have : p = 0 ∨ p = 1 := by
      have : p ∈ [0, 1] := hp
      simpa using this
    rcases this with rfl | rfl <;> simp [Ex.limitState, Ex.fitState, Ex.fitParam]
  statPerBin := rfl
  perBin := rfl

/-- The backgrounds in the region, at the rates `a` and `b`. -/
theorem ex_floatBackground (a b : ℚ) :
    comparedContents false ((Ex.limitArgs [2, 3]).backgroundAt Ex.limitState Ex.limitContents
      (Ex.limitContents 0).shape [a, b]) =
      [5 + 3 * (a : ℝ) / 10 + 2 * (b : ℝ) / 10, 5 + 4 * (a : ℝ) / 10 + (b : ℝ) / 10] := by
  have e : allIdx [2] = [[0], [1]] := rfl
  have h1 : (Ex.limitState.view 1).numDecays = 4 := rfl
  have h2 : (Ex.limitState.view 2).numDecays = 10 := rfl
  have h3 : (Ex.limitState.view 3).numDecays = 10 := rfl
  simp only [comparedContents, Bool.false_eq_true, if_false, FitArgs.backgroundAt]
  show (allIdx [2]).map _ = _
  rw [e]
  simp only [FitArgs.sumAt, Ex.limitArgs, Ex.limitContents, h1, h2, h3, List.map_cons, List.map_nil,
    List.zipWith_cons_cons, List.zipWith_nil_right, List.sum_cons, List.sum_nil, Option.toList_none]
  push_cast
  refine congrArg₂ _ (by ring) (congrArg₂ _ (by ring) rfl)

/-- The statistic at the rates `u` with the signal scaled to `x` decays. -/
noncomputable def Ex.floatStat (x : ℝ) (u : List ℝ) : ℝ :=
  let a := u.getD 0 0
  let b := u.getD 1 0
  (7 - (5 + 3 * a / 10 + 2 * b / 10 + x / 2)) ^ 2 / (5 + 3 * a / 10 + 2 * b / 10 + x / 2) +
    (8 - (5 + 4 * a / 10 + b / 10)) ^ 2 / (5 + 4 * a / 10 + b / 10)

theorem ex_floatTotal {e₁ e₂ : ℝ} (h₁ : 1 ≤ e₁) (h₂ : 1 ≤ e₂) :
    Stat.pearson.Total [7, 8] [e₁, e₂] ((7 - e₁) ^ 2 / e₁ + (8 - e₂) ^ 2 / e₂) := by
  have hlt : statEps < 1 := by unfold statEps; norm_num
  have h5 : ∀ y : ℝ, 1 ≤ y → ¬ y < statEps := fun y hy => not_lt.2 (hlt.le.trans hy)
  rw [total_iff _ (by simp)]
  simp only [List.zip_cons_cons, List.zip_nil_right, List.map_cons, List.map_nil, List.sum_cons,
    List.sum_nil, Stat.bin, pearsonBin, clampEps_of_ge (hlt.le.trans h₁),
    clampEps_of_ge (hlt.le.trans h₂)]
  rw [if_neg (h5 _ (by norm_num)), if_neg (h5 _ (by norm_num)), add_zero]

theorem ex_floatPenalty (a b : ℝ) : (Ex.limitArgs [2, 3]).penaltyAt Ex.limitState [a, b] =
    ((a - 10) / 2) ^ 2 := by
  unfold FitArgs.penaltyAt
  rw [show (Ex.limitArgs [2, 3]).parameters Ex.limitState = [0, 1] from rfl]
  simp [Ex.limitState, Ex.fitState, Ex.fitParam, pull, Ex.limitArgs]

/-- The limit for the threshold 3 is 20, after an earlier call; the rates of the two backgrounds are
searched for on a grid of 2 times 3 values. -/
example : ∃ ses st' w, init Ex.keyOf (Ex.limitArgs [2, 3]) Ex.limitState = (st', .ok ses) ∧
    Fitter.limitInit ⟨ses, st', Ex.closedSearch⟩ 4 true = (w, .ok ()) ∧
    ((w.afterCalls Ex.fitEnv Ex.toInt 4 [.statistics [4]]).limitOf Ex.fitEnv Ex.toInt 4
      [0, 4, 20] [] none 3).2 = .ok 20 := by
  obtain ⟨e1, -, e3⟩ := ex_limitCompared
  have hc : ∀ y : ℝ, 1 ≤ y → ¬ npCloseReal y 0 := by
    intro y hy
    unfold npCloseReal
    rw [sub_zero, abs_of_nonneg (by linarith)]
    norm_num
    linarith
  obtain ⟨ses, st', w, h1, h2, h3⟩ := c147_floating_partial (env := Ex.fitEnv) (keyOf := Ex.keyOf)
    (rnd := Ex.toInt) (vss := Ex.closedValues) (search := Ex.closedSearch) (ex_limitOn (.inr rfl))
    ex_floatEvaluable ex_floatRates ex_limitNames (ex_limitContents' (.inr rfl)) made_search
    (.cons ⟨rfl, rfl⟩ (.cons ⟨rfl, rfl⟩ .nil)) (by
      intro vs hvs x hx
      have : vs = [8, 10] ∨ vs = [7, 5, 3] := by simpa [Ex.closedValues] using hvs
      rcases this with rfl | rfl
      · have hx : x = 8 ∨ x = 10 := by simpa using hx
        rcases hx with rfl | rfl <;> simp [Ex.toInt]
      · have hx : x = 7 ∨ x = 5 ∨ x = 3 := by simpa using hx
        rcases hx with rfl | rfl | rfl <;> simp [Ex.toInt])
  refine ⟨ses, st', w, h1, h2, ?_⟩
  have hsub : ∀ x ∈ allScales [.statistics [4]] ++ ([0, 4, 20] : List ℝ), x = 0 ∨ x = 4 ∨ x = 20 := by
    intro x hx
    have : x = 4 ∨ x = 0 ∨ x = 4 ∨ x = 20 := by simpa [allScales, LimitCall.scales] using hx
    tauto
  have hint : ∀ x : ℝ, x = 0 ∨ x = 4 ∨ x = 20 → ((Ex.toInt x : ℚ) : ℝ) = x := by
    rintro x (rfl | rfl | rfl) <;> simp [Ex.toInt]
  have hrate : ∀ u, Combination Ex.closedValues u → ∃ a b : ℚ, u = [(a : ℝ), (b : ℝ)] ∧
      u.map Ex.toInt = [a, b] ∧ (8 : ℝ) ≤ a ∧ (3 : ℝ) ≤ b := by
    intro u hu
    obtain ⟨a, ha, b, hb, e, e'⟩ := closed_combination hu
    refine ⟨a, b, e, e', ?_, ?_⟩
    · have : a = 8 ∨ a = 10 := by simpa using ha
      rcases this with rfl | rfl <;> norm_num
    · have : b = 7 ∨ b = 5 ∨ b = 3 := by simpa using hb
      rcases this with rfl | rfl | rfl <;> norm_num
  obtain ⟨u₀, best, k1, k2, b, hb, hiff, -⟩ := h3 [.statistics [4]] [0, 4, 20]
    (fun x hx hcl => by
      rcases hsub x hx with rfl | rfl | rfl
      · exact absurd (by unfold npCloseReal; norm_num) hcl
      · simp [Ex.toInt]
      · simp [Ex.toInt]) (by simp) (by norm_num) (Ex.floatStat 0) Ex.floatStat
    (by
      intro u hu
      obtain ⟨a, b, rfl, e, ha, hb⟩ := hrate u hu
      rw [e, show (Ex.limitArgs [2, 3]).singleBin = false from rfl, e1, ex_floatBackground]
      have := ex_floatTotal (e₁ := 5 + 3 * (a : ℝ) / 10 + 2 * (b : ℝ) / 10)
        (e₂ := 5 + 4 * (a : ℝ) / 10 + (b : ℝ) / 10) (by linarith) (by linarith)
      simpa [Ex.floatStat, Ex.limitArgs] using this)
    (by
      intro x hx u hu
      obtain ⟨a, b, rfl, e, ha, hb⟩ := hrate u hu
      have hx := hsub x hx
      refine ⟨fun hcl => ?_, fun _ => ?_⟩
      · rcases hx with rfl | rfl | rfl
        · rfl
        · exact absurd hcl (hc _ (by norm_num))
        · exact absurd hcl (hc _ (by norm_num))
      rw [e, show (Ex.limitArgs [2, 3]).singleBin = false from rfl, e1, e3, ex_floatBackground,
        ex_limitDecays, hint x hx]
      have hx0 : 0 ≤ x := by rcases hx with rfl | rfl | rfl <;> norm_num
      have := ex_floatTotal (e₁ := 5 + 3 * (a : ℝ) / 10 + 2 * (b : ℝ) / 10 + x / 2)
        (e₂ := 5 + 4 * (a : ℝ) / 10 + (b : ℝ) / 10) (by linarith) (by linarith)
      simpa [expectedAt, Ex.floatStat, Ex.limitArgs] using this) [] (by simp) 3
  rw [hiff]
  have hb' : b ≤ 20 := by
    have h4 : b = 0 ∨ b = 4 ∨ b = 20 := by simpa using hb.1
    rcases h4 with rfl | rfl | rfl <;> norm_num
  have hten : ValuesAt Ex.closedValues [1, 2] [10, 3] :=
    ⟨.cons rfl (.cons rfl .nil), rfl⟩
  have hpos : ∀ u, Combination Ex.closedValues u → 0 ≤ Ex.floatStat 0 u := by
    intro u hu
    obtain ⟨a, b, rfl, -, ha, hb⟩ := hrate u hu
    simp only [Ex.floatStat, List.getD_cons_zero, List.getD_cons_succ]
    positivity
  obtain ⟨i₀, j1, j2⟩ := k1
  have hlow := hpos u₀ j1.comb
  have hup : Ex.floatStat 0 u₀ ≤ 1 := by
    have := (j2 _ _ hten).1
    obtain ⟨a, b, rfl, -, -, -⟩ := hrate u₀ j1.comb
    dsimp only at this
    rw [ex_floatPenalty, ex_floatPenalty] at this
    have e : Ex.floatStat 0 [10, 3] ≤ 1 := by
      simp only [Ex.floatStat, List.getD_cons_zero, List.getD_cons_succ]
      norm_num
    have := sq_nonneg (((a : ℝ) - 10) / 2)
    norm_num at *
    linarith
  have hsmall : ∀ x, (x = 0 ∨ x = 4) → x ∈ ([0, 4, 20] : List ℝ) →
      Ex.floatStat x (best x) - Ex.floatStat 0 u₀ +
        (Ex.limitArgs [2, 3]).penaltyAt Ex.limitState (best x) ≤ 3 := by
    intro x hx hm
    obtain ⟨i, g1, g2⟩ := k2 x hm
    have := (g2 _ _ hten).1
    dsimp only at this
    rw [ex_floatPenalty] at this
    have e : Ex.floatStat x [10, 3] ≤ 2 := by
      simp only [Ex.floatStat, List.getD_cons_zero, List.getD_cons_succ]
      rcases hx with rfl | rfl <;> norm_num
    norm_num at this
    linarith
  refine ⟨by simp, hb', ?_, fun y hy _ hlt => ?_⟩
  · obtain ⟨i, g1, g2⟩ := k2 20 (by simp)
    obtain ⟨a, b, e, -, ha, hb⟩ := hrate _ g1.comb
    dsimp only
    rw [e, ex_floatPenalty]
    have h6 : 6 ≤ Ex.floatStat 20 [(a : ℝ), (b : ℝ)] := by
      simp only [Ex.floatStat, List.getD_cons_zero, List.getD_cons_succ]
      have p1 : (0 : ℝ) < 5 + 3 * (a : ℝ) / 10 + 2 * (b : ℝ) / 10 + 20 / 2 := by linarith
      have p2 : (0 : ℝ) ≤ (8 - (5 + 4 * (a : ℝ) / 10 + (b : ℝ) / 10)) ^ 2 /
          (5 + 4 * (a : ℝ) / 10 + (b : ℝ) / 10) := by positivity
      have p3 : 6 ≤ (7 - (5 + 3 * (a : ℝ) / 10 + 2 * (b : ℝ) / 10 + 20 / 2)) ^ 2 /
          (5 + 3 * (a : ℝ) / 10 + 2 * (b : ℝ) / 10 + 20 / 2) := by
        rw [le_div_iff₀ p1]
        nlinarith
      linarith
    have := sq_nonneg (((a : ℝ) - 10) / 2)
    linarith
  · have h4 : y = 0 ∨ y = 4 ∨ y = 20 := by simpa using hy
    rcases h4 with rfl | rfl | rfl
    · exact hsmall 0 (.inl rfl) hy
    · exact hsmall 4 (.inr rfl) hy
    · exact absurd hlt (lt_irrefl _)

end Verif
