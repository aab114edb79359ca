import Verif.Props.Normalise

/-! # C165: limits from different lists of scalings -/

namespace Verif

open Session

variable {env : FitEnv} {keyOf : ℕ → PyStr} {a : FitArgs} {ts : List Spectrum} {r d : ℕ}
  {st : FitState} {rnd : ℝ → ℚ}

/-- **C165.** A fit is made from data and fixed backgrounds, and a limit from it and a signal that has no
negative contents and represents a positive number of decays. Limits are set for two lists of scalings,
in both of which one is allowed, at the same threshold, whatever has been asked for before each. When
both are found, every scaling tested for one of them that lies below it also lies below the other one:
so they differ by no more than the steps of the lists, and a list that contains the other limit gives
one that is not larger. When the second raises `LimitError`, all of its scalings are below the limit
found with the first. (Partial: the suppositions of C147.) -/
theorem c165_lists_partial (h : a.LimitOn r d ts st) (hfx : a.fixed ≠ []) (hfl : a.floating = [])
    (hstat : a.statPerBin = false) {ns : List PyStr}
    (hns : RoiNames (st.view d).cfg (inOrder a.roi) ns) {c : ℕ → NdArray ℚ}
    (hc : ∀ q ∈ (a.withSignal r).kept ++ a.fixed.map Prod.fst,
      RegionContents (inOrder a.roi) ns (st.view q) (c q)) (search : GridSearch)
    (hpars : search.pars = []) (hdec : 0 < (st.view r).numDecays)
    (hpos : ∀ x ∈ comparedContents a.singleBin (c r), 0 ≤ x) {obs bkg : List ℝ}
    (hobs : obs = comparedContents a.singleBin (c d))
    (hbkg : bkg = comparedContents a.singleBin (a.fixedTotal st c (c d).shape)) {E : ℝ → List ℝ}
    (hE : ∀ x, E x = expectedAt bkg (comparedContents a.singleBin (c r))
      (x / ((st.view r).numDecays : ℝ))) :
    ∃ ses st' w, init keyOf a st = (st', .ok ses) ∧
      Fitter.limitInit ⟨ses, st', search⟩ r true = (w, .ok ()) ∧
      ∀ (calls calls' : List LimitCall) (scales scales' : List ℝ),
      Testable rnd (allScales calls ++ scales) → Testable rnd (allScales calls' ++ scales') →
      (∀ x ∈ scales ++ scales', ¬ npCloseReal x 0 → ((rnd x : ℚ) : ℝ) = x) →
      (∀ x ∈ scales ++ scales', npCloseReal x 0 → x = 0) →
      scales.Pairwise (· < ·) → scales'.Pairwise (· < ·) →
      (∀ x ∈ scales ++ scales', a.stat.Sound obs (E x)) →
      ∀ F₀, a.stat.Total obs (E 0) F₀ → ∀ limit : ℝ,
      (∃ z ∈ scales, ∃ v, a.stat.Total obs (E z) v ∧ v - F₀ ≤ limit) →
      (∃ z ∈ scales', ∃ v, a.stat.Total obs (E z) v ∧ v - F₀ ≤ limit) →
      ∀ (sigmas : List (Option ℝ)), (∀ s ∈ sigmas, s ≠ none) → ∀ (x : ℝ),
      ((w.afterCalls env rnd r calls).limitOf env rnd r scales sigmas none limit).2 = .ok x →
      (∀ x', ((w.afterCalls env rnd r calls').limitOf env rnd r scales' sigmas none limit).2 = .ok x' →
        (∀ z ∈ scales, z < x → z < x') ∧ (∀ z ∈ scales', z < x' → z < x) ∧
        (x ∈ scales' → x' ≤ x)) ∧
      (((w.afterCalls env rnd r calls').limitOf env rnd r scales' sigmas none limit).2 =
          .error .limitError → ∀ z ∈ scales', z < x) := by
  obtain ⟨ses, st', w, h1, h2, h3⟩ := c147_excluded_partial (env := env) (keyOf := keyOf) (rnd := rnd)
    h hfx hfl hstat hns hc search hpars hdec hpos hobs hbkg hE
  obtain ⟨ses₂, st₂, w₂, i1, i2, i3⟩ := c147_counting_partial (env := env) (keyOf := keyOf) (rnd := rnd)
    h hfx hfl hstat hns hc search hpars
  rw [h1] at i1
  obtain ⟨rfl, i1'⟩ := Prod.mk.inj i1
  obtain rfl := Except.ok.inj i1'
  rw [h2] at i2
  obtain ⟨rfl, -⟩ := Prod.mk.inj i2
  have hg := h.given
  have hreg := inOrder_isDict hg.region
  have hdm : d ∈ (a.withSignal r).kept ++ a.fixed.map Prod.fst := by simp [FitArgs.kept, h.data]
  have hrm : r ∈ (a.withSignal r).kept ++ a.fixed.map Prod.fst := by simp [FitArgs.kept]
  have hshape : (c r).shape = (c d).shape :=
    same_shape hreg (hg.able d hdm) (hg.able r hrm) (h.axes r hrm) (hc d hdm) (hc r hrm)
  refine ⟨ses, st', w, h1, h2, ?_⟩
  intro calls calls' scales scales' ht ht' hrnd hzero hs hs' hsound F₀ hF₀ limit hal hal' sigmas hsig x hx
  have total : ∀ y, ∃ v, a.stat.Total obs (E y) v := by
    intro y
    refine exists_total _ ?_
    have := hsound
    obtain ⟨z, hz, v, hv, -⟩ := hal
    have hl := (hsound z (List.mem_append_left _ hz)).length_eq
    rw [hE] at hl ⊢
    rw [hl]
    unfold expectedAt
    simp only [List.length_zipWith]
  obtain ⟨ex1, z, hz, hzx, hgap, hzal⟩ := h3 calls scales ht
    (fun x hx => hrnd x (List.mem_append_left _ hx)) (fun x hx => hzero x (List.mem_append_left _ hx)) hs
    (fun x hx => hsound x (List.mem_append_left _ hx)) F₀ hF₀ limit hal sigmas x hx
  refine ⟨fun x' hx' => ?_, fun he y hy => ?_⟩
  · obtain ⟨ex2, z', hz', hzx', hgap', hzal'⟩ := h3 calls' scales' ht'
      (fun x hx => hrnd x (List.mem_append_right _ hx)) (fun x hx => hzero x (List.mem_append_right _ hx)) hs'
      (fun x hx => hsound x (List.mem_append_right _ hx)) F₀ hF₀ limit hal' sigmas x' hx'
    have k1 : z < x' := by
      by_contra hcon
      obtain ⟨v, hv⟩ := total z
      linarith [ex2 z v (not_lt.1 hcon) hv, hzal v hv]
    have k2 : z' < x := by
      by_contra hcon
      obtain ⟨v, hv⟩ := total z'
      linarith [ex1 z' v (not_lt.1 hcon) hv, hzal' v hv]
    have k3 : ∀ y ∈ scales', y < x' → y < x := fun y hy hyx => by
      rcases hgap' y hy with h | h
      · exact lt_of_le_of_lt h k2
      · exact absurd hyx (not_lt.2 h)
    refine ⟨fun y hy hyx => ?_, k3, fun hmem => ?_⟩
    · rcases hgap y hy with h | h
      · exact lt_of_le_of_lt h k1
      · exact absurd hyx (not_lt.2 h)
    · by_contra hcon
      exact lt_irrefl _ (k3 x hmem (not_le.1 hcon))
  · choose F hF using total
    have hFm : ∀ y v, a.stat.Total obs (E y) v → v = F y := fun y v hv => total_unique hv (hF y)
    obtain ⟨p, hp, p', hp', hp''⟩ := hal'
    have e0 : E 0 = bkg := by
      have hl : bkg.length = (comparedContents a.singleBin (c r)).length := by
        rw [hbkg]
        exact (compared_length a.singleBin (a := a.fixedTotal st c (c d).shape) (b := c r) hshape).symm
      rw [hE, zero_div]
      unfold expectedAt
      refine List.ext_getElem (by rw [List.length_zipWith, ← hl, Nat.min_self]) fun i h₁ h₂ => ?_
      rw [List.getElem_zipWith]
      ring
    obtain ⟨b, hb, -, hbe⟩ := i3 calls' scales' ht' (List.ne_nil_of_mem hp) hs' F₀ F
      (by rw [← hobs, ← hbkg, ← e0]; exact hF₀)
      (fun y hy => by
        have hy' : y ∈ scales ++ scales' := List.mem_append_right _ hy
        refine ⟨fun hcl => ?_, fun hcl => ?_⟩
        · rw [hzero y hy' hcl]
          exact (hFm 0 F₀ hF₀).symm
        · rw [hrnd y hy' hcl, ← hobs, ← hbkg, ← hE]
          exact hF y) sigmas hsig limit
    rw [hbe] at he
    by_contra hcon
    have hxy : x ≤ y := not_lt.1 hcon
    have hb1 := (hb.2 p hp).1
    rw [hFm p p' hp'] at hp''
    have hbx : b < x := by
      by_contra hc'
      linarith [ex1 b (F b) (not_lt.1 hc') (hF b)]
    linarith [he y hy (hbx.le.trans hxy), ex1 y (F y) hxy (hF y)]

/-- The limit for the scalings 0, 4, 10 and 20 is 20 (see C147). So a limit for the scalings 4 and 20 is
above 10, and there is one. -/
example : ∃ ses st' w, init Ex.keyOf (Ex.limitArgs []) Ex.limitState = (st', .ok ses) ∧
    Fitter.limitInit ⟨ses, st', GridSearch.new [] [] none false⟩ 4 true = (w, .ok ()) ∧
    (((w.afterCalls Ex.fitEnv Ex.toInt 4 [.statistics [4]]).limitOf Ex.fitEnv Ex.toInt 4
      [0, 4, 10, 20] [] none 3).2 = .ok 20 →
      (∀ x, ((w.afterCalls Ex.fitEnv Ex.toInt 4 []).limitOf Ex.fitEnv Ex.toInt 4 [4, 20] [] none 3).2 =
        .ok x → 10 < x) ∧
      ((w.afterCalls Ex.fitEnv Ex.toInt 4 []).limitOf Ex.fitEnv Ex.toInt 4 [4, 20] [] none 3).2 ≠
        .error .limitError) := by
  obtain ⟨e1, e2, e3⟩ := ex_limitCompared
  have h1' : zeroThreshold ≤ 1 := by unfold zeroThreshold; norm_num
  obtain ⟨ses, st', w, h1, h2, h3⟩ := c165_lists_partial (env := Ex.fitEnv) (keyOf := Ex.keyOf)
    (rnd := Ex.toInt) (ex_limitOn (.inl rfl)) (by simp [Ex.limitArgs]) rfl rfl ex_limitNames
    (ex_limitContents' (.inl rfl)) (GridSearch.new [] [] none false) rfl (by change (0 : ℚ) < 2; norm_num)
    (by rw [show (Ex.limitArgs []).singleBin = false from rfl, e3]; simp) e1.symm e2.symm
    (E := fun y => [5 + y / 2, 5])
    (fun x => by
      rw [show (Ex.limitArgs []).singleBin = false from rfl, e3, ex_limitDecays, ex_limitExpected])
  refine ⟨ses, st', w, h1, h2, fun hlim => ?_⟩
  have hsc : ∀ x ∈ ([0, 4, 10, 20] ++ [4, 20] : List ℝ), x = 0 ∨ x = 4 ∨ x = 10 ∨ x = 20 := by
    intro x hx
    simp at hx
    tauto
  have hm : ∀ x : ℝ, x = 0 ∨ x = 4 ∨ x = 10 ∨ x = 20 → x ∈ [(4 : ℝ)] ++ [0, 4, 10, 20] := by
    intro x hx
    simp
    tauto
  have h4 : ∃ v, Stat.pearson.Total [7, 8] [5 + (4 : ℝ) / 2, 5] v ∧ v - 13 / 5 ≤ 3 :=
    ⟨9 / 5, (ex_limitTotal (x := 4) (by norm_num) (9 / 5)).2 (by norm_num), by norm_num⟩
  obtain ⟨k1, k2⟩ := h3 [.statistics [4]] [] [0, 4, 10, 20] [4, 20]
    (fun x hx h => (ex_limitScales hx h).2)
    (fun x hx h => (ex_limitScales (hm x (hsc x (List.mem_append_right _ hx))) h).2)
    (fun x hx h => (ex_limitScales (hm x (hsc x hx)) h).1) (by
      intro x hx h0
      rcases hsc x hx with rfl | rfl | rfl | rfl
      · rfl
      all_goals (unfold npCloseReal at h0; norm_num at h0)) (by norm_num) (by norm_num) (by
      intro x hx
      have hx0 : 0 ≤ x := by rcases hsc x hx with rfl | rfl | rfl | rfl <;> norm_num
      have hb : ∀ o e : ℝ, 1 ≤ o → 1 ≤ e → Stat.pearson.SoundBin o e := fun o e ho he =>
        ⟨.inr (h1'.trans ho), by linarith, .inr (h1'.trans he)⟩
      exact .cons (hb _ _ (by norm_num) (by linarith)) (.cons (hb _ _ (by norm_num) (by norm_num)) .nil))
    (13 / 5) ((ex_limitTotal (x := 0) le_rfl (13 / 5)).2 (by norm_num)) 3
    ⟨4, by simp, h4⟩ ⟨4, by simp, h4⟩ [] (by simp) 20 hlim
  refine ⟨fun x hx => ((k1 x hx).1 10 (by simp) (by norm_num)), fun he => ?_⟩
  exact lt_irrefl _ (k2 he 20 (by simp))

end Verif
