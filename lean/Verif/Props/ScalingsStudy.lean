import Verif.Lemmas.Reach
import Verif.Props.SensitivityLimit

/-! # C165: the same for expected limits, with floating backgrounds -/

namespace Verif

open Session

variable {env : FitEnv} {keyOf : ℕ → PyStr} {a : FitArgs} {ts : List Spectrum} {r d : ℕ}
  {st : FitState} {rnd : ℝ → ℚ} {rateOf : ℕ → Option ℕ} {par : ℕ → ℕ} {vss : List (List ℝ)}

/-- **C165, expected limits.** The sensitivity study is made, with rates of backgrounds that are fitted anew
for every scaling, and expected limits are set for two lists of scalings of which the second contains the
first, at the same threshold, whatever has been asked for before each. When the shorter list gives a limit, the
longer one gives one that is not larger; both are the same when the limit of the longer list is a scaling of the
shorter one; and when the longer list fails with `LimitError`, so does the shorter one. Nothing is supposed
about the contents of the signal. (Partial: as C152.) -/
theorem c165_expected_partial (h : a.LimitOn r d ts st)
    (he : (a.withSignal r).Evaluable env keyOf d st) (ho : a.OwnRates st) (hfx : a.fixed ≠ [])
    (hrate : ∀ q ∈ a.floating, (st.objs q).fit = some [par q] ∧ rateOf q = some (par q))
    {ns : List PyStr} (hns : RoiNames (st.view d).cfg (inOrder a.roi) ns) {c : ℕ → NdArray ℚ}
    (hc : ∀ q ∈ (a.withSignal r).kept ++ a.fixed.map Prod.fst,
      RegionContents (inOrder a.roi) ns (st.view q) (c q)) {search : GridSearch}
    (hsearch : RateSearch rnd search vss a.floating.length)
    (hsame : List.Forall₂ (fun p (q : FitPar) => q.prior = (st.params p).prior ∧
      q.sigma = (st.params p).sigma) (a.parameters st) search.pars)
    (hex : ∀ vs ∈ vss, ∀ x ∈ vs, ((rnd x : ℚ) : ℝ) = x)
    (hstat : a.stat ≠ .extLL) (hblank : ∀ idx, InB (c d).shape idx → (c d).get idx = 0)
    (hprior : Combination vss (a.floating.map (fun q => (st.params (par q)).prior)))
    (hcount : ∀ v ∈ comparedContents a.singleBin (a.backgroundAt st c (c d).shape
      (a.floating.map (fun q => rnd (st.params (par q)).prior))), zeroThreshold ≤ v) :
    ∃ ses st₁ u₁ w, init keyOf a st = (st₁, .ok ses) ∧
      ses.study rnd rateOf st₁ = ((ses, u₁), .ok ()) ∧
      Fitter.limitInit ⟨ses, u₁, search⟩ r true = (w, .ok ()) ∧
      ∀ (calls calls' : List LimitCall) (scales scales' : List ℝ), Testable rnd (allScales calls ++ scales) →
      Testable rnd (allScales calls' ++ scales') → 0 ∈ scales → (∀ x ∈ scales, x ∈ scales') →
      (∀ x ∈ scales', 0 ≤ x) → scales.Pairwise (· < ·) → scales'.Pairwise (· < ·) →
      ∀ (sigmas : List (Option ℝ)), (∀ s ∈ sigmas, s ≠ none) → ∀ (limit : ℝ),
      (∀ x, ((w.afterCalls env rnd r calls).limitOf env rnd r scales sigmas none limit).2 = .ok x →
        ∃ x' ≤ x, ((w.afterCalls env rnd r calls').limitOf env rnd r scales' sigmas none limit).2 = .ok x') ∧
      (∀ x' ∈ scales, ((w.afterCalls env rnd r calls').limitOf env rnd r scales' sigmas none limit).2 = .ok x' →
        ((w.afterCalls env rnd r calls).limitOf env rnd r scales sigmas none limit).2 = .ok x') ∧
      (((w.afterCalls env rnd r calls').limitOf env rnd r scales' sigmas none limit).2 =
          .error .limitError →
        ((w.afterCalls env rnd r calls).limitOf env rnd r scales sigmas none limit).2 =
          .error .limitError) := by
  classical
  have hreg := inOrder_isDict h.given.region
  have hdm : d ∈ (a.withSignal r).kept ++ a.fixed.map Prod.fst := by simp [FitArgs.kept, h.data]
  have hrm : r ∈ (a.withSignal r).kept ++ a.fixed.map Prod.fst := by simp [FitArgs.kept]
  have hshape : (c r).shape = (c d).shape :=
    same_shape hreg (h.given.able d hdm) (h.given.able r hrm) (h.axes r hrm) (hc d hdm) (hc r hrm)
  set B : List ℝ → List ℝ := fun u => comparedContents a.singleBin
    (a.backgroundAt st c (c d).shape (u.map rnd)) with hB
  set S := comparedContents a.singleBin (c r) with hS
  have hcount' : ∀ v ∈ B (a.floating.map (fun q => (st.params (par q)).prior)), zeroThreshold ≤ v := by
    intro v hv
    rw [hB] at hv
    simp only [List.map_map] at hv
    exact hcount v hv
  have hl : ∀ u v, (B u).length = (B v).length := fun u v =>
    compared_length _ (a := a.backgroundAt st c (c d).shape (v.map rnd))
      (b := a.backgroundAt st c (c d).shape (u.map rnd)) rfl
  have hl2 : ∀ u, (B u).length = S.length := fun u =>
    (compared_length _ (a := a.backgroundAt st c (c d).shape (u.map rnd)) (b := c r) hshape).symm
  obtain ⟨ses, st₁, u₁, w, i1, i2, i3, i4⟩ := c152_expected_partial (env := env) (keyOf := keyOf) (rnd := rnd)
    (rateOf := rateOf) (par := par) h he ho hfx hrate hns hc hsearch hsame hex hstat hblank hprior
    (B := B) (fun _ => rfl) rfl hcount'
  refine ⟨ses, st₁, u₁, w, i1, i2, i3, ?_⟩
  intro calls calls' scales scales' ht ht' h0 hsub hpos hinc hinc' sigmas hsg limit
  set o := B (a.floating.map (fun q => (st.params (par q)).prior)) with hob
  set G : ℝ → List ℝ → ℝ := fun x u => if npCloseReal x 0 then a.stat.sumBins o (B u) else
    a.stat.sumBins o (expectedAt (B u) S ((rnd x : ℝ) / ((st.view r).numDecays : ℝ))) with hG
  have total : ∀ x u, (npCloseReal x 0 → a.stat.Total o (B u) (G x u)) ∧ (¬ npCloseReal x 0 →
      a.stat.Total o (expectedAt (B u) S ((rnd x : ℝ) / ((st.view r).numDecays : ℝ))) (G x u)) := fun x u =>
    ⟨fun hcl => (total_iff _ (hl _ u) _).2 (if_pos hcl), fun hcl => (total_iff _ (by
      simp only [expectedAt, List.length_zipWith, ← hl2 u, Nat.min_self]
      exact hl _ u) _).2 (if_neg hcl)⟩
  obtain ⟨M, m1, -, m3, m4⟩ := i4 calls scales ht h0 (fun x hx => hpos x (hsub x hx)) hinc G
    (fun x _ u _ => total x u) sigmas hsg limit
  obtain ⟨M', n1, -, n3, n4⟩ := i4 calls' scales' ht' (hsub 0 h0) hpos hinc' G (fun x _ u _ => total x u)
    sigmas hsg limit
  have heq : ∀ x ∈ scales, M x = M' x := by
    intro x hx
    obtain ⟨⟨u, hu, hMu⟩, k1⟩ := m1 x hx
    obtain ⟨⟨v, hv, hMv⟩, k2⟩ := n1 x (hsub x hx)
    have l1 := k1 v hv
    have l2 := k2 u hu
    dsimp only at hMu hMv l1 l2
    linarith
  refine ⟨fun x hx => ?_, fun x' hx' hlim => ?_, fun herr => m4.2 fun y hy => ?_⟩
  · obtain ⟨g1, g2, -⟩ := (m3 x).1 hx
    have g3 : limit < M' x := heq x g1 ▸ g2
    obtain ⟨x', c1, c2, c3, c4⟩ := firstCrossing_exists (scales := scales') (F := M') (b := 0) (limit := limit)
      ⟨x, hsub x g1, hpos x (hsub x g1), g3⟩
    refine ⟨x', not_lt.1 fun hlt => ?_, (n3 x').2 ⟨c1, c3, fun y hy hyx => c4 y hy (hpos y hy) hyx⟩⟩
    exact absurd g3 (not_lt.2 (c4 x (hsub x g1) (hpos x (hsub x g1)) hlt))
  · obtain ⟨-, g2, g3⟩ := (n3 x').1 hlim
    exact (m3 x').2 ⟨hx', (heq x' hx').symm ▸ g2, fun y hy hyx => (heq y hy).trans_le (g3 y (hsub y hy) hyx)⟩
  · exact (heq y hy).trans_le (n4.1 herr y (hsub y hy))

/-- The scalings 0 and 20, and the scalings 0, 4, 10 and 20. -/
example : ∃ ses st₁ u₁ w, init Ex.keyOf (Ex.limitArgs [2, 3]) Ex.expectedState = (st₁, .ok ses) ∧
    ses.study Ex.toInt Ex.studyRate st₁ = ((ses, u₁), .ok ()) ∧
    Fitter.limitInit ⟨ses, u₁, Ex.expectedSearch⟩ 4 true = (w, .ok ()) ∧
    ∀ x, (w.limitOf Ex.fitEnv Ex.toInt 4 [0, 20] [] none 2).2 = .ok x →
      ∃ x' ≤ x, (w.limitOf Ex.fitEnv Ex.toInt 4 [0, 4, 10, 20] [] none 2).2 = .ok x' := by
  obtain ⟨ses, st₁, u₁, w, h1, h2, h3, h4⟩ := c165_expected_partial (env := Ex.fitEnv) (keyOf := Ex.keyOf)
    (rnd := Ex.toInt) (par := fun q => q - 2) ex_expectedOn ex_expectedEvaluable ex_expectedOwn
    (by simp [Ex.limitArgs]) ex_expectedRates ex_limitNames ex_expectedContents ex_expectedSearch
    (.cons ⟨rfl, rfl⟩ (.cons ⟨rfl, rfl⟩ .nil)) ex_expectedExact (by simp [Ex.limitArgs]) (fun _ _ => rfl)
    (by rw [ex_expectedPriors]; exact .cons (by simp) (.cons (by simp) .nil))
    (by
      rw [show (Ex.limitArgs [2, 3]).floating.map (fun q => Ex.toInt (Ex.expectedState.params (q - 2)).prior) =
        [10, 10] by simp [Ex.limitArgs, Ex.expectedState, Ex.limitState, Ex.fitState, Ex.fitParam, Ex.toInt],
        show (Ex.limitArgs [2, 3]).singleBin = false from rfl, ex_expectedBackground]
      intro v hv
      simp only [List.mem_cons, List.not_mem_nil, or_false] at hv
      rcases hv with rfl | rfl <;> norm_num [zeroThreshold])
  have hsub : ∀ x ∈ ([0, 20] : List ℝ), x ∈ ([0, 4, 10, 20] : List ℝ) := by
    intro x hx
    have : x = 0 ∨ x = 20 := by simpa using hx
    rcases this with rfl | rfl <;> simp
  exact ⟨ses, st₁, u₁, w, h1, h2, h3, (h4 [] [] [0, 20] [0, 4, 10, 20]
    (fun x hx => ex_plain.2 [] (.inl rfl) x (hsub x hx)) (ex_plain.2 [] (.inl rfl)) (by simp) hsub
    ex_plain.1.nonneg (by norm_num) ex_plain.1.increasing [] (by simp) 2).1⟩

end Verif
