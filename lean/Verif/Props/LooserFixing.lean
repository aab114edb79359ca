import Verif.Props.Looser
import Verif.Props.Fixing

/-! # C175: a background that floats never gives a stronger expected limit than one fixed at its prior -/

namespace Verif

open Session

variable {env : FitEnv} {keyOf : ℕ → PyStr} {a b : FitArgs} {ts ts' : List Spectrum} {r d q : ℕ}
  {l₁ l₂ : List ℕ} {st : FitState} {rnd : ℝ → ℚ} {rateOf : ℕ → Option ℕ} {par : ℕ → ℕ}
  {vs₁ vs₂ : List (List ℝ)} {vs : List ℝ}

theorem ratePenalty_prior {p : ℕ} (h : (st.objs q).fit = some [p]) :
    a.ratePenalty st q (st.params p).prior = 0 := by
  unfold FitArgs.ratePenalty
  rw [h]
  simp only [Option.getD_some, List.map_cons, List.map_nil, List.sum_cons, List.sum_nil, add_zero]
  split
  · rfl
  · simp [pull]

/-- **C175, fixed backgrounds.** The expected limit is set twice, by sensitivity study and limit: with the floating
background `q` among others, and, in a second program, with this background given as a fixed one, with its prior as
number of decays. Then the limit of the first program is never smaller: if it finds one, the second program
finds one that is not larger; and if the second fails with `LimitError`, so does the first. (Partial: as C152.) -/
theorem c175_fixing_partial (hf : a.Fixing b l₁ q l₂ (rnd (st.params (par q)).prior)) (hne : l₁ ++ l₂ ≠ [])
    (h : a.LimitOn r d ts st) (h' : b.LimitOn r d ts' st)
    (he : (a.withSignal r).Evaluable env keyOf d st) (ho : a.OwnRates st) (hfx : a.fixed ≠ [])
    (hrate : ∀ q ∈ a.floating, (st.objs q).fit = some [par q] ∧ rateOf q = some (par q))
    {ns : List PyStr} (hns : RoiNames (st.view d).cfg (inOrder a.roi) ns) {c : ℕ → NdArray ℚ}
    (hc : ∀ q ∈ (a.withSignal r).kept ++ a.fixed.map Prod.fst,
      RegionContents (inOrder a.roi) ns (st.view q) (c q)) {search search' : GridSearch}
    (hlen : vs₁.length = l₁.length)
    (hsearch : RateSearch rnd search (vs₁ ++ vs :: vs₂) a.floating.length)
    (hsearch' : RateSearch rnd search' (vs₁ ++ vs₂) b.floating.length)
    (hsame : List.Forall₂ (fun p (q : FitPar) => q.prior = (st.params p).prior ∧
      q.sigma = (st.params p).sigma) (a.parameters st) search.pars)
    (hsame' : List.Forall₂ (fun p (q : FitPar) => q.prior = (st.params p).prior ∧
      q.sigma = (st.params p).sigma) (b.parameters st) search'.pars)
    (hex : ∀ ws ∈ vs₁ ++ vs :: vs₂, ∀ x ∈ ws, ((rnd x : ℚ) : ℝ) = x)
    (hstat : a.stat ≠ .extLL) (hblank : ∀ idx, InB (c d).shape idx → (c d).get idx = 0)
    (hprior : Combination (vs₁ ++ vs :: vs₂) (a.floating.map (fun q => (st.params (par q)).prior)))
    (hcount : ∀ v ∈ comparedContents a.singleBin (a.backgroundAt st c (c d).shape
      (a.floating.map (fun q => rnd (st.params (par q)).prior))), zeroThreshold ≤ v) :
    ∃ ses st₁ u₁ w ses' st₂ u₂ w', init keyOf a st = (st₁, .ok ses) ∧ init keyOf b st = (st₂, .ok ses') ∧
      ses.study rnd rateOf st₁ = ((ses, u₁), .ok ()) ∧ ses'.study rnd rateOf st₂ = ((ses', u₂), .ok ()) ∧
      Fitter.limitInit ⟨ses, u₁, search⟩ r true = (w, .ok ()) ∧
      Fitter.limitInit ⟨ses', u₂, search'⟩ r true = (w', .ok ()) ∧
      ∀ (calls calls' : List LimitCall) (scales : List ℝ), Testable rnd (allScales calls ++ scales) →
      Testable rnd (allScales calls' ++ scales) → 0 ∈ scales → (∀ x ∈ scales, 0 ≤ x) →
      scales.Pairwise (· < ·) → ∀ (sigmas : List (Option ℝ)), (∀ s ∈ sigmas, s ≠ none) → ∀ (limit : ℝ),
      (∀ x, ((w.afterCalls env rnd r calls).limitOf env rnd r scales sigmas none limit).2 = .ok x →
        ∃ x' ≤ x, ((w'.afterCalls env rnd r calls').limitOf env rnd r scales sigmas none limit).2 = .ok x') ∧
      (((w'.afterCalls env rnd r calls').limitOf env rnd r scales sigmas none limit).2 =
          .error .limitError →
        ((w.afterCalls env rnd r calls).limitOf env rnd r scales sigmas none limit).2 =
          .error .limitError) := by
  classical
  have hreg := inOrder_isDict h.given.region
  have hdm : d ∈ (a.withSignal r).kept ++ a.fixed.map Prod.fst := by simp [FitArgs.kept, h.data]
  have hrm : r ∈ (a.withSignal r).kept ++ a.fixed.map Prod.fst := by simp [FitArgs.kept]
  have hshape : (c r).shape = (c d).shape :=
    same_shape hreg (h.given.able d hdm) (h.given.able r hrm) (h.axes r hrm) (hc d hdm) (hc r hrm)
  have hfs := hf.withSignal r
  have e1 : b.roi = a.roi := by rw [hf.rest]
  have e2 : b.stat = a.stat := by rw [hf.rest]
  have e3 : b.singleBin = a.singleBin := by rw [hf.rest]
  have e4 : b.floating = l₁ ++ l₂ := by rw [hf.rest]
  have hfit : (st.objs q).fit = some [par q] := (hrate q (by rw [hf.floating]; simp)).1
  set pr : ℕ → ℝ := fun q => (st.params (par q)).prior with hpr
  have hsplit : Combination vs₁ (l₁.map pr) ∧ pr q ∈ vs ∧ Combination vs₂ (l₂.map pr) := by
    rw [hf.floating, List.map_append, List.map_cons] at hprior
    obtain ⟨w₁, w₂, k0, k1, k2⟩ := combination_split hprior
    obtain ⟨k3, k4⟩ := List.append_inj k0 (by rw [List.length_map, k1.length_eq, hlen])
    rw [← k3] at k1
    rw [← k4] at k2
    obtain ⟨x, v, hx, hv, k5⟩ := List.forall₂_cons_right_iff.1 k2
    obtain ⟨rfl, rfl⟩ := List.cons.inj k5
    exact ⟨k1, hx, hv⟩
  have insert_comb : ∀ {w₁ w₂ : List ℝ}, Combination vs₁ w₁ → Combination vs₂ w₂ →
      Combination (vs₁ ++ vs :: vs₂) (w₁ ++ pr q :: w₂) := fun k1 k2 =>
    List.rel_append k1 (.cons hsplit.2.1 k2)
  set B : List ℝ → List ℝ := fun u => comparedContents a.singleBin
    (a.backgroundAt st c (c d).shape (u.map rnd)) with hB
  set B' : List ℝ → List ℝ := fun u => comparedContents b.singleBin
    (b.backgroundAt st c (c d).shape (u.map rnd)) with hB'
  set S := comparedContents a.singleBin (c r) with hS
  have hBB : ∀ {w₁ w₂ : List ℝ}, Combination vs₁ w₁ → B' (w₁ ++ w₂) = B (w₁ ++ pr q :: w₂) := by
    intro w₁ w₂ k1
    simp only [hB', hB, e3]
    rw [List.map_append, List.map_append, List.map_cons,
      hf.backgroundAt (by rw [List.length_map, k1.length_eq, hlen])]
  have hoo : B' (b.floating.map pr) = B (a.floating.map pr) := by
    rw [e4, hf.floating, List.map_append, List.map_append, List.map_cons]
    exact hBB hsplit.1
  have hcount' : ∀ v ∈ B (a.floating.map pr), zeroThreshold ≤ v := by
    intro v hv
    rw [hB] at hv
    simp only [List.map_map] at hv
    exact hcount v hv
  have hl : ∀ u v, (B u).length = (B v).length := fun u v =>
    compared_length _ (a := a.backgroundAt st c (c d).shape (v.map rnd))
      (b := a.backgroundAt st c (c d).shape (u.map rnd)) rfl
  have hl2 : ∀ u, (B u).length = S.length := fun u =>
    (compared_length _ (a := a.backgroundAt st c (c d).shape (u.map rnd)) (b := c r) hshape).symm
  have hfx' : b.fixed ≠ [] := fun h0 => by
    have := hf.fixed.length_eq
    rw [h0] at this
    simp at this
  obtain ⟨ses, st₁, u₁, w, i1, i2, i3, i4⟩ := c152_expected_partial (env := env) (keyOf := keyOf) (rnd := rnd)
    (rateOf := rateOf) (par := par) h he ho hfx hrate hns hc hsearch hsame hex hstat hblank hprior
    (B := B) (fun _ => rfl) rfl hcount'
  obtain ⟨ses', st₂, u₂, w', j1, j2, j3, j4⟩ := c152_expected_partial (env := env) (keyOf := keyOf)
    (rnd := rnd) (rateOf := rateOf) (par := par) h' (hfs.evaluable he) (hf.ownRates hne ho) hfx'
    (fun s hs => hrate s (by
      rw [e4] at hs
      rw [hf.floating]
      simp only [List.mem_append, List.mem_cons] at hs ⊢
      tauto)) (by rw [e1]; exact hns) (fun s hs => by rw [e1]; exact hc s (hfs.mem_spectra hs)) hsearch' hsame'
    (fun ws hw => hex ws (by simp only [List.mem_append, List.mem_cons] at hw ⊢; tauto))
    (by rw [e2]; exact hstat) hblank
    (by rw [e4, List.map_append]; exact List.rel_append hsplit.1 hsplit.2.2) (B := B') (fun _ => rfl) rfl
    (by rw [hoo]; exact hcount')
  refine ⟨ses, st₁, u₁, w, ses', st₂, u₂, w', i1, j1, i2, j2, i3, j3, ?_⟩
  intro calls calls' scales ht ht' h0 hpos hinc sigmas hsg limit
  set o := B (a.floating.map pr) with hob
  set G : ℝ → List ℝ → ℝ := fun x u => if npCloseReal x 0 then a.stat.sumBins o (B u) else
    a.stat.sumBins o (expectedAt (B u) S ((rnd x : ℝ) / ((st.view r).numDecays : ℝ))) with hG
  have total : ∀ x u, (npCloseReal x 0 → a.stat.Total o (B u) (G x u)) ∧ (¬ npCloseReal x 0 →
      a.stat.Total o (expectedAt (B u) S ((rnd x : ℝ) / ((st.view r).numDecays : ℝ))) (G x u)) := fun x u =>
    ⟨fun hcl => (total_iff _ (hl _ u) _).2 (if_pos hcl), fun hcl => (total_iff _ (by
      simp only [expectedAt, List.length_zipWith, ← hl2 u, Nat.min_self]
      exact hl _ u) _).2 (if_neg hcl)⟩
  obtain ⟨M, m1, -, m3, m4⟩ := i4 calls scales ht h0 hpos hinc G (fun x _ u _ => total x u) sigmas hsg limit
  obtain ⟨M', n1, -, n3, n4⟩ := j4 calls' scales ht' h0 hpos hinc (fun x u => G x (withValue vs₁.length (pr q) u))
    (fun x _ u hu => by
      obtain ⟨w₁, w₂, rfl, k1, -⟩ := combination_split hu
      rw [withValue_append k1.length_eq, hBB k1, hoo, e2, e3]
      exact total x _) sigmas hsg limit
  have hle : ∀ x ∈ scales, M x ≤ M' x := by
    intro x hx
    obtain ⟨⟨u, hu, hMu⟩, -⟩ := n1 x hx
    obtain ⟨w₁, w₂, rfl, k1, k2⟩ := combination_split hu
    have k3 := (m1 x hx).2 _ (insert_comb k1 k2)
    have k4 := hf.penaltyAt ho (w₂ := w₂) (k1.length_eq.trans hlen).symm (pr q)
    rw [ratePenalty_prior hfit, zero_add] at k4
    dsimp only at k3 hMu
    rw [withValue_append k1.length_eq] at hMu
    rw [k4] at k3
    linarith
  refine ⟨fun x hx => ?_, fun herr => ?_⟩
  · obtain ⟨g1, g2, -⟩ := (m3 x).1 hx
    obtain ⟨x', c1, c2, c3, c4⟩ := firstCrossing_exists (scales := scales) (F := M') (b := 0) (limit := limit)
      ⟨x, g1, hpos x g1, g2.trans_le (hle x g1)⟩
    refine ⟨x', not_lt.1 fun hlt => ?_, (n3 x').2 ⟨c1, c3, fun y hy hyx => c4 y hy (hpos y hy) hyx⟩⟩
    exact absurd (g2.trans_le (hle x g1)) (not_lt.2 (c4 x g1 (hpos x g1) hlt))
  · exact m4.2 fun y hy => (hle y hy).trans (n4.1 herr y hy)

namespace Ex

/-- The second background is fixed to 10 decays. -/
def looseFixed : FitArgs := { limitArgs [2, 3] with floating := [2], fixed := [(1, 20), (3, 10)] }

end Ex

theorem looseFixed_fixing : (Ex.limitArgs [2, 3]).Fixing Ex.looseFixed [2] 3 []
    (Ex.toInt (Ex.expectedState.params (3 - 2)).prior) where
  floating := rfl
  fixed := by
    rw [show Ex.toInt (Ex.expectedState.params (3 - 2)).prior = 10 by
      simp [Ex.expectedState, Ex.limitState, Ex.fitState, Ex.fitParam, Ex.toInt]]
    exact List.Perm.swap _ _ _
  rest := rfl

theorem looseFixed_suppliable :
    Suppliable (inOrder [(lit "energy", ((2 : ℚ), (1 : ℚ)))]) [(1, 20), (3, 10)]
      [(((Ex.expectedState.view 1).shrink exFitKw).st.scale 20).st,
        (((Ex.expectedState.view 3).shrink exFitKw).st.scale 10).st] Ex.expectedState := by
  rw [exInit_roi]
  refine ⟨?_, ?_, by unfold IsDict; decide, fun e he => fitAxis_dims,
    fun e he => by simp [FitState.view, Ex.expectedState, Ex.limitState, Ex.fitState], .cons ?_ (.cons ?_ .nil), ?_⟩
  · intro r hr
    have : r = 1 ∨ r = 3 := by simpa using hr
    rw [show Ex.expectedState.next = 5 from rfl]
    omega
  · show ([1, 3].map (fun r => (Ex.expectedState.objs r).cfg)).Nodup
    decide
  · exact ⟨exFitKw, exFit_asks, by decide +kernel, rfl, by decide +kernel⟩
  · exact ⟨exFitKw, exFit_asks, by decide +kernel, rfl, by decide +kernel⟩
  · have key : ((((Ex.expectedState.view 1).shrink exFitKw).st.scale 20).st).cfg =
        ((((Ex.expectedState.view 3).shrink exFitKw).st.scale 10).st).cfg ∧
        ((((Ex.expectedState.view 1).shrink exFitKw).st.scale 20).st).data.shape =
        ((((Ex.expectedState.view 3).shrink exFitKw).st.scale 10).st).data.shape := by decide +kernel
    intro t ht t' ht'
    simp only [List.mem_cons, List.not_mem_nil, or_false] at ht ht'
    rcases ht with rfl | rfl <;> rcases ht' with rfl | rfl
    · exact ⟨rfl, rfl⟩
    · exact ⟨key.1.symm, key.2.symm⟩
    · exact key
    · exact ⟨rfl, rfl⟩

theorem looseFixed_limitOn : Ex.looseFixed.LimitOn 4 0
    [(((Ex.expectedState.view 1).shrink exFitKw).st.scale 20).st,
      (((Ex.expectedState.view 3).shrink exFitKw).st.scale 10).st] Ex.expectedState := by
  have h := ex_expectedOn
  have hg := h.given
  refine ⟨⟨hg.region, hg.some, ?_, ?_, ?_, looseFixed_suppliable⟩, ?_, rfl, rfl, fun _ _ => rfl, h.fit, h.decays,
    h.region⟩
  · intro r hr
    refine hg.alloc r ?_
    have : r = 0 ∨ r = 4 ∨ r = 2 := by simpa [FitArgs.kept, Ex.limitArgs, Ex.looseFixed] using hr
    simp [FitArgs.kept, Ex.limitArgs]
    omega
  · show (([0, 4, 2] ++ [1, 3]).map (fun r => (Ex.expectedState.objs r).cfg)).Nodup
    decide
  · intro r hr
    refine hg.able r ?_
    have : r = 0 ∨ r = 4 ∨ r = 2 ∨ r = 1 ∨ r = 3 := by
      simpa [FitArgs.kept, Ex.limitArgs, Ex.looseFixed] using hr
    simp [FitArgs.kept, Ex.limitArgs]
    omega
  · exact
      { floating := fun _ => .inr ⟨2, by simp [Ex.looseFixed], by
          simp [Ex.expectedState, Ex.limitState, Ex.fitObj]⟩
        fixed := by simp [Ex.limitArgs, Ex.looseFixed]
        dimension := by simp [Ex.limitArgs, Ex.looseFixed]
        perBin := by simp [Ex.limitArgs, Ex.looseFixed] }

/-- One of two floating backgrounds is fixed at its prior. -/
example : ∃ ses st₁ u₁ w ses' st₂ u₂ w', init Ex.keyOf (Ex.limitArgs [2, 3]) Ex.expectedState = (st₁, .ok ses) ∧
    init Ex.keyOf Ex.looseFixed Ex.expectedState = (st₂, .ok ses') ∧
    ses.study Ex.toInt Ex.studyRate st₁ = ((ses, u₁), .ok ()) ∧
    ses'.study Ex.toInt Ex.studyRate st₂ = ((ses', u₂), .ok ()) ∧
    Fitter.limitInit ⟨ses, u₁, Ex.expectedSearch⟩ 4 true = (w, .ok ()) ∧
    Fitter.limitInit ⟨ses', u₂, Ex.fixedSearch⟩ 4 true = (w', .ok ()) ∧
    ∀ x, (w.limitOf Ex.fitEnv Ex.toInt 4 [0, 4, 10, 20] [] none 2).2 = .ok x →
      ∃ x' ≤ x, (w'.limitOf Ex.fitEnv Ex.toInt 4 [0, 4, 10, 20] [] none 2).2 = .ok x' := by
  obtain ⟨ses, st₁, u₁, w, ses', st₂, u₂, w', h1, h2, h3, h4, h5, h6, h7⟩ := c175_fixing_partial
    (env := Ex.fitEnv) (keyOf := Ex.keyOf) (rnd := Ex.toInt) (par := fun q => q - 2) (vs₁ := [[8, 10]])
    (vs := [7, 10]) (vs₂ := []) looseFixed_fixing (by simp) ex_expectedOn looseFixed_limitOn
    ex_expectedEvaluable ex_expectedOwn (by simp [Ex.limitArgs]) ex_expectedRates ex_limitNames
    ex_expectedContents rfl ex_expectedSearch (ex_fixing_search (.inr ⟨rfl, rfl⟩))
    (.cons ⟨rfl, rfl⟩ (.cons ⟨rfl, rfl⟩ .nil)) (.cons ⟨rfl, rfl⟩ .nil) ex_expectedExact
    (by simp [Ex.limitArgs]) (fun _ _ => rfl)
    (by rw [ex_expectedPriors]; exact .cons (by simp) (.cons (by simp) .nil))
    (by
      rw [show (Ex.limitArgs [2, 3]).floating.map (fun q => Ex.toInt (Ex.expectedState.params (q - 2)).prior) =
        [10, 10] by simp [Ex.limitArgs, Ex.expectedState, Ex.limitState, Ex.fitState, Ex.fitParam, Ex.toInt],
        show (Ex.limitArgs [2, 3]).singleBin = false from rfl, ex_expectedBackground]
      intro v hv
      simp only [List.mem_cons, List.not_mem_nil, or_false] at hv
      rcases hv with rfl | rfl <;> norm_num [zeroThreshold])
  exact ⟨ses, st₁, u₁, w, ses', st₂, u₂, w', h1, h2, h3, h4, h5, h6, (h7 [] [] [0, 4, 10, 20]
    (ex_plain.2 [] (.inl rfl)) (ex_plain.2 [] (.inl rfl)) (by simp) ex_plain.1.nonneg ex_plain.1.increasing []
    (by simp) 2).1⟩

end Verif
