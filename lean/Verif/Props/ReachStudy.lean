import Verif.Props.Reach
import Verif.Props.SensitivityLimit

/-! # C174: the same for expected limits -/

namespace Verif

open Session Filter

variable {env : FitEnv} {keyOf : ℕ → PyStr} {a : FitArgs} {ts : List Spectrum} {r d : ℕ}
  {st : FitState} {rnd : ℝ → ℚ} {rateOf : ℕ → Option ℕ} {par : ℕ → ℕ} {vss : List (List ℝ)}

/-- **C174, expected limits.** The same after the sensitivity study: a range of scalings that goes far enough
gives an expected limit. (Partial: as C152; the tested scalings are not rounded, and zero is the only one close
to zero.) -/
theorem c174_study_partial (h : a.LimitOn r d ts st)
    (he : (a.withSignal r).Evaluable env keyOf d st) (ho : a.OwnRates st) (hfx : a.fixed ≠ [])
    (hrate : ∀ q ∈ a.floating, (st.objs q).fit = some [par q] ∧ rateOf q = some (par q))
    (hpr : ∀ q ∈ a.floating, rnd (st.params (par q)).prior ≠ 0) {ns : List PyStr}
    (hns : RoiNames (st.view d).cfg (inOrder a.roi) ns) {c : ℕ → NdArray ℚ}
    (hc : ∀ q ∈ (a.withSignal r).kept ++ a.fixed.map Prod.fst,
      RegionContents (inOrder a.roi) ns (st.view q) (c q)) {search : GridSearch}
    (hsearch : RateSearch rnd search vss a.floating.length)
    (hsame : List.Forall₂ (fun p (q : FitPar) => q.prior = (st.params p).prior ∧
      q.sigma = (st.params p).sigma) (a.parameters st) search.pars)
    (hex : ∀ vs ∈ vss, ∀ x ∈ vs, ((rnd x : ℚ) : ℝ) = x) (hdec : 0 < (st.view r).numDecays)
    (hsome : ∃ k ∈ comparedContents a.singleBin (c r), 0 < k)
    (hsig : a.stat = .extLL → ∀ k ∈ comparedContents a.singleBin (c r), 0 ≤ k) :
    ∃ ses st' u₁ w, init keyOf a st = (st', .ok ses) ∧
      ses.study rnd rateOf st' = ((ses, u₁), .ok ()) ∧
      Fitter.limitInit ⟨ses, u₁, search⟩ r true = (w, .ok ()) ∧
      ∀ limit : ℝ, ∃ far : ℝ, ∀ (calls : List LimitCall) (scales : List ℝ),
      Testable rnd (allScales calls ++ scales) → PlainScales rnd scales → (∃ x ∈ scales, far ≤ x) →
      ∀ (sigmas : List (Option ℝ)), (∀ s ∈ sigmas, s ≠ none) →
      ∃ x, ((w.afterCalls env rnd r calls).limitOf env rnd r scales sigmas none limit).2 = .ok x := by
  classical
  have hreg := inOrder_isDict h.given.region
  have hdm : d ∈ (a.withSignal r).kept ++ a.fixed.map Prod.fst := by simp [FitArgs.kept, h.data]
  have hrm : r ∈ (a.withSignal r).kept ++ a.fixed.map Prod.fst := by simp [FitArgs.kept]
  have hshape : (c r).shape = (c d).shape :=
    same_shape hreg (h.given.able d hdm) (h.given.able r hrm) (h.axes r hrm) (hc d hdm) (hc r hrm)
  obtain ⟨ses, st', u₁, w, h1, h1', h2, h3⟩ := c152_limit_partial (env := env) (keyOf := keyOf) (rnd := rnd)
    h he ho hfx hrate hpr hns hc hsearch hsame hex
  refine ⟨ses, st', u₁, w, h1, h1', h2, fun limit => ?_⟩
  have hN : (0 : ℝ) < ((st.view r).numDecays : ℝ) := by exact_mod_cast hdec
  set O := comparedContents a.singleBin
    (a.filledUp st c d (a.floating.map (fun q => rnd (st.params (par q)).prior))) with hO
  set S := comparedContents a.singleBin (c r) with hS
  set B : List ℝ → List ℝ := fun u => comparedContents a.singleBin
    (a.backgroundAt st c (c d).shape (u.map rnd)) with hB
  have hl1 : ∀ u, O.length = (B u).length := fun u =>
    (compared_length _ (a := a.filledUp st c d (a.floating.map (fun q => rnd (st.params (par q)).prior)))
      (b := a.backgroundAt st c (c d).shape (u.map rnd)) rfl).symm
  have hl2 : ∀ u, (B u).length = S.length := fun u =>
    (compared_length _ (a := a.backgroundAt st c (c d).shape (u.map rnd)) (b := c r) hshape).symm
  have hlx : ∀ u x, O.length = (expectedAt (B u) S x).length := fun u x => by
    simp only [expectedAt, List.length_zipWith, hl1 u, hl2 u, Nat.min_self]
  have grow : ∀ u, Tendsto (fun x : ℝ => a.stat.sumBins O (expectedAt (B u) S
      (x / ((st.view r).numDecays : ℝ)))) atTop atTop := fun u =>
    (sumBins_atTop a.stat (hl1 u) (hl2 u) hsig hsome).comp (tendsto_id.atTop_div_const hN)
  have hfin := combination_finite vss
  have hev : ∀ᶠ x : ℝ in atTop, ∀ u ∈ {u | Combination vss u}, ∀ v ∈ {u | Combination vss u},
      limit + a.stat.sumBins O (B v) - a.penaltyAt st u <
        a.stat.sumBins O (expectedAt (B u) S (x / ((st.view r).numDecays : ℝ))) :=
    (eventually_all_finite hfin).2 fun u _ => (eventually_all_finite hfin).2 fun v _ =>
      (grow u).eventually_gt_atTop _
  obtain ⟨far, hfar⟩ := (hev.and (eventually_gt_atTop 0)).exists_forall_of_atTop
  refine ⟨far, fun calls scales ht hp ⟨y, hy, hfy⟩ sigmas hsg => ?_⟩
  obtain ⟨best₀, best, m0, m1, b, hb, b1, -⟩ := h3 calls scales ht hp.some hp.increasing
    (fun u => a.stat.sumBins O (B u))
    (fun x u => if npCloseReal x 0 then a.stat.sumBins O (B u) else
      a.stat.sumBins O (expectedAt (B u) S ((rnd x : ℝ) / ((st.view r).numDecays : ℝ))))
    (fun u _ => (total_iff _ (hl1 u) _).2 rfl)
    (fun x _ u _ => ⟨fun hcl => if_pos hcl, fun hcl => by
      rw [if_neg hcl]
      exact (total_iff _ (hlx u _) _).2 rfl⟩) sigmas hsg limit
  obtain ⟨i₀, c₀, -⟩ := m0
  have over : ∀ z ∈ scales, far ≤ z → limit <
      (if npCloseReal z 0 then a.stat.sumBins O (B (best z)) else
        a.stat.sumBins O (expectedAt (B (best z)) S ((rnd z : ℝ) / ((st.view r).numDecays : ℝ)))) -
        a.stat.sumBins O (B best₀) + a.penaltyAt st (best z) := by
    intro z hz hfz
    obtain ⟨i, ci, -⟩ := m1 z hz
    obtain ⟨g1, g2⟩ := hfar z hfz
    have hcl : ¬ npCloseReal z 0 := fun hcl => by
      rw [hp.zero z hz hcl] at g2
      exact lt_irrefl _ g2
    rw [if_neg hcl, hp.exact z hz hcl]
    have := g1 _ ci.comb _ c₀.comb
    linarith
  obtain ⟨x, hx⟩ := firstCrossing_exists (scales := scales) (b := b) (limit := limit)
    (F := fun z => (if npCloseReal z 0 then a.stat.sumBins O (B (best z)) else
        a.stat.sumBins O (expectedAt (B (best z)) S ((rnd z : ℝ) / ((st.view r).numDecays : ℝ)))) -
        a.stat.sumBins O (B best₀) + a.penaltyAt st (best z)) (by
      rcases le_total b y with hby | hby
      · exact ⟨y, hy, hby, over y hy hfy⟩
      · exact ⟨b, hb.1, le_rfl, over b hb.1 (hfy.trans hby)⟩)
  exact ⟨x, (b1 x).2 hx⟩

/-- Two floating backgrounds at their priors, and a signal in the first of two bins. -/
example : ∃ ses st' u₁ w, init Ex.keyOf (Ex.limitArgs [2, 3]) Ex.expectedState = (st', .ok ses) ∧
    ses.study Ex.toInt Ex.studyRate st' = ((ses, u₁), .ok ()) ∧
    Fitter.limitInit ⟨ses, u₁, Ex.expectedSearch⟩ 4 true = (w, .ok ()) ∧
    ∀ limit : ℝ, ∃ far : ℝ, far ≤ 20 →
      ∃ x, (w.limitOf Ex.fitEnv Ex.toInt 4 [0, 4, 10, 20] [] none limit).2 = .ok x := by
  have e : comparedContents (Ex.limitArgs [2, 3]).singleBin (Ex.expectedContents 4) = [1, 0] :=
    ex_limitCompared.2.2
  obtain ⟨ses, st', u₁, w, h1, h2, h3, h4⟩ := c174_study_partial (env := Ex.fitEnv) (keyOf := Ex.keyOf)
    (rnd := Ex.toInt) (par := fun q => q - 2) ex_expectedOn ex_expectedEvaluable ex_expectedOwn
    (by simp [Ex.limitArgs]) ex_expectedRates ex_expectedNonzero ex_limitNames ex_expectedContents
    ex_expectedSearch (.cons ⟨rfl, rfl⟩ (.cons ⟨rfl, rfl⟩ .nil)) ex_expectedExact
    (by change (0 : ℚ) < 2; norm_num) ⟨1, by rw [e]; simp, one_pos⟩ (by simp [Ex.limitArgs])
  refine ⟨ses, st', u₁, w, h1, h2, h3, fun limit => ?_⟩
  obtain ⟨far, hfar⟩ := h4 limit
  exact ⟨far, fun h => hfar [] _ (ex_plain.2 [] (.inl rfl)) ex_plain.1 ⟨20, by simp, h⟩ [] (by simp)⟩

end Verif
