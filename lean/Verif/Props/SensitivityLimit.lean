import Verif.Lemmas.SensitivityLimit
import Verif.Lemmas.ExpectedLimit
import Verif.Props.LimitFloating
import Verif.Props.Sensitivity

/-! # C152: expected limits -/

namespace Verif

open Session

variable {env : FitEnv} {keyOf : ℕ → PyStr} {a : FitArgs} {ts : List Spectrum} {r d : ℕ}
  {st : FitState} {rnd : ℝ → ℚ} {rateOf : ℕ → Option ℕ} {par : ℕ → ℕ} {vss : List (List ℝ)}

/-- **C152, limits after a study.** A fit by grid search is made from data, fixed backgrounds and
floating backgrounds with a rate each. The sensitivity study is made, and then a limit from the fit and
a signal. `G₀ u` is the statistic of the data, filled up with the backgrounds at the priors of their
rates, and the backgrounds at the rates `u`, in the region; `G x u` is that with the signal scaled to
`x` decays added to the backgrounds (without it when `x` is zero, or close to zero). Then constructors
and study succeed, and whatever limits have been set or statistics asked for before: the rates are
fitted anew for every scaling, at the first of the combinations of their values with the smallest sum
of statistic and penalty; the limit is the first tested scaling from the best one on at which the
statistic there, with the penalty there, exceeds that of the best fit without signal by more than the
threshold; and when there is none the limit fails with `LimitError`. In particular the study changes
neither what the rates mean nor what the scalings of the signal mean. (Partial: as C147; there is no
fit between study and limit.) -/
theorem c152_limit_partial (h : a.LimitOn r d ts st)
    (he : (a.withSignal r).Evaluable env keyOf d st) (ho : a.OwnRates st) (hfx : a.fixed ≠ [])
    (hrate : ∀ q ∈ a.floating, (st.objs q).fit = some [par q] ∧ rateOf q = some (par q))
    (hpr : ∀ q ∈ a.floating, rnd (st.params (par q)).prior ≠ 0) {ns : List PyStr}
    (hns : RoiNames (st.view d).cfg (inOrder a.roi) ns) {c : ℕ → NdArray ℚ}
    (hc : ∀ q ∈ (a.withSignal r).kept ++ a.fixed.map Prod.fst,
      RegionContents (inOrder a.roi) ns (st.view q) (c q)) {search : GridSearch}
    (hsearch : RateSearch rnd search vss a.floating.length)
    (hsame : List.Forall₂ (fun p (q : FitPar) => q.prior = (st.params p).prior ∧
      q.sigma = (st.params p).sigma) (a.parameters st) search.pars)
    (hex : ∀ vs ∈ vss, ∀ x ∈ vs, ((rnd x : ℚ) : ℝ) = x) :
    ∃ ses st' u₁ w, init keyOf a st = (st', .ok ses) ∧
      ses.study rnd rateOf st' = ((ses, u₁), .ok ()) ∧
      Fitter.limitInit ⟨ses, u₁, search⟩ r true = (w, .ok ()) ∧
      ∀ (calls : List LimitCall) (scales : List ℝ), Testable rnd (allScales calls ++ scales) →
      scales ≠ [] → scales.Pairwise (· < ·) → ∀ (G₀ : List ℝ → ℝ) (G : ℝ → List ℝ → ℝ),
      (∀ u, Combination vss u → a.stat.Total (comparedContents a.singleBin
          (a.filledUp st c d (a.floating.map (fun q => rnd (st.params (par q)).prior))))
        (comparedContents a.singleBin (a.backgroundAt st c (c d).shape (u.map rnd))) (G₀ u)) →
      (∀ x ∈ allScales calls ++ scales, ∀ u, Combination vss u → (npCloseReal x 0 → G x u = G₀ u) ∧
        (¬ npCloseReal x 0 → a.stat.Total (comparedContents a.singleBin
            (a.filledUp st c d (a.floating.map (fun q => rnd (st.params (par q)).prior))))
          (expectedAt (comparedContents a.singleBin (a.backgroundAt st c (c d).shape (u.map rnd)))
            (comparedContents a.singleBin (c r)) ((rnd x : ℝ) / ((st.view r).numDecays : ℝ)))
          (G x u))) →
      ∀ (sigmas : List (Option ℝ)), (∀ s ∈ sigmas, s ≠ none) → ∀ (limit : ℝ),
      ∃ (best₀ : List ℝ) (best : ℝ → List ℝ),
        FirstBest vss (fun u => G₀ u + a.penaltyAt st u) best₀ ∧
        (∀ x ∈ scales, FirstBest vss (fun u => G x u + a.penaltyAt st u) (best x)) ∧
        ∃ b, BestScale scales (fun x => G x (best x)) b ∧
          (∀ x, ((w.afterCalls env rnd r calls).limitOf env rnd r scales sigmas none limit).2 = .ok x ↔
            FirstCrossing scales (fun y => G y (best y) - G₀ best₀ + a.penaltyAt st (best y))
              b limit x) ∧
          (((w.afterCalls env rnd r calls).limitOf env rnd r scales sigmas none limit).2 =
              .error .limitError ↔
            ∀ y ∈ scales, b ≤ y → G y (best y) - G₀ best₀ + a.penaltyAt st (best y) ≤ limit) := by
  obtain ⟨ses, st', u, w, h1, h1', h2, h3, h4, h5, h6, h7, h8, f, f1, f2, f3, f4, f5, f6, f7, hoff, hon⟩ :=
    study_limit h he ho hfx hrate hpr hns hc search
  exact ⟨ses, st', u, w, h1, h1', h2,
    limit_found ho hsearch hsame hex h3 h4 h5 h6 h7 h8 f1 f2 f3 f4 f5 f6 f7 hoff hon⟩

/-- **C152, expected limits.** As before; the data hold nothing in the region, so that they are filled up
to the expected background `o`, that is the backgrounds `B u` at the priors; the priors of the rates are values of the grid, and the expected background
is at or above the threshold in the bins that are compared; the statistic is not the extended
likelihood; and scaling zero is tested, and none below. Then the expected limit is the first tested
scaling at which the smallest sum of statistic and penalty over all rates of the grid exceeds the
threshold; this sum is zero for scaling zero; and when there is none the limit fails with `LimitError`.
(Partial: as above.) -/
theorem c152_expected_partial (h : a.LimitOn r d ts st)
    (he : (a.withSignal r).Evaluable env keyOf d st) (ho : a.OwnRates st) (hfx : a.fixed ≠ [])
    (hrate : ∀ q ∈ a.floating, (st.objs q).fit = some [par q] ∧ rateOf q = some (par q))
    {ns : List PyStr}
    (hns : RoiNames (st.view d).cfg (inOrder a.roi) ns) {c : ℕ → NdArray ℚ}
    (hc : ∀ q ∈ (a.withSignal r).kept ++ a.fixed.map Prod.fst,
      RegionContents (inOrder a.roi) ns (st.view q) (c q)) {search : GridSearch}
    (hsearch : RateSearch rnd search vss a.floating.length)
    (hsame : List.Forall₂ (fun p (q : FitPar) => q.prior = (st.params p).prior ∧
      q.sigma = (st.params p).sigma) (a.parameters st) search.pars)
    (hex : ∀ vs ∈ vss, ∀ x ∈ vs, ((rnd x : ℚ) : ℝ) = x)
    (hstat : a.stat ≠ .extLL)
    (hblank : ∀ idx, InB (c d).shape idx → (c d).get idx = 0)
    (hprior : Combination vss (a.floating.map (fun q => (st.params (par q)).prior)))
    {B : List ℝ → List ℝ}
    (hB : ∀ u, B u = comparedContents a.singleBin (a.backgroundAt st c (c d).shape (u.map rnd)))
    {o : List ℝ} (hob : o = B (a.floating.map (fun q => (st.params (par q)).prior)))
    (hcount : ∀ v ∈ o, zeroThreshold ≤ v) :
    ∃ ses st' u₁ w, init keyOf a st = (st', .ok ses) ∧
      ses.study rnd rateOf st' = ((ses, u₁), .ok ()) ∧
      Fitter.limitInit ⟨ses, u₁, search⟩ r true = (w, .ok ()) ∧
      ∀ (calls : List LimitCall) (scales : List ℝ), Testable rnd (allScales calls ++ scales) →
      0 ∈ scales → (∀ x ∈ scales, 0 ≤ x) → scales.Pairwise (· < ·) → ∀ (G : ℝ → List ℝ → ℝ),
      (∀ x ∈ allScales calls ++ scales, ∀ u, Combination vss u →
        (npCloseReal x 0 → a.stat.Total o (B u) (G x u)) ∧
        (¬ npCloseReal x 0 → a.stat.Total o
          (expectedAt (B u) (comparedContents a.singleBin (c r))
            ((rnd x : ℝ) / ((st.view r).numDecays : ℝ))) (G x u))) →
      ∀ (sigmas : List (Option ℝ)), (∀ s ∈ sigmas, s ≠ none) → ∀ (limit : ℝ),
      ∃ M : ℝ → ℝ, (∀ x ∈ scales, SmallestOf vss (fun u => G x u + a.penaltyAt st u) (M x)) ∧
        M 0 = 0 ∧
        (∀ x, ((w.afterCalls env rnd r calls).limitOf env rnd r scales sigmas none limit).2 = .ok x ↔
          x ∈ scales ∧ limit < M x ∧ ∀ y ∈ scales, y < x → M y ≤ limit) ∧
        (((w.afterCalls env rnd r calls).limitOf env rnd r scales sigmas none limit).2 =
            .error .limitError ↔ ∀ y ∈ scales, M y ≤ limit) := by
  have hpr : ∀ q ∈ a.floating, rnd (st.params (par q)).prior ≠ 0 := fun q hm =>
    hsearch.nonzero_comb hprior _ (List.mem_map.2 ⟨_, List.mem_map.2 ⟨q, hm, rfl⟩, rfl⟩)
  obtain ⟨ses, st', u₁, w, h1, h2, h3, h4⟩ := c152_limit_partial h he ho hfx hrate hpr hns hc hsearch
    hsame hex
  refine ⟨ses, st', u₁, w, h1, h2, h3, fun calls scales ht h0 hpos hs G hG sigmas hsig limit => ?_⟩
  have hfill : comparedContents a.singleBin
      (a.filledUp st c d (a.floating.map (fun q => rnd (st.params (par q)).prior))) = o := by
    rw [hob, hB, List.map_map]
    refine compared_congr _ rfl fun idx hi => ?_
    show (c d).get idx + _ = _
    rw [hblank idx hi, zero_add]
    rfl
  have hz : npCloseReal 0 0 := by unfold npCloseReal; norm_num
  have hmem : ∀ x ∈ scales, x ∈ allScales calls ++ scales := fun x hx => List.mem_append_right _ hx
  have hG0 : ∀ x ∈ allScales calls ++ scales, ∀ u, Combination vss u → npCloseReal x 0 →
      G x u = G 0 u := fun x hx u hu hcl =>
    total_unique ((hG x hx u hu).1 hcl) ((hG 0 (hmem 0 h0) u hu).1 hz)
  obtain ⟨best₀, best, k1, k2, b, hb, k3, k4⟩ := h4 calls scales ht (List.ne_nil_of_mem h0) hs (G 0) G
    (fun u hu => by rw [hfill, ← hB]; exact (hG 0 (hmem 0 h0) u hu).1 hz)
    (fun x hx u hu => ⟨hG0 x hx u hu, fun hcl => by
      rw [hfill, ← hB]; exact (hG x hx u hu).2 hcl⟩) sigmas hsig limit
  have hnn : ∀ x ∈ scales, ∀ u, Combination vss u → 0 ≤ G x u := fun x hx u hu => by
    by_cases hcl : npCloseReal x 0
    · exact total_nonneg hstat ((hG x (hmem x hx) u hu).1 hcl)
    · exact total_nonneg hstat ((hG x (hmem x hx) u hu).2 hcl)
  have hpars := ratesOnly_parameters ho (par := par) (fun q hq => (hrate q hq).1)
  have hpen0 : a.penaltyAt st (a.floating.map (fun q => (st.params (par q)).prior)) = 0 := by
    have := penaltyAt_priors a st
    rwa [hpars, List.map_map] at this
  have hzero : G 0 (a.floating.map (fun q => (st.params (par q)).prior)) = 0 := by
    refine total_unique ((hG 0 (hmem 0 h0) _ hprior).1 hz) ?_
    rw [← hob]
    exact total_self hstat hcount
  have hbest : ∀ v, FirstBest vss (fun u => G 0 u + a.penaltyAt st u) v →
      G 0 v = 0 ∧ a.penaltyAt st v = 0 := by
    intro v hv
    have h5 := hv.smallest.2 _ hprior
    obtain ⟨i, hi, -⟩ := hv
    have h6 := hnn 0 h0 v hi.comb
    have h7 := penaltyAt_nonneg a st v
    dsimp only at h5
    rw [hzero, hpen0] at h5
    constructor <;> linarith
  have hb0 : b = 0 := by
    have h5 := hb.2 0 h0
    dsimp only at h5
    rw [(hbest _ (k2 0 h0)).1] at h5
    obtain ⟨i, hi, -⟩ := k2 b hb.1
    exact le_antisymm (h5.2 (le_antisymm (hnn b hb.1 _ hi.comb) h5.1)) (hpos b hb.1)
  subst hb0
  have hF : ∀ y, G y (best y) - G 0 best₀ + a.penaltyAt st (best y) =
      G y (best y) + a.penaltyAt st (best y) := fun y => by rw [(hbest _ k1).1, sub_zero]
  refine ⟨fun x => G x (best x) + a.penaltyAt st (best x), fun x hx => (k2 x hx).smallest, ?_, ?_, ?_⟩
  · have := hbest _ (k2 0 h0)
    dsimp only
    rw [this.1, this.2, add_zero]
  · intro x
    rw [k3 x]
    simp only [FirstCrossing, hF]
    exact ⟨fun ⟨m1, _, m2, m3⟩ => ⟨m1, m2, fun y hy hlt => m3 y hy (hpos y hy) hlt⟩,
      fun ⟨m1, m2, m3⟩ => ⟨m1, hpos x m1, m2, fun y hy _ hlt => m3 y hy hlt⟩⟩
  · rw [k4]
    simp only [hF]
    exact ⟨fun m y hy => m y hy (hpos y hy), fun m y hy _ => m y hy⟩

/-! ### a case that meets the hypotheses -/

namespace Ex

/-- The state of the examples of limits with empty data. -/
noncomputable def expectedState : FitState := { limitState with
  objs := fun r => if r = 0 then ⟨lit "data", lit "data", 0, four 0 0 0 0, 0, 0, [], none⟩
    else limitState.objs r }

/-- Contents of the region from 1 to 2. -/
def expectedContents (r : ℕ) : NdArray ℚ := if r = 0 then ⟨[2], fun _ => 0⟩ else limitContents r

/-- A grid search over the two rates. -/
def expectedSearch : GridSearch :=
  GridSearch.new [gridPar (lit "rate") (some 2) [8, 10], gridPar (lit "rate") none [7, 10]] [4]
    (some (lit "fit")) false

/-- The value lists of the search. -/
def expectedValues : List (List ℝ) := [[8, 10], [7, 10]]

end Ex

theorem ex_expectedOn : (Ex.limitArgs [2, 3]).LimitOn 4 0
    [(((Ex.expectedState.view 1).shrink exFitKw).st.scale 20).st] Ex.expectedState where
  given :=
    { region := (exWhole_given []).region
      some := by simp [Ex.limitArgs]
      alloc := (ex_limitOn (.inr rfl)).given.alloc
      own := by
        show (([0, 4, 2, 3] ++ [1]).map (fun r => (Ex.expectedState.objs r).cfg)).Nodup
        decide
      able := by
        intro r hr
        have hm : r = 0 ∨ r = 4 ∨ r = 2 ∨ r = 3 ∨ r = 1 := by
          simp [FitArgs.kept, Ex.limitArgs] at hr; omega
        have h := (ex_limitOn (.inr rfl)).given.able r hr
        rcases hm with rfl | rfl | rfl | rfl | rfl <;>
          exact ⟨⟨h.wf.axes, h.wf.names, h.wf.shape⟩, h.aligned, h.dims, h.edges, h.has⟩
      fixed := by
        have h := (ex_limitOn (.inr rfl)).given.fixed
        obtain ⟨h1, h2, h3, h4, h5, h6, h7⟩ := h
        refine ⟨h1, h2, h3, h4, h5, ?_, h7⟩
        cases h6 with
        | cons h6 _ => exact .cons h6 .nil }
  settings :=
    { floating := fun _ => .inr ⟨2, by simp [Ex.limitArgs], by
        simp [Ex.expectedState, Ex.limitState, Ex.fitObj]⟩
      fixed := by simp [Ex.limitArgs]
      dimension := by simp [Ex.limitArgs]
      perBin := by simp [Ex.limitArgs] }
  signal := rfl
  data := rfl
  axes := fun _ _ => rfl
  fit := by simp [Ex.expectedState, Ex.limitState]
  decays := by simp [FitState.view, Ex.expectedState, Ex.limitState, Ex.fitObj]
  region := by simp [FitState.view, Ex.expectedState, Ex.limitState, Ex.fitState, Ex.limitArgs]

theorem ex_expectedEvaluable : ((Ex.limitArgs [2, 3]).withSignal 4).Evaluable Ex.fitEnv Ex.keyOf 0
    Ex.expectedState := by
  have h := ex_floatEvaluable
  refine ⟨rfl, h.str, rfl, h.backgrounds, fun _ _ => rfl, h.dims, ?_, h.names, h.pars, h.globals,
    h.rates⟩
  intro r hr
  have : r = 2 ∨ r = 3 ∨ r = 4 := by simpa [Ex.limitArgs] using hr
  rcases this with rfl | rfl | rfl <;> simp [FitState.view, Ex.expectedState, Ex.limitState, Ex.fitObj]

theorem ex_expectedOwn : (Ex.limitArgs [2, 3]).OwnRates Ex.expectedState where
  floating := by simp [Ex.limitArgs]
  config := rfl
  one := by
    intro r hr
    have : r = 2 ∨ r = 3 := by simpa [Ex.limitArgs] using hr
    rcases this with rfl | rfl
    · exact ⟨0, rfl⟩
    · exact ⟨1, rfl⟩
  sigmas := ex_floatRates.sigmas
  statPerBin := rfl
  perBin := rfl

theorem ex_expectedRates : ∀ q ∈ (Ex.limitArgs [2, 3]).floating,
    (Ex.expectedState.objs q).fit = some [q - 2] ∧ Ex.studyRate q = some (q - 2) := by
  intro r hr
  have : r = 2 ∨ r = 3 := by simpa [Ex.limitArgs] using hr
  rcases this with rfl | rfl <;> exact ⟨rfl, rfl⟩

theorem ex_expectedContents : ∀ q ∈ ((Ex.limitArgs [2, 3]).withSignal 4).kept ++
      (Ex.limitArgs [2, 3]).fixed.map Prod.fst,
    RegionContents (inOrder (Ex.limitArgs [2, 3]).roi) [lit "energy_mc"] (Ex.expectedState.view q)
      (Ex.expectedContents q) := by
  intro q hq
  by_cases h0 : q = 0
  · subst h0
    exact study_contents 0 (by simp [FitArgs.kept, exStudy, exWhole])
  · have h := ex_limitContents' (.inr rfl) q hq
    have hq : q = 0 ∨ q = 4 ∨ q = 2 ∨ q = 3 ∨ q = 1 := by
      simp [FitArgs.kept, Ex.limitArgs] at hq; omega
    rw [show Ex.expectedContents q = Ex.limitContents q from if_neg h0]
    have : Ex.expectedState.view q = Ex.limitState.view q := by
      rcases hq with rfl | rfl | rfl | rfl | rfl
      · exact absurd rfl h0
      all_goals rfl
    rw [this]
    exact h

theorem ex_expectedSearch : RateSearch Ex.toInt Ex.expectedSearch Ex.expectedValues
    (Ex.limitArgs [2, 3]).floating.length where
  ready := ⟨rfl, rfl⟩
  form := rfl
  values := .cons rfl (.cons rfl .nil)
  counts := .cons ⟨rfl, by simp⟩ (.cons ⟨rfl, by simp⟩ .nil)
  number := rfl
  nodup := by
    intro vs hvs
    have : vs = [8, 10] ∨ vs = [7, 10] := by simpa [Ex.expectedValues] using hvs
    rcases this with rfl | rfl <;> norm_num
  injective := by
    intro vs hvs x hx y hy
    have : vs = [8, 10] ∨ vs = [7, 10] := by simpa [Ex.expectedValues] using hvs
    rcases this with rfl | rfl
    · have hx : x = 8 ∨ x = 10 := by simpa using hx
      have hy : y = 8 ∨ y = 10 := by simpa using hy
      rcases hx with rfl | rfl <;> rcases hy with rfl | rfl <;> simp [Ex.toInt]
    · have hx : x = 7 ∨ x = 10 := by simpa using hx
      have hy : y = 7 ∨ y = 10 := by simpa using hy
      rcases hx with rfl | rfl <;> rcases hy with rfl | rfl <;> simp [Ex.toInt]
  nonzero := by
    intro vs hvs x hx
    have : vs = [8, 10] ∨ vs = [7, 10] := by simpa [Ex.expectedValues] using hvs
    rcases this with rfl | rfl
    · have hx : x = 8 ∨ x = 10 := by simpa using hx
      rcases hx with rfl | rfl <;> simp [Ex.toInt]
    · have hx : x = 7 ∨ x = 10 := by simpa using hx
      rcases hx with rfl | rfl <;> simp [Ex.toInt]
  sigmas := by
    intro q hq
    have : q = Ex.gridPar (lit "rate") (some 2) [8, 10] ∨
        q = Ex.gridPar (lit "rate") none [7, 10] := by
      simpa [Ex.expectedSearch, GridSearch.new] using hq
    rcases this with rfl | rfl <;> simp [Ex.gridPar]

theorem ex_expectedExact : ∀ vs ∈ Ex.expectedValues, ∀ x ∈ vs, ((Ex.toInt x : ℚ) : ℝ) = x := by
  intro vs hvs x hx
  have : vs = [8, 10] ∨ vs = [7, 10] := by simpa [Ex.expectedValues] using hvs
  rcases this with rfl | rfl
  · have hx : x = 8 ∨ x = 10 := by simpa using hx
    rcases hx with rfl | rfl <;> simp [Ex.toInt]
  · have hx : x = 7 ∨ x = 10 := by simpa using hx
    rcases hx with rfl | rfl <;> simp [Ex.toInt]

theorem ex_expectedPriors : (Ex.limitArgs [2, 3]).floating.map
    (fun q => (Ex.expectedState.params (q - 2)).prior) = [10, 10] := rfl

theorem ex_expectedNonzero : ∀ q ∈ (Ex.limitArgs [2, 3]).floating,
    Ex.toInt (Ex.expectedState.params (q - 2)).prior ≠ 0 := by
  intro q hq
  have : q = 2 ∨ q = 3 := by simpa [Ex.limitArgs] using hq
  rcases this with rfl | rfl <;>
    simp [Ex.expectedState, Ex.limitState, Ex.fitState, Ex.fitParam, Ex.toInt]

/-- Constructors and study succeed. -/
example : ∃ ses st' u₁ w, init Ex.keyOf (Ex.limitArgs [2, 3]) Ex.expectedState = (st', .ok ses) ∧
    ses.study Ex.toInt Ex.studyRate st' = ((ses, u₁), .ok ()) ∧
    Fitter.limitInit ⟨ses, u₁, Ex.expectedSearch⟩ 4 true = (w, .ok ()) := by
  obtain ⟨ses, st', u₁, w, h1, h2, h3, -⟩ := c152_limit_partial (env := Ex.fitEnv) (keyOf := Ex.keyOf)
    (rnd := Ex.toInt) (par := fun q => q - 2) ex_expectedOn ex_expectedEvaluable ex_expectedOwn
    (by simp [Ex.limitArgs]) ex_expectedRates ex_expectedNonzero ex_limitNames ex_expectedContents
    ex_expectedSearch (.cons ⟨rfl, rfl⟩ (.cons ⟨rfl, rfl⟩ .nil)) ex_expectedExact
  exact ⟨ses, st', u₁, w, h1, h2, h3⟩

/-- The backgrounds in the region, at the rates `a` and `b`. -/
theorem ex_expectedBackground (a b : ℚ) :
    comparedContents false ((Ex.limitArgs [2, 3]).backgroundAt Ex.expectedState Ex.expectedContents
      (Ex.expectedContents 0).shape [a, b]) =
      [5 + 3 * (a : ℝ) / 10 + 2 * (b : ℝ) / 10, 5 + 4 * (a : ℝ) / 10 + (b : ℝ) / 10] :=
  ex_floatBackground a b

/-- The statistic at the rates `u` with the signal scaled to `x` decays. -/
noncomputable def Ex.expectedStat (x : ℝ) (u : List ℝ) : ℝ :=
  let a := u.getD 0 0
  let b := u.getD 1 0
  (10 - (5 + 3 * a / 10 + 2 * b / 10 + x / 2)) ^ 2 / (5 + 3 * a / 10 + 2 * b / 10 + x / 2) +
    (10 - (5 + 4 * a / 10 + b / 10)) ^ 2 / (5 + 4 * a / 10 + b / 10)

theorem ex_expectedTotal {e₁ e₂ : ℝ} (h₁ : 1 ≤ e₁) (h₂ : 1 ≤ e₂) :
    Stat.pearson.Total [10, 10] [e₁, e₂] ((10 - e₁) ^ 2 / e₁ + (10 - e₂) ^ 2 / e₂) := by
  have hlt : statEps < 1 := by unfold statEps; norm_num
  have h5 : ∀ y : ℝ, 1 ≤ y → ¬ y < statEps := fun y hy => not_lt.2 (hlt.le.trans hy)
  rw [total_iff _ (by simp)]
  simp only [List.zip_cons_cons, List.zip_nil_right, List.map_cons, List.map_nil, List.sum_cons,
    List.sum_nil, Stat.bin, pearsonBin, clampEps_of_ge (hlt.le.trans h₁),
    clampEps_of_ge (hlt.le.trans h₂)]
  rw [if_neg (h5 _ (by norm_num)), if_neg (h5 _ (by norm_num)), add_zero]

/-- The expected limit for the threshold 2 is 20, after an earlier call. -/
example : ∃ ses st' u₁ w, init Ex.keyOf (Ex.limitArgs [2, 3]) Ex.expectedState = (st', .ok ses) ∧
    ses.study Ex.toInt Ex.studyRate st' = ((ses, u₁), .ok ()) ∧
    Fitter.limitInit ⟨ses, u₁, Ex.expectedSearch⟩ 4 true = (w, .ok ()) ∧
    ((w.afterCalls Ex.fitEnv Ex.toInt 4 [.statistics [4]]).limitOf Ex.fitEnv Ex.toInt 4
      [0, 4, 20] [] none 2).2 = .ok 20 := by
  have e3 : comparedContents false (Ex.expectedContents 4) = [1, 0] := ex_limitCompared.2.2
  have hcomb : ∀ u, Combination Ex.expectedValues u → ∃ a b : ℚ, u = [(a : ℝ), (b : ℝ)] ∧
      u.map Ex.toInt = [a, b] ∧ (8 : ℝ) ≤ a ∧ (7 : ℝ) ≤ b := by
    intro u hu
    obtain ⟨x, _, hx, h1, rfl⟩ := List.forall₂_cons_right_iff.1 hu
    obtain ⟨y, _, hy, h2, rfl⟩ := List.forall₂_cons_right_iff.1 h1
    cases h2
    have hx : x = 8 ∨ x = 10 := by simpa using hx
    have hy : y = 7 ∨ y = 10 := by simpa using hy
    rcases hx with rfl | rfl <;> rcases hy with rfl | rfl
    · exact ⟨8, 7, by norm_num, by simp [Ex.toInt], by norm_num, by norm_num⟩
    · exact ⟨8, 10, by norm_num, by simp [Ex.toInt], by norm_num, by norm_num⟩
    · exact ⟨10, 7, by norm_num, by simp [Ex.toInt], by norm_num, by norm_num⟩
    · exact ⟨10, 10, by norm_num, by simp [Ex.toInt], by norm_num, by norm_num⟩
  have hten : Combination Ex.expectedValues [10, 10] := .cons (by simp) (.cons (by simp) .nil)
  have ho : ([10, 10] : List ℝ) = comparedContents false ((Ex.limitArgs [2, 3]).backgroundAt
      Ex.expectedState Ex.expectedContents (Ex.expectedContents 0).shape
      (([10, 10] : List ℝ).map Ex.toInt)) := by
    rw [show ([10, 10] : List ℝ).map Ex.toInt = [10, 10] by simp [Ex.toInt], ex_expectedBackground]
    norm_num
  obtain ⟨ses, st', u₁, w, h1, h2, h3, h4⟩ := c152_expected_partial (env := Ex.fitEnv)
    (keyOf := Ex.keyOf) (rnd := Ex.toInt) (par := fun q => q - 2) ex_expectedOn ex_expectedEvaluable
    ex_expectedOwn (by simp [Ex.limitArgs]) ex_expectedRates ex_limitNames ex_expectedContents
    ex_expectedSearch (.cons ⟨rfl, rfl⟩ (.cons ⟨rfl, rfl⟩ .nil)) ex_expectedExact
    (by simp [Ex.limitArgs]) (fun _ _ => rfl) (by rw [ex_expectedPriors]; exact hten)
    (B := fun u => comparedContents false ((Ex.limitArgs [2, 3]).backgroundAt
      Ex.expectedState Ex.expectedContents (Ex.expectedContents 0).shape (u.map Ex.toInt)))
    (fun _ => rfl) (o := [10, 10]) (by rw [ex_expectedPriors]; exact ho)
    (by
      intro v hv
      have : v = 10 := by simpa using hv
      rw [this, zeroThreshold]
      norm_num)
  refine ⟨ses, st', u₁, w, h1, h2, h3, ?_⟩
  have hsub : ∀ x ∈ allScales [.statistics [4]] ++ ([0, 4, 20] : List ℝ), x = 0 ∨ x = 4 ∨ x = 20 := by
    intro x hx
    have : x = 4 ∨ x = 0 ∨ x = 4 ∨ x = 20 := by simpa [allScales, LimitCall.scales] using hx
    tauto
  have hint : ∀ x : ℝ, x = 0 ∨ x = 4 ∨ x = 20 → ((Ex.toInt x : ℚ) : ℝ) = x := by
    rintro x (rfl | rfl | rfl) <;> simp [Ex.toInt]
  have hc : ∀ y : ℝ, 1 ≤ y → ¬ npCloseReal y 0 := by
    intro y hy
    unfold npCloseReal
    rw [sub_zero, abs_of_nonneg (by linarith)]
    norm_num
    linarith
  obtain ⟨M, m1, m2, m3, -⟩ := h4 [.statistics [4]] [0, 4, 20]
    (fun x hx hcl => by
      rcases hsub x hx with rfl | rfl | rfl
      · exact absurd (by unfold npCloseReal; norm_num) hcl
      · simp [Ex.toInt]
      · simp [Ex.toInt]) (by simp) (by
      intro x hx
      have : x = 0 ∨ x = 4 ∨ x = 20 := by simpa using hx
      rcases this with rfl | rfl | rfl <;> norm_num) (by norm_num) Ex.expectedStat
    (by
      intro x hx u hu
      obtain ⟨a, b, rfl, e, ha, hb⟩ := hcomb u hu
      have hx := hsub x hx
      have hx0 : 0 ≤ x := by rcases hx with rfl | rfl | rfl <;> norm_num
      rw [e, ex_expectedBackground]
      refine ⟨fun hcl => ?_, fun _ => ?_⟩
      · rcases hx with rfl | rfl | rfl
        · have := ex_expectedTotal (e₁ := 5 + 3 * (a : ℝ) / 10 + 2 * (b : ℝ) / 10)
            (e₂ := 5 + 4 * (a : ℝ) / 10 + (b : ℝ) / 10) (by linarith) (by linarith)
          simpa [Ex.expectedStat, Ex.limitArgs] using this
        · exact absurd hcl (hc _ (by norm_num))
        · exact absurd hcl (hc _ (by norm_num))
      · rw [show (Ex.limitArgs [2, 3]).singleBin = false from rfl, e3,
          show (Ex.expectedState.view 4).numDecays = (Ex.limitState.view 4).numDecays from rfl,
          ex_limitDecays, hint x hx]
        have := ex_expectedTotal (e₁ := 5 + 3 * (a : ℝ) / 10 + 2 * (b : ℝ) / 10 + x / 2)
          (e₂ := 5 + 4 * (a : ℝ) / 10 + (b : ℝ) / 10) (by linarith) (by linarith)
        simpa [expectedAt, Ex.expectedStat, Ex.limitArgs] using this) [] (by simp) 2
  rw [m3]
  have hpen : ∀ a b : ℝ, (Ex.limitArgs [2, 3]).penaltyAt Ex.expectedState [a, b] =
    ((a - 10) / 2) ^ 2 := ex_floatPenalty
  refine ⟨by simp, ?_, fun y hy hlt => ?_⟩
  · obtain ⟨⟨u, hu, h5⟩, -⟩ := m1 20 (by simp)
    obtain ⟨a, b, rfl, -, ha, hb⟩ := hcomb u hu
    rw [← h5]
    dsimp only
    rw [hpen]
    simp only [Ex.expectedStat, List.getD_cons_zero, List.getD_cons_succ]
    have p1 : (0 : ℝ) < 5 + 3 * (a : ℝ) / 10 + 2 * (b : ℝ) / 10 + 20 / 2 := by linarith
    have p2 : (0 : ℝ) ≤ (10 - (5 + 4 * (a : ℝ) / 10 + (b : ℝ) / 10)) ^ 2 /
        (5 + 4 * (a : ℝ) / 10 + (b : ℝ) / 10) := by positivity
    have p3 : 4 ≤ (10 - (5 + 3 * (a : ℝ) / 10 + 2 * (b : ℝ) / 10 + 20 / 2)) ^ 2 /
        (5 + 3 * (a : ℝ) / 10 + 2 * (b : ℝ) / 10 + 20 / 2) := by
      rw [le_div_iff₀ p1]
      nlinarith
    have := sq_nonneg (((a : ℝ) - 10) / 2)
    linarith
  · have h4 : y = 0 ∨ y = 4 ∨ y = 20 := by simpa using hy
    rcases h4 with rfl | rfl | rfl
    · rw [m2]; norm_num
    · refine ((m1 4 (by simp)).2 _ hten).trans ?_
      dsimp only
      rw [hpen]
      simp only [Ex.expectedStat, List.getD_cons_zero, List.getD_cons_succ]
      norm_num
    · exact absurd hlt (lt_irrefl _)

end Verif
