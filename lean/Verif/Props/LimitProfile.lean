import Verif.Lemmas.LimitProfile
import Verif.Lemmas.ExpectedLimit
import Verif.Props.LimitFloating

/-! # C160: limits with floating backgrounds and signals that have not been tested -/

namespace Verif

open Session

variable {env : FitEnv} {keyOf : ℕ → PyStr} {a : FitArgs} {ts : List Spectrum} {r d : ℕ}
  {st : FitState} {rnd : ℝ → ℚ} {vss : List (List ℝ)}

theorem within_of_combination {u : List ℝ} (hex : ∀ vs ∈ vss, ∀ x ∈ vs, ((rnd x : ℚ) : ℝ) = x)
    (hu : Combination vss u) :
    WithinGrid vss (u.map rnd) ∧ (u.map rnd).map (fun x : ℚ => (x : ℝ)) = u := by
  unfold Combination at hu
  unfold WithinGrid
  induction hu with
  | nil => exact ⟨.nil, rfl⟩
  | @cons x vs u vss h _ ih =>
    obtain ⟨h1, h2⟩ := ih fun ws hw => hex ws (List.mem_cons_of_mem _ hw)
    have e := hex vs List.mem_cons_self x h
    exact ⟨.cons ⟨x, h, x, h, e.ge, e.le⟩ h1, by simp only [List.map_cons, h2, e]⟩

theorem limit_profile (h : a.LimitOn r d ts st)
    (he : (a.withSignal r).Evaluable env keyOf d st) (ho : a.OwnRates st) {ns : List PyStr}
    (hns : RoiNames (st.view d).cfg (inOrder a.roi) ns) {c : ℕ → NdArray ℚ}
    (hc : ∀ q ∈ (a.withSignal r).kept ++ a.fixed.map Prod.fst,
      RegionContents (inOrder a.roi) ns (st.view q) (c q)) {search : GridSearch}
    (hsearch : RateSearch rnd search vss a.floating.length)
    (hsame : List.Forall₂ (fun p (q : FitPar) => q.prior = (st.params p).prior ∧
      q.sigma = (st.params p).sigma) (a.parameters st) search.pars)
    (hex : ∀ vs ∈ vss, ∀ x ∈ vs, ((rnd x : ℚ) : ℝ) = x) {G : ℚ → List ℚ → ℝ}
    (hG : ∀ x u, 0 ≤ x → WithinGrid vss u →
      a.stat.Sound (comparedContents a.singleBin (c d)) (a.withSignalAt st c d r x u) ∧
      a.stat.Total (comparedContents a.singleBin (c d)) (a.withSignalAt st c d r x u) (G x u)) :
    ∃ ses st' w, init keyOf a st = (st', .ok ses) ∧
      Fitter.limitInit ⟨ses, st', search⟩ r true = (w, .ok ()) ∧
      ∀ (calls : List LimitCall) (scales : List ℝ),
      (∀ x ∈ allScales calls ++ scales, 0 ≤ x ∧ ((rnd x : ℚ) : ℝ) = x ∧ (npCloseReal x 0 → x = 0)) →
      scales ≠ [] → scales.Pairwise (· < ·) → ∀ (sigmas : List (Option ℝ)),
      (∀ s ∈ sigmas, s ≠ none) → ∀ (limit : ℝ),
      ∃ (best₀ : List ℝ) (best : ℝ → List ℝ),
        FirstBest vss (fun u => G 0 (u.map rnd) + a.penaltyAt st u) best₀ ∧
        (∀ x ∈ scales, FirstBest vss (fun u => G (rnd x) (u.map rnd) + a.penaltyAt st u) (best x)) ∧
        ∃ b, BestScale scales (fun x => G (rnd x) ((best x).map rnd)) b ∧
          (∀ x, ((w.afterCalls env rnd r calls).limitOf env rnd r scales sigmas none limit).2 = .ok x ↔
            FirstCrossing scales (fun y => G (rnd y) ((best y).map rnd) - G 0 (best₀.map rnd) +
              a.penaltyAt st (best y)) b limit x) ∧
          (((w.afterCalls env rnd r calls).limitOf env rnd r scales sigmas none limit).2 =
              .error .limitError ↔
            ∀ y ∈ scales, b ≤ y → G (rnd y) ((best y).map rnd) - G 0 (best₀.map rnd) +
              a.penaltyAt st (best y) ≤ limit) := by
  obtain ⟨ses, st', w, h1, h2, h3⟩ := c147_floating_partial h he ho hns hc hsearch hsame hex
  have hzero : ∀ u, Combination vss u → a.stat.Total (comparedContents a.singleBin (c d))
      (comparedContents a.singleBin (a.backgroundAt st c (c d).shape (u.map rnd)))
      (G 0 (u.map rnd)) := by
    intro u hu
    obtain ⟨k1, k2⟩ := hG 0 _ le_rfl (within_of_combination hex hu).1
    have hl := k1.length_eq
    unfold FitArgs.withSignalAt at k2 hl
    rw [Rat.cast_zero, zero_div] at k2 hl
    have hl' := compared_length a.singleBin (a := c d)
      (b := a.backgroundAt st c (c d).shape (u.map rnd)) rfl
    unfold expectedAt at k2 hl
    rw [List.length_zipWith, ← hl'] at hl
    have e : List.zipWith (fun b s => b + 0 * s)
        (comparedContents a.singleBin (a.backgroundAt st c (c d).shape (u.map rnd)))
        (comparedContents a.singleBin (c r)) =
        comparedContents a.singleBin (a.backgroundAt st c (c d).shape (u.map rnd)) := by
      generalize comparedContents a.singleBin (a.backgroundAt st c (c d).shape (u.map rnd)) = p at hl
      generalize comparedContents a.singleBin (c r) = q at hl
      have hl : p.length ≤ q.length := by omega
      clear * - hl
      induction p generalizing q with
      | nil => simp
      | cons b p ih =>
        match q, hl with
        | s :: q, hl =>
          rw [List.zipWith_cons_cons, ih q (by simpa using hl)]
          simp
    rw [e] at k2
    exact k2
  refine ⟨ses, st', w, h1, h2, fun calls scales hs hne hp sigmas hsig limit => ?_⟩
  have ht : Testable rnd (allScales calls ++ scales) := by
    intro x hx hcl h0
    have := (hs x hx).2.1
    rw [h0, Rat.cast_zero] at this
    exact hcl (by rw [← this]; unfold npCloseReal; norm_num)
  exact h3 calls scales ht hne hp (fun u => G 0 (u.map rnd))
    (fun x u => G (rnd x) (u.map rnd)) hzero (fun x hx u hu => by
      obtain ⟨b1, b2, b3⟩ := hs x hx
      refine ⟨fun hcl => ?_, fun _ => ?_⟩
      · have := b3 hcl
        rw [this] at b2
        rw [this, show rnd 0 = 0 by exact_mod_cast b2]
      · exact (hG (rnd x) _ (by rw [← b2] at b1; exact_mod_cast b1)
          (within_of_combination hex hu).1).2) sigmas hsig limit

/-- **C160.** A fit by grid search is made from data, fixed and floating backgrounds with a rate each,
and a limit from it and a signal. `G x u` is the statistic of the data and the backgrounds in the
region, the floating ones scaled to the rates `u`, and the signal scaled to `x` decays; `x` and `u` are
*allowed* when this, with the penalty at `u`, is above that of the best fit without signal by no more
than the threshold. Let the limit be `x`. Then at `x` no combination of values of the grid is allowed.
And if, with rates in the range of the grid, a weaker signal is allowed and a stronger one is allowed,
then also `x` is allowed, for some rates in the range of the grid. So, once a weaker signal is allowed,
a limit that does not come from the steps between the values of the grid excludes every stronger
signal, tested or not. (Partial: the suppositions of C147; the values tested are not rounded.) -/
theorem c160_between_partial (h : a.LimitOn r d ts st)
    (he : (a.withSignal r).Evaluable env keyOf d st) (ho : a.OwnRates st) {ns : List PyStr}
    (hns : RoiNames (st.view d).cfg (inOrder a.roi) ns) {c : ℕ → NdArray ℚ}
    (hc : ∀ q ∈ (a.withSignal r).kept ++ a.fixed.map Prod.fst,
      RegionContents (inOrder a.roi) ns (st.view q) (c q)) {search : GridSearch}
    (hsearch : RateSearch rnd search vss a.floating.length)
    (hsame : List.Forall₂ (fun p (q : FitPar) => q.prior = (st.params p).prior ∧
      q.sigma = (st.params p).sigma) (a.parameters st) search.pars)
    (hex : ∀ vs ∈ vss, ∀ x ∈ vs, ((rnd x : ℚ) : ℝ) = x) {G : ℚ → List ℚ → ℝ}
    (hG : ∀ x u, 0 ≤ x → WithinGrid vss u →
      a.stat.Sound (comparedContents a.singleBin (c d)) (a.withSignalAt st c d r x u) ∧
      a.stat.Total (comparedContents a.singleBin (c d)) (a.withSignalAt st c d r x u) (G x u)) :
    ∃ ses st' w, init keyOf a st = (st', .ok ses) ∧
      Fitter.limitInit ⟨ses, st', search⟩ r true = (w, .ok ()) ∧
      ∀ (calls : List LimitCall) (scales : List ℝ),
      (∀ x ∈ allScales calls ++ scales, 0 ≤ x ∧ ((rnd x : ℚ) : ℝ) = x ∧ (npCloseReal x 0 → x = 0)) →
      scales ≠ [] → scales.Pairwise (· < ·) → ∀ (sigmas : List (Option ℝ)),
      (∀ s ∈ sigmas, s ≠ none) → ∀ (limit : ℝ),
      ∃ u₀, FirstBest vss (fun u => G 0 (u.map rnd) + a.penaltyAt st u) u₀ ∧
      ∀ (A : ℚ → List ℚ → Prop), (∀ x u, A x u ↔
        G x u - G 0 (u₀.map rnd) + a.penaltyAt st (u.map (fun v : ℚ => (v : ℝ))) ≤ limit) →
      ∀ x : ℚ,
      ((w.afterCalls env rnd r calls).limitOf env rnd r scales sigmas none limit).2 = .ok (x : ℝ) →
      (∀ u, Combination vss u → ¬ A x (u.map rnd)) ∧
      ∀ z y : ℚ, 0 ≤ z → z < x → x < y → (∃ u, WithinGrid vss u ∧ A z u) →
        (∃ u, WithinGrid vss u ∧ A y u) → ∃ u, WithinGrid vss u ∧ A x u := by
  obtain ⟨ses, st', w, h1, h2, h3⟩ := limit_profile h he ho hns hc hsearch hsame hex hG
  refine ⟨ses, st', w, h1, h2, fun calls scales hs hne hp sigmas hsig limit => ?_⟩
  obtain ⟨best₀, best, b1, b2, b, -, hlim, -⟩ := h3 calls scales hs hne hp sigmas hsig limit
  refine ⟨best₀, b1, fun A hA x hx => ⟨fun u hu hAx => ?_, ?_⟩⟩
  · obtain ⟨k1, -, k2, -⟩ := (hlim x).1 hx
    have e : rnd (x : ℝ) = x := by exact_mod_cast (hs x (List.mem_append_right _ k1)).2.1
    have hb := (FirstBest.smallest (b2 x k1)).2 u hu
    rw [hA, (within_of_combination hex hu).2] at hAx
    simp only [e] at hb k2
    linarith
  · rintro z y hz hzx hxy ⟨u, hu, hAz⟩ ⟨v, hv, hAy⟩
    have hd : 0 < y - z := by linarith
    obtain ⟨t, ht⟩ : ∃ t, t = (x - z) / (y - z) := ⟨_, rfl⟩
    have t0 : 0 ≤ t := by rw [ht]; exact div_nonneg (by linarith) hd.le
    have t1 : t ≤ 1 := by rw [ht, div_le_one hd]; linarith
    have ex : (1 - t) * z + t * y = x := by rw [ht]; field_simp; ring
    have hl : u.length = v.length := hu.length_eq.trans hv.length_eq.symm
    have hw := within_mixed t0 t1 hu hv
    refine ⟨_, hw, ?_⟩
    rw [hA] at hAz hAy ⊢
    obtain ⟨s1, s2⟩ := hG z u hz hu
    obtain ⟨s3, s4⟩ := hG y v (by linarith) hv
    have s6 := (hG x _ (by linarith) hw).2
    rw [← ex] at s6
    have m1 := stat_mixed t0 t1 hl s1 s3 s2 s4 s6
    rw [ex] at m1
    have m2 := penalty_mixed (a := a) (st := st) t0 t1 hl
    have t0' : (0 : ℝ) ≤ t := by exact_mod_cast t0
    have t1' : (t : ℝ) ≤ 1 := by exact_mod_cast t1
    nlinarith

/-! ### a coarse grid -/

namespace Ex

/-- Data of 15 in one bin, a fixed background of 2 and two floating ones. -/
def coarseArgs : FitArgs := { limitArgs [2, 3] with fixed := [(1, 4)], singleBin := true }

/-- A grid search over one value of the first rate and two of the second. -/
def coarseSearch : GridSearch :=
  GridSearch.new [gridPar (lit "rate") (some 2) [10], gridPar (lit "rate") none [20, 1]] [4]
    (some (lit "fit")) false

/-- The value lists of the search. -/
def coarseValues : List (List ℝ) := [[10], [20, 1]]

/-- The statistic at the rates `u` with the signal scaled to `x` decays. -/
noncomputable def coarseStat (x : ℚ) (u : List ℚ) : ℝ :=
  (15 - (2 + 7 * (u.getD 0 0 : ℚ) / 10 + 3 * (u.getD 1 0 : ℚ) / 10 + x / 2)) ^ 2 /
    (2 + 7 * (u.getD 0 0 : ℚ) / 10 + 3 * (u.getD 1 0 : ℚ) / 10 + x / 2)

end Ex

theorem ex_coarseOn : Ex.coarseArgs.LimitOn 4 0
    [(((Ex.limitState.view 1).shrink exFitKw).st.scale 4).st] Ex.limitState where
  given :=
    { region := (exWhole_given []).region
      some := by simp [Ex.coarseArgs, Ex.limitArgs]
      alloc := (ex_limitOn (.inr rfl)).given.alloc
      own := (ex_limitOn (.inr rfl)).given.own
      able := (ex_limitOn (.inr rfl)).given.able
      fixed := by
        have h := (exWhole_given []).fixed
        refine ⟨h.alloc, h.own, h.region, fun e he => ?_, fun e he => ?_, ?_, by simp⟩
        · obtain rfl : e = (1, 4) := by simpa [Ex.coarseArgs] using he
          exact h.dims _ List.mem_cons_self
        · obtain rfl : e = (1, 4) := by simpa [Ex.coarseArgs] using he
          exact h.names _ List.mem_cons_self
        refine .cons ⟨exFitKw, ?_, by decide +kernel, rfl, by decide +kernel⟩ .nil
        show AsksRoi [Ex.fitAxis] (inOrder [(lit "energy", ((2 : ℚ), (1 : ℚ)))]) exFitKw
        rw [exInit_roi]
        exact exFit_asks }
  settings :=
    { floating := (ex_limitOn (.inr rfl)).settings.floating
      fixed := by simp [Ex.coarseArgs, Ex.limitArgs]
      dimension := by simp [Ex.coarseArgs, Ex.limitArgs]
      perBin := by simp [Ex.coarseArgs, Ex.limitArgs] }
  signal := rfl
  data := rfl
  axes := fun _ _ => rfl
  fit := by simp [Ex.limitState]
  decays := by simp [FitState.view, Ex.limitState, Ex.fitObj]
  region := (ex_limitOn (.inr rfl)).region

theorem ex_coarseEvaluable : (Ex.coarseArgs.withSignal 4).Evaluable Ex.fitEnv Ex.keyOf 0
    Ex.limitState := by
  have h := ex_floatEvaluable
  exact ⟨rfl, h.str, rfl, h.backgrounds, fun _ _ => rfl, h.dims, h.decays, h.names, h.pars, h.globals,
    h.rates⟩

theorem ex_coarseRates : Ex.coarseArgs.OwnRates Ex.limitState where
  floating := by simp [Ex.coarseArgs, Ex.limitArgs]
  config := rfl
  one := ex_floatRates.one
  sigmas := ex_floatRates.sigmas
  statPerBin := rfl
  perBin := rfl

theorem ex_coarseSearch : RateSearch Ex.toInt Ex.coarseSearch Ex.coarseValues
    Ex.coarseArgs.floating.length where
  ready := ⟨rfl, rfl⟩
  form := rfl
  values := .cons rfl (.cons rfl .nil)
  counts := .cons ⟨rfl, by simp⟩ (.cons ⟨rfl, by simp⟩ .nil)
  number := rfl
  nodup := by
    intro vs hvs
    have : vs = [10] ∨ vs = [20, 1] := by simpa [Ex.coarseValues] using hvs
    rcases this with rfl | rfl <;> norm_num
  injective := by
    intro vs hvs x hx y hy
    have : vs = [10] ∨ vs = [20, 1] := by simpa [Ex.coarseValues] using hvs
    rcases this with rfl | rfl
    · have hx : x = 10 := by simpa using hx
      have hy : y = 10 := by simpa using hy
      rw [hx, hy]; simp
    · have hx : x = 20 ∨ x = 1 := by simpa using hx
      have hy : y = 20 ∨ y = 1 := by simpa using hy
      rcases hx with rfl | rfl <;> rcases hy with rfl | rfl <;> simp [Ex.toInt]
  nonzero := by
    intro vs hvs x hx
    have : vs = [10] ∨ vs = [20, 1] := by simpa [Ex.coarseValues] using hvs
    rcases this with rfl | rfl
    · have hx : x = 10 := by simpa using hx
      rw [hx]; simp [Ex.toInt]
    · have hx : x = 20 ∨ x = 1 := by simpa using hx
      rcases hx with rfl | rfl <;> simp [Ex.toInt]
  sigmas := by
    intro q hq
    have : q = Ex.gridPar (lit "rate") (some 2) [10] ∨
        q = Ex.gridPar (lit "rate") none [20, 1] := by
      simpa [Ex.coarseSearch, GridSearch.new] using hq
    rcases this with rfl | rfl <;> simp [Ex.gridPar]

theorem ex_coarseInt : ∀ vs ∈ Ex.coarseValues, ∀ x ∈ vs, ((Ex.toInt x : ℚ) : ℝ) = x := by
  intro vs hvs x hx
  have : vs = [10] ∨ vs = [20, 1] := by simpa [Ex.coarseValues] using hvs
  rcases this with rfl | rfl
  · have hx : x = 10 := by simpa using hx
    rw [hx]; simp [Ex.toInt]
  · have hx : x = 20 ∨ x = 1 := by simpa using hx
    rcases hx with rfl | rfl <;> simp [Ex.toInt]

theorem ex_coarseContents : ∀ q ∈ (Ex.coarseArgs.withSignal 4).kept ++ Ex.coarseArgs.fixed.map Prod.fst,
    RegionContents (inOrder Ex.coarseArgs.roi) [lit "energy_mc"] (Ex.limitState.view q)
      (Ex.limitContents q) := by
  intro q hq
  refine ex_limitContents q ?_
  simp [FitArgs.kept, Ex.coarseArgs, Ex.limitArgs] at hq
  omega

theorem ex_coarseExpected (x p q : ℚ) : Ex.coarseArgs.withSignalAt Ex.limitState Ex.limitContents 0 4 x
    [p, q] = [2 + 7 * (p : ℝ) / 10 + 3 * (q : ℝ) / 10 + (x : ℝ) / 2] := by
  have h1 : (Ex.limitState.view 1).numDecays = 4 := rfl
  have h2 : (Ex.limitState.view 2).numDecays = 10 := rfl
  have h3 : (Ex.limitState.view 3).numDecays = 10 := rfl
  unfold FitArgs.withSignalAt
  rw [ex_limitDecays]
  simp only [comparedContents, show Ex.coarseArgs.singleBin = true from rfl, if_true, expectedAt,
    List.zipWith_cons_cons, List.zipWith_nil_right, NdArray.sum, FitArgs.backgroundAt]
  show [((sumIdx [2] _ : ℚ) : ℝ) + _ * ((sumIdx [2] _ : ℚ) : ℝ)] = _
  simp only [sumIdx, Finset.sum_range_succ, Finset.sum_range_zero, FitArgs.sumAt, Ex.coarseArgs, Ex.limitArgs, Ex.limitContents, h1, h2, h3,
    List.map_cons, List.map_nil, List.zipWith_cons_cons, List.zipWith_nil_right, List.sum_cons,
    List.sum_nil, Option.toList_none]
  push_cast
  refine congrArg₂ _ (by ring) rfl

theorem ex_coarseSound (x : ℚ) (u : List ℚ) (hx : 0 ≤ x) (hu : WithinGrid Ex.coarseValues u) :
    Ex.coarseArgs.stat.Sound (comparedContents Ex.coarseArgs.singleBin (Ex.limitContents 0))
      (Ex.coarseArgs.withSignalAt Ex.limitState Ex.limitContents 0 4 x u) ∧
    Ex.coarseArgs.stat.Total (comparedContents Ex.coarseArgs.singleBin (Ex.limitContents 0))
      (Ex.coarseArgs.withSignalAt Ex.limitState Ex.limitContents 0 4 x u) (Ex.coarseStat x u) := by
  obtain ⟨p, _, ⟨p1, hp1, p2, hp2, hp, hp'⟩, h1, rfl⟩ := List.forall₂_cons_right_iff.1 hu
  obtain ⟨q, _, ⟨q1, hq1, q2, hq2, hq, hq'⟩, h2, rfl⟩ := List.forall₂_cons_right_iff.1 h1
  cases h2
  have hp1 : p1 = 10 := by simpa using hp1
  have hq1 : q1 = 20 ∨ q1 = 1 := by simpa using hq1
  have hq : (1 : ℝ) ≤ q := by rcases hq1 with rfl | rfl <;> linarith
  rw [hp1] at hp
  have hx : (0 : ℝ) ≤ x := by exact_mod_cast hx
  have e0 : comparedContents Ex.coarseArgs.singleBin (Ex.limitContents 0) = [15] := by
    have : (Ex.limitContents 0).sum = 15 := by decide +kernel
    simp [comparedContents, Ex.coarseArgs, this]
  have hpos : (9 : ℝ) ≤ 2 + 7 * (p : ℝ) / 10 + 3 * (q : ℝ) / 10 + (x : ℝ) / 2 := by linarith
  rw [ex_coarseExpected, e0]
  have hlt : statEps < 1 := by unfold statEps; norm_num
  have hz : zeroThreshold < 1 := by unfold zeroThreshold; norm_num
  refine ⟨.cons ⟨.inr (by linarith), by linarith, .inr (by linarith)⟩ .nil, ?_⟩
  change Stat.pearson.Total _ _ _
  rw [total_iff _ (by simp)]
  simp only [List.zip_cons_cons, List.zip_nil_right, List.map_cons, List.map_nil, List.sum_cons,
    List.sum_nil, Stat.bin, pearsonBin, Ex.coarseStat, List.getD_cons_zero, List.getD_cons_succ]
  rw [clampEps_of_ge (by linarith), if_neg (by linarith), add_zero]

theorem ex_coarsePenalty (p q : ℝ) :
    Ex.coarseArgs.penaltyAt Ex.limitState [p, q] = ((p - 10) / 2) ^ 2 := ex_floatPenalty p q

theorem ex_coarseScales {x : ℝ} (h : x = 0 ∨ x = 6 ∨ x = 12) :
    0 ≤ x ∧ ((Ex.toInt x : ℚ) : ℝ) = x ∧ (npCloseReal x 0 → x = 0) := by
  have hc : ∀ y : ℝ, 1 ≤ y → ¬ npCloseReal y 0 := by
    intro y hy
    unfold npCloseReal
    rw [sub_zero, abs_of_nonneg (by linarith)]
    norm_num
    linarith
  rcases h with rfl | rfl | rfl
  · simp [Ex.toInt]
  · exact ⟨by norm_num, by simp [Ex.toInt], fun h => absurd h (hc _ (by norm_num))⟩
  · exact ⟨by norm_num, by simp [Ex.toInt], fun h => absurd h (hc _ (by norm_num))⟩

theorem ex_coarseCombination {u : List ℝ} (h : Combination Ex.coarseValues u) :
    u = [10, 20] ∨ u = [10, 1] := by
  obtain ⟨x, _, hx, h1, rfl⟩ := List.forall₂_cons_right_iff.1 h
  obtain ⟨y, _, hy, h2, rfl⟩ := List.forall₂_cons_right_iff.1 h1
  cases h2
  have hx : x = 10 := by simpa using hx
  have hy : y = 20 ∨ y = 1 := by simpa using hy
  rcases hy with rfl | rfl <;> simp [hx]

theorem ex_coarseAt : (Ex.toInt 0 = 0 ∧ Ex.toInt 6 = 6 ∧ Ex.toInt 12 = 12) ∧
    ([10, 20] : List ℝ).map Ex.toInt = [10, 20] ∧ ([10, 1] : List ℝ).map Ex.toInt = [10, 1] := by
  simp [Ex.toInt]

/-- The best rates without signal and with signals, on the grid. -/
theorem ex_coarseBest {x : ℝ} (hx : x = 0 ∨ x = 6 ∨ x = 12) {u : List ℝ}
    (h : FirstBest Ex.coarseValues (fun u => Ex.coarseStat (Ex.toInt x) (u.map Ex.toInt) +
      Ex.coarseArgs.penaltyAt Ex.limitState u) u) :
    Ex.coarseArgs.penaltyAt Ex.limitState u = 0 ∧ Ex.coarseStat (Ex.toInt x) (u.map Ex.toInt) =
      if x = 0 then 0 else if x = 6 then 1 / 2 else 9 / 1530 := by
  obtain ⟨⟨i0, i6, i12⟩, m1, m2⟩ := ex_coarseAt
  have c1 : Combination Ex.coarseValues [10, 20] := .cons (by simp) (.cons (by simp) .nil)
  have c2 : Combination Ex.coarseValues [10, 1] := .cons (by simp) (.cons (by simp) .nil)
  have k1 := (FirstBest.smallest h).2 _ c1
  have k2 := (FirstBest.smallest h).2 _ c2
  obtain ⟨_, hv, -⟩ := h
  dsimp only at k1 k2
  rcases ex_coarseCombination hv.comb with rfl | rfl <;> rcases hx with rfl | rfl | rfl <;>
    simp only [m1, m2, i0, i6, i12, ex_coarsePenalty, Ex.coarseStat, List.getD_cons_zero,
      List.getD_cons_succ] at k1 k2 ⊢ <;>
    first | (norm_num; done) | (norm_num at k1; done) | norm_num at k2

/-- **C160, signals stronger than the limit.** With a coarse grid they may be allowed: the scalings
tested are 0, 6 and 12, and the limit is 6; but when only 0 and 12 are tested there is no limit, as 12
is not excluded. -/
theorem c160_stronger_negation : ∃ ses st' w, init Ex.keyOf Ex.coarseArgs Ex.limitState = (st', .ok ses) ∧
    Fitter.limitInit ⟨ses, st', Ex.coarseSearch⟩ 4 true = (w, .ok ()) ∧
    (w.limitOf Ex.fitEnv Ex.toInt 4 [0, 6, 12] [] none (3 / 10)).2 = .ok 6 ∧
    (w.limitOf Ex.fitEnv Ex.toInt 4 [0, 12] [] none (3 / 10)).2 = .error .limitError := by
  obtain ⟨ses, st', w, h1, h2, h3⟩ := limit_profile (env := Ex.fitEnv) (keyOf := Ex.keyOf)
    (rnd := Ex.toInt) (vss := Ex.coarseValues) (search := Ex.coarseSearch) ex_coarseOn
    ex_coarseEvaluable ex_coarseRates ex_limitNames ex_coarseContents ex_coarseSearch
    (.cons ⟨rfl, rfl⟩ (.cons ⟨rfl, rfl⟩ .nil)) ex_coarseInt ex_coarseSound
  refine ⟨ses, st', w, h1, h2, ?_, ?_⟩
  · obtain ⟨u₀, best, b1, b2, b, hb, hlim, -⟩ := h3 [] [0, 6, 12]
      (fun x hx => ex_coarseScales (by simpa [allScales] using hx)) (by simp) (by norm_num) [] (by simp)
      (3 / 10)
    have k0 := ex_coarseBest (.inl rfl) (u := u₀) (by rw [ex_coarseAt.1.1]; exact b1)
    have k1 := ex_coarseBest (.inl rfl) (b2 0 (by simp))
    have k2 := ex_coarseBest (.inr (.inl rfl)) (b2 6 (by simp))
    rw [ex_coarseAt.1.1] at k0
    have hb0 : b ≤ 6 := by
      have hm : b = 0 ∨ b = 6 ∨ b = 12 := by simpa using hb.1
      rcases hm with rfl | rfl | rfl
      · norm_num
      · norm_num
      · have := (hb.2 0 (by simp)).1
        have k3 := ex_coarseBest (.inr (.inr rfl)) (b2 12 (by simp))
        dsimp only at this
        rw [k3.2, k1.2] at this
        norm_num at this
    refine (hlim 6).2 ⟨by simp, hb0, ?_, fun y hy _ hlt => ?_⟩
    · dsimp only
      rw [k2.1, k2.2, k0.2]
      norm_num
    · have hm : y = 0 ∨ y = 6 ∨ y = 12 := by simpa using hy
      rcases hm with rfl | rfl | rfl
      · dsimp only
        rw [k1.1, k1.2, k0.2]
        norm_num
      · exact absurd hlt (lt_irrefl _)
      · norm_num at hlt
  · obtain ⟨u₀, best, b1, b2, b, hb, -, hlim⟩ := h3 [] [0, 12]
      (fun x hx => ex_coarseScales (by
        have : x = 0 ∨ x = 12 := by simpa [allScales] using hx
        tauto)) (by simp) (by norm_num) [] (by simp) (3 / 10)
    refine hlim.2 fun y hy _ => ?_
    have k0 := ex_coarseBest (.inl rfl) (u := u₀) (by rw [ex_coarseAt.1.1]; exact b1)
    rw [ex_coarseAt.1.1] at k0
    have hm : y = 0 ∨ y = 12 := by simpa using hy
    have ky := ex_coarseBest (by tauto) (b2 y hy)
    rw [ky.1, ky.2, k0.2]
    rcases hm with rfl | rfl <;> norm_num

/-- The case of `c160_stronger_negation` meets the hypotheses: 6 is the limit, and is allowed for rates
between those of the grid. -/
example : ∃ u, WithinGrid Ex.coarseValues u ∧ Ex.coarseStat 6 u +
    Ex.coarseArgs.penaltyAt Ex.limitState (u.map (fun v : ℚ => (v : ℝ))) ≤ 3 / 10 := by
  obtain ⟨ses, st', w, h1, h2, h3⟩ := c160_between_partial (env := Ex.fitEnv) (keyOf := Ex.keyOf)
    (rnd := Ex.toInt) (vss := Ex.coarseValues) (search := Ex.coarseSearch) ex_coarseOn
    ex_coarseEvaluable ex_coarseRates ex_limitNames ex_coarseContents ex_coarseSearch
    (.cons ⟨rfl, rfl⟩ (.cons ⟨rfl, rfl⟩ .nil)) ex_coarseInt ex_coarseSound
  obtain ⟨ses', st'', w', h1', h2', h4, -⟩ := c160_stronger_negation
  obtain ⟨rfl, e⟩ := Prod.mk.inj (h1.symm.trans h1')
  obtain rfl := Except.ok.inj e
  obtain rfl := (Prod.mk.inj (h2.symm.trans h2')).1
  obtain ⟨u₀, b1, h5⟩ := h3 [] [0, 6, 12]
    (fun x hx => ex_coarseScales (by simpa [allScales] using hx)) (by simp) (by norm_num) [] (by simp)
    (3 / 10)
  have k0 := ex_coarseBest (.inl rfl) (u := u₀) (by rw [ex_coarseAt.1.1]; exact b1)
  rw [ex_coarseAt.1.1] at k0
  obtain ⟨-, h6⟩ := h5 _ (fun _ _ => Iff.rfl) 6 (by rw [Rat.cast_ofNat]; exact h4)
  obtain ⟨-, m1, m2⟩ := ex_coarseAt
  have key : ∀ x u, Ex.coarseStat x u - Ex.coarseStat 0 (u₀.map Ex.toInt) +
      Ex.coarseArgs.penaltyAt Ex.limitState (u.map (fun v : ℚ => (v : ℝ))) ≤ 3 / 10 ↔
      Ex.coarseStat x u + Ex.coarseArgs.penaltyAt Ex.limitState (u.map (fun v : ℚ => (v : ℝ))) ≤
        3 / 10 := by
    intro x u
    rw [k0.2, if_pos rfl, sub_zero]
  simp only [key] at h6
  refine h6 0 12 le_rfl (by norm_num) (by norm_num) ⟨[10, 20], ?_, ?_⟩ ⟨[10, 1], ?_, ?_⟩
  · rw [← m1]; exact (within_of_combination ex_coarseInt (.cons (by simp) (.cons (by simp) .nil))).1
  · simp only [List.map_cons, List.map_nil, ex_coarsePenalty, Ex.coarseStat, List.getD_cons_zero,
      List.getD_cons_succ]
    norm_num
  · rw [← m2]; exact (within_of_combination ex_coarseInt (.cons (by simp) (.cons (by simp) .nil))).1
  · simp only [List.map_cons, List.map_nil, ex_coarsePenalty, Ex.coarseStat, List.getD_cons_zero,
      List.getD_cons_succ]
    norm_num

end Verif
