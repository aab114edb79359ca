import Verif.Lemmas.Ranking

/-! # C170: chi squared or likelihood -/

namespace Verif

open Session

variable {env : FitEnv} {keyOf : ℕ → PyStr} {a : FitArgs} {ts : List Spectrum} {r d : ℕ}
  {st : FitState} {rnd : ℝ → ℚ} {vss : List (List ℝ)}

/-- **C170, fits.** Two fits by grid search are made from the same data, floating backgrounds with one
rate each, and perhaps fixed backgrounds and a signal; one with the chi squared of Baker and Cousins, and
one with their likelihood. Then both find the same rates, and statistic and penalty of the first are twice
those of the second. (Partial: the suppositions of C62 and C99; at most one axis is projected out; the
values of the rates are not rounded.) -/
theorem c170_fit_partial (hg : a.Given ts st) (he : a.Evaluable env keyOf d st) (hs : a.Settings st)
    (ho : a.OwnRates st) (hl : (st.view d).cfg.length ≤ a.roi.length + 1)
    {g : GridSearch} (hsearch : RateSearch rnd g vss a.floating.length)
    (hex : ∀ vs ∈ vss, ∀ x ∈ vs, ((rnd x : ℚ) : ℝ) = x) :
    ∃ ses₁ st₁ g₁ raw₁ pen₁ ses₂ st₂ g₂ raw₂ pen₂ t p,
      init keyOf (a.withStat .bcChi) st = (st₁, .ok ses₁) ∧
      init keyOf (a.withStat .bcLL) st = (st₂, .ok ses₂) ∧
      (ses₁.fit (fun f => fitGrid env f rnd g) st₁).2 = .ok (.inr (g₁, raw₁, pen₁)) ∧
      (ses₂.fit (fun f => fitGrid env f rnd g) st₂).2 = .ok (.inr (g₂, raw₂, pen₂)) ∧
      g₁.pars.map FitPar.bestFit = g₂.pars.map FitPar.bestFit ∧
      raw₁.ravel = [2 * t] ∧ raw₂.ravel = [t] ∧ pen₁.ravel = [2 * p] ∧ pen₂.ravel = [p] := by
  have hdk : d ∈ a.kept := by simp [FitArgs.kept, he.data]
  obtain ⟨ns, hns⟩ := exists_roiNames (hg.able d (List.mem_append_left _ hdk))
  obtain ⟨c, hc⟩ := exists_contents (inOrder_isDict hg.region) hg.able ns
  have := fit_affine (env := env) (keyOf := keyOf) (rnd := rnd) (s := .bcChi) (s' := .bcLL) two_pos (m := 0)
    hg he hs ho hl hns hc hsearch hex
    (fun u _ => affine_chi (compared_length _ (a := c d)
      (b := a.backgroundAt st c (c d).shape (u.map rnd)) rfl).symm) penalty_chi
  simpa only [add_zero] using this

/-- **C170, limits.** A limit set with the chi squared of Baker and Cousins has the same outcome as the
limit set with their likelihood and half the threshold. (Partial: the suppositions of C147.) -/
theorem c170_limit_partial (h : a.LimitOn r d ts st)
    (he : (a.withSignal r).Evaluable env keyOf d st) (ho : a.OwnRates st)
    {g : GridSearch} (hsearch : RateSearch rnd g vss a.floating.length)
    (hsame : List.Forall₂ (fun p (q : FitPar) => q.prior = (st.params p).prior ∧
      q.sigma = (st.params p).sigma) (a.parameters st) g.pars)
    (hex : ∀ vs ∈ vss, ∀ x ∈ vs, ((rnd x : ℚ) : ℝ) = x) :
    ∃ ses₁ st₁ f₁ ses₂ st₂ f₂,
      init keyOf (a.withStat .bcChi) st = (st₁, .ok ses₁) ∧
      init keyOf (a.withStat .bcLL) st = (st₂, .ok ses₂) ∧
      Fitter.limitInit ⟨ses₁, st₁, g⟩ r true = (f₁, .ok ()) ∧
      Fitter.limitInit ⟨ses₂, st₂, g⟩ r true = (f₂, .ok ()) ∧
      ∀ (calls₁ calls₂ : List LimitCall) (scales : List ℝ), Testable rnd (allScales calls₁ ++ scales) →
      Testable rnd (allScales calls₂ ++ scales) → scales ≠ [] → scales.Pairwise (· < ·) →
      ∀ (sigmas : List (Option ℝ)), (∀ s ∈ sigmas, s ≠ none) → ∀ (limit : ℝ),
      ((f₁.afterCalls env rnd r calls₁).limitOf env rnd r scales sigmas none (2 * limit)).2 =
        ((f₂.afterCalls env rnd r calls₂).limitOf env rnd r scales sigmas none limit).2 := by
  have hg := h.given
  have hreg := inOrder_isDict hg.region
  have hdm : d ∈ (a.withSignal r).kept ++ a.fixed.map Prod.fst := by simp [FitArgs.kept, h.data]
  have hrm : r ∈ (a.withSignal r).kept ++ a.fixed.map Prod.fst := by simp [FitArgs.kept]
  obtain ⟨ns, hns⟩ := exists_roiNames (hg.able d hdm)
  obtain ⟨c, hc⟩ := exists_contents hreg hg.able ns
  have hshape : (c r).shape = (c d).shape :=
    same_shape hreg (hg.able d hdm) (hg.able r hrm) (h.axes r hrm) (hc d hdm) (hc r hrm)
  obtain ⟨ses₁, st₁, f₁, ses₂, st₂, f₂, h1, h2, h3, h4, h5⟩ := limit_affine (rnd := rnd) (s := .bcChi)
    (s' := .bcLL) two_pos (m := 0) h he ho hns hc hsearch hsame hex
    (fun u _ => affine_chi (compared_length _ (a := c d)
      (b := a.backgroundAt st c (c d).shape (u.map rnd)) rfl).symm) penalty_chi
  exact ⟨ses₁, st₁, f₁, ses₂, st₂, f₂, h1, h2, h3, h4, fun calls₁ calls₂ scales t1 t2 t3 t4 =>
    h5 calls₁ calls₂ scales t1 t2 t3 t4 fun x _ _ u _ => affine_chi (expected_length
      (sb := a.singleBin) (o := c d) (b := a.backgroundAt st c (c d).shape (u.map rnd)) rfl hshape _)⟩

/-- **C170, limits without floating backgrounds.** (Partial: the suppositions of C147.) -/
theorem c170_counting_partial (h : a.LimitOn r d ts st) (hfx : a.fixed ≠ []) (hfl : a.floating = [])
    (hstat : a.statPerBin = false) {g : GridSearch} (hpars : g.pars = []) :
    ∃ ses₁ st₁ f₁ ses₂ st₂ f₂,
      init keyOf (a.withStat .bcChi) st = (st₁, .ok ses₁) ∧
      init keyOf (a.withStat .bcLL) st = (st₂, .ok ses₂) ∧
      Fitter.limitInit ⟨ses₁, st₁, g⟩ r true = (f₁, .ok ()) ∧
      Fitter.limitInit ⟨ses₂, st₂, g⟩ r true = (f₂, .ok ()) ∧
      ∀ (calls₁ calls₂ : List LimitCall) (scales : List ℝ), Testable rnd (allScales calls₁ ++ scales) →
      Testable rnd (allScales calls₂ ++ scales) → scales ≠ [] → scales.Pairwise (· < ·) →
      ∀ (sigmas : List (Option ℝ)), (∀ s ∈ sigmas, s ≠ none) → ∀ (limit : ℝ),
      ((f₁.afterCalls env rnd r calls₁).limitOf env rnd r scales sigmas none (2 * limit)).2 =
        ((f₂.afterCalls env rnd r calls₂).limitOf env rnd r scales sigmas none limit).2 := by
  have hg := h.given
  have hreg := inOrder_isDict hg.region
  have hdm : d ∈ (a.withSignal r).kept ++ a.fixed.map Prod.fst := by simp [FitArgs.kept, h.data]
  have hrm : r ∈ (a.withSignal r).kept ++ a.fixed.map Prod.fst := by simp [FitArgs.kept]
  obtain ⟨ns, hns⟩ := exists_roiNames (hg.able d hdm)
  obtain ⟨c, hc⟩ := exists_contents hreg hg.able ns
  have hshape : (c r).shape = (c d).shape :=
    same_shape hreg (hg.able d hdm) (hg.able r hrm) (h.axes r hrm) (hc d hdm) (hc r hrm)
  obtain ⟨ses₁, st₁, f₁, ses₂, st₂, f₂, h1, h2, h3, h4, h5⟩ := counting_affine (env := env)
    (keyOf := keyOf) (rnd := rnd) (s := .bcChi) (s' := .bcLL) two_pos (m := 0) h hfx hfl hstat hns hc hpars
    (affine_chi (compared_length _ (a := c d) (b := a.fixedTotal st c (c d).shape) rfl).symm)
  exact ⟨ses₁, st₁, f₁, ses₂, st₂, f₂, h1, h2, h3, h4, fun calls₁ calls₂ scales t1 t2 t3 t4 =>
    h5 calls₁ calls₂ scales t1 t2 t3 t4 fun x _ _ => affine_chi (expected_length
      (sb := a.singleBin) (o := c d) (b := a.fixedTotal st c (c d).shape) rfl hshape _)⟩

/-! ### the extended likelihood -/

/-- The likelihood of Baker and Cousins is the extended one and something that depends on the data
only. -/
theorem affine_extended {obs : List ℝ} (ho : ∀ o ∈ obs, o = 0 ∨ zeroThreshold ≤ o) :
    ∃ m, ∀ exp : List ℝ, obs.length = exp.length → (∀ e ∈ exp, zeroThreshold ≤ e) →
      Affine .bcLL .extLL 1 m obs exp := by
  have hl : obs.length = (obs.map fun _ => (1 : ℝ)).length := (List.length_map _).symm
  have h1 : ∀ e ∈ obs.map (fun _ => (1 : ℝ)), zeroThreshold ≤ e := fun e he => by
    obtain ⟨_, -, rfl⟩ := List.mem_map.1 he
    norm_num [zeroThreshold]
  obtain ⟨c₂, hc₂⟩ := exists_total .bcChi hl
  obtain ⟨l₂, hl₂⟩ := exists_total .bcLL hl
  obtain ⟨x₂, hx₂⟩ := exists_total .extLL hl
  refine ⟨l₂ - x₂, fun exp hlen hexp x hx => ?_⟩
  obtain ⟨c₁, hc₁⟩ := exists_total .bcChi hlen
  obtain ⟨l₁, hl₁⟩ := exists_total .bcLL hlen
  obtain ⟨k1, k2, -⟩ := c38_ranking obs exp _ hlen hl ho hexp h1 c₁ c₂ l₁ l₂ x x₂ hc₁ hc₂ hl₁ hl₂ hx hx₂
  rw [show 1 * x + (l₂ - x₂) = l₁ by linarith]
  exact hl₁

theorem expectedAt_ge {bg sig : List ℝ} {x m : ℝ} (hb : ∀ e ∈ bg, m ≤ e) (hs : ∀ e ∈ sig, 0 ≤ e)
    (hx : 0 ≤ x) : ∀ e ∈ expectedAt bg sig x, m ≤ e := by
  unfold expectedAt
  induction bg generalizing sig with
  | nil => simp
  | cons b bg ih =>
    cases sig with
    | nil => simp
    | cons s sig =>
      intro e he
      rw [List.zipWith_cons_cons, List.mem_cons] at he
      rcases he with rfl | he
      · have h1 := hb b (by simp)
        have h2 := mul_nonneg (hs s (by simp)) hx
        linarith
      · exact ih (fun e h => hb e (by simp [h])) (fun e h => hs e (by simp [h])) e he

/-- **C170, extended likelihood.** A limit is set with rates that have no sigma. In every bin that is
compared the data have no event or a number that does not count as zero, and the backgrounds, at all
values of the rates, events that do not count as zero; the signal is nowhere negative. Then the limit set
with the likelihood of Baker and Cousins and the limit set with the extended likelihood have the same
outcome for every threshold. (Partial: the suppositions of C147.) -/
theorem c170_extended_partial (h : a.LimitOn r d ts st)
    (he : (a.withSignal r).Evaluable env keyOf d st) (ho : a.OwnRates st)
    (hsig : ∀ p ∈ a.parameters st, (st.params p).sigma = none) {ns : List PyStr}
    (hns : RoiNames (st.view d).cfg (inOrder a.roi) ns) {c : ℕ → NdArray ℚ}
    (hc : ∀ q ∈ (a.withSignal r).kept ++ a.fixed.map Prod.fst,
      RegionContents (inOrder a.roi) ns (st.view q) (c q))
    {g : GridSearch} (hsearch : RateSearch rnd g vss a.floating.length)
    (hsame : List.Forall₂ (fun p (q : FitPar) => q.prior = (st.params p).prior ∧
      q.sigma = (st.params p).sigma) (a.parameters st) g.pars)
    (hex : ∀ vs ∈ vss, ∀ x ∈ vs, ((rnd x : ℚ) : ℝ) = x)
    (hobs : ∀ o ∈ comparedContents a.singleBin (c d), o = 0 ∨ zeroThreshold ≤ o)
    (hbg : ∀ u, Combination vss u → ∀ e ∈ comparedContents a.singleBin
      (a.backgroundAt st c (c d).shape (u.map rnd)), zeroThreshold ≤ e)
    (hsg : ∀ e ∈ comparedContents a.singleBin (c r), 0 ≤ e) (hdec : 0 < (st.view r).numDecays) :
    ∃ ses₁ st₁ f₁ ses₂ st₂ f₂,
      init keyOf (a.withStat .bcLL) st = (st₁, .ok ses₁) ∧
      init keyOf (a.withStat .extLL) st = (st₂, .ok ses₂) ∧
      Fitter.limitInit ⟨ses₁, st₁, g⟩ r true = (f₁, .ok ()) ∧
      Fitter.limitInit ⟨ses₂, st₂, g⟩ r true = (f₂, .ok ()) ∧
      ∀ (calls₁ calls₂ : List LimitCall) (scales : List ℝ), Testable rnd (allScales calls₁ ++ scales) →
      Testable rnd (allScales calls₂ ++ scales) → scales ≠ [] → scales.Pairwise (· < ·) →
      (∀ x ∈ scales, 0 ≤ rnd x) →
      ∀ (sigmas : List (Option ℝ)), (∀ s ∈ sigmas, s ≠ none) → ∀ (limit : ℝ),
      ((f₁.afterCalls env rnd r calls₁).limitOf env rnd r scales sigmas none limit).2 =
        ((f₂.afterCalls env rnd r calls₂).limitOf env rnd r scales sigmas none limit).2 := by
  have hg := h.given
  have hreg := inOrder_isDict hg.region
  have hdm : d ∈ (a.withSignal r).kept ++ a.fixed.map Prod.fst := by simp [FitArgs.kept, h.data]
  have hrm : r ∈ (a.withSignal r).kept ++ a.fixed.map Prod.fst := by simp [FitArgs.kept]
  have hshape : (c r).shape = (c d).shape :=
    same_shape hreg (hg.able d hdm) (hg.able r hrm) (h.axes r hrm) (hc d hdm) (hc r hrm)
  obtain ⟨m, hm⟩ := affine_extended hobs
  have hzero : ∀ (s : Stat) (u : List ℝ), (a.withStat s).penaltyAt st u = 0 := fun s u => by
    unfold FitArgs.penaltyAt
    have hs : ∀ p ∈ (a.withStat s).parameters st, (st.params p).sigma = none := hsig
    revert hs
    generalize (a.withStat s).parameters st = ps
    intro hs
    clear * - hs
    induction ps generalizing u with
    | nil => simp
    | cons p ps ih =>
      cases u with
      | nil => simp
      | cons x u =>
        rw [List.zipWith_cons_cons, List.sum_cons, ih u fun q hq => hs q (List.mem_cons_of_mem _ hq),
          add_zero]
        have := hs p (by simp)
        rw [this]
  obtain ⟨ses₁, st₁, f₁, ses₂, st₂, f₂, h1, h2, h3, h4, h5⟩ := limit_affine (rnd := rnd) (s := .bcLL)
    (s' := .extLL) one_pos (m := m) h he ho hns hc hsearch hsame hex
    (fun u hu => hm _ (compared_length _ (a := c d)
      (b := a.backgroundAt st c (c d).shape (u.map rnd)) rfl).symm (hbg u hu))
    (fun u => by rw [hzero, hzero, mul_zero])
  refine ⟨ses₁, st₁, f₁, ses₂, st₂, f₂, h1, h2, h3, h4,
    fun calls₁ calls₂ scales t1 t2 t3 t4 hnn sigmas hs limit => ?_⟩
  have := h5 calls₁ calls₂ scales t1 t2 t3 t4 (fun x hx _ u hu => hm _ (expected_length
      (sb := a.singleBin) (o := c d) (b := a.backgroundAt st c (c d).shape (u.map rnd)) rfl hshape _)
      (expectedAt_ge (hbg u hu) hsg (div_nonneg (by exact_mod_cast hnn x hx)
        (by exact_mod_cast hdec.le)))) sigmas hs limit
  rwa [one_mul] at this

/-- **C170, extended likelihood without floating backgrounds.** (Partial: the suppositions of C147.) -/
theorem c170_extended_counting_partial (h : a.LimitOn r d ts st) (hfx : a.fixed ≠ [])
    (hfl : a.floating = []) (hstat : a.statPerBin = false) {ns : List PyStr}
    (hns : RoiNames (st.view d).cfg (inOrder a.roi) ns) {c : ℕ → NdArray ℚ}
    (hc : ∀ q ∈ (a.withSignal r).kept ++ a.fixed.map Prod.fst,
      RegionContents (inOrder a.roi) ns (st.view q) (c q)) {g : GridSearch} (hpars : g.pars = [])
    (hobs : ∀ o ∈ comparedContents a.singleBin (c d), o = 0 ∨ zeroThreshold ≤ o)
    (hbg : ∀ e ∈ comparedContents a.singleBin (a.fixedTotal st c (c d).shape), zeroThreshold ≤ e)
    (hsg : ∀ e ∈ comparedContents a.singleBin (c r), 0 ≤ e) (hdec : 0 < (st.view r).numDecays) :
    ∃ ses₁ st₁ f₁ ses₂ st₂ f₂,
      init keyOf (a.withStat .bcLL) st = (st₁, .ok ses₁) ∧
      init keyOf (a.withStat .extLL) st = (st₂, .ok ses₂) ∧
      Fitter.limitInit ⟨ses₁, st₁, g⟩ r true = (f₁, .ok ()) ∧
      Fitter.limitInit ⟨ses₂, st₂, g⟩ r true = (f₂, .ok ()) ∧
      ∀ (calls₁ calls₂ : List LimitCall) (scales : List ℝ), Testable rnd (allScales calls₁ ++ scales) →
      Testable rnd (allScales calls₂ ++ scales) → scales ≠ [] → scales.Pairwise (· < ·) →
      (∀ x ∈ scales, 0 ≤ rnd x) →
      ∀ (sigmas : List (Option ℝ)), (∀ s ∈ sigmas, s ≠ none) → ∀ (limit : ℝ),
      ((f₁.afterCalls env rnd r calls₁).limitOf env rnd r scales sigmas none limit).2 =
        ((f₂.afterCalls env rnd r calls₂).limitOf env rnd r scales sigmas none limit).2 := by
  have hg := h.given
  have hreg := inOrder_isDict hg.region
  have hdm : d ∈ (a.withSignal r).kept ++ a.fixed.map Prod.fst := by simp [FitArgs.kept, h.data]
  have hrm : r ∈ (a.withSignal r).kept ++ a.fixed.map Prod.fst := by simp [FitArgs.kept]
  have hshape : (c r).shape = (c d).shape :=
    same_shape hreg (hg.able d hdm) (hg.able r hrm) (h.axes r hrm) (hc d hdm) (hc r hrm)
  obtain ⟨m, hm⟩ := affine_extended hobs
  obtain ⟨ses₁, st₁, f₁, ses₂, st₂, f₂, h1, h2, h3, h4, h5⟩ := counting_affine (env := env)
    (keyOf := keyOf) (rnd := rnd) (s := .bcLL) (s' := .extLL) one_pos (m := m) h hfx hfl hstat hns hc hpars
    (hm _ (compared_length _ (a := c d) (b := a.fixedTotal st c (c d).shape) rfl).symm hbg)
  refine ⟨ses₁, st₁, f₁, ses₂, st₂, f₂, h1, h2, h3, h4,
    fun calls₁ calls₂ scales t1 t2 t3 t4 hnn sigmas hs limit => ?_⟩
  have := h5 calls₁ calls₂ scales t1 t2 t3 t4 (fun x hx _ => hm _ (expected_length
      (sb := a.singleBin) (o := c d) (b := a.fixedTotal st c (c d).shape) rfl hshape _)
      (expectedAt_ge hbg hsg (div_nonneg (by exact_mod_cast hnn x hx)
        (by exact_mod_cast hdec.le)))) sigmas hs limit
  rwa [one_mul] at this

/-! ### cases that meet the hypotheses -/

example : ∃ ses₁ st₁ g₁ raw₁ pen₁ ses₂ st₂ g₂ raw₂ pen₂ t p,
    init Ex.keyOf (exWhole.withStat .bcChi) Ex.madeState = (st₁, .ok ses₁) ∧
    init Ex.keyOf (exWhole.withStat .bcLL) Ex.madeState = (st₂, .ok ses₂) ∧
    (ses₁.fit (fun f => fitGrid Ex.fitEnv f Ex.toInt Ex.closedSearch) st₁).2 =
      .ok (.inr (g₁, raw₁, pen₁)) ∧
    (ses₂.fit (fun f => fitGrid Ex.fitEnv f Ex.toInt Ex.closedSearch) st₂).2 =
      .ok (.inr (g₂, raw₂, pen₂)) ∧
    g₁.pars.map FitPar.bestFit = g₂.pars.map FitPar.bestFit ∧
    raw₁.ravel = [2 * t] ∧ raw₂.ravel = [t] ∧ pen₁.ravel = [2 * p] ∧ pen₂.ravel = [p] :=
  c170_fit_partial made_given made_evaluable made_settings made_ratesOnly.toOwnRates
    (by simp [FitState.view, Ex.madeState, Ex.fitState, exWhole]) made_search made_unrounded

/-- The threshold 271 / 100 of a confidence level of 90 per cent, and half of it. -/
example : ∃ ses₁ st₁ f₁ ses₂ st₂ f₂,
    init Ex.keyOf ((Ex.limitArgs [2, 3]).withStat .bcChi) Ex.limitState = (st₁, .ok ses₁) ∧
    init Ex.keyOf ((Ex.limitArgs [2, 3]).withStat .bcLL) Ex.limitState = (st₂, .ok ses₂) ∧
    Fitter.limitInit ⟨ses₁, st₁, Ex.closedSearch⟩ 4 true = (f₁, .ok ()) ∧
    Fitter.limitInit ⟨ses₂, st₂, Ex.closedSearch⟩ 4 true = (f₂, .ok ()) ∧
    ((f₁.afterCalls Ex.fitEnv Ex.toInt 4 [.statistics [4]]).limitOf Ex.fitEnv Ex.toInt 4
        [0, 4, 10, 20] [] none (271 / 100)).2 =
      ((f₂.afterCalls Ex.fitEnv Ex.toInt 4 []).limitOf Ex.fitEnv Ex.toInt 4
        [0, 4, 10, 20] [] none (271 / 200)).2 := by
  obtain ⟨ses₁, st₁, f₁, ses₂, st₂, f₂, h1, h2, h3, h4, h5⟩ := c170_limit_partial (env := Ex.fitEnv)
    (keyOf := Ex.keyOf) (rnd := Ex.toInt) (g := Ex.closedSearch) (ex_limitOn (.inr rfl)) ex_floatEvaluable
    ex_floatRates made_search (.cons ⟨rfl, rfl⟩ (.cons ⟨rfl, rfl⟩ .nil)) made_unrounded
  refine ⟨ses₁, st₁, f₁, ses₂, st₂, f₂, h1, h2, h3, h4, ?_⟩
  have := h5 [.statistics [4]] [] [0, 4, 10, 20] (ex_plain.2 _ (.inr rfl)) (ex_plain.2 _ (.inl rfl))
    ex_plain.1.some ex_plain.1.increasing [] (by simp) (271 / 200)
  norm_num at this
  exact this

example : ∃ ses₁ st₁ f₁ ses₂ st₂ f₂,
    init Ex.keyOf ((Ex.limitArgs []).withStat .bcChi) Ex.limitState = (st₁, .ok ses₁) ∧
    init Ex.keyOf ((Ex.limitArgs []).withStat .bcLL) Ex.limitState = (st₂, .ok ses₂) ∧
    Fitter.limitInit ⟨ses₁, st₁, GridSearch.new [] [] none false⟩ 4 true = (f₁, .ok ()) ∧
    Fitter.limitInit ⟨ses₂, st₂, GridSearch.new [] [] none false⟩ 4 true = (f₂, .ok ()) ∧
    ((f₁.afterCalls Ex.fitEnv Ex.toInt 4 []).limitOf Ex.fitEnv Ex.toInt 4 [0, 4, 10, 20] [] none
        (271 / 100)).2 =
      ((f₂.afterCalls Ex.fitEnv Ex.toInt 4 [.statistics [4]]).limitOf Ex.fitEnv Ex.toInt 4
        [0, 4, 10, 20] [] none (271 / 200)).2 := by
  obtain ⟨ses₁, st₁, f₁, ses₂, st₂, f₂, h1, h2, h3, h4, h5⟩ := c170_counting_partial (env := Ex.fitEnv)
    (keyOf := Ex.keyOf) (rnd := Ex.toInt) (g := GridSearch.new [] [] none false) (ex_limitOn (.inl rfl))
    (by simp [Ex.limitArgs]) rfl rfl rfl
  refine ⟨ses₁, st₁, f₁, ses₂, st₂, f₂, h1, h2, h3, h4, ?_⟩
  have := h5 [] [.statistics [4]] [0, 4, 10, 20] (ex_plain.2 _ (.inl rfl)) (ex_plain.2 _ (.inr rfl))
    ex_plain.1.some ex_plain.1.increasing [] (by simp) (271 / 200)
  norm_num at this
  exact this

namespace Ex

/-- The rates have no sigma. -/
noncomputable def freeState : FitState := { limitState with
  params := fun p => { limitState.params p with sigma := none } }

def freeSearch : GridSearch :=
  GridSearch.new [gridPar (lit "rate") none [8, 10], gridPar (lit "rate") none [7, 5, 3]] [4]
    (some (lit "fit")) false

end Ex

theorem free_limitOn : (Ex.limitArgs [2, 3]).LimitOn 4 0
    [(((Ex.limitState.view 1).shrink exFitKw).st.scale 20).st] Ex.freeState :=
  have h := ex_limitOn (floating := [2, 3]) (.inr rfl)
  ⟨⟨h.given.region, h.given.some, h.given.alloc, h.given.own, h.given.able,
      ⟨h.given.fixed.alloc, h.given.fixed.own, h.given.fixed.region, h.given.fixed.dims,
        h.given.fixed.names, h.given.fixed.shrunk, h.given.fixed.axes⟩⟩,
    ⟨h.settings.floating, h.settings.fixed, by simp [Ex.limitArgs], h.settings.perBin⟩, h.signal, h.data, h.axes,
    h.fit, h.decays, h.region⟩

theorem free_evaluable : ((Ex.limitArgs [2, 3]).withSignal 4).Evaluable Ex.fitEnv Ex.keyOf 0
    Ex.freeState :=
  have h := ex_floatEvaluable
  ⟨h.data, h.str, h.cache, h.backgrounds, h.axes, h.dims, h.decays, h.names, h.pars, h.globals, h.rates⟩

theorem free_sigmas : ∀ p ∈ (Ex.limitArgs [2, 3]).parameters Ex.freeState,
    (Ex.freeState.params p).sigma = none := fun _ _ => rfl

theorem free_rates : (Ex.limitArgs [2, 3]).OwnRates Ex.freeState :=
  have h := ex_floatRates
  ⟨h.floating, h.config, h.one, fun p hp => by rw [free_sigmas p hp]; simp, h.statPerBin, h.perBin⟩

theorem free_search : RateSearch Ex.toInt Ex.freeSearch Ex.closedValues 2 :=
  { made_search with
    ready := ⟨rfl, rfl⟩
    form := rfl
    values := .cons rfl (.cons rfl .nil)
    counts := .cons ⟨rfl, by simp⟩ (.cons ⟨rfl, by simp⟩ .nil)
    number := rfl
    sigmas := by simp [Ex.freeSearch, GridSearch.new, Ex.gridPar] }

example : ∃ ses₁ st₁ f₁ ses₂ st₂ f₂,
    init Ex.keyOf ((Ex.limitArgs [2, 3]).withStat .bcLL) Ex.freeState = (st₁, .ok ses₁) ∧
    init Ex.keyOf ((Ex.limitArgs [2, 3]).withStat .extLL) Ex.freeState = (st₂, .ok ses₂) ∧
    Fitter.limitInit ⟨ses₁, st₁, Ex.freeSearch⟩ 4 true = (f₁, .ok ()) ∧
    Fitter.limitInit ⟨ses₂, st₂, Ex.freeSearch⟩ 4 true = (f₂, .ok ()) ∧
    ((f₁.afterCalls Ex.fitEnv Ex.toInt 4 []).limitOf Ex.fitEnv Ex.toInt 4 [0, 4, 10, 20] [] none 1).2 =
      ((f₂.afterCalls Ex.fitEnv Ex.toInt 4 []).limitOf Ex.fitEnv Ex.toInt 4 [0, 4, 10, 20] [] none
        1).2 := by
  obtain ⟨e1, -, e3⟩ := ex_limitCompared
  obtain ⟨ses₁, st₁, f₁, ses₂, st₂, f₂, h1, h2, h3, h4, h5⟩ := c170_extended_partial (env := Ex.fitEnv)
    (keyOf := Ex.keyOf) (rnd := Ex.toInt) (vss := Ex.closedValues) (g := Ex.freeSearch)
    (c := Ex.limitContents) free_limitOn free_evaluable free_rates free_sigmas ex_limitNames
    (ex_limitContents' (.inr rfl)) free_search (.cons ⟨rfl, rfl⟩ (.cons ⟨rfl, rfl⟩ .nil)) made_unrounded
    (by
      rw [show (Ex.limitArgs [2, 3]).singleBin = false from rfl, e1]
      intro o ho
      have : o = 7 ∨ o = 8 := by simpa using ho
      rcases this with rfl | rfl <;> exact .inr (by norm_num [zeroThreshold]))
    (by
      intro u hu e he
      obtain ⟨x, w, hx, hw, rfl⟩ := List.forall₂_cons_right_iff.1 hu
      obtain ⟨y, w', hy, hw', rfl⟩ := List.forall₂_cons_right_iff.1 hw
      cases hw'
      have key : ∀ z, z = 8 ∨ z = 10 ∨ z = 7 ∨ z = 5 ∨ z = (3 : ℝ) → (0 : ℝ) ≤ (Ex.toInt z : ℚ) := by
        rintro z (rfl | rfl | rfl | rfl | rfl) <;> simp [Ex.toInt]
      have hx' := key x (by
        have : x = 8 ∨ x = 10 := by simpa using hx
        tauto)
      have hy' := key y (by
        have : y = 7 ∨ y = 5 ∨ y = 3 := by simpa using hy
        tauto)
      have he : e ∈ comparedContents false ((Ex.limitArgs [2, 3]).backgroundAt Ex.limitState
        Ex.limitContents (Ex.limitContents 0).shape [Ex.toInt x, Ex.toInt y]) := he
      rw [ex_floatBackground] at he
      have : zeroThreshold ≤ 1 := by norm_num [zeroThreshold]
      simp only [List.mem_cons, List.not_mem_nil, or_false] at he
      rcases he with rfl | rfl <;> linarith)
    (by
      rw [show (Ex.limitArgs [2, 3]).singleBin = false from rfl, e3]
      simp)
    (by show (0 : ℚ) < 2; norm_num)
  refine ⟨ses₁, st₁, f₁, ses₂, st₂, f₂, h1, h2, h3, h4, ?_⟩
  exact h5 [] [] [0, 4, 10, 20] (ex_plain.2 _ (.inl rfl)) (ex_plain.2 _ (.inl rfl)) ex_plain.1.some
    ex_plain.1.increasing (by
      intro x hx
      have : x = 0 ∨ x = 4 ∨ x = 10 ∨ x = 20 := by simpa using hx
      rcases this with rfl | rfl | rfl | rfl <;> simp [Ex.toInt]) [] (by simp) 1

example : ∃ ses₁ st₁ f₁ ses₂ st₂ f₂,
    init Ex.keyOf ((Ex.limitArgs []).withStat .bcLL) Ex.limitState = (st₁, .ok ses₁) ∧
    init Ex.keyOf ((Ex.limitArgs []).withStat .extLL) Ex.limitState = (st₂, .ok ses₂) ∧
    Fitter.limitInit ⟨ses₁, st₁, GridSearch.new [] [] none false⟩ 4 true = (f₁, .ok ()) ∧
    Fitter.limitInit ⟨ses₂, st₂, GridSearch.new [] [] none false⟩ 4 true = (f₂, .ok ()) ∧
    ((f₁.afterCalls Ex.fitEnv Ex.toInt 4 []).limitOf Ex.fitEnv Ex.toInt 4 [0, 4, 10, 20] [] none 1).2 =
      ((f₂.afterCalls Ex.fitEnv Ex.toInt 4 []).limitOf Ex.fitEnv Ex.toInt 4 [0, 4, 10, 20] [] none
        1).2 := by
  obtain ⟨e1, e2, e3⟩ := ex_limitCompared
  have hz : zeroThreshold ≤ 1 := by norm_num [zeroThreshold]
  obtain ⟨ses₁, st₁, f₁, ses₂, st₂, f₂, h1, h2, h3, h4, h5⟩ := c170_extended_counting_partial
    (env := Ex.fitEnv) (keyOf := Ex.keyOf) (rnd := Ex.toInt) (g := GridSearch.new [] [] none false)
    (c := Ex.limitContents) (ex_limitOn (.inl rfl)) (by simp [Ex.limitArgs]) rfl rfl ex_limitNames
    (ex_limitContents' (.inl rfl)) rfl
    (by
      rw [show (Ex.limitArgs []).singleBin = false from rfl, e1]
      intro o ho
      have : o = 7 ∨ o = 8 := by simpa using ho
      rcases this with rfl | rfl <;> exact .inr (by linarith))
    (by
      rw [show (Ex.limitArgs []).singleBin = false from rfl, e2]
      intro o ho
      have : o = 5 := by simpa using ho
      linarith)
    (by
      rw [show (Ex.limitArgs []).singleBin = false from rfl, e3]
      simp)
    (by show (0 : ℚ) < 2; norm_num)
  refine ⟨ses₁, st₁, f₁, ses₂, st₂, f₂, h1, h2, h3, h4, ?_⟩
  exact h5 [] [] [0, 4, 10, 20] (ex_plain.2 _ (.inl rfl)) (ex_plain.2 _ (.inl rfl)) ex_plain.1.some
    ex_plain.1.increasing (by
      intro x hx
      have : x = 0 ∨ x = 4 ∨ x = 10 ∨ x = 20 := by simpa using hx
      rcases this with rfl | rfl | rfl | rfl <;> simp [Ex.toInt]) [] (by simp) 1

/-! ### with sigmas -/

/-- The excess of the extended likelihood at the rates 8 and 3: 8 + x/2 and 17/2 events are expected, and
7 and 8 observed. -/
noncomputable def Ex.extStat (x : ℝ) : ℝ :=
  (8 + x / 2 - 7 * Real.log (8 + x / 2)) + (17 / 2 - 8 * Real.log (17 / 2))

theorem ext_total {x : ℝ} (hx : 0 ≤ x) :
    Stat.extLL.Total [7, 8] [8 + x / 2, 17 / 2] (Ex.extStat x) := by
  have hlt : statEps ≤ 1 := by unfold statEps; norm_num
  rw [total_iff _ (by simp)]
  simp only [List.zip_cons_cons, List.zip_nil_right, List.map_cons, List.map_nil, List.sum_cons,
    List.sum_nil, Stat.bin, clampEps_of_ge (show statEps ≤ 8 + x / 2 by linarith),
    clampEps_of_ge (show statEps ≤ 17 / 2 by linarith), add_zero, Ex.extStat]

/-- The more signal, the worse. -/
theorem ext_grows {x : ℝ} (hx : 0 ≤ x) : Ex.extStat 0 + x / 16 ≤ Ex.extStat x := by
  unfold Ex.extStat
  have h8 : (8 : ℝ) + x / 2 = 8 * (1 + x / 16) := by ring
  have h1 : (0 : ℝ) < 1 + x / 16 := by linarith
  have := Real.log_le_sub_one_of_pos h1
  rw [h8, Real.log_mul (by norm_num) h1.ne', zero_div, add_zero]
  linarith

/-- What the limits with the two likelihoods compare when the rates can only be 8 and 3. -/
theorem only_outcome {s : Stat} {m : ℝ} (hm : ∀ x : ℝ, 0 ≤ x →
    s.Total [7, 8] [8 + x / 2, 17 / 2] (Ex.extStat x + m)) {p : ℝ}
    (hp : ((Ex.limitArgs [2, 3]).withStat s).penaltyAt Ex.limitState [8, 3] = p) :
    ∃ ses st w, init Ex.keyOf ((Ex.limitArgs [2, 3]).withStat s) Ex.limitState = (st, .ok ses) ∧
      Fitter.limitInit ⟨ses, st, Ex.onlySearch⟩ 4 true = (w, .ok ()) ∧
      ∀ (limit x : ℝ), (w.limitOf Ex.fitEnv Ex.toInt 4 [0, 4, 10, 20] [] none limit).2 = .ok x ↔
        FirstCrossing [0, 4, 10, 20] (fun y => Ex.extStat y - Ex.extStat 0 + p) 0 limit x := by
  have em : ([8, 3] : List ℝ).map Ex.toInt = [8, 3] := by simp [Ex.toInt]
  obtain ⟨e1, -, e3⟩ := ex_limitCompared
  obtain ⟨ses, st, w, i1, i2, i3⟩ := c147_floating_partial (env := Ex.fitEnv) (keyOf := Ex.keyOf)
    (rnd := Ex.toInt) (vss := [[8], [3]]) (search := Ex.onlySearch)
    ((ex_limitOn (floating := [2, 3]) (.inr rfl)).withStat s)
    (ex_floatEvaluable.withStat s) (ex_floatRates.withStat s) ex_limitNames (ex_limitContents' (.inr rfl))
    ex_onlySearch (.cons ⟨rfl, rfl⟩ (.cons ⟨rfl, rfl⟩ .nil)) (by
      intro vs hvs x hx
      have : vs = [8] ∨ vs = [3] := by simpa using hvs
      rcases this with rfl | rfl <;> simp at hx <;> rw [hx] <;> simp [Ex.toInt])
  refine ⟨ses, st, w, i1, i2, fun limit x => ?_⟩
  have hbg : comparedContents false ((Ex.limitArgs [2, 3]).backgroundAt Ex.limitState Ex.limitContents
      (Ex.limitContents 0).shape [8, 3]) = [8, 17 / 2] := by
    rw [ex_floatBackground]
    norm_num
  obtain ⟨u₀, u, m1, m2, b, hb, k1, -⟩ := i3 [] [0, 4, 10, 20] (ex_plain.2 [] (.inl rfl)) ex_plain.1.some
    ex_plain.1.increasing (fun _ => Ex.extStat 0 + m) (fun x _ => Ex.extStat x + m)
    (by
      intro u hu
      obtain rfl := only_combination hu
      have := hm 0 le_rfl
      rw [zero_div, add_zero] at this
      show s.Total (comparedContents false (Ex.limitContents 0)) (comparedContents false
        ((Ex.limitArgs [2, 3]).backgroundAt Ex.limitState Ex.limitContents (Ex.limitContents 0).shape
          (([8, 3] : List ℝ).map Ex.toInt))) _
      rw [em, hbg, e1]
      exact this)
    (by
      intro x hx u hu
      obtain rfl := only_combination hu
      have hx : x ∈ ([0, 4, 10, 20] : List ℝ) := hx
      refine ⟨fun hcl => by rw [ex_plain.1.zero x hx hcl], fun hcl => ?_⟩
      show s.Total (comparedContents false (Ex.limitContents 0)) (expectedAt (comparedContents false
        ((Ex.limitArgs [2, 3]).backgroundAt Ex.limitState Ex.limitContents (Ex.limitContents 0).shape
          (([8, 3] : List ℝ).map Ex.toInt))) (comparedContents false (Ex.limitContents 4)) _) _
      rw [em, hbg, e1, e3, ex_limitDecays, ex_plain.1.exact x hx hcl]
      have := hm x (ex_plain.1.nonneg x hx)
      convert this using 1
      simp [expectedAt]) [] (by simp) limit
  have only : ∀ {F : List ℝ → ℝ} {v : List ℝ}, FirstBest [[8], [3]] F v → v = [8, 3] := by
    rintro F v ⟨i, hi, -⟩
    exact only_combination hi.comb
  have hu : ∀ y ∈ ([0, 4, 10, 20] : List ℝ), u y = [8, 3] := fun y hy => only (m2 y hy)
  have hb0 : b = 0 := by
    have h1 := (hb.2 0 (by simp)).1
    dsimp only at h1
    have h2 := ex_plain.1.nonneg b hb.1
    have h3 := ext_grows h2
    linarith
  subst hb0
  refine (k1 x).trans ?_
  unfold FirstCrossing
  have hF : ∀ y ∈ ([0, 4, 10, 20] : List ℝ), Ex.extStat y + m - (Ex.extStat 0 + m) +
      ((Ex.limitArgs [2, 3]).withStat s).penaltyAt Ex.limitState (u y) =
      Ex.extStat y - Ex.extStat 0 + p := fun y hy => by
    rw [hu y hy, hp]
    ring
  constructor
  · rintro ⟨a1, a2, a3, a4⟩
    exact ⟨a1, a2, a3.trans_eq (hF x a1), fun y hy h0 hl => (hF y hy).symm.trans_le (a4 y hy h0 hl)⟩
  · rintro ⟨a1, a2, a3, a4⟩
    exact ⟨a1, a2, a3.trans_eq (hF x a1).symm, fun y hy h0 hl => (hF y hy).trans_le (a4 y hy h0 hl)⟩

/-- **C170, negation for rates with a sigma.** The rates of the floating backgrounds can only be 8 and 3;
the first has the prior 10 and the sigma 2. With the threshold 3/5 the limit is 4 when it is set with the
likelihood of Baker and Cousins, and 0 with the extended likelihood, although the two likelihoods differ by
something that depends on the data only: the penalty of the one is halved, and that of the other is not. -/
theorem c170_extended_negation : ∃ ses₁ st₁ w₁ ses₂ st₂ w₂,
    init Ex.keyOf ((Ex.limitArgs [2, 3]).withStat .bcLL) Ex.limitState = (st₁, .ok ses₁) ∧
    init Ex.keyOf ((Ex.limitArgs [2, 3]).withStat .extLL) Ex.limitState = (st₂, .ok ses₂) ∧
    Fitter.limitInit ⟨ses₁, st₁, Ex.onlySearch⟩ 4 true = (w₁, .ok ()) ∧
    Fitter.limitInit ⟨ses₂, st₂, Ex.onlySearch⟩ 4 true = (w₂, .ok ()) ∧
    (w₁.limitOf Ex.fitEnv Ex.toInt 4 [0, 4, 10, 20] [] none (3 / 5)).2 = .ok 4 ∧
    (w₂.limitOf Ex.fitEnv Ex.toInt 4 [0, 4, 10, 20] [] none (3 / 5)).2 = .ok 0 := by
  have hpen : ∀ s : Stat, ((Ex.limitArgs [2, 3]).withStat s).penaltyAt Ex.limitState [8, 3] =
      pull s 8 10 2 := fun s => by
    show (List.zipWith _ [0, 1] [8, 3]).sum = _
    simp [Ex.limitState, Ex.fitState, Ex.fitParam, FitArgs.withStat]
  obtain ⟨m, hm⟩ := affine_extended (obs := [7, 8]) (by
    intro o ho
    have : o = 7 ∨ o = 8 := by simpa using ho
    rcases this with rfl | rfl <;> exact .inr (by norm_num [zeroThreshold]))
  obtain ⟨ses₁, st₁, w₁, i1, i2, i3⟩ := only_outcome (s := .bcLL) (m := m) (p := 1 / 2) (fun x hx => by
    have := hm [8 + x / 2, 17 / 2] (by simp) (by
      intro e he
      have h1 : zeroThreshold ≤ 1 := by norm_num [zeroThreshold]
      simp only [List.mem_cons, List.not_mem_nil, or_false] at he
      rcases he with rfl | rfl <;> linarith) _ (ext_total hx)
    rwa [one_mul] at this) (by
      rw [hpen]
      unfold pull
      rw [if_pos rfl]
      norm_num)
  obtain ⟨ses₂, st₂, w₂, j1, j2, j3⟩ := only_outcome (s := .extLL) (m := 0) (p := 1) (fun x hx => by
    rw [add_zero]
    exact ext_total hx) (by
      rw [hpen]
      unfold pull
      rw [if_neg (by decide)]
      norm_num)
  refine ⟨ses₁, st₁, w₁, ses₂, st₂, w₂, i1, j1, i2, j2, (i3 _ _).2 ⟨by simp, by norm_num, ?_, ?_⟩,
    (j3 _ _).2 ⟨by simp, le_rfl, ?_, ?_⟩⟩
  · have := ext_grows (x := 4) (by norm_num)
    dsimp only
    linarith
  · intro y hy h0 hlt
    have : y = 0 ∨ y = 4 ∨ y = 10 ∨ y = 20 := by simpa using hy
    rcases this with rfl | rfl | rfl | rfl
    · dsimp only
      linarith
    all_goals norm_num at hlt
  · dsimp only
    linarith
  · intro y _ h0 hlt
    exact absurd hlt (not_lt.2 h0)

end Verif
