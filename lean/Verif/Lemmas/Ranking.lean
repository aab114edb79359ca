import Verif.Spec.Ranking
import Verif.Props.Freedom

/-! # Lemmas about the choice of the test statistic -/

namespace Verif

open Session

variable {env : FitEnv} {keyOf : ℕ → PyStr} {a : FitArgs} {ts : List Spectrum} {r d : ℕ}
  {st : FitState} {rnd : ℝ → ℚ} {vss : List (List ℝ)}

theorem FitArgs.Given.withStat (h : a.Given ts st) (s : Stat) : (a.withStat s).Given ts st :=
  ⟨h.region, h.some, h.alloc, h.own, h.able, h.fixed⟩

theorem FitArgs.Settings.withStat (h : a.Settings st) (s : Stat) : (a.withStat s).Settings st :=
  ⟨h.floating, h.fixed, h.dimension, h.perBin⟩

theorem FitArgs.Evaluable.withStat (h : a.Evaluable env keyOf d st) (s : Stat) :
    (a.withStat s).Evaluable env keyOf d st :=
  ⟨h.data, h.str, h.cache, h.backgrounds, h.axes, h.dims, h.decays, h.names, h.pars, h.globals, h.rates⟩

theorem FitArgs.OwnRates.withStat (h : a.OwnRates st) (s : Stat) : (a.withStat s).OwnRates st :=
  ⟨h.floating, h.config, h.one, h.sigmas, h.statPerBin, h.perBin⟩

theorem FitArgs.LimitOn.withStat (h : a.LimitOn r d ts st) (s : Stat) :
    (a.withStat s).LimitOn r d ts st :=
  ⟨h.given.withStat s, h.settings.withStat s, h.signal, h.data, h.axes, h.fit, h.decays, h.region⟩

/-- The statistic `s` is that of `s'`, times `k` and plus `m`. -/
def Affine (s s' : Stat) (k m : ℝ) (obs exp : List ℝ) : Prop :=
  ∀ x, s'.Total obs exp x → s.Total obs exp (k * x + m)

theorem affine_chi {obs exp : List ℝ} (h : obs.length = exp.length) : Affine .bcChi .bcLL 2 0 obs exp := by
  intro x hx
  rw [total_iff _ h] at hx ⊢
  rw [hx, add_zero]
  simp only [Stat.bin]
  exact (map_sum_mul _ _ _).symm

theorem penalty_chi (u : List ℝ) :
    (a.withStat .bcChi).penaltyAt st u = 2 * (a.withStat .bcLL).penaltyAt st u := by
  have hp : (a.withStat .bcChi).parameters st = (a.withStat .bcLL).parameters st := rfl
  unfold FitArgs.penaltyAt
  rw [hp]
  generalize (a.withStat .bcLL).parameters st = ps
  clear hp
  induction ps generalizing u with
  | nil => simp
  | cons p ps ih =>
    cases u with
    | nil => simp
    | cons x u =>
      simp only [List.zipWith_cons_cons, List.sum_cons]
      rw [ih u, mul_add]
      congr 1
      cases (st.params p).sigma with
      | none => simp
      | some sigma =>
        show pull .bcChi x _ sigma = 2 * pull .bcLL x _ sigma
        unfold pull
        rw [if_neg (by decide), if_pos rfl]
        ring

theorem firstBest_affine {F : List ℝ → ℝ} {k m : ℝ} (hk : 0 < k) {u : List ℝ}
    (h : FirstBest vss (fun u => k * F u + m) u) : FirstBest vss F u := by
  obtain ⟨idx, h1, h2⟩ := h
  refine ⟨idx, h1, fun idx' u' hu' => ?_⟩
  obtain ⟨n1, n2⟩ := h2 idx' u' hu'
  dsimp only at n1 n2
  exact ⟨le_of_mul_le_mul_left (by linarith) hk, fun e => n2 (by rw [e])⟩

theorem bestScale_affine {scales : List ℝ} {F F' : ℝ → ℝ} {k m b b' : ℝ} (hk : 0 < k)
    (hF : ∀ y ∈ scales, F y = k * F' y + m) (h : BestScale scales F b) (h' : BestScale scales F' b') :
    b = b' := by
  obtain ⟨n1, n2⟩ := h.2 b' h'.1
  obtain ⟨o1, o2⟩ := h'.2 b h.1
  rw [hF b h.1, hF b' h'.1] at n1 n2
  have e : F' b = F' b' := le_antisymm (le_of_mul_le_mul_left (by linarith) hk) o1
  exact le_antisymm (n2 (by rw [e])) (o2 e)

theorem outcome_affine {R R' : Except PyErr ℝ} {scales : List ℝ} {F F' : ℝ → ℝ} {k b b' limit : ℝ}
    (hk : 0 < k) (hF : ∀ y ∈ scales, F y = k * F' y) (hb : b = b')
    (h1 : ∀ x, R = .ok x ↔ FirstCrossing scales F b (k * limit) x)
    (h2 : R = .error .limitError ↔ ∀ y ∈ scales, b ≤ y → F y ≤ k * limit)
    (h1' : ∀ x, R' = .ok x ↔ FirstCrossing scales F' b' limit x)
    (h2' : R' = .error .limitError ↔ ∀ y ∈ scales, b' ≤ y → F' y ≤ limit)
    (hs : scales.Pairwise (· < ·)) (hmem : b' ∈ scales) : R = R' := by
  refine outcome_eq (F := F') (F' := fun y => F y / k) (fun y hy => by
    show F y / k = F' y
    rw [hF y hy, mul_div_cancel_left₀ _ hk.ne']) hb h1' h2' (fun x => ?_) ?_ hs hmem
  · rw [h1 x]
    unfold FirstCrossing
    simp only [lt_div_iff₀ hk, div_le_iff₀ hk, mul_comm k limit]
  · rw [h2]
    simp only [div_le_iff₀ hk, mul_comm k limit]

/-- Fits with two statistics that are affine functions of each other. -/
theorem fit_affine {s s' : Stat} {k m : ℝ} (hk : 0 < k) (hg : a.Given ts st)
    (he : a.Evaluable env keyOf d st) (hs : a.Settings st) (ho : a.OwnRates st)
    (hl : (st.view d).cfg.length ≤ a.roi.length + 1) {ns : List PyStr}
    (hns : RoiNames (st.view d).cfg (inOrder a.roi) ns) {c : ℕ → NdArray ℚ}
    (hc : ∀ q ∈ a.kept ++ a.fixed.map Prod.fst, RegionContents (inOrder a.roi) ns (st.view q) (c q))
    {g : GridSearch} (hsearch : RateSearch rnd g vss a.floating.length)
    (hex : ∀ vs ∈ vss, ∀ x ∈ vs, ((rnd x : ℚ) : ℝ) = x)
    (haff : ∀ u, Combination vss u → Affine s s' k m (comparedContents a.singleBin (c d))
      (comparedContents a.singleBin (a.backgroundAt st c (c d).shape (u.map rnd))))
    (hpen : ∀ u, (a.withStat s).penaltyAt st u = k * (a.withStat s').penaltyAt st u) :
    ∃ ses₁ st₁ g₁ raw₁ pen₁ ses₂ st₂ g₂ raw₂ pen₂ t p,
      init keyOf (a.withStat s) st = (st₁, .ok ses₁) ∧ init keyOf (a.withStat s') st = (st₂, .ok ses₂) ∧
      (ses₁.fit (fun f => fitGrid env f rnd g) st₁).2 = .ok (.inr (g₁, raw₁, pen₁)) ∧
      (ses₂.fit (fun f => fitGrid env f rnd g) st₂).2 = .ok (.inr (g₂, raw₂, pen₂)) ∧
      g₁.pars.map FitPar.bestFit = g₂.pars.map FitPar.bestFit ∧
      raw₁.ravel = [k * t + m] ∧ raw₂.ravel = [t] ∧ pen₁.ravel = [k * p] ∧ pen₂.ravel = [p] := by
  obtain ⟨G, hG⟩ := exists_statistics s' a.singleBin a st c d rnd
  obtain ⟨ses₁, st₁, g₁, raw₁, pen₁, u₁, i1, i2, i3, i4, i5, i6⟩ :=
    fit_found (hg.withStat s) (he.withStat s) (hs.withStat s) (ho.withStat s) hl hns hc hsearch hex
      (G := fun u => k * G u + m) fun u hu => haff u hu _ (hG u)
  obtain ⟨ses₂, st₂, g₂, raw₂, pen₂, u₂, j1, j2, j3, j4, j5, j6⟩ :=
    fit_found (hg.withStat s') (he.withStat s') (hs.withStat s') (ho.withStat s') hl hns hc hsearch hex
      (G := G) fun u _ => hG u
  have e : u₂ = u₁ := by
    refine FirstBest.unique (F := fun u => G u + (a.withStat s').penaltyAt st u) (fun _ _ => rfl)
      (firstBest_affine hk (m := m) ?_) j3
    convert i3 using 2
    rw [hpen]
    ring
  subst e
  refine ⟨ses₁, st₁, g₁, raw₁, pen₁, ses₂, st₂, g₂, raw₂, pen₂, _, _, i1, j1, i2, j2, i4.trans j4.symm, i5,
    j5, ?_, j6⟩
  rw [i6, hpen]

/-- Limits with two statistics that are affine functions of each other. -/
theorem limit_affine {s s' : Stat} {k m : ℝ} (hk : 0 < k) (h : a.LimitOn r d ts st)
    (he : (a.withSignal r).Evaluable env keyOf d st) (ho : a.OwnRates st) {ns : List PyStr}
    (hns : RoiNames (st.view d).cfg (inOrder a.roi) ns) {c : ℕ → NdArray ℚ}
    (hc : ∀ q ∈ (a.withSignal r).kept ++ a.fixed.map Prod.fst,
      RegionContents (inOrder a.roi) ns (st.view q) (c q))
    {g : GridSearch} (hsearch : RateSearch rnd g vss a.floating.length)
    (hsame : List.Forall₂ (fun p (q : FitPar) => q.prior = (st.params p).prior ∧
      q.sigma = (st.params p).sigma) (a.parameters st) g.pars)
    (hex : ∀ vs ∈ vss, ∀ x ∈ vs, ((rnd x : ℚ) : ℝ) = x)
    (haff₀ : ∀ u, Combination vss u → Affine s s' k m (comparedContents a.singleBin (c d))
      (comparedContents a.singleBin (a.backgroundAt st c (c d).shape (u.map rnd))))
    (hpen : ∀ u, (a.withStat s).penaltyAt st u = k * (a.withStat s').penaltyAt st u) :
    ∃ ses₁ st₁ f₁ ses₂ st₂ f₂,
      init keyOf (a.withStat s) st = (st₁, .ok ses₁) ∧ init keyOf (a.withStat s') st = (st₂, .ok ses₂) ∧
      Fitter.limitInit ⟨ses₁, st₁, g⟩ r true = (f₁, .ok ()) ∧
      Fitter.limitInit ⟨ses₂, st₂, g⟩ r true = (f₂, .ok ()) ∧
      ∀ (calls₁ calls₂ : List LimitCall) (scales : List ℝ), Testable rnd (allScales calls₁ ++ scales) →
      Testable rnd (allScales calls₂ ++ scales) → scales ≠ [] → scales.Pairwise (· < ·) →
      (∀ x ∈ scales, ¬ npCloseReal x 0 → ∀ u, Combination vss u →
        Affine s s' k m (comparedContents a.singleBin (c d))
          (expectedAt (comparedContents a.singleBin (a.backgroundAt st c (c d).shape (u.map rnd)))
            (comparedContents a.singleBin (c r)) ((rnd x : ℝ) / ((st.view r).numDecays : ℝ)))) →
      ∀ (sigmas : List (Option ℝ)), (∀ s ∈ sigmas, s ≠ none) → ∀ (limit : ℝ),
      ((f₁.afterCalls env rnd r calls₁).limitOf env rnd r scales sigmas none (k * limit)).2 =
        ((f₂.afterCalls env rnd r calls₂).limitOf env rnd r scales sigmas none limit).2 := by
  have hg := h.given
  have hreg := inOrder_isDict hg.region
  have hdm : d ∈ (a.withSignal r).kept ++ a.fixed.map Prod.fst := by simp [FitArgs.kept, h.data]
  have hrm : r ∈ (a.withSignal r).kept ++ a.fixed.map Prod.fst := by simp [FitArgs.kept]
  have hshape : (c r).shape = (c d).shape :=
    same_shape hreg (hg.able d hdm) (hg.able r hrm) (h.axes r hrm) (hc d hdm) (hc r hrm)
  obtain ⟨ses₁, st₁, f₁, i1, i2, i3⟩ := c147_floating_partial (rnd := rnd) (h.withStat s) (he.withStat s)
    (ho.withStat s) hns hc hsearch hsame hex
  obtain ⟨ses₂, st₂, f₂, j1, j2, j3⟩ := c147_floating_partial (rnd := rnd) (h.withStat s')
    (he.withStat s') (ho.withStat s') hns hc hsearch hsame hex
  refine ⟨ses₁, st₁, f₁, ses₂, st₂, f₂, i1, j1, i2, j2, ?_⟩
  intro calls₁ calls₂ scales ht₁ ht₂ hsc hs haff sigmas hsig limit
  have exG : ∀ s : Stat, ∃ (G₀ : List ℝ → ℝ) (G : ℝ → List ℝ → ℝ),
      (∀ u, s.Total (comparedContents a.singleBin (c d))
        (comparedContents a.singleBin (a.backgroundAt st c (c d).shape (u.map rnd))) (G₀ u)) ∧
      ∀ x u, (npCloseReal x 0 → G x u = G₀ u) ∧ (¬ npCloseReal x 0 →
        s.Total (comparedContents a.singleBin (c d))
          (expectedAt (comparedContents a.singleBin (a.backgroundAt st c (c d).shape (u.map rnd)))
            (comparedContents a.singleBin (c r)) ((rnd x : ℝ) / ((st.view r).numDecays : ℝ)))
          (G x u)) := fun s => by
    obtain ⟨G₀, hG₀⟩ := exists_statistics s a.singleBin a st c d rnd
    have hG : ∀ (x : ℝ) (u : List ℝ), ∃ t, (npCloseReal x 0 → t = G₀ u) ∧ (¬ npCloseReal x 0 →
        s.Total (comparedContents a.singleBin (c d))
          (expectedAt (comparedContents a.singleBin (a.backgroundAt st c (c d).shape (u.map rnd)))
            (comparedContents a.singleBin (c r)) ((rnd x : ℝ) / ((st.view r).numDecays : ℝ))) t) := by
      intro x u
      by_cases hx : npCloseReal x 0
      · exact ⟨G₀ u, fun _ => rfl, fun h => absurd hx h⟩
      · obtain ⟨t, ht⟩ := exists_total s (expected_length (sb := a.singleBin) (o := c d)
          (b := a.backgroundAt st c (c d).shape (u.map rnd)) rfl hshape
          ((rnd x : ℝ) / ((st.view r).numDecays : ℝ)))
        exact ⟨t, fun h => absurd h hx, fun _ => ht⟩
    choose G hG using hG
    exact ⟨G₀, G, hG₀, hG⟩
  obtain ⟨G₀, G, hG₀, hG⟩ := exG s
  obtain ⟨G₀', G', hG₀', hG'⟩ := exG s'
  have r₀ : ∀ u, Combination vss u → G₀ u = k * G₀' u + m := fun u hu =>
    total_unique (hG₀ u) (haff₀ u hu _ (hG₀' u))
  have r₁ : ∀ x ∈ scales, ∀ u, Combination vss u → G x u = k * G' x u + m := fun x hx u hu => by
    by_cases hz : npCloseReal x 0
    · rw [(hG x u).1 hz, (hG' x u).1 hz, r₀ u hu]
    · exact total_unique ((hG x u).2 hz) (haff x hx hz u hu _ ((hG' x u).2 hz))
  obtain ⟨u₀, u, m1, m2, t, ht, k1, k2⟩ := i3 calls₁ scales ht₁ hsc hs G₀ G (fun u _ => hG₀ u)
    (fun x _ u _ => hG x u) sigmas hsig (k * limit)
  obtain ⟨u₀', u', m1', m2', t', ht', k1', k2'⟩ := j3 calls₂ scales ht₂ hsc hs G₀' G' (fun u _ => hG₀' u)
    (fun x _ u _ => hG' x u) sigmas hsig limit
  have same : ∀ {F F' : List ℝ → ℝ} {w w' : List ℝ}, (∀ u, Combination vss u → F u = k * F' u + m) →
      FirstBest vss F w → FirstBest vss F' w' → w = w' ∧ Combination vss w := by
    intro F F' w w' hF hw hw'
    have hcomb : Combination vss w := by
      obtain ⟨i, hi, -⟩ := hw
      exact hi.comb
    refine ⟨FirstBest.unique (F := F') (fun _ _ => rfl) hw' (firstBest_affine hk (m := m) ?_), hcomb⟩
    obtain ⟨i, hi, hi'⟩ := hw
    refine ⟨i, hi, fun idx' v hv => ?_⟩
    have := hi' idx' v hv
    rwa [hF _ hi.comb, hF _ hv.comb] at this
  obtain ⟨e₀, c₀⟩ := same (F := fun u => G₀ u + (a.withStat s).penaltyAt st u)
    (F' := fun u => G₀' u + (a.withStat s').penaltyAt st u)
    (fun u hu => by rw [hpen, r₀ u hu]; ring) m1 m1'
  have e₁ : ∀ y ∈ scales, u y = u' y ∧ Combination vss (u y) := fun y hy =>
    same (F := fun u => G y u + (a.withStat s).penaltyAt st u)
      (F' := fun u => G' y u + (a.withStat s').penaltyAt st u)
      (fun v hv => by rw [hpen, r₁ y hy v hv]; ring) (m2 y hy) (m2' y hy)
  have hb : t = t' := bestScale_affine hk (m := m) (fun y hy => by
    obtain ⟨n1, n2⟩ := e₁ y hy
    rw [← n1, r₁ y hy _ n2]) ht ht'
  refine outcome_affine hk (fun y hy => ?_) hb k1 k2 k1' k2' hs ht'.1
  obtain ⟨n1, n2⟩ := e₁ y hy
  rw [← n1, ← e₀, r₁ y hy _ n2, r₀ _ c₀, hpen]
  ring

/-- The same without floating backgrounds. -/
theorem counting_affine {s s' : Stat} {k m : ℝ} (hk : 0 < k) (h : a.LimitOn r d ts st)
    (hfx : a.fixed ≠ []) (hfl : a.floating = []) (hstat : a.statPerBin = false) {ns : List PyStr}
    (hns : RoiNames (st.view d).cfg (inOrder a.roi) ns) {c : ℕ → NdArray ℚ}
    (hc : ∀ q ∈ (a.withSignal r).kept ++ a.fixed.map Prod.fst,
      RegionContents (inOrder a.roi) ns (st.view q) (c q)) {g : GridSearch} (hpars : g.pars = [])
    (haff₀ : Affine s s' k m (comparedContents a.singleBin (c d))
      (comparedContents a.singleBin (a.fixedTotal st c (c d).shape))) :
    ∃ ses₁ st₁ f₁ ses₂ st₂ f₂,
      init keyOf (a.withStat s) st = (st₁, .ok ses₁) ∧ init keyOf (a.withStat s') st = (st₂, .ok ses₂) ∧
      Fitter.limitInit ⟨ses₁, st₁, g⟩ r true = (f₁, .ok ()) ∧
      Fitter.limitInit ⟨ses₂, st₂, g⟩ r true = (f₂, .ok ()) ∧
      ∀ (calls₁ calls₂ : List LimitCall) (scales : List ℝ), Testable rnd (allScales calls₁ ++ scales) →
      Testable rnd (allScales calls₂ ++ scales) → scales ≠ [] → scales.Pairwise (· < ·) →
      (∀ x ∈ scales, ¬ npCloseReal x 0 → Affine s s' k m (comparedContents a.singleBin (c d))
        (expectedAt (comparedContents a.singleBin (a.fixedTotal st c (c d).shape))
          (comparedContents a.singleBin (c r)) ((rnd x : ℝ) / ((st.view r).numDecays : ℝ)))) →
      ∀ (sigmas : List (Option ℝ)), (∀ s ∈ sigmas, s ≠ none) → ∀ (limit : ℝ),
      ((f₁.afterCalls env rnd r calls₁).limitOf env rnd r scales sigmas none (k * limit)).2 =
        ((f₂.afterCalls env rnd r calls₂).limitOf env rnd r scales sigmas none limit).2 := by
  have hg := h.given
  have hreg := inOrder_isDict hg.region
  have hdm : d ∈ (a.withSignal r).kept ++ a.fixed.map Prod.fst := by simp [FitArgs.kept, h.data]
  have hrm : r ∈ (a.withSignal r).kept ++ a.fixed.map Prod.fst := by simp [FitArgs.kept]
  have hshape : (c r).shape = (c d).shape :=
    same_shape hreg (hg.able d hdm) (hg.able r hrm) (h.axes r hrm) (hc d hdm) (hc r hrm)
  obtain ⟨ses₁, st₁, f₁, i1, i2, i3⟩ := c147_counting_partial (env := env) (keyOf := keyOf) (rnd := rnd)
    (h.withStat s) hfx hfl hstat hns hc g hpars
  obtain ⟨ses₂, st₂, f₂, j1, j2, j3⟩ := c147_counting_partial (env := env) (keyOf := keyOf) (rnd := rnd)
    (h.withStat s') hfx hfl hstat hns hc g hpars
  refine ⟨ses₁, st₁, f₁, ses₂, st₂, f₂, i1, j1, i2, j2, ?_⟩
  intro calls₁ calls₂ scales ht₁ ht₂ hsc hs haff sigmas hsig limit
  obtain ⟨F₀, hF₀⟩ := exists_total s' (compared_length a.singleBin (a := c d)
    (b := a.fixedTotal st c (c d).shape) rfl).symm
  have hF : ∀ x : ℝ, ∃ t, (npCloseReal x 0 → t = F₀) ∧ (¬ npCloseReal x 0 →
      s'.Total (comparedContents a.singleBin (c d))
        (expectedAt (comparedContents a.singleBin (a.fixedTotal st c (c d).shape))
          (comparedContents a.singleBin (c r)) ((rnd x : ℝ) / ((st.view r).numDecays : ℝ))) t) := by
    intro x
    by_cases hx : npCloseReal x 0
    · exact ⟨F₀, fun _ => rfl, fun h => absurd hx h⟩
    · obtain ⟨t, ht⟩ := exists_total s' (expected_length (sb := a.singleBin) (o := c d)
        (b := a.fixedTotal st c (c d).shape) rfl hshape ((rnd x : ℝ) / ((st.view r).numDecays : ℝ)))
      exact ⟨t, fun h => absurd h hx, fun _ => ht⟩
  choose F hF using hF
  obtain ⟨t, ht, k1, k2⟩ := i3 calls₁ scales ht₁ hsc hs (k * F₀ + m) (fun x => k * F x + m)
    (haff₀ _ hF₀) (fun x hx => ⟨fun hz => by rw [(hF x).1 hz],
      fun hz => haff x hx hz _ ((hF x).2 hz)⟩) sigmas hsig (k * limit)
  obtain ⟨t', ht', k1', k2'⟩ := j3 calls₂ scales ht₂ hsc hs F₀ F hF₀ (fun x _ => hF x) sigmas hsig limit
  exact outcome_affine hk (fun y _ => by ring) (bestScale_affine hk (fun _ _ => rfl) ht ht') k1 k2 k1' k2'
    hs ht'.1

end Verif
