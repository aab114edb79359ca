import Verif.Lemmas.Blank
import Verif.Props.Fixing

/-! # C163: spectra that hold nothing in the region -/

namespace Verif

open Session

variable {env : FitEnv} {keyOf : ℕ → PyStr} {a b : FitArgs} {ts ts' : List Spectrum} {r d q : ℕ}
  {l₁ l₂ : List ℕ} {st : FitState} {rnd : ℝ → ℚ} {g g' : GridSearch} {vs₁ vs₂ vss : List (List ℝ)}
  {vs : List ℝ} {v : ℚ}

/-- The contents of the region, with zeros for a spectrum that holds nothing there. -/
theorem exists_blank_contents {roi : Dict (ℚ × ℚ)} {st : FitState} {qs : List ℕ} {q : ℕ}
    (hr : IsDict roi) (hs : ∀ r ∈ qs, CanShrink roi (st.view r)) (hb : BlankInside roi (st.view q))
    (ns : List PyStr) :
    ∃ c : ℕ → NdArray ℚ, (∀ r ∈ qs, RegionContents roi ns (st.view r) (c r)) ∧
      ∀ idx, (c q).get idx = 0 := by
  obtain ⟨c, hc⟩ := exists_contents hr hs ns
  refine ⟨Function.update c q ⟨(c q).shape, fun _ => 0⟩, fun r hm => ?_, fun idx => by simp⟩
  by_cases h : r = q
  · subst h
    rw [Function.update_self]
    exact (hc r hm).blank hr (hs r hm) hb
  · rw [Function.update_of_ne h]
    exact hc r hm

theorem without_background (hw : a.Without b l₁ q l₂) (hlen : vs₁.length = l₁.length) {x : ℝ}
    {c : ℕ → NdArray ℚ} (hx : ∀ idx, (c q).get idx = 0) (shape : List ℕ) {u : List ℝ}
    (hu : Combination (vs₁ ++ vs₂) u) : b.backgroundAt st c shape (u.map rnd) =
      a.backgroundAt st c shape ((withValue vs₁.length x u).map rnd) := by
  obtain ⟨w₁, w₂, rfl, h₁, h₂⟩ := combination_split hu
  rw [withValue_append h₁.length_eq, List.map_append, List.map_append, List.map_cons,
    hw.backgroundAt (by rw [List.length_map, h₁.length_eq, hlen]) hx]

/-- The statistic does not depend on the rate of the background that holds nothing. -/
theorem without_statistic (hw : a.Without b l₁ q l₂) (hlen : vs₁.length = l₁.length) {x y : ℝ}
    {c : ℕ → NdArray ℚ} (hx : ∀ idx, (c q).get idx = 0) (shape : List ℕ) {w₁ w₂ : List ℝ}
    (h₁ : Combination vs₁ w₁) :
    a.backgroundAt st c shape ((w₁ ++ y :: w₂).map rnd) =
      a.backgroundAt st c shape ((w₁ ++ x :: w₂).map rnd) := by
  have hl : l₁.length = (w₁.map rnd).length := by rw [List.length_map, h₁.length_eq, hlen]
  simp only [List.map_append, List.map_cons]
  rw [hw.backgroundAt hl hx, hw.backgroundAt hl hx]

/-- The best combinations of two grids, one of which has a further parameter with its own penalty. -/
theorem without_best (hw : a.Without b l₁ q l₂) (ho : a.OwnRates st) (hlen : vs₁.length = l₁.length)
    {x : ℝ} (hx : FirstSmallest vs (a.ratePenalty st q) x) {F : List ℝ → ℝ}
    (hF : ∀ w₁ y w₂, Combination vs₁ w₁ → Combination vs₂ w₂ → F (w₁ ++ y :: w₂) = F (w₁ ++ x :: w₂))
    {u u' : List ℝ} (hu : FirstBest (vs₁ ++ vs :: vs₂) (fun u => F u + a.penaltyAt st u) u)
    (hu' : FirstBest (vs₁ ++ vs₂) (fun u => F (withValue vs₁.length x u) + b.penaltyAt st u) u') :
    ∃ w₁ w₂, u' = w₁ ++ w₂ ∧ u = w₁ ++ x :: w₂ ∧ w₁.length = vs₁.length ∧
      a.penaltyAt st u = a.ratePenalty st q x + b.penaltyAt st u' := by
  obtain ⟨w₁, w₂, rfl, k1, k2, h2⟩ := firstBest_separate
    (F := fun u => F u + a.penaltyAt st u) (fun w₁ y w₂ k1 k2 => by
      rw [hF _ _ _ k1 k2, withValue_append k1.length_eq,
        hw.penaltyAt ho (k1.length_eq.trans hlen).symm]
      ring) hx hu'
  have e : w₁ ++ x :: w₂ = u := FirstBest.unique (fun _ _ => rfl) hu h2
  exact ⟨w₁, w₂, rfl, e.symm, k1.length_eq,
    e ▸ hw.penaltyAt ho (k1.length_eq.trans hlen).symm x⟩

/-- **C163, floating backgrounds in fits.** A fit by grid search is made from data, floating backgrounds
with one rate each, and perhaps fixed backgrounds and a signal. One floating background holds nothing in
the region. Another fit is made without it. Then both find the same values of the other rates and the
same statistic; the rate of the background is set to the first of its values with the smallest penalty,
and only this penalty is added. (Partial: the suppositions of C62 and C99; at most one axis is projected
out; the values of the rates are not rounded; another floating background.) -/
theorem c163_floating_fit_partial (hw : a.Without b l₁ q l₂) (hne : l₁ ++ l₂ ≠ [])
    (hb : BlankInside (inOrder a.roi) (st.view q)) (hg : a.Given ts st)
    (he : a.Evaluable env keyOf d st) (hs : a.Settings st)
    (ho : a.OwnRates st) (hl : (st.view d).cfg.length ≤ a.roi.length + 1)
    (hlen : vs₁.length = l₁.length)
    (hsearch : RateSearch rnd g (vs₁ ++ vs :: vs₂) a.floating.length)
    (hsearch' : RateSearch rnd g' (vs₁ ++ vs₂) b.floating.length)
    (hex : ∀ ws ∈ vs₁ ++ vs :: vs₂, ∀ y ∈ ws, ((rnd y : ℚ) : ℝ) = y) :
    ∃ ses₁ st₁ g₁ raw₁ pen₁ ses₂ st₂ g₂ raw₂ pen₂ w₁ x w₂ t p,
      init keyOf a st = (st₁, .ok ses₁) ∧ init keyOf b st = (st₂, .ok ses₂) ∧
      (ses₁.fit (fun f => fitGrid env f rnd g) st₁).2 = .ok (.inr (g₁, raw₁, pen₁)) ∧
      (ses₂.fit (fun f => fitGrid env f rnd g') st₂).2 = .ok (.inr (g₂, raw₂, pen₂)) ∧
      FirstSmallest vs (a.ratePenalty st q) x ∧
      w₁.length = l₁.length ∧ g₁.pars.map FitPar.bestFit = (w₁ ++ x :: w₂).map some ∧
      g₂.pars.map FitPar.bestFit = (w₁ ++ w₂).map some ∧
      raw₁.ravel = [t] ∧ raw₂.ravel = [t] ∧
      pen₁.ravel = [a.ratePenalty st q x + p] ∧ pen₂.ravel = [p] := by
  have hreg := inOrder_isDict hg.region
  have hdk : d ∈ a.kept := by simp [FitArgs.kept, he.data]
  obtain ⟨ns, hns⟩ := exists_roiNames (hg.able d (List.mem_append_left _ hdk))
  obtain ⟨c, hc, hz⟩ := exists_blank_contents hreg hg.able hb ns
  obtain ⟨G, hG⟩ := exists_statistics a.stat a.singleBin a st c d rnd
  have e1 : b.roi = a.roi := by rw [hw.rest]
  have e2 : b.stat = a.stat := by rw [hw.rest]
  have e3 : b.singleBin = a.singleBin := by rw [hw.rest]
  obtain ⟨ses₁, st₁, g₁, raw₁, pen₁, u₁, i1, i2, i3, i4, i5, i6⟩ :=
    fit_found hg he hs ho hl hns hc hsearch hex fun u _ => hG u
  have hvs : vs ≠ [] := by
    obtain ⟨idx, h1, -⟩ := i3
    obtain ⟨-, i, -, -, x, -, -, -, -, hi, -⟩ := valuesAt_split_cons h1
    rintro rfl
    simp at hi
  obtain ⟨x, hx⟩ := exists_firstSmallest (a.ratePenalty st q) hvs
  obtain ⟨ses₂, st₂, g₂, raw₂, pen₂, u₂, j1, j2, j3, j4, j5, j6⟩ :=
    fit_found (hw.given hg) (hw.evaluable he) (hw.settings hne ho hs) (hw.ownRates hne ho)
      (by rw [e1]; exact hl) (by rw [e1]; exact hns)
      (fun r hr => by rw [e1]; exact hc r (hw.mem_spectra hr)) hsearch'
      (fun ws hw => hex ws (by simp only [List.mem_append, List.mem_cons] at hw ⊢; tauto))
      (G := fun u => G (withValue vs₁.length x u)) fun u hu => by
        rw [e2, e3, without_background hw hlen hz _ hu]
        exact hG _
  have hF : ∀ w₁ y w₂, Combination vs₁ w₁ → Combination vs₂ w₂ →
      G (w₁ ++ y :: w₂) = G (w₁ ++ x :: w₂) := fun w₁ y w₂ k1 k2 => by
    have h1 := hG (w₁ ++ y :: w₂)
    rw [without_statistic (x := x) hw hlen hz _ k1] at h1
    exact total_unique h1 (hG _)
  obtain ⟨w₁, w₂, rfl, rfl, k1, k2⟩ := without_best hw ho hlen hx hF i3 j3
  rw [withValue_append k1] at j5
  rw [k2] at i6
  exact ⟨ses₁, st₁, g₁, raw₁, pen₁, ses₂, st₂, g₂, raw₂, pen₂, w₁, x, w₂, _, _, i1, j1, i2, j2, hx,
    k1.trans hlen, i4, j4, i5, j5, i6, j6⟩

/-- The statistics with the signal at every scaling. -/
theorem exists_signal_statistics (a : FitArgs) (st : FitState) {c : ℕ → NdArray ℚ} {d r : ℕ}
    (hshape : (c r).shape = (c d).shape) (rnd : ℝ → ℚ) (G₀ : List ℝ → ℝ) :
    ∃ G : ℝ → List ℝ → ℝ, ∀ x u, (npCloseReal x 0 → G x u = G₀ u) ∧ (¬ npCloseReal x 0 →
      a.stat.Total (comparedContents a.singleBin (c d))
        (expectedAt (comparedContents a.singleBin (a.backgroundAt st c (c d).shape (u.map rnd)))
          (comparedContents a.singleBin (c r)) ((rnd x : ℝ) / ((st.view r).numDecays : ℝ))) (G x u)) := by
  have hG : ∀ (x : ℝ) (u : List ℝ), ∃ v, (npCloseReal x 0 → v = G₀ u) ∧ (¬ npCloseReal x 0 →
      a.stat.Total (comparedContents a.singleBin (c d))
        (expectedAt (comparedContents a.singleBin (a.backgroundAt st c (c d).shape (u.map rnd)))
          (comparedContents a.singleBin (c r)) ((rnd x : ℝ) / ((st.view r).numDecays : ℝ))) v) := by
    intro x u
    by_cases hx : npCloseReal x 0
    · exact ⟨G₀ u, fun _ => rfl, fun h => absurd hx h⟩
    · obtain ⟨v, hv⟩ := exists_total a.stat (expected_length (sb := a.singleBin) (o := c d)
        (b := a.backgroundAt st c (c d).shape (u.map rnd)) rfl hshape
        ((rnd x : ℝ) / ((st.view r).numDecays : ℝ)))
      exact ⟨v, fun h => absurd h hx, fun _ => hv⟩
  choose G hG using hG
  exact ⟨G, hG⟩

/-- **C163, floating backgrounds in limits.** A fit by grid search is made from data, fixed and floating
backgrounds with a rate each, one of which holds nothing in the region, and a limit from it and a signal;
another fit without this background, and a limit from it and the same signal. Then the outcomes are the
same, whatever limits have been set or statistics asked for before, when the threshold of the first one
is larger by the smallest penalty of the rate. So they are the same for the same threshold when the prior
is one of the values, or the rate has no sigma. (Partial: as before.) -/
theorem c163_floating_limit_partial (hw : a.Without b l₁ q l₂) (hne : l₁ ++ l₂ ≠ [])
    (hb : BlankInside (inOrder a.roi) (st.view q)) (h : a.LimitOn r d ts st)
    (he : (a.withSignal r).Evaluable env keyOf d st) (ho : a.OwnRates st)
    (hlen : vs₁.length = l₁.length) {x : ℝ} (hx : FirstSmallest vs (a.ratePenalty st q) x)
    (hsearch : RateSearch rnd g (vs₁ ++ vs :: vs₂) a.floating.length)
    (hsearch' : RateSearch rnd g' (vs₁ ++ vs₂) b.floating.length)
    (hsame : List.Forall₂ (fun p (q : FitPar) => q.prior = (st.params p).prior ∧
      q.sigma = (st.params p).sigma) (a.parameters st) g.pars)
    (hsame' : List.Forall₂ (fun p (q : FitPar) => q.prior = (st.params p).prior ∧
      q.sigma = (st.params p).sigma) (b.parameters st) g'.pars)
    (hex : ∀ ws ∈ vs₁ ++ vs :: vs₂, ∀ y ∈ ws, ((rnd y : ℚ) : ℝ) = y) :
    ∃ ses₁ st₁ f₁ ses₂ st₂ f₂,
      init keyOf a st = (st₁, .ok ses₁) ∧ init keyOf b st = (st₂, .ok ses₂) ∧
      Fitter.limitInit ⟨ses₁, st₁, g⟩ r true = (f₁, .ok ()) ∧
      Fitter.limitInit ⟨ses₂, st₂, g'⟩ r true = (f₂, .ok ()) ∧
      ∀ (calls₁ calls₂ : List LimitCall) (scales : List ℝ), Testable rnd (allScales calls₁ ++ scales) →
      Testable rnd (allScales calls₂ ++ scales) → scales ≠ [] → scales.Pairwise (· < ·) →
      ∀ (sigmas : List (Option ℝ)), (∀ s ∈ sigmas, s ≠ none) → ∀ (limit : ℝ),
      ((f₁.afterCalls env rnd r calls₁).limitOf env rnd r scales sigmas none
          (limit + a.ratePenalty st q x)).2 =
        ((f₂.afterCalls env rnd r calls₂).limitOf env rnd r scales sigmas none limit).2 := by
  have hg := h.given
  have hreg := inOrder_isDict hg.region
  have hdm : d ∈ (a.withSignal r).kept ++ a.fixed.map Prod.fst := by simp [FitArgs.kept, h.data]
  have hrm : r ∈ (a.withSignal r).kept ++ a.fixed.map Prod.fst := by simp [FitArgs.kept]
  have hws := hw.withSignal r
  obtain ⟨ns, hns⟩ := exists_roiNames (hg.able d hdm)
  obtain ⟨c, hc, hz⟩ := exists_blank_contents hreg hg.able hb ns
  have hshape : (c r).shape = (c d).shape :=
    same_shape hreg (hg.able d hdm) (hg.able r hrm) (h.axes r hrm) (hc d hdm) (hc r hrm)
  have e1 : b.roi = a.roi := by rw [hw.rest]
  have e2 : b.stat = a.stat := by rw [hw.rest]
  have e3 : b.singleBin = a.singleBin := by rw [hw.rest]
  obtain ⟨ses₁, st₁, f₁, i1, i2, i3⟩ := c147_floating_partial (rnd := rnd) h he ho hns hc hsearch hsame hex
  obtain ⟨ses₂, st₂, f₂, j1, j2, j3⟩ := c147_floating_partial (rnd := rnd) (hw.limitOn hne ho h)
    (hws.evaluable he) (hw.ownRates hne ho) (by rw [e1]; exact hns)
    (fun s hs => by rw [e1]; exact hc s (hws.mem_spectra hs)) hsearch' hsame'
    (fun ws hw => hex ws (by simp only [List.mem_append, List.mem_cons] at hw ⊢; tauto))
  refine ⟨ses₁, st₁, f₁, ses₂, st₂, f₂, i1, j1, i2, j2, ?_⟩
  intro calls₁ calls₂ scales ht₁ ht₂ hsc hs sigmas hsig limit
  obtain ⟨G₀, hG₀⟩ := exists_statistics a.stat a.singleBin a st c d rnd
  obtain ⟨G, hG⟩ := exists_signal_statistics a st hshape rnd G₀
  obtain ⟨u₀, u, m1, m2, t, ht, k1, k2⟩ := i3 calls₁ scales ht₁ hsc hs G₀ G (fun u _ => hG₀ u)
    (fun x _ u _ => hG x u) sigmas hsig (limit + a.ratePenalty st q x)
  obtain ⟨u₀', u', m1', m2', t', ht', k1', k2'⟩ := j3 calls₂ scales ht₂ hsc hs
    (fun u => G₀ (withValue vs₁.length x u)) (fun y u => G y (withValue vs₁.length x u))
    (fun u hu => by rw [e2, e3, without_background hw hlen hz _ hu]; exact hG₀ _)
    (fun y _ u hu => by
      rw [e2, e3, without_background hw hlen hz _ hu]
      exact hG y _) sigmas hsig limit
  have hF₀ : ∀ w₁ y w₂, Combination vs₁ w₁ → Combination vs₂ w₂ →
      G₀ (w₁ ++ y :: w₂) = G₀ (w₁ ++ x :: w₂) := fun w₁ y w₂ n1 n2 => by
    have h1 := hG₀ (w₁ ++ y :: w₂)
    rw [without_statistic (x := x) hw hlen hz _ n1] at h1
    exact total_unique h1 (hG₀ _)
  have hF : ∀ z w₁ y w₂, Combination vs₁ w₁ → Combination vs₂ w₂ →
      G z (w₁ ++ y :: w₂) = G z (w₁ ++ x :: w₂) := fun z w₁ y w₂ n1 n2 => by
    by_cases hcl : npCloseReal z 0
    · rw [(hG z _).1 hcl, (hG z _).1 hcl, hF₀ _ _ _ n1 n2]
    · have h1 := (hG z (w₁ ++ y :: w₂)).2 hcl
      rw [without_statistic (x := x) hw hlen hz _ n1] at h1
      exact total_unique h1 ((hG z _).2 hcl)
  have key : ∀ {F : List ℝ → ℝ} {v v' : List ℝ},
      (∀ w₁ y w₂, Combination vs₁ w₁ → Combination vs₂ w₂ → F (w₁ ++ y :: w₂) = F (w₁ ++ x :: w₂)) →
      FirstBest (vs₁ ++ vs :: vs₂) (fun u => F u + a.penaltyAt st u) v →
      FirstBest (vs₁ ++ vs₂) (fun u => F (withValue vs₁.length x u) + b.penaltyAt st u) v' →
      withValue vs₁.length x v' = v ∧ a.penaltyAt st v = a.ratePenalty st q x + b.penaltyAt st v' := by
    intro F v v' hF hv hv'
    obtain ⟨w₁, w₂, rfl, rfl, n1, n2⟩ := without_best hw ho hlen hx hF hv hv'
    exact ⟨withValue_append n1, n2⟩
  obtain ⟨z₀, -⟩ := key hF₀ m1 m1'
  have hG' : ∀ y ∈ scales, G y (withValue vs₁.length x (u' y)) = G y (u y) := fun y hy => by
    rw [(key (hF y) (m2 y hy) (m2' y hy)).1]
  have hpen : ∀ y ∈ scales, a.penaltyAt st (u y) = a.ratePenalty st q x + b.penaltyAt st (u' y) :=
    fun y hy => (key (hF y) (m2 y hy) (m2' y hy)).2
  have htt : t = t' := by
    obtain ⟨m1, m2⟩ := ht.2 t' ht'.1
    obtain ⟨n1, n2⟩ := ht'.2 t ht.1
    dsimp only at n1 n2
    rw [hG' _ ht.1, hG' _ ht'.1] at n1 n2
    have e := le_antisymm m1 n1
    exact le_antisymm (m2 e.symm) (n2 e)
  refine outcome_eq (F := fun y => G y (withValue vs₁.length x (u' y)) -
      G₀ (withValue vs₁.length x u₀') + b.penaltyAt st (u' y))
    (F' := fun y => G y (u y) - G₀ u₀ + a.penaltyAt st (u y) - a.ratePenalty st q x)
    (fun y hy => ?_) htt k1' k2' (fun y => ?_) ?_ hs ht'.1
  · rw [hG' y hy, hpen y hy, z₀]
    ring
  · rw [k1 y]
    unfold FirstCrossing
    simp only [lt_sub_iff_add_lt, sub_le_iff_le_add]
  · rw [k2]
    simp only [sub_le_iff_le_add]

/-- **C163, fixed backgrounds in fits.** A fit by grid search is made from data, floating backgrounds
with one rate each, fixed backgrounds and perhaps a signal. One fixed background holds nothing in the
region. Then a fit made without it finds the same values of the rates, statistic and penalty.
(Partial: as before.) -/
theorem c163_fixed_fit_partial (hw : a.WithoutFixed b q v)
    (hb : BlankInside (inOrder a.roi) (st.view q)) (hg : a.Given ts st) (hg' : b.Given ts' st)
    (he : a.Evaluable env keyOf d st) (hs : a.Settings st)
    (ho : a.OwnRates st) (hl : (st.view d).cfg.length ≤ a.roi.length + 1)
    (hsearch : RateSearch rnd g vss a.floating.length)
    (hex : ∀ ws ∈ vss, ∀ y ∈ ws, ((rnd y : ℚ) : ℝ) = y) :
    ∃ ses₁ st₁ g₁ raw₁ pen₁ ses₂ st₂ g₂ raw₂ pen₂,
      init keyOf a st = (st₁, .ok ses₁) ∧ init keyOf b st = (st₂, .ok ses₂) ∧
      (ses₁.fit (fun f => fitGrid env f rnd g) st₁).2 = .ok (.inr (g₁, raw₁, pen₁)) ∧
      (ses₂.fit (fun f => fitGrid env f rnd g) st₂).2 = .ok (.inr (g₂, raw₂, pen₂)) ∧
      g₂.pars.map FitPar.bestFit = g₁.pars.map FitPar.bestFit ∧
      raw₂.ravel = raw₁.ravel ∧ pen₂.ravel = pen₁.ravel := by
  have hreg := inOrder_isDict hg.region
  have hdk : d ∈ a.kept := by simp [FitArgs.kept, he.data]
  obtain ⟨ns, hns⟩ := exists_roiNames (hg.able d (List.mem_append_left _ hdk))
  obtain ⟨c, hc, hz⟩ := exists_blank_contents hreg hg.able hb ns
  obtain ⟨G, hG⟩ := exists_statistics a.stat a.singleBin a st c d rnd
  have e1 : b.roi = a.roi := by rw [hw.rest]
  have e2 : b.stat = a.stat := by rw [hw.rest]
  have e3 : b.singleBin = a.singleBin := by rw [hw.rest]
  have e4 : b.floating = a.floating := by rw [hw.rest]
  obtain ⟨ses₁, st₁, g₁, raw₁, pen₁, u₁, i1, i2, i3, i4, i5, i6⟩ :=
    fit_found hg he hs ho hl hns hc hsearch hex fun u _ => hG u
  obtain ⟨ses₂, st₂, g₂, raw₂, pen₂, u₂, j1, j2, j3, j4, j5, j6⟩ :=
    fit_found hg' (hw.evaluable he) (hw.settings hs) (hw.ownRates ho)
      (by rw [e1]; exact hl) (by rw [e1]; exact hns)
      (fun r hr => by rw [e1]; exact hc r (hw.mem_spectra hr)) (by rw [e4]; exact hsearch) hex
      (G := G) fun u hu => by
        rw [e2, e3, ← hw.backgroundAt hz]
        exact hG _
  obtain rfl : u₂ = u₁ := FirstBest.unique (fun u _ => by rw [hw.penaltyAt]) i3 j3
  exact ⟨ses₁, st₁, g₁, raw₁, pen₁, ses₂, st₂, g₂, raw₂, pen₂, i1, j1, i2, j2, by rw [i4, j4],
    by rw [i5, j5], by rw [i6, j6, hw.penaltyAt]⟩

/-- **C163, fixed backgrounds in limits.** As before, for limits set with the two fits and the same
signal: the outcomes are the same. (Partial: as before.) -/
theorem c163_fixed_limit_partial (hw : a.WithoutFixed b q v)
    (hb : BlankInside (inOrder a.roi) (st.view q)) (h : a.LimitOn r d ts st) (h' : b.LimitOn r d ts' st)
    (he : (a.withSignal r).Evaluable env keyOf d st) (ho : a.OwnRates st)
    (hsearch : RateSearch rnd g vss a.floating.length)
    (hsame : List.Forall₂ (fun p (q : FitPar) => q.prior = (st.params p).prior ∧
      q.sigma = (st.params p).sigma) (a.parameters st) g.pars)
    (hex : ∀ ws ∈ vss, ∀ y ∈ ws, ((rnd y : ℚ) : ℝ) = y) :
    ∃ ses₁ st₁ f₁ ses₂ st₂ f₂,
      init keyOf a st = (st₁, .ok ses₁) ∧ init keyOf b st = (st₂, .ok ses₂) ∧
      Fitter.limitInit ⟨ses₁, st₁, g⟩ r true = (f₁, .ok ()) ∧
      Fitter.limitInit ⟨ses₂, st₂, g⟩ r true = (f₂, .ok ()) ∧
      ∀ (calls₁ calls₂ : List LimitCall) (scales : List ℝ), Testable rnd (allScales calls₁ ++ scales) →
      Testable rnd (allScales calls₂ ++ scales) → scales ≠ [] → scales.Pairwise (· < ·) →
      ∀ (sigmas : List (Option ℝ)), (∀ s ∈ sigmas, s ≠ none) → ∀ (limit : ℝ),
      ((f₁.afterCalls env rnd r calls₁).limitOf env rnd r scales sigmas none limit).2 =
        ((f₂.afterCalls env rnd r calls₂).limitOf env rnd r scales sigmas none limit).2 := by
  have hg := h.given
  have hreg := inOrder_isDict hg.region
  have hdm : d ∈ (a.withSignal r).kept ++ a.fixed.map Prod.fst := by simp [FitArgs.kept, h.data]
  have hrm : r ∈ (a.withSignal r).kept ++ a.fixed.map Prod.fst := by simp [FitArgs.kept]
  have hws := hw.withSignal r
  obtain ⟨ns, hns⟩ := exists_roiNames (hg.able d hdm)
  obtain ⟨c, hc, hz⟩ := exists_blank_contents hreg hg.able hb ns
  have hshape : (c r).shape = (c d).shape :=
    same_shape hreg (hg.able d hdm) (hg.able r hrm) (h.axes r hrm) (hc d hdm) (hc r hrm)
  have e1 : b.roi = a.roi := by rw [hw.rest]
  have e2 : b.stat = a.stat := by rw [hw.rest]
  have e3 : b.singleBin = a.singleBin := by rw [hw.rest]
  have e4 : b.floating = a.floating := by rw [hw.rest]
  have e5 : b.parameters st = a.parameters st := by rw [hw.rest]; rfl
  obtain ⟨ses₁, st₁, f₁, i1, i2, i3⟩ := c147_floating_partial (rnd := rnd) h he ho hns hc hsearch hsame hex
  obtain ⟨ses₂, st₂, f₂, j1, j2, j3⟩ := c147_floating_partial (rnd := rnd) h' (hws.evaluable he)
    (hw.ownRates ho) (by rw [e1]; exact hns)
    (fun s hs => by rw [e1]; exact hc s (hws.mem_spectra hs)) (by rw [e4]; exact hsearch)
    (by rw [e5]; exact hsame) hex
  refine ⟨ses₁, st₁, f₁, ses₂, st₂, f₂, i1, j1, i2, j2, ?_⟩
  intro calls₁ calls₂ scales ht₁ ht₂ hsc hs sigmas hsig limit
  obtain ⟨G₀, hG₀⟩ := exists_statistics a.stat a.singleBin a st c d rnd
  obtain ⟨G, hG⟩ := exists_signal_statistics a st hshape rnd G₀
  obtain ⟨u₀, u, m1, m2, t, ht, k1, k2⟩ := i3 calls₁ scales ht₁ hsc hs G₀ G (fun u _ => hG₀ u)
    (fun x _ u _ => hG x u) sigmas hsig limit
  obtain ⟨u₀', u', m1', m2', t', ht', k1', k2'⟩ := j3 calls₂ scales ht₂ hsc hs G₀ G
    (fun u hu => by rw [e2, e3, ← hw.backgroundAt hz]; exact hG₀ _)
    (fun y _ u hu => by rw [e2, e3, ← hw.backgroundAt hz]; exact hG y _) sigmas hsig limit
  obtain rfl : u₀' = u₀ := FirstBest.unique (fun u _ => by rw [hw.penaltyAt]) m1 m1'
  have hu : ∀ y ∈ scales, u' y = u y := fun y hy =>
    FirstBest.unique (fun u _ => by rw [hw.penaltyAt]) (m2 y hy) (m2' y hy)
  have htt : t = t' := by
    obtain ⟨m1, m2⟩ := ht.2 t' ht'.1
    obtain ⟨n1, n2⟩ := ht'.2 t ht.1
    dsimp only at n1 n2
    rw [hu _ ht.1, hu _ ht'.1] at n1 n2
    have e := le_antisymm m1 n1
    exact le_antisymm (m2 e.symm) (n2 e)
  refine outcome_eq (fun y hy => ?_) htt k1' k2' k1 k2 hs ht'.1
  rw [hu y hy, hw.penaltyAt]

/-- **C163, fixed backgrounds in limits, no floating ones.** As before, for fits without floating
backgrounds. (Partial: the suppositions of C99; at most one axis is projected out.) -/
theorem c163_fixed_counting_partial (hw : a.WithoutFixed b q v)
    (hb : BlankInside (inOrder a.roi) (st.view q)) (h : a.LimitOn r d ts st) (h' : b.LimitOn r d ts' st)
    (hfx : b.fixed ≠ []) (hfl : a.floating = []) (hstat : a.statPerBin = false) (g : GridSearch)
    (hpars : g.pars = []) :
    ∃ ses₁ st₁ f₁ ses₂ st₂ f₂,
      init keyOf a st = (st₁, .ok ses₁) ∧ init keyOf b st = (st₂, .ok ses₂) ∧
      Fitter.limitInit ⟨ses₁, st₁, g⟩ r true = (f₁, .ok ()) ∧
      Fitter.limitInit ⟨ses₂, st₂, g⟩ r true = (f₂, .ok ()) ∧
      ∀ (calls₁ calls₂ : List LimitCall) (scales : List ℝ), Testable rnd (allScales calls₁ ++ scales) →
      Testable rnd (allScales calls₂ ++ scales) → scales ≠ [] → scales.Pairwise (· < ·) →
      ∀ (sigmas : List (Option ℝ)), (∀ s ∈ sigmas, s ≠ none) → ∀ (limit : ℝ),
      ((f₁.afterCalls env rnd r calls₁).limitOf env rnd r scales sigmas none limit).2 =
        ((f₂.afterCalls env rnd r calls₂).limitOf env rnd r scales sigmas none limit).2 := by
  have hg := h.given
  have hreg := inOrder_isDict hg.region
  have hdm : d ∈ (a.withSignal r).kept ++ a.fixed.map Prod.fst := by simp [FitArgs.kept, h.data]
  have hrm : r ∈ (a.withSignal r).kept ++ a.fixed.map Prod.fst := by simp [FitArgs.kept]
  have hws := hw.withSignal r
  obtain ⟨ns, hns⟩ := exists_roiNames (hg.able d hdm)
  obtain ⟨c, hc, hz⟩ := exists_blank_contents hreg hg.able hb ns
  have hshape : (c r).shape = (c d).shape :=
    same_shape hreg (hg.able d hdm) (hg.able r hrm) (h.axes r hrm) (hc d hdm) (hc r hrm)
  have e1 : b.roi = a.roi := by rw [hw.rest]
  have e2 : b.stat = a.stat := by rw [hw.rest]
  have e3 : b.singleBin = a.singleBin := by rw [hw.rest]
  have hfa : a.fixed ≠ [] := fun h0 => by
    have := hw.fixed.length_eq
    rw [h0] at this
    simp at this
  obtain ⟨ses₁, st₁, f₁, i1, i2, i3⟩ := c147_counting_partial (env := env) (keyOf := keyOf) (rnd := rnd)
    h hfa hfl hstat hns hc g hpars
  obtain ⟨ses₂, st₂, f₂, j1, j2, j3⟩ := c147_counting_partial (env := env) (keyOf := keyOf) (rnd := rnd)
    h' hfx (by rw [hw.rest]; exact hfl) (by rw [hw.rest]; exact hstat) (by rw [e1]; exact hns)
    (fun s hs => by rw [e1]; exact hc s (hws.mem_spectra hs)) g hpars
  refine ⟨ses₁, st₁, f₁, ses₂, st₂, f₂, i1, j1, i2, j2, ?_⟩
  intro calls₁ calls₂ scales ht₁ ht₂ hsc hs sigmas hsig limit
  obtain ⟨F₀, hF₀⟩ := exists_total a.stat (compared_length a.singleBin (a := c d)
      (b := a.fixedTotal st c (c d).shape) rfl).symm
  have hF : ∀ x : ℝ, ∃ v, (npCloseReal x 0 → v = F₀) ∧ (¬ npCloseReal x 0 →
      a.stat.Total (comparedContents a.singleBin (c d))
        (expectedAt (comparedContents a.singleBin (a.fixedTotal st c (c d).shape))
          (comparedContents a.singleBin (c r)) ((rnd x : ℝ) / ((st.view r).numDecays : ℝ))) v) := by
    intro x
    by_cases hx : npCloseReal x 0
    · exact ⟨F₀, fun _ => rfl, fun h => absurd hx h⟩
    · obtain ⟨v, hv⟩ := exists_total a.stat (expected_length (sb := a.singleBin) (o := c d)
        (b := a.fixedTotal st c (c d).shape) rfl hshape ((rnd x : ℝ) / ((st.view r).numDecays : ℝ)))
      exact ⟨v, fun h => absurd h hx, fun _ => hv⟩
  choose F hF using hF
  obtain ⟨t, ht, k1, k2⟩ := i3 calls₁ scales ht₁ hsc hs F₀ F hF₀ (fun x _ => hF x) sigmas hsig limit
  obtain ⟨t', ht', k1', k2'⟩ := j3 calls₂ scales ht₂ hsc hs F₀ F
    (by rw [e2, e3, ← hw.fixedTotal hz]; exact hF₀)
    (fun x _ => by rw [e2, e3, ← hw.fixedTotal hz]; exact hF x) sigmas hsig limit
  have htt : t = t' := by
    have e : F t' = F t := le_antisymm (ht'.2 t ht.1).1 (ht.2 t' ht'.1).1
    exact le_antisymm ((ht.2 t' ht'.1).2 e) ((ht'.2 t ht.1).2 e.symm)
  exact outcome_eq (fun _ _ => rfl) htt k1' k2' k1 k2 hs ht'.1

/-! ### signals -/

theorem expectedAt_blank {bkg sig : List ℝ} (hl : bkg.length = sig.length) (hz : ∀ x ∈ sig, x = 0)
    (x : ℝ) : expectedAt bkg sig x = bkg := by
  unfold expectedAt
  induction bkg generalizing sig with
  | nil => rfl
  | cons y bkg ih =>
    cases sig with
    | nil => simp at hl
    | cons z sig =>
      rw [List.zipWith_cons_cons, ih (by simpa using hl) fun x hx => hz x (by simp [hx]), hz z (by simp),
        mul_zero, add_zero]

theorem compared_blank {sb : Bool} {a : NdArray ℚ} (h : ∀ idx, a.get idx = 0) :
    ∀ x ∈ comparedContents sb a, x = 0 := by
  intro x hx
  unfold comparedContents at hx
  split at hx
  · have : a.sum = 0 := by
      unfold NdArray.sum
      rw [funext h]
      exact sumIdx_zero _
    rw [this] at hx
    simpa using hx
  · obtain ⟨idx, -, rfl⟩ := List.mem_map.1 hx
    rw [h]
    norm_num

/-- The outcome of a limit when the statistics do not depend on the scaling. -/
theorem flat_outcome {R : Except PyErr ℝ} {scales : List ℝ} {F H : ℝ → ℝ} {p t limit : ℝ}
    (ht : BestScale scales F t) (hF : ∀ y ∈ scales, F y = F t) (hH : ∀ y ∈ scales, H y = p)
    (h1 : ∀ x, R = .ok x ↔ FirstCrossing scales H t limit x)
    (h2 : R = .error .limitError ↔ ∀ y ∈ scales, t ≤ y → H y ≤ limit) :
    (p ≤ limit → R = .error .limitError) ∧
      (limit < p → ∃ x ∈ scales, (∀ y ∈ scales, x ≤ y) ∧ R = .ok x) := by
  refine ⟨fun hp => h2.2 fun y hy _ => by rw [hH y hy]; exact hp, fun hp => ?_⟩
  refine ⟨t, ht.1, fun y hy => (ht.2 y hy).2 (hF y hy), (h1 t).2 ⟨ht.1, le_rfl, ?_, ?_⟩⟩
  · rw [hH t ht.1]; exact hp
  · exact fun y _ h h' => absurd h' (not_lt.2 h)

/-- **C163, signals.** A fit is made from data and fixed backgrounds, and a limit from it and a signal that
holds nothing in the region. Then no limit is found, whatever the scalings and the threshold, if this is
not negative: `LimitError` is raised. (Partial: the suppositions of C99; at most one axis is projected
out.) -/
theorem c163_signal_counting_partial (hb : BlankInside (inOrder a.roi) (st.view r))
    (h : a.LimitOn r d ts st) (hfx : a.fixed ≠ []) (hfl : a.floating = [])
    (hstat : a.statPerBin = false) (g : GridSearch) (hpars : g.pars = []) :
    ∃ ses st' w, init keyOf a st = (st', .ok ses) ∧
      Fitter.limitInit ⟨ses, st', g⟩ r true = (w, .ok ()) ∧
      ∀ (calls : List LimitCall) (scales : List ℝ), Testable rnd (allScales calls ++ scales) →
      scales ≠ [] → scales.Pairwise (· < ·) → ∀ (sigmas : List (Option ℝ)), (∀ s ∈ sigmas, s ≠ none) →
      ∀ (limit : ℝ), 0 ≤ limit →
      ((w.afterCalls env rnd r calls).limitOf env rnd r scales sigmas none limit).2 =
        .error .limitError := by
  have hg := h.given
  have hreg := inOrder_isDict hg.region
  have hdm : d ∈ (a.withSignal r).kept ++ a.fixed.map Prod.fst := by simp [FitArgs.kept, h.data]
  have hrm : r ∈ (a.withSignal r).kept ++ a.fixed.map Prod.fst := by simp [FitArgs.kept]
  obtain ⟨ns, hns⟩ := exists_roiNames (hg.able d hdm)
  obtain ⟨c, hc, hz⟩ := exists_blank_contents hreg hg.able hb ns
  have hshape : (c r).shape = (c d).shape :=
    same_shape hreg (hg.able d hdm) (hg.able r hrm) (h.axes r hrm) (hc d hdm) (hc r hrm)
  obtain ⟨ses, st', w, i1, i2, i3⟩ := c147_counting_partial (env := env) (keyOf := keyOf) (rnd := rnd)
    h hfx hfl hstat hns hc g hpars
  refine ⟨ses, st', w, i1, i2, ?_⟩
  intro calls scales ht hsc hs sigmas hsig limit h0
  obtain ⟨F₀, hF₀⟩ := exists_total a.stat (compared_length a.singleBin (a := c d)
      (b := a.fixedTotal st c (c d).shape) rfl).symm
  obtain ⟨t, hb, k1, k2⟩ := i3 calls scales ht hsc hs F₀ (fun _ => F₀) hF₀ (fun x _ =>
    ⟨fun _ => rfl, fun _ => by
      rw [expectedAt_blank (compared_length a.singleBin (a := c r)
        (b := a.fixedTotal st c (c d).shape) hshape.symm) (compared_blank hz)]
      exact hF₀⟩) sigmas hsig limit
  exact (flat_outcome hb (fun _ _ => rfl) (fun _ _ => sub_self F₀) k1 k2).1 h0

/-- **C163, signals, with floating backgrounds.** A fit by grid search is made from data, fixed and
floating backgrounds with a rate each, and a limit from it and a signal that holds nothing in the region.
`G₀ u` is the statistic of data and backgrounds at the rates `u`. The best fit is the same for every
scaling. If its penalty does not exceed the threshold, no limit is found and `LimitError` is raised.
(Partial: if it does, the smallest tested scaling is reported as limit, although there is no signal in the
region; and the suppositions of C147.) -/
theorem c163_signal_floating_partial (hb : BlankInside (inOrder a.roi) (st.view r))
    (h : a.LimitOn r d ts st) (he : (a.withSignal r).Evaluable env keyOf d st) (ho : a.OwnRates st)
    {ns : List PyStr} (hns : RoiNames (st.view d).cfg (inOrder a.roi) ns) {c : ℕ → NdArray ℚ}
    (hc : ∀ q ∈ (a.withSignal r).kept ++ a.fixed.map Prod.fst,
      RegionContents (inOrder a.roi) ns (st.view q) (c q))
    (hsearch : RateSearch rnd g vss a.floating.length)
    (hsame : List.Forall₂ (fun p (q : FitPar) => q.prior = (st.params p).prior ∧
      q.sigma = (st.params p).sigma) (a.parameters st) g.pars)
    (hex : ∀ ws ∈ vss, ∀ y ∈ ws, ((rnd y : ℚ) : ℝ) = y) {G₀ : List ℝ → ℝ}
    (hG₀ : ∀ u, Combination vss u → a.stat.Total (comparedContents a.singleBin (c d))
      (comparedContents a.singleBin (a.backgroundAt st c (c d).shape (u.map rnd))) (G₀ u)) :
    ∃ ses st' w u₀, init keyOf a st = (st', .ok ses) ∧
      Fitter.limitInit ⟨ses, st', g⟩ r true = (w, .ok ()) ∧
      FirstBest vss (fun u => G₀ u + a.penaltyAt st u) u₀ ∧
      ∀ (calls : List LimitCall) (scales : List ℝ), Testable rnd (allScales calls ++ scales) →
      scales ≠ [] → scales.Pairwise (· < ·) → ∀ (sigmas : List (Option ℝ)), (∀ s ∈ sigmas, s ≠ none) →
      ∀ (limit : ℝ),
      (a.penaltyAt st u₀ ≤ limit →
        ((w.afterCalls env rnd r calls).limitOf env rnd r scales sigmas none limit).2 =
          .error .limitError) ∧
      (limit < a.penaltyAt st u₀ → ∃ x ∈ scales, (∀ y ∈ scales, x ≤ y) ∧
        ((w.afterCalls env rnd r calls).limitOf env rnd r scales sigmas none limit).2 = .ok x) := by
  have hg := h.given
  have hreg := inOrder_isDict hg.region
  have hdm : d ∈ (a.withSignal r).kept ++ a.fixed.map Prod.fst := by simp [FitArgs.kept, h.data]
  have hrm : r ∈ (a.withSignal r).kept ++ a.fixed.map Prod.fst := by simp [FitArgs.kept]
  have hshape : (c r).shape = (c d).shape :=
    same_shape hreg (hg.able d hdm) (hg.able r hrm) (h.axes r hrm) (hc d hdm) (hc r hrm)
  have hz : comparedContents a.singleBin (c r) =
      comparedContents a.singleBin ⟨(c r).shape, fun _ => 0⟩ := by
    obtain ⟨m1, m2⟩ := regionContents_unique hreg (hg.able r hrm)
      ((hc r hrm).blank hreg (hg.able r hrm) hb) (hc r hrm)
    exact compared_congr _ m1 m2
  obtain ⟨ses, st', w, i1, i2, i3⟩ := c147_floating_partial (rnd := rnd) h he ho hns hc hsearch hsame hex
  have hG : ∀ y u, Combination vss u → (npCloseReal y 0 → G₀ u = G₀ u) ∧ (¬ npCloseReal y 0 →
      a.stat.Total (comparedContents a.singleBin (c d))
        (expectedAt (comparedContents a.singleBin (a.backgroundAt st c (c d).shape (u.map rnd)))
          (comparedContents a.singleBin (c r)) ((rnd y : ℝ) / ((st.view r).numDecays : ℝ))) (G₀ u)) :=
    fun y u hu => ⟨fun _ => rfl, fun _ => by
      rw [hz, expectedAt_blank (compared_length a.singleBin (a := ⟨(c r).shape, fun _ => 0⟩)
        (b := a.backgroundAt st c (c d).shape (u.map rnd)) hshape.symm) (compared_blank fun _ => rfl)]
      exact hG₀ u hu⟩
  have hbest : ∃ u₀, FirstBest vss (fun u => G₀ u + a.penaltyAt st u) u₀ := by
    have h0 : npCloseReal 0 0 := by unfold npCloseReal; norm_num
    obtain ⟨u₀, -, m1, -⟩ := i3 [] [0] (fun x hx hn => by
        obtain rfl : x = 0 := by simpa [allScales] using hx
        exact absurd h0 hn) (by simp) (by simp) G₀ (fun _ => G₀) hG₀
      (fun y _ u hu => hG y u hu) [] (by simp) 0
    exact ⟨u₀, m1⟩
  obtain ⟨u₀, hu₀⟩ := hbest
  refine ⟨ses, st', w, u₀, i1, i2, hu₀, ?_⟩
  intro calls scales ht hsc hs sigmas hsig limit
  obtain ⟨u₁, u, m1, m2, t, hb, k1, k2⟩ := i3 calls scales ht hsc hs G₀ (fun _ => G₀) hG₀
    (fun y _ u hu => hG y u hu) sigmas hsig limit
  have e1 : u₁ = u₀ := FirstBest.unique (fun _ _ => rfl) hu₀ m1
  have e2 : ∀ y ∈ scales, u y = u₀ := fun y hy => FirstBest.unique (fun _ _ => rfl) hu₀ (m2 y hy)
  exact flat_outcome hb (fun y hy => by rw [e2 y hy, e2 t hb.1])
    (fun y hy => by rw [e1, e2 y hy, sub_self, zero_add]) k1 k2

/-! ### cases that meet the hypotheses -/

namespace Ex

/-- The spectrum `q` has contents below the region from 1 to 2 only. -/
def blankState (q : ℕ) (st : FitState) : FitState := { st with
  objs := fun r => { st.objs r with data := if r = q then four 4 3 0 0 else (st.objs r).data } }

/-- One value for each rate, and the first is not the prior. -/
def blankSearch : GridSearch :=
  GridSearch.new [gridPar (lit "rate") (some 2) [8], gridPar (lit "rate") none [5]] [4]
    (some (lit "fit")) false

end Ex

theorem blank_view {q r : ℕ} (h : r ≠ q) : (Ex.blankState q st).view r = st.view r := by
  unfold FitState.view Ex.blankState
  simp only [if_neg h]

theorem blank_shape (hq : (st.objs q).data.shape = [4]) (r : ℕ) :
    ((Ex.blankState q st).view r).data.shape = (st.view r).data.shape := by
  by_cases h : r = q
  · subst h
    show (if r = r then Ex.four 4 3 0 0 else (st.objs r).data).shape = (st.objs r).data.shape
    rw [if_pos rfl, hq]
    rfl
  · rw [blank_view h]

theorem blank_inside (hc : (st.view q).cfg = [Ex.fitAxis]) :
    BlankInside (inOrder [(lit "energy", ((2 : ℚ), (1 : ℚ)))]) ((Ex.blankState q st).view q) := by
  intro idx hi hr
  have hd : ((Ex.blankState q st).view q).data = (Ex.four 4 3 0 0).norm := by
    show (if q = q then Ex.four 4 3 0 0 else (st.objs q).data).norm = _
    rw [if_pos rfl]
  rw [show ((Ex.blankState q st).view q).cfg = [Ex.fitAxis] from hc] at hr
  rw [hd] at hi ⊢
  obtain ⟨i, rest, h1, h2, rfl⟩ := List.forall₂_cons_left_iff.1 hr
  cases h2
  have h := (h1 (lit "energy", (min 2 1, max 2 1)) (by simp [inOrder]) ⟨lit "mc", by decide, rfl⟩).1
  have hi2 : 2 ≤ i := by
    by_contra hlt
    have : (i : ℚ) ≤ 1 := by exact_mod_cast (show i ≤ 1 by omega)
    norm_num [SPar.edge, Ex.fitAxis] at h
    linarith
  have hi4 : i < 4 := by
    have : InB [4] [i] := hi
    simpa [InB] using this
  have : i = 2 ∨ i = 3 := by omega
  rcases this with rfl | rfl <;> decide +kernel

theorem blank_given (hq : (st.objs q).data.shape = [4]) (hn : q ∉ a.fixed.map Prod.fst)
    (h : a.Given ts st) : a.Given ts (Ex.blankState q st) := by
  have hv : ∀ e ∈ a.fixed, (Ex.blankState q st).view e.1 = st.view e.1 := fun e he =>
    blank_view fun hr => hn (hr ▸ List.mem_map_of_mem he)
  have hf := h.fixed
  refine ⟨h.region, h.some, h.alloc, h.own, fun r hr => (h.able r hr).congr rfl (blank_shape hq r),
    hf.alloc, hf.own, hf.region, fun e he => by rw [hv e he]; exact hf.dims e he,
    fun e he => by rw [hv e he]; exact hf.names e he, ?_, hf.axes⟩
  have := hf.shrunk
  generalize a.fixed = l at this hv
  clear * - this hv
  induction this with
  | nil => exact .nil
  | cons h1 _ ih =>
    exact .cons (by rw [hv _ (by simp)]; exact h1) (ih fun e he => hv e (by simp [he]))

theorem blank_evaluable (h : a.Evaluable env keyOf d st) :
    a.Evaluable env keyOf d (Ex.blankState q st) :=
  ⟨h.data, h.str, h.cache, h.backgrounds, h.axes, h.dims, h.decays, h.names, h.pars, h.globals, h.rates⟩

theorem blank_limitOn (hq : (st.objs q).data.shape = [4]) (hn : q ∉ a.fixed.map Prod.fst)
    (h : a.LimitOn r d ts st) : a.LimitOn r d ts (Ex.blankState q st) :=
  ⟨blank_given (a := a.withSignal r) hq hn h.given, ⟨h.settings.1, h.settings.2, h.settings.3,
    h.settings.4⟩, h.signal, h.data, h.axes, h.fit, h.decays, h.region⟩

theorem blank_ownRates (h : a.OwnRates st) : a.OwnRates (Ex.blankState q st) :=
  ⟨h.floating, h.config, h.one, h.sigmas, h.statPerBin, h.perBin⟩

theorem blank_settings (h : a.Settings st) : a.Settings (Ex.blankState q st) :=
  ⟨h.floating, h.fixed, h.dimension, h.perBin⟩

/-- The arguments with the floating background 2 only. -/
theorem ex_without {a : FitArgs} (h : a.floating = [2, 3]) :
    a.Without { a with floating := [2] } [2] 3 [] where
  floating := h
  rest := rfl

/-- The second background holds nothing in the region: its rate is not the prior, as it has no sigma, but
the first value. -/
example : ∃ ses₁ st₁ g₁ raw₁ pen₁ ses₂ st₂ g₂ raw₂ pen₂ w₁ x w₂ t p,
    init Ex.keyOf exWhole (Ex.blankState 3 Ex.madeState) = (st₁, .ok ses₁) ∧
    init Ex.keyOf { exWhole with floating := [2] } (Ex.blankState 3 Ex.madeState) = (st₂, .ok ses₂) ∧
    (ses₁.fit (fun f => fitGrid Ex.fitEnv f Ex.toInt Ex.closedSearch) st₁).2 =
      .ok (.inr (g₁, raw₁, pen₁)) ∧
    (ses₂.fit (fun f => fitGrid Ex.fitEnv f Ex.toInt Ex.fixedSearch) st₂).2 =
      .ok (.inr (g₂, raw₂, pen₂)) ∧
    FirstSmallest [7, 5, 3] (exWhole.ratePenalty (Ex.blankState 3 Ex.madeState) 3) x ∧
    w₁.length = [2].length ∧ g₁.pars.map FitPar.bestFit = (w₁ ++ x :: w₂).map some ∧
    g₂.pars.map FitPar.bestFit = (w₁ ++ w₂).map some ∧
    raw₁.ravel = [t] ∧ raw₂.ravel = [t] ∧
    pen₁.ravel = [exWhole.ratePenalty (Ex.blankState 3 Ex.madeState) 3 x + p] ∧ pen₂.ravel = [p] :=
  c163_floating_fit_partial (vs₁ := [[8, 10]]) (vs₂ := []) (ex_without rfl) (by simp)
    (blank_inside rfl) (blank_given rfl (by simp [exWhole]) made_given) (blank_evaluable made_evaluable)
    (blank_settings made_settings) (blank_ownRates made_ratesOnly.toOwnRates)
    (by simp [FitState.view, Ex.blankState, Ex.madeState, Ex.fitState, exWhole]) rfl
    made_search (ex_fixing_search (.inr ⟨rfl, rfl⟩)) made_unrounded

/-- The limits are the same; the rate of the background that holds nothing has no sigma. -/
example : ∃ ses₁ st₁ f₁ ses₂ st₂ f₂,
    init Ex.keyOf (Ex.limitArgs [2, 3]) (Ex.blankState 3 Ex.limitState) = (st₁, .ok ses₁) ∧
    init Ex.keyOf (Ex.limitArgs [2]) (Ex.blankState 3 Ex.limitState) = (st₂, .ok ses₂) ∧
    Fitter.limitInit ⟨ses₁, st₁, Ex.closedSearch⟩ 4 true = (f₁, .ok ()) ∧
    Fitter.limitInit ⟨ses₂, st₂, Ex.fixedSearch⟩ 4 true = (f₂, .ok ()) ∧
    ((f₁.afterCalls Ex.fitEnv Ex.toInt 4 []).limitOf Ex.fitEnv Ex.toInt 4 [0, 4, 10, 20] [] none 3).2 =
      ((f₂.afterCalls Ex.fitEnv Ex.toInt 4 [.statistics [4]]).limitOf Ex.fitEnv Ex.toInt 4
        [0, 4, 10, 20] [] none 3).2 := by
  have hp : ∀ x, (Ex.limitArgs [2, 3]).ratePenalty (Ex.blankState 3 Ex.limitState) 3 x = 0 := by
    intro x
    simp [FitArgs.ratePenalty, Ex.blankState, Ex.limitState, Ex.fitState, Ex.fitParam, Ex.fitObj]
  obtain ⟨ses₁, st₁, f₁, ses₂, st₂, f₂, h1, h2, h3, h4, h5⟩ := c163_floating_limit_partial
    (env := Ex.fitEnv) (keyOf := Ex.keyOf) (rnd := Ex.toInt) (x := 7) (vs₁ := [[8, 10]]) (vs := [7, 5, 3])
    (vs₂ := []) (g := Ex.closedSearch) (g' := Ex.fixedSearch) (ex_without rfl) (by simp)
    (blank_inside (st := Ex.limitState) rfl) (blank_limitOn rfl (by simp [Ex.limitArgs])
      (ex_limitOn (.inr rfl)))
    (blank_evaluable ex_floatEvaluable) (blank_ownRates ex_floatRates) rfl
    ⟨0, rfl, fun j y _ => ⟨by rw [hp, hp], fun _ => Nat.zero_le _⟩⟩ made_search
    (ex_fixing_search (.inr ⟨rfl, rfl⟩)) (.cons ⟨rfl, rfl⟩ (.cons ⟨rfl, rfl⟩ .nil))
    (.cons ⟨rfl, rfl⟩ .nil) made_unrounded
  refine ⟨ses₁, st₁, f₁, ses₂, st₂, f₂, h1, h2, h3, h4, ?_⟩
  have := h5 [] [.statistics [4]] [0, 4, 10, 20]
    (fun x hx h => (ex_limitScales (List.mem_append_right _ hx) h).2)
    (fun x hx h => (ex_limitScales hx h).2) (by simp) (by norm_num) [] (by simp) 3
  rw [hp, add_zero] at this
  exact this

namespace Ex

/-- A second fixed background, which holds nothing in the region. -/
def blankArgs (floating : List ℕ) : FitArgs :=
  { limitArgs floating with fixed := [(1, 20), (3, 5)] }

end Ex

theorem blank_suppliable : Suppliable (inOrder [(lit "energy", ((2 : ℚ), (1 : ℚ)))]) [(1, 20), (3, 5)]
    [(((Ex.fitState.view 1).shrink exFitKw).st.scale 20).st,
      ((((Ex.blankState 3 Ex.limitState).view 3).shrink exFitKw).st.scale 5).st]
    (Ex.blankState 3 Ex.limitState) := by
  have h1 : (Ex.blankState 3 Ex.limitState).view 1 = Ex.fitState.view 1 := rfl
  rw [exInit_roi]
  refine ⟨?_, ?_, by unfold IsDict; decide, fun e _ => fitAxis_dims, fun e _ => by
    show ([Ex.fitAxis].map SPar.name).Nodup
    simp, .cons ?_ (.cons ?_ .nil), ?_⟩
  · intro r hr
    have : r = 1 ∨ r = 3 := by simpa using hr
    show r < 5
    omega
  · show [(1 : ℕ), 3].Nodup
    decide
  · rw [h1]
    exact ⟨exFitKw, exFit_asks, by decide +kernel, rfl, by decide +kernel⟩
  · exact ⟨exFitKw, exFit_asks, by decide +kernel, rfl, by decide +kernel⟩
  · have key : ((((Ex.fitState.view 1).shrink exFitKw).st.scale 20).st).cfg =
        (((((Ex.blankState 3 Ex.limitState).view 3).shrink exFitKw).st.scale 5).st).cfg ∧
        ((((Ex.fitState.view 1).shrink exFitKw).st.scale 20).st).data.shape =
        (((((Ex.blankState 3 Ex.limitState).view 3).shrink exFitKw).st.scale 5).st).data.shape := by
      decide +kernel
    intro t ht t' ht'
    simp only [List.mem_cons, List.not_mem_nil, or_false] at ht ht'
    rcases ht with rfl | rfl <;> rcases ht' with rfl | rfl
    · exact ⟨rfl, rfl⟩
    · exact ⟨key.1.symm, key.2.symm⟩
    · exact key
    · exact ⟨rfl, rfl⟩

theorem blankArgs_limitOn {floating : List ℕ} (hf : floating = [] ∨ floating = [2]) :
    (Ex.blankArgs floating).LimitOn 4 0
      [(((Ex.fitState.view 1).shrink exFitKw).st.scale 20).st,
        ((((Ex.blankState 3 Ex.limitState).view 3).shrink exFitKw).st.scale 5).st]
      (Ex.blankState 3 Ex.limitState) := by
  have h := blank_limitOn (q := 3) rfl (by simp [Ex.limitArgs]) (ex_limitOn (floating := [2, 3]) (.inr rfl))
  have hg := h.given
  refine ⟨⟨hg.region, hg.some, ?_, ?_, ?_, blank_suppliable⟩, ?_, rfl, rfl, fun _ _ => rfl, h.fit,
    h.decays, h.region⟩
  · intro r hr
    refine hg.alloc r ?_
    have : r = 0 ∨ r = 4 ∨ r = 2 := by
      rcases hf with rfl | rfl <;> simp [FitArgs.kept, Ex.limitArgs, Ex.blankArgs] at hr <;> omega
    simp [FitArgs.kept, Ex.limitArgs]
    omega
  · rcases hf with rfl | rfl
    · show (([0, 4] ++ [1, 3]).map (fun r => ((Ex.blankState 3 Ex.limitState).objs r).cfg)).Nodup
      decide
    · show (([0, 4, 2] ++ [1, 3]).map (fun r => ((Ex.blankState 3 Ex.limitState).objs r).cfg)).Nodup
      decide
  · intro r hr
    refine hg.able r ?_
    have : r = 0 ∨ r = 4 ∨ r = 2 ∨ r = 1 ∨ r = 3 := by
      rcases hf with rfl | rfl <;> simp [FitArgs.kept, Ex.limitArgs, Ex.blankArgs] at hr <;> omega
    simp [FitArgs.kept, Ex.limitArgs]
    omega
  · refine { floating := ?_, fixed := ?_, dimension := ?_, perBin := ?_ }
    · rcases hf with rfl | rfl
      · exact fun h => absurd rfl h
      · exact fun _ => .inr ⟨2, by simp [Ex.limitArgs, Ex.blankArgs],
          by simp [Ex.blankState, Ex.limitState, Ex.fitObj]⟩
    all_goals simp [Ex.limitArgs, Ex.blankArgs]

theorem ex_withoutFixed (floating : List ℕ) :
    (Ex.blankArgs floating).WithoutFixed (Ex.limitArgs floating) 3 5 where
  fixed := List.Perm.swap _ _ _
  rest := rfl

theorem ex_withoutLimit : (Ex.limitArgs [2, 3]).Without (Ex.limitArgs [2]) [2] 3 [] := ex_without rfl

theorem blankArgs_evaluable : ((Ex.blankArgs [2]).withSignal 4).Evaluable Ex.fitEnv Ex.keyOf 0
    (Ex.blankState 3 Ex.limitState) := by
  have h := (ex_withoutLimit.withSignal 4).evaluable (blank_evaluable (q := 3) ex_floatEvaluable)
  exact ⟨h.data, h.str, h.cache, h.backgrounds, fun _ _ => rfl, h.dims, h.decays, h.names, h.pars,
    h.globals, h.rates⟩

theorem blankArgs_rates : (Ex.blankArgs [2]).OwnRates (Ex.blankState 3 Ex.limitState) := by
  have h := ex_withoutLimit.ownRates (by simp) (blank_ownRates (q := 3) ex_floatRates)
  exact ⟨h.floating, h.config, h.one, h.sigmas, h.statPerBin, h.perBin⟩

/-- A fit without the second fixed background. -/
example : ∃ ses₁ st₁ g₁ raw₁ pen₁ ses₂ st₂ g₂ raw₂ pen₂,
    init Ex.keyOf ((Ex.blankArgs [2]).withSignal 4) (Ex.blankState 3 Ex.limitState) = (st₁, .ok ses₁) ∧
    init Ex.keyOf ((Ex.limitArgs [2]).withSignal 4) (Ex.blankState 3 Ex.limitState) = (st₂, .ok ses₂) ∧
    (ses₁.fit (fun f => fitGrid Ex.fitEnv f Ex.toInt Ex.fixedSearch) st₁).2 =
      .ok (.inr (g₁, raw₁, pen₁)) ∧
    (ses₂.fit (fun f => fitGrid Ex.fitEnv f Ex.toInt Ex.fixedSearch) st₂).2 =
      .ok (.inr (g₂, raw₂, pen₂)) ∧
    g₂.pars.map FitPar.bestFit = g₁.pars.map FitPar.bestFit ∧
    raw₂.ravel = raw₁.ravel ∧ pen₂.ravel = pen₁.ravel := by
  have h := blankArgs_limitOn (.inr rfl)
  have hr := blankArgs_rates
  exact c163_fixed_fit_partial (vss := [[8, 10]]) ((ex_withoutFixed [2]).withSignal 4)
    (blank_inside (st := Ex.limitState) rfl) h.given
    (ex_withoutLimit.limitOn (by simp) (blank_ownRates ex_floatRates)
      (blank_limitOn rfl (by simp [Ex.limitArgs]) (ex_limitOn (.inr rfl)))).given
    blankArgs_evaluable ⟨h.settings.1, h.settings.2, h.settings.3, h.settings.4⟩
    ⟨hr.1, hr.2, hr.3, hr.4, hr.5, hr.6⟩ h.region (ex_fixing_search (.inr ⟨rfl, rfl⟩))
    (fun ws hw => ex_fixing_unrounded ws (by simp at hw ⊢; exact .inl hw))

/-- Limits without the second fixed background. -/
example : ∃ ses₁ st₁ f₁ ses₂ st₂ f₂,
    init Ex.keyOf (Ex.blankArgs [2]) (Ex.blankState 3 Ex.limitState) = (st₁, .ok ses₁) ∧
    init Ex.keyOf (Ex.limitArgs [2]) (Ex.blankState 3 Ex.limitState) = (st₂, .ok ses₂) ∧
    Fitter.limitInit ⟨ses₁, st₁, Ex.fixedSearch⟩ 4 true = (f₁, .ok ()) ∧
    Fitter.limitInit ⟨ses₂, st₂, Ex.fixedSearch⟩ 4 true = (f₂, .ok ()) ∧
    ((f₁.afterCalls Ex.fitEnv Ex.toInt 4 []).limitOf Ex.fitEnv Ex.toInt 4 [0, 4, 10, 20] [] none 3).2 =
      ((f₂.afterCalls Ex.fitEnv Ex.toInt 4 [.statistics [4]]).limitOf Ex.fitEnv Ex.toInt 4
        [0, 4, 10, 20] [] none 3).2 := by
  obtain ⟨ses₁, st₁, f₁, ses₂, st₂, f₂, h1, h2, h3, h4, h5⟩ := c163_fixed_limit_partial
    (env := Ex.fitEnv) (keyOf := Ex.keyOf) (rnd := Ex.toInt) (vss := [[8, 10]]) (g := Ex.fixedSearch)
    (ex_withoutFixed [2]) (blank_inside (st := Ex.limitState) rfl) (blankArgs_limitOn (.inr rfl))
    (ex_withoutLimit.limitOn (by simp) (blank_ownRates ex_floatRates)
      (blank_limitOn rfl (by simp [Ex.limitArgs]) (ex_limitOn (.inr rfl))))
    blankArgs_evaluable blankArgs_rates (ex_fixing_search (.inr ⟨rfl, rfl⟩)) (.cons ⟨rfl, rfl⟩ .nil)
    (fun ws hw => ex_fixing_unrounded ws (by simp at hw ⊢; exact .inl hw))
  exact ⟨ses₁, st₁, f₁, ses₂, st₂, f₂, h1, h2, h3, h4, h5 _ _ _
    (fun x hx h => (ex_limitScales (List.mem_append_right _ hx) h).2)
    (fun x hx h => (ex_limitScales hx h).2) (by simp) (by norm_num) [] (by simp) 3⟩

/-- Limits without floating backgrounds. -/
example : ∃ ses₁ st₁ f₁ ses₂ st₂ f₂,
    init Ex.keyOf (Ex.blankArgs []) (Ex.blankState 3 Ex.limitState) = (st₁, .ok ses₁) ∧
    init Ex.keyOf (Ex.limitArgs []) (Ex.blankState 3 Ex.limitState) = (st₂, .ok ses₂) ∧
    Fitter.limitInit ⟨ses₁, st₁, GridSearch.new [] [] none false⟩ 4 true = (f₁, .ok ()) ∧
    Fitter.limitInit ⟨ses₂, st₂, GridSearch.new [] [] none false⟩ 4 true = (f₂, .ok ()) ∧
    ((f₁.afterCalls Ex.fitEnv Ex.toInt 4 []).limitOf Ex.fitEnv Ex.toInt 4 [0, 4, 10, 20] [] none 3).2 =
      ((f₂.afterCalls Ex.fitEnv Ex.toInt 4 [.statistics [4]]).limitOf Ex.fitEnv Ex.toInt 4
        [0, 4, 10, 20] [] none 3).2 := by
  obtain ⟨ses₁, st₁, f₁, ses₂, st₂, f₂, h1, h2, h3, h4, h5⟩ := c163_fixed_counting_partial
    (env := Ex.fitEnv) (keyOf := Ex.keyOf) (rnd := Ex.toInt)
    (ex_withoutFixed []) (blank_inside (st := Ex.limitState) rfl) (blankArgs_limitOn (.inl rfl))
    (blank_limitOn rfl (by simp [Ex.limitArgs]) (ex_limitOn (.inl rfl))) (by simp [Ex.limitArgs]) rfl rfl
    (GridSearch.new [] [] none false) rfl
  exact ⟨ses₁, st₁, f₁, ses₂, st₂, f₂, h1, h2, h3, h4, h5 _ _ _
    (fun x hx h => (ex_limitScales (List.mem_append_right _ hx) h).2)
    (fun x hx h => (ex_limitScales hx h).2) (by simp) (by norm_num) [] (by simp) 3⟩

/-- A signal that holds nothing in the region has no limit. -/
example : ∃ ses st' w,
    init Ex.keyOf (Ex.limitArgs []) (Ex.blankState 4 Ex.limitState) = (st', .ok ses) ∧
    Fitter.limitInit ⟨ses, st', GridSearch.new [] [] none false⟩ 4 true = (w, .ok ()) ∧
    ((w.afterCalls Ex.fitEnv Ex.toInt 4 [.statistics [4]]).limitOf Ex.fitEnv Ex.toInt 4
      [0, 4, 10, 20] [] none 3).2 = .error .limitError := by
  obtain ⟨ses, st', w, h1, h2, h3⟩ := c163_signal_counting_partial (env := Ex.fitEnv) (keyOf := Ex.keyOf)
    (rnd := Ex.toInt) (blank_inside (st := Ex.limitState) (q := 4) rfl)
    (blank_limitOn rfl (by simp [Ex.limitArgs]) (ex_limitOn (.inl rfl))) (by simp [Ex.limitArgs]) rfl rfl
    (GridSearch.new [] [] none false) rfl
  exact ⟨ses, st', w, h1, h2, h3 _ _ (fun x hx h => (ex_limitScales hx h).2) (by simp) (by norm_num) []
    (by simp) 3 (by norm_num)⟩

theorem ex_blankSearch : RateSearch Ex.toInt Ex.blankSearch [[8], [5]] (Ex.limitArgs [2, 3]).floating.length where
  ready := ⟨rfl, rfl⟩
  form := rfl
  values := .cons rfl (.cons rfl .nil)
  counts := .cons ⟨rfl, by simp⟩ (.cons ⟨rfl, by simp⟩ .nil)
  number := rfl
  nodup := by simp
  injective := by
    intro ws hw x hx y hy _
    have : ws = [8] ∨ ws = [5] := by simpa using hw
    rcases this with rfl | rfl <;> simp at hx hy <;> rw [hx, hy]
  nonzero := by
    intro ws hw x hx
    have : ws = [8] ∨ ws = [5] := by simpa using hw
    rcases this with rfl | rfl <;> simp at hx <;> subst hx <;> simp [Ex.toInt]
  sigmas := by
    intro p hp
    have : p = Ex.gridPar (lit "rate") (some 2) [8] ∨ p = Ex.gridPar (lit "rate") none [5] := by
      simpa [Ex.blankSearch, GridSearch.new] using hp
    rcases this with rfl | rfl <;> simp [Ex.gridPar]

/-- **C163, negation: signals with floating backgrounds.** A limit may be reported for a signal that holds
nothing in the region: the only value of the first rate is 8, its prior is 10 and its sigma 2, and the
threshold 1 / 2 is below the penalty 1 of the best fit. The scalings 4, 10 and 20 are tested, and the
limit is 4. -/
theorem c163_signal_negation :
    BlankInside (inOrder (Ex.limitArgs [2, 3]).roi) ((Ex.blankState 4 Ex.limitState).view 4) ∧
    ∃ ses st' w, init Ex.keyOf (Ex.limitArgs [2, 3]) (Ex.blankState 4 Ex.limitState) = (st', .ok ses) ∧
      Fitter.limitInit ⟨ses, st', Ex.blankSearch⟩ 4 true = (w, .ok ()) ∧
      (w.limitOf Ex.fitEnv Ex.toInt 4 [4, 10, 20] [] none (1 / 2)).2 = .ok 4 := by
  refine ⟨blank_inside rfl, ?_⟩
  have h := blank_limitOn (q := 4) rfl (by simp [Ex.limitArgs]) (ex_limitOn (floating := [2, 3]) (.inr rfl))
  have hg := h.given
  have hreg := inOrder_isDict hg.region
  obtain ⟨ns, hns⟩ := exists_roiNames (hg.able 0 (by simp [FitArgs.kept, Ex.limitArgs]))
  obtain ⟨c, hc⟩ := exists_contents hreg hg.able ns
  obtain ⟨G₀, hG₀⟩ := exists_statistics (Ex.limitArgs [2, 3]).stat (Ex.limitArgs [2, 3]).singleBin
    (Ex.limitArgs [2, 3]) (Ex.blankState 4 Ex.limitState) c 0 Ex.toInt
  obtain ⟨ses, st', w, u₀, h1, h2, h3, h4⟩ := c163_signal_floating_partial (env := Ex.fitEnv)
    (keyOf := Ex.keyOf) (rnd := Ex.toInt) (blank_inside (st := Ex.limitState) (q := 4) rfl) h
    (blank_evaluable ex_floatEvaluable) (blank_ownRates ex_floatRates) hns hc ex_blankSearch
    (.cons ⟨rfl, rfl⟩ (.cons ⟨rfl, rfl⟩ .nil)) (by
      intro ws hw x hx
      have : ws = [8] ∨ ws = [5] := by simpa using hw
      rcases this with rfl | rfl <;> simp at hx <;> subst hx <;> simp [Ex.toInt]) (fun u _ => hG₀ u)
  refine ⟨ses, st', w, h1, h2, ?_⟩
  have hu : u₀ = [8, 5] := by
    obtain ⟨idx, hv, -⟩ := h3
    match u₀, hv.comb with
    | _, .cons hx (.cons hy .nil) =>
      simp at hx hy
      rw [hx, hy]
  have hpen : (Ex.limitArgs [2, 3]).penaltyAt (Ex.blankState 4 Ex.limitState) u₀ = 1 := by
    have e : (Ex.limitArgs [2, 3]).parameters (Ex.blankState 4 Ex.limitState) = [0, 1] := rfl
    rw [hu]
    unfold FitArgs.penaltyAt
    rw [e]
    simp only [List.zipWith_cons_cons, List.zipWith_nil_left, List.sum_cons, List.sum_nil]
    show pull .pearson 8 10 2 + (0 + 0) = 1
    rw [pull, if_neg (by decide)]
    norm_num
  obtain ⟨x, hx, hmin, hlim⟩ := (h4 [] [4, 10, 20] (fun x hx h => by
      have hx : x ∈ ([4, 10, 20] : List ℝ) := by simpa [allScales] using hx
      exact (ex_limitScales (List.mem_append_right _ (List.mem_cons_of_mem _ hx)) h).2)
    (by simp) (by norm_num) [] (by simp) (1 / 2)).2 (by rw [hpen]; norm_num)
  obtain rfl : x = 4 := by
    have h5 := hmin 4 (by simp)
    have : x = 4 ∨ x = 10 ∨ x = 20 := by simpa using hx
    rcases this with rfl | rfl | rfl
    · rfl
    · norm_num at h5
    · norm_num at h5
  exact hlim

end Verif
