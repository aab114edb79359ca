import Verif.Lemmas.Fixing
import Verif.Props.Normalise

/-! # C161: a floating background with one possible rate is a fixed background -/

namespace Verif

open Session

variable {env : FitEnv} {keyOf : ℕ → PyStr} {a b : FitArgs} {ts ts' : List Spectrum} {r d q : ℕ}
  {l₁ l₂ : List ℕ} {st : FitState} {rnd : ℝ → ℚ} {g g' : GridSearch} {vs₁ vs₂ : List (List ℝ)}
  {vs : List ℝ} {x : ℝ}

theorem combination_split {u : List ℝ} (h : Combination (vs₁ ++ vs₂) u) :
    ∃ w₁ w₂, u = w₁ ++ w₂ ∧ Combination vs₁ w₁ ∧ Combination vs₂ w₂ := by
  obtain ⟨idx, hi⟩ := valuesAt_of_comb h
  obtain ⟨i₁, i₂, w₁, w₂, -, rfl, h₁, h₂⟩ := valuesAt_split hi
  exact ⟨w₁, w₂, rfl, h₁.comb, h₂.comb⟩

/-- The values `u` with `x` in the place of the background that is fixed. -/
noncomputable def withValue (n : ℕ) (x : ℝ) (u : List ℝ) : List ℝ := u.take n ++ x :: u.drop n

theorem withValue_append {w₁ w₂ : List ℝ} {n : ℕ} (h : w₁.length = n) :
    withValue n x (w₁ ++ w₂) = w₁ ++ x :: w₂ := by
  subst h
  simp [withValue]

theorem fixing_background (hf : a.Fixing b l₁ q l₂ (rnd x)) (hlen : vs₁.length = l₁.length)
    (c : ℕ → NdArray ℚ) (shape : List ℕ) {u : List ℝ} (hu : Combination (vs₁ ++ vs₂) u) :
    b.backgroundAt st c shape (u.map rnd) =
      a.backgroundAt st c shape ((withValue vs₁.length x u).map rnd) := by
  obtain ⟨w₁, w₂, rfl, h₁, h₂⟩ := combination_split hu
  rw [withValue_append h₁.length_eq, List.map_append, List.map_append, List.map_cons,
    hf.backgroundAt (by rw [List.length_map, h₁.length_eq, hlen])]

/-- What the two fits find, when the floating background may have the rates `vs`. -/
theorem fixing_found (hf : a.Fixing b l₁ q l₂ (rnd x)) (hne : l₁ ++ l₂ ≠ []) (hg : a.Given ts st)
    (hg' : b.Given ts' st) (he : a.Evaluable env keyOf d st) (hs : a.Settings st)
    (ho : a.OwnRates st) (hl : (st.view d).cfg.length ≤ a.roi.length + 1)
    (hlen : vs₁.length = l₁.length)
    (hsearch : RateSearch rnd g (vs₁ ++ vs :: vs₂) a.floating.length)
    (hsearch' : RateSearch rnd g' (vs₁ ++ vs₂) b.floating.length)
    (hex : ∀ ws ∈ vs₁ ++ vs :: vs₂, ∀ y ∈ ws, ((rnd y : ℚ) : ℝ) = y) :
    ∃ G : List ℝ → ℝ, ∃ ses₁ st₁ g₁ raw₁ pen₁ u₁ ses₂ st₂ g₂ raw₂ pen₂ u₂,
      init keyOf a st = (st₁, .ok ses₁) ∧ init keyOf b st = (st₂, .ok ses₂) ∧
      (ses₁.fit (fun f => fitGrid env f rnd g) st₁).2 = .ok (.inr (g₁, raw₁, pen₁)) ∧
      (ses₂.fit (fun f => fitGrid env f rnd g') st₂).2 = .ok (.inr (g₂, raw₂, pen₂)) ∧
      FirstBest (vs₁ ++ vs :: vs₂) (fun u => G u + a.penaltyAt st u) u₁ ∧
      FirstBest (vs₁ ++ vs₂) (fun u => G (withValue vs₁.length x u) + b.penaltyAt st u) u₂ ∧
      g₁.pars.map FitPar.bestFit = u₁.map some ∧ g₂.pars.map FitPar.bestFit = u₂.map some ∧
      raw₁.ravel = [G u₁] ∧ raw₂.ravel = [G (withValue vs₁.length x u₂)] ∧
      pen₁.ravel = [a.penaltyAt st u₁] ∧ pen₂.ravel = [b.penaltyAt st u₂] := by
  have hreg := inOrder_isDict hg.region
  have hdk : d ∈ a.kept := by simp [FitArgs.kept, he.data]
  obtain ⟨ns, hns⟩ := exists_roiNames (hg.able d (List.mem_append_left _ hdk))
  obtain ⟨c, hc⟩ := exists_contents hreg hg.able ns
  obtain ⟨G, hG⟩ := exists_statistics a.stat a.singleBin a st c d rnd
  have e1 : b.roi = a.roi := by rw [hf.rest]
  have e2 : b.stat = a.stat := by rw [hf.rest]
  have e3 : b.singleBin = a.singleBin := by rw [hf.rest]
  obtain ⟨ses₁, st₁, g₁, raw₁, pen₁, u₁, i1, i2, i3, i4, i5, i6⟩ :=
    fit_found hg he hs ho hl hns hc hsearch hex fun u _ => hG u
  obtain ⟨ses₂, st₂, g₂, raw₂, pen₂, u₂, j1, j2, j3, j4, j5, j6⟩ :=
    fit_found hg' (hf.evaluable he) (hf.settings hne ho hs) (hf.ownRates hne ho) (by rw [e1]; exact hl)
      (by rw [e1]; exact hns) (fun r hr => by rw [e1]; exact hc r (hf.mem_spectra hr)) hsearch'
      (fun ws hw => hex ws (by simp only [List.mem_append, List.mem_cons] at hw ⊢; tauto))
      (G := fun u => G (withValue vs₁.length x u)) fun u hu => by
        rw [e2, e3, fixing_background hf hlen c _ hu]
        exact hG _
  exact ⟨G, ses₁, st₁, g₁, raw₁, pen₁, u₁, ses₂, st₂, g₂, raw₂, pen₂, u₂, i1, j1, i2, j2, i3, j3, i4, j4,
    i5, j5, i6, j6⟩

/-- **C161, fits.** A fit by grid search is made from data, floating backgrounds with one rate each, and
perhaps fixed backgrounds and a signal. One of the rates has the single value `x`. Another fit is made
from the same spectra with this background given as a fixed one, with `x` decays. Then both find the same
values of the other rates and the same statistic, and the first one finds `x` in the place of the
background; its penalty is larger by that of the rate at `x`. (Partial: the suppositions of C62 and C99;
at most one axis is projected out; the values of the rates are not rounded.) -/
theorem c161_fit_partial (hf : a.Fixing b l₁ q l₂ (rnd x)) (hne : l₁ ++ l₂ ≠ []) (hg : a.Given ts st)
    (hg' : b.Given ts' st) (he : a.Evaluable env keyOf d st) (hs : a.Settings st)
    (ho : a.OwnRates st) (hl : (st.view d).cfg.length ≤ a.roi.length + 1)
    (hlen : vs₁.length = l₁.length)
    (hsearch : RateSearch rnd g (vs₁ ++ [x] :: vs₂) a.floating.length)
    (hsearch' : RateSearch rnd g' (vs₁ ++ vs₂) b.floating.length)
    (hex : ∀ ws ∈ vs₁ ++ [x] :: vs₂, ∀ y ∈ ws, ((rnd y : ℚ) : ℝ) = y) :
    ∃ ses₁ st₁ g₁ raw₁ pen₁ ses₂ st₂ g₂ raw₂ pen₂ w₁ w₂ t p,
      init keyOf a st = (st₁, .ok ses₁) ∧ init keyOf b st = (st₂, .ok ses₂) ∧
      (ses₁.fit (fun f => fitGrid env f rnd g) st₁).2 = .ok (.inr (g₁, raw₁, pen₁)) ∧
      (ses₂.fit (fun f => fitGrid env f rnd g') st₂).2 = .ok (.inr (g₂, raw₂, pen₂)) ∧
      w₁.length = l₁.length ∧ g₁.pars.map FitPar.bestFit = (w₁ ++ x :: w₂).map some ∧
      g₂.pars.map FitPar.bestFit = (w₁ ++ w₂).map some ∧
      raw₁.ravel = [t] ∧ raw₂.ravel = [t] ∧
      pen₁.ravel = [a.ratePenalty st q x + p] ∧ pen₂.ravel = [p] := by
  obtain ⟨G, ses₁, st₁, g₁, raw₁, pen₁, u₁, ses₂, st₂, g₂, raw₂, pen₂, u₂, i1, i2, i3, i4, i5, i6, i7, i8,
    i9, i10, i11, i12⟩ := fixing_found hf hne hg hg' he hs ho hl hlen hsearch hsearch' hex
  obtain ⟨w₁, w₂, rfl, h1, -, k1, k2, h2⟩ := firstBest_insert (x := x)
    (F := fun u => G u + a.penaltyAt st u - a.ratePenalty st q x) (fun w₁ w₂ k1 k2 => by
      rw [withValue_append k1.length_eq, hf.penaltyAt ho (k1.length_eq.trans hlen).symm]
      ring) i6
  have hu : w₁ ++ x :: w₂ = u₁ := by
    refine FirstBest.unique (F := fun u => G u + a.penaltyAt st u) (fun _ _ => rfl) i5 ?_
    obtain ⟨idx, m1, m2⟩ := h2
    refine ⟨idx, m1, fun idx' u' hu' => ?_⟩
    obtain ⟨n1, n2⟩ := m2 idx' u' hu'
    dsimp only at n1 n2 ⊢
    exact ⟨by linarith, fun e => n2 (by linarith)⟩
  subst hu
  rw [withValue_append h1] at i10
  rw [hf.penaltyAt ho (h1.trans hlen).symm] at i11
  exact ⟨ses₁, st₁, g₁, raw₁, pen₁, ses₂, st₂, g₂, raw₂, pen₂, w₁, w₂, _, _, i1, i2, i3, i4,
    h1.trans hlen, i7, i8, i9, i10, i11, i12⟩

/-- **C161, more values.** When the rate has other values beside `x`, the fit with the floating background
is at least as good: statistic plus penalty are at most those of the fit with the background fixed to `x`
decays, with the penalty of the rate at `x` added. (Partial: as before.) -/
theorem c161_better_partial (hf : a.Fixing b l₁ q l₂ (rnd x)) (hne : l₁ ++ l₂ ≠ []) (hg : a.Given ts st)
    (hg' : b.Given ts' st) (he : a.Evaluable env keyOf d st) (hs : a.Settings st)
    (ho : a.OwnRates st) (hl : (st.view d).cfg.length ≤ a.roi.length + 1) (hx : x ∈ vs)
    (hlen : vs₁.length = l₁.length)
    (hsearch : RateSearch rnd g (vs₁ ++ vs :: vs₂) a.floating.length)
    (hsearch' : RateSearch rnd g' (vs₁ ++ vs₂) b.floating.length)
    (hex : ∀ ws ∈ vs₁ ++ vs :: vs₂, ∀ y ∈ ws, ((rnd y : ℚ) : ℝ) = y) :
    ∃ ses₁ st₁ g₁ raw₁ pen₁ ses₂ st₂ g₂ raw₂ pen₂,
      init keyOf a st = (st₁, .ok ses₁) ∧ init keyOf b st = (st₂, .ok ses₂) ∧
      (ses₁.fit (fun f => fitGrid env f rnd g) st₁).2 = .ok (.inr (g₁, raw₁, pen₁)) ∧
      (ses₂.fit (fun f => fitGrid env f rnd g') st₂).2 = .ok (.inr (g₂, raw₂, pen₂)) ∧
      ∃ t₁ p₁ t₂ p₂, raw₁.ravel = [t₁] ∧ pen₁.ravel = [p₁] ∧ raw₂.ravel = [t₂] ∧ pen₂.ravel = [p₂] ∧
        t₁ + p₁ ≤ t₂ + p₂ + a.ratePenalty st q x := by
  obtain ⟨G, ses₁, st₁, g₁, raw₁, pen₁, u₁, ses₂, st₂, g₂, raw₂, pen₂, u₂, i1, i2, i3, i4, i5, i6, i7, i8,
    i9, i10, i11, i12⟩ := fixing_found hf hne hg hg' he hs ho hl hlen hsearch hsearch' hex
  refine ⟨ses₁, st₁, g₁, raw₁, pen₁, ses₂, st₂, g₂, raw₂, pen₂, i1, i2, i3, i4, _, _, _, _, i9, i11, i10,
    i12, ?_⟩
  obtain ⟨idx, h1, -⟩ := i6
  obtain ⟨w₁, w₂, rfl, k1, k2⟩ := combination_split h1.comb
  have hc : Combination (vs₁ ++ vs :: vs₂) (w₁ ++ x :: w₂) := List.rel_append k1 (.cons hx k2)
  obtain ⟨j, hj⟩ := valuesAt_of_comb hc
  obtain ⟨i, -, i5⟩ := i5
  have := (i5 j _ hj).1
  dsimp only at this
  rw [hf.penaltyAt ho (k1.length_eq.trans hlen).symm] at this
  rw [withValue_append k1.length_eq]
  linarith

theorem FitArgs.Fixing.withSignal {v : ℚ} (hf : a.Fixing b l₁ q l₂ v) (r : ℕ) :
    (a.withSignal r).Fixing (b.withSignal r) l₁ q l₂ v where
  floating := hf.floating
  fixed := hf.fixed
  rest := congrArg (fun e : FitArgs => e.withSignal r) hf.rest

/-- **C161, limits.** A fit by grid search is made from data, fixed and floating backgrounds with a rate
each, one of which has the single value `x`, and a limit from it and a signal. Another fit is made with
this background given as a fixed one, with `x` decays, and a limit from it and the same signal. Then the
outcomes are the same, whatever limits have been set or statistics asked for before, when the threshold of
the first one is larger by the penalty of the rate at `x`; so they are the same for the same threshold
when the rate has no sigma or `x` is its prior. (Partial: as before.) -/
theorem c161_limit_partial (hf : a.Fixing b l₁ q l₂ (rnd x)) (hne : l₁ ++ l₂ ≠ [])
    (h : a.LimitOn r d ts st) (h' : b.LimitOn r d ts' st)
    (he : (a.withSignal r).Evaluable env keyOf d st) (ho : a.OwnRates st)
    (hlen : vs₁.length = l₁.length)
    (hsearch : RateSearch rnd g (vs₁ ++ [x] :: vs₂) a.floating.length)
    (hsearch' : RateSearch rnd g' (vs₁ ++ vs₂) b.floating.length)
    (hsame : List.Forall₂ (fun p (q : FitPar) => q.prior = (st.params p).prior ∧
      q.sigma = (st.params p).sigma) (a.parameters st) g.pars)
    (hsame' : List.Forall₂ (fun p (q : FitPar) => q.prior = (st.params p).prior ∧
      q.sigma = (st.params p).sigma) (b.parameters st) g'.pars)
    (hex : ∀ ws ∈ vs₁ ++ [x] :: vs₂, ∀ y ∈ ws, ((rnd y : ℚ) : ℝ) = y) :
    ∃ ses₁ st₁ f₁ ses₂ st₂ f₂,
      init keyOf a st = (st₁, .ok ses₁) ∧ init keyOf b st = (st₂, .ok ses₂) ∧
      Fitter.limitInit ⟨ses₁, st₁, g⟩ r true = (f₁, .ok ()) ∧
      Fitter.limitInit ⟨ses₂, st₂, g'⟩ r true = (f₂, .ok ()) ∧
      ∀ (calls₁ calls₂ : List LimitCall) (scales : List ℝ), Testable rnd (allScales calls₁ ++ scales) →
      Testable rnd (allScales calls₂ ++ scales) → scales ≠ [] → scales.Pairwise (· < ·) →
      ∀ (sigmas : List (Option ℝ)), (∀ s ∈ sigmas, s ≠ none) → ∀ (limit : ℝ),
      ((f₁.afterCalls env rnd r calls₁).limitOf env rnd r scales sigmas none
          (limit + a.ratePenalty st q x)).2 =
        ((f₂.afterCalls env rnd r calls₂).limitOf env rnd r scales sigmas none limit).2 := by
  have hg := h.given
  have hreg := inOrder_isDict hg.region
  have hdm : d ∈ (a.withSignal r).kept ++ a.fixed.map Prod.fst := by simp [FitArgs.kept, h.data]
  have hrm : r ∈ (a.withSignal r).kept ++ a.fixed.map Prod.fst := by simp [FitArgs.kept]
  have hfs := hf.withSignal r
  obtain ⟨ns, hns⟩ := exists_roiNames (hg.able d hdm)
  obtain ⟨c, hc⟩ := exists_contents hreg hg.able ns
  have hshape : (c r).shape = (c d).shape :=
    same_shape hreg (hg.able d hdm) (hg.able r hrm) (h.axes r hrm) (hc d hdm) (hc r hrm)
  have e1 : b.roi = a.roi := by rw [hf.rest]
  have e2 : b.stat = a.stat := by rw [hf.rest]
  have e3 : b.singleBin = a.singleBin := by rw [hf.rest]
  obtain ⟨ses₁, st₁, f₁, i1, i2, i3⟩ := c147_floating_partial (rnd := rnd) h he ho hns hc hsearch hsame hex
  obtain ⟨ses₂, st₂, f₂, j1, j2, j3⟩ := c147_floating_partial (rnd := rnd) h' (hfs.evaluable he)
    (hf.ownRates hne ho) (by rw [e1]; exact hns)
    (fun s hs => by rw [e1]; exact hc s (hfs.mem_spectra hs)) hsearch' hsame'
    (fun ws hw => hex ws (by simp only [List.mem_append, List.mem_cons] at hw ⊢; tauto))
  refine ⟨ses₁, st₁, f₁, ses₂, st₂, f₂, i1, j1, i2, j2, ?_⟩
  intro calls₁ calls₂ scales ht₁ ht₂ hsc hs sigmas hsig limit
  obtain ⟨G₀, hG₀⟩ := exists_statistics a.stat a.singleBin a st c d rnd
  have hG : ∀ (x : ℝ) (u : List ℝ), ∃ v, (npCloseReal x 0 → v = G₀ u) ∧ (¬ npCloseReal x 0 →
      a.stat.Total (comparedContents a.singleBin (c d))
        (expectedAt (comparedContents a.singleBin (a.backgroundAt st c (c d).shape (u.map rnd)))
          (comparedContents a.singleBin (c r)) ((rnd x : ℝ) / ((st.view r).numDecays : ℝ))) v) := by
    intro x u
    by_cases hx : npCloseReal x 0
    · exact ⟨G₀ u, fun _ => rfl, fun h => absurd hx h⟩
    · obtain ⟨v, hv⟩ := exists_total a.stat (expected_length (sb := a.singleBin) (o := c d)
        (b := a.backgroundAt st c (c d).shape (u.map rnd)) rfl hshape
        ((rnd x : ℝ) / ((st.view r).numDecays : ℝ)))
      exact ⟨v, fun h => absurd h hx, fun _ => hv⟩
  choose G hG using hG
  obtain ⟨u₀, u, m1, m2, t, ht, k1, k2⟩ := i3 calls₁ scales ht₁ hsc hs G₀ G (fun u _ => hG₀ u)
    (fun x _ u _ => hG x u) sigmas hsig (limit + a.ratePenalty st q x)
  obtain ⟨u₀', u', m1', m2', t', ht', k1', k2'⟩ := j3 calls₂ scales ht₂ hsc hs
    (fun u => G₀ (withValue vs₁.length x u)) (fun y u => G y (withValue vs₁.length x u))
    (fun u hu => by rw [e2, e3, fixing_background hf hlen c _ hu]; exact hG₀ _)
    (fun y _ u hu => by
      rw [e2, e3, fixing_background hf hlen c _ hu]
      exact hG y _) sigmas hsig limit
  have key : ∀ {F : List ℝ → ℝ} {v v' : List ℝ},
      FirstBest (vs₁ ++ [x] :: vs₂) (fun u => F u + a.penaltyAt st u) v →
      FirstBest (vs₁ ++ vs₂) (fun u => F (withValue vs₁.length x u) + b.penaltyAt st u) v' →
      withValue vs₁.length x v' = v ∧ a.penaltyAt st v = a.ratePenalty st q x + b.penaltyAt st v' := by
    intro F v v' hv hv'
    obtain ⟨w₁, w₂, rfl, h1, -, k1, k2, h2⟩ := firstBest_insert (x := x)
      (F := fun u => F u + a.penaltyAt st u - a.ratePenalty st q x) (fun w₁ w₂ k1 k2 => by
        rw [withValue_append k1.length_eq, hf.penaltyAt ho (k1.length_eq.trans hlen).symm]
        ring) hv'
    have hu : w₁ ++ x :: w₂ = v := by
      refine FirstBest.unique (F := fun u => F u + a.penaltyAt st u) (fun _ _ => rfl) hv ?_
      obtain ⟨idx, m1, m2⟩ := h2
      refine ⟨idx, m1, fun idx' u' hu' => ?_⟩
      obtain ⟨n1, n2⟩ := m2 idx' u' hu'
      dsimp only at n1 n2 ⊢
      exact ⟨by linarith, fun e => n2 (by linarith)⟩
    subst hu
    exact ⟨withValue_append h1, hf.penaltyAt ho (h1.trans hlen).symm x⟩
  obtain ⟨z₀, -⟩ := key m1 m1'
  have hG' : ∀ y ∈ scales, G y (withValue vs₁.length x (u' y)) = G y (u y) := fun y hy => by
    rw [(key (m2 y hy) (m2' y hy)).1]
  have hpen : ∀ y ∈ scales, a.penaltyAt st (u y) = a.ratePenalty st q x + b.penaltyAt st (u' y) :=
    fun y hy => (key (m2 y hy) (m2' y hy)).2
  have htt : t = t' := by
    obtain ⟨m1, m2⟩ := ht.2 t' ht'.1
    obtain ⟨n1, n2⟩ := ht'.2 t ht.1
    dsimp only at n1 n2
    rw [hG' _ ht.1, hG' _ ht'.1] at n1 n2
    have e := le_antisymm m1 n1
    exact le_antisymm (m2 e.symm) (n2 e)
  refine outcome_eq (F := fun y => G y (withValue vs₁.length x (u' y)) -
      G₀ (withValue vs₁.length x u₀') + b.penaltyAt st (u' y))
    (F' := fun y => G y (u y) - G₀ u₀ + a.penaltyAt st (u y) - a.ratePenalty st q x)
    (fun y hy => ?_) htt k1' k2' (fun y => ?_) ?_ hs ht'.1
  · rw [hG' y hy, hpen y hy, z₀]
    ring
  · rw [k1 y]
    unfold FirstCrossing
    simp only [lt_sub_iff_add_lt, sub_le_iff_le_add]
  · rw [k2]
    simp only [sub_le_iff_le_add]

/-! ### cases that meet the hypotheses -/

namespace Ex

/-- The second rate has one value, 5. -/
def fixingSearch : GridSearch :=
  GridSearch.new [gridPar (lit "rate") (some 2) [8, 10], gridPar (lit "rate") none [5]] [4]
    (some (lit "fit")) false

/-- The second rate is not searched for. -/
def fixedSearch : GridSearch :=
  GridSearch.new [gridPar (lit "rate") (some 2) [8, 10]] [4] (some (lit "fit")) false

/-- The second background is fixed to 5 decays. -/
def fixing (a : FitArgs) : FitArgs := { a with floating := [2], fixed := [(1, 20), (3, 5)] }

end Ex

theorem ex_fixing {a : FitArgs} (h₁ : a.floating = [2, 3]) (h₂ : a.fixed = [(1, 20)]) :
    a.Fixing (Ex.fixing a) [2] 3 [] (Ex.toInt 5) where
  floating := h₁
  fixed := by
    rw [h₂, show Ex.toInt 5 = 5 by simp [Ex.toInt]]
    exact List.Perm.swap _ _ _
  rest := rfl

theorem ex_fixing_values {vs : List (List ℝ)} (h : vs = [[8, 10], [5]] ∨ vs = [[8, 10]]) {ws : List ℝ}
    (hw : ws ∈ vs) : ws = [8, 10] ∨ ws = [5] := by
  rcases h with rfl | rfl <;> simp at hw ⊢ <;> tauto

theorem ex_fixing_search {vs : List (List ℝ)} {g : GridSearch}
    (h : (vs = [[8, 10], [5]] ∧ g = Ex.fixingSearch) ∨ (vs = [[8, 10]] ∧ g = Ex.fixedSearch)) :
    RateSearch Ex.toInt g vs vs.length where
  ready := by rcases h with ⟨rfl, rfl⟩ | ⟨rfl, rfl⟩ <;> exact ⟨rfl, rfl⟩
  form := by rcases h with ⟨rfl, rfl⟩ | ⟨rfl, rfl⟩ <;> rfl
  values := by
    rcases h with ⟨rfl, rfl⟩ | ⟨rfl, rfl⟩
    · exact .cons rfl (.cons rfl .nil)
    · exact .cons rfl .nil
  counts := by
    rcases h with ⟨rfl, rfl⟩ | ⟨rfl, rfl⟩
    · exact .cons ⟨rfl, by simp⟩ (.cons ⟨rfl, by simp⟩ .nil)
    · exact .cons ⟨rfl, by simp⟩ .nil
  number := rfl
  nodup := by
    intro ws hw
    rcases ex_fixing_values (h.imp And.left And.left) hw with rfl | rfl <;> norm_num
  injective := by
    intro ws hw x hx y hy
    rcases ex_fixing_values (h.imp And.left And.left) hw with rfl | rfl
    · have hx : x = 8 ∨ x = 10 := by simpa using hx
      have hy : y = 8 ∨ y = 10 := by simpa using hy
      rcases hx with rfl | rfl <;> rcases hy with rfl | rfl <;> simp [Ex.toInt]
    · have hx : x = 5 := by simpa using hx
      have hy : y = 5 := by simpa using hy
      rw [hx, hy]
      exact fun _ => rfl
  nonzero := by
    intro ws hw x hx
    rcases ex_fixing_values (h.imp And.left And.left) hw with rfl | rfl
    · have hx : x = 8 ∨ x = 10 := by simpa using hx
      rcases hx with rfl | rfl <;> simp [Ex.toInt]
    · have hx : x = 5 := by simpa using hx
      rw [hx]
      simp [Ex.toInt]
  sigmas := by
    intro p hp
    have : p = Ex.gridPar (lit "rate") (some 2) [8, 10] ∨ p = Ex.gridPar (lit "rate") none [5] := by
      rcases h with ⟨rfl, rfl⟩ | ⟨rfl, rfl⟩
      · simpa [Ex.fixingSearch, GridSearch.new] using hp
      · exact .inl (by simpa [Ex.fixedSearch, GridSearch.new] using hp)
    rcases this with rfl | rfl <;> simp [Ex.gridPar]

theorem ex_fixing_unrounded : ∀ ws ∈ [[8, 10]] ++ [5] :: ([] : List (List ℝ)), ∀ y ∈ ws,
    ((Ex.toInt y : ℚ) : ℝ) = y := by
  intro ws hw y hy
  rcases ex_fixing_values (.inl rfl) hw with rfl | rfl
  · have hy : y = 8 ∨ y = 10 := by simpa using hy
    rcases hy with rfl | rfl <;> simp [Ex.toInt]
  · have hy : y = 5 := by simpa using hy
    rw [hy]
    simp [Ex.toInt]

theorem ex_fixing_suppliable {u : FitState} (h : ∀ r < 5, u.view r = Ex.fitState.view r ∨ r = 0 ∨ r = 4)
    (hcfg : ∀ r, (u.objs r).cfg = (Ex.fitObj r).cfg) (hn : u.next = 5) :
    Suppliable (inOrder [(lit "energy", ((2 : ℚ), (1 : ℚ)))]) [(1, 20), (3, 5)]
      [(((Ex.fitState.view 1).shrink exFitKw).st.scale 20).st,
        (((Ex.fitState.view 3).shrink exFitKw).st.scale 5).st] u := by
  have h1 : u.view 1 = Ex.fitState.view 1 := (h 1 (by omega)).resolve_right (by omega)
  have h3 : u.view 3 = Ex.fitState.view 3 := (h 3 (by omega)).resolve_right (by omega)
  rw [exInit_roi]
  have hv : ∀ e ∈ [((1 : ℕ), (20 : ℚ)), (3, 5)], (u.view e.1).cfg = [Ex.fitAxis] := by
    intro e he
    have : e = (1, 20) ∨ e = (3, 5) := by simpa using he
    rcases this with rfl | rfl
    · rw [h1]; rfl
    · rw [h3]; rfl
  refine ⟨?_, ?_, by unfold IsDict; decide, fun e he => by rw [hv e he]; exact fitAxis_dims,
    fun e he => by rw [hv e he]; simp, .cons ?_ (.cons ?_ .nil), ?_⟩
  · intro r hr
    have : r = 1 ∨ r = 3 := by simpa using hr
    rw [hn]
    omega
  · simp only [List.map_cons, List.map_nil, hcfg]
    decide
  · rw [h1]
    exact ⟨exFitKw, exFit_asks, by decide +kernel, rfl, by decide +kernel⟩
  · rw [h3]
    exact ⟨exFitKw, exFit_asks, by decide +kernel, rfl, by decide +kernel⟩
  · have key : ((((Ex.fitState.view 1).shrink exFitKw).st.scale 20).st).cfg =
        ((((Ex.fitState.view 3).shrink exFitKw).st.scale 5).st).cfg ∧
        ((((Ex.fitState.view 1).shrink exFitKw).st.scale 20).st).data.shape =
        ((((Ex.fitState.view 3).shrink exFitKw).st.scale 5).st).data.shape := by decide +kernel
    intro t ht t' ht'
    simp only [List.mem_cons, List.not_mem_nil, or_false] at ht ht'
    rcases ht with rfl | rfl <;> rcases ht' with rfl | rfl
    · exact ⟨rfl, rfl⟩
    · exact ⟨key.1.symm, key.2.symm⟩
    · exact key
    · exact ⟨rfl, rfl⟩

theorem made_fixing_given : (Ex.fixing exWhole).Given
    [(((Ex.fitState.view 1).shrink exFitKw).st.scale 20).st,
      (((Ex.fitState.view 3).shrink exFitKw).st.scale 5).st] Ex.madeState where
  region := made_given.region
  some := by simp [exWhole, Ex.fixing]
  alloc := by
    intro r hr
    refine made_given.alloc r ?_
    have : r = 0 ∨ r = 4 ∨ r = 2 := by simpa [FitArgs.kept, exWhole, Ex.fixing] using hr
    simp [FitArgs.kept, exWhole]
    omega
  own := by
    show (([0, 4, 2] ++ [1, 3]).map (fun r => (Ex.madeState.objs r).cfg)).Nodup
    decide
  able := by
    intro r hr
    refine made_given.able r ?_
    have : r = 0 ∨ r = 4 ∨ r = 2 ∨ r = 1 ∨ r = 3 := by
      simpa [FitArgs.kept, exWhole, Ex.fixing] using hr
    simp [FitArgs.kept, exWhole]
    omega
  fixed := ex_fixing_suppliable (by
      intro r hr
      by_cases h : r = 0
      · exact .inr (.inl h)
      · refine .inl ?_
        simp [FitState.view, Ex.madeState, Ex.fitState, h]) (by
      intro r
      by_cases h : r = 0
      · subst h; rfl
      · simp [Ex.madeState, h]) rfl

/-- One of the two rates has one value; the fit with this background fixed finds the same. -/
example : ∃ ses₁ st₁ g₁ raw₁ pen₁ ses₂ st₂ g₂ raw₂ pen₂ w₁ w₂ t p,
    init Ex.keyOf exWhole Ex.madeState = (st₁, .ok ses₁) ∧
    init Ex.keyOf (Ex.fixing exWhole) Ex.madeState = (st₂, .ok ses₂) ∧
    (ses₁.fit (fun f => fitGrid Ex.fitEnv f Ex.toInt Ex.fixingSearch) st₁).2 =
      .ok (.inr (g₁, raw₁, pen₁)) ∧
    (ses₂.fit (fun f => fitGrid Ex.fitEnv f Ex.toInt Ex.fixedSearch) st₂).2 =
      .ok (.inr (g₂, raw₂, pen₂)) ∧
    w₁.length = [2].length ∧ g₁.pars.map FitPar.bestFit = (w₁ ++ 5 :: w₂).map some ∧
    g₂.pars.map FitPar.bestFit = (w₁ ++ w₂).map some ∧
    raw₁.ravel = [t] ∧ raw₂.ravel = [t] ∧
    pen₁.ravel = [exWhole.ratePenalty Ex.madeState 3 5 + p] ∧ pen₂.ravel = [p] :=
  c161_fit_partial (vs₁ := [[8, 10]]) (vs₂ := []) (ex_fixing rfl rfl) (by simp) made_given
    made_fixing_given made_evaluable made_settings made_ratesOnly.toOwnRates
    (by simp [FitState.view, Ex.madeState, Ex.fitState, exWhole]) rfl
    (ex_fixing_search (.inl ⟨rfl, rfl⟩)) (ex_fixing_search (.inr ⟨rfl, rfl⟩)) ex_fixing_unrounded

/-- The second rate may be 7, 5 or 3. -/
example : ∃ ses₁ st₁ g₁ raw₁ pen₁ ses₂ st₂ g₂ raw₂ pen₂,
    init Ex.keyOf exWhole Ex.madeState = (st₁, .ok ses₁) ∧
    init Ex.keyOf (Ex.fixing exWhole) Ex.madeState = (st₂, .ok ses₂) ∧
    (ses₁.fit (fun f => fitGrid Ex.fitEnv f Ex.toInt Ex.closedSearch) st₁).2 =
      .ok (.inr (g₁, raw₁, pen₁)) ∧
    (ses₂.fit (fun f => fitGrid Ex.fitEnv f Ex.toInt Ex.fixedSearch) st₂).2 =
      .ok (.inr (g₂, raw₂, pen₂)) ∧
    ∃ t₁ p₁ t₂ p₂, raw₁.ravel = [t₁] ∧ pen₁.ravel = [p₁] ∧ raw₂.ravel = [t₂] ∧ pen₂.ravel = [p₂] ∧
      t₁ + p₁ ≤ t₂ + p₂ + exWhole.ratePenalty Ex.madeState 3 5 :=
  c161_better_partial (vs₁ := [[8, 10]]) (vs := [7, 5, 3]) (vs₂ := []) (ex_fixing rfl rfl) (by simp)
    made_given made_fixing_given made_evaluable made_settings made_ratesOnly.toOwnRates
    (by simp [FitState.view, Ex.madeState, Ex.fitState, exWhole]) (by simp) rfl
    made_search (ex_fixing_search (.inr ⟨rfl, rfl⟩)) made_unrounded

theorem limit_fixing : (Ex.fixing (Ex.limitArgs [2, 3])).LimitOn 4 0
    [(((Ex.fitState.view 1).shrink exFitKw).st.scale 20).st,
      (((Ex.fitState.view 3).shrink exFitKw).st.scale 5).st] Ex.limitState := by
  have h := ex_limitOn (floating := [2, 3]) (.inr rfl)
  have hg := h.given
  refine ⟨⟨hg.region, hg.some, ?_, ?_, ?_, ?_⟩, ?_, rfl, rfl, fun _ _ => rfl, h.fit, h.decays, h.region⟩
  · intro r hr
    refine hg.alloc r ?_
    have : r = 0 ∨ r = 4 ∨ r = 2 := by simpa [FitArgs.kept, Ex.limitArgs, Ex.fixing] using hr
    simp [FitArgs.kept, Ex.limitArgs]
    omega
  · show (([0, 4, 2] ++ [1, 3]).map (fun r => (Ex.limitState.objs r).cfg)).Nodup
    decide
  · intro r hr
    refine hg.able r ?_
    have : r = 0 ∨ r = 4 ∨ r = 2 ∨ r = 1 ∨ r = 3 := by
      simpa [FitArgs.kept, Ex.limitArgs, Ex.fixing] using hr
    simp [FitArgs.kept, Ex.limitArgs]
    omega
  · exact ex_fixing_suppliable (by
      intro r hr
      by_cases h : r = 4
      · exact .inr (.inr h)
      · refine .inl ?_
        simp [FitState.view, Ex.limitState, Ex.fitState, h]) (by
      intro r
      by_cases h : r = 4
      · subst h; rfl
      · simp [Ex.limitState, h]) rfl
  · exact
      { floating := fun _ => .inr ⟨2, by simp [Ex.limitArgs, Ex.fixing], by simp [Ex.limitState, Ex.fitObj]⟩
        fixed := by simp [Ex.limitArgs, Ex.fixing]
        dimension := by simp [Ex.limitArgs, Ex.fixing]
        perBin := by simp [Ex.limitArgs, Ex.fixing] }

/-- The limits are the same; the rate has no sigma. -/
example : ∃ ses₁ st₁ f₁ ses₂ st₂ f₂,
    init Ex.keyOf (Ex.limitArgs [2, 3]) Ex.limitState = (st₁, .ok ses₁) ∧
    init Ex.keyOf (Ex.fixing (Ex.limitArgs [2, 3])) Ex.limitState = (st₂, .ok ses₂) ∧
    Fitter.limitInit ⟨ses₁, st₁, Ex.fixingSearch⟩ 4 true = (f₁, .ok ()) ∧
    Fitter.limitInit ⟨ses₂, st₂, Ex.fixedSearch⟩ 4 true = (f₂, .ok ()) ∧
    ((f₁.afterCalls Ex.fitEnv Ex.toInt 4 []).limitOf Ex.fitEnv Ex.toInt 4 [0, 4, 10, 20] [] none 3).2 =
      ((f₂.afterCalls Ex.fitEnv Ex.toInt 4 [.statistics [4]]).limitOf Ex.fitEnv Ex.toInt 4
        [0, 4, 10, 20] [] none 3).2 := by
  obtain ⟨ses₁, st₁, f₁, ses₂, st₂, f₂, h1, h2, h3, h4, h5⟩ := c161_limit_partial (env := Ex.fitEnv)
    (keyOf := Ex.keyOf) (rnd := Ex.toInt) (x := 5) (vs₁ := [[8, 10]]) (vs₂ := []) (g := Ex.fixingSearch)
    (g' := Ex.fixedSearch) (ex_fixing rfl rfl) (by simp) (ex_limitOn (.inr rfl)) limit_fixing
    ex_floatEvaluable ex_floatRates rfl (ex_fixing_search (.inl ⟨rfl, rfl⟩))
    (ex_fixing_search (.inr ⟨rfl, rfl⟩)) (.cons ⟨rfl, rfl⟩ (.cons ⟨rfl, rfl⟩ .nil))
    (.cons ⟨rfl, rfl⟩ .nil) ex_fixing_unrounded
  refine ⟨ses₁, st₁, f₁, ses₂, st₂, f₂, h1, h2, h3, h4, ?_⟩
  have := h5 [] [.statistics [4]] [0, 4, 10, 20]
    (fun x hx h => (ex_limitScales (List.mem_append_right _ hx) h).2)
    (fun x hx h => (ex_limitScales hx h).2) (by simp) (by norm_num) [] (by simp) 3
  rw [show (Ex.limitArgs [2, 3]).ratePenalty Ex.limitState 3 5 = 0 by
    simp [FitArgs.ratePenalty, Ex.limitState, Ex.fitState, Ex.fitParam, Ex.fitObj], add_zero] at this
  exact this

end Verif
