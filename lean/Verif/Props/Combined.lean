import Verif.Lemmas.Combined
import Verif.Props.Blank

/-! # C166: fixed backgrounds may be combined before a fit -/

namespace Verif

open Session

variable {env : FitEnv} {keyOf : ℕ → PyStr} {a b : FitArgs} {ts ts' : List Spectrum} {r d q : ℕ}
  {st : FitState} {rnd : ℝ → ℚ} {g : GridSearch} {vss : List (List ℝ)}

/-- What is expected in the region, for both fits. -/
theorem SameTotal.compared (hw : a.SameTotal b d st) (hreg : IsDict (inOrder a.roi)) {ns : List PyStr}
    {c : ℕ → NdArray ℚ} (hd : CanShrink (inOrder a.roi) (st.view d))
    (hcd : RegionContents (inOrder a.roi) ns (st.view d) (c d))
    (ha : ∀ r ∈ a.fixed.map Prod.fst ++ b.fixed.map Prod.fst, CanShrink (inOrder a.roi) (st.view r) ∧
      (st.view r).cfg = (st.view d).cfg ∧ RegionContents (inOrder a.roi) ns (st.view r) (c r)) (sb : Bool) :
    comparedContents sb (b.fixedTotal st c (c d).shape) =
      comparedContents sb (a.fixedTotal st c (c d).shape) ∧
    ∀ u, comparedContents sb (b.backgroundAt st c (c d).shape u) =
      comparedContents sb (a.backgroundAt st c (c d).shape u) := by
  have key := fun idx (hi : InB (c d).shape idx) => hw.region rfl hreg hd hcd ha hi
  refine ⟨compared_congr sb rfl key, fun u => compared_congr sb rfl fun idx hi => ?_⟩
  have e1 : b.floating = a.floating := by rw [hw.rest]
  have e2 : b.signal = a.signal := by rw [hw.rest]
  show b.sumAt st u c idx = a.sumAt st u c idx
  unfold FitArgs.sumAt
  rw [e1, e2, key idx hi]

/-- **C166, fits.** A fit by grid search is made from data, floating backgrounds with one rate each, fixed
backgrounds and perhaps a signal, and another one with other fixed backgrounds whose scaled contents have
the same sum in every cell of the region. Then both find the same values of the rates, statistic and
penalty. (Partial: the suppositions of C99 and C62; at most one axis is projected out; the values of the
rates are not rounded.) -/
theorem c166_fit_partial (hw : a.SameTotal b d st) (hg : a.Given ts st) (hg' : b.Given ts' st)
    (he : a.Evaluable env keyOf d st)
    (hax : ∀ r ∈ b.fixed.map Prod.fst, (st.view r).cfg = (st.view d).cfg) (hs : a.Settings st)
    (ho : a.OwnRates st) (hl : (st.view d).cfg.length ≤ a.roi.length + 1)
    (hsearch : RateSearch rnd g vss a.floating.length)
    (hex : ∀ ws ∈ vss, ∀ y ∈ ws, ((rnd y : ℚ) : ℝ) = y) :
    ∃ ses₁ st₁ g₁ raw₁ pen₁ ses₂ st₂ g₂ raw₂ pen₂,
      init keyOf a st = (st₁, .ok ses₁) ∧ init keyOf b st = (st₂, .ok ses₂) ∧
      (ses₁.fit (fun f => fitGrid env f rnd g) st₁).2 = .ok (.inr (g₁, raw₁, pen₁)) ∧
      (ses₂.fit (fun f => fitGrid env f rnd g) st₂).2 = .ok (.inr (g₂, raw₂, pen₂)) ∧
      g₂.pars.map FitPar.bestFit = g₁.pars.map FitPar.bestFit ∧
      raw₂.ravel = raw₁.ravel ∧ pen₂.ravel = pen₁.ravel := by
  have hreg := inOrder_isDict hg.region
  have hdk : d ∈ a.kept := by simp [FitArgs.kept, he.data]
  have e1 : b.roi = a.roi := by rw [hw.rest]
  have e2 : b.stat = a.stat := by rw [hw.rest]
  have e3 : b.singleBin = a.singleBin := by rw [hw.rest]
  have e4 : b.floating = a.floating := by rw [hw.rest]
  obtain ⟨ns, hns⟩ := exists_roiNames (hg.able d (List.mem_append_left _ hdk))
  have hable : ∀ r ∈ a.kept ++ a.fixed.map Prod.fst ++ b.fixed.map Prod.fst,
      CanShrink (inOrder a.roi) (st.view r) := by
    intro r hr
    rcases List.mem_append.1 hr with hr | hr
    · exact hg.able r hr
    · exact e1 ▸ hg'.able r (List.mem_append_right _ hr)
  obtain ⟨c, hc⟩ := exists_contents hreg hable ns
  have hcmp := (SameTotal.compared hw hreg (hg.able d (List.mem_append_left _ hdk))
    (hc d (by simp [hdk])) (fun r hr => by
      rcases List.mem_append.1 hr with hr | hr
      · exact ⟨hable r (by simp only [List.mem_append]; tauto), he.axes r (List.mem_append_right _ hr),
          hc r (by simp only [List.mem_append]; tauto)⟩
      · exact ⟨hable r (by simp only [List.mem_append]; tauto), hax r hr,
          hc r (by simp only [List.mem_append]; tauto)⟩) a.singleBin).2
  obtain ⟨G, hG⟩ := exists_statistics a.stat a.singleBin a st c d rnd
  obtain ⟨ses₁, st₁, g₁, raw₁, pen₁, u₁, i1, i2, i3, i4, i5, i6⟩ :=
    fit_found hg he hs ho hl hns (fun r hr => hc r (List.mem_append_left _ hr)) hsearch hex fun u _ => hG u
  obtain ⟨ses₂, st₂, g₂, raw₂, pen₂, u₂, j1, j2, j3, j4, j5, j6⟩ :=
    fit_found hg' (hw.evaluable he hax) (hw.settings hs) (hw.ownRates ho)
      (by rw [e1]; exact hl) (by rw [e1]; exact hns)
      (fun r hr => by
        rw [e1]
        rw [hw.kept] at hr
        exact hc r (by simp only [List.mem_append] at hr ⊢; tauto)) (by rw [e4]; exact hsearch) hex
      (G := G) fun u hu => by
        rw [e2, e3, hcmp]
        exact hG _
  obtain rfl : u₂ = u₁ := FirstBest.unique (fun u _ => by rw [hw.penaltyAt]) i3 j3
  exact ⟨ses₁, st₁, g₁, raw₁, pen₁, ses₂, st₂, g₂, raw₂, pen₂, i1, j1, i2, j2, by rw [i4, j4],
    by rw [i5, j5], by rw [i6, j6, hw.penaltyAt]⟩

/-- **C166, limits.** As before, for limits set with the two fits and the same signal: the outcomes are
the same. (Partial: as before.) -/
theorem c166_limit_partial (hw : a.SameTotal b d st) (h : a.LimitOn r d ts st) (h' : b.LimitOn r d ts' st)
    (he : (a.withSignal r).Evaluable env keyOf d st) (ho : a.OwnRates st)
    (hsearch : RateSearch rnd g vss a.floating.length)
    (hsame : List.Forall₂ (fun p (q : FitPar) => q.prior = (st.params p).prior ∧
      q.sigma = (st.params p).sigma) (a.parameters st) g.pars)
    (hex : ∀ ws ∈ vss, ∀ y ∈ ws, ((rnd y : ℚ) : ℝ) = y) :
    ∃ ses₁ st₁ f₁ ses₂ st₂ f₂,
      init keyOf a st = (st₁, .ok ses₁) ∧ init keyOf b st = (st₂, .ok ses₂) ∧
      Fitter.limitInit ⟨ses₁, st₁, g⟩ r true = (f₁, .ok ()) ∧
      Fitter.limitInit ⟨ses₂, st₂, g⟩ r true = (f₂, .ok ()) ∧
      ∀ (calls₁ calls₂ : List LimitCall) (scales : List ℝ), Testable rnd (allScales calls₁ ++ scales) →
      Testable rnd (allScales calls₂ ++ scales) → scales ≠ [] → scales.Pairwise (· < ·) →
      ∀ (sigmas : List (Option ℝ)), (∀ s ∈ sigmas, s ≠ none) → ∀ (limit : ℝ),
      ((f₁.afterCalls env rnd r calls₁).limitOf env rnd r scales sigmas none limit).2 =
        ((f₂.afterCalls env rnd r calls₂).limitOf env rnd r scales sigmas none limit).2 := by
  have hg := h.given
  have hg' := h'.given
  have hreg := inOrder_isDict hg.region
  have hdm : d ∈ (a.withSignal r).kept ++ a.fixed.map Prod.fst := by simp [FitArgs.kept, h.data]
  have hrm : r ∈ (a.withSignal r).kept ++ a.fixed.map Prod.fst := by simp [FitArgs.kept]
  have hws := hw.withSignal r
  have e1 : b.roi = a.roi := by rw [hw.rest]
  have e2 : b.stat = a.stat := by rw [hw.rest]
  have e3 : b.singleBin = a.singleBin := by rw [hw.rest]
  have e4 : b.floating = a.floating := by rw [hw.rest]
  have e5 : b.parameters st = a.parameters st := by rw [hw.rest]; rfl
  have hax : ∀ r ∈ b.fixed.map Prod.fst, (st.view r).cfg = (st.view d).cfg := fun q hq =>
    h'.axes q (List.mem_append_right _ hq)
  obtain ⟨ns, hns⟩ := exists_roiNames (hg.able d hdm)
  have hable : ∀ q ∈ (a.withSignal r).kept ++ a.fixed.map Prod.fst ++ b.fixed.map Prod.fst,
      CanShrink (inOrder a.roi) (st.view q) := by
    intro q hq
    rcases List.mem_append.1 hq with hq | hq
    · exact hg.able q hq
    · exact e1 ▸ hg'.able q (List.mem_append_right _ hq)
  obtain ⟨c, hc⟩ := exists_contents hreg hable ns
  have hca : ∀ q ∈ (a.withSignal r).kept ++ a.fixed.map Prod.fst,
      RegionContents (inOrder a.roi) ns (st.view q) (c q) := fun q hq => hc q (List.mem_append_left _ hq)
  have hcmp := (SameTotal.compared hw hreg (hg.able d hdm)
    (hca d hdm) (fun q hq => by
      rcases List.mem_append.1 hq with hq | hq
      · exact ⟨hg.able q (List.mem_append_right _ hq), h.axes q (List.mem_append_right _ hq),
          hca q (List.mem_append_right _ hq)⟩
      · exact ⟨hable q (List.mem_append_right _ hq), hax q hq, hc q (List.mem_append_right _ hq)⟩)
    a.singleBin).2
  have hshape : (c r).shape = (c d).shape :=
    same_shape hreg (hg.able d hdm) (hg.able r hrm) (h.axes r hrm) (hca d hdm) (hca r hrm)
  obtain ⟨ses₁, st₁, f₁, i1, i2, i3⟩ := c147_floating_partial (rnd := rnd) h he ho hns hca hsearch hsame hex
  obtain ⟨ses₂, st₂, f₂, j1, j2, j3⟩ := c147_floating_partial (rnd := rnd) h' (hws.evaluable he hax)
    (hw.ownRates ho) (by rw [e1]; exact hns)
    (fun s hs => by
      rw [e1]
      rw [hws.kept] at hs
      exact hc s (by simp only [List.mem_append] at hs ⊢; tauto)) (by rw [e4]; exact hsearch)
    (by rw [e5]; exact hsame) hex
  refine ⟨ses₁, st₁, f₁, ses₂, st₂, f₂, i1, j1, i2, j2, ?_⟩
  intro calls₁ calls₂ scales ht₁ ht₂ hsc hs sigmas hsig limit
  obtain ⟨G₀, hG₀⟩ := exists_statistics a.stat a.singleBin a st c d rnd
  obtain ⟨G, hG⟩ := exists_signal_statistics a st hshape rnd G₀
  obtain ⟨u₀, u, m1, m2, t, ht, k1, k2⟩ := i3 calls₁ scales ht₁ hsc hs G₀ G (fun u _ => hG₀ u)
    (fun x _ u _ => hG x u) sigmas hsig limit
  obtain ⟨u₀', u', m1', m2', t', ht', k1', k2'⟩ := j3 calls₂ scales ht₂ hsc hs G₀ G
    (fun u hu => by rw [e2, e3, hcmp]; exact hG₀ _)
    (fun y _ u hu => by rw [e2, e3, hcmp]; exact hG y _) sigmas hsig limit
  obtain rfl : u₀' = u₀ := FirstBest.unique (fun u _ => by rw [hw.penaltyAt]) m1 m1'
  have hu : ∀ y ∈ scales, u' y = u y := fun y hy =>
    FirstBest.unique (fun u _ => by rw [hw.penaltyAt]) (m2 y hy) (m2' y hy)
  have htt : t = t' := by
    obtain ⟨m1, m2⟩ := ht.2 t' ht'.1
    obtain ⟨n1, n2⟩ := ht'.2 t ht.1
    dsimp only at n1 n2
    rw [hu _ ht.1, hu _ ht'.1] at n1 n2
    have e := le_antisymm m1 n1
    exact le_antisymm (m2 e.symm) (n2 e)
  refine outcome_eq (fun y hy => ?_) htt k1' k2' k1 k2 hs ht'.1
  rw [hu y hy, hw.penaltyAt]

/-- **C166, limits without floating backgrounds.** (Partial: the suppositions of C99; at most one axis is
projected out.) -/
theorem c166_counting_partial (hw : a.SameTotal b d st) (h : a.LimitOn r d ts st)
    (h' : b.LimitOn r d ts' st) (hfa : a.fixed ≠ []) (hfx : b.fixed ≠ []) (hfl : a.floating = [])
    (hstat : a.statPerBin = false) (g : GridSearch) (hpars : g.pars = []) :
    ∃ ses₁ st₁ f₁ ses₂ st₂ f₂,
      init keyOf a st = (st₁, .ok ses₁) ∧ init keyOf b st = (st₂, .ok ses₂) ∧
      Fitter.limitInit ⟨ses₁, st₁, g⟩ r true = (f₁, .ok ()) ∧
      Fitter.limitInit ⟨ses₂, st₂, g⟩ r true = (f₂, .ok ()) ∧
      ∀ (calls₁ calls₂ : List LimitCall) (scales : List ℝ), Testable rnd (allScales calls₁ ++ scales) →
      Testable rnd (allScales calls₂ ++ scales) → scales ≠ [] → scales.Pairwise (· < ·) →
      ∀ (sigmas : List (Option ℝ)), (∀ s ∈ sigmas, s ≠ none) → ∀ (limit : ℝ),
      ((f₁.afterCalls env rnd r calls₁).limitOf env rnd r scales sigmas none limit).2 =
        ((f₂.afterCalls env rnd r calls₂).limitOf env rnd r scales sigmas none limit).2 := by
  have hg := h.given
  have hg' := h'.given
  have hreg := inOrder_isDict hg.region
  have hdm : d ∈ (a.withSignal r).kept ++ a.fixed.map Prod.fst := by simp [FitArgs.kept, h.data]
  have hrm : r ∈ (a.withSignal r).kept ++ a.fixed.map Prod.fst := by simp [FitArgs.kept]
  have hws := hw.withSignal r
  have e1 : b.roi = a.roi := by rw [hw.rest]
  have e2 : b.stat = a.stat := by rw [hw.rest]
  have e3 : b.singleBin = a.singleBin := by rw [hw.rest]
  have hax : ∀ r ∈ b.fixed.map Prod.fst, (st.view r).cfg = (st.view d).cfg := fun q hq =>
    h'.axes q (List.mem_append_right _ hq)
  obtain ⟨ns, hns⟩ := exists_roiNames (hg.able d hdm)
  have hable : ∀ q ∈ (a.withSignal r).kept ++ a.fixed.map Prod.fst ++ b.fixed.map Prod.fst,
      CanShrink (inOrder a.roi) (st.view q) := by
    intro q hq
    rcases List.mem_append.1 hq with hq | hq
    · exact hg.able q hq
    · exact e1 ▸ hg'.able q (List.mem_append_right _ hq)
  obtain ⟨c, hc⟩ := exists_contents hreg hable ns
  have hca : ∀ q ∈ (a.withSignal r).kept ++ a.fixed.map Prod.fst,
      RegionContents (inOrder a.roi) ns (st.view q) (c q) := fun q hq => hc q (List.mem_append_left _ hq)
  have hcmp := (SameTotal.compared hw hreg (hg.able d hdm)
    (hca d hdm) (fun q hq => by
      rcases List.mem_append.1 hq with hq | hq
      · exact ⟨hg.able q (List.mem_append_right _ hq), h.axes q (List.mem_append_right _ hq),
          hca q (List.mem_append_right _ hq)⟩
      · exact ⟨hable q (List.mem_append_right _ hq), hax q hq, hc q (List.mem_append_right _ hq)⟩)
    a.singleBin).1
  have hshape : (c r).shape = (c d).shape :=
    same_shape hreg (hg.able d hdm) (hg.able r hrm) (h.axes r hrm) (hca d hdm) (hca r hrm)
  obtain ⟨ses₁, st₁, f₁, i1, i2, i3⟩ := c147_counting_partial (env := env) (keyOf := keyOf) (rnd := rnd)
    h hfa hfl hstat hns hca g hpars
  obtain ⟨ses₂, st₂, f₂, j1, j2, j3⟩ := c147_counting_partial (env := env) (keyOf := keyOf) (rnd := rnd)
    h' hfx (by rw [hw.rest]; exact hfl) (by rw [hw.rest]; exact hstat) (by rw [e1]; exact hns)
    (fun s hs => by
      rw [e1]
      rw [hws.kept] at hs
      exact hc s (by simp only [List.mem_append] at hs ⊢; tauto)) g hpars
  refine ⟨ses₁, st₁, f₁, ses₂, st₂, f₂, i1, j1, i2, j2, ?_⟩
  intro calls₁ calls₂ scales ht₁ ht₂ hsc hs sigmas hsig limit
  obtain ⟨F₀, hF₀⟩ := exists_total a.stat (compared_length a.singleBin (a := c d)
      (b := a.fixedTotal st c (c d).shape) rfl).symm
  have hF : ∀ x : ℝ, ∃ v, (npCloseReal x 0 → v = F₀) ∧ (¬ npCloseReal x 0 →
      a.stat.Total (comparedContents a.singleBin (c d))
        (expectedAt (comparedContents a.singleBin (a.fixedTotal st c (c d).shape))
          (comparedContents a.singleBin (c r)) ((rnd x : ℝ) / ((st.view r).numDecays : ℝ))) v) := by
    intro x
    by_cases hx : npCloseReal x 0
    · exact ⟨F₀, fun _ => rfl, fun h => absurd hx h⟩
    · obtain ⟨v, hv⟩ := exists_total a.stat (expected_length (sb := a.singleBin) (o := c d)
        (b := a.fixedTotal st c (c d).shape) rfl hshape ((rnd x : ℝ) / ((st.view r).numDecays : ℝ)))
      exact ⟨v, fun h => absurd h hx, fun _ => hv⟩
  choose F hF using hF
  obtain ⟨t, ht, k1, k2⟩ := i3 calls₁ scales ht₁ hsc hs F₀ F hF₀ (fun x _ => hF x) sigmas hsig limit
  obtain ⟨t', ht', k1', k2'⟩ := j3 calls₂ scales ht₂ hsc hs F₀ F
    (by rw [e2, e3, hcmp]; exact hF₀)
    (fun x _ => by rw [e2, e3, hcmp]; exact hF x) sigmas hsig limit
  have htt : t = t' := by
    have e : F t' = F t := le_antisymm (ht'.2 t ht.1).1 (ht.2 t' ht'.1).1
    exact le_antisymm ((ht.2 t' ht'.1).2 e) ((ht'.2 t ht.1).2 e.symm)
  exact outcome_eq (fun _ _ => rfl) htt k1' k2' k1 k2 hs ht'.1

/-- **C166, combining.** The fixed backgrounds may be combined before the fit: a spectrum that comes of
scaling each of them to its number of decays and adding them up can be given as the only fixed background,
with the sum of these numbers. Its scaled contents are the sum of theirs, so that the theorems above
apply. -/
theorem c166_combined (h : a.Combines b q d st) : a.SameTotal b d st := h.sameTotal

/-! ### cases that meet the hypotheses -/

namespace Ex

/-- The fixed background 1 at 20 decays and the background 3 at 5 decays, added up. -/
def combObj : Obj := ⟨lit "both", lit "both", 5, four 7 (13 / 2) 6 (11 / 2), 25, 25, [], none⟩

/-- The state with a further spectrum, which combines two of the others. -/
noncomputable def combState : FitState := { limitState with
  objs := fun r => if r = 5 then combObj else limitState.objs r
  next := 6 }

/-- Two fixed backgrounds, or the one that combines them. -/
def combArgs (fixed : List (ℕ × ℚ)) (floating : List ℕ) : FitArgs :=
  { limitArgs floating with fixed := fixed }

end Ex

theorem ex_combines (floating : List ℕ) :
    (Ex.combArgs [(1, 20), (3, 5)] floating).Combines (Ex.combArgs [(5, 25)] floating) 5 0
      Ex.combState where
  rest := by
    have : (([(1, 20), (3, 5)] : List (ℕ × ℚ)).map Prod.snd).sum = 25 := by norm_num
    rw [show (Ex.combArgs [(1, 20), (3, 5)] floating).fixed = [(1, 20), (3, 5)] from rfl, this]
    rfl
  decays := by
    show (([(1, 20), (3, 5)] : List (ℕ × ℚ)).map Prod.snd).sum ≠ 0
    norm_num
  sum := by
    refine ⟨(((Ex.combState.view 3).scale 5).st.add ((Ex.combState.view 1).scale 20).st).st,
      ⟨_, ⟨by decide +kernel, rfl⟩, by decide +kernel, by decide +kernel, rfl⟩, by decide +kernel, ?_⟩
    intro idx hi
    have h4 : InB [4] idx := hi
    match idx, h4 with
    | [i], h4 =>
      have hi4 : i < 4 := by simpa [InB] using h4
      have : i = 0 ∨ i = 1 ∨ i = 2 ∨ i = 3 := by omega
      rcases this with rfl | rfl | rfl | rfl <;> decide +kernel

theorem comb_view (r : ℕ) : (Ex.combState.view r).cfg = [Ex.fitAxis] ∧
    (Ex.combState.view r).data.shape = [4] := by
  refine ⟨rfl, ?_⟩
  show (if r = 5 then Ex.combObj else Ex.limitState.objs r).data.shape = [4]
  by_cases h5 : r = 5
  · rw [if_pos h5]; rfl
  · rw [if_neg h5]
    show (if r = 4 then { Ex.fitObj 4 with fit := some [2] } else Ex.fitObj r).data.shape = [4]
    by_cases h4 : r = 4
    · rw [if_pos h4]; rfl
    · rw [if_neg h4]
      match r with
      | 0 | 1 | 2 | 3 | _ + 4 => rfl

theorem comb_limitOn {floating : List ℕ} (hf : floating = [] ∨ floating = [2]) {fixed : List (ℕ × ℚ)}
    (hx : fixed.map Prod.fst = [1, 3] ∨ fixed.map Prod.fst = [5])
    (hs : Suppliable (inOrder [(lit "energy", ((2 : ℚ), (1 : ℚ)))]) fixed ts Ex.combState) :
    (Ex.combArgs fixed floating).LimitOn 4 0 ts Ex.combState := by
  have h := ex_limitOn (floating := [2, 3]) (.inr rfl)
  have hg := h.given
  refine ⟨⟨hg.region, hg.some, ?_, ?_, ?_, hs⟩, ?_, rfl, rfl, fun _ _ => rfl, h.fit, h.decays, h.region⟩
  · intro r hr
    show r < 6
    have : r = 0 ∨ r = 4 ∨ r = 2 := by
      rcases hf with rfl | rfl <;> simp [FitArgs.kept, Ex.limitArgs, Ex.combArgs] at hr <;> omega
    omega
  · show (((Ex.combArgs fixed floating).withSignal 4).kept ++ fixed.map Prod.fst).map
      (fun r => (Ex.combState.objs r).cfg) |>.Nodup
    rcases hf with rfl | rfl <;> rcases hx with hx | hx <;> rw [hx]
    · show (([0, 4] ++ [1, 3]).map (fun r => (Ex.combState.objs r).cfg)).Nodup
      decide
    · show (([0, 4] ++ [5]).map (fun r => (Ex.combState.objs r).cfg)).Nodup
      decide
    · show (([0, 4, 2] ++ [1, 3]).map (fun r => (Ex.combState.objs r).cfg)).Nodup
      decide
    · show (([0, 4, 2] ++ [5]).map (fun r => (Ex.combState.objs r).cfg)).Nodup
      decide
  · intro r _
    exact (hg.able 0 (by simp [FitArgs.kept, Ex.limitArgs])).congr rfl (comb_view r).2
  · refine { floating := ?_, fixed := ?_, dimension := ?_, perBin := ?_ }
    · rcases hf with rfl | rfl
      · exact fun h => absurd rfl h
      · exact fun _ => .inr ⟨2, by simp [Ex.limitArgs, Ex.combArgs],
          by simp [Ex.combState, Ex.limitState, Ex.fitObj]⟩
    all_goals simp [Ex.limitArgs, Ex.combArgs]

theorem comb_both : Suppliable (inOrder [(lit "energy", ((2 : ℚ), (1 : ℚ)))]) [(1, 20), (3, 5)]
    [(((Ex.combState.view 1).shrink exFitKw).st.scale 20).st,
      (((Ex.combState.view 3).shrink exFitKw).st.scale 5).st] Ex.combState := by
  rw [exInit_roi]
  refine ⟨?_, ?_, by unfold IsDict; decide, fun e _ => fitAxis_dims, fun e _ => by
    show ([Ex.fitAxis].map SPar.name).Nodup
    simp, .cons ⟨exFitKw, exFit_asks, by decide +kernel, rfl, by decide +kernel⟩
      (.cons ⟨exFitKw, exFit_asks, by decide +kernel, rfl, by decide +kernel⟩ .nil), ?_⟩
  · intro r hr
    have : r = 1 ∨ r = 3 := by simpa using hr
    show r < 6
    omega
  · show [(1 : ℕ), 3].Nodup
    decide
  · have key : ((((Ex.combState.view 1).shrink exFitKw).st.scale 20).st).cfg =
        ((((Ex.combState.view 3).shrink exFitKw).st.scale 5).st).cfg ∧
        ((((Ex.combState.view 1).shrink exFitKw).st.scale 20).st).data.shape =
        ((((Ex.combState.view 3).shrink exFitKw).st.scale 5).st).data.shape := by
      decide +kernel
    intro t ht t' ht'
    simp only [List.mem_cons, List.not_mem_nil, or_false] at ht ht'
    rcases ht with rfl | rfl <;> rcases ht' with rfl | rfl
    · exact ⟨rfl, rfl⟩
    · exact ⟨key.1.symm, key.2.symm⟩
    · exact key
    · exact ⟨rfl, rfl⟩

theorem comb_one : Suppliable (inOrder [(lit "energy", ((2 : ℚ), (1 : ℚ)))]) [(5, 25)]
    [(((Ex.combState.view 5).shrink exFitKw).st.scale 25).st] Ex.combState := by
  rw [exInit_roi]
  refine ⟨?_, ?_, by unfold IsDict; decide, fun e _ => fitAxis_dims, fun e _ => by
    show ([Ex.fitAxis].map SPar.name).Nodup
    simp, .cons ⟨exFitKw, exFit_asks, by decide +kernel, rfl, by decide +kernel⟩ .nil, ?_⟩
  · intro r hr
    have : r = 5 := by simpa using hr
    show r < 6
    omega
  · show [(5 : ℕ)].Nodup
    decide
  · intro t ht t' ht'
    simp only [List.mem_cons, List.not_mem_nil, or_false] at ht ht'
    subst ht ht'
    exact ⟨rfl, rfl⟩

theorem comb_evaluable (fixed : List (ℕ × ℚ)) :
    ((Ex.combArgs fixed [2]).withSignal 4).Evaluable Ex.fitEnv Ex.keyOf 0 Ex.combState := by
  have h := (ex_withoutLimit.withSignal 4).evaluable ex_floatEvaluable
  exact ⟨h.data, h.str, h.cache, h.backgrounds, fun _ _ => rfl, h.dims, by
    intro r hr
    have : r = 2 ∨ r = 4 := by simpa [Ex.limitArgs, Ex.combArgs] using hr
    rcases this with rfl | rfl <;> simp [FitState.view, Ex.combState, Ex.limitState, Ex.fitObj], h.names,
    h.pars, h.globals, h.rates⟩

theorem comb_rates (fixed : List (ℕ × ℚ)) : (Ex.combArgs fixed [2]).OwnRates Ex.combState := by
  have h := ex_withoutLimit.ownRates (by simp) ex_floatRates
  exact ⟨h.floating, h.config, by
    intro r hr
    obtain rfl : r = 2 := by simpa [Ex.limitArgs, Ex.combArgs] using hr
    exact ⟨0, rfl⟩, h.sigmas, h.statPerBin, h.perBin⟩

/-- Two fixed backgrounds and the one that combines them, in a fit. -/
example : ∃ ses₁ st₁ g₁ raw₁ pen₁ ses₂ st₂ g₂ raw₂ pen₂,
    init Ex.keyOf ((Ex.combArgs [(1, 20), (3, 5)] [2]).withSignal 4) Ex.combState = (st₁, .ok ses₁) ∧
    init Ex.keyOf ((Ex.combArgs [(5, 25)] [2]).withSignal 4) Ex.combState = (st₂, .ok ses₂) ∧
    (ses₁.fit (fun f => fitGrid Ex.fitEnv f Ex.toInt Ex.fixedSearch) st₁).2 =
      .ok (.inr (g₁, raw₁, pen₁)) ∧
    (ses₂.fit (fun f => fitGrid Ex.fitEnv f Ex.toInt Ex.fixedSearch) st₂).2 =
      .ok (.inr (g₂, raw₂, pen₂)) ∧
    g₂.pars.map FitPar.bestFit = g₁.pars.map FitPar.bestFit ∧
    raw₂.ravel = raw₁.ravel ∧ pen₂.ravel = pen₁.ravel := by
  have h := comb_limitOn (.inr rfl) (.inl rfl) comb_both
  have h' := comb_limitOn (.inr rfl) (.inr rfl) comb_one
  have hr := comb_rates [(1, 20), (3, 5)]
  exact c166_fit_partial (vss := [[8, 10]]) ((c166_combined (ex_combines [2])).withSignal 4)
    h.given h'.given (comb_evaluable _) (fun _ _ => rfl)
    ⟨h.settings.1, h.settings.2, h.settings.3, h.settings.4⟩
    ⟨hr.1, hr.2, hr.3, hr.4, hr.5, hr.6⟩ h.region (ex_fixing_search (.inr ⟨rfl, rfl⟩))
    (fun ws hw => ex_fixing_unrounded ws (by simp at hw ⊢; exact .inl hw))

/-- And in limits. -/
example : ∃ ses₁ st₁ f₁ ses₂ st₂ f₂,
    init Ex.keyOf (Ex.combArgs [(1, 20), (3, 5)] [2]) Ex.combState = (st₁, .ok ses₁) ∧
    init Ex.keyOf (Ex.combArgs [(5, 25)] [2]) Ex.combState = (st₂, .ok ses₂) ∧
    Fitter.limitInit ⟨ses₁, st₁, Ex.fixedSearch⟩ 4 true = (f₁, .ok ()) ∧
    Fitter.limitInit ⟨ses₂, st₂, Ex.fixedSearch⟩ 4 true = (f₂, .ok ()) ∧
    ((f₁.afterCalls Ex.fitEnv Ex.toInt 4 []).limitOf Ex.fitEnv Ex.toInt 4 [0, 4, 10, 20] [] none 3).2 =
      ((f₂.afterCalls Ex.fitEnv Ex.toInt 4 [.statistics [4]]).limitOf Ex.fitEnv Ex.toInt 4
        [0, 4, 10, 20] [] none 3).2 := by
  obtain ⟨ses₁, st₁, f₁, ses₂, st₂, f₂, h1, h2, h3, h4, h5⟩ := c166_limit_partial
    (env := Ex.fitEnv) (keyOf := Ex.keyOf) (rnd := Ex.toInt) (vss := [[8, 10]]) (g := Ex.fixedSearch)
    (c166_combined (ex_combines [2])) (comb_limitOn (.inr rfl) (.inl rfl) comb_both)
    (comb_limitOn (.inr rfl) (.inr rfl) comb_one) (comb_evaluable _) (comb_rates _)
    (ex_fixing_search (.inr ⟨rfl, rfl⟩)) (.cons ⟨rfl, rfl⟩ .nil)
    (fun ws hw => ex_fixing_unrounded ws (by simp at hw ⊢; exact .inl hw))
  exact ⟨ses₁, st₁, f₁, ses₂, st₂, f₂, h1, h2, h3, h4, h5 _ _ _
    (fun x hx h => (ex_limitScales (List.mem_append_right _ hx) h).2)
    (fun x hx h => (ex_limitScales hx h).2) (by simp) (by norm_num) [] (by simp) 3⟩

/-- And in limits without floating backgrounds. -/
example : ∃ ses₁ st₁ f₁ ses₂ st₂ f₂,
    init Ex.keyOf (Ex.combArgs [(1, 20), (3, 5)] []) Ex.combState = (st₁, .ok ses₁) ∧
    init Ex.keyOf (Ex.combArgs [(5, 25)] []) Ex.combState = (st₂, .ok ses₂) ∧
    Fitter.limitInit ⟨ses₁, st₁, GridSearch.new [] [] none false⟩ 4 true = (f₁, .ok ()) ∧
    Fitter.limitInit ⟨ses₂, st₂, GridSearch.new [] [] none false⟩ 4 true = (f₂, .ok ()) ∧
    ((f₁.afterCalls Ex.fitEnv Ex.toInt 4 []).limitOf Ex.fitEnv Ex.toInt 4 [0, 4, 10, 20] [] none 3).2 =
      ((f₂.afterCalls Ex.fitEnv Ex.toInt 4 [.statistics [4]]).limitOf Ex.fitEnv Ex.toInt 4
        [0, 4, 10, 20] [] none 3).2 := by
  obtain ⟨ses₁, st₁, f₁, ses₂, st₂, f₂, h1, h2, h3, h4, h5⟩ := c166_counting_partial
    (env := Ex.fitEnv) (keyOf := Ex.keyOf) (rnd := Ex.toInt)
    (c166_combined (ex_combines [])) (comb_limitOn (.inl rfl) (.inl rfl) comb_both)
    (comb_limitOn (.inl rfl) (.inr rfl) comb_one) (by simp [Ex.combArgs]) (by simp [Ex.combArgs]) rfl rfl
    (GridSearch.new [] [] none false) rfl
  exact ⟨ses₁, st₁, f₁, ses₂, st₂, f₂, h1, h2, h3, h4, h5 _ _ _
    (fun x hx h => (ex_limitScales (List.mem_append_right _ hx) h).2)
    (fun x hx h => (ex_limitScales hx h).2) (by simp) (by norm_num) [] (by simp) 3⟩

end Verif
