import Verif.Lemmas.Outside
import Verif.Props.Normalise

/-! # C162: results depend on the contents of the region only -/

namespace Verif

open Session

variable {env : FitEnv} {keyOf : ℕ → PyStr} {a : FitArgs} {ts : List Spectrum} {r d : ℕ}
  {st st' : FitState} {rnd : ℝ → ℚ} {g : GridSearch} {vss : List (List ℝ)}

theorem sumAt_same (hdec : ∀ q ∈ a.floating ++ a.fixed.map Prod.fst,
    (st'.view q).numDecays = (st.view q).numDecays) (u : List ℚ) (c : ℕ → NdArray ℚ) (idx : List ℕ) :
    a.sumAt st' u c idx = a.sumAt st u c idx := by
  unfold FitArgs.sumAt
  have h1 : a.fixed.map (fun e => e.2 / (st'.view e.1).numDecays * (c e.1).get idx) =
      a.fixed.map (fun e => e.2 / (st.view e.1).numDecays * (c e.1).get idx) :=
    List.map_congr_left fun e he => by
      rw [hdec e.1 (List.mem_append_right _ (List.mem_map_of_mem he))]
  have h2 : List.zipWith (fun r v => v / (st'.view r).numDecays * (c r).get idx) a.floating u =
      List.zipWith (fun r v => v / (st.view r).numDecays * (c r).get idx) a.floating u := by
    have h : ∀ q ∈ a.floating, (st'.view q).numDecays = (st.view q).numDecays := fun q hq =>
      hdec q (List.mem_append_left _ hq)
    clear * - h
    generalize a.floating = l at h
    induction l generalizing u with
    | nil => simp
    | cons q l ih =>
      cases u with
      | nil => simp
      | cons v u =>
        simp only [List.zipWith_cons_cons]
        rw [h q (by simp), ih u fun q hq => h q (by simp [hq])]
  rw [h1, h2]

/-- Fits of spectra with the same contents of the region. -/
theorem sameRegion_fit (hR : SameRegion (inOrder a.roi) (a.kept ++ a.fixed.map Prod.fst) st st')
    (hdec : ∀ q ∈ a.signal.toList ++ a.floating ++ a.fixed.map Prod.fst,
      (st'.view q).numDecays = (st.view q).numDecays)
    (hg : a.Given ts st) (he : a.Evaluable env keyOf d st) (hs : a.Settings st)
    (ho : a.OwnRates st) (hl : (st.view d).cfg.length ≤ a.roi.length + 1)
    (hsearch : RateSearch rnd g vss a.floating.length)
    (hex : ∀ vs ∈ vss, ∀ x ∈ vs, ((rnd x : ℚ) : ℝ) = x) :
    ∃ ses₁ st₁ g₁ raw₁ pen₁ ses₂ st₂ g₂ raw₂ pen₂,
      init keyOf a st = (st₁, .ok ses₁) ∧ init keyOf a st' = (st₂, .ok ses₂) ∧
      (ses₁.fit (fun f => fitGrid env f rnd g) st₁).2 = .ok (.inr (g₁, raw₁, pen₁)) ∧
      (ses₂.fit (fun f => fitGrid env f rnd g) st₂).2 = .ok (.inr (g₂, raw₂, pen₂)) ∧
      g₂.pars.map FitPar.bestFit = g₁.pars.map FitPar.bestFit ∧
      raw₂.ravel = raw₁.ravel ∧ pen₂.ravel = pen₁.ravel := by
  have hreg := inOrder_isDict hg.region
  have hdk : d ∈ a.kept := by simp [FitArgs.kept, he.data]
  have hdm := List.mem_append_left (a.fixed.map Prod.fst) hdk
  have hf : ∀ q ∈ a.floating, q ∈ a.kept ++ a.fixed.map Prod.fst := fun q hq => by
    simp [FitArgs.kept, hq]
  obtain ⟨ts', hg'⟩ := hR.given hg (fun q hq => hdec q (List.mem_append_right _ hq)) hdk
    fun q hq => he.axes q (List.mem_append_right _ hq)
  have he' := hR.evaluable (fun q hq => hdec q (by
    rcases List.mem_append.1 hq with hq | hq <;> simp only [List.mem_append] <;> tauto)) he
  obtain ⟨ns, hns⟩ := exists_roiNames (hg.able d hdm)
  obtain ⟨c, hc⟩ := exists_contents hreg hg.able ns
  obtain ⟨G, hG⟩ := exists_statistics a.stat a.singleBin a st c d rnd
  obtain ⟨ses₁, st₁, g₁, raw₁, pen₁, u₁, i1, i2, i3, i4, i5, i6⟩ :=
    fit_found hg he hs ho hl hns hc hsearch hex fun u _ => hG u
  obtain ⟨ses₂, st₂, g₂, raw₂, pen₂, u₂, j1, j2, j3, j4, j5, j6⟩ :=
    fit_found hg' he' (hR.settings hf hs) (hR.ownRates hf ho) (by rw [hR.length hdm]; exact hl)
      (hR.roiNames hdm hns) (fun q hq => hR.contents q hq _ _ (hc q hq)) hsearch hex (G := G)
      fun u _ => by
        have e : a.backgroundAt st' c (c d).shape (u.map rnd) = a.backgroundAt st c (c d).shape (u.map rnd) :=
          congrArg (NdArray.mk _) (funext fun idx => sumAt_same (fun q hq => hdec q (by
            rw [List.append_assoc]; exact List.mem_append_right _ hq)) _ _ _)
        rw [e]; exact hG u
  obtain rfl : u₂ = u₁ := i3.unique (fun u _ => by rw [hR.penaltyAt hf]) j3
  refine ⟨ses₁, st₁, g₁, raw₁, pen₁, ses₂, st₂, g₂, raw₂, pen₂, i1, j1, i2, j2, j4.trans i4.symm,
    j5.trans i5.symm, ?_⟩
  rw [j6, i6, hR.penaltyAt hf]

/-- Limits of spectra with the same contents of the region, without floating backgrounds. -/
theorem sameRegion_counting
    (hR : SameRegion (inOrder a.roi) ((a.withSignal r).kept ++ a.fixed.map Prod.fst) st st')
    (hdec : ∀ q ∈ r :: (a.floating ++ a.fixed.map Prod.fst),
      (st'.view q).numDecays = (st.view q).numDecays)
    (h : a.LimitOn r d ts st) (hfx : a.fixed ≠ []) (hfl : a.floating = [])
    (hstat : a.statPerBin = false) (search : GridSearch) (hpars : search.pars = []) :
    ∃ ses₁ st₁ w₁ ses₂ st₂ w₂,
      init keyOf a st = (st₁, .ok ses₁) ∧ init keyOf a st' = (st₂, .ok ses₂) ∧
      Fitter.limitInit ⟨ses₁, st₁, search⟩ r true = (w₁, .ok ()) ∧
      Fitter.limitInit ⟨ses₂, st₂, search⟩ r true = (w₂, .ok ()) ∧
      ∀ (calls₁ calls₂ : List LimitCall) (scales : List ℝ), Testable rnd (allScales calls₁ ++ scales) →
      Testable rnd (allScales calls₂ ++ scales) → scales ≠ [] → scales.Pairwise (· < ·) →
      ∀ (sigmas : List (Option ℝ)), (∀ s ∈ sigmas, s ≠ none) → ∀ (limit : ℝ),
      ((w₂.afterCalls env rnd r calls₂).limitOf env rnd r scales sigmas none limit).2 =
        ((w₁.afterCalls env rnd r calls₁).limitOf env rnd r scales sigmas none limit).2 := by
  have hg := h.given
  have hreg := inOrder_isDict hg.region
  have hdm : d ∈ (a.withSignal r).kept ++ a.fixed.map Prod.fst := by simp [FitArgs.kept, h.data]
  have hrm : r ∈ (a.withSignal r).kept ++ a.fixed.map Prod.fst := by simp [FitArgs.kept]
  obtain ⟨ts', h'⟩ := hR.limitOn hdec h
  obtain ⟨ns, hns⟩ := exists_roiNames (hg.able d hdm)
  obtain ⟨c, hc⟩ := exists_contents hreg hg.able ns
  have hshape : (c r).shape = (c d).shape :=
    same_shape hreg (hg.able d hdm) (hg.able r hrm) (h.axes r hrm) (hc d hdm) (hc r hrm)
  obtain ⟨ses₁, st₁, w₁, i1, i2, i3⟩ := c147_counting_partial (env := env) (keyOf := keyOf) (rnd := rnd) h
    hfx hfl hstat hns hc search hpars
  obtain ⟨ses₂, st₂, w₂, j1, j2, j3⟩ := c147_counting_partial (env := env) (keyOf := keyOf) (rnd := rnd) h'
    hfx hfl hstat (hR.roiNames hdm hns) (fun q hq => hR.contents q hq _ _ (hc q hq)) search hpars
  refine ⟨ses₁, st₁, w₁, ses₂, st₂, w₂, i1, j1, i2, j2, ?_⟩
  intro calls₁ calls₂ scales ht₁ ht₂ hne hs sigmas hsig limit
  have e0 : a.fixedTotal st' c (c d).shape = a.fixedTotal st c (c d).shape := by
    unfold FitArgs.fixedTotal
    refine congrArg (NdArray.mk _) (funext fun idx => ?_)
    rw [List.map_congr_left fun e he => by
      rw [hdec e.1 (List.mem_cons_of_mem _ (List.mem_append_right _ (List.mem_map_of_mem he)))]]
  obtain ⟨F₀, hF₀⟩ := exists_total a.stat (compared_length a.singleBin (a := c d)
    (b := a.fixedTotal st c (c d).shape) rfl).symm
  have hF : ∀ x : ℝ, ∃ v, (npCloseReal x 0 → v = F₀) ∧ (¬ npCloseReal x 0 →
      a.stat.Total (comparedContents a.singleBin (c d))
        (expectedAt (comparedContents a.singleBin (a.fixedTotal st c (c d).shape))
          (comparedContents a.singleBin (c r)) ((rnd x : ℝ) / ((st.view r).numDecays : ℝ))) v) := by
    intro x
    by_cases hx : npCloseReal x 0
    · exact ⟨F₀, fun _ => rfl, fun h => absurd hx h⟩
    · obtain ⟨v, hv⟩ := exists_total a.stat (expected_length (sb := a.singleBin) (o := c d)
        (b := a.fixedTotal st c (c d).shape) rfl hshape ((rnd x : ℝ) / ((st.view r).numDecays : ℝ)))
      exact ⟨v, fun h => absurd h hx, fun _ => hv⟩
  choose F hF using hF
  obtain ⟨b, hb, k1, k2⟩ := i3 calls₁ scales ht₁ hne hs F₀ F hF₀ (fun x _ => hF x) sigmas hsig limit
  obtain ⟨b', hb', k1', k2'⟩ := j3 calls₂ scales ht₂ hne hs F₀ F (by
    rw [e0]; exact hF₀) (fun x _ => ⟨(hF x).1, fun hx => by
      rw [e0, hdec r (by simp)]
      exact (hF x).2 hx⟩) sigmas hsig limit
  have hbb : b' = b := by
    obtain ⟨m1, m2⟩ := hb.2 b' hb'.1
    obtain ⟨n1, n2⟩ := hb'.2 b hb.1
    have e := le_antisymm m1 n1
    exact le_antisymm (n2 e) (m2 e.symm)
  exact outcome_eq (fun _ _ => rfl) hbb k1 k2 k1' k2' hs hb.1

/-- Limits of spectra with the same contents of the region, with floating backgrounds. -/
theorem sameRegion_floating
    (hR : SameRegion (inOrder a.roi) ((a.withSignal r).kept ++ a.fixed.map Prod.fst) st st')
    (hdec : ∀ q ∈ r :: (a.floating ++ a.fixed.map Prod.fst),
      (st'.view q).numDecays = (st.view q).numDecays)
    (h : a.LimitOn r d ts st)
    (he : (a.withSignal r).Evaluable env keyOf d st) (ho : a.OwnRates st) {search : GridSearch}
    (hsearch : RateSearch rnd search vss a.floating.length)
    (hsame : List.Forall₂ (fun p (q : FitPar) => q.prior = (st.params p).prior ∧
      q.sigma = (st.params p).sigma) (a.parameters st) search.pars)
    (hex : ∀ vs ∈ vss, ∀ x ∈ vs, ((rnd x : ℚ) : ℝ) = x) :
    ∃ ses₁ st₁ w₁ ses₂ st₂ w₂,
      init keyOf a st = (st₁, .ok ses₁) ∧ init keyOf a st' = (st₂, .ok ses₂) ∧
      Fitter.limitInit ⟨ses₁, st₁, search⟩ r true = (w₁, .ok ()) ∧
      Fitter.limitInit ⟨ses₂, st₂, search⟩ r true = (w₂, .ok ()) ∧
      ∀ (calls₁ calls₂ : List LimitCall) (scales : List ℝ), Testable rnd (allScales calls₁ ++ scales) →
      Testable rnd (allScales calls₂ ++ scales) → scales ≠ [] → scales.Pairwise (· < ·) →
      ∀ (sigmas : List (Option ℝ)), (∀ s ∈ sigmas, s ≠ none) → ∀ (limit : ℝ),
      ((w₂.afterCalls env rnd r calls₂).limitOf env rnd r scales sigmas none limit).2 =
        ((w₁.afterCalls env rnd r calls₁).limitOf env rnd r scales sigmas none limit).2 := by
  have hg := h.given
  have hreg := inOrder_isDict hg.region
  have hdm : d ∈ (a.withSignal r).kept ++ a.fixed.map Prod.fst := by simp [FitArgs.kept, h.data]
  have hrm : r ∈ (a.withSignal r).kept ++ a.fixed.map Prod.fst := by simp [FitArgs.kept]
  have hf : ∀ q ∈ a.floating, q ∈ (a.withSignal r).kept ++ a.fixed.map Prod.fst := fun q hq => by
    simp [FitArgs.kept, hq]
  obtain ⟨ts', h'⟩ := hR.limitOn hdec h
  have he' := SameObjects.evaluable (a := a.withSignal r) hR.toSameObjects (fun q hq => hdec q (by
    rcases List.mem_append.1 hq with hq | hq
    · exact List.mem_cons_of_mem _ (List.mem_append_left _ hq)
    · have : q = r := by simpa using hq
      simp [this])) he
  obtain ⟨ns, hns⟩ := exists_roiNames (hg.able d hdm)
  obtain ⟨c, hc⟩ := exists_contents hreg hg.able ns
  have hshape : (c r).shape = (c d).shape :=
    same_shape hreg (hg.able d hdm) (hg.able r hrm) (h.axes r hrm) (hc d hdm) (hc r hrm)
  obtain ⟨ses₁, st₁, w₁, i1, i2, i3⟩ := c147_floating_partial (rnd := rnd) h he ho hns hc hsearch hsame hex
  obtain ⟨ses₂, st₂, w₂, j1, j2, j3⟩ := c147_floating_partial (rnd := rnd) h' he' (hR.ownRates hf ho)
    (hR.roiNames hdm hns) (fun q hq => hR.contents q hq _ _ (hc q hq)) hsearch
    (by rw [hR.parameters hf, hR.params]; exact hsame) hex
  refine ⟨ses₁, st₁, w₁, ses₂, st₂, w₂, i1, j1, i2, j2, ?_⟩
  intro calls₁ calls₂ scales ht₁ ht₂ hne hs sigmas hsig limit
  have e0 : ∀ u, a.backgroundAt st' c (c d).shape u = a.backgroundAt st c (c d).shape u := fun u =>
    congrArg (NdArray.mk _) (funext fun idx => sumAt_same (fun q hq => hdec q
      (List.mem_cons_of_mem _ hq)) _ _ _)
  obtain ⟨G₀, hG₀⟩ := exists_statistics a.stat a.singleBin a st c d rnd
  have hG : ∀ (x : ℝ) (u : List ℝ), ∃ v, (npCloseReal x 0 → v = G₀ u) ∧ (¬ npCloseReal x 0 →
      a.stat.Total (comparedContents a.singleBin (c d))
        (expectedAt (comparedContents a.singleBin (a.backgroundAt st c (c d).shape (u.map rnd)))
          (comparedContents a.singleBin (c r)) ((rnd x : ℝ) / ((st.view r).numDecays : ℝ))) v) := by
    intro x u
    by_cases hx : npCloseReal x 0
    · exact ⟨G₀ u, fun _ => rfl, fun h => absurd hx h⟩
    · obtain ⟨v, hv⟩ := exists_total a.stat (expected_length (sb := a.singleBin) (o := c d)
        (b := a.backgroundAt st c (c d).shape (u.map rnd)) rfl hshape
        ((rnd x : ℝ) / ((st.view r).numDecays : ℝ)))
      exact ⟨v, fun h => absurd h hx, fun _ => hv⟩
  choose G hG using hG
  obtain ⟨u₀, u, m1, m2, b, hb, k1, k2⟩ := i3 calls₁ scales ht₁ hne hs G₀ G (fun u _ => hG₀ u)
    (fun x _ u _ => hG x u) sigmas hsig limit
  obtain ⟨u₀', u', m1', m2', b', hb', k1', k2'⟩ := j3 calls₂ scales ht₂ hne hs G₀ G (fun u _ => by
    rw [e0]; exact hG₀ u) (fun x _ u _ => ⟨(hG x u).1, fun hx => by
      rw [e0, hdec r (by simp)]
      exact (hG x u).2 hx⟩) sigmas hsig limit
  obtain rfl : u₀' = u₀ := m1.unique (fun u _ => by rw [hR.penaltyAt hf]) m1'
  have huu : ∀ x ∈ scales, u' x = u x := fun x hx =>
    (m2 x hx).unique (fun u _ => by rw [hR.penaltyAt hf]) (m2' x hx)
  have hbb : b' = b := by
    obtain ⟨m1, m2⟩ := hb.2 b' hb'.1
    obtain ⟨n1, n2⟩ := hb'.2 b hb.1
    dsimp only at n1 n2
    rw [huu _ hb.1, huu _ hb'.1] at n1 n2
    have e := le_antisymm m1 n1
    exact le_antisymm (n2 e) (m2 e.symm)
  exact outcome_eq (fun x hx => by rw [huu x hx, hR.penaltyAt hf]) hbb k1 k2 k1' k2' hs hb.1

/-- **C162, fits, contents outside the region.** A fit by grid search is made from data, floating
backgrounds with one rate each, and perhaps fixed backgrounds and a signal. Other spectra have the same
axes, names of backgrounds, parameters and contents of the region, and the same numbers of decays except
for the data, but any contents outside the region. Then the first `fit()` of either finds the same
values of the rates, the same statistic and the same penalty. (Partial: the suppositions of C62 and C99;
at most one axis is projected out; the values of the rates are not rounded.) -/
theorem c162_fit_partial
    (hA : AgreeInside (inOrder a.roi) (a.kept ++ a.fixed.map Prod.fst) st st')
    (hdec : ∀ q ∈ a.signal.toList ++ a.floating ++ a.fixed.map Prod.fst,
      (st'.view q).numDecays = (st.view q).numDecays)
    (hg : a.Given ts st) (he : a.Evaluable env keyOf d st) (hs : a.Settings st)
    (ho : a.OwnRates st) (hl : (st.view d).cfg.length ≤ a.roi.length + 1)
    (hsearch : RateSearch rnd g vss a.floating.length)
    (hex : ∀ vs ∈ vss, ∀ x ∈ vs, ((rnd x : ℚ) : ℝ) = x) :
    ∃ ses₁ st₁ g₁ raw₁ pen₁ ses₂ st₂ g₂ raw₂ pen₂,
      init keyOf a st = (st₁, .ok ses₁) ∧ init keyOf a st' = (st₂, .ok ses₂) ∧
      (ses₁.fit (fun f => fitGrid env f rnd g) st₁).2 = .ok (.inr (g₁, raw₁, pen₁)) ∧
      (ses₂.fit (fun f => fitGrid env f rnd g) st₂).2 = .ok (.inr (g₂, raw₂, pen₂)) ∧
      g₂.pars.map FitPar.bestFit = g₁.pars.map FitPar.bestFit ∧
      raw₂.ravel = raw₁.ravel ∧ pen₂.ravel = pen₁.ravel :=
  sameRegion_fit (hA.same (inOrder_isDict hg.region) hg.able) hdec hg he hs ho hl hsearch hex

/-- **C162, limits without floating backgrounds, contents outside the region.** A fit is made from data
and fixed backgrounds, and a limit from it and a signal; other spectra differ outside the region only.
Then the outcome, the limit or `LimitError`, is the same, whatever limits have been set or statistics
asked for before. (Partial: the suppositions of C99; at most one axis is projected out, see C11.) -/
theorem c162_counting_partial
    (hA : AgreeInside (inOrder a.roi) ((a.withSignal r).kept ++ a.fixed.map Prod.fst) st st')
    (hdec : ∀ q ∈ r :: (a.floating ++ a.fixed.map Prod.fst),
      (st'.view q).numDecays = (st.view q).numDecays)
    (h : a.LimitOn r d ts st) (hfx : a.fixed ≠ []) (hfl : a.floating = [])
    (hstat : a.statPerBin = false) (search : GridSearch) (hpars : search.pars = []) :
    ∃ ses₁ st₁ w₁ ses₂ st₂ w₂,
      init keyOf a st = (st₁, .ok ses₁) ∧ init keyOf a st' = (st₂, .ok ses₂) ∧
      Fitter.limitInit ⟨ses₁, st₁, search⟩ r true = (w₁, .ok ()) ∧
      Fitter.limitInit ⟨ses₂, st₂, search⟩ r true = (w₂, .ok ()) ∧
      ∀ (calls₁ calls₂ : List LimitCall) (scales : List ℝ), Testable rnd (allScales calls₁ ++ scales) →
      Testable rnd (allScales calls₂ ++ scales) → scales ≠ [] → scales.Pairwise (· < ·) →
      ∀ (sigmas : List (Option ℝ)), (∀ s ∈ sigmas, s ≠ none) → ∀ (limit : ℝ),
      ((w₂.afterCalls env rnd r calls₂).limitOf env rnd r scales sigmas none limit).2 =
        ((w₁.afterCalls env rnd r calls₁).limitOf env rnd r scales sigmas none limit).2 :=
  sameRegion_counting (a := a) (hA.same (inOrder_isDict h.given.region) h.given.able) hdec h hfx hfl hstat search
    hpars

/-- **C162, limits with floating backgrounds, contents outside the region.** The same for a fit by grid
search with floating backgrounds. (Partial: the suppositions of C99 and C62; at most one axis is
projected out; the values of the rates are not rounded.) -/
theorem c162_floating_partial
    (hA : AgreeInside (inOrder a.roi) ((a.withSignal r).kept ++ a.fixed.map Prod.fst) st st')
    (hdec : ∀ q ∈ r :: (a.floating ++ a.fixed.map Prod.fst),
      (st'.view q).numDecays = (st.view q).numDecays)
    (h : a.LimitOn r d ts st)
    (he : (a.withSignal r).Evaluable env keyOf d st) (ho : a.OwnRates st) {search : GridSearch}
    (hsearch : RateSearch rnd search vss a.floating.length)
    (hsame : List.Forall₂ (fun p (q : FitPar) => q.prior = (st.params p).prior ∧
      q.sigma = (st.params p).sigma) (a.parameters st) search.pars)
    (hex : ∀ vs ∈ vss, ∀ x ∈ vs, ((rnd x : ℚ) : ℝ) = x) :
    ∃ ses₁ st₁ w₁ ses₂ st₂ w₂,
      init keyOf a st = (st₁, .ok ses₁) ∧ init keyOf a st' = (st₂, .ok ses₂) ∧
      Fitter.limitInit ⟨ses₁, st₁, search⟩ r true = (w₁, .ok ()) ∧
      Fitter.limitInit ⟨ses₂, st₂, search⟩ r true = (w₂, .ok ()) ∧
      ∀ (calls₁ calls₂ : List LimitCall) (scales : List ℝ), Testable rnd (allScales calls₁ ++ scales) →
      Testable rnd (allScales calls₂ ++ scales) → scales ≠ [] → scales.Pairwise (· < ·) →
      ∀ (sigmas : List (Option ℝ)), (∀ s ∈ sigmas, s ≠ none) → ∀ (limit : ℝ),
      ((w₂.afterCalls env rnd r calls₂).limitOf env rnd r scales sigmas none limit).2 =
        ((w₁.afterCalls env rnd r calls₁).limitOf env rnd r scales sigmas none limit).2 :=
  sameRegion_floating (a := a) (hA.same (inOrder_isDict h.given.region) h.given.able) hdec h he ho hsearch hsame
    hex

/-- **C162, fits, spectra cut before.** Before the fit is made, all its spectra, in any order, may have
been cut by `shrink` to a range that contains the region, with bounds that are bin edges. Then the first
`fit()` finds the same values of the rates, the same statistic and the same penalty. (Partial: the
suppositions of C62 and C99; at most one axis is projected out; the values of the rates are not
rounded.) -/
theorem c162_cut_fit_partial (hg : a.Given ts st) (he : a.Evaluable env keyOf d st) (hs : a.Settings st)
    (ho : a.OwnRates st) (hl : (st.view d).cfg.length ≤ a.roi.length + 1)
    (hsearch : RateSearch rnd g vss a.floating.length)
    (hex : ∀ vs ∈ vss, ∀ x ∈ vs, ((rnd x : ℚ) : ℝ) = x) {outer : Dict (ℚ × ℚ)} (hO : IsDict outer)
    (hin : Contains outer (inOrder a.roi)) (hedges : RoiOnEdges outer (st.view d).cfg)
    {kw : List (PyStr × ℚ)} (hk : AsksRoi (st.view d).cfg outer kw) {l : List ℕ}
    (hperm : l.Perm (a.kept ++ a.fixed.map Prod.fst)) :
    ∃ ses₁ st₁ g₁ raw₁ pen₁ ses₂ st₂ g₂ raw₂ pen₂,
      init keyOf a st = (st₁, .ok ses₁) ∧ init keyOf a (st.afterShrinking kw l) = (st₂, .ok ses₂) ∧
      (ses₁.fit (fun f => fitGrid env f rnd g) st₁).2 = .ok (.inr (g₁, raw₁, pen₁)) ∧
      (ses₂.fit (fun f => fitGrid env f rnd g) st₂).2 = .ok (.inr (g₂, raw₂, pen₂)) ∧
      g₂.pars.map FitPar.bestFit = g₁.pars.map FitPar.bestFit ∧
      raw₂.ravel = raw₁.ravel ∧ pen₂.ravel = pen₁.ravel := by
  have hax : ∀ q ∈ a.kept ++ a.fixed.map Prod.fst, (st.view q).cfg = (st.view d).cfg := fun q hq => by
    by_cases hqd : q = d
    · rw [hqd]
    · refine he.axes q ?_
      simp only [FitArgs.kept, he.data, Option.toList_some, List.mem_append, List.mem_singleton] at hq ⊢
      tauto
  obtain ⟨hR, hdec⟩ := sameRegion_cut hO (inOrder_isDict hg.region) hg.able hin hax hedges hk hperm hg.own
  refine sameRegion_fit hR (fun q hq => hdec q ?_) hg he hs ho hl hsearch hex
  simp only [FitArgs.kept, List.mem_append] at hq ⊢
  tauto

/-- **C162, limits without floating backgrounds, spectra cut before.** Before fit and limit are made, all
spectra may have been cut by `shrink` to a range that contains the region. Then the outcome is the
same. (Partial: the suppositions of C99; at most one axis is projected out.) -/
theorem c162_cut_counting_partial (h : a.LimitOn r d ts st) (hfx : a.fixed ≠ []) (hfl : a.floating = [])
    (hstat : a.statPerBin = false) (search : GridSearch) (hpars : search.pars = [])
    {outer : Dict (ℚ × ℚ)} (hO : IsDict outer)
    (hin : Contains outer (inOrder a.roi)) (hedges : RoiOnEdges outer (st.view d).cfg)
    {kw : List (PyStr × ℚ)} (hk : AsksRoi (st.view d).cfg outer kw) {l : List ℕ}
    (hperm : l.Perm ((a.withSignal r).kept ++ a.fixed.map Prod.fst)) :
    ∃ ses₁ st₁ w₁ ses₂ st₂ w₂,
      init keyOf a st = (st₁, .ok ses₁) ∧ init keyOf a (st.afterShrinking kw l) = (st₂, .ok ses₂) ∧
      Fitter.limitInit ⟨ses₁, st₁, search⟩ r true = (w₁, .ok ()) ∧
      Fitter.limitInit ⟨ses₂, st₂, search⟩ r true = (w₂, .ok ()) ∧
      ∀ (calls₁ calls₂ : List LimitCall) (scales : List ℝ), Testable rnd (allScales calls₁ ++ scales) →
      Testable rnd (allScales calls₂ ++ scales) → scales ≠ [] → scales.Pairwise (· < ·) →
      ∀ (sigmas : List (Option ℝ)), (∀ s ∈ sigmas, s ≠ none) → ∀ (limit : ℝ),
      ((w₂.afterCalls env rnd r calls₂).limitOf env rnd r scales sigmas none limit).2 =
        ((w₁.afterCalls env rnd r calls₁).limitOf env rnd r scales sigmas none limit).2 := by
  obtain ⟨hR, hdec⟩ := sameRegion_cut hO (inOrder_isDict h.given.region) h.given.able hin h.axes hedges hk
    hperm h.given.own
  refine sameRegion_counting (a := a) hR (fun q hq => hdec q ?_) h hfx hfl hstat search hpars
  simp only [FitArgs.kept, List.mem_append, List.mem_cons, Option.mem_toList,
    Option.some.injEq] at hq ⊢
  tauto

/-- **C162, limits with floating backgrounds, spectra cut before.** (Partial: the suppositions of C99 and
C62; at most one axis is projected out; the values of the rates are not rounded.) -/
theorem c162_cut_floating_partial (h : a.LimitOn r d ts st)
    (he : (a.withSignal r).Evaluable env keyOf d st) (ho : a.OwnRates st) {search : GridSearch}
    (hsearch : RateSearch rnd search vss a.floating.length)
    (hsame : List.Forall₂ (fun p (q : FitPar) => q.prior = (st.params p).prior ∧
      q.sigma = (st.params p).sigma) (a.parameters st) search.pars)
    (hex : ∀ vs ∈ vss, ∀ x ∈ vs, ((rnd x : ℚ) : ℝ) = x)
    {outer : Dict (ℚ × ℚ)} (hO : IsDict outer)
    (hin : Contains outer (inOrder a.roi)) (hedges : RoiOnEdges outer (st.view d).cfg)
    {kw : List (PyStr × ℚ)} (hk : AsksRoi (st.view d).cfg outer kw) {l : List ℕ}
    (hperm : l.Perm ((a.withSignal r).kept ++ a.fixed.map Prod.fst)) :
    ∃ ses₁ st₁ w₁ ses₂ st₂ w₂,
      init keyOf a st = (st₁, .ok ses₁) ∧ init keyOf a (st.afterShrinking kw l) = (st₂, .ok ses₂) ∧
      Fitter.limitInit ⟨ses₁, st₁, search⟩ r true = (w₁, .ok ()) ∧
      Fitter.limitInit ⟨ses₂, st₂, search⟩ r true = (w₂, .ok ()) ∧
      ∀ (calls₁ calls₂ : List LimitCall) (scales : List ℝ), Testable rnd (allScales calls₁ ++ scales) →
      Testable rnd (allScales calls₂ ++ scales) → scales ≠ [] → scales.Pairwise (· < ·) →
      ∀ (sigmas : List (Option ℝ)), (∀ s ∈ sigmas, s ≠ none) → ∀ (limit : ℝ),
      ((w₂.afterCalls env rnd r calls₂).limitOf env rnd r scales sigmas none limit).2 =
        ((w₁.afterCalls env rnd r calls₁).limitOf env rnd r scales sigmas none limit).2 := by
  obtain ⟨hR, hdec⟩ := sameRegion_cut hO (inOrder_isDict h.given.region) h.given.able hin h.axes hedges hk
    hperm h.given.own
  refine sameRegion_floating (a := a) hR (fun q hq => hdec q ?_) h he ho hsearch hsame hex
  simp only [FitArgs.kept, List.mem_append, List.mem_cons, Option.mem_toList,
    Option.some.injEq] at hq ⊢
  tauto

namespace Ex

/-- The same spectra with other contents of the two bins below 1, and other numbers of events. -/
noncomputable def outsideState (st : FitState) : FitState := { st with
  objs := fun r => { st.objs r with
    rawEvents := 1000 + r
    data := ⟨(st.objs r).data.shape, fun idx => if idx = [0] ∨ idx = [1] then 77 + r
      else (st.objs r).data.get idx⟩ } }

/-- The range from 1/2 to 2, which contains the region from 1 to 2. -/
def outerRange : Dict (ℚ × ℚ) := [(lit "energy", (1 / 2, 2))]

def outerKw : List (PyStr × ℚ) := [(lit "energy_mc_low", 1 / 2), (lit "energy_mc_high", 2)]

end Ex

theorem ex_agreeInside {st : FitState} {qs : List ℕ} (hc : ∀ q ∈ qs, (st.view q).cfg = [Ex.fitAxis]) :
    AgreeInside (inOrder [(lit "energy", ((2 : ℚ), (1 : ℚ)))]) qs st (Ex.outsideState st) where
  next := rfl
  params := rfl
  cache := rfl
  rest _ _ := ⟨rfl, rfl, rfl⟩
  axes _ _ := rfl
  shape _ _ := rfl
  cells q hq idx hi hr := by
    rw [hc q hq] at hr
    obtain ⟨i, rest, h1, h2, rfl⟩ := List.forall₂_cons_left_iff.1 hr
    cases h2
    have h := (h1 (lit "energy", (min 2 1, max 2 1)) (by simp [inOrder]) ⟨lit "mc", by decide, rfl⟩).1
    have hi2 : 2 ≤ i := by
      by_contra hlt
      have : (i : ℚ) ≤ 1 := by exact_mod_cast (show i ≤ 1 by omega)
      norm_num [SPar.edge, Ex.fitAxis] at h
      linarith
    have hne : ¬ ([i] = [0] ∨ [i] = [1]) := by
      simp only [List.cons.injEq, and_true]; omega
    show (NdArray.norm ⟨(st.objs q).data.shape, _⟩).get [i] = (NdArray.norm (st.objs q).data).get [i]
    have hi' : InB (st.objs q).data.shape [i] := hi
    rw [NdArray.norm_get hi']
    refine Eq.trans (NdArray.norm_get (a := ⟨(st.objs q).data.shape, fun idx =>
      if idx = [0] ∨ idx = [1] then 77 + q else (st.objs q).data.get idx⟩) hi') ?_
    exact if_neg hne

theorem ex_contains : Contains Ex.outerRange (inOrder [(lit "energy", ((2 : ℚ), (1 : ℚ)))]) := by
  intro e he
  have : e = (lit "energy", (1 / 2, 2)) := by simpa [Ex.outerRange] using he
  subst this
  exact ⟨(lit "energy", (min 2 1, max 2 1)), by simp [inOrder], rfl, by norm_num, by norm_num⟩

theorem ex_outerEdges : RoiOnEdges Ex.outerRange [Ex.fitAxis] := by
  intro e he p hp _
  have : e = (lit "energy", (1 / 2, 2)) := by simpa [Ex.outerRange] using he
  subst this
  have : p = Ex.fitAxis := by simpa using hp
  subst this
  exact ⟨1, 4, by norm_num, by norm_num [Ex.fitAxis], by norm_num [SPar.edge, Ex.fitAxis],
    by norm_num [SPar.edge, Ex.fitAxis]⟩

theorem ex_outerAsks : AsksRoi [Ex.fitAxis] Ex.outerRange Ex.outerKw :=
  .cons Ex.fitAxis (lit "energy") (1 / 2) 2 [] [] (by simp) ⟨lit "mc", by decide, rfl⟩ .nil

/-- A fit of spectra with other contents below the region. -/
example : ∃ ses₁ st₁ g₁ raw₁ pen₁ ses₂ st₂ g₂ raw₂ pen₂,
    init Ex.keyOf exWhole Ex.madeState = (st₁, .ok ses₁) ∧
    init Ex.keyOf exWhole (Ex.outsideState Ex.madeState) = (st₂, .ok ses₂) ∧
    (ses₁.fit (fun f => fitGrid Ex.fitEnv f Ex.toInt Ex.closedSearch) st₁).2 =
      .ok (.inr (g₁, raw₁, pen₁)) ∧
    (ses₂.fit (fun f => fitGrid Ex.fitEnv f Ex.toInt Ex.closedSearch) st₂).2 =
      .ok (.inr (g₂, raw₂, pen₂)) ∧
    g₂.pars.map FitPar.bestFit = g₁.pars.map FitPar.bestFit ∧
    raw₂.ravel = raw₁.ravel ∧ pen₂.ravel = pen₁.ravel :=
  c162_fit_partial (ex_agreeInside fun _ _ => rfl) (fun _ _ => rfl) made_given made_evaluable
    made_settings made_ratesOnly.toOwnRates
    (by simp [FitState.view, Ex.madeState, Ex.fitState, exWhole]) made_search made_unrounded

/-- A fit of spectra that have been cut to the range from 1/2 to 2. -/
example : ∃ ses₁ st₁ g₁ raw₁ pen₁ ses₂ st₂ g₂ raw₂ pen₂,
    init Ex.keyOf exWhole Ex.madeState = (st₁, .ok ses₁) ∧
    init Ex.keyOf exWhole (Ex.madeState.afterShrinking Ex.outerKw [3, 2, 1, 0, 4]) = (st₂, .ok ses₂) ∧
    (ses₁.fit (fun f => fitGrid Ex.fitEnv f Ex.toInt Ex.closedSearch) st₁).2 =
      .ok (.inr (g₁, raw₁, pen₁)) ∧
    (ses₂.fit (fun f => fitGrid Ex.fitEnv f Ex.toInt Ex.closedSearch) st₂).2 =
      .ok (.inr (g₂, raw₂, pen₂)) ∧
    g₂.pars.map FitPar.bestFit = g₁.pars.map FitPar.bestFit ∧
    raw₂.ravel = raw₁.ravel ∧ pen₂.ravel = pen₁.ravel :=
  c162_cut_fit_partial made_given made_evaluable made_settings made_ratesOnly.toOwnRates
    (by simp [FitState.view, Ex.madeState, Ex.fitState, exWhole]) made_search made_unrounded
    (outer := Ex.outerRange) (by simp [IsDict, Ex.outerRange]) ex_contains ex_outerEdges ex_outerAsks
    (by show [3, 2, 1, 0, 4].Perm [0, 4, 2, 3, 1]; decide)

/-- A limit from spectra with other contents below the region. -/
example : ∃ ses₁ st₁ w₁ ses₂ st₂ w₂, init Ex.keyOf (Ex.limitArgs []) Ex.limitState = (st₁, .ok ses₁) ∧
    init Ex.keyOf (Ex.limitArgs []) (Ex.outsideState Ex.limitState) = (st₂, .ok ses₂) ∧
    Fitter.limitInit ⟨ses₁, st₁, GridSearch.new [] [] none false⟩ 4 true = (w₁, .ok ()) ∧
    Fitter.limitInit ⟨ses₂, st₂, GridSearch.new [] [] none false⟩ 4 true = (w₂, .ok ()) ∧
    ((w₂.afterCalls Ex.fitEnv Ex.toInt 4 []).limitOf Ex.fitEnv Ex.toInt 4 [0, 4, 10, 20] [] none 3).2 =
      ((w₁.afterCalls Ex.fitEnv Ex.toInt 4 [.statistics [4]]).limitOf Ex.fitEnv Ex.toInt 4
        [0, 4, 10, 20] [] none 3).2 := by
  obtain ⟨ses₁, st₁, w₁, ses₂, st₂, w₂, h1, h2, h3, h4, h5⟩ := c162_counting_partial (env := Ex.fitEnv)
    (keyOf := Ex.keyOf) (rnd := Ex.toInt) (a := Ex.limitArgs []) (st := Ex.limitState)
    (st' := Ex.outsideState Ex.limitState) (ex_agreeInside fun _ _ => rfl) (fun _ _ => rfl)
    (ex_limitOn (.inl rfl)) (by simp [Ex.limitArgs]) rfl rfl (GridSearch.new [] [] none false) rfl
  exact ⟨ses₁, st₁, w₁, ses₂, st₂, w₂, h1, h2, h3, h4, h5 _ _ _
    (fun x hx h => (ex_limitScales hx h).2)
    (fun x hx h => (ex_limitScales (List.mem_append_right _ hx) h).2) (by simp) (by norm_num) [] (by simp) 3⟩

/-- A limit with floating backgrounds, from spectra with other contents below the region. -/
example : ∃ ses₁ st₁ w₁ ses₂ st₂ w₂,
    init Ex.keyOf (Ex.limitArgs [2, 3]) Ex.limitState = (st₁, .ok ses₁) ∧
    init Ex.keyOf (Ex.limitArgs [2, 3]) (Ex.outsideState Ex.limitState) = (st₂, .ok ses₂) ∧
    Fitter.limitInit ⟨ses₁, st₁, Ex.closedSearch⟩ 4 true = (w₁, .ok ()) ∧
    Fitter.limitInit ⟨ses₂, st₂, Ex.closedSearch⟩ 4 true = (w₂, .ok ()) ∧
    ((w₂.afterCalls Ex.fitEnv Ex.toInt 4 []).limitOf Ex.fitEnv Ex.toInt 4 [0, 4, 10, 20] [] none 3).2 =
      ((w₁.afterCalls Ex.fitEnv Ex.toInt 4 [.statistics [4]]).limitOf Ex.fitEnv Ex.toInt 4
        [0, 4, 10, 20] [] none 3).2 := by
  obtain ⟨ses₁, st₁, w₁, ses₂, st₂, w₂, h1, h2, h3, h4, h5⟩ := c162_floating_partial (env := Ex.fitEnv)
    (keyOf := Ex.keyOf) (rnd := Ex.toInt) (vss := Ex.closedValues) (search := Ex.closedSearch)
    (a := Ex.limitArgs [2, 3]) (st := Ex.limitState)
    (st' := Ex.outsideState Ex.limitState) (ex_agreeInside fun _ _ => rfl) (fun _ _ => rfl)
    (ex_limitOn (.inr rfl)) ex_floatEvaluable ex_floatRates made_search
    (.cons ⟨rfl, rfl⟩ (.cons ⟨rfl, rfl⟩ .nil)) made_unrounded
  exact ⟨ses₁, st₁, w₁, ses₂, st₂, w₂, h1, h2, h3, h4, h5 _ _ _
    (fun x hx h => (ex_limitScales hx h).2)
    (fun x hx h => (ex_limitScales (List.mem_append_right _ hx) h).2) (by simp) (by norm_num) [] (by simp) 3⟩

/-- A limit from spectra that have been cut to the range from 1/2 to 2. -/
example : ∃ ses₁ st₁ w₁ ses₂ st₂ w₂, init Ex.keyOf (Ex.limitArgs []) Ex.limitState = (st₁, .ok ses₁) ∧
    init Ex.keyOf (Ex.limitArgs []) (Ex.limitState.afterShrinking Ex.outerKw [4, 0, 1]) =
      (st₂, .ok ses₂) ∧
    Fitter.limitInit ⟨ses₁, st₁, GridSearch.new [] [] none false⟩ 4 true = (w₁, .ok ()) ∧
    Fitter.limitInit ⟨ses₂, st₂, GridSearch.new [] [] none false⟩ 4 true = (w₂, .ok ()) ∧
    ((w₂.afterCalls Ex.fitEnv Ex.toInt 4 []).limitOf Ex.fitEnv Ex.toInt 4 [0, 4, 10, 20] [] none 3).2 =
      ((w₁.afterCalls Ex.fitEnv Ex.toInt 4 [.statistics [4]]).limitOf Ex.fitEnv Ex.toInt 4
        [0, 4, 10, 20] [] none 3).2 := by
  obtain ⟨ses₁, st₁, w₁, ses₂, st₂, w₂, h1, h2, h3, h4, h5⟩ := c162_cut_counting_partial
    (env := Ex.fitEnv) (keyOf := Ex.keyOf) (rnd := Ex.toInt) (a := Ex.limitArgs []) (st := Ex.limitState)
    (ex_limitOn (.inl rfl)) (by simp [Ex.limitArgs]) rfl rfl (GridSearch.new [] [] none false) rfl
    (outer := Ex.outerRange) (by simp [IsDict, Ex.outerRange]) ex_contains ex_outerEdges ex_outerAsks
    (show [4, 0, 1].Perm [0, 4, 1] by decide)
  exact ⟨ses₁, st₁, w₁, ses₂, st₂, w₂, h1, h2, h3, h4, h5 _ _ _
    (fun x hx h => (ex_limitScales hx h).2)
    (fun x hx h => (ex_limitScales (List.mem_append_right _ hx) h).2) (by simp) (by norm_num) [] (by simp) 3⟩

/-- A limit with floating backgrounds, from spectra that have been cut to the range from 1/2 to 2. -/
example : ∃ ses₁ st₁ w₁ ses₂ st₂ w₂,
    init Ex.keyOf (Ex.limitArgs [2, 3]) Ex.limitState = (st₁, .ok ses₁) ∧
    init Ex.keyOf (Ex.limitArgs [2, 3]) (Ex.limitState.afterShrinking Ex.outerKw [4, 3, 2, 1, 0]) =
      (st₂, .ok ses₂) ∧
    Fitter.limitInit ⟨ses₁, st₁, Ex.closedSearch⟩ 4 true = (w₁, .ok ()) ∧
    Fitter.limitInit ⟨ses₂, st₂, Ex.closedSearch⟩ 4 true = (w₂, .ok ()) ∧
    ((w₂.afterCalls Ex.fitEnv Ex.toInt 4 []).limitOf Ex.fitEnv Ex.toInt 4 [0, 4, 10, 20] [] none 3).2 =
      ((w₁.afterCalls Ex.fitEnv Ex.toInt 4 [.statistics [4]]).limitOf Ex.fitEnv Ex.toInt 4
        [0, 4, 10, 20] [] none 3).2 := by
  obtain ⟨ses₁, st₁, w₁, ses₂, st₂, w₂, h1, h2, h3, h4, h5⟩ := c162_cut_floating_partial
    (env := Ex.fitEnv) (keyOf := Ex.keyOf) (rnd := Ex.toInt) (vss := Ex.closedValues)
    (search := Ex.closedSearch) (a := Ex.limitArgs [2, 3]) (st := Ex.limitState)
    (ex_limitOn (.inr rfl)) ex_floatEvaluable ex_floatRates made_search
    (.cons ⟨rfl, rfl⟩ (.cons ⟨rfl, rfl⟩ .nil)) made_unrounded
    (outer := Ex.outerRange) (by simp [IsDict, Ex.outerRange]) ex_contains ex_outerEdges ex_outerAsks
    (show [4, 3, 2, 1, 0].Perm [0, 4, 2, 3, 1] by decide)
  exact ⟨ses₁, st₁, w₁, ses₂, st₂, w₂, h1, h2, h3, h4, h5 _ _ _
    (fun x hx h => (ex_limitScales hx h).2)
    (fun x hx h => (ex_limitScales (List.mem_append_right _ hx) h).2) (by simp) (by norm_num) [] (by simp) 3⟩

end Verif
