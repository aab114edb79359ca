import Verif.Lemmas.SingleBin
import Verif.Props.Outside

/-! # C167: with `single_bin`, only the numbers of events in the region matter -/

namespace Verif

open Session

variable {env : FitEnv} {keyOf : ℕ → PyStr} {a : FitArgs} {ts : List Spectrum} {r d : ℕ}
  {st st' : FitState} {rnd : ℝ → ℚ} {g : GridSearch} {vss : List (List ℝ)}

theorem compared_single (x : NdArray ℚ) : comparedContents true x = [((x.sum : ℚ) : ℝ)] := rfl

/-- Spectra with the same numbers of events are compared in the same way. -/
theorem SameTotals.compared {roi : Dict (ℚ × ℚ)} {qs : List ℕ} (h : SameTotals roi qs st st')
    (hr : IsDict roi) (hc : ∀ q ∈ qs, CanShrink roi (st.view q)) (hdm : d ∈ qs)
    (hax : ∀ q ∈ qs, (st.view q).cfg = (st.view d).cfg) {ns : List PyStr} {c c' : ℕ → NdArray ℚ}
    (h1 : ∀ q ∈ qs, RegionContents roi ns (st.view q) (c q))
    (h2 : ∀ q ∈ qs, RegionContents roi ns (st'.view q) (c' q)) :
    (∀ q ∈ qs, (c q).shape = (c d).shape ∧ (c' q).shape = (c' d).shape) ∧
    (∀ q ∈ qs, (c' q).sum = (c q).sum) := by
  refine ⟨fun q hq => ⟨?_, ?_⟩, fun q hq => ?_⟩
  · exact same_shape hr (hc d hdm) (hc q hq) (hax q hq) (h1 d hdm) (h1 q hq)
  · exact same_shape hr (h.can d hdm) (h.can q hq) (h.axes q hq d hdm (hax q hq)) (h2 d hdm) (h2 q hq)
  · rw [regionContents_total hr (h.can q hq) (h2 q hq), h.totals q hq,
      regionContents_total hr (hc q hq) (h1 q hq)]

theorem background_single {c c' : ℕ → NdArray ℚ} {shape shape' : List ℕ}
    (hs : ∀ q ∈ a.signal.toList ++ a.floating ++ a.fixed.map Prod.fst,
      (c q).shape = shape ∧ (c' q).shape = shape' ∧ (c' q).sum = (c q).sum)
    (hn : ∀ q ∈ a.floating ++ a.fixed.map Prod.fst, (st'.view q).numDecays = (st.view q).numDecays)
    (u : List ℚ) :
    comparedContents true (a.backgroundAt st' c' shape' u) =
      comparedContents true (a.backgroundAt st c shape u) := by
  rw [compared_single, compared_single, sumAt_total (fun q hq => (hs q hq).2.1),
    sumAt_total (fun q hq => (hs q hq).1)]
  have h1 : a.fixed.map (fun e => e.2 / (st'.view e.1).numDecays * (c' e.1).sum) =
      a.fixed.map (fun e => e.2 / (st.view e.1).numDecays * (c e.1).sum) :=
    List.map_congr_left fun e he => by
      have hm : e.1 ∈ a.fixed.map Prod.fst := List.mem_map_of_mem he
      rw [hn e.1 (List.mem_append_right _ hm), (hs e.1 (List.mem_append_right _ hm)).2.2]
  have h2 : List.zipWith (fun r v => v / (st'.view r).numDecays * (c' r).sum) a.floating u =
      List.zipWith (fun r v => v / (st.view r).numDecays * (c r).sum) a.floating u := by
    have h : ∀ q ∈ a.floating, (st'.view q).numDecays = (st.view q).numDecays ∧
        (c' q).sum = (c q).sum := fun q hq =>
      ⟨hn q (List.mem_append_left _ hq), (hs q (by simp [hq])).2.2⟩
    clear * - h
    generalize a.floating = l at h
    induction l generalizing u with
    | nil => simp
    | cons q l ih =>
      cases u with
      | nil => simp
      | cons v u =>
        simp only [List.zipWith_cons_cons]
        rw [(h q (by simp)).1, (h q (by simp)).2, ih u fun q hq => h q (by simp [hq])]
  have h3 : a.signal.toList.map (fun r => (c' r).sum) = a.signal.toList.map (fun r => (c r).sum) :=
    List.map_congr_left fun r hr => (hs r (by simp only [List.mem_append]; tauto)).2.2
  rw [h1, h2, h3]

theorem fixed_single {c c' : ℕ → NdArray ℚ} {shape shape' : List ℕ}
    (hs : ∀ q ∈ a.fixed.map Prod.fst,
      (c q).shape = shape ∧ (c' q).shape = shape' ∧ (c' q).sum = (c q).sum)
    (hn : ∀ q ∈ a.fixed.map Prod.fst, (st'.view q).numDecays = (st.view q).numDecays) :
    comparedContents true (a.fixedTotal st' c' shape') =
      comparedContents true (a.fixedTotal st c shape) := by
  have h := background_single (a := { a with signal := none, floating := [] }) (c := c) (c' := c')
    (st := st) (st' := st') (shape := shape) (shape' := shape') (fun q hq => hs q (by simpa using hq))
    (fun q hq => hn q (by simpa using hq)) []
  have e : ∀ (st : FitState) (c : ℕ → NdArray ℚ) (shape : List ℕ),
      ({ a with signal := none, floating := [] } : FitArgs).backgroundAt st c shape [] =
        a.fixedTotal st c shape := fun st c shape => by
    unfold FitArgs.backgroundAt FitArgs.fixedTotal
    congr 1
    funext idx
    simp [FitArgs.sumAt]
  rwa [e, e] at h

/-- **C167, fits.** A fit with `single_bin` by grid search is made from data, floating backgrounds with one
rate each, and perhaps fixed backgrounds and a signal. Other spectra may have other bins and contents, but
the same numbers of events in the region, and the same numbers of decays except for the data. Then the
first `fit()` of either finds the same values of the rates, the same statistic and the same penalty.
(Partial: the suppositions of C62 and C99; at most one axis is projected out; the values of the rates are
not rounded.) -/
theorem c167_fit_partial (hT : SameTotals (inOrder a.roi) (a.kept ++ a.fixed.map Prod.fst) st st')
    (hdec : ∀ q ∈ a.signal.toList ++ a.floating ++ a.fixed.map Prod.fst,
      (st'.view q).numDecays = (st.view q).numDecays) (hsb : a.singleBin = true)
    (hg : a.Given ts st) (he : a.Evaluable env keyOf d st) (hs : a.Settings st)
    (ho : a.OwnRates st) (hl : (st.view d).cfg.length ≤ a.roi.length + 1)
    (hsearch : RateSearch rnd g vss a.floating.length)
    (hex : ∀ vs ∈ vss, ∀ x ∈ vs, ((rnd x : ℚ) : ℝ) = x) :
    ∃ ses₁ st₁ g₁ raw₁ pen₁ ses₂ st₂ g₂ raw₂ pen₂,
      init keyOf a st = (st₁, .ok ses₁) ∧ init keyOf a st' = (st₂, .ok ses₂) ∧
      (ses₁.fit (fun f => fitGrid env f rnd g) st₁).2 = .ok (.inr (g₁, raw₁, pen₁)) ∧
      (ses₂.fit (fun f => fitGrid env f rnd g) st₂).2 = .ok (.inr (g₂, raw₂, pen₂)) ∧
      g₂.pars.map FitPar.bestFit = g₁.pars.map FitPar.bestFit ∧
      raw₂.ravel = raw₁.ravel ∧ pen₂.ravel = pen₁.ravel := by
  have hreg := inOrder_isDict hg.region
  have hdk : d ∈ a.kept := by simp [FitArgs.kept, he.data]
  have hdm := List.mem_append_left (a.fixed.map Prod.fst) hdk
  have hf : ∀ q ∈ a.floating, q ∈ a.kept ++ a.fixed.map Prod.fst := fun q hq => by
    simp [FitArgs.kept, hq]
  have hax : ∀ q ∈ a.kept ++ a.fixed.map Prod.fst, (st.view q).cfg = (st.view d).cfg := fun q hq => by
    by_cases hqd : q = d
    · rw [hqd]
    · refine he.axes q ?_
      simp only [FitArgs.kept, he.data, Option.toList_some, List.mem_append, List.mem_singleton] at hq ⊢
      tauto
  obtain ⟨ts', hg'⟩ := hT.given hg (fun q hq => hdec q (List.mem_append_right _ hq)) hdk
    fun q hq => he.axes q (List.mem_append_right _ hq)
  have he' := hT.evaluable (fun q hq => hdec q (by
    rcases List.mem_append.1 hq with hq | hq <;> simp only [List.mem_append] <;> tauto)) he
  obtain ⟨ns, hns⟩ := exists_roiNames (hg.able d hdm)
  obtain ⟨c, hc⟩ := exists_contents hreg hg.able ns
  obtain ⟨c', hc'⟩ := exists_contents hreg hT.can ns
  obtain ⟨k1, k2⟩ := hT.compared hreg hg.able hdm hax hc hc'
  have hB := background_single (a := a) (st := st) (st' := st') (c := c) (c' := c') (shape := (c d).shape)
    (shape' := (c' d).shape) (fun q hq => by
      have hq : q ∈ a.kept ++ a.fixed.map Prod.fst := by
        simp only [FitArgs.kept, List.mem_append] at hq ⊢; tauto
      exact ⟨(k1 q hq).1, (k1 q hq).2, k2 q hq⟩)
    (fun q hq => hdec q (by rw [List.append_assoc]; exact List.mem_append_right _ hq))
  obtain ⟨G, hG⟩ := exists_statistics a.stat a.singleBin a st c d rnd
  obtain ⟨ses₁, st₁, g₁, raw₁, pen₁, u₁, i1, i2, i3, i4, i5, i6⟩ :=
    fit_found hg he hs ho hl hns hc hsearch hex fun u _ => hG u
  obtain ⟨ses₂, st₂, g₂, raw₂, pen₂, u₂, j1, j2, j3, j4, j5, j6⟩ :=
    fit_found hg' he' (hT.settings hf hs) (hT.ownRates hf ho) (by rw [hT.length hdm]; exact hl)
      (hT.roiNames hdm hns) hc' hsearch hex (G := G)
      fun u _ => by
        have := hG u
        rw [hsb] at this ⊢
        rw [hB, compared_single, k2 d hdm]
        exact this
  obtain rfl : u₂ = u₁ := i3.unique (fun u _ => by rw [hT.penaltyAt hf]) j3
  refine ⟨ses₁, st₁, g₁, raw₁, pen₁, ses₂, st₂, g₂, raw₂, pen₂, i1, j1, i2, j2, j4.trans i4.symm,
    j5.trans i5.symm, ?_⟩
  rw [j6, i6, hT.penaltyAt hf]

/-- **C167, limits without floating backgrounds.** A fit with `single_bin` is made from data and fixed
backgrounds, and a limit from it and a signal; other spectra have the same numbers of events in the
region. Then the outcome, the limit or `LimitError`, is the same, whatever limits have been set or
statistics asked for before. (Partial: the suppositions of C99; at most one axis is projected out, see
C11.) -/
theorem c167_counting_partial
    (hT : SameTotals (inOrder a.roi) ((a.withSignal r).kept ++ a.fixed.map Prod.fst) st st')
    (hdec : ∀ q ∈ r :: (a.floating ++ a.fixed.map Prod.fst),
      (st'.view q).numDecays = (st.view q).numDecays) (hsb : a.singleBin = true)
    (h : a.LimitOn r d ts st) (hfx : a.fixed ≠ []) (hfl : a.floating = [])
    (hstat : a.statPerBin = false) (search : GridSearch) (hpars : search.pars = []) :
    ∃ ses₁ st₁ w₁ ses₂ st₂ w₂,
      init keyOf a st = (st₁, .ok ses₁) ∧ init keyOf a st' = (st₂, .ok ses₂) ∧
      Fitter.limitInit ⟨ses₁, st₁, search⟩ r true = (w₁, .ok ()) ∧
      Fitter.limitInit ⟨ses₂, st₂, search⟩ r true = (w₂, .ok ()) ∧
      ∀ (calls₁ calls₂ : List LimitCall) (scales : List ℝ), Testable rnd (allScales calls₁ ++ scales) →
      Testable rnd (allScales calls₂ ++ scales) → scales ≠ [] → scales.Pairwise (· < ·) →
      ∀ (sigmas : List (Option ℝ)), (∀ s ∈ sigmas, s ≠ none) → ∀ (limit : ℝ),
      ((w₂.afterCalls env rnd r calls₂).limitOf env rnd r scales sigmas none limit).2 =
        ((w₁.afterCalls env rnd r calls₁).limitOf env rnd r scales sigmas none limit).2 := by
  have hg := h.given
  have hreg := inOrder_isDict hg.region
  have hdm : d ∈ (a.withSignal r).kept ++ a.fixed.map Prod.fst := by simp [FitArgs.kept, h.data]
  have hrm : r ∈ (a.withSignal r).kept ++ a.fixed.map Prod.fst := by simp [FitArgs.kept]
  have hxm : ∀ q ∈ a.fixed.map Prod.fst, q ∈ (a.withSignal r).kept ++ a.fixed.map Prod.fst :=
    fun q hq => List.mem_append_right _ hq
  obtain ⟨ts', h'⟩ := hT.limitOn hdec h
  obtain ⟨ns, hns⟩ := exists_roiNames (hg.able d hdm)
  obtain ⟨c, hc⟩ := exists_contents hreg hg.able ns
  obtain ⟨c', hc'⟩ := exists_contents hreg hT.can ns
  obtain ⟨k1, k2⟩ := hT.compared hreg hg.able hdm h.axes hc hc'
  have hB := fixed_single (a := a) (st := st) (st' := st') (c := c) (c' := c') (shape := (c d).shape)
    (shape' := (c' d).shape) (fun q hq => ⟨(k1 q (hxm q hq)).1, (k1 q (hxm q hq)).2, k2 q (hxm q hq)⟩)
    (fun q hq => hdec q (List.mem_cons_of_mem _ (List.mem_append_right _ hq)))
  have hCd : comparedContents true (c' d) = comparedContents true (c d) := by
    rw [compared_single, k2 d hdm]; rfl
  have hCr : comparedContents true (c' r) = comparedContents true (c r) := by
    rw [compared_single, k2 r hrm]; rfl
  obtain ⟨ses₁, st₁, w₁, i1, i2, i3⟩ := c147_counting_partial (env := env) (keyOf := keyOf) (rnd := rnd) h
    hfx hfl hstat hns hc search hpars
  obtain ⟨ses₂, st₂, w₂, j1, j2, j3⟩ := c147_counting_partial (env := env) (keyOf := keyOf) (rnd := rnd) h'
    hfx hfl hstat (hT.roiNames hdm hns) hc' search hpars
  refine ⟨ses₁, st₁, w₁, ses₂, st₂, w₂, i1, j1, i2, j2, ?_⟩
  intro calls₁ calls₂ scales ht₁ ht₂ hne hs sigmas hsig limit
  rw [hsb] at i3 j3
  obtain ⟨F₀, hF₀⟩ := exists_total a.stat (compared_length true (a := c d)
    (b := a.fixedTotal st c (c d).shape) rfl).symm
  have hF : ∀ x : ℝ, ∃ v, (npCloseReal x 0 → v = F₀) ∧ (¬ npCloseReal x 0 →
      a.stat.Total (comparedContents true (c d))
        (expectedAt (comparedContents true (a.fixedTotal st c (c d).shape))
          (comparedContents true (c r)) ((rnd x : ℝ) / ((st.view r).numDecays : ℝ))) v) := by
    intro x
    by_cases hx : npCloseReal x 0
    · exact ⟨F₀, fun _ => rfl, fun h => absurd hx h⟩
    · obtain ⟨v, hv⟩ := exists_total a.stat (expected_length (sb := true) (o := c d)
        (b := a.fixedTotal st c (c d).shape) rfl (k1 r hrm).1 ((rnd x : ℝ) / ((st.view r).numDecays : ℝ)))
      exact ⟨v, fun h => absurd h hx, fun _ => hv⟩
  choose F hF using hF
  obtain ⟨b, hb, k1, k2⟩ := i3 calls₁ scales ht₁ hne hs F₀ F hF₀ (fun x _ => hF x) sigmas hsig limit
  obtain ⟨b', hb', k1', k2'⟩ := j3 calls₂ scales ht₂ hne hs F₀ F (by
    rw [hB, hCd]; exact hF₀) (fun x _ => ⟨(hF x).1, fun hx => by
      rw [hB, hCd, hCr, hdec r (by simp)]
      exact (hF x).2 hx⟩) sigmas hsig limit
  have hbb : b' = b := by
    obtain ⟨m1, m2⟩ := hb.2 b' hb'.1
    obtain ⟨n1, n2⟩ := hb'.2 b hb.1
    have e := le_antisymm m1 n1
    exact le_antisymm (n2 e) (m2 e.symm)
  exact outcome_eq (fun _ _ => rfl) hbb k1 k2 k1' k2' hs hb.1

/-- **C167, limits with floating backgrounds.** The same for a fit by grid search with floating
backgrounds. (Partial: the suppositions of C99 and C62; at most one axis is projected out; the values of
the rates are not rounded.) -/
theorem c167_floating_partial
    (hT : SameTotals (inOrder a.roi) ((a.withSignal r).kept ++ a.fixed.map Prod.fst) st st')
    (hdec : ∀ q ∈ r :: (a.floating ++ a.fixed.map Prod.fst),
      (st'.view q).numDecays = (st.view q).numDecays) (hsb : a.singleBin = true)
    (h : a.LimitOn r d ts st)
    (he : (a.withSignal r).Evaluable env keyOf d st) (ho : a.OwnRates st) {search : GridSearch}
    (hsearch : RateSearch rnd search vss a.floating.length)
    (hsame : List.Forall₂ (fun p (q : FitPar) => q.prior = (st.params p).prior ∧
      q.sigma = (st.params p).sigma) (a.parameters st) search.pars)
    (hex : ∀ vs ∈ vss, ∀ x ∈ vs, ((rnd x : ℚ) : ℝ) = x) :
    ∃ ses₁ st₁ w₁ ses₂ st₂ w₂,
      init keyOf a st = (st₁, .ok ses₁) ∧ init keyOf a st' = (st₂, .ok ses₂) ∧
      Fitter.limitInit ⟨ses₁, st₁, search⟩ r true = (w₁, .ok ()) ∧
      Fitter.limitInit ⟨ses₂, st₂, search⟩ r true = (w₂, .ok ()) ∧
      ∀ (calls₁ calls₂ : List LimitCall) (scales : List ℝ), Testable rnd (allScales calls₁ ++ scales) →
      Testable rnd (allScales calls₂ ++ scales) → scales ≠ [] → scales.Pairwise (· < ·) →
      ∀ (sigmas : List (Option ℝ)), (∀ s ∈ sigmas, s ≠ none) → ∀ (limit : ℝ),
      ((w₂.afterCalls env rnd r calls₂).limitOf env rnd r scales sigmas none limit).2 =
        ((w₁.afterCalls env rnd r calls₁).limitOf env rnd r scales sigmas none limit).2 := by
  have hg := h.given
  have hreg := inOrder_isDict hg.region
  have hdm : d ∈ (a.withSignal r).kept ++ a.fixed.map Prod.fst := by simp [FitArgs.kept, h.data]
  have hrm : r ∈ (a.withSignal r).kept ++ a.fixed.map Prod.fst := by simp [FitArgs.kept]
  have hf : ∀ q ∈ a.floating, q ∈ (a.withSignal r).kept ++ a.fixed.map Prod.fst := fun q hq => by
    simp [FitArgs.kept, hq]
  have hxm : ∀ q ∈ a.signal.toList ++ a.floating ++ a.fixed.map Prod.fst,
      q ∈ (a.withSignal r).kept ++ a.fixed.map Prod.fst := fun q hq => by
    rw [h.signal] at hq
    simp only [Option.toList_none, List.nil_append, List.mem_append] at hq
    rcases hq with hq | hq
    · exact hf q hq
    · exact List.mem_append_right _ hq
  obtain ⟨ts', h'⟩ := hT.limitOn hdec h
  have he' := SameObjects.evaluable (a := a.withSignal r) hT.toSameObjects (fun q hq => hdec q (by
    rcases List.mem_append.1 hq with hq | hq
    · exact List.mem_cons_of_mem _ (List.mem_append_left _ hq)
    · have : q = r := by simpa using hq
      simp [this])) he
  obtain ⟨ns, hns⟩ := exists_roiNames (hg.able d hdm)
  obtain ⟨c, hc⟩ := exists_contents hreg hg.able ns
  obtain ⟨c', hc'⟩ := exists_contents hreg hT.can ns
  obtain ⟨k1, k2⟩ := hT.compared hreg hg.able hdm h.axes hc hc'
  have hB := background_single (a := a) (st := st) (st' := st') (c := c) (c' := c') (shape := (c d).shape)
    (shape' := (c' d).shape) (fun q hq => ⟨(k1 q (hxm q hq)).1, (k1 q (hxm q hq)).2, k2 q (hxm q hq)⟩)
    (fun q hq => hdec q (List.mem_cons_of_mem _ hq))
  have hCd : comparedContents true (c' d) = comparedContents true (c d) := by
    rw [compared_single, k2 d hdm]; rfl
  have hCr : comparedContents true (c' r) = comparedContents true (c r) := by
    rw [compared_single, k2 r hrm]; rfl
  obtain ⟨ses₁, st₁, w₁, i1, i2, i3⟩ := c147_floating_partial (rnd := rnd) h he ho hns hc hsearch hsame hex
  obtain ⟨ses₂, st₂, w₂, j1, j2, j3⟩ := c147_floating_partial (rnd := rnd) h' he' (hT.ownRates hf ho)
    (hT.roiNames hdm hns) hc' hsearch (by rw [hT.parameters hf, hT.params]; exact hsame) hex
  refine ⟨ses₁, st₁, w₁, ses₂, st₂, w₂, i1, j1, i2, j2, ?_⟩
  intro calls₁ calls₂ scales ht₁ ht₂ hne hs sigmas hsig limit
  rw [hsb] at i3 j3
  obtain ⟨G₀, hG₀⟩ := exists_statistics a.stat true a st c d rnd
  have hG : ∀ (x : ℝ) (u : List ℝ), ∃ v, (npCloseReal x 0 → v = G₀ u) ∧ (¬ npCloseReal x 0 →
      a.stat.Total (comparedContents true (c d))
        (expectedAt (comparedContents true (a.backgroundAt st c (c d).shape (u.map rnd)))
          (comparedContents true (c r)) ((rnd x : ℝ) / ((st.view r).numDecays : ℝ))) v) := by
    intro x u
    by_cases hx : npCloseReal x 0
    · exact ⟨G₀ u, fun _ => rfl, fun h => absurd hx h⟩
    · obtain ⟨v, hv⟩ := exists_total a.stat (expected_length (sb := true) (o := c d)
        (b := a.backgroundAt st c (c d).shape (u.map rnd)) rfl (k1 r hrm).1
        ((rnd x : ℝ) / ((st.view r).numDecays : ℝ)))
      exact ⟨v, fun h => absurd h hx, fun _ => hv⟩
  choose G hG using hG
  obtain ⟨u₀, u, m1, m2, b, hb, k1, k2⟩ := i3 calls₁ scales ht₁ hne hs G₀ G (fun u _ => hG₀ u)
    (fun x _ u _ => hG x u) sigmas hsig limit
  obtain ⟨u₀', u', m1', m2', b', hb', k1', k2'⟩ := j3 calls₂ scales ht₂ hne hs G₀ G (fun u _ => by
    rw [hB, hCd]; exact hG₀ u) (fun x _ u _ => ⟨(hG x u).1, fun hx => by
      rw [hB, hCd, hCr, hdec r (by simp)]
      exact (hG x u).2 hx⟩) sigmas hsig limit
  obtain rfl : u₀' = u₀ := m1.unique (fun u _ => by rw [hT.penaltyAt hf]) m1'
  have huu : ∀ x ∈ scales, u' x = u x := fun x hx =>
    (m2 x hx).unique (fun u _ => by rw [hT.penaltyAt hf]) (m2' x hx)
  have hbb : b' = b := by
    obtain ⟨m1, m2⟩ := hb.2 b' hb'.1
    obtain ⟨n1, n2⟩ := hb'.2 b hb.1
    dsimp only at n1 n2
    rw [huu _ hb.1, huu _ hb'.1] at n1 n2
    have e := le_antisymm m1 n1
    exact le_antisymm (n2 e) (m2 e.symm)
  exact outcome_eq (fun x hx => by rw [huu x hx, hT.penaltyAt hf]) hbb k1 k2 k1' k2' hs hb.1

/-- **C167, fits of rebinned spectra.** Before a fit with `single_bin` is made, all its spectra, in any
order, may be rebinned, as long as the region can still be cut from them at bin edges. Then the first
`fit()` finds the same values of the rates, the same statistic and the same penalty. (Partial: as for
fits.) -/
theorem c167_rebinned_fit_partial (hsb : a.singleBin = true)
    (hg : a.Given ts st) (he : a.Evaluable env keyOf d st) (hs : a.Settings st)
    (ho : a.OwnRates st) (hl : (st.view d).cfg.length ≤ a.roi.length + 1)
    (hsearch : RateSearch rnd g vss a.floating.length)
    (hex : ∀ vs ∈ vss, ∀ x ∈ vs, ((rnd x : ℚ) : ℝ) = x) {bins : List ℕ}
    (herr : ((st.view d).rebin bins).err = none)
    (hcan : CanShrink (inOrder a.roi) ((st.view d).rebin bins).st) {l : List ℕ}
    (hperm : l.Perm (a.kept ++ a.fixed.map Prod.fst)) :
    ∃ ses₁ st₁ g₁ raw₁ pen₁ ses₂ st₂ g₂ raw₂ pen₂,
      init keyOf a st = (st₁, .ok ses₁) ∧ init keyOf a (st.afterRebinning bins l) = (st₂, .ok ses₂) ∧
      (ses₁.fit (fun f => fitGrid env f rnd g) st₁).2 = .ok (.inr (g₁, raw₁, pen₁)) ∧
      (ses₂.fit (fun f => fitGrid env f rnd g) st₂).2 = .ok (.inr (g₂, raw₂, pen₂)) ∧
      g₂.pars.map FitPar.bestFit = g₁.pars.map FitPar.bestFit ∧
      raw₂.ravel = raw₁.ravel ∧ pen₂.ravel = pen₁.ravel := by
  have hax : ∀ q ∈ a.kept ++ a.fixed.map Prod.fst, (st.view q).cfg = (st.view d).cfg := fun q hq => by
    by_cases hqd : q = d
    · rw [hqd]
    · refine he.axes q ?_
      simp only [FitArgs.kept, he.data, Option.toList_some, List.mem_append, List.mem_singleton] at hq ⊢
      tauto
  obtain ⟨hT, hdec⟩ := sameTotals_rebin hg.able (by simp [FitArgs.kept, he.data]) hax herr hcan hperm hg.own
  refine c167_fit_partial hT (fun q hq => hdec q ?_) hsb hg he hs ho hl hsearch hex
  simp only [FitArgs.kept, List.mem_append] at hq ⊢
  tauto

/-- **C167, limits of rebinned spectra, without floating backgrounds.** (Partial: as for limits without
floating backgrounds.) -/
theorem c167_rebinned_counting_partial (hsb : a.singleBin = true)
    (h : a.LimitOn r d ts st) (hfx : a.fixed ≠ []) (hfl : a.floating = [])
    (hstat : a.statPerBin = false) (search : GridSearch) (hpars : search.pars = []) {bins : List ℕ}
    (herr : ((st.view d).rebin bins).err = none)
    (hcan : CanShrink (inOrder a.roi) ((st.view d).rebin bins).st) {l : List ℕ}
    (hperm : l.Perm ((a.withSignal r).kept ++ a.fixed.map Prod.fst)) :
    ∃ ses₁ st₁ w₁ ses₂ st₂ w₂,
      init keyOf a st = (st₁, .ok ses₁) ∧ init keyOf a (st.afterRebinning bins l) = (st₂, .ok ses₂) ∧
      Fitter.limitInit ⟨ses₁, st₁, search⟩ r true = (w₁, .ok ()) ∧
      Fitter.limitInit ⟨ses₂, st₂, search⟩ r true = (w₂, .ok ()) ∧
      ∀ (calls₁ calls₂ : List LimitCall) (scales : List ℝ), Testable rnd (allScales calls₁ ++ scales) →
      Testable rnd (allScales calls₂ ++ scales) → scales ≠ [] → scales.Pairwise (· < ·) →
      ∀ (sigmas : List (Option ℝ)), (∀ s ∈ sigmas, s ≠ none) → ∀ (limit : ℝ),
      ((w₂.afterCalls env rnd r calls₂).limitOf env rnd r scales sigmas none limit).2 =
        ((w₁.afterCalls env rnd r calls₁).limitOf env rnd r scales sigmas none limit).2 := by
  obtain ⟨hT, hdec⟩ := sameTotals_rebin h.given.able (by simp [FitArgs.kept, h.data]) h.axes herr hcan hperm
    h.given.own
  refine c167_counting_partial (a := a) hT (fun q hq => hdec q ?_) hsb h hfx hfl hstat search hpars
  simp only [FitArgs.kept, List.mem_append, List.mem_cons, Option.toList_some, List.not_mem_nil,
    or_false] at hq ⊢
  tauto

/-- **C167, limits of rebinned spectra, with floating backgrounds.** (Partial: as for limits with floating
backgrounds.) -/
theorem c167_rebinned_floating_partial (hsb : a.singleBin = true) (h : a.LimitOn r d ts st)
    (he : (a.withSignal r).Evaluable env keyOf d st) (ho : a.OwnRates st) {search : GridSearch}
    (hsearch : RateSearch rnd search vss a.floating.length)
    (hsame : List.Forall₂ (fun p (q : FitPar) => q.prior = (st.params p).prior ∧
      q.sigma = (st.params p).sigma) (a.parameters st) search.pars)
    (hex : ∀ vs ∈ vss, ∀ x ∈ vs, ((rnd x : ℚ) : ℝ) = x) {bins : List ℕ}
    (herr : ((st.view d).rebin bins).err = none)
    (hcan : CanShrink (inOrder a.roi) ((st.view d).rebin bins).st) {l : List ℕ}
    (hperm : l.Perm ((a.withSignal r).kept ++ a.fixed.map Prod.fst)) :
    ∃ ses₁ st₁ w₁ ses₂ st₂ w₂,
      init keyOf a st = (st₁, .ok ses₁) ∧ init keyOf a (st.afterRebinning bins l) = (st₂, .ok ses₂) ∧
      Fitter.limitInit ⟨ses₁, st₁, search⟩ r true = (w₁, .ok ()) ∧
      Fitter.limitInit ⟨ses₂, st₂, search⟩ r true = (w₂, .ok ()) ∧
      ∀ (calls₁ calls₂ : List LimitCall) (scales : List ℝ), Testable rnd (allScales calls₁ ++ scales) →
      Testable rnd (allScales calls₂ ++ scales) → scales ≠ [] → scales.Pairwise (· < ·) →
      ∀ (sigmas : List (Option ℝ)), (∀ s ∈ sigmas, s ≠ none) → ∀ (limit : ℝ),
      ((w₂.afterCalls env rnd r calls₂).limitOf env rnd r scales sigmas none limit).2 =
        ((w₁.afterCalls env rnd r calls₁).limitOf env rnd r scales sigmas none limit).2 := by
  obtain ⟨hT, hdec⟩ := sameTotals_rebin h.given.able (by simp [FitArgs.kept, h.data]) h.axes herr hcan hperm
    h.given.own
  refine c167_floating_partial (a := a) hT (fun q hq => hdec q ?_) hsb h he ho hsearch hsame hex
  simp only [FitArgs.kept, List.mem_append, List.mem_cons, Option.toList_some, List.not_mem_nil,
    or_false] at hq ⊢
  tauto

namespace Ex

/-- The fit of C62's example, with `single_bin`. -/
def singleWhole : FitArgs := { exWhole with singleBin := true }

/-- The fit of C147's example, with `single_bin`. -/
def singleArgs (floating : List ℕ) : FitArgs := { limitArgs floating with singleBin := true }

/-- The same spectra with the contents of the two bins of the region exchanged. -/
noncomputable def swapState (st : FitState) : FitState := { st with
  objs := fun r => { st.objs r with
    data := ⟨(st.objs r).data.shape, fun idx => if idx = [2] then (st.objs r).data.get [3] else
      if idx = [3] then (st.objs r).data.get [2] else (st.objs r).data.get idx⟩ } }

end Ex

theorem single_given : Ex.singleWhole.Given
    [(((Ex.madeState.view 1).shrink exFitKw).st.scale 20).st] Ex.madeState :=
  ⟨made_given.1, made_given.2, made_given.3, made_given.4, made_given.5, made_given.6⟩

theorem single_evaluable : Ex.singleWhole.Evaluable Ex.fitEnv Ex.keyOf 0 Ex.madeState :=
  have h := made_evaluable
  ⟨h.1, h.2, h.3, h.4, h.5, h.6, h.7, h.8, h.9, h.10, h.11⟩

theorem single_settings : Ex.singleWhole.Settings Ex.madeState :=
  ⟨made_settings.1, made_settings.2, made_settings.3, made_settings.4⟩

theorem single_rates : Ex.singleWhole.OwnRates Ex.madeState :=
  have h := made_ratesOnly.toOwnRates
  ⟨h.1, h.2, h.3, h.4, h.5, h.6⟩

theorem single_limitOn {floating : List ℕ} (hf : floating = [] ∨ floating = [2, 3]) :
    (Ex.singleArgs floating).LimitOn 4 0
      [(((Ex.limitState.view 1).shrink exFitKw).st.scale 20).st] Ex.limitState :=
  have h := ex_limitOn hf
  ⟨⟨h.1.1, h.1.2, h.1.3, h.1.4, h.1.5, h.1.6⟩, ⟨h.2.1, h.2.2, h.2.3, h.2.4⟩, h.3, h.4, h.5, h.6, h.7, h.8⟩

theorem single_floatEvaluable : ((Ex.singleArgs [2, 3]).withSignal 4).Evaluable Ex.fitEnv Ex.keyOf 0
    Ex.limitState :=
  have h := ex_floatEvaluable
  ⟨h.1, h.2, h.3, h.4, h.5, h.6, h.7, h.8, h.9, h.10, h.11⟩

theorem single_floatRates : (Ex.singleArgs [2, 3]).OwnRates Ex.limitState :=
  have h := ex_floatRates
  ⟨h.1, h.2, h.3, h.4, h.5, h.6⟩

/-- The axis from 0 to 2 may be rebinned from four bins to two. -/
theorem ex_rebinned {s : Spectrum} (h : s.cfg = [Ex.fitAxis]) (hs : s.data.shape = [4]) :
    (s.rebin [2]).err = none ∧
    CanShrink (inOrder [(lit "energy", ((2 : ℚ), (1 : ℚ)))]) (s.rebin [2]).st := by
  have hw := (ex_canShrink h hs).wf
  have herr : (s.rebin [2]).err = none := (rebin_err_none_iff hw).2 (by
    rw [h]
    exact .cons (by norm_num [Ex.fitAxis]) .nil)
  have hc : (s.rebin [2]).st.cfg = [{ Ex.fitAxis with bins := 2 }] := by
    rw [((c13_rebin s hw [2]).2 herr).2.1, h]
    rfl
  refine ⟨herr, ?_⟩
  rw [exInit_roi]
  exact {
    wf := rebin_wf hw herr
    aligned := by
      rw [hc]
      intro p hp
      rw [List.mem_singleton.1 hp]
      exact ⟨0, by simp [Ex.fitAxis]⟩
    dims := by
      rw [hc]
      intro p hp q hq d _ _
      rw [List.mem_singleton.1 hp, List.mem_singleton.1 hq]
    edges := by
      rw [hc]
      intro e he p hp _
      rw [List.mem_singleton.1 he, List.mem_singleton.1 hp]
      exact ⟨1, 2, by decide, by norm_num, by norm_num [SPar.edge, SPar.width, Ex.fitAxis],
        by norm_num [SPar.edge, SPar.width, Ex.fitAxis]⟩
    has := by
      intro e he
      rw [hc, List.mem_singleton.1 he]
      exact ⟨_, List.mem_singleton_self _, ex_energy_mc⟩ }

/-- The number of events in the region from 1 to 2. -/
theorem ex_regionTotal {s : Spectrum} (h : s.cfg = [Ex.fitAxis]) (hs : s.data.shape = [4]) :
    regionTotal (inOrder [(lit "energy", ((2 : ℚ), (1 : ℚ)))]) s = s.data.get [2] + s.data.get [3] := by
  have hin : ∀ i : ℕ, i < 4 → (InRegion (inOrder [(lit "energy", ((2 : ℚ), (1 : ℚ)))]) s.cfg [i] ↔ 2 ≤ i) := by
    intro i hi
    rw [h]
    constructor
    · intro hr
      obtain ⟨i', rest, h1, h2, e⟩ := List.forall₂_cons_left_iff.1 hr
      cases e
      have h := (h1 (lit "energy", (min 2 1, max 2 1)) (by simp [inOrder]) ⟨lit "mc", by decide, rfl⟩).1
      by_contra hlt
      have : (i : ℚ) ≤ 1 := by exact_mod_cast (show i ≤ 1 by omega)
      norm_num [SPar.edge, Ex.fitAxis] at h
      linarith
    · intro h2
      refine .cons (fun e he _ => ?_) .nil
      have : e = (lit "energy", (min 2 1, max 2 1)) := by simpa [inOrder] using he
      subst this
      have h2' : (2 : ℚ) ≤ i := by exact_mod_cast h2
      have h4' : (i : ℚ) + 1 ≤ 4 := by exact_mod_cast hi
      constructor <;> norm_num [SPar.edge, Ex.fitAxis] <;> linarith
  unfold regionTotal
  rw [hs]
  simp [sumIdx, hin, Finset.sum_range_succ]

/-- Exchanging the contents of the bins of the region keeps the number of events in it. -/
theorem ex_swapped {st : FitState} {qs : List ℕ} (hc : ∀ q ∈ qs, (st.view q).cfg = [Ex.fitAxis])
    (hs : ∀ q ∈ qs, (st.view q).data.shape = [4]) :
    SameTotals (inOrder [(lit "energy", ((2 : ℚ), (1 : ℚ)))]) qs st (Ex.swapState st) where
  next := rfl
  params := rfl
  cache := rfl
  rest _ _ := ⟨rfl, rfl, rfl⟩
  can q hq := by
    rw [exInit_roi]
    exact ex_canShrink (hc q hq) (hs q hq)
  names _ _ := rfl
  axes _ _ _ _ h := h
  totals q hq := by
    have e : (st.objs q).data.shape = [4] := hs q hq
    rw [ex_regionTotal (hc q hq) (hs q hq), ex_regionTotal (s := (Ex.swapState st).view q) (hc q hq) (hs q hq)]
    have i2 : InB (st.objs q).data.shape [2] := by rw [e]; exact .cons (by norm_num) .nil
    have i3 : InB (st.objs q).data.shape [3] := by rw [e]; exact .cons (by norm_num) .nil
    show (NdArray.norm (((Ex.swapState st).objs q).data)).get [2] +
      (NdArray.norm (((Ex.swapState st).objs q).data)).get [3] =
      (NdArray.norm (st.objs q).data).get [2] + (NdArray.norm (st.objs q).data).get [3]
    rw [NdArray.norm_get i2, NdArray.norm_get i3]
    rw [NdArray.norm_get (a := ((Ex.swapState st).objs q).data) i2,
      NdArray.norm_get (a := ((Ex.swapState st).objs q).data) i3]
    simp [Ex.swapState, add_comm]

theorem made_shapes : ∀ q ∈ Ex.singleWhole.kept ++ Ex.singleWhole.fixed.map Prod.fst,
    (Ex.madeState.view q).data.shape = [4] := by
  intro q hq
  have : q ∈ [0, 4, 2, 3, 1] := hq
  simp only [List.mem_cons, List.not_mem_nil, or_false] at this
  rcases this with rfl | rfl | rfl | rfl | rfl <;> rfl

theorem limit_shapes {floating : List ℕ} (hf : floating = [] ∨ floating = [2, 3]) :
    ∀ q ∈ ((Ex.singleArgs floating).withSignal 4).kept ++ (Ex.singleArgs floating).fixed.map Prod.fst,
    (Ex.limitState.view q).data.shape = [4] := by
  intro q hq
  have : q ∈ [0, 4, 2, 3, 1] := by
    rcases hf with rfl | rfl
    · have : q ∈ [0, 4, 1] := hq
      simp only [List.mem_cons, List.not_mem_nil, or_false] at this ⊢
      tauto
    · exact hq
  simp only [List.mem_cons, List.not_mem_nil, or_false] at this
  rcases this with rfl | rfl | rfl | rfl | rfl <;> rfl

/-- A fit of spectra with the two bins of the region exchanged. -/
example : ∃ ses₁ st₁ g₁ raw₁ pen₁ ses₂ st₂ g₂ raw₂ pen₂,
    init Ex.keyOf Ex.singleWhole Ex.madeState = (st₁, .ok ses₁) ∧
    init Ex.keyOf Ex.singleWhole (Ex.swapState Ex.madeState) = (st₂, .ok ses₂) ∧
    (ses₁.fit (fun f => fitGrid Ex.fitEnv f Ex.toInt Ex.closedSearch) st₁).2 =
      .ok (.inr (g₁, raw₁, pen₁)) ∧
    (ses₂.fit (fun f => fitGrid Ex.fitEnv f Ex.toInt Ex.closedSearch) st₂).2 =
      .ok (.inr (g₂, raw₂, pen₂)) ∧
    g₂.pars.map FitPar.bestFit = g₁.pars.map FitPar.bestFit ∧
    raw₂.ravel = raw₁.ravel ∧ pen₂.ravel = pen₁.ravel :=
  c167_fit_partial (ex_swapped (fun _ _ => rfl) made_shapes) (fun _ _ => rfl) rfl single_given
    single_evaluable single_settings single_rates
    (by simp [FitState.view, Ex.madeState, Ex.fitState, Ex.singleWhole, exWhole]) made_search made_unrounded

/-- A fit of spectra that have been rebinned from four bins to two. -/
example : ∃ ses₁ st₁ g₁ raw₁ pen₁ ses₂ st₂ g₂ raw₂ pen₂,
    init Ex.keyOf Ex.singleWhole Ex.madeState = (st₁, .ok ses₁) ∧
    init Ex.keyOf Ex.singleWhole (Ex.madeState.afterRebinning [2] [3, 2, 1, 0, 4]) = (st₂, .ok ses₂) ∧
    (ses₁.fit (fun f => fitGrid Ex.fitEnv f Ex.toInt Ex.closedSearch) st₁).2 =
      .ok (.inr (g₁, raw₁, pen₁)) ∧
    (ses₂.fit (fun f => fitGrid Ex.fitEnv f Ex.toInt Ex.closedSearch) st₂).2 =
      .ok (.inr (g₂, raw₂, pen₂)) ∧
    g₂.pars.map FitPar.bestFit = g₁.pars.map FitPar.bestFit ∧
    raw₂.ravel = raw₁.ravel ∧ pen₂.ravel = pen₁.ravel :=
  c167_rebinned_fit_partial rfl single_given single_evaluable single_settings single_rates
    (by simp [FitState.view, Ex.madeState, Ex.fitState, Ex.singleWhole, exWhole]) made_search made_unrounded
    (ex_rebinned rfl (made_shapes 0 (List.mem_cons_self ..))).1 (ex_rebinned rfl (made_shapes 0 (List.mem_cons_self ..))).2
    (by show [3, 2, 1, 0, 4].Perm [0, 4, 2, 3, 1]; decide)

/-- A limit from spectra with the two bins of the region exchanged. -/
example : ∃ ses₁ st₁ w₁ ses₂ st₂ w₂, init Ex.keyOf (Ex.singleArgs []) Ex.limitState = (st₁, .ok ses₁) ∧
    init Ex.keyOf (Ex.singleArgs []) (Ex.swapState Ex.limitState) = (st₂, .ok ses₂) ∧
    Fitter.limitInit ⟨ses₁, st₁, GridSearch.new [] [] none false⟩ 4 true = (w₁, .ok ()) ∧
    Fitter.limitInit ⟨ses₂, st₂, GridSearch.new [] [] none false⟩ 4 true = (w₂, .ok ()) ∧
    ((w₂.afterCalls Ex.fitEnv Ex.toInt 4 []).limitOf Ex.fitEnv Ex.toInt 4 [0, 4, 10, 20] [] none 3).2 =
      ((w₁.afterCalls Ex.fitEnv Ex.toInt 4 [.statistics [4]]).limitOf Ex.fitEnv Ex.toInt 4
        [0, 4, 10, 20] [] none 3).2 := by
  obtain ⟨ses₁, st₁, w₁, ses₂, st₂, w₂, h1, h2, h3, h4, h5⟩ := c167_counting_partial (env := Ex.fitEnv)
    (keyOf := Ex.keyOf) (rnd := Ex.toInt) (a := Ex.singleArgs []) (st := Ex.limitState)
    (st' := Ex.swapState Ex.limitState) (ex_swapped (fun _ _ => rfl) (limit_shapes (.inl rfl)))
    (fun _ _ => rfl) rfl (single_limitOn (.inl rfl)) (by simp [Ex.singleArgs, Ex.limitArgs]) rfl rfl
    (GridSearch.new [] [] none false) rfl
  exact ⟨ses₁, st₁, w₁, ses₂, st₂, w₂, h1, h2, h3, h4, h5 _ _ _
    (fun x hx h => (ex_limitScales hx h).2)
    (fun x hx h => (ex_limitScales (List.mem_append_right _ hx) h).2) (by simp) (by norm_num) [] (by simp) 3⟩

/-- A limit from spectra that have been rebinned from four bins to two. -/
example : ∃ ses₁ st₁ w₁ ses₂ st₂ w₂, init Ex.keyOf (Ex.singleArgs []) Ex.limitState = (st₁, .ok ses₁) ∧
    init Ex.keyOf (Ex.singleArgs []) (Ex.limitState.afterRebinning [2] [4, 0, 1]) = (st₂, .ok ses₂) ∧
    Fitter.limitInit ⟨ses₁, st₁, GridSearch.new [] [] none false⟩ 4 true = (w₁, .ok ()) ∧
    Fitter.limitInit ⟨ses₂, st₂, GridSearch.new [] [] none false⟩ 4 true = (w₂, .ok ()) ∧
    ((w₂.afterCalls Ex.fitEnv Ex.toInt 4 []).limitOf Ex.fitEnv Ex.toInt 4 [0, 4, 10, 20] [] none 3).2 =
      ((w₁.afterCalls Ex.fitEnv Ex.toInt 4 [.statistics [4]]).limitOf Ex.fitEnv Ex.toInt 4
        [0, 4, 10, 20] [] none 3).2 := by
  have hr := ex_rebinned (s := Ex.limitState.view 0) rfl (limit_shapes (.inl rfl) 0 (by simp [FitArgs.kept,
    Ex.singleArgs, Ex.limitArgs]))
  obtain ⟨ses₁, st₁, w₁, ses₂, st₂, w₂, h1, h2, h3, h4, h5⟩ := c167_rebinned_counting_partial
    (env := Ex.fitEnv) (keyOf := Ex.keyOf) (rnd := Ex.toInt) (a := Ex.singleArgs []) (st := Ex.limitState)
    rfl (single_limitOn (.inl rfl)) (by simp [Ex.singleArgs, Ex.limitArgs]) rfl rfl
    (GridSearch.new [] [] none false) rfl hr.1 hr.2 (show [4, 0, 1].Perm [0, 4, 1] by decide)
  exact ⟨ses₁, st₁, w₁, ses₂, st₂, w₂, h1, h2, h3, h4, h5 _ _ _
    (fun x hx h => (ex_limitScales hx h).2)
    (fun x hx h => (ex_limitScales (List.mem_append_right _ hx) h).2) (by simp) (by norm_num) [] (by simp) 3⟩

/-- A limit with floating backgrounds, from spectra with the two bins of the region exchanged. -/
example : ∃ ses₁ st₁ w₁ ses₂ st₂ w₂,
    init Ex.keyOf (Ex.singleArgs [2, 3]) Ex.limitState = (st₁, .ok ses₁) ∧
    init Ex.keyOf (Ex.singleArgs [2, 3]) (Ex.swapState Ex.limitState) = (st₂, .ok ses₂) ∧
    Fitter.limitInit ⟨ses₁, st₁, Ex.closedSearch⟩ 4 true = (w₁, .ok ()) ∧
    Fitter.limitInit ⟨ses₂, st₂, Ex.closedSearch⟩ 4 true = (w₂, .ok ()) ∧
    ((w₂.afterCalls Ex.fitEnv Ex.toInt 4 []).limitOf Ex.fitEnv Ex.toInt 4 [0, 4, 10, 20] [] none 3).2 =
      ((w₁.afterCalls Ex.fitEnv Ex.toInt 4 [.statistics [4]]).limitOf Ex.fitEnv Ex.toInt 4
        [0, 4, 10, 20] [] none 3).2 := by
  obtain ⟨ses₁, st₁, w₁, ses₂, st₂, w₂, h1, h2, h3, h4, h5⟩ := c167_floating_partial (env := Ex.fitEnv)
    (keyOf := Ex.keyOf) (rnd := Ex.toInt) (vss := Ex.closedValues) (search := Ex.closedSearch)
    (a := Ex.singleArgs [2, 3]) (st := Ex.limitState)
    (st' := Ex.swapState Ex.limitState) (ex_swapped (fun _ _ => rfl) (limit_shapes (.inr rfl)))
    (fun _ _ => rfl) rfl (single_limitOn (.inr rfl)) single_floatEvaluable single_floatRates made_search
    (.cons ⟨rfl, rfl⟩ (.cons ⟨rfl, rfl⟩ .nil)) made_unrounded
  exact ⟨ses₁, st₁, w₁, ses₂, st₂, w₂, h1, h2, h3, h4, h5 _ _ _
    (fun x hx h => (ex_limitScales hx h).2)
    (fun x hx h => (ex_limitScales (List.mem_append_right _ hx) h).2) (by simp) (by norm_num) [] (by simp) 3⟩

/-- A limit with floating backgrounds, from spectra that have been rebinned from four bins to two. -/
example : ∃ ses₁ st₁ w₁ ses₂ st₂ w₂,
    init Ex.keyOf (Ex.singleArgs [2, 3]) Ex.limitState = (st₁, .ok ses₁) ∧
    init Ex.keyOf (Ex.singleArgs [2, 3]) (Ex.limitState.afterRebinning [2] [4, 3, 2, 1, 0]) =
      (st₂, .ok ses₂) ∧
    Fitter.limitInit ⟨ses₁, st₁, Ex.closedSearch⟩ 4 true = (w₁, .ok ()) ∧
    Fitter.limitInit ⟨ses₂, st₂, Ex.closedSearch⟩ 4 true = (w₂, .ok ()) ∧
    ((w₂.afterCalls Ex.fitEnv Ex.toInt 4 []).limitOf Ex.fitEnv Ex.toInt 4 [0, 4, 10, 20] [] none 3).2 =
      ((w₁.afterCalls Ex.fitEnv Ex.toInt 4 [.statistics [4]]).limitOf Ex.fitEnv Ex.toInt 4
        [0, 4, 10, 20] [] none 3).2 := by
  have hr := ex_rebinned (s := Ex.limitState.view 0) rfl (limit_shapes (.inr rfl) 0 (by simp [FitArgs.kept,
    Ex.singleArgs, Ex.limitArgs]))
  obtain ⟨ses₁, st₁, w₁, ses₂, st₂, w₂, h1, h2, h3, h4, h5⟩ := c167_rebinned_floating_partial
    (env := Ex.fitEnv) (keyOf := Ex.keyOf) (rnd := Ex.toInt) (vss := Ex.closedValues)
    (search := Ex.closedSearch) (a := Ex.singleArgs [2, 3]) (st := Ex.limitState) rfl
    (single_limitOn (.inr rfl)) single_floatEvaluable single_floatRates made_search
    (.cons ⟨rfl, rfl⟩ (.cons ⟨rfl, rfl⟩ .nil)) made_unrounded hr.1 hr.2
    (show [4, 3, 2, 1, 0].Perm [0, 4, 2, 3, 1] by decide)
  exact ⟨ses₁, st₁, w₁, ses₂, st₂, w₂, h1, h2, h3, h4, h5 _ _ _
    (fun x hx h => (ex_limitScales hx h).2)
    (fun x hx h => (ex_limitScales (List.mem_append_right _ hx) h).2) (by simp) (by norm_num) [] (by simp) 3⟩

end Verif
