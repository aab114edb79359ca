import Verif.Lemmas.Normalise
import Verif.Props.FitFound
import Verif.Props.LimitFloating

/-! # C153: results do not depend on the numbers of decays the spectra have been scaled to -/

namespace Verif

open Session

variable {env : FitEnv} {keyOf : ℕ → PyStr} {a : FitArgs} {ts : List Spectrum} {r d : ℕ}
  {st : FitState} {rnd : ℝ → ℚ} {g : GridSearch} {vss : List (List ℝ)}

theorem exists_roiNames {roi : Dict (ℚ × ℚ)} {s : Spectrum} (h : CanShrink roi s) :
    ∃ ns, RoiNames s.cfg roi ns := by
  have h := h.has
  clear * - h
  induction roi with
  | nil => exact ⟨[], .nil⟩
  | cons e roi ih =>
    obtain ⟨p, hp, hd⟩ := h e (by simp)
    obtain ⟨ns, hns⟩ := ih fun e he => h e (by simp [he])
    exact ⟨p.name :: ns, .cons ⟨hd, p, hp, rfl⟩ hns⟩

theorem exists_regionContents {roi : Dict (ℚ × ℚ)} (hr : IsDict roi) {s : Spectrum}
    (h : CanShrink roi s) (ns : List PyStr) : ∃ c, RegionContents roi ns s c := by
  obtain ⟨kw, hk⟩ := h.asks
  obtain ⟨rs, -, -, h3, -⟩ := h.shrunk hr hk
  exact ⟨⟨_, _⟩, (s.shrink kw).st, ⟨kw, hk, h3, ⟨⟨rfl, rfl, rfl, rfl, rfl⟩, rfl, fun _ _ => rfl⟩⟩, rfl,
    fun _ _ => rfl⟩

theorem exists_contents {roi : Dict (ℚ × ℚ)} (hr : IsDict roi) {qs : List ℕ} {v : ℕ → Spectrum}
    (h : ∀ q ∈ qs, CanShrink roi (v q)) (ns : List PyStr) :
    ∃ c : ℕ → NdArray ℚ, ∀ q ∈ qs, RegionContents roi ns (v q) (c q) := by
  have : ∀ q, ∃ c, q ∈ qs → RegionContents roi ns (v q) c := fun q => by
    by_cases hq : q ∈ qs
    · obtain ⟨c, hc⟩ := exists_regionContents hr (h q hq) ns
      exact ⟨c, fun _ => hc⟩
    · exact ⟨⟨[], fun _ => 0⟩, fun hm => absurd hm hq⟩
  choose c hc using this
  exact ⟨c, hc⟩

/-- The factors by which the contents of the region are multiplied. -/
theorem contents_after {st' : FitState} (hR : Renormalised st st') {roi : Dict (ℚ × ℚ)} (hr : IsDict roi)
    {qs : List ℕ} (hq : ∀ q ∈ qs, CanShrink roi (st.view q)) {ns : List PyStr} {c : ℕ → NdArray ℚ}
    (hc : ∀ q ∈ qs, RegionContents roi ns (st.view q) (c q)) :
    ∃ k : ℕ → ℚ, (∀ q, k q ≠ 0) ∧ (∀ q, st'.view q = st.view q → k q = 1) ∧
      (∀ q, (st'.view q).numDecays = k q * (st.view q).numDecays) ∧
      ∀ q ∈ qs, RegionContents roi ns (st'.view q) ((c q).smul (k q)) := by
  obtain ⟨k, hk⟩ := hR.contents
  exact ⟨k, fun q => (hk q).1, fun q => (hk q).2.1, fun q => (hk q).2.2.1,
    fun q hm => (hk q).2.2.2 roi ns _ hr (hq q hm) (hc q hm)⟩

theorem smul_one_array (c : NdArray ℚ) : c.smul 1 = c := by simp [NdArray.smul]

theorem expected_scaled {sb : Bool} {b s : NdArray ℚ} (hs : s.shape = b.shape) {k : ℚ} (hk : k ≠ 0)
    (q n : ℚ) : expectedAt (comparedContents sb b) (comparedContents sb (s.smul k))
        ((q : ℝ) / ((k * n : ℚ) : ℝ)) =
      expectedAt (comparedContents sb b) (comparedContents sb s) ((q : ℝ) / (n : ℝ)) := by
  have e1 : (q : ℝ) / ((k * n : ℚ) : ℝ) = ((q / (k * n) : ℚ) : ℝ) := by push_cast; rfl
  have e2 : (q : ℝ) / (n : ℝ) = ((q / n : ℚ) : ℝ) := by push_cast; rfl
  rw [e1, e2, ← compared_add (s := s) (t := ⟨s.shape, fun idx => q / n * s.get idx⟩) hs
    ⟨rfl, fun _ _ => rfl⟩, ← compared_add (s := s.smul k) (t := ⟨s.shape, fun idx => q / n * s.get idx⟩)
    hs ⟨rfl, fun idx _ => (term_scaled hk q n (s.get idx)).symm⟩]

theorem expected_length {sb : Bool} {b s o : NdArray ℚ} (hb : b.shape = o.shape) (hs : s.shape = o.shape)
    (x : ℝ) : (comparedContents sb o).length =
      (expectedAt (comparedContents sb b) (comparedContents sb s) x).length := by
  unfold expectedAt
  rw [List.length_zipWith, compared_length sb hb, compared_length sb hs, Nat.min_self]

theorem exists_statistics (s : Stat) (sb : Bool) (a : FitArgs) (st : FitState) (c : ℕ → NdArray ℚ)
    (d : ℕ) (rnd : ℝ → ℚ) : ∃ G : List ℝ → ℝ, ∀ u, s.Total (comparedContents sb (c d))
      (comparedContents sb (a.backgroundAt st c (c d).shape (u.map rnd))) (G u) := by
  have : ∀ u : List ℝ, ∃ v, s.Total (comparedContents sb (c d))
      (comparedContents sb (a.backgroundAt st c (c d).shape (u.map rnd))) v := fun u =>
    exists_total _ (compared_length _ (a := c d)
      (b := a.backgroundAt st c (c d).shape (u.map rnd)) rfl).symm
  choose G hG using this
  exact ⟨G, hG⟩

theorem same_shape {roi : Dict (ℚ × ℚ)} (hr : IsDict roi) {ns : List PyStr} {s t : Spectrum}
    {c e : NdArray ℚ} (hs : CanShrink roi s) (ht : CanShrink roi t) (hcfg : t.cfg = s.cfg)
    (hc : RegionContents roi ns s c) (he : RegionContents roi ns t e) : e.shape = c.shape := by
  obtain ⟨_, _, _, _, _, h⟩ := regionContents_kernel hr hs hc
  exact (h t e ht hcfg he).1

/-- The signal and the backgrounds of a limit may be scaled. -/
theorem limit_scaled (h : a.LimitOn r d ts st) {l : List (ℕ × ℚ)}
    (hmem : ∀ e ∈ l, e.1 ∈ r :: (a.floating ++ a.fixed.map Prod.fst) ∧ e.2 ≠ 0)
    (hfl : ∀ q ∈ a.floating, (st.view q).numDecays ≠ 0) :
    Renormalised st (st.afterScaling l) ∧ (st.afterScaling l).view d = st.view d := by
  have hg := h.given
  have hreg := inOrder_isDict hg.region
  have hN : ∀ e ∈ l, (st.view e.1).numDecays ≠ 0 ∧ e.2 ≠ 0 := fun e hm => by
    obtain ⟨h1, h2⟩ := hmem e hm
    refine ⟨?_, h2⟩
    rcases List.mem_cons.1 h1 with h1 | h1
    · rw [h1]; exact h.decays
    rcases List.mem_append.1 h1 with h1 | h1
    · exact hfl _ h1
    · obtain ⟨x, hx, hx'⟩ := List.mem_map.1 h1
      obtain ⟨t, -, ht⟩ := forall₂_mem_left hg.fixed.shrunk hx
      rw [← hx']
      exact ht.decays hreg (hg.able _ (List.mem_append_right _ (List.mem_map_of_mem hx)))
  obtain ⟨hR, hkeep⟩ := renormalised_after hN
  refine ⟨hR, hkeep d fun hm => ?_⟩
  obtain ⟨e, he', hd⟩ := List.mem_map.1 hm
  have hown := hg.own
  have e1 : (a.withSignal r).kept ++ a.fixed.map Prod.fst =
      d :: (r :: (a.floating ++ a.fixed.map Prod.fst)) := by
    simp [FitArgs.kept, h.data]
  rw [show (a.withSignal r).fixed = a.fixed from rfl, e1, List.map_cons, List.nodup_cons] at hown
  exact hown.1 (hd ▸ List.mem_map_of_mem (hmem e he').1)

/-- Outcomes that are the same crossing, or `LimitError`. -/
theorem outcome_eq {R R' : Except PyErr ℝ} {scales : List ℝ} {F F' : ℝ → ℝ} {b b' limit : ℝ}
    (hF : ∀ x ∈ scales, F' x = F x) (hb : b' = b)
    (h1 : ∀ x, R = .ok x ↔ FirstCrossing scales F b limit x)
    (h2 : R = .error .limitError ↔ ∀ y ∈ scales, b ≤ y → F y ≤ limit)
    (h1' : ∀ x, R' = .ok x ↔ FirstCrossing scales F' b' limit x)
    (h2' : R' = .error .limitError ↔ ∀ y ∈ scales, b' ≤ y → F' y ≤ limit)
    (hs : scales.Pairwise (· < ·)) (hmem : b ∈ scales) : R' = R := by
  subst hb
  have e1 : ∀ x, R' = .ok x ↔ R = .ok x := fun x => by
    rw [h1, h1']
    unfold FirstCrossing
    constructor
    · rintro ⟨a1, a2, a3, a4⟩
      exact ⟨a1, a2, hF x a1 ▸ a3, fun y hy hb hl => hF y hy ▸ a4 y hy hb hl⟩
    · rintro ⟨a1, a2, a3, a4⟩
      exact ⟨a1, a2, (hF x a1).symm ▸ a3, fun y hy hb hl => (hF y hy).symm ▸ a4 y hy hb hl⟩
  have e2 : R' = .error .limitError ↔ R = .error .limitError := by
    rw [h2, h2']
    exact forall₂_congr fun y hy => by rw [hF y hy]
  obtain ⟨j, hj⟩ := List.mem_iff_getElem?.1 hmem
  rcases readLimit_spec hs (sigmas := []) F hj limit with ⟨x, hx, -⟩ | ⟨hn, -⟩
  · rw [(h1 x).2 hx]
    exact (e1 x).2 ((h1 x).2 hx)
  · rw [h2.2 hn]
    exact e2.2 (h2.2 hn)

/-- **C153, fits.** A fit by grid search is made from data, floating backgrounds with one rate each, and
perhaps fixed backgrounds and a signal. Before that, fixed and floating backgrounds may have been scaled
to any numbers of decays, any number of times. Then the first `fit()` finds the same values of the
rates, the same statistic and the same penalty as without the scaling. (Partial: the suppositions of
C62 and C99; at most one axis is projected out; the values of the rates are not rounded.) -/
theorem c153_fit_partial (hg : a.Given ts st) (he : a.Evaluable env keyOf d st) (hs : a.Settings st)
    (ho : a.OwnRates st) (hl : (st.view d).cfg.length ≤ a.roi.length + 1)
    (hsearch : RateSearch rnd g vss a.floating.length)
    (hex : ∀ vs ∈ vss, ∀ x ∈ vs, ((rnd x : ℚ) : ℝ) = x) (l : List (ℕ × ℚ))
    (hmem : ∀ e ∈ l, e.1 ∈ a.floating ++ a.fixed.map Prod.fst ∧ e.2 ≠ 0) :
    ∃ ses₁ st₁ g₁ raw₁ pen₁ ses₂ st₂ g₂ raw₂ pen₂,
      init keyOf a st = (st₁, .ok ses₁) ∧ init keyOf a (st.afterScaling l) = (st₂, .ok ses₂) ∧
      (ses₁.fit (fun f => fitGrid env f rnd g) st₁).2 = .ok (.inr (g₁, raw₁, pen₁)) ∧
      (ses₂.fit (fun f => fitGrid env f rnd g) st₂).2 = .ok (.inr (g₂, raw₂, pen₂)) ∧
      g₂.pars.map FitPar.bestFit = g₁.pars.map FitPar.bestFit ∧
      raw₂.ravel = raw₁.ravel ∧ pen₂.ravel = pen₁.ravel := by
  have hreg := inOrder_isDict hg.region
  have hdk : d ∈ a.kept := by simp [FitArgs.kept, he.data]
  have hN : ∀ e ∈ l, (st.view e.1).numDecays ≠ 0 ∧ e.2 ≠ 0 := fun e hm => by
    obtain ⟨h1, h2⟩ := hmem e hm
    refine ⟨?_, h2⟩
    rcases List.mem_append.1 h1 with h1 | h1
    · exact he.decays _ (List.mem_append_left _ h1)
    · obtain ⟨x, hx, hx'⟩ := List.mem_map.1 h1
      obtain ⟨t, -, ht⟩ := forall₂_mem_left hg.fixed.shrunk hx
      rw [← hx']
      exact ht.decays hreg (hg.able _ (List.mem_append_right _ (List.mem_map_of_mem hx)))
  obtain ⟨hR, hkeep⟩ := renormalised_after hN
  have hout : ∀ q ∈ a.data.toList ++ a.signal.toList, (st.afterScaling l).view q = st.view q := by
    intro q hq
    refine hkeep q fun hm => ?_
    obtain ⟨e, he', rfl⟩ := List.mem_map.1 hm
    have hown := hg.own
    rw [FitArgs.kept, List.append_assoc, List.map_append, List.nodup_append] at hown
    exact hown.2.2 _ (List.mem_map_of_mem hq) _ (List.mem_map_of_mem (hmem e he').1) rfl
  have hdv := hout d (by simp [he.data])
  obtain ⟨ns, hns⟩ := exists_roiNames (hg.able d (List.mem_append_left _ hdk))
  obtain ⟨c, hc⟩ := exists_contents hreg hg.able ns
  obtain ⟨k, hk0, hk1, hkn, hkc⟩ := contents_after hR hreg hg.able hc
  have hkd : k d = 1 := hk1 d hdv
  have hcd : (c d).smul (k d) = c d := by rw [hkd, smul_one_array]
  obtain ⟨G, hG⟩ := exists_statistics a.stat a.singleBin a st c d rnd
  obtain ⟨ses₁, st₁, g₁, raw₁, pen₁, u₁, i1, i2, i3, i4, i5, i6⟩ :=
    fit_found hg he hs ho hl hns hc hsearch hex fun u _ => hG u
  obtain ⟨ses₂, st₂, g₂, raw₂, pen₂, u₂, j1, j2, j3, j4, j5, j6⟩ :=
    fit_found (hR.given hg) (hR.evaluable he) (hR.settings hs) (hR.ownRates ho) (by rw [hR.cfg]; exact hl)
      (by rw [hR.cfg]; exact hns) hkc hsearch hex (G := G) fun u _ => by
        rw [hcd]
        have e : a.backgroundAt (st.afterScaling l) (fun q => (c q).smul (k q)) (c d).shape (u.map rnd) =
            a.backgroundAt st c (c d).shape (u.map rnd) :=
          congrArg (NdArray.mk _) (funext fun idx => sumAt_scaled hk0 hkn
            (fun r hr => hk1 r (hout r (List.mem_append_right _ hr))) _ _ _)
        have := hG u
        rw [← e] at this
        exact this
  obtain rfl : u₂ = u₁ := i3.unique (fun u _ => by rw [hR.penaltyAt]) j3
  refine ⟨ses₁, st₁, g₁, raw₁, pen₁, ses₂, st₂, g₂, raw₂, pen₂, i1, j1, i2, j2, j4.trans i4.symm,
    j5.trans i5.symm, ?_⟩
  rw [j6, i6, hR.penaltyAt]

/-- **C153, limits without floating backgrounds.** A fit is made from data and fixed backgrounds, and a
limit from it and a signal. Before that, the fixed backgrounds and the signal may have been scaled to any
numbers of decays. Then the outcome, the limit or `LimitError`, is the same as without the scaling,
whatever limits have been set or statistics asked for before. (Partial: the suppositions of C99; at
most one axis is projected out, see C11.) -/
theorem c153_counting_partial (h : a.LimitOn r d ts st) (hfx : a.fixed ≠ []) (hfl : a.floating = [])
    (hstat : a.statPerBin = false) (search : GridSearch) (hpars : search.pars = []) (l : List (ℕ × ℚ))
    (hmem : ∀ e ∈ l, e.1 ∈ r :: a.fixed.map Prod.fst ∧ e.2 ≠ 0) :
    ∃ ses₁ st₁ w₁ ses₂ st₂ w₂,
      init keyOf a st = (st₁, .ok ses₁) ∧ init keyOf a (st.afterScaling l) = (st₂, .ok ses₂) ∧
      Fitter.limitInit ⟨ses₁, st₁, search⟩ r true = (w₁, .ok ()) ∧
      Fitter.limitInit ⟨ses₂, st₂, search⟩ r true = (w₂, .ok ()) ∧
      ∀ (calls₁ calls₂ : List LimitCall) (scales : List ℝ), Testable rnd (allScales calls₁ ++ scales) →
      Testable rnd (allScales calls₂ ++ scales) → scales ≠ [] → scales.Pairwise (· < ·) →
      ∀ (sigmas : List (Option ℝ)), (∀ s ∈ sigmas, s ≠ none) → ∀ (limit : ℝ),
      ((w₂.afterCalls env rnd r calls₂).limitOf env rnd r scales sigmas none limit).2 =
        ((w₁.afterCalls env rnd r calls₁).limitOf env rnd r scales sigmas none limit).2 := by
  have hg := h.given
  have hreg := inOrder_isDict hg.region
  have hdm : d ∈ (a.withSignal r).kept ++ a.fixed.map Prod.fst := by simp [FitArgs.kept, h.data]
  have hrm : r ∈ (a.withSignal r).kept ++ a.fixed.map Prod.fst := by simp [FitArgs.kept]
  obtain ⟨hR, hdv⟩ := limit_scaled h (l := l) (by rw [hfl]; exact hmem) (by rw [hfl]; simp)
  obtain ⟨ns, hns⟩ := exists_roiNames (hg.able d hdm)
  obtain ⟨c, hc⟩ := exists_contents hreg hg.able ns
  obtain ⟨k, hk0, hk1, hkn, hkc⟩ := contents_after hR hreg hg.able hc
  have hcd : (c d).smul (k d) = c d := by rw [hk1 d hdv, smul_one_array]
  have hshape : (c r).shape = (c d).shape :=
    same_shape hreg (hg.able d hdm) (hg.able r hrm) (h.axes r hrm) (hc d hdm) (hc r hrm)
  obtain ⟨ses₁, st₁, w₁, i1, i2, i3⟩ := c147_counting_partial (env := env) (keyOf := keyOf) (rnd := rnd) h
    hfx hfl hstat hns hc search hpars
  obtain ⟨ses₂, st₂, w₂, j1, j2, j3⟩ := c147_counting_partial (env := env) (keyOf := keyOf) (rnd := rnd)
    (hR.limitOn h) hfx hfl hstat (by rw [hR.cfg]; exact hns) hkc search hpars
  refine ⟨ses₁, st₁, w₁, ses₂, st₂, w₂, i1, j1, i2, j2, ?_⟩
  intro calls₁ calls₂ scales ht₁ ht₂ hne hs sigmas hsig limit
  have e0 : a.fixedTotal (st.afterScaling l) (fun q => (c q).smul (k q)) (c d).shape =
      a.fixedTotal st c (c d).shape := by
    unfold FitArgs.fixedTotal
    simp only [hkn, NdArray.smul, term_scaled (hk0 _)]
  obtain ⟨F₀, hF₀⟩ := exists_total a.stat (compared_length a.singleBin (a := c d)
    (b := a.fixedTotal st c (c d).shape) rfl).symm
  have hF : ∀ x : ℝ, ∃ v, (npCloseReal x 0 → v = F₀) ∧ (¬ npCloseReal x 0 →
      a.stat.Total (comparedContents a.singleBin (c d))
        (expectedAt (comparedContents a.singleBin (a.fixedTotal st c (c d).shape))
          (comparedContents a.singleBin (c r)) ((rnd x : ℝ) / ((st.view r).numDecays : ℝ))) v) := by
    intro x
    by_cases hx : npCloseReal x 0
    · exact ⟨F₀, fun _ => rfl, fun h => absurd hx h⟩
    · obtain ⟨v, hv⟩ := exists_total a.stat (expected_length (sb := a.singleBin) (o := c d)
        (b := a.fixedTotal st c (c d).shape) rfl hshape ((rnd x : ℝ) / ((st.view r).numDecays : ℝ)))
      exact ⟨v, fun h => absurd h hx, fun _ => hv⟩
  choose F hF using hF
  obtain ⟨b, hb, k1, k2⟩ := i3 calls₁ scales ht₁ hne hs F₀ F hF₀ (fun x _ => hF x) sigmas hsig limit
  obtain ⟨b', hb', k1', k2'⟩ := j3 calls₂ scales ht₂ hne hs F₀ F (by
    rw [hcd, e0]; exact hF₀) (fun x _ => ⟨(hF x).1, fun hx => by
      rw [hcd, e0, hkn r, expected_scaled (b := a.fixedTotal st c (c d).shape) hshape (hk0 r)]
      exact (hF x).2 hx⟩) sigmas hsig limit
  have hbb : b' = b := by
    obtain ⟨m1, m2⟩ := hb.2 b' hb'.1
    obtain ⟨n1, n2⟩ := hb'.2 b hb.1
    have e := le_antisymm m1 n1
    exact le_antisymm (n2 e) (m2 e.symm)
  exact outcome_eq (fun _ _ => rfl) hbb k1 k2 k1' k2' hs hb.1

/-- **C153, limits with floating backgrounds.** The same for a fit by grid search with floating
backgrounds, which may have been scaled as well. (Partial: the suppositions of C99 and C62; at most one
axis is projected out; the values of the rates are not rounded.) -/
theorem c153_floating_partial (h : a.LimitOn r d ts st)
    (he : (a.withSignal r).Evaluable env keyOf d st) (ho : a.OwnRates st) {search : GridSearch}
    (hsearch : RateSearch rnd search vss a.floating.length)
    (hsame : List.Forall₂ (fun p (q : FitPar) => q.prior = (st.params p).prior ∧
      q.sigma = (st.params p).sigma) (a.parameters st) search.pars)
    (hex : ∀ vs ∈ vss, ∀ x ∈ vs, ((rnd x : ℚ) : ℝ) = x) (l : List (ℕ × ℚ))
    (hmem : ∀ e ∈ l, e.1 ∈ r :: (a.floating ++ a.fixed.map Prod.fst) ∧ e.2 ≠ 0) :
    ∃ ses₁ st₁ w₁ ses₂ st₂ w₂,
      init keyOf a st = (st₁, .ok ses₁) ∧ init keyOf a (st.afterScaling l) = (st₂, .ok ses₂) ∧
      Fitter.limitInit ⟨ses₁, st₁, search⟩ r true = (w₁, .ok ()) ∧
      Fitter.limitInit ⟨ses₂, st₂, search⟩ r true = (w₂, .ok ()) ∧
      ∀ (calls₁ calls₂ : List LimitCall) (scales : List ℝ), Testable rnd (allScales calls₁ ++ scales) →
      Testable rnd (allScales calls₂ ++ scales) → scales ≠ [] → scales.Pairwise (· < ·) →
      ∀ (sigmas : List (Option ℝ)), (∀ s ∈ sigmas, s ≠ none) → ∀ (limit : ℝ),
      ((w₂.afterCalls env rnd r calls₂).limitOf env rnd r scales sigmas none limit).2 =
        ((w₁.afterCalls env rnd r calls₁).limitOf env rnd r scales sigmas none limit).2 := by
  have hg := h.given
  have hreg := inOrder_isDict hg.region
  have hdm : d ∈ (a.withSignal r).kept ++ a.fixed.map Prod.fst := by simp [FitArgs.kept, h.data]
  have hrm : r ∈ (a.withSignal r).kept ++ a.fixed.map Prod.fst := by simp [FitArgs.kept]
  obtain ⟨hR, hdv⟩ := limit_scaled h hmem fun q hq => he.decays q (List.mem_append_left _ hq)
  obtain ⟨ns, hns⟩ := exists_roiNames (hg.able d hdm)
  obtain ⟨c, hc⟩ := exists_contents hreg hg.able ns
  obtain ⟨k, hk0, hk1, hkn, hkc⟩ := contents_after hR hreg hg.able hc
  have hcd : (c d).smul (k d) = c d := by rw [hk1 d hdv, smul_one_array]
  have hshape : (c r).shape = (c d).shape :=
    same_shape hreg (hg.able d hdm) (hg.able r hrm) (h.axes r hrm) (hc d hdm) (hc r hrm)
  obtain ⟨ses₁, st₁, w₁, i1, i2, i3⟩ := c147_floating_partial (rnd := rnd) h he ho hns hc hsearch hsame hex
  obtain ⟨ses₂, st₂, w₂, j1, j2, j3⟩ := c147_floating_partial (rnd := rnd) (hR.limitOn h)
    (hR.evaluable he) (hR.ownRates ho) (by rw [hR.cfg]; exact hns) hkc hsearch
    (by rw [hR.parameters, hR.params]; exact hsame) hex
  refine ⟨ses₁, st₁, w₁, ses₂, st₂, w₂, i1, j1, i2, j2, ?_⟩
  intro calls₁ calls₂ scales ht₁ ht₂ hne hs sigmas hsig limit
  have e0 : ∀ u, a.backgroundAt (st.afterScaling l) (fun q => (c q).smul (k q)) (c d).shape u =
      a.backgroundAt st c (c d).shape u := fun u =>
    congrArg (NdArray.mk _) (funext fun idx => sumAt_scaled hk0 hkn (by rw [h.signal]; simp) _ _ _)
  obtain ⟨G₀, hG₀⟩ := exists_statistics a.stat a.singleBin a st c d rnd
  have hG : ∀ (x : ℝ) (u : List ℝ), ∃ v, (npCloseReal x 0 → v = G₀ u) ∧ (¬ npCloseReal x 0 →
      a.stat.Total (comparedContents a.singleBin (c d))
        (expectedAt (comparedContents a.singleBin (a.backgroundAt st c (c d).shape (u.map rnd)))
          (comparedContents a.singleBin (c r)) ((rnd x : ℝ) / ((st.view r).numDecays : ℝ))) v) := by
    intro x u
    by_cases hx : npCloseReal x 0
    · exact ⟨G₀ u, fun _ => rfl, fun h => absurd hx h⟩
    · obtain ⟨v, hv⟩ := exists_total a.stat (expected_length (sb := a.singleBin) (o := c d)
        (b := a.backgroundAt st c (c d).shape (u.map rnd)) rfl hshape
        ((rnd x : ℝ) / ((st.view r).numDecays : ℝ)))
      exact ⟨v, fun h => absurd h hx, fun _ => hv⟩
  choose G hG using hG
  obtain ⟨u₀, u, m1, m2, b, hb, k1, k2⟩ := i3 calls₁ scales ht₁ hne hs G₀ G (fun u _ => hG₀ u)
    (fun x _ u _ => hG x u) sigmas hsig limit
  obtain ⟨u₀', u', m1', m2', b', hb', k1', k2'⟩ := j3 calls₂ scales ht₂ hne hs G₀ G (fun u _ => by
    rw [hcd, e0]; exact hG₀ u) (fun x _ u _ => ⟨(hG x u).1, fun hx => by
      rw [hcd, e0, hkn r, expected_scaled (b := a.backgroundAt st c (c d).shape (u.map rnd)) hshape (hk0 r)]
      exact (hG x u).2 hx⟩) sigmas hsig limit
  obtain rfl : u₀' = u₀ := m1.unique (fun u _ => by rw [hR.penaltyAt]) m1'
  have huu : ∀ x ∈ scales, u' x = u x := fun x hx =>
    (m2 x hx).unique (fun u _ => by rw [hR.penaltyAt]) (m2' x hx)
  have hbb : b' = b := by
    obtain ⟨m1, m2⟩ := hb.2 b' hb'.1
    obtain ⟨n1, n2⟩ := hb'.2 b hb.1
    dsimp only at n1 n2
    rw [huu _ hb.1, huu _ hb'.1] at n1 n2
    have e := le_antisymm m1 n1
    exact le_antisymm (n2 e) (m2 e.symm)
  exact outcome_eq (fun x hx => by rw [huu x hx, hR.penaltyAt]) hbb k1 k2 k1' k2' hs hb.1

/-- A fit whose floating backgrounds have been scaled, one of them twice. -/
example : ∃ ses₁ st₁ g₁ raw₁ pen₁ ses₂ st₂ g₂ raw₂ pen₂,
    init Ex.keyOf exWhole Ex.madeState = (st₁, .ok ses₁) ∧
    init Ex.keyOf exWhole (Ex.madeState.afterScaling [(2, 7), (3, 1 / 2), (2, 100)]) = (st₂, .ok ses₂) ∧
    (ses₁.fit (fun f => fitGrid Ex.fitEnv f Ex.toInt Ex.closedSearch) st₁).2 =
      .ok (.inr (g₁, raw₁, pen₁)) ∧
    (ses₂.fit (fun f => fitGrid Ex.fitEnv f Ex.toInt Ex.closedSearch) st₂).2 =
      .ok (.inr (g₂, raw₂, pen₂)) ∧
    g₂.pars.map FitPar.bestFit = g₁.pars.map FitPar.bestFit ∧
    raw₂.ravel = raw₁.ravel ∧ pen₂.ravel = pen₁.ravel :=
  c153_fit_partial made_given made_evaluable made_settings made_ratesOnly.toOwnRates
    (by simp [FitState.view, Ex.madeState, Ex.fitState, exWhole]) made_search made_unrounded _ (by
      intro e he
      have : e = (2, 7) ∨ e = (3, 1 / 2) ∨ e = (2, 100) := by simpa using he
      rcases this with rfl | rfl | rfl <;> refine ⟨by simp [exWhole], by norm_num⟩)

/-- The signal and the fixed background of a limit have been scaled. -/
example : ∃ ses₁ st₁ w₁ ses₂ st₂ w₂, init Ex.keyOf (Ex.limitArgs []) Ex.limitState = (st₁, .ok ses₁) ∧
    init Ex.keyOf (Ex.limitArgs []) (Ex.limitState.afterScaling [(4, 6), (1, 1 / 3)]) =
      (st₂, .ok ses₂) ∧
    Fitter.limitInit ⟨ses₁, st₁, GridSearch.new [] [] none false⟩ 4 true = (w₁, .ok ()) ∧
    Fitter.limitInit ⟨ses₂, st₂, GridSearch.new [] [] none false⟩ 4 true = (w₂, .ok ()) ∧
    ((w₂.afterCalls Ex.fitEnv Ex.toInt 4 []).limitOf Ex.fitEnv Ex.toInt 4 [0, 4, 10, 20] [] none 3).2 =
      ((w₁.afterCalls Ex.fitEnv Ex.toInt 4 [.statistics [4]]).limitOf Ex.fitEnv Ex.toInt 4
        [0, 4, 10, 20] [] none 3).2 := by
  obtain ⟨ses₁, st₁, w₁, ses₂, st₂, w₂, h1, h2, h3, h4, h5⟩ := c153_counting_partial (env := Ex.fitEnv)
    (keyOf := Ex.keyOf) (rnd := Ex.toInt) (ex_limitOn (.inl rfl)) (by simp [Ex.limitArgs]) rfl rfl
    (GridSearch.new [] [] none false) rfl [(4, 6), (1, 1 / 3)] (by
      intro e he
      have : e = (4, 6) ∨ e = (1, 1 / 3) := by simpa using he
      rcases this with rfl | rfl <;> refine ⟨by simp [Ex.limitArgs], by norm_num⟩)
  exact ⟨ses₁, st₁, w₁, ses₂, st₂, w₂, h1, h2, h3, h4, h5 _ _ _
    (fun x hx h => (ex_limitScales hx h).2)
    (fun x hx h => (ex_limitScales (List.mem_append_right _ hx) h).2) (by simp) (by norm_num) [] (by simp) 3⟩

/-- The signal, the fixed and the floating backgrounds of a limit have been scaled. -/
example : ∃ ses₁ st₁ w₁ ses₂ st₂ w₂,
    init Ex.keyOf (Ex.limitArgs [2, 3]) Ex.limitState = (st₁, .ok ses₁) ∧
    init Ex.keyOf (Ex.limitArgs [2, 3]) (Ex.limitState.afterScaling [(4, 6), (1, 1 / 3), (3, 9)]) =
      (st₂, .ok ses₂) ∧
    Fitter.limitInit ⟨ses₁, st₁, Ex.closedSearch⟩ 4 true = (w₁, .ok ()) ∧
    Fitter.limitInit ⟨ses₂, st₂, Ex.closedSearch⟩ 4 true = (w₂, .ok ()) ∧
    ((w₂.afterCalls Ex.fitEnv Ex.toInt 4 []).limitOf Ex.fitEnv Ex.toInt 4 [0, 4, 10, 20] [] none 3).2 =
      ((w₁.afterCalls Ex.fitEnv Ex.toInt 4 [.statistics [4]]).limitOf Ex.fitEnv Ex.toInt 4
        [0, 4, 10, 20] [] none 3).2 := by
  obtain ⟨ses₁, st₁, w₁, ses₂, st₂, w₂, h1, h2, h3, h4, h5⟩ := c153_floating_partial (env := Ex.fitEnv)
    (keyOf := Ex.keyOf) (rnd := Ex.toInt) (vss := Ex.closedValues) (search := Ex.closedSearch)
    (ex_limitOn (.inr rfl)) ex_floatEvaluable ex_floatRates made_search
    (.cons ⟨rfl, rfl⟩ (.cons ⟨rfl, rfl⟩ .nil)) made_unrounded [(4, 6), (1, 1 / 3), (3, 9)] (by
      intro e he
      have : e = (4, 6) ∨ e = (1, 1 / 3) ∨ e = (3, 9) := by simpa using he
      rcases this with rfl | rfl | rfl <;> refine ⟨by simp [Ex.limitArgs], by norm_num⟩)
  exact ⟨ses₁, st₁, w₁, ses₂, st₂, w₂, h1, h2, h3, h4, h5 _ _ _
    (fun x hx h => (ex_limitScales hx h).2)
    (fun x hx h => (ex_limitScales (List.mem_append_right _ hx) h).2) (by simp) (by norm_num) [] (by simp) 3⟩

end Verif
