import Verif.Spec.ExposureLimit
import Verif.Props.Normalise
import Verif.Props.Exposure

/-! # C154: limits for larger exposures -/

namespace Verif

open Session

variable {env : FitEnv} {keyOf : ℕ → PyStr} {a : FitArgs} {ts : List Spectrum} {r d : ℕ}
  {st : FitState} {rnd : ℝ → ℚ}

theorem map_zip_triple {o e e' : List ℝ} (he : o.length = e.length) (he' : o.length = e'.length)
    (f : ℝ → ℝ) :
    (o.zip (e.zip e')).map (fun b => f b.1) = o.map f ∧
      (o.zip (e.zip e')).map (fun b => f b.2.1) = e.map f ∧
      (o.zip (e.zip e')).map (fun b => f b.2.2) = e'.map f := by
  induction o generalizing e e' with
  | nil =>
    obtain rfl : e = [] := List.eq_nil_of_length_eq_zero he.symm
    obtain rfl : e' = [] := List.eq_nil_of_length_eq_zero he'.symm
    simp
  | cons x o ih =>
    cases e with
    | nil => simp at he
    | cons y e =>
      cases e' with
      | nil => simp at he'
      | cons z e' =>
        obtain ⟨h1, h2, h3⟩ := ih (e := e) (e' := e') (by simpa using he) (by simpa using he')
        simp [h1, h2, h3]

theorem map_zip_pair {o e : List ℝ} (he : o.length = e.length) (f : ℝ → ℝ) :
    (o.zip e).map (fun b => f b.1) = o.map f ∧ (o.zip e).map (fun b => f b.2) = e.map f := by
  induction o generalizing e with
  | nil =>
    obtain rfl : e = [] := List.eq_nil_of_length_eq_zero he.symm
    simp
  | cons x o ih =>
    cases e with
    | nil => simp at he
    | cons y e =>
      obtain ⟨h1, h2⟩ := ih (e := e) (by simpa using he)
      simp [h1, h2]

theorem mem_zip_triple {o e e' : List ℝ} (h1 : o.length = e.length) (h2 : o.length = e'.length)
    {b : ℝ × ℝ × ℝ} (h : b ∈ o.zip (e.zip e')) : (b.1, b.2.1) ∈ o.zip e ∧ (b.1, b.2.2) ∈ o.zip e' := by
  induction o generalizing e e' with
  | nil => simp at h
  | cons x o ih =>
    cases e with
    | nil => simp at h1
    | cons y e =>
      cases e' with
      | nil => simp at h2
      | cons z e' =>
        simp only [List.zip_cons_cons, List.mem_cons] at h ⊢
        rcases h with rfl | h
        · exact ⟨.inl rfl, .inl rfl⟩
        · obtain ⟨i1, i2⟩ := ih (by simpa using h1) (by simpa using h2) h
          exact ⟨.inr i1, .inr i2⟩

/-- Differences between two models are multiplied by the exposure, for every statistic. -/
theorem difference_times (s : Stat) {k : ℝ} (hk : 0 < k) {o e e' : List ℝ} (he : o.length = e.length)
    (he' : o.length = e'.length) (h : ∀ b ∈ o.zip e, s.CountsTimes k b)
    (h' : ∀ b ∈ o.zip e', s.CountsTimes k b) {v v' w w' : ℝ} (hv : s.Total o e v) (hv' : s.Total o e' v')
    (hw : s.Total (o.map (k * ·)) (e.map (k * ·)) w)
    (hw' : s.Total (o.map (k * ·)) (e'.map (k * ·)) w') : w - w' = k * (v - v') := by
  by_cases hs : s = .extLL
  · subst hs
    obtain ⟨a1, a2, a3⟩ := map_zip_triple he he' id
    obtain ⟨b1, b2, b3⟩ := map_zip_triple he he' (k * ·)
    simp only [id_eq, List.map_id] at a1 a2 a3
    refine c131_likelihood k hk (o.zip (e.zip e')) (fun b hb => ?_) v v' w w' ?_ ?_ ?_ ?_
    · obtain ⟨m1, m2⟩ := mem_zip_triple he he' hb
      exact ⟨(h _ m1).2, (h' _ m2).2⟩
    · rw [a1, a2]; exact hv
    · rw [a1, a3]; exact hv'
    · rw [b1, b2]; exact hw
    · rw [b1, b3]; exact hw'
  · have key : ∀ {e : List ℝ}, o.length = e.length → (∀ b ∈ o.zip e, s.CountsTimes k b) → ∀ {v w : ℝ},
        s.Total o e v → s.Total (o.map (k * ·)) (e.map (k * ·)) w → w = k * v := by
      intro e he h v w hv hw
      obtain ⟨a1, a2⟩ := map_zip_pair he id
      obtain ⟨b1, b2⟩ := map_zip_pair he (k * ·)
      simp only [id_eq, List.map_id] at a1 a2
      have := c131_exposure s hs k hk (o.zip e) h v (by
        rw [show (o.zip e).map Prod.fst = o from a1, show (o.zip e).map Prod.snd = e from a2]
        exact hv)
      rw [b1, b2] at this
      exact total_unique hw this
    rw [key he h hv hw, key he' h' hv' hw']
    ring

theorem compared_smul (sb : Bool) (c : NdArray ℚ) (k : ℚ) :
    comparedContents sb (c.smul k) = (comparedContents sb c).map ((k : ℝ) * ·) := by
  unfold comparedContents NdArray.sum NdArray.smul
  cases sb with
  | true =>
    simp only [if_true, List.map_cons, List.map_nil, List.cons.injEq, and_true]
    rw [sumIdx_mul]
    push_cast
    ring
  | false =>
    simp only [Bool.false_eq_true, if_false, List.map_map]
    refine List.map_congr_left fun idx _ => ?_
    simp only [Function.comp]
    push_cast
    ring

theorem expected_times (bkg sig : List ℝ) (k x n : ℝ) :
    expectedAt (bkg.map (k * ·)) sig (k * x / n) = (expectedAt bkg sig (x / n)).map (k * ·) := by
  unfold expectedAt
  induction bkg generalizing sig with
  | nil => simp
  | cons b bkg ih =>
    cases sig with
    | nil => simp
    | cons s sig =>
      simp only [List.map_cons, List.zipWith_cons_cons, ih, List.cons.injEq, and_true]
      ring

/-- Outcomes for scalings that are multiplied by `m`, and statistics and thresholds multiplied by `k`. -/
theorem outcome_times {R R' : Except PyErr ℝ} {scales : List ℝ} {F F' H H' : ℝ → ℝ}
    {F₀ F₀' b b' limit k m : ℝ} (hk : 0 < k) (hm : 0 < m)
    (hF : ∀ x ∈ scales, F' (m * x) - F₀' = k * (F x - F₀)) (hH : ∀ x ∈ scales, H' (m * x) = k * H x)
    (hb : BestScale scales F b) (hb' : BestScale (scales.map (m * ·)) F' b')
    (h1 : ∀ x, R = .ok x ↔ FirstCrossing scales H b limit x)
    (h2 : R = .error .limitError ↔ ∀ y ∈ scales, b ≤ y → H y ≤ limit)
    (h1' : ∀ x, R' = .ok x ↔ FirstCrossing (scales.map (m * ·)) H' b' (k * limit) x)
    (h2' : R' = .error .limitError ↔ ∀ y ∈ scales.map (m * ·), b' ≤ y → H' y ≤ k * limit)
    (hs : scales.Pairwise (· < ·)) : R' = timesOutcome m R := by
  have hle : ∀ {x y : ℝ}, m * x ≤ m * y ↔ x ≤ y := fun {x y} => mul_le_mul_iff_right₀ hm
  have hlt : ∀ {x y : ℝ}, m * x < m * y ↔ x < y := fun {x y} => mul_lt_mul_iff_right₀ hm
  have hlek : ∀ {x y : ℝ}, k * x ≤ k * y ↔ x ≤ y := fun {x y} => mul_le_mul_iff_right₀ hk
  have hltk : ∀ {x y : ℝ}, k * x < k * y ↔ x < y := fun {x y} => mul_lt_mul_iff_right₀ hk
  obtain ⟨c, hc, rfl⟩ := List.mem_map.1 hb'.1
  obtain rfl : c = b := by
    have m1 := hb.2 c hc
    have m2 := hb'.2 (m * b) (List.mem_map_of_mem hb.1)
    have e1 := hF b hb.1
    have e2 := hF c hc
    have : k * F c ≤ k * F b := by linarith [m2.1]
    have e := le_antisymm m1.1 (hlek.1 this)
    refine le_antisymm (hle.1 (m2.2 ?_)) (m1.2 e.symm)
    rw [e] at e1
    linarith
  obtain ⟨j, hj⟩ := List.mem_iff_getElem?.1 hc
  rcases readLimit_spec hs (sigmas := []) H hj limit with ⟨x, hx, -⟩ | ⟨hn, -⟩
  · rw [(h1 x).2 hx]
    refine (h1' _).2 ⟨List.mem_map_of_mem hx.1, hle.2 hx.2.1, ?_, ?_⟩
    · rw [hH x hx.1]
      exact hltk.2 hx.2.2.1
    · intro y hy h3 h4
      obtain ⟨z, hz, rfl⟩ := List.mem_map.1 hy
      rw [hH z hz]
      exact hlek.2 (hx.2.2.2 z hz (hle.1 h3) (hlt.1 h4))
  · rw [h2.2 hn]
    refine h2'.2 fun y hy h3 => ?_
    obtain ⟨z, hz, rfl⟩ := List.mem_map.1 hy
    rw [hH z hz]
    exact hlek.2 (hn z hz (hle.1 h3))

theorem suppliable_exposed {roi : Dict (ℚ × ℚ)} {dd : List (ℕ × ℚ)} (h : Suppliable roi dd ts st)
    (k : ℚ) : ∃ ts', Suppliable roi (dd.map (fun e => (e.1, k * e.2))) ts' st := by
  have key : ∀ {dd : List (ℕ × ℚ)} {ts : List Spectrum},
      List.Forall₂ (fun e t => ShrunkScaled roi (st.view e.1) e.2 t) dd ts →
      ∃ ts', List.Forall₂ (fun (e : ℕ × ℚ) t => ShrunkScaled roi (st.view e.1) e.2 t)
        (dd.map (fun e => (e.1, k * e.2))) ts' ∧
        List.Forall₂ (fun t t' : Spectrum => t'.cfg = t.cfg ∧ t'.data.shape = t.data.shape) ts ts' := by
    intro dd ts h
    induction h with
    | nil => exact ⟨[], .nil, .nil⟩
    | @cons e t dd ts he _ ih =>
      obtain ⟨ts', h1, h2⟩ := ih
      obtain ⟨kw, k1, k2, rfl, k4⟩ := he
      have hd : ((st.view e.1).shrink kw).st.numDecays ≠ 0 := fun h0 => by
        have := ((c09_scale _ e.2).2 h0).1
        rw [k4] at this; cases this
      refine ⟨(((st.view e.1).shrink kw).st.scale (k * e.2)).st :: ts',
        .cons ⟨kw, k1, k2, rfl, ((c09_scale _ _).1 hd).1⟩ h1, .cons ?_ h2⟩
      obtain ⟨a1, a2⟩ := scale_axes ((st.view e.1).shrink kw).st (k * e.2)
      obtain ⟨b1, b2⟩ := scale_axes ((st.view e.1).shrink kw).st e.2
      exact ⟨a1.trans b1.symm, a2.trans b2.symm⟩
  obtain ⟨ts', h1, h2⟩ := key h.shrunk
  refine ⟨ts', ?_, ?_, h.region, ?_, ?_, h1, ?_⟩
  · have := h.alloc
    simpa [List.map_map, Function.comp_def] using this
  · have := h.own
    simpa [List.map_map, Function.comp_def] using this
  · intro e he
    obtain ⟨x, hx, rfl⟩ := List.mem_map.1 he
    exact h.dims x hx
  · intro e he
    obtain ⟨x, hx, rfl⟩ := List.mem_map.1 he
    exact h.names x hx
  · intro t ht t' ht'
    obtain ⟨x, hx, e1⟩ := forall₂_mem_left h2.flip ht
    obtain ⟨y, hy, e2⟩ := forall₂_mem_left h2.flip ht'
    obtain ⟨a1, a2⟩ := h.axes x hx y hy
    exact ⟨by rw [e2.1, e1.1, a1], by rw [e2.2, e1.2, a2]⟩

theorem limitOn_exposed (h : a.LimitOn r d ts st) (k : ℚ) : ∃ ts', (a.exposed k).LimitOn r d ts' st := by
  obtain ⟨ts', h1⟩ := suppliable_exposed h.given.fixed k
  have e : (a.exposed k).fixed.map Prod.fst = a.fixed.map Prod.fst := by
    simp [FitArgs.exposed, Function.comp_def]
  have hg := h.given
  refine ⟨ts', ⟨hg.region, hg.some, hg.alloc, ?_, ?_, h1⟩, ⟨h.settings.floating, h.settings.fixed,
    h.settings.dimension, h.settings.perBin⟩, h.signal, h.data, ?_, h.fit, h.decays, h.region⟩
  · show (((a.withSignal r).kept ++ (a.exposed k).fixed.map Prod.fst).map _).Nodup
    rw [e]; exact hg.own
  · show ∀ q ∈ (a.withSignal r).kept ++ (a.exposed k).fixed.map Prod.fst, _
    rw [e]; exact hg.able
  · show ∀ q ∈ (a.withSignal r).kept ++ (a.exposed k).fixed.map Prod.fst, _
    rw [e]; exact h.axes

/-- **C154.** A fit is made from data and fixed backgrounds, and a limit from it and a signal. `obs` are the
contents of the data in the region and `E x` those expected with the signal scaled to `x` decays. For
`k` times the exposure, the data are scaled to `k` times their number of decays and the fixed
backgrounds are given with `k` times their numbers of decays. Then testing `k` times the scalings
against `k` times the threshold gives `k` times the limit, or `LimitError` when it was `LimitError`,
for every statistic, whatever limits have been set before. (Partial: the suppositions of C99; at most
one axis is projected out; contents count at the tested scalings; these are not rounded.) -/
theorem c154_exposure_partial (h : a.LimitOn r d ts st) (hfx : a.fixed ≠ []) (hfl : a.floating = [])
    (hstat : a.statPerBin = false) {ns : List PyStr}
    (hns : RoiNames (st.view d).cfg (inOrder a.roi) ns) {c : ℕ → NdArray ℚ}
    (hc : ∀ q ∈ (a.withSignal r).kept ++ a.fixed.map Prod.fst,
      RegionContents (inOrder a.roi) ns (st.view q) (c q)) (search : GridSearch)
    (hpars : search.pars = []) (hd : (st.view d).numDecays ≠ 0) {k : ℚ} (hk : 0 < k) {obs : List ℝ}
    (hobs : obs = comparedContents a.singleBin (c d)) {E : ℝ → List ℝ}
    (hE : ∀ x, E x = expectedAt (comparedContents a.singleBin (a.fixedTotal st c (c d).shape))
      (comparedContents a.singleBin (c r)) (x / ((st.view r).numDecays : ℝ))) :
    ∃ ses₁ st₁ w₁ ses₂ st₂ w₂, init keyOf a st = (st₁, .ok ses₁) ∧
      init keyOf (a.exposed k) (st.exposed d k) = (st₂, .ok ses₂) ∧
      Fitter.limitInit ⟨ses₁, st₁, search⟩ r true = (w₁, .ok ()) ∧
      Fitter.limitInit ⟨ses₂, st₂, search⟩ r true = (w₂, .ok ()) ∧
      ∀ (calls₁ calls₂ : List LimitCall) (scales : List ℝ), Testable rnd (allScales calls₁) →
      Testable rnd (allScales calls₂) → scales ≠ [] → ExactScales rnd scales →
      ExactScales rnd (scales.map ((k : ℝ) * ·)) →
      (∀ x ∈ 0 :: scales, ∀ b ∈ obs.zip (E x), a.stat.CountsTimes k b) →
      ∀ (sigmas : List (Option ℝ)), (∀ s ∈ sigmas, s ≠ none) → ∀ (limit : ℝ),
      ((w₂.afterCalls env rnd r calls₂).limitOf env rnd r (scales.map ((k : ℝ) * ·)) sigmas none
          (k * limit)).2 =
        timesOutcome k ((w₁.afterCalls env rnd r calls₁).limitOf env rnd r scales sigmas none limit).2 := by
  have hg := h.given
  have hreg := inOrder_isDict hg.region
  have hdm : d ∈ (a.withSignal r).kept ++ a.fixed.map Prod.fst := by simp [FitArgs.kept, h.data]
  have hrm : r ∈ (a.withSignal r).kept ++ a.fixed.map Prod.fst := by simp [FitArgs.kept]
  have hkr : (0 : ℝ) < k := by exact_mod_cast hk
  obtain ⟨hR, hkeep⟩ := renormalised_after (st := st) (l := [(d, k * (st.view d).numDecays)]) (by
    intro e he
    obtain rfl : e = (d, k * (st.view d).numDecays) := by simpa using he
    exact ⟨hd, mul_ne_zero hk.ne' hd⟩)
  have hview : (st.exposed d k).view d = ((st.view d).scale (k * (st.view d).numDecays)).st :=
    scaled_scale hd _
  obtain ⟨f, hf0, hf1, hfn, hfc⟩ := contents_after hR hreg hg.able hc
  have hne : ∀ q ∈ r :: a.fixed.map Prod.fst, q ≠ d := by
    intro q hq he
    have hown := hg.own
    have e1 : (a.withSignal r).kept ++ a.fixed.map Prod.fst = d :: (r :: a.fixed.map Prod.fst) := by
      simp [FitArgs.kept, h.data, hfl]
    rw [show (a.withSignal r).fixed = a.fixed from rfl, e1, List.map_cons, List.nodup_cons] at hown
    exact hown.1 (he ▸ List.mem_map_of_mem hq)
  have hf : ∀ q ∈ r :: a.fixed.map Prod.fst, f q = 1 := fun q hq =>
    hf1 q (hkeep q (by simpa using hne q hq))
  have hfd : f d = k := by
    have := hfn d
    rw [show st.afterScaling [(d, k * (st.view d).numDecays)] = st.exposed d k from rfl, hview,
      ((c09_scale _ _).1 hd).2.2.2.1] at this
    exact (mul_right_cancel₀ hd this).symm
  have hdec : ((st.exposed d k).view r).numDecays = (st.view r).numDecays := by
    rw [show (st.exposed d k).view r = st.view r from hkeep r (by simpa using hne r (by simp))]
  obtain ⟨ts', h'⟩ := limitOn_exposed (hR.limitOn h) k
  have hshape : (c r).shape = (c d).shape :=
    same_shape hreg (hg.able d hdm) (hg.able r hrm) (h.axes r hrm) (hc d hdm) (hc r hrm)
  have efix : (a.exposed k).fixed.map Prod.fst = a.fixed.map Prod.fst := by
    simp [FitArgs.exposed, Function.comp_def]
  obtain ⟨ses₁, st₁, w₁, i1, i2, i3⟩ := c147_counting_partial (env := env) (keyOf := keyOf) (rnd := rnd) h
    hfx hfl hstat hns hc search hpars
  obtain ⟨ses₂, st₂, w₂, j1, j2, j3⟩ := c147_counting_partial (env := env) (keyOf := keyOf) (rnd := rnd)
    h' (by simpa [FitArgs.exposed] using hfx) hfl hstat (by rw [hR.cfg]; exact hns)
    (c := fun q => (c q).smul (f q)) (by
      show ∀ q ∈ (a.withSignal r).kept ++ (a.exposed k).fixed.map Prod.fst, _
      rw [efix]; exact hfc) search hpars
  refine ⟨ses₁, st₁, w₁, ses₂, st₂, w₂, i1, j1, i2, j2, ?_⟩
  intro calls₁ calls₂ scales ht₁ ht₂ hn hx hx' hcount sigmas hsig limit
  -- the contents that are compared
  have etot : (a.exposed k).fixedTotal (st.exposed d k) (fun q => (c q).smul (f q))
      ((c d).smul (f d)).shape = (a.fixedTotal st c (c d).shape).smul k := by
    unfold FitArgs.fixedTotal FitArgs.exposed NdArray.smul
    simp only [List.map_map, NdArray.mk.injEq, true_and]
    funext idx
    have : ∀ l : List (ℕ × ℚ), (∀ e ∈ l, e.1 ∈ a.fixed.map Prod.fst) →
        (l.map ((fun e : ℕ × ℚ => e.2 / ((st.exposed d k).view e.1).numDecays *
          ((c e.1).get idx * f e.1)) ∘ fun e => (e.1, k * e.2))).sum =
        (l.map (fun e => e.2 / (st.view e.1).numDecays * (c e.1).get idx)).sum * k := by
      intro l hl
      induction l with
      | nil => simp
      | cons e l ih =>
        rw [List.map_cons, List.map_cons, List.sum_cons, List.sum_cons, ih fun x hx => hl x (by simp [hx]),
          add_mul]
        congr 1
        have hm := hl e (by simp)
        have hv : (st.exposed d k).view e.1 = st.view e.1 :=
          hkeep e.1 (by simpa using hne e.1 (List.mem_cons_of_mem _ hm))
        simp only [Function.comp, hv, hf e.1 (List.mem_cons_of_mem _ hm)]
        ring
    exact this a.fixed fun e he => List.mem_map_of_mem he
  have eobs : comparedContents a.singleBin ((c d).smul (f d)) = obs.map ((k : ℝ) * ·) := by
    rw [hfd, compared_smul, ← hobs]
  have esig : (c r).smul (f r) = c r := by rw [hf r (by simp), smul_one_array]
  have eE : ∀ x, expectedAt ((comparedContents a.singleBin (a.fixedTotal st c (c d).shape)).map
      ((k : ℝ) * ·)) (comparedContents a.singleBin (c r)) ((k : ℝ) * x / ((st.view r).numDecays : ℝ)) =
      (E x).map ((k : ℝ) * ·) := fun x => by rw [expected_times, ← hE]
  have hlen : ∀ x, obs.length = (E x).length := fun x => by
    rw [hobs, hE]
    exact expected_length (o := c d) (b := a.fixedTotal st c (c d).shape) rfl hshape _
  have eE0 : E 0 = comparedContents a.singleBin (a.fixedTotal st c (c d).shape) := by
    rw [hE, zero_div]
    have hl := compared_length a.singleBin (a := a.fixedTotal st c (c d).shape) (b := c r) hshape
    unfold expectedAt
    generalize comparedContents a.singleBin (a.fixedTotal st c (c d).shape) = p at hl
    generalize comparedContents a.singleBin (c r) = q at hl
    clear * - hl
    induction p generalizing q with
    | nil => simp
    | cons x p ih =>
      cases q with
      | nil => simp at hl
      | cons y q => rw [List.zipWith_cons_cons, ih q (by simpa using hl), zero_mul, add_zero]
  have hF : ∀ x, ∃ v, a.stat.Total obs (E x) v := fun x => exists_total a.stat (hlen x)
  choose F hF using hF
  have hF' : ∀ x, ∃ v, a.stat.Total (obs.map ((k : ℝ) * ·)) ((E x).map ((k : ℝ) * ·)) v := fun x =>
    exists_total a.stat (by simpa using hlen x)
  choose F' hF' using hF'
  have hdiff : ∀ x ∈ 0 :: scales, F' x - F' 0 = k * (F x - F 0) := fun x hm =>
    difference_times a.stat hkr (hlen x) (hlen 0) (hcount x hm) (hcount 0 (by simp)) (hF x) (hF 0)
      (hF' x) (hF' 0)
  have hdiv : ∀ x : ℝ, (k : ℝ) * x / k = x := fun x => mul_div_cancel_left₀ x hkr.ne'
  have htest : ∀ {calls : List LimitCall} {l : List ℝ}, Testable rnd (allScales calls) →
      ExactScales rnd l → Testable rnd (allScales calls ++ l) := by
    intro calls l h1 h2 x hm hcl
    rcases List.mem_append.1 hm with hm | hm
    · exact h1 x hm hcl
    · intro h0
      have hx0 : x ≠ 0 := by
        rintro rfl
        exact hcl (by unfold npCloseReal; norm_num)
      have := h2.exact x hm hx0
      rw [h0] at this
      exact hx0 (by simpa using this.symm)
  have hzero : npCloseReal 0 0 := by unfold npCloseReal; norm_num
  obtain ⟨b, hb, k1, k2⟩ := i3 calls₁ scales (htest ht₁ hx) hn hx.increasing (F 0) F
    (by rw [← hobs, ← eE0]; exact hF 0)
    (fun x hm => ⟨fun h0 => by rw [hx.zero x hm h0], fun h0 => by
      rw [hx.exact x hm (by rintro rfl; exact h0 hzero), ← hobs, ← hE]
      exact hF x⟩) sigmas hsig limit
  obtain ⟨b', hb', k1', k2'⟩ := j3 calls₂ (scales.map ((k : ℝ) * ·)) (htest ht₂ hx')
    (by simpa using hn) hx'.increasing (F' 0) (fun y => F' (y / k))
    (by
      show a.stat.Total (comparedContents a.singleBin ((c d).smul (f d)))
        (comparedContents a.singleBin ((a.exposed k).fixedTotal (st.exposed d k)
          (fun q => (c q).smul (f q)) ((c d).smul (f d)).shape)) (F' 0)
      rw [etot, eobs, compared_smul, ← eE0]
      exact hF' 0)
    (fun y hm => ⟨fun h0 => by rw [hx'.zero y hm h0, zero_div], fun h0 => by
      rw [hx'.exact y hm (by rintro rfl; exact h0 hzero)]
      show a.stat.Total (comparedContents a.singleBin ((c d).smul (f d)))
        (expectedAt (comparedContents a.singleBin ((a.exposed k).fixedTotal (st.exposed d k)
          (fun q => (c q).smul (f q)) ((c d).smul (f d)).shape))
          (comparedContents a.singleBin ((c r).smul (f r)))
          (y / (((st.exposed d k).view r).numDecays : ℝ))) (F' (y / k))
      rw [etot, eobs, compared_smul, esig, hdec]
      obtain ⟨x, -, rfl⟩ := List.mem_map.1 hm
      rw [eE, hdiv]
      exact hF' x⟩) sigmas hsig (k * limit)
  have hall : ∀ x ∈ scales, F' ((k : ℝ) * x / k) - F' 0 = k * (F x - F 0) := fun x hm => by
    rw [hdiv]
    exact hdiff x (by simp [hm])
  exact outcome_times hkr hkr hall hall hb hb' k1 k2 k1' k2' hx.increasing

theorem ex_exactScales {l : List ℤ} (hp : l.Pairwise (· < ·)) (hl : ∀ n ∈ l, n = 0 ∨ 1 ≤ n) :
    ExactScales Ex.toInt (l.map (fun n : ℤ => (n : ℝ))) := by
  refine ⟨?_, ?_, ?_⟩
  · rw [List.pairwise_map]
    exact hp.imp fun h => by exact_mod_cast h
  · intro x hx _
    obtain ⟨n, -, rfl⟩ := List.mem_map.1 hx
    simp [Ex.toInt]
  · intro x hx hc
    obtain ⟨n, hn, rfl⟩ := List.mem_map.1 hx
    rcases hl n hn with rfl | h
    · simp
    · have h : (1 : ℝ) ≤ n := by exact_mod_cast h
      unfold npCloseReal at hc
      rw [sub_zero, abs_of_nonneg (by linarith)] at hc
      norm_num at hc
      linarith

/-- Twice the exposure: the limit for the scalings 0, 8, 20 and 40 and the threshold 6 is twice the limit
for 0, 4, 10 and 20 and the threshold 3. -/
example : ∃ ses₁ st₁ w₁ ses₂ st₂ w₂, init Ex.keyOf (Ex.limitArgs []) Ex.limitState = (st₁, .ok ses₁) ∧
    init Ex.keyOf ((Ex.limitArgs []).exposed 2) (Ex.limitState.exposed 0 2) = (st₂, .ok ses₂) ∧
    Fitter.limitInit ⟨ses₁, st₁, GridSearch.new [] [] none false⟩ 4 true = (w₁, .ok ()) ∧
    Fitter.limitInit ⟨ses₂, st₂, GridSearch.new [] [] none false⟩ 4 true = (w₂, .ok ()) ∧
    ((w₂.afterCalls Ex.fitEnv Ex.toInt 4 []).limitOf Ex.fitEnv Ex.toInt 4 [0, 8, 20, 40] [] none 6).2 =
      timesOutcome 2 ((w₁.afterCalls Ex.fitEnv Ex.toInt 4 [.statistics [4]]).limitOf Ex.fitEnv Ex.toInt 4
        [0, 4, 10, 20] [] none 3).2 := by
  obtain ⟨e1, e2, e3⟩ := ex_limitCompared
  have h1' : zeroThreshold ≤ 1 := by unfold zeroThreshold; norm_num
  obtain ⟨ses₁, st₁, w₁, ses₂, st₂, w₂, h1, h2, h3, h4, h5⟩ := c154_exposure_partial (env := Ex.fitEnv)
    (keyOf := Ex.keyOf) (rnd := Ex.toInt) (ex_limitOn (.inl rfl)) (by simp [Ex.limitArgs]) rfl rfl
    ex_limitNames (ex_limitContents' (.inl rfl)) (GridSearch.new [] [] none false) rfl
    (by change (26 : ℚ) ≠ 0; norm_num) (k := 2) (by norm_num) e1.symm (E := fun y => [5 + y / 2, 5])
    (fun x => by
      rw [show (Ex.limitArgs []).singleBin = false from rfl, e2, e3, ex_limitDecays, ex_limitExpected])
  refine ⟨ses₁, st₁, w₁, ses₂, st₂, w₂, h1, h2, h3, h4, ?_⟩
  have hclose : ∀ x : ℝ, 1 ≤ x → ¬ npCloseReal x 0 := by
    intro y hy
    unfold npCloseReal
    rw [sub_zero, abs_of_nonneg (by linarith)]
    norm_num
    linarith
  have hint : ∀ n : ℤ, ((Ex.toInt (n : ℝ) : ℚ) : ℝ) = n := fun n => by simp [Ex.toInt]
  have x1 := ex_exactScales (l := [0, 4, 10, 20]) (by decide) (by decide)
  have x2 := ex_exactScales (l := [0, 8, 20, 40]) (by decide) (by decide)
  have s1 : ([0, 4, 10, 20] : List ℤ).map (fun n : ℤ => (n : ℝ)) = [0, 4, 10, 20] := by norm_num
  have s2 : ([0, 8, 20, 40] : List ℤ).map (fun n : ℤ => (n : ℝ)) = [0, 8, 20, 40] := by norm_num
  have s3 : ([0, 4, 10, 20] : List ℝ).map (((2 : ℚ) : ℝ) * ·) = [0, 8, 20, 40] := by norm_num
  rw [s1] at x1
  rw [s2] at x2
  have := h5 [.statistics [4]] [] [0, 4, 10, 20] (fun x hx h => (ex_limitScales (by
      have : x = 4 := by simpa [allScales, LimitCall.scales] using hx
      simp [this]) h).2) (fun x hx => by simp [allScales] at hx) (by simp) x1 (by rw [s3]; exact x2) (by
      intro x hx b hb
      have hx0 : 0 ≤ x := by
        have : x = 0 ∨ x = 0 ∨ x = 4 ∨ x = 10 ∨ x = 20 := by simpa using hx
        rcases this with rfl | rfl | rfl | rfl | rfl <;> norm_num
      have hcount : ∀ o e : ℝ, 1 ≤ o → 1 ≤ e → Stat.pearson.CountsTimes ((2 : ℚ) : ℝ) (o, e) := by
        intro o e ho he
        push_cast
        exact ⟨.inr ⟨h1'.trans ho, by linarith⟩, h1'.trans he, by dsimp only; linarith⟩
      have : b = (7, 5 + x / 2) ∨ b = (8, 5) := by simpa using hb
      rcases this with rfl | rfl
      · exact hcount _ _ (by norm_num) (by linarith)
      · exact hcount _ _ (by norm_num) (by norm_num)) [] (by simp) 3
  rw [s3, show (((2 : ℚ) : ℝ)) = 2 by norm_num, show (2 : ℝ) * 3 = 6 by norm_num] at this
  exact this

theorem expected_efficiency {sb : Bool} {bkg s s' : NdArray ℚ} {n n' e : ℚ} (he : e ≠ 0)
    (hs : s.shape = bkg.shape) (hs' : s'.shape = bkg.shape)
    (h : ∀ idx, InB s.shape idx → s'.get idx / n' = e * (s.get idx / n)) (x : ℚ) :
    expectedAt (comparedContents sb bkg) (comparedContents sb s') (((x / e : ℚ) : ℝ) / (n' : ℝ)) =
      expectedAt (comparedContents sb bkg) (comparedContents sb s) ((x : ℝ) / (n : ℝ)) := by
  have e1 : ((x / e : ℚ) : ℝ) / (n' : ℝ) = ((x / e / n' : ℚ) : ℝ) := by push_cast; rfl
  have e2 : (x : ℝ) / (n : ℝ) = ((x / n : ℚ) : ℝ) := by push_cast; rfl
  rw [e1, e2, ← compared_add (s := s) (t := ⟨s.shape, fun idx => x / n * s.get idx⟩) hs
    ⟨rfl, fun _ _ => rfl⟩, ← compared_add (s := s') (t := ⟨s.shape, fun idx => x / n * s.get idx⟩)
    hs' ⟨hs.trans hs'.symm, fun idx hi => ?_⟩]
  have := h idx (by rw [hs, ← hs']; exact hi)
  have h3 : x / e / n' * s'.get idx = x / e * (s'.get idx / n') := by ring
  rw [h3, this]
  field_simp

/-- What is supposed of two lists of tested scalings, the second being the first divided by `e`. -/
theorem exact_divided {e : ℚ} (he : 0 < e) {scales : List ℝ} (hx : ExactScales rnd scales)
    (hx' : ExactScales rnd (scales.map (((e⁻¹ : ℚ) : ℝ) * ·))) :
    ∀ x ∈ scales, x ≠ 0 → rnd (((e⁻¹ : ℚ) : ℝ) * x) = rnd x / e := by
  intro x hm h0
  have h1 := hx.exact x hm h0
  have h2 := hx'.exact _ (List.mem_map_of_mem hm) (mul_ne_zero (by
    have := inv_pos.2 he
    exact_mod_cast this.ne') h0)
  have : ((rnd (((e⁻¹ : ℚ) : ℝ) * x) : ℚ) : ℝ) = ((rnd x / e : ℚ) : ℝ) := by
    rw [h2, Rat.cast_div, h1]
    push_cast
    rw [div_eq_inv_mul]
  exact_mod_cast this

theorem testable_exact {calls : List LimitCall} {l : List ℝ} (h1 : Testable rnd (allScales calls))
    (h2 : ExactScales rnd l) : Testable rnd (allScales calls ++ l) := by
  intro x hm hcl
  rcases List.mem_append.1 hm with hm | hm
  · exact h1 x hm hcl
  · intro h0
    have hx0 : x ≠ 0 := by
      rintro rfl
      exact hcl (by unfold npCloseReal; norm_num)
    have := h2.exact x hm hx0
    rw [h0] at this
    exact hx0 (by simpa using this.symm)

theorem other_contents {r' : ℕ} {roi : Dict (ℚ × ℚ)} {ns : List PyStr} {c : ℕ → NdArray ℚ}
    (hc : ∀ q ∈ (a.withSignal r).kept ++ a.fixed.map Prod.fst, RegionContents roi ns (st.view q) (c q))
    (hc' : RegionContents roi ns (st.view r') (c r')) :
    ∀ q ∈ (a.withSignal r').kept ++ a.fixed.map Prod.fst, RegionContents roi ns (st.view q) (c q) := by
  intro q hq
  by_cases hqr : q = r'
  · rw [hqr]; exact hc'
  · refine hc q ?_
    simp only [FitArgs.kept, List.mem_append, Option.mem_toList, Option.some.injEq] at hq ⊢
    rcases hq with ((hq | hq) | hq) | hq
    · exact .inl (.inl (.inl hq))
    · exact absurd hq.symm hqr
    · exact .inl (.inr hq)
    · exact .inr hq

/-- **C154, efficiency.** As below, for fits without floating backgrounds. -/
theorem c154_efficiency_counting_partial {r' : ℕ} {ts' : List Spectrum} (h : a.LimitOn r d ts st)
    (h' : a.LimitOn r' d ts' st) (hfx : a.fixed ≠ []) (hfl : a.floating = [])
    (hstat : a.statPerBin = false) {ns : List PyStr}
    (hns : RoiNames (st.view d).cfg (inOrder a.roi) ns) {c : ℕ → NdArray ℚ}
    (hc : ∀ q ∈ (a.withSignal r).kept ++ a.fixed.map Prod.fst,
      RegionContents (inOrder a.roi) ns (st.view q) (c q))
    (hc' : RegionContents (inOrder a.roi) ns (st.view r') (c r')) (search : GridSearch)
    (hpars : search.pars = []) {e : ℚ} (hpos : 0 < e)
    (heff : ∀ idx, InB (c r).shape idx →
      (c r').get idx / (st.view r').numDecays = e * ((c r).get idx / (st.view r).numDecays)) :
    ∃ ses st₁ w w', init keyOf a st = (st₁, .ok ses) ∧
      Fitter.limitInit ⟨ses, st₁, search⟩ r true = (w, .ok ()) ∧
      Fitter.limitInit ⟨ses, st₁, search⟩ r' true = (w', .ok ()) ∧
      ∀ (calls calls' : List LimitCall) (scales : List ℝ), Testable rnd (allScales calls) →
      Testable rnd (allScales calls') → scales ≠ [] → ExactScales rnd scales →
      ExactScales rnd (scales.map (((e⁻¹ : ℚ) : ℝ) * ·)) →
      ∀ (sigmas : List (Option ℝ)), (∀ s ∈ sigmas, s ≠ none) → ∀ (limit : ℝ),
      ((w'.afterCalls env rnd r' calls').limitOf env rnd r' (scales.map (((e⁻¹ : ℚ) : ℝ) * ·)) sigmas
          none limit).2 =
        timesOutcome ((e⁻¹ : ℚ) : ℝ)
          ((w.afterCalls env rnd r calls).limitOf env rnd r scales sigmas none limit).2 := by
  have hg := h.given
  have hreg := inOrder_isDict hg.region
  have hdm : d ∈ (a.withSignal r).kept ++ a.fixed.map Prod.fst := by simp [FitArgs.kept, h.data]
  have hrm : r ∈ (a.withSignal r).kept ++ a.fixed.map Prod.fst := by simp [FitArgs.kept]
  have hrm' : r' ∈ (a.withSignal r').kept ++ a.fixed.map Prod.fst := by simp [FitArgs.kept]
  have hinv : (0 : ℝ) < ((e⁻¹ : ℚ) : ℝ) := by exact_mod_cast inv_pos.2 hpos
  have hshape : (c r).shape = (c d).shape :=
    same_shape hreg (hg.able d hdm) (hg.able r hrm) (h.axes r hrm) (hc d hdm) (hc r hrm)
  have hshape' : (c r').shape = (c d).shape :=
    same_shape hreg (hg.able d hdm) (h'.given.able r' hrm') (h'.axes r' hrm') (hc d hdm) hc'
  obtain ⟨ses, st₁, w, i1, i2, i3⟩ := c147_counting_partial (env := env) (keyOf := keyOf) (rnd := rnd) h hfx
    hfl hstat hns hc search hpars
  obtain ⟨ses', st₁', w', j1, j2, j3⟩ := c147_counting_partial (env := env) (keyOf := keyOf) (rnd := rnd)
    h' hfx hfl hstat hns (other_contents hc hc') search hpars
  rw [i1] at j1
  obtain ⟨rfl, hses⟩ := Prod.mk.inj j1
  cases hses
  refine ⟨ses, st₁, w, w', i1, i2, j2, ?_⟩
  intro calls calls' scales ht ht' hn hx hx' sigmas hsig limit
  have hzero : npCloseReal 0 0 := by unfold npCloseReal; norm_num
  obtain ⟨F₀, hF₀⟩ := exists_total a.stat (o := comparedContents a.singleBin (c d))
    (e := comparedContents a.singleBin (a.fixedTotal st c (c d).shape)) (compared_length _ rfl)
  have hF : ∀ x : ℝ, ∃ v, (npCloseReal x 0 → v = F₀) ∧ (¬ npCloseReal x 0 →
      a.stat.Total (comparedContents a.singleBin (c d))
        (expectedAt (comparedContents a.singleBin (a.fixedTotal st c (c d).shape))
          (comparedContents a.singleBin (c r)) ((rnd x : ℝ) / ((st.view r).numDecays : ℝ))) v) := by
    intro x
    by_cases hx : npCloseReal x 0
    · exact ⟨F₀, fun _ => rfl, fun h => absurd hx h⟩
    · obtain ⟨v, hv⟩ := exists_total a.stat (expected_length (sb := a.singleBin) (o := c d)
        (b := a.fixedTotal st c (c d).shape) rfl hshape ((rnd x : ℝ) / ((st.view r).numDecays : ℝ)))
      exact ⟨v, fun h => absurd h hx, fun _ => hv⟩
  have hF' : ∀ x : ℝ, ∃ v, (npCloseReal x 0 → v = F₀) ∧ (¬ npCloseReal x 0 →
      a.stat.Total (comparedContents a.singleBin (c d))
        (expectedAt (comparedContents a.singleBin (a.fixedTotal st c (c d).shape))
          (comparedContents a.singleBin (c r')) ((rnd x : ℝ) / ((st.view r').numDecays : ℝ))) v) := by
    intro x
    by_cases hx : npCloseReal x 0
    · exact ⟨F₀, fun _ => rfl, fun h => absurd hx h⟩
    · obtain ⟨v, hv⟩ := exists_total a.stat (expected_length (sb := a.singleBin) (o := c d)
        (b := a.fixedTotal st c (c d).shape) rfl hshape' ((rnd x : ℝ) / ((st.view r').numDecays : ℝ)))
      exact ⟨v, fun h => absurd h hx, fun _ => hv⟩
  choose F hF using hF
  choose F' hF' using hF'
  have hEq : ∀ x ∈ scales, F' (((e⁻¹ : ℚ) : ℝ) * x) = F x := by
    intro x hm
    by_cases h0 : x = 0
    · subst h0
      rw [mul_zero, (hF' 0).1 hzero, (hF 0).1 hzero]
    · have hc1 : ¬ npCloseReal x 0 := fun hcl => h0 (hx.zero x hm hcl)
      have hc2 : ¬ npCloseReal (((e⁻¹ : ℚ) : ℝ) * x) 0 := fun hcl =>
        (mul_ne_zero hinv.ne' h0) (hx'.zero _ (List.mem_map_of_mem hm) hcl)
      have t1 := (hF x).2 hc1
      have t2 := (hF' _).2 hc2
      rw [exact_divided hpos hx hx' x hm h0,
        expected_efficiency (bkg := a.fixedTotal st c (c d).shape) hpos.ne' hshape hshape' heff] at t2
      exact total_unique t2 t1
  obtain ⟨b, hb, k1, k2⟩ := i3 calls scales (testable_exact ht hx) hn hx.increasing F₀ F hF₀
    (fun x _ => hF x) sigmas hsig limit
  obtain ⟨b', hb', k1', k2'⟩ := j3 calls' (scales.map (((e⁻¹ : ℚ) : ℝ) * ·))
    (testable_exact ht' hx') (by simpa using hn) hx'.increasing F₀ F' hF₀ (fun x _ => hF' x) sigmas hsig
    limit
  refine outcome_times (k := 1) (F₀ := 0) (F₀' := 0) one_pos hinv (fun x hm => ?_) (fun x hm => ?_) hb hb'
    k1 k2 (by rw [one_mul]; exact k1') (by rw [one_mul]; exact k2') hx.increasing
  · rw [hEq x hm, one_mul]
  · rw [hEq x hm, one_mul]

/-- **C154, efficiency.** Limits are set with the same fit for two signals, the second of which has in every
bin of the region `e` times the contents per decay of the first. Then testing the scalings divided by
`e` gives the limit divided by `e`, or `LimitError` when it was `LimitError`. (Partial: as above, with
fits by grid search over one rate for each floating background; the values of the rates are not
rounded.) -/
theorem c154_efficiency_floating_partial {vss : List (List ℝ)} {r' : ℕ} {ts' : List Spectrum}
    (h : a.LimitOn r d ts st) (h' : a.LimitOn r' d ts' st) (he : (a.withSignal r).Evaluable env keyOf d st)
    (he' : (a.withSignal r').Evaluable env keyOf d st) (ho : a.OwnRates st) {ns : List PyStr}
    (hns : RoiNames (st.view d).cfg (inOrder a.roi) ns) {c : ℕ → NdArray ℚ}
    (hc : ∀ q ∈ (a.withSignal r).kept ++ a.fixed.map Prod.fst,
      RegionContents (inOrder a.roi) ns (st.view q) (c q))
    (hc' : RegionContents (inOrder a.roi) ns (st.view r') (c r')) {search : GridSearch}
    (hsearch : RateSearch rnd search vss a.floating.length)
    (hsame : List.Forall₂ (fun p (q : FitPar) => q.prior = (st.params p).prior ∧
      q.sigma = (st.params p).sigma) (a.parameters st) search.pars)
    (hex : ∀ vs ∈ vss, ∀ x ∈ vs, ((rnd x : ℚ) : ℝ) = x) {e : ℚ} (hpos : 0 < e)
    (heff : ∀ idx, InB (c r).shape idx →
      (c r').get idx / (st.view r').numDecays = e * ((c r).get idx / (st.view r).numDecays)) :
    ∃ ses st₁ w w', init keyOf a st = (st₁, .ok ses) ∧
      Fitter.limitInit ⟨ses, st₁, search⟩ r true = (w, .ok ()) ∧
      Fitter.limitInit ⟨ses, st₁, search⟩ r' true = (w', .ok ()) ∧
      ∀ (calls calls' : List LimitCall) (scales : List ℝ), Testable rnd (allScales calls) →
      Testable rnd (allScales calls') → scales ≠ [] → ExactScales rnd scales →
      ExactScales rnd (scales.map (((e⁻¹ : ℚ) : ℝ) * ·)) →
      ∀ (sigmas : List (Option ℝ)), (∀ s ∈ sigmas, s ≠ none) → ∀ (limit : ℝ),
      ((w'.afterCalls env rnd r' calls').limitOf env rnd r' (scales.map (((e⁻¹ : ℚ) : ℝ) * ·)) sigmas
          none limit).2 =
        timesOutcome ((e⁻¹ : ℚ) : ℝ)
          ((w.afterCalls env rnd r calls).limitOf env rnd r scales sigmas none limit).2 := by
  have hg := h.given
  have hreg := inOrder_isDict hg.region
  have hdm : d ∈ (a.withSignal r).kept ++ a.fixed.map Prod.fst := by simp [FitArgs.kept, h.data]
  have hrm : r ∈ (a.withSignal r).kept ++ a.fixed.map Prod.fst := by simp [FitArgs.kept]
  have hrm' : r' ∈ (a.withSignal r').kept ++ a.fixed.map Prod.fst := by simp [FitArgs.kept]
  have hinv : (0 : ℝ) < ((e⁻¹ : ℚ) : ℝ) := by exact_mod_cast inv_pos.2 hpos
  have hshape : (c r).shape = (c d).shape :=
    same_shape hreg (hg.able d hdm) (hg.able r hrm) (h.axes r hrm) (hc d hdm) (hc r hrm)
  have hshape' : (c r').shape = (c d).shape :=
    same_shape hreg (hg.able d hdm) (h'.given.able r' hrm') (h'.axes r' hrm') (hc d hdm) hc'
  have hcc := other_contents (st := st) (r' := r') hc hc'
  obtain ⟨ses, st₁, w, i1, i2, i3⟩ := c147_floating_partial (rnd := rnd) h he ho hns hc hsearch hsame hex
  obtain ⟨ses', st₁', w', j1, j2, j3⟩ := c147_floating_partial (rnd := rnd) h' he' ho hns hcc hsearch
    hsame hex
  rw [i1] at j1
  obtain ⟨rfl, hses⟩ := Prod.mk.inj j1
  cases hses
  refine ⟨ses, st₁, w, w', i1, i2, j2, ?_⟩
  intro calls calls' scales ht ht' hn hx hx' sigmas hsig limit
  have hzero : npCloseReal 0 0 := by unfold npCloseReal; norm_num
  obtain ⟨G₀, hG₀⟩ := exists_statistics a.stat a.singleBin a st c d rnd
  have hG : ∀ (x : ℝ) (u : List ℝ), ∃ v, (npCloseReal x 0 → v = G₀ u) ∧ (¬ npCloseReal x 0 →
      a.stat.Total (comparedContents a.singleBin (c d))
        (expectedAt (comparedContents a.singleBin (a.backgroundAt st c (c d).shape (u.map rnd)))
          (comparedContents a.singleBin (c r)) ((rnd x : ℝ) / ((st.view r).numDecays : ℝ))) v) := by
    intro x u
    by_cases hx : npCloseReal x 0
    · exact ⟨G₀ u, fun _ => rfl, fun h => absurd hx h⟩
    · obtain ⟨v, hv⟩ := exists_total a.stat (expected_length (sb := a.singleBin) (o := c d)
        (b := a.backgroundAt st c (c d).shape (u.map rnd)) rfl hshape
        ((rnd x : ℝ) / ((st.view r).numDecays : ℝ)))
      exact ⟨v, fun h => absurd h hx, fun _ => hv⟩
  have hG' : ∀ (x : ℝ) (u : List ℝ), ∃ v, (npCloseReal x 0 → v = G₀ u) ∧ (¬ npCloseReal x 0 →
      a.stat.Total (comparedContents a.singleBin (c d))
        (expectedAt (comparedContents a.singleBin (a.backgroundAt st c (c d).shape (u.map rnd)))
          (comparedContents a.singleBin (c r')) ((rnd x : ℝ) / ((st.view r').numDecays : ℝ))) v) := by
    intro x u
    by_cases hx : npCloseReal x 0
    · exact ⟨G₀ u, fun _ => rfl, fun h => absurd hx h⟩
    · obtain ⟨v, hv⟩ := exists_total a.stat (expected_length (sb := a.singleBin) (o := c d)
        (b := a.backgroundAt st c (c d).shape (u.map rnd)) rfl hshape'
        ((rnd x : ℝ) / ((st.view r').numDecays : ℝ)))
      exact ⟨v, fun h => absurd h hx, fun _ => hv⟩
  choose G hG using hG
  choose G' hG' using hG'
  have hEq : ∀ x ∈ scales, ∀ u, G' (((e⁻¹ : ℚ) : ℝ) * x) u = G x u := by
    intro x hm u
    by_cases h0 : x = 0
    · subst h0
      rw [mul_zero, (hG' 0 u).1 hzero, (hG 0 u).1 hzero]
    · have hc1 : ¬ npCloseReal x 0 := fun hcl => h0 (hx.zero x hm hcl)
      have hc2 : ¬ npCloseReal (((e⁻¹ : ℚ) : ℝ) * x) 0 := fun hcl =>
        (mul_ne_zero hinv.ne' h0) (hx'.zero _ (List.mem_map_of_mem hm) hcl)
      have t1 := (hG x u).2 hc1
      have t2 := (hG' _ u).2 hc2
      rw [exact_divided hpos hx hx' x hm h0,
        expected_efficiency (bkg := a.backgroundAt st c (c d).shape (u.map rnd)) hpos.ne' hshape hshape'
          heff] at t2
      exact total_unique t2 t1
  obtain ⟨u₀, u, m1, m2, b, hb, k1, k2⟩ := i3 calls scales (testable_exact ht hx) hn hx.increasing G₀ G
    (fun u _ => hG₀ u) (fun x _ u _ => hG x u) sigmas hsig limit
  obtain ⟨u₀', u', m1', m2', b', hb', k1', k2'⟩ := j3 calls' (scales.map (((e⁻¹ : ℚ) : ℝ) * ·))
    (testable_exact ht' hx') (by simpa using hn) hx'.increasing G₀ G' (fun u _ => hG₀ u)
    (fun x _ u _ => hG' x u) sigmas hsig limit
  obtain rfl : u₀' = u₀ := m1.unique (fun u _ => rfl) m1'
  have huu : ∀ x ∈ scales, u' (((e⁻¹ : ℚ) : ℝ) * x) = u x := fun x hm =>
    (m2 x hm).unique (fun u _ => by rw [hEq x hm]) (m2' _ (List.mem_map_of_mem hm))
  refine outcome_times (k := 1) (F₀ := 0) (F₀' := 0) one_pos hinv (fun x hm => ?_) (fun x hm => ?_) hb hb'
    k1 k2 (by rw [one_mul]; exact k1') (by rw [one_mul]; exact k2') hx.increasing
  · rw [huu x hm, hEq x hm, one_mul]
  · rw [huu x hm, hEq x hm, one_mul]

/-! ### a case that meets the hypotheses -/

namespace Ex

/-- The state of the examples with a further signal, of which twice as many decays are in the region. -/
noncomputable def effState : FitState := { fitState with
  objs := fun r => if r = 5 then ⟨lit "better", lit "better", 5, four 0 3 2 0, 2, 2, [], some [2]⟩ else
    if r = 4 then { fitObj 4 with fit := some [2] } else fitObj r
  next := 6 }

/-- Contents of the region from 1 to 2. -/
def effContents (r : ℕ) : NdArray ℚ := if r = 5 then ⟨[2], fun idx => if idx = [0] then 2 else 0⟩ else
  limitContents r

end Ex

theorem ex_effOn {floating : List ℕ} (hf : floating = [] ∨ floating = [2, 3]) {r : ℕ}
    (hr : r = 4 ∨ r = 5) : (Ex.limitArgs floating).LimitOn r 0 [(((Ex.effState.view 1).shrink exFitKw).st.scale 20).st] Ex.effState where
  given :=
    { region := (exWhole_given []).region
      some := by simp [Ex.limitArgs]
      alloc := by
        intro q hq
        have : q = 0 ∨ q = r ∨ q = 2 ∨ q = 3 := by
          rcases hf with rfl | rfl <;> simp [FitArgs.kept, Ex.limitArgs] at hq ⊢ <;> omega
        show q < 6
        omega
      own := by
        rcases hf with rfl | rfl <;> rcases hr with rfl | rfl
        · show (([0, 4] ++ [1]).map (fun r => (Ex.effState.objs r).cfg)).Nodup
          decide
        · show (([0, 5] ++ [1]).map (fun r => (Ex.effState.objs r).cfg)).Nodup
          decide
        · show (([0, 4, 2, 3] ++ [1]).map (fun r => (Ex.effState.objs r).cfg)).Nodup
          decide
        · show (([0, 5, 2, 3] ++ [1]).map (fun r => (Ex.effState.objs r).cfg)).Nodup
          decide
      able := by
        intro q hq
        have hm : q = 0 ∨ q = r ∨ q = 2 ∨ q = 3 ∨ q = 1 := by
          rcases hf with rfl | rfl <;> simp [FitArgs.kept, Ex.limitArgs] at hq ⊢ <;> omega
        have : inOrder (Ex.limitArgs floating).roi = exFitRoi := exInit_roi
        rw [this]
        refine ex_canShrink rfl ?_
        rcases hm with rfl | rfl | rfl | rfl | rfl
        · rfl
        · rcases hr with rfl | rfl <;> rfl
        · rfl
        · rfl
        · rfl
      fixed := by
        have h := (exWhole_given []).fixed
        refine ⟨?_, h.own, h.region, h.dims, h.names, ?_, h.axes⟩
        · intro q hq
          have : q = 1 := by simpa [Ex.limitArgs] using hq
          subst this
          show 1 < 6
          omega
        refine .cons ⟨exFitKw, ?_, by decide +kernel, rfl, by decide +kernel⟩ .nil
        show AsksRoi [Ex.fitAxis] (inOrder [(lit "energy", ((2 : ℚ), (1 : ℚ)))]) exFitKw
        rw [exInit_roi]
        exact exFit_asks }
  settings :=
    { floating := by
        rcases hf with rfl | rfl
        · simp [Ex.limitArgs]
        · exact fun _ => .inr ⟨2, by simp [Ex.limitArgs], by simp [Ex.effState, Ex.fitObj]⟩
      fixed := by simp [Ex.limitArgs]
      dimension := by simp [Ex.limitArgs]
      perBin := by simp [Ex.limitArgs] }
  signal := rfl
  data := rfl
  axes := fun _ _ => rfl
  fit := by rcases hr with rfl | rfl <;> simp [Ex.effState]
  decays := by rcases hr with rfl | rfl <;> simp [FitState.view, Ex.effState, Ex.fitObj]
  region := by simp [FitState.view, Ex.effState, Ex.fitState, Ex.limitArgs]

theorem ex_effEvaluable {r : ℕ} (hr : r = 4 ∨ r = 5) :
    ((Ex.limitArgs [2, 3]).withSignal r).Evaluable Ex.fitEnv Ex.keyOf 0 Ex.effState := by
  have h := exWhole_evaluable (config := []) (.inl rfl)
  refine ⟨rfl, h.str, rfl, ?_, fun _ _ => rfl, h.dims, ?_, h.names, h.pars, h.globals, h.rates⟩
  · rcases hr with rfl | rfl
    · show ([2, 3, 4].map (fun r => (Ex.effState.objs r).background)).Nodup
      decide
    · show ([2, 3, 5].map (fun r => (Ex.effState.objs r).background)).Nodup
      decide
  intro q hq
  have : q = 2 ∨ q = 3 ∨ q = r := by simpa [Ex.limitArgs] using hq
  rcases hr with rfl | rfl <;> rcases this with rfl | rfl | rfl <;>
    simp [FitState.view, Ex.effState, Ex.fitObj]

theorem ex_effContents : ∀ r < 6,
    RegionContents (inOrder (Ex.limitArgs [2, 3]).roi) [lit "energy_mc"] (Ex.effState.view r)
      (Ex.effContents r) := by
  intro r hr
  have key : ∀ r < 6, ((Ex.effState.view r).shrink exFitKw).err = none ∧
      pick [lit "energy_mc"] (((Ex.effState.view r).shrink exFitKw).st.cfg.map SPar.name)
        ((Ex.effState.view r).shrink exFitKw).st.data.shape = (Ex.effContents r).shape ∧
      ∀ idx ∈ allIdx (Ex.effContents r).shape, (Ex.effContents r).get idx =
        sumIdx ((Ex.effState.view r).shrink exFitKw).st.data.shape (fun full =>
          if pick [lit "energy_mc"] (((Ex.effState.view r).shrink exFitKw).st.cfg.map SPar.name) full =
            idx then ((Ex.effState.view r).shrink exFitKw).st.data.get full else 0) := by
    decide +kernel
  obtain ⟨k1, k2, k3⟩ := key r hr
  refine ⟨((Ex.effState.view r).shrink exFitKw).st, ⟨exFitKw, ?_, k1,
    ⟨⟨rfl, rfl, rfl, rfl, rfl⟩, rfl, fun _ _ => rfl⟩⟩, k2.symm, fun idx hi => ?_⟩
  · show AsksRoi [Ex.fitAxis] (inOrder [(lit "energy", ((2 : ℚ), (1 : ℚ)))]) exFitKw
    rw [exInit_roi]
    exact exFit_asks
  · exact k3 idx (mem_allIdx.2 hi)

/-- For the signal of which twice as many decays are in the region, the limit for the scalings 0, 2 and
10 is half the limit for 0, 4 and 20 of the other signal. -/
example : ∃ ses st₁ w w', init Ex.keyOf (Ex.limitArgs [2, 3]) Ex.effState = (st₁, .ok ses) ∧
    Fitter.limitInit ⟨ses, st₁, Ex.closedSearch⟩ 4 true = (w, .ok ()) ∧
    Fitter.limitInit ⟨ses, st₁, Ex.closedSearch⟩ 5 true = (w', .ok ()) ∧
    ((w'.afterCalls Ex.fitEnv Ex.toInt 5 []).limitOf Ex.fitEnv Ex.toInt 5 [0, 2, 10] [] none 3).2 =
      timesOutcome (1 / 2) ((w.afterCalls Ex.fitEnv Ex.toInt 4 []).limitOf Ex.fitEnv Ex.toInt 4
        [0, 4, 20] [] none 3).2 := by
  obtain ⟨ses, st₁, w, w', h1, h2, h3, h4⟩ := c154_efficiency_floating_partial (env := Ex.fitEnv)
    (keyOf := Ex.keyOf) (rnd := Ex.toInt) (vss := Ex.closedValues) (search := Ex.closedSearch)
    (ex_effOn (.inr rfl) (.inl rfl)) (ex_effOn (.inr rfl) (.inr rfl)) (ex_effEvaluable (.inl rfl)) (ex_effEvaluable (.inr rfl))
    (by
      refine ⟨by simp [Ex.limitArgs], rfl, ?_, ?_, rfl, rfl⟩
      · intro r hr
        have : r = 2 ∨ r = 3 := by simpa [Ex.limitArgs] using hr
        rcases this with rfl | rfl
        · exact ⟨0, rfl⟩
        · exact ⟨1, rfl⟩
      · intro p hp
        have : p = 0 ∨ p = 1 := by
          have : p ∈ [0, 1] := hp
          simpa using this
        rcases this with rfl | rfl <;> simp [Ex.effState, Ex.fitState, Ex.fitParam])
    (ns := [lit "energy_mc"]) (.cons ⟨⟨lit "mc", by decide, rfl⟩, Ex.fitAxis,
      by simp [FitState.view, Ex.effState, Ex.fitState], rfl⟩ .nil)
    (c := Ex.effContents) (fun q hq => ex_effContents q (by
      simp [FitArgs.kept, Ex.limitArgs] at hq
      omega)) (ex_effContents 5 (by omega)) made_search (.cons ⟨rfl, rfl⟩ (.cons ⟨rfl, rfl⟩ .nil)) (by
      intro vs hvs x hx
      have : vs = [8, 10] ∨ vs = [7, 5, 3] := by simpa [Ex.closedValues] using hvs
      rcases this with rfl | rfl
      · have hx : x = 8 ∨ x = 10 := by simpa using hx
        rcases hx with rfl | rfl <;> simp [Ex.toInt]
      · have hx : x = 7 ∨ x = 5 ∨ x = 3 := by simpa using hx
        rcases hx with rfl | rfl | rfl <;> simp [Ex.toInt]) (e := 2) (by norm_num) (fun idx hi => by
      have : ∀ idx ∈ allIdx (Ex.effContents 4).shape, (Ex.effContents 5).get idx /
          (Ex.effState.view 5).numDecays = 2 * ((Ex.effContents 4).get idx /
          (Ex.effState.view 4).numDecays) := by decide +kernel
      exact this idx (mem_allIdx.2 hi))
  refine ⟨ses, st₁, w, w', h1, h2, h3, ?_⟩
  have x1 := ex_exactScales (l := [0, 4, 20]) (by decide) (by decide)
  have x2 := ex_exactScales (l := [0, 2, 10]) (by decide) (by decide)
  have s1 : ([0, 4, 20] : List ℤ).map (fun n : ℤ => (n : ℝ)) = [0, 4, 20] := by norm_num
  have s2 : ([0, 2, 10] : List ℤ).map (fun n : ℤ => (n : ℝ)) = [0, 2, 10] := by norm_num
  have s3 : ([0, 4, 20] : List ℝ).map ((((2 : ℚ)⁻¹ : ℚ) : ℝ) * ·) = [0, 2, 10] := by norm_num
  rw [s1] at x1
  rw [s2] at x2
  have := h4 [] [] [0, 4, 20] (fun x hx => by simp [allScales] at hx)
    (fun x hx => by simp [allScales] at hx) (by simp) x1 (by rw [s3]; exact x2) [] (by simp) 3
  rw [s3, show ((((2 : ℚ)⁻¹ : ℚ) : ℝ)) = 1 / 2 by norm_num] at this
  exact this

/-- The same without floating backgrounds. -/
example : ∃ ses st₁ w w', init Ex.keyOf (Ex.limitArgs []) Ex.effState = (st₁, .ok ses) ∧
    Fitter.limitInit ⟨ses, st₁, GridSearch.new [] [] none false⟩ 4 true = (w, .ok ()) ∧
    Fitter.limitInit ⟨ses, st₁, GridSearch.new [] [] none false⟩ 5 true = (w', .ok ()) ∧
    ((w'.afterCalls Ex.fitEnv Ex.toInt 5 []).limitOf Ex.fitEnv Ex.toInt 5 [0, 2, 10] [] none 3).2 =
      timesOutcome (1 / 2) ((w.afterCalls Ex.fitEnv Ex.toInt 4 []).limitOf Ex.fitEnv Ex.toInt 4
        [0, 4, 20] [] none 3).2 := by
  obtain ⟨ses, st₁, w, w', h1, h2, h3, h4⟩ := c154_efficiency_counting_partial (env := Ex.fitEnv)
    (keyOf := Ex.keyOf) (rnd := Ex.toInt) (ex_effOn (.inl rfl) (.inl rfl))
    (ex_effOn (.inl rfl) (.inr rfl)) (by simp [Ex.limitArgs]) rfl rfl
    (ns := [lit "energy_mc"]) (.cons ⟨⟨lit "mc", by decide, rfl⟩, Ex.fitAxis,
      by simp [FitState.view, Ex.effState, Ex.fitState], rfl⟩ .nil)
    (c := Ex.effContents) (fun q hq => ex_effContents q (by
      simp [FitArgs.kept, Ex.limitArgs] at hq
      omega)) (ex_effContents 5 (by omega)) (GridSearch.new [] [] none false) rfl (e := 2) (by norm_num)
    (fun idx hi => by
      have : ∀ idx ∈ allIdx (Ex.effContents 4).shape, (Ex.effContents 5).get idx /
          (Ex.effState.view 5).numDecays = 2 * ((Ex.effContents 4).get idx /
          (Ex.effState.view 4).numDecays) := by decide +kernel
      exact this idx (mem_allIdx.2 hi))
  refine ⟨ses, st₁, w, w', h1, h2, h3, ?_⟩
  have x1 := ex_exactScales (l := [0, 4, 20]) (by decide) (by decide)
  have x2 := ex_exactScales (l := [0, 2, 10]) (by decide) (by decide)
  have s1 : ([0, 4, 20] : List ℤ).map (fun n : ℤ => (n : ℝ)) = [0, 4, 20] := by norm_num
  have s2 : ([0, 2, 10] : List ℤ).map (fun n : ℤ => (n : ℝ)) = [0, 2, 10] := by norm_num
  have s3 : ([0, 4, 20] : List ℝ).map ((((2 : ℚ)⁻¹ : ℚ) : ℝ) * ·) = [0, 2, 10] := by norm_num
  rw [s1] at x1
  rw [s2] at x2
  have := h4 [] [] [0, 4, 20] (fun x hx => by simp [allScales] at hx)
    (fun x hx => by simp [allScales] at hx) (by simp) x1 (by rw [s3]; exact x2) [] (by simp) 3
  rw [s3, show ((((2 : ℚ)⁻¹ : ℚ) : ℝ)) = 1 / 2 by norm_num] at this
  exact this

end Verif
