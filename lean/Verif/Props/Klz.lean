import Verif.Model.Klz
import Verif.Props.Utilities
import Verif.Lemmas.Except

/-! # C124: the KamLAND-Zen limits script -/

namespace Verif

/-- `t` is `s` with every content multiplied as the bounds ask: by `10 ^ (-e)` for the upper bound
on the limit, by `10 ^ e` for the lower one, with `e = 0.02 √3`. -/
def Grabbed (rnd : ℝ → ℚ) (upper lower : Bool) (s t : Spectrum) : Prop :=
  t.name = s.name ∧ t.cfg = s.cfg ∧ t.numDecays = s.numDecays ∧ t.rawEvents = s.rawEvents ∧
  t.rois = s.rois ∧ t.data.shape = s.data.shape ∧
  ∀ idx, InB s.data.shape idx → t.data.get idx =
    if upper then rnd (s.data.get idx * (10 : ℝ) ^ (-(2 / 100 * Real.sqrt 3)))
    else if lower then rnd (s.data.get idx * (10 : ℝ) ^ (2 / 100 * Real.sqrt 3))
    else s.data.get idx

/-- A spectrum with one axis and no negative content. -/
def Flat (s : Spectrum) : Prop :=
  (∃ n, s.data.shape = [n]) ∧ ∀ idx, InB s.data.shape idx → 0 ≤ s.data.get idx

theorem plotGrabErr_eq : plotGrabErr = 2 / 100 * Real.sqrt 3 := by
  unfold plotGrabErr
  have : (3 : ℝ) * (4 * (5 / 1000)) ^ 2 = (2 / 100) ^ 2 * 3 := by norm_num
  rw [this, Real.sqrt_mul (by positivity), Real.sqrt_sq (by norm_num)]

theorem plotGrabErr_pos : 0 < plotGrabErr := by
  rw [plotGrabErr_eq]
  positivity

theorem grabOnce_flat (rnd : ℝ → ℚ) {lin : ℝ} (hl : lin ≠ 0) {s : Spectrum} (hs : Flat s) :
    ∃ d, grabOnce rnd lin s = .ok { s with data := d } ∧ d.shape = s.data.shape ∧
      ∀ idx, InB s.data.shape idx → d.get idx = rnd (s.data.get idx * (10 : ℝ) ^ lin) := by
  obtain ⟨⟨n, hn⟩, hp⟩ := hs
  obtain ⟨-, r, hr, hget⟩ := c69_logarithmic_partial
    ⟨s.data.shape, fun idx => (s.data.get idx : ℝ)⟩ lin hl none
    (fun idx hi => Rat.cast_nonneg.2 (hp idx hi)) false
  have hsh : r.shape = [n] := by
    unfold getArrayErrors at hr
    split at hr
    · cases hr
    · rename_i es hes
      cases hr
      have : es.length = n := by
        have h := mapM_except_length hes
        simpa [hn] using h
      simp [this]
  have hadd : addFlat rnd s.data r =
      .ok ⟨s.data.shape, fun idx => rnd ((s.data.get idx : ℝ) + r.get [idx.getLastD 0])⟩ := by
    unfold addFlat
    simp [hn, hsh]
  refine ⟨⟨s.data.shape, fun idx => rnd ((s.data.get idx : ℝ) + r.get [idx.getLastD 0])⟩, ?_, rfl, ?_⟩
  · unfold grabOnce
    rw [hr]
    simp only [bind, Except.bind, hadd]
  · intro idx hi
    have h := hget idx hi
    have hi' := hi
    rw [hn] at hi'
    obtain ⟨i, rfl, -⟩ : ∃ i, idx = [i] ∧ i < n := by
      cases hi' with
      | cons h1 h => cases h; exact ⟨_, rfl, h1⟩
    dsimp only at h ⊢
    rw [hn] at h
    have hrav : ravelIdx [n] [i] = i := by simp [ravelIdx]
    rw [hrav] at h
    change rnd (_ + r.get [i]) = _
    rw [h]
    congr 1
    ring

/-- **C124, bounds from plot grabbing.** On a spectrum with one axis and no negative content the
two options multiply every content by a power of ten; empty bins stay empty and the rest of the
spectrum stays as it is. The options exclude each other on the command line. -/
theorem c124_bounds_partial (rnd : ℝ → ℚ) (upper lower : Bool) (hx : ¬ (upper = true ∧ lower = true))
    (s : Spectrum) (hs : Flat s) :
    ∃ t, grab rnd upper lower s = .ok t ∧ Grabbed rnd upper lower s t := by
  unfold grab
  cases upper with
  | true =>
    have hlow : lower = false := by simpa using hx
    subst hlow
    obtain ⟨d, h1, h2, h3⟩ := grabOnce_flat rnd (neg_ne_zero.2 plotGrabErr_pos.ne') hs
    refine ⟨{ s with data := d }, ?_, rfl, rfl, rfl, rfl, rfl, h2, fun idx hi => ?_⟩
    · simp only [if_true, h1, bind, Except.bind, Bool.false_eq_true, if_false]
    · rw [if_pos rfl, ← plotGrabErr_eq]
      exact h3 idx hi
  | false =>
    cases lower with
    | true =>
      obtain ⟨d, h1, h2, h3⟩ := grabOnce_flat rnd plotGrabErr_pos.ne' hs
      refine ⟨{ s with data := d }, ?_, rfl, rfl, rfl, rfl, rfl, h2, fun idx hi => ?_⟩
      · simp only [if_true, h1, bind, Except.bind, Bool.false_eq_true, if_false]
      · rw [if_neg (by simp), if_pos rfl, ← plotGrabErr_eq]
        exact h3 idx hi
    | false =>
      refine ⟨s, ?_, rfl, rfl, rfl, rfl, rfl, rfl, fun idx _ => ?_⟩
      · simp [bind, Except.bind]
      · simp

theorem klzAppend_ok {load : PyStr → Except PyErr Spectrum} (names : List PyStr) {fs : List PyStr}
    {ss : List Spectrum} (h : List.Forall₂ (fun f s => load f = .ok s) fs ss) (acc : List Spectrum) :
    klzAppend load names acc fs = (acc ++ ss.filter (fun s => s.name ∉ names), .ok ()) := by
  induction h generalizing acc with
  | nil => simp [klzAppend]
  | @cons f s fs ss h1 _ ih =>
    unfold klzAppend
    rw [h1]
    dsimp only
    rw [ih]
    by_cases hm : s.name ∈ names
    · rw [if_pos hm, List.filter_cons_of_neg (by simpa using hm)]
    · rw [if_neg hm, List.filter_cons_of_pos (by simpa using hm), List.append_assoc]
      rfl

theorem grabAll_ok {rnd : ℝ → ℚ} {upper lower : Bool} {l : List Spectrum}
    (h : ∀ s ∈ l, ∃ t, grab rnd upper lower s = .ok t ∧ Grabbed rnd upper lower s t) :
    ∃ l', grabAll rnd upper lower l = (l', .ok ()) ∧
      List.Forall₂ (fun s t => grab rnd upper lower s = .ok t ∧ Grabbed rnd upper lower s t) l l' := by
  induction l with
  | nil => exact ⟨[], rfl, .nil⟩
  | cons s l ih =>
    obtain ⟨t, ht, hg⟩ := h s (by simp)
    obtain ⟨l', hl, hf⟩ := ih fun s hs => h s (by simp [hs])
    refine ⟨t :: l', ?_, .cons ⟨ht, hg⟩ hf⟩
    unfold grabAll
    rw [ht]
    simp only [hl]

theorem klzFixed_ok {load : PyStr → Except PyErr Spectrum} {rnd : ℝ → ℚ} {upper lower : Bool}
    (hx : ¬ (upper = true ∧ lower = true)) {fx : List (PyStr × ℚ)} {ss : List Spectrum}
    (h : List.Forall₂ (fun e s => load e.1 = .ok s) fx ss) (hf : ∀ s ∈ ss, Flat s) :
    ∃ r, klzFixed load rnd upper lower (.given fx) = .ok r ∧
      r.map Prod.snd = fx.map Prod.snd ∧
      List.Forall₂ (Grabbed rnd upper lower) ss (r.map Prod.fst) := by
  unfold klzFixed
  dsimp only
  induction h with
  | nil => exact ⟨[], rfl, rfl, .nil⟩
  | @cons e s fx ss h1 _ ih =>
    obtain ⟨r, hr, h2, h3⟩ := ih fun s hs => hf s (by simp [hs])
    obtain ⟨t, ht, hg⟩ := c124_bounds_partial rnd upper lower hx s (hf s (by simp))
    refine ⟨(t, e.2) :: r, ?_, by simp [h2], .cons hg h3⟩
    rw [List.mapM_cons, hr, h1]
    simp only [bind, Except.bind, ht]
    rfl

/-- **C124, what is fitted.** With a region of interest and files that can be loaded, the fit is made
from the configured data, the fixed backgrounds with their numbers of decays, and as floating
backgrounds first those passed, then the configured ones whose names are not among the passed ones,
in order; all with the bounds applied. -/
theorem c124_fitted_partial (load : PyStr → Except PyErr Spectrum) (rnd : ℝ → ℚ)
    (upper lower : Bool) (hx : ¬ (upper = true ∧ lower = true))
    (roi : List (PyStr × (ℚ × ℚ))) (path : PyStr) (fx : List (PyStr × ℚ)) (fs : List PyStr)
    (passed : List Spectrum) (data : Spectrum) (fixed floating : List Spectrum)
    (hd : load path = .ok data) (hfx : List.Forall₂ (fun e s => load e.1 = .ok s) fx fixed)
    (hfs : List.Forall₂ (fun f s => load f = .ok s) fs floating)
    (flat : ∀ s ∈ data :: (fixed ++ floating ++ passed), Flat s) :
    ∃ f, klzPrepare load rnd upper lower ⟨.given roi, some path, .given fx, .given fs⟩ passed =
        (f.floating, .ok f) ∧
      f.roi = roi ∧ Grabbed rnd upper lower data f.data ∧
      f.fixed.map Prod.snd = fx.map Prod.snd ∧
      List.Forall₂ (Grabbed rnd upper lower) fixed (f.fixed.map Prod.fst) ∧
      List.Forall₂ (Grabbed rnd upper lower)
        (passed ++ floating.filter (fun s => s.name ∉ passed.map Spectrum.name)) f.floating := by
  obtain ⟨d, hd1, hd2⟩ := c124_bounds_partial rnd upper lower hx data (flat _ (by simp))
  obtain ⟨r, hr, hr2, hr3⟩ := klzFixed_ok (load := load) (rnd := rnd) hx hfx
    fun s hs => flat s (by simp [hs])
  obtain ⟨l, hl, hl2⟩ := grabAll_ok (rnd := rnd) (upper := upper) (lower := lower)
    (l := passed ++ floating.filter (fun s => s.name ∉ passed.map Spectrum.name)) (by
      intro s hs
      refine c124_bounds_partial rnd upper lower hx s (flat s ?_)
      rcases List.mem_append.1 hs with h | h
      · simp [h]
      · simp [(List.mem_filter.1 h).1])
  refine ⟨⟨roi, d, r, l⟩, ?_, rfl, hd2, hr2, hr3, hl2.imp fun _ _ h => h.2⟩
  unfold klzPrepare
  simp only [hd, bind, Except.bind, hd1, hr, klzFloating, klzAppend_ok _ hfs, hl]

/-- **C124, negation: the end.** The script never ends normally: whatever is configured, loaded and
fitted, it raises, at the latest right after the fit and before any signal is loaded. -/
theorem c124_never_ends_negation (load : PyStr → Except PyErr Spectrum) (rnd : ℝ → ℚ)
    (fit : KlzFit → List Spectrum × Except PyErr Unit) (upper lower : Bool) (cfg : KlzConfig)
    (passed : List Spectrum) :
    (klzMain load rnd fit upper lower cfg passed).2 ≠ .ok () ∧
    ∀ l f, klzPrepare load rnd upper lower cfg passed = (l, .ok f) → (fit f).2 = .ok () →
      (klzMain load rnd fit upper lower cfg passed).2 = .error .attributeError := by
  have hm : lit "get_fit_results" ∉ fitMethods := by decide +kernel
  unfold klzMain
  constructor
  · split
    · simp
    · split
      · simp
      · rw [if_neg hm]; simp
  · intro l f h hf
    rw [h]
    dsimp only
    generalize fit f = p at hf
    obtain ⟨l', r⟩ := p
    cases hf
    dsimp only
    rw [if_neg hm]

/-- **C124, negation: the direction.** The script says that for the upper bound on the limit the
backgrounds fluctuate up and for the lower bound down. It is the other way round in every bin with
content. -/
theorem c124_direction_negation (rnd : ℝ → ℚ) (upper : Bool) (s : Spectrum) (hs : Flat s)
    (idx : List ℕ) (hi : InB s.data.shape idx) (hpos : 0 < s.data.get idx) :
    ∃ t x, grab rnd upper (!upper) s = .ok t ∧ t.data.get idx = rnd x ∧
      if upper then x < s.data.get idx else (s.data.get idx : ℝ) < x := by
  obtain ⟨t, ht, -, -, -, -, -, -, hg⟩ := c124_bounds_partial rnd upper (!upper) (by cases upper <;> simp) s hs
  have he : 0 < 2 / 100 * Real.sqrt 3 := by positivity
  have hp : (0 : ℝ) < s.data.get idx := Rat.cast_pos.2 hpos
  cases upper with
  | true =>
    refine ⟨t, _, ht, by rw [hg idx hi, if_pos rfl], ?_⟩
    rw [if_pos rfl]
    have : (10 : ℝ) ^ (-(2 / 100 * Real.sqrt 3)) < 1 :=
      Real.rpow_lt_one_of_one_lt_of_neg (by norm_num) (by linarith)
    nlinarith
  | false =>
    refine ⟨t, _, ht, by rw [hg idx hi, if_neg (by simp), if_pos (by rfl)], ?_⟩
    rw [if_neg (by simp)]
    have : (1 : ℝ) < (10 : ℝ) ^ (2 / 100 * Real.sqrt 3) := Real.one_lt_rpow (by norm_num) he
    nlinarith

/-- **C124, negation: several axes.** A spectrum with two axes of at least two bins each is refused
with either option. -/
theorem c124_two_axes_negation (rnd : ℝ → ℚ) (s : Spectrum) (a b : ℕ) (ha : 2 ≤ a) (hb : 2 ≤ b)
    (hs : s.data.shape = [a, b]) (hp : ∀ idx, InB s.data.shape idx → 0 ≤ s.data.get idx)
    (lower : Bool) :
    grab rnd true lower s = .error .valueError ∧ grab rnd false true s = .error .valueError := by
  have key : ∀ lin : ℝ, lin ≠ 0 → grabOnce rnd lin s = .error .valueError := by
    intro lin hl
    obtain ⟨-, r, hr, -⟩ := c69_logarithmic_partial
      ⟨s.data.shape, fun idx => (s.data.get idx : ℝ)⟩ lin hl none
      (fun idx hi => Rat.cast_nonneg.2 (hp idx hi)) false
    have hsh : r.shape = [a * b] := by
      unfold getArrayErrors at hr
      split at hr
      · cases hr
      · rename_i es hes
        cases hr
        have h := mapM_except_length hes
        have : es.length = a * b := by simpa [hs] using h
        simp [this]
    unfold grabOnce
    rw [hr]
    have h1 : b ≠ a * b := by nlinarith
    have h2 : a * b ≠ 1 := by nlinarith
    have h3 : b ≠ 1 := by omega
    simp [bind, Except.bind, addFlat, hs, hsh, h1, h2, h3]
  unfold grab
  simp [key _ plotGrabErr_pos.ne', key _ (neg_ne_zero.2 plotGrabErr_pos.ne'), bind, Except.bind]

/-- **C124, negation: a second call.** The default lists of `main` are kept between calls. A second
call without lists fits what the first one left behind, with the bounds applied once more, and none
of the configured spectra; here the fit is supposed to keep the names. -/
theorem c124_second_call_negation (load : PyStr → Except PyErr Spectrum) (rnd : ℝ → ℚ)
    (upper lower : Bool) (roi : List (PyStr × (ℚ × ℚ))) (path : PyStr)
    (fx : Given (List (PyStr × ℚ))) (fs : List PyStr) (floating left : List Spectrum)
    (hfs : List.Forall₂ (fun f s => load f = .ok s) fs floating)
    (hleft : left.map Spectrum.name = floating.map Spectrum.name) (l : List Spectrum) (f : KlzFit)
    (h : klzPrepare load rnd upper lower ⟨.given roi, some path, fx, .given fs⟩ left = (l, .ok f)) :
    grabAll rnd upper lower left = (f.floating, .ok ()) := by
  have hnone : floating.filter (fun s => s.name ∉ left.map Spectrum.name) = [] := by
    rw [List.filter_eq_nil_iff]
    intro s hs
    rw [hleft]
    simpa using ⟨s, hs, rfl⟩
  unfold klzPrepare at h
  dsimp only at h
  split at h
  · cases h
  · split at h
    · cases h
    · have e1 : klzFloating load left (.given fs) = (left, .ok ()) := by
        unfold klzFloating
        dsimp only
        rw [klzAppend_ok _ hfs, hnone, List.append_nil]
      rw [e1] at h
      dsimp only at h
      generalize grabAll rnd upper lower left = p at h ⊢
      obtain ⟨l', r⟩ := p
      cases r with
      | error e => cases h
      | ok u => cases h; rfl

/-- A spectrum with three bins, one of them empty. -/
def Ex.klz (name : PyStr) : Spectrum :=
  ⟨name, [⟨lit "energy_mc", 0, 3, 3⟩], ⟨[3], fun idx => match idx with
    | [0] => 4
    | [1] => 0
    | _ => 2⟩, 10, 1, []⟩

theorem Ex.klz_flat (name : PyStr) : Flat (Ex.klz name) := by
  refine ⟨⟨3, rfl⟩, fun idx _ => ?_⟩
  unfold Ex.klz
  dsimp only
  split <;> norm_num

/-- The hypotheses hold for files named like their spectra, with a background passed and configured. -/
example : List.Forall₂ (fun f s => (fun p : PyStr => (.ok (Ex.klz p) : Except PyErr Spectrum)) f = .ok s)
      [lit "a", lit "b"] [Ex.klz (lit "a"), Ex.klz (lit "b")] ∧
    (∀ s ∈ [Ex.klz (lit "a"), Ex.klz (lit "b")], Flat s) ∧
    [Ex.klz (lit "a"), Ex.klz (lit "b")].filter
      (fun s => s.name ∉ [Ex.klz (lit "a")].map Spectrum.name) = [Ex.klz (lit "b")] := by
  refine ⟨.cons rfl (.cons rfl .nil), ?_, ?_⟩
  · intro s hs
    simp only [List.mem_cons, List.not_mem_nil, or_false] at hs
    rcases hs with rfl | rfl <;> exact Ex.klz_flat _
  · rw [List.filter_cons_of_neg (by decide), List.filter_cons_of_pos (by decide)]
    rfl

/-- A bin with content, and a spectrum with two axes of two bins. -/
example : InB (Ex.klz (lit "a")).data.shape [2] ∧ 0 < (Ex.klz (lit "a")).data.get [2] ∧
    ∃ s : Spectrum, s.data.shape = [2, 2] ∧ (∀ idx, InB s.data.shape idx → 0 ≤ s.data.get idx) ∧
      s.data.get [1, 1] = 5 := by
  refine ⟨by decide, by norm_num [Ex.klz], ⟨lit "two", [], ⟨[2, 2], fun _ => 5⟩, 5, 5, []⟩, rfl, ?_, rfl⟩
  intro _ _
  norm_num

end Verif
