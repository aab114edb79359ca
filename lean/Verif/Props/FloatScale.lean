import Verif.Lemmas.FloatBinary
import Verif.Spec.Examples
import Verif.Spec.Float
import Verif.Props.FloatFill

/-! # C129: scaling a spectrum with floats -/

namespace Verif

/-- **C129, accuracy.** Scaling fails exactly when the old number of decays is zero. Otherwise the new
number is stored as it is, cells that were zero stay zero, and every cell is right up to a relative
error of `2 u + u²`; nothing else changes. -/
theorem c129_scale (R : Rounding) (s : Spectrum) (n : ℚ) :
    ((R.scale s n).err = none ↔ s.numDecays ≠ 0) ∧
    (s.numDecays ≠ 0 → (R.scale s n).st.numDecays = n ∧
      (R.scale s n).st.data.shape = s.data.shape ∧ (R.scale s n).st.name = s.name ∧
      (R.scale s n).st.cfg = s.cfg ∧ (R.scale s n).st.rawEvents = s.rawEvents ∧
      (R.scale s n).st.rois = s.rois ∧
      ∀ j, (s.data.get j = 0 → (R.scale s n).st.data.get j = 0) ∧
        |(R.scale s n).st.data.get j - s.data.get j * (n / s.numDecays)| ≤
          (2 * R.u + R.u ^ 2) * |s.data.get j * (n / s.numDecays)|) := by
  have hu0 := R.u_nonneg
  unfold Rounding.scale
  by_cases h : s.numDecays = 0
  · rw [if_pos h]
    exact ⟨⟨fun h' => by simp [Outcome.fail] at h', fun h' => absurd h h'⟩, fun h' => absurd h h'⟩
  · rw [if_neg h]
    refine ⟨⟨fun _ => h, fun _ => rfl⟩, fun _ => ⟨rfl, rfl, rfl, rfl, rfl, rfl, fun j => ⟨?_, ?_⟩⟩⟩
    · intro h0
      simp [Outcome.ok, Rounding.mul, h0, R.rnd_zero]
    · simp only [Outcome.ok, Rounding.mul, Rounding.div]
      generalize s.data.get j = x
      generalize n / s.numDecays = q
      have h1 := R.rel q
      have h2 := R.rel (x * R.rnd q)
      have h3 : |x * R.rnd q - x * q| ≤ R.u * |x * q| := by
        rw [← mul_sub, abs_mul, abs_mul]
        have := mul_le_mul_of_nonneg_left h1 (abs_nonneg x)
        linarith
      have h4 : |x * R.rnd q| ≤ (1 + R.u) * |x * q| := by
        have := abs_add_le (x * R.rnd q - x * q) (x * q)
        rw [sub_add_cancel] at this
        linarith
      have h5 : R.u * |x * R.rnd q| ≤ R.u * ((1 + R.u) * |x * q|) := by gcongr
      have h6 := abs_add_le (R.rnd (x * R.rnd q) - x * R.rnd q) (x * R.rnd q - x * q)
      rw [sub_add_sub_cancel] at h6
      linarith

/-- **C129, order.** Scaling up or down by a positive factor keeps the order of the cells: none that
was at most another is larger afterwards. -/
theorem c129_order (R : Rounding) (s : Spectrum) (n : ℚ) (h : 0 < n / s.numDecays) (i j : List ℕ)
    (hij : s.data.get i ≤ s.data.get j) :
    (R.scale s n).st.data.get i ≤ (R.scale s n).st.data.get j := by
  unfold Rounding.scale
  have hd : s.numDecays ≠ 0 := by
    intro h0
    rw [h0, div_zero] at h
    exact lt_irrefl _ h
  rw [if_neg hd]
  simp only [Outcome.ok]
  exact R.mul_mono (R.rnd_nonneg h.le) hij

/-- **C129, same number.** Scaling a spectrum of floats to the number of decays it has changes
nothing at all, and scaling twice to the same number is scaling once. -/
theorem c129_same (R : Rounding) (h1 : 1 ≤ R.big) (s : Spectrum) (hd : s.numDecays ≠ 0)
    (hf : ∀ j, R.rnd (s.data.get j) = s.data.get j) :
    (R.scale s s.numDecays).st = s ∧
    ∀ n, n ≠ 0 → (R.scale (R.scale s n).st n).st = (R.scale s n).st := by
  have key : ∀ t : Spectrum, t.numDecays ≠ 0 → (∀ j, R.rnd (t.data.get j) = t.data.get j) →
      (R.scale t t.numDecays).st = t := by
    intro t hd hf
    unfold Rounding.scale
    rw [if_neg hd]
    have hone : R.rnd 1 = 1 := by
      have := R.rnd_nat h1
      simpa using this
    simp only [Outcome.ok, Rounding.mul, Rounding.div, div_self hd, hone, mul_one, hf]
  refine ⟨key s hd hf, fun n hn => ?_⟩
  have e : (R.scale s n).st.numDecays = n := ((c129_scale R s n).2 hd).1
  have := key (R.scale s n).st (by rwa [e]) (by
    intro j
    unfold Rounding.scale
    rw [if_neg hd]
    exact R.idem _)
  rwa [e] at this

/-- The spectrum `Ex.spec` and its number of decays meet the hypotheses. -/
example : Ex.spec.numDecays ≠ 0 ∧ 0 < 100 / Ex.spec.numDecays ∧ 1 ≤ (binary 53 (by norm_num)).big := by
  refine ⟨by norm_num [Ex.spec], by norm_num [Ex.spec], ?_⟩
  simp [binary]

/-- **C129, there and back.** Scaling to another number and back gives every cell back up to a relative
error of `5 u`. Missing: that it gives the cells back exactly, see `c129_back_negation`. -/
theorem c129_back_partial (R : Rounding) (hu : R.u ≤ 1 / 100) (s : Spectrum) (n : ℚ) (hn : n ≠ 0)
    (hd : s.numDecays ≠ 0) (j : List ℕ) :
    (R.scale (R.scale s n).st s.numDecays).st.numDecays = s.numDecays ∧
    |(R.scale (R.scale s n).st s.numDecays).st.data.get j - s.data.get j| ≤
      5 * R.u * |s.data.get j| := by
  have hu0 := R.u_nonneg
  obtain ⟨a1, -, -, -, -, -, a2⟩ := (c129_scale R s n).2 hd
  have hd' : (R.scale s n).st.numDecays ≠ 0 := by rwa [a1]
  obtain ⟨b1, -, -, -, -, -, b2⟩ := (c129_scale R (R.scale s n).st s.numDecays).2 hd'
  refine ⟨b1, ?_⟩
  have h1 := (a2 j).2
  have h2 := (b2 j).2
  rw [a1] at h2
  generalize (R.scale (R.scale s n).st s.numDecays).st.data.get j = z at *
  generalize (R.scale s n).st.data.get j = y at *
  generalize s.data.get j = x at *
  generalize s.numDecays = d at *
  have e : y * (d / n) - x = (y - x * (n / d)) * (d / n) := by
    field_simp
  have h3 : |y * (d / n) - x| ≤ (2 * R.u + R.u ^ 2) * |x| := by
    rw [e, abs_mul]
    have e2 : |x| = |x * (n / d)| * |d / n| := by
      rw [← abs_mul]
      congr 1
      field_simp
    rw [e2, ← mul_assoc]
    gcongr
  have h4 : |y * (d / n)| ≤ (1 + (2 * R.u + R.u ^ 2)) * |x| := by
    have := abs_add_le (y * (d / n) - x) x
    rw [sub_add_cancel] at this
    linarith
  have h5 := abs_add_le (z - y * (d / n)) (y * (d / n) - x)
  rw [sub_add_sub_cancel] at h5
  have h6 : (2 * R.u + R.u ^ 2) * |y * (d / n)| ≤
      (2 * R.u + R.u ^ 2) * ((1 + (2 * R.u + R.u ^ 2)) * |x|) := by gcongr
  have h7 : (2 * R.u + R.u ^ 2) * (1 + (2 * R.u + R.u ^ 2)) + (2 * R.u + R.u ^ 2) ≤ 5 * R.u := by
    nlinarith [mul_nonneg hu0 hu0, mul_nonneg (mul_nonneg hu0 hu0) hu0,
      mul_nonneg hu0 (sub_nonneg.2 hu), mul_nonneg (mul_nonneg hu0 hu0) (sub_nonneg.2 hu),
      mul_nonneg (mul_nonneg (mul_nonneg hu0 hu0) hu0) (sub_nonneg.2 hu)]
  have h8 := mul_le_mul_of_nonneg_right h7 (abs_nonneg x)
  linarith

namespace Ex

/-- One bin with one event, 49 decays. -/
def one49 : Spectrum := ⟨lit "one", [⟨lit "energy_mc", 0, 1, 1⟩], ⟨[1], fun _ => 1⟩, 49, 0, []⟩

end Ex

/-- **C129, negation.** With python's floats, scaling to another number of decays and back does not
always give the cells back: with 49 decays, scaled to 1 and back, one event becomes slightly less. -/
theorem c129_back_negation :
    ¬ ∀ (s : Spectrum) (n : ℚ), s.WF → n ≠ 0 → s.numDecays ≠ 0 →
      roundBits 53 n = n → roundBits 53 s.numDecays = s.numDecays →
      (∀ j, roundBits 53 (s.data.get j) = s.data.get j) → ∀ j,
      ((binary 53 (by norm_num)).scale ((binary 53 (by norm_num)).scale s n).st s.numDecays).st.data.get j =
        s.data.get j := by
  intro h
  have hint : ∀ k : ℕ, k ≤ 2 ^ 53 → roundBits 53 (k : ℚ) = k := fun k hk =>
    (binary 53 (by norm_num)).rnd_nat hk
  have h1 : roundBits 53 1 = 1 := by
    have := hint 1 (by norm_num)
    simpa using this
  have h49 : roundBits 53 49 = 49 := by
    have := hint 49 (by norm_num)
    exact_mod_cast this
  have := h Ex.one49 1 ⟨by
    simp only [Ex.one49, List.mem_cons, List.not_mem_nil, or_false, forall_eq]
    exact ⟨by norm_num, by norm_num⟩, by simp [Ex.one49], by simp [Ex.one49]⟩ one_ne_zero
    (by norm_num [Ex.one49]) h1 h49 (fun _ => h1) [0]
  simp only [Rounding.scale, Ex.one49, Outcome.ok, Rounding.mul, Rounding.div, one_mul] at this
  rw [if_neg (by norm_num), if_neg (by norm_num)] at this
  change roundBits 53 (roundBits 53 (roundBits 53 (1 / 49)) * roundBits 53 (49 / 1)) = 1 at this
  have hr : roundBits 53 (1 / 49) = 5882252574524729 / 2 ^ 58 := by
    rw [roundBits_eq 53 (x := 1 / 49) (e := -6) (by norm_num [abs_of_pos]) (by norm_num [abs_of_pos])]
    norm_num [npRint, Int.fract]
  have hid : roundBits 53 (5882252574524729 / 2 ^ 58) = 5882252574524729 / 2 ^ 58 := by
    rw [← hr]
    exact (binary 53 (by norm_num)).idem _
  rw [hr, hid, div_one, h49] at this
  rw [roundBits_eq 53 (e := -1) (by norm_num [abs_of_pos]) (by norm_num [abs_of_pos])] at this
  norm_num [npRint, Int.fract] at this

end Verif
