import Verif.Model.FloatSmear
import Verif.Lemmas.FloatShift

/-! # Lemmas on weighted smearing with floats -/

namespace Verif

namespace Rounding

variable (R : Rounding)

theorem sub_near {p : SPar} {x y X Y ε ζ M : ℚ} (hx : |x - X| ≤ ε * p.width)
    (hy : |y - Y| ≤ ζ * p.width) (hM : |X - Y| ≤ M * p.width) :
    |R.sub x y - (X - Y)| ≤ (ε + ζ + R.u * (M + ε + ζ)) * p.width := by
  have h := R.add_near (p := p) (x := x) (y := -y) (X := X) (Y := -Y) (ε := ε) (ζ := ζ) (M := M) hx
    (by rw [← abs_neg]; convert hy using 2; ring) (by rw [← sub_eq_add_neg]; exact hM)
  unfold add at h
  unfold sub
  rwa [← sub_eq_add_neg, ← sub_eq_add_neg] at h

theorem half_near {p : SPar} (hp : p.WF) (hu : R.u ≤ 1 / 1000) :
    |R.mul (1 / 2) (R.width p) - 1 / 2 * p.width| ≤ (3 * R.u) * p.width := by
  have hu0 := R.u_nonneg
  have hw := hp.width_pos
  have hW := R.width_near hp hu
  obtain ⟨W1, W2⟩ := R.width_pos hp hu
  unfold mul
  have a1 := R.rel_pos (x := 1 / 2 * R.width p) (by linarith)
  have a2 : R.u * (1 / 2 * R.width p) ≤ R.u * (1 / 2 * (1003 / 1000 * p.width)) := by gcongr
  have a3 := abs_le.1 hW
  have a4 := abs_le.1 a1
  have a5 : 0 ≤ R.u * p.width := by have := hw.le; positivity
  rw [abs_le]
  constructor <;> linarith [a3.1, a3.2, a4.1, a4.2]

/-- Rounding to a multiple of the width, half a width added: the centre of a bin of an axis from 0. -/
theorem round_half {p : SPar} (hp : p.WF) {κ N X Y : ℚ} (hN : N * R.u ≤ κ) (h1 : 1 ≤ N)
    (hκ : κ ≤ 1 / 10000) (hY : |Y| ≤ N + 1) (hX : |X - Y * p.width| ≤ 14 * κ * p.width) :
    ∃ P : ℤ, |(P : ℚ) - Y| ≤ 1 / 2 + 40 * κ ∧
      |R.add (R.round p (R.rnd X)) (R.mul (1 / 2) (R.width p)) - ((P : ℚ) + 1 / 2) * p.width| ≤
        30 * κ * p.width := by
  have hu0 := R.u_nonneg
  have huκ : R.u ≤ κ := by nlinarith
  have hu : R.u ≤ 1 / 1000 := by linarith
  have hw := hp.width_pos
  have hd := R.div_width hp hu hX (by linarith)
  have hd' : |R.div (R.rnd X) (R.width p) - Y| ≤ 40 * κ := by
    refine hd.trans ?_
    have : 6 * R.u * (|Y| + 1) ≤ 6 * R.u * (N + 1 + 1) := by gcongr
    nlinarith
  set r := R.div (R.rnd X) (R.width p)
  have hP := pyRound_close r
  refine ⟨pyRound r, ?_, ?_⟩
  · have a1 := abs_le.1 hP
    have a2 := abs_le.1 hd'
    rw [abs_le]
    constructor <;> linarith [a1.1, a1.2, a2.1, a2.2]
  · have hPN : |((pyRound r : ℤ) : ℚ)| ≤ N + 2 := by
      have a1 := abs_le.1 hP
      have a2 := abs_le.1 hd'
      have a3 := abs_le.1 hY
      rw [abs_le]
      constructor <;> linarith [a1.1, a1.2, a2.1, a2.2, a3.1, a3.2]
    have hm := R.mul_width hp hu (pyRound r)
    have hm' : |R.round p (R.rnd X) - pyRound r * p.width| ≤ 15 * κ * p.width := by
      refine hm.trans (mul_le_mul_of_nonneg_right ?_ hw.le)
      have : 5 * R.u * |((pyRound r : ℤ) : ℚ)| ≤ 5 * R.u * (N + 2) := by gcongr
      nlinarith
    have := R.add_near hm' (R.half_near hp hu) (M := N + 3) (by
      rw [← add_mul, abs_mul, abs_of_pos hw]
      gcongr
      refine (abs_add_le _ _).trans ?_
      rw [abs_of_pos (by norm_num : (0 : ℚ) < 1 / 2)]
      linarith)
    rw [← add_mul] at this
    refine this.trans ?_
    gcongr
    nlinarith

/-- One of the points of `numpy.arange` with a step of one computed width. -/
theorem arange_pt {p : SPar} (hp : p.WF) {κ M lo : ℚ} (hM : M * R.u ≤ κ)
    (h1 : 1 ≤ M) (hbM : (p.bins : ℚ) ≤ M) (hκ : p.bins * κ ≤ 1 / 10000)
    (hlo : |lo| ≤ M * p.width) {q : ℕ} (hqb : (q : ℚ) + 1 ≤ p.bins) :
    |(if q = 0 then lo else if q = 1 then R.add lo (R.width p) else
      R.add lo (R.mul q (R.sub (R.add lo (R.width p)) lo))) - (lo + q * p.width)| ≤
      16 * (p.bins * κ) * p.width := by
  have hu0 := R.u_nonneg
  have hbq : (1 : ℚ) ≤ p.bins := by exact_mod_cast hp.1
  have huκ : R.u ≤ κ := by nlinarith
  have hκ0 : 0 ≤ κ := by linarith
  have hκb : κ ≤ p.bins * κ := by nlinarith
  have hu : R.u ≤ 1 / 1000 := by linarith
  have hw := hp.width_pos
  have hW := R.width_near hp hu
  obtain ⟨W1, W2⟩ := R.width_pos hp hu
  have hqq : (0 : ℚ) ≤ q := by positivity
  set w := p.width with hwd
  set W := R.width p with hWd
  have hbk : (0 : ℚ) ≤ p.bins * κ := by positivity
  have hsW : |lo + W| ≤ (M + 2) * w := by
    have a3 := abs_add_le lo W
    rw [abs_of_pos (by linarith : 0 < W)] at a3
    linarith
  have hsec := R.rel (lo + W)
  have hsec' : R.u * |lo + W| ≤ 3 * κ * w := by
    calc R.u * |lo + W| ≤ R.u * ((M + 2) * w) := by gcongr
      _ = (M * R.u + 2 * R.u) * w := by ring
      _ ≤ 3 * κ * w := mul_le_mul_of_nonneg_right (by linarith) hw.le
  by_cases hi0 : q = 0
  · subst hi0
    simp only [if_true, Nat.cast_zero, zero_mul, add_zero, sub_self, abs_zero]
    positivity
  rw [if_neg hi0]
  have a4 : R.u * w ≤ κ * w := mul_le_mul_of_nonneg_right huκ hw.le
  have a5 : κ * w ≤ p.bins * κ * w := mul_le_mul_of_nonneg_right hκb hw.le
  have a6 : κ * w ≤ 1 / 1000 * w := mul_le_mul_of_nonneg_right (by linarith) hw.le
  by_cases hi1 : q = 1
  · subst hi1
    rw [if_pos rfl]
    unfold add
    have a1 := abs_le.1 (hsec.trans hsec')
    have a3 := abs_le.1 hW
    push_cast
    rw [abs_le]
    constructor <;> linarith [a1.1, a1.2, a3.1, a3.2]
  rw [if_neg hi1]
  have hdel : |R.sub (R.add lo W) lo - w| ≤ 8 * κ * w := by
    have a1 := abs_le.1 (hsec.trans hsec')
    have a3 := abs_le.1 hW
    have b1 : |R.add lo W - lo - w| ≤ 6 * κ * w := by
      unfold add
      rw [abs_le]
      constructor <;> linarith [a1.1, a1.2, a3.1, a3.2]
    unfold sub
    have b2 := R.rel (R.add lo W - lo)
    have b3 : |R.add lo W - lo| ≤ 11 / 10 * w := by
      have := abs_add_le (R.add lo W - lo - w) w
      rw [sub_add_cancel, abs_of_pos hw] at this
      linarith
    have b4 : R.u * |R.add lo W - lo| ≤ R.u * (11 / 10 * w) := mul_le_mul_of_nonneg_left b3 hu0
    have b5 := abs_add_le (R.rnd (R.add lo W - lo) - (R.add lo W - lo)) (R.add lo W - lo - w)
    rw [sub_add_sub_cancel] at b5
    linarith
  generalize R.sub (R.add lo W) lo = dl at hdel
  have hmul : |R.mul q dl - q * w| ≤ (10 * κ * q) * w := by
    unfold mul
    have c1 := R.rel ((q : ℚ) * dl)
    have c2 : |(q : ℚ) * dl - q * w| ≤ q * (8 * κ * w) := by
      rw [← mul_sub, abs_mul, abs_of_nonneg hqq]
      exact mul_le_mul_of_nonneg_left hdel hqq
    have c3 : |(q : ℚ) * dl| ≤ q * (11 / 10 * w) := by
      rw [abs_mul, abs_of_nonneg hqq]
      refine mul_le_mul_of_nonneg_left ?_ hqq
      have := abs_add_le (dl - w) w
      rw [sub_add_cancel, abs_of_pos hw] at this
      linarith
    have c4 : R.u * |(q : ℚ) * dl| ≤ κ * (q * (11 / 10 * w)) :=
      mul_le_mul huκ c3 (abs_nonneg _) hκ0
    have c5 := abs_add_le (R.rnd ((q : ℚ) * dl) - q * dl) (q * dl - q * w)
    rw [sub_add_sub_cancel] at c5
    have c6 : 0 ≤ κ * q * w := by positivity
    linarith
  have hfin := R.add_near (p := p) (x := lo) (X := lo) (ε := 0) (by simp) hmul (M := M + p.bins) (by
    refine (abs_add_le _ _).trans ?_
    rw [abs_of_nonneg (by positivity : 0 ≤ (q : ℚ) * w), add_mul]
    have : (q : ℚ) * w ≤ p.bins * w := mul_le_mul_of_nonneg_right (by linarith) hw.le
    linarith)
  refine hfin.trans (mul_le_mul_of_nonneg_right ?_ hw.le)
  have d1 : κ * q ≤ p.bins * κ - κ := by
    have := mul_le_mul_of_nonneg_left hqb hκ0
    linarith
  have d0 : R.u * p.bins ≤ R.u * M := mul_le_mul_of_nonneg_left hbM hu0
  have d3 : R.u * (10 * κ * q) ≤ 1 / 1000 * (10 * κ * q) :=
    mul_le_mul_of_nonneg_right hu (by positivity)
  linarith

/-- The points of `numpy.arange` with a step of one computed width. -/
theorem arange_near {p : SPar} (hp : p.WF) {κ M lo hi η : ℚ} {a b : ℤ} (hM : M * R.u ≤ κ)
    (h1 : 1 ≤ M) (hbM : (p.bins : ℚ) ≤ M) (hκ : p.bins * κ ≤ 1 / 10000) (hη : η ≤ 1 / 20)
    (hlo : |lo| ≤ M * p.width) (ha : 0 ≤ a) (hab : a ≤ b) (hb : b < p.bins) {c : ℚ}
    (hla : |lo - (c + a * p.width)| ≤ η * p.width) (hhb : |hi - (c + b * p.width)| ≤ η * p.width) :
    ∃ (n : ℕ) (pt : ℕ → ℚ), ((n : ℤ) = b - a ∨ (n : ℤ) = b - a + 1) ∧
      R.arange lo hi (R.width p) = (List.range n).map pt ∧
      ∀ q < n, |pt q - (c + (a + q) * p.width)| ≤ (η + 16 * (p.bins * κ)) * p.width := by
  have hu0 := R.u_nonneg
  have hbq : (1 : ℚ) ≤ p.bins := by exact_mod_cast hp.1
  have huκ : R.u ≤ κ := by nlinarith
  have hκ0 : 0 ≤ κ := by linarith
  have hκb : κ ≤ p.bins * κ := by nlinarith
  have hu : R.u ≤ 1 / 1000 := by linarith
  have hw := hp.width_pos
  have haq : (0 : ℚ) ≤ a := by exact_mod_cast ha
  have habq : (a : ℚ) ≤ b := by exact_mod_cast hab
  have hbbq : (b : ℚ) + 1 ≤ p.bins := by exact_mod_cast hb
  have hD : |hi - lo - ((b : ℚ) - a) * p.width| ≤ (2 * η) * p.width := by
    have x1 := abs_le.1 hla
    have x2 := abs_le.1 hhb
    rw [abs_le]
    constructor <;> linarith [x1.1, x1.2, x2.1, x2.2]
  have hd := R.div_width hp hu hD (by linarith)
  have hlen : |R.div (R.sub hi lo) (R.width p) - ((b - a : ℤ) : ℚ)| < 1 := by
    push_cast
    refine hd.trans_lt ?_
    rw [abs_of_nonneg (by linarith)]
    have e1 : 6 * R.u * ((b : ℚ) - a + 1) ≤ 6 * R.u * p.bins :=
      mul_le_mul_of_nonneg_left (by linarith) (by linarith)
    have e2 : R.u * p.bins ≤ κ * p.bins := mul_le_mul_of_nonneg_right huκ (by linarith)
    linarith
  have hceil := ceil_near hlen
  have hba : 0 ≤ b - a := by omega
  refine ⟨⌈R.div (R.sub hi lo) (R.width p)⌉.toNat, fun q => if q = 0 then lo else if q = 1 then
    R.add lo (R.width p) else R.add lo (R.mul q (R.sub (R.add lo (R.width p)) lo)), ?_, rfl, ?_⟩
  · rcases hceil with h | h <;> rw [h]
    · left
      omega
    · right
      omega
  intro q hq
  have hqn : (q : ℤ) ≤ b - a := by rcases hceil with h | h <;> rw [h] at hq <;> omega
  have hqb : (q : ℚ) + 1 ≤ p.bins := by
    have : (q : ℤ) + 1 ≤ p.bins := by omega
    exact_mod_cast this
  have hs := R.arange_pt hp hM h1 hbM hκ hlo hqb
  dsimp only
  generalize (if q = 0 then lo else if q = 1 then
    R.add lo (R.width p) else R.add lo (R.mul q (R.sub (R.add lo (R.width p)) lo))) = y at hs
  have x1 := abs_le.1 hs
  have x2 := abs_le.1 hla
  rw [abs_le]
  constructor <;> linarith [x1.1, x1.2, x2.1, x2.2]

/-- The limits of the window, before they are cut to the axis. -/
theorem window_near {p : SPar} (hp : p.WF) {κ ns sg : ℚ} (hA : 0 ≤ ns * sg)
    (hN : (|p.low| / p.width + p.bins + ns * sg / p.width) * R.u ≤ κ) (hκ : κ ≤ 1 / 10000)
    {i : ℕ} (hi : (i : ℤ) < p.bins) :
    (∃ P : ℤ, |(P : ℚ) - (p.low / p.width + i - ns * sg / p.width)| ≤ 1 / 2 + 40 * κ ∧
      |R.add (R.round p (R.sub (R.sub (R.binMean p i) (R.mul ns sg)) (R.mul (1 / 2) (R.width p))))
        (R.mul (1 / 2) (R.width p)) - ((P : ℚ) + 1 / 2) * p.width| ≤ 30 * κ * p.width) ∧
    ∃ Q : ℤ, |(Q : ℚ) - (p.low / p.width + i + 1 + ns * sg / p.width)| ≤ 1 / 2 + 40 * κ ∧
      |R.add (R.round p (R.add (R.add (R.binMean p i) (R.mul ns sg)) (R.mul (1 / 2) (R.width p))))
        (R.mul (1 / 2) (R.width p)) - ((Q : ℚ) + 1 / 2) * p.width| ≤ 30 * κ * p.width := by
  have hu0 := R.u_nonneg
  have hw := hp.width_pos
  have hbq : (1 : ℚ) ≤ p.bins := by exact_mod_cast hp.1
  have hiq : (i : ℚ) + 1 ≤ p.bins := by exact_mod_cast hi
  have hi0 : (0 : ℚ) ≤ i := by positivity
  have hl0 : 0 ≤ |p.low| / p.width := by positivity
  have hA0 : 0 ≤ ns * sg / p.width := by positivity
  have hκ' : (|p.low| / p.width + p.bins) * R.u ≤ κ := by
    have := mul_nonneg hA0 hu0
    linarith
  have hAu : ns * sg / p.width * R.u ≤ κ := by
    have := mul_nonneg (by linarith : 0 ≤ |p.low| / p.width + p.bins) hu0
    linarith
  have hmean := R.centre_near hp hκ' (by linarith) (i := i) (by positivity) hi
  have hbm : R.binMean p i = R.add p.low (R.mul (R.add ((i : ℤ) : ℚ) (1 / 2)) (R.width p)) := by
    simp [binMean]
  rw [← hbm] at hmean
  push_cast at hmean
  set N := |p.low| / p.width + p.bins + ns * sg / p.width with hNd
  have h1 : 1 ≤ N := by linarith
  have huκ : R.u ≤ κ := by nlinarith
  have hu : R.u ≤ 1 / 1000 := by linarith
  have hlow : |p.low / p.width| = |p.low| / p.width := by rw [abs_div, abs_of_pos hw]
  have hll := abs_le.1 hlow.le
  have hmul : |R.mul ns sg - ns * sg| ≤ κ * p.width := by
    unfold mul
    refine (R.rel_pos hA).trans ?_
    have e : R.u * (ns * sg) = ns * sg / p.width * R.u * p.width := by field_simp
    rw [e]
    exact mul_le_mul_of_nonneg_right hAu hw.le
  have hhalf := R.half_near hp hu
  have hhalf' : |R.mul (1 / 2) (R.width p) - 1 / 2 * p.width| ≤ (3 * κ) * p.width :=
    hhalf.trans (mul_le_mul_of_nonneg_right (by linarith) hw.le)
  have huN : R.u * (N + 8 * κ + κ) ≤ 11 / 10 * κ := by nlinarith
  have hc1 : |p.low + ((i : ℚ) + 1 / 2) * p.width - ns * sg| ≤ N * p.width := by
    have e : p.low + ((i : ℚ) + 1 / 2) * p.width - ns * sg =
        (p.low / p.width + ((i : ℚ) + 1 / 2) - ns * sg / p.width) * p.width := by field_simp
    rw [e, abs_mul, abs_of_pos hw]
    refine mul_le_mul_of_nonneg_right ?_ hw.le
    rw [abs_le]
    constructor <;> linarith [hll.1, hll.2]
  have hc2 : |p.low + ((i : ℚ) + 1 / 2) * p.width + ns * sg| ≤ N * p.width := by
    have e : p.low + ((i : ℚ) + 1 / 2) * p.width + ns * sg =
        (p.low / p.width + ((i : ℚ) + 1 / 2) + ns * sg / p.width) * p.width := by field_simp
    rw [e, abs_mul, abs_of_pos hw]
    refine mul_le_mul_of_nonneg_right ?_ hw.le
    rw [abs_le]
    constructor <;> linarith [hll.1, hll.2]
  have s1 := R.sub_near hmean hmul hc1
  have s2 := R.add_near hmean hmul hc2
  have s1' : |R.sub (R.binMean p i) (R.mul ns sg) - (p.low + ((i : ℚ) + 1 / 2) * p.width - ns * sg)| ≤
      (11 * κ) * p.width := s1.trans (mul_le_mul_of_nonneg_right (by linarith) hw.le)
  have s2' : |R.add (R.binMean p i) (R.mul ns sg) - (p.low + ((i : ℚ) + 1 / 2) * p.width + ns * sg)| ≤
      (11 * κ) * p.width := s2.trans (mul_le_mul_of_nonneg_right (by linarith) hw.le)
  constructor
  · refine R.round_half hp hN h1 hκ (X := R.sub (R.binMean p i) (R.mul ns sg) -
      R.mul (1 / 2) (R.width p)) ?_ ?_
    · rw [abs_le]
      constructor <;> linarith [hll.1, hll.2]
    · have e : (p.low / p.width + (i : ℚ) - ns * sg / p.width) * p.width =
          p.low + i * p.width - ns * sg := by field_simp
      rw [e]
      have x1 := abs_le.1 s1'
      have x2 := abs_le.1 hhalf'
      rw [abs_le]
      constructor <;> linarith [x1.1, x1.2, x2.1, x2.2]
  · refine R.round_half hp hN h1 hκ (X := R.add (R.binMean p i) (R.mul ns sg) +
      R.mul (1 / 2) (R.width p)) ?_ ?_
    · rw [abs_le]
      constructor <;> linarith [hll.1, hll.2]
    · have e : (p.low / p.width + (i : ℚ) + 1 + ns * sg / p.width) * p.width =
          p.low + i * p.width + p.width + ns * sg := by field_simp
      rw [e]
      have x1 := abs_le.1 s2'
      have x2 := abs_le.1 hhalf'
      rw [abs_le]
      constructor <;> linarith [x1.1, x1.2, x2.1, x2.2]

/-- The lower limit after cutting. -/
theorem cut_low {p : SPar} (hp : p.WF) {κ N L : ℚ} {m a0 : ℤ} (hN : N * R.u ≤ κ) (h1 : 1 ≤ N)
    (hκ : κ ≤ 1 / 10000) (hNl : |p.low| + p.bins * p.width ≤ N * p.width)
    (hm : |p.low - m * p.width| ≤ 1 / 1000 * p.width)
    (hL : |L - ((m : ℚ) * p.width + (a0 + 1 / 2) * p.width)| ≤ 30 * κ * p.width) :
    |(if L < p.low then R.add p.low (R.mul (1 / 2) (R.width p)) else L) -
      (p.low + 1 / 2 * p.width + ((max a0 0 : ℤ) : ℚ) * p.width)| ≤ 1 / 200 * p.width := by
  have hu0 := R.u_nonneg
  have hw := hp.width_pos
  have huκ : R.u ≤ κ := by nlinarith
  have hbq : (1 : ℚ) ≤ p.bins := by exact_mod_cast hp.1
  have hbw : p.width ≤ p.bins * p.width := le_mul_of_one_le_left hw.le hbq
  have hlabs := abs_le.1 (le_refl |p.low|)
  have hκw : κ * p.width ≤ 1 / 10000 * p.width := mul_le_mul_of_nonneg_right hκ hw.le
  have x2 := abs_le.1 hL
  have z2 := abs_le.1 hm
  split
  · rename_i hlt
    have hneg : a0 < 0 := by
      by_contra hc
      have : (0 : ℚ) ≤ a0 := by exact_mod_cast not_lt.1 hc
      have := mul_nonneg this hw.le
      linarith [x2.1, x2.2, z2.1, z2.2]
    rw [max_eq_right hneg.le]
    have := R.add_near (p := p) (x := p.low) (X := p.low) (ε := 0) (by simp)
      (R.half_near hp (by linarith)) (M := N) (by
        rw [abs_le]
        constructor <;> linarith [hlabs.1, hlabs.2])
    push_cast
    rw [zero_mul, add_zero]
    refine this.trans (mul_le_mul_of_nonneg_right ?_ hw.le)
    have e1 : R.u * (3 * R.u) ≤ R.u * 1 := mul_le_mul_of_nonneg_left (by linarith) hu0
    linarith
  · rename_i hlt
    have hnn : 0 ≤ a0 := by
      by_contra hc
      have : (a0 : ℚ) + 1 ≤ 0 := by exact_mod_cast not_le.1 hc
      have := mul_nonneg (neg_nonneg.2 this) hw.le
      linarith [x2.1, x2.2, z2.1, z2.2]
    rw [max_eq_left hnn]
    rw [abs_le]
    constructor <;> linarith [x2.1, x2.2, z2.1, z2.2]

/-- The upper limit after cutting. -/
theorem cut_high {p : SPar} (hp : p.WF) {κ N L : ℚ} {m b0 : ℤ} (hN : N * R.u ≤ κ) (h1 : 1 ≤ N)
    (hκ : κ ≤ 1 / 10000) (hNl : |p.low| + p.bins * p.width ≤ N * p.width)
    (hm : |p.low - m * p.width| ≤ 1 / 1000 * p.width)
    (hL : |L - ((m : ℚ) * p.width + (b0 + 1 / 2) * p.width)| ≤ 30 * κ * p.width) :
    |(if p.high < L then R.sub p.high (R.mul (1 / 2) (R.width p)) else L) -
      (p.low + 1 / 2 * p.width + ((min b0 (p.bins - 1) : ℤ) : ℚ) * p.width)| ≤ 1 / 200 * p.width := by
  have hu0 := R.u_nonneg
  have hw := hp.width_pos
  have hh := hp.high_eq
  have huκ : R.u ≤ κ := by nlinarith
  have hbq : (1 : ℚ) ≤ p.bins := by exact_mod_cast hp.1
  have hbw : p.width ≤ p.bins * p.width := le_mul_of_one_le_left hw.le hbq
  have hlabs := abs_le.1 (le_refl |p.low|)
  have hκw : κ * p.width ≤ 1 / 10000 * p.width := mul_le_mul_of_nonneg_right hκ hw.le
  have y2 := abs_le.1 hL
  have z2 := abs_le.1 hm
  split
  · rename_i hlt
    have hge : p.bins - 1 ≤ b0 := by
      by_contra hc
      have : (b0 : ℚ) + 1 ≤ p.bins - 1 := by exact_mod_cast not_le.1 hc
      have := mul_nonneg (sub_nonneg.2 this) hw.le
      linarith [y2.1, y2.2, z2.1, z2.2]
    rw [min_eq_right hge]
    have := R.sub_near (p := p) (x := p.high) (X := p.high) (ε := 0) (by simp)
      (R.half_near hp (by linarith)) (M := N) (by
        rw [abs_le]
        constructor <;> linarith [hlabs.1, hlabs.2])
    have e : p.low + 1 / 2 * p.width + ((p.bins - 1 : ℤ) : ℚ) * p.width =
        p.high - 1 / 2 * p.width := by
      rw [hh]
      push_cast
      ring
    rw [e]
    refine this.trans (mul_le_mul_of_nonneg_right ?_ hw.le)
    have e1 : R.u * (3 * R.u) ≤ R.u * 1 := mul_le_mul_of_nonneg_left (by linarith) hu0
    linarith
  · rename_i hlt
    have hle : b0 ≤ p.bins - 1 := by
      by_contra hc
      have : (p.bins : ℚ) ≤ b0 := by exact_mod_cast (by omega : p.bins ≤ b0)
      have := mul_nonneg (sub_nonneg.2 this) hw.le
      linarith [y2.1, y2.2, z2.1, z2.2]
    rw [min_eq_left hle]
    rw [abs_le]
    constructor <;> linarith [y2.1, y2.2, z2.1, z2.2]

/-- The window on an axis that is aligned with zero, in bins. -/
theorem window_bins {p : SPar} (hp : p.WF) {κ ns sg δ : ℚ} {m : ℤ} (hA : 0 ≤ ns * sg)
    (hN : (|p.low| / p.width + p.bins + ns * sg / p.width) * R.u ≤ κ) (hκ : κ ≤ 1 / 10000)
    (hδ : δ ≤ 1 / 1000) (hm : |p.low - m * p.width| ≤ δ * p.width)
    {i : ℕ} (hi : (i : ℤ) < p.bins) :
    ∃ a0 b0 : ℤ,
      |(R.smearWindow p ns sg (R.binMean p i)).1 -
        (p.low + 1 / 2 * p.width + ((max a0 0 : ℤ) : ℚ) * p.width)| ≤ 1 / 200 * p.width ∧
      |(R.smearWindow p ns sg (R.binMean p i)).2 -
        (p.low + 1 / 2 * p.width + ((min b0 (p.bins - 1) : ℤ) : ℚ) * p.width)| ≤ 1 / 200 * p.width ∧
      ((i : ℚ) - ns * sg / p.width - 51 / 100 ≤ a0 ∧ (a0 : ℚ) ≤ i - ns * sg / p.width + 51 / 100) ∧
      ((i : ℚ) + 1 + ns * sg / p.width - 51 / 100 ≤ b0 ∧
        (b0 : ℚ) ≤ i + 1 + ns * sg / p.width + 51 / 100) := by
  have hu0 := R.u_nonneg
  have hw := hp.width_pos
  have hbq : (1 : ℚ) ≤ p.bins := by exact_mod_cast hp.1
  have hl0 : 0 ≤ |p.low| / p.width := by positivity
  have hA0 : 0 ≤ ns * sg / p.width := by positivity
  obtain ⟨⟨P, hP1, hP2⟩, Q, hQ1, hQ2⟩ := R.window_near hp hA hN hκ hi
  have h1 : 1 ≤ |p.low| / p.width + p.bins + ns * sg / p.width := by linarith
  have hNl : |p.low| + p.bins * p.width ≤ (|p.low| / p.width + p.bins + ns * sg / p.width) * p.width := by
    have e : |p.low| = |p.low| / p.width * p.width := by field_simp
    rw [e, ← add_mul]
    exact mul_le_mul_of_nonneg_right (by rw [← e]; linarith) hw.le
  have hml : |(m : ℚ) - p.low / p.width| ≤ 1 / 1000 := by
    have e : (m : ℚ) - p.low / p.width = -((p.low - m * p.width) / p.width) := by
      field_simp
      ring
    rw [e, abs_neg, abs_div, abs_of_pos hw, div_le_iff₀ hw]
    exact hm.trans (mul_le_mul_of_nonneg_right hδ hw.le)
  have hmw : |p.low - m * p.width| ≤ 1 / 1000 * p.width :=
    hm.trans (mul_le_mul_of_nonneg_right hδ hw.le)
  have ha0q : ((P - m : ℤ) : ℚ) = P - m := by push_cast; ring
  have hb0q : ((Q - m : ℤ) : ℚ) = Q - m := by push_cast; ring
  have e1 : ((P : ℚ) + 1 / 2) * p.width =
      (m * p.width) + (((P - m : ℤ) : ℚ) + 1 / 2) * p.width := by rw [ha0q]; ring
  have e2 : ((Q : ℚ) + 1 / 2) * p.width =
      (m * p.width) + (((Q - m : ℤ) : ℚ) + 1 / 2) * p.width := by rw [hb0q]; ring
  rw [e1] at hP2
  rw [e2] at hQ2
  have x1 := abs_le.1 hP1
  have y1 := abs_le.1 hQ1
  have z1 := abs_le.1 hml
  refine ⟨P - m, Q - m, R.cut_low hp hN h1 hκ hNl hmw hP2, R.cut_high hp hN h1 hκ hNl hmw hQ2, ?_, ?_⟩
  · rw [ha0q]; constructor <;> linarith [x1.1, x1.2, z1.1, z1.2]
  · rw [hb0q]; constructor <;> linarith [y1.1, y1.2, z1.1, z1.2]

/-- The points on an axis that is aligned with zero: near the centres of a range of bins. -/
theorem smearPoints_near {p : SPar} (hp : p.WF) {κ ns sg δ : ℚ} {m : ℤ} (hA : 0 ≤ ns * sg)
    (hN : (|p.low| / p.width + p.bins + ns * sg / p.width) * R.u ≤ κ) (hκ : p.bins * κ ≤ 1 / 10000)
    (hδ : δ ≤ 1 / 1000) (hm : |p.low - m * p.width| ≤ δ * p.width)
    {i : ℕ} (hi : (i : ℤ) < p.bins) :
    ∃ (a b : ℕ) (pt : ℕ → ℚ), R.smearPoints p ns sg (R.binMean p i) =
        (List.range (b - a)).map (fun q => pt (a + q)) ∧ b ≤ p.bins.toNat ∧
      (∀ j, a ≤ j → j < b → |pt j - Verif.binMean p j| ≤ p.width / 50) ∧
      (∀ j : ℕ, j + 1 < p.bins.toNat → |Verif.binMean p j - Verif.binMean p i| ≤ ns * sg →
        a ≤ j ∧ j < b) ∧
      (∀ j : ℕ, a ≤ j → j < b →
        |Verif.binMean p j - Verif.binMean p i| ≤ ns * sg + 8 / 5 * p.width) ∧
      (2 ≤ p.bins → (i : ℤ) + 1 < p.bins ∨ p.width / 2 + p.width / 50 ≤ ns * sg → a < b) := by
  have hu0 := R.u_nonneg
  have hw := hp.width_pos
  have hbq : (1 : ℚ) ≤ p.bins := by exact_mod_cast hp.1
  have hiq : (i : ℚ) + 1 ≤ p.bins := by exact_mod_cast hi
  have hl0 : 0 ≤ |p.low| / p.width := by positivity
  have hA0 : 0 ≤ ns * sg / p.width := by positivity
  have h1 : 1 ≤ |p.low| / p.width + p.bins + ns * sg / p.width := by linarith
  have huκ : R.u ≤ κ := by nlinarith
  have hκ0 : 0 ≤ κ := by linarith
  have hκb : κ ≤ p.bins * κ := le_mul_of_one_le_left hκ0 hbq
  obtain ⟨a0, b0, hlo, hhi, ha1, hb1⟩ := R.window_bins hp hA hN (by linarith) hδ hm hi
  have hNl : |p.low| + p.bins * p.width ≤ (|p.low| / p.width + p.bins + ns * sg / p.width) * p.width := by
    have e : |p.low| = |p.low| / p.width * p.width := by field_simp
    rw [e, ← add_mul]
    exact mul_le_mul_of_nonneg_right (by rw [← e]; linarith) hw.le
  have hlabs := abs_le.1 (le_refl |p.low|)
  have ha0i : a0 ≤ i := by
    have : (a0 : ℚ) < (i : ℚ) + 1 := by linarith
    have : a0 < (i : ℤ) + 1 := by exact_mod_cast this
    omega
  have hb0i : (i : ℤ) + 1 ≤ b0 := by
    have : (i : ℚ) < b0 := by linarith
    have : (i : ℤ) < b0 := by exact_mod_cast this
    omega
  have hab : max a0 0 ≤ min b0 (p.bins - 1) := by omega
  obtain ⟨n, pt, hn, hpts, hnear⟩ := R.arange_near hp hN h1 (by linarith) hκ (η := 1 / 200) (by norm_num)
    (lo := (R.smearWindow p ns sg (R.binMean p i)).1) (hi := (R.smearWindow p ns sg (R.binMean p i)).2)
    (a := max a0 0) (b := min b0 (p.bins - 1)) (c := p.low + 1 / 2 * p.width) (by
      have hmq : ((max a0 0 : ℤ) : ℚ) + 1 ≤ p.bins := by
        exact_mod_cast (by omega : max a0 0 + 1 ≤ p.bins)
      have hm0 : (0 : ℚ) ≤ ((max a0 0 : ℤ) : ℚ) := by exact_mod_cast le_max_right a0 0
      have t1 := mul_nonneg hm0 hw.le
      have t2 := mul_nonneg (sub_nonneg.2 hmq) hw.le
      have t3 := abs_le.1 hlo
      rw [abs_le]
      constructor <;> linarith [t3.1, t3.2, hlabs.1, hlabs.2])
    (le_max_right _ _) hab (by omega) hlo hhi
  clear hlo hhi
  obtain ⟨A1, hA1⟩ : ∃ A1 : ℕ, (A1 : ℤ) = max a0 0 := ⟨(max a0 0).toNat, by omega⟩
  have hA1q : ((max a0 0 : ℤ) : ℚ) = A1 := by rw [← hA1]; simp
  have habs : ∀ j k : ℕ, |Verif.binMean p j - Verif.binMean p k| = |(j : ℚ) - k| * p.width := by
    intro j k
    have : Verif.binMean p j - Verif.binMean p k = ((j : ℚ) - k) * p.width := by
      unfold Verif.binMean
      ring
    rw [this, abs_mul, abs_of_pos hw]
  have hBw : ns * sg / p.width * p.width = ns * sg := by field_simp
  refine ⟨A1, A1 + n, fun j => pt (j - A1), ?_, ?_, ?_, ?_, ?_, ?_⟩
  · unfold smearPoints
    rw [hpts]
    simp
  · omega
  · intro j hj1 hj2
    have h := hnear (j - A1) (by omega)
    rw [Nat.cast_sub hj1, hA1q] at h
    have e : p.low + 1 / 2 * p.width + ((A1 : ℚ) + ((j : ℚ) - A1)) * p.width = Verif.binMean p j := by
      unfold Verif.binMean
      ring
    rw [e] at h
    refine h.trans ?_
    have := mul_le_mul_of_nonneg_right hκ hw.le
    linarith
  · intro j hj hd
    rw [habs, ← hBw] at hd
    have hd := abs_le.1 (le_of_mul_le_mul_right hd hw)
    have c1 : a0 ≤ j := by
      have : (a0 : ℚ) < (j : ℚ) + 1 := by linarith [hd.1]
      have : a0 < (j : ℤ) + 1 := by exact_mod_cast this
      omega
    have c2 : (j : ℤ) < b0 := by
      have : (j : ℚ) < b0 := by linarith [hd.2]
      exact_mod_cast this
    omega
  · intro j hj1 hj2
    rw [habs, ← hBw, ← add_mul]
    refine mul_le_mul_of_nonneg_right ?_ hw.le
    have c1 : (a0 : ℚ) ≤ j := by exact_mod_cast (by omega : a0 ≤ (j : ℤ))
    have c2 : (j : ℚ) ≤ b0 := by exact_mod_cast (by omega : (j : ℤ) ≤ b0)
    rw [abs_le]
    constructor <;> linarith [ha1.1, hb1.2]
  · intro h2 hl
    have : max a0 0 < min b0 (p.bins - 1) := by
      rcases hl with hl | hl
      · omega
      · have : (52 / 100 : ℚ) ≤ ns * sg / p.width := by
          rw [le_div_iff₀ hw]
          linarith
        have : (a0 : ℚ) < i := by linarith [ha1.2]
        have : a0 < (i : ℤ) := by exact_mod_cast this
        omega
    omega

end Rounding

end Verif
