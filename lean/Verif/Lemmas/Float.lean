import Verif.Model.Float
import Mathlib.Tactic.Linarith
import Mathlib.Tactic.Positivity
import Mathlib.Tactic.NormNum
import Mathlib.Tactic.FieldSimp
import Mathlib.Tactic.Ring
import Mathlib.Tactic.Push
import Mathlib.Algebra.Order.Field.Power

/-! # Lemmas about roundings -/

namespace Verif

/-! ### nearest integer, halves to even -/

theorem npRint_bounds (x : ℚ) : (⌊x⌋ : ℤ) ≤ npRint x ∧ npRint x ≤ ⌊x⌋ + 1 := by
  unfold npRint
  split
  · omega
  · split
    · omega
    · split <;> omega

theorem npRint_near (x : ℚ) : |(npRint x : ℚ) - x| ≤ 1 / 2 := by
  have h := Int.floor_add_fract x
  have h0 := Int.fract_nonneg x
  have h1 := Int.fract_lt_one x
  unfold npRint
  rw [abs_le]
  split
  · constructor <;> linarith
  · split
    · push_cast
      constructor <;> linarith
    · split
      · constructor <;> linarith
      · push_cast
        constructor <;> linarith

theorem npRint_int (n : ℤ) : npRint n = n := by
  unfold npRint
  rw [Int.fract_intCast, if_pos (by norm_num), Int.floor_intCast]

theorem npRint_mono : Monotone npRint := by
  intro x y h
  have hf : ⌊x⌋ ≤ ⌊y⌋ := Int.floor_mono h
  rcases hf.lt_or_eq with hlt | heq
  · have h1 := (npRint_bounds x).2
    have h2 := (npRint_bounds y).1
    omega
  · have hx := Int.floor_add_fract x
    have hy := Int.floor_add_fract y
    have hfr : Int.fract x ≤ Int.fract y := by
      rw [heq] at hx
      linarith
    unfold npRint
    rw [heq]
    by_cases h1 : Int.fract x < 1 / 2
    · rw [if_pos h1]
      split
      · exact le_rfl
      · split
        · omega
        · split <;> omega
    · have h2 : ¬ Int.fract y < 1 / 2 := by linarith
      rw [if_neg h1, if_neg h2]
      by_cases h3 : 1 / 2 < Int.fract x
      · have h4 : 1 / 2 < Int.fract y := by linarith
        rw [if_pos h3, if_pos h4]
      · rw [if_neg h3]
        by_cases h4 : 1 / 2 < Int.fract y
        · rw [if_pos h4]
          split <;> omega
        · rw [if_neg h4]

theorem npRint_neg (x : ℚ) : npRint (-x) = -npRint x := by
  by_cases h : Int.fract x = 0
  · have hx : x = (⌊x⌋ : ℚ) := by have := Int.floor_add_fract x; linarith
    rw [hx, ← Int.cast_neg, npRint_int, npRint_int]
  · have hf : Int.fract (-x) = 1 - Int.fract x := Int.fract_neg h
    have hfl : ⌊-x⌋ = -⌊x⌋ - 1 := by
      have h1 := Int.floor_add_fract x
      have h2 := Int.floor_add_fract (-x)
      rw [hf] at h2
      have : ((⌊-x⌋ : ℤ) : ℚ) = ((-⌊x⌋ - 1 : ℤ) : ℚ) := by push_cast; linarith
      exact_mod_cast this
    unfold npRint
    rw [hf, hfl]
    by_cases h1 : Int.fract x < 1 / 2
    · rw [if_neg (by linarith), if_pos (by linarith), if_pos h1]
      ring
    · by_cases h3 : 1 / 2 < Int.fract x
      · rw [if_pos (by linarith), if_neg h1, if_pos h3]
        ring
      · rw [if_neg (by linarith), if_neg (by linarith), if_neg h1, if_neg h3]
        by_cases h4 : ⌊x⌋ % 2 = 0
        · rw [if_pos h4, if_neg (by omega)]
          ring
        · rw [if_neg h4, if_pos (by omega)]
          ring

/-! ### rounding to a number of binary digits -/

theorem log_eq_of {x : ℚ} {e : ℤ} (h1 : (2 : ℚ) ^ e ≤ x) (h2 : x < 2 ^ (e + 1)) : Int.log 2 x = e := by
  have hx : 0 < x := lt_of_lt_of_le (by positivity) h1
  have a : e ≤ Int.log 2 x := (Int.zpow_le_iff_le_log (b := 2) (by norm_num) hx).1 (by exact_mod_cast h1)
  have b : Int.log 2 x < e + 1 :=
    (Int.lt_zpow_iff_log_lt (b := 2) (by norm_num) hx).1 (by exact_mod_cast h2)
  omega

theorem roundBits_eq (p : ℕ) {x : ℚ} {e : ℤ} (h1 : (2 : ℚ) ^ e ≤ |x|) (h2 : |x| < 2 ^ (e + 1)) :
    roundBits p x = npRint (x / 2 ^ (e - ((p : ℤ) - 1))) * 2 ^ (e - ((p : ℤ) - 1)) := by
  have hx : x ≠ 0 := by
    intro h
    rw [h, abs_zero] at h1
    exact absurd h1 (not_le.2 (by positivity))
  unfold roundBits
  rw [if_neg hx, log_eq_of h1 h2]

theorem exists_exponent {x : ℚ} (hx : x ≠ 0) : ∃ e : ℤ, (2 : ℚ) ^ e ≤ |x| ∧ |x| < 2 ^ (e + 1) := by
  refine ⟨Int.log 2 |x|, ?_, ?_⟩
  · exact_mod_cast Int.zpow_log_le_self (b := 2) (by norm_num) (abs_pos.2 hx)
  · exact_mod_cast Int.lt_zpow_succ_log_self (b := 2) (by norm_num) |x|

theorem roundBits_zero (p : ℕ) : roundBits p 0 = 0 := by simp [roundBits]

theorem roundBits_neg (p : ℕ) (x : ℚ) : roundBits p (-x) = -roundBits p x := by
  by_cases hx : x = 0
  · simp [hx, roundBits_zero]
  · obtain ⟨e, h1, h2⟩ := exists_exponent hx
    rw [roundBits_eq p h1 h2, roundBits_eq p (by rwa [abs_neg]) (by rwa [abs_neg]), neg_div, npRint_neg]
    push_cast
    ring

theorem roundBits_rel (p : ℕ) (x : ℚ) : |roundBits p x - x| ≤ (1 / 2) ^ p * |x| := by
  by_cases hx : x = 0
  · simp [hx, roundBits_zero]
  · obtain ⟨e, h1, h2⟩ := exists_exponent hx
    rw [roundBits_eq p h1 h2]
    set g : ℚ := 2 ^ (e - ((p : ℤ) - 1)) with hg
    have hgp : 0 < g := by positivity
    have e1 : (npRint (x / g) : ℚ) * g - x = (npRint (x / g) - x / g) * g := by
      field_simp
    rw [e1, abs_mul, abs_of_pos hgp]
    have h3 := npRint_near (x / g)
    have h4 : (1 / 2 : ℚ) ^ p * 2 ^ e = 1 / 2 * g := by
      rw [hg, ← zpow_natCast, one_div, inv_zpow', ← zpow_add₀ (by norm_num),
        show e - ((p : ℤ) - 1) = (-(p : ℤ) + e) + 1 by ring, zpow_add_one₀ (by norm_num)]
      ring
    calc |(npRint (x / g) : ℚ) - x / g| * g ≤ 1 / 2 * g := by gcongr
      _ = (1 / 2 : ℚ) ^ p * 2 ^ e := h4.symm
      _ ≤ (1 / 2) ^ p * |x| := by gcongr

theorem roundBits_pos_bounds {p : ℕ} (hp : 1 ≤ p) {x : ℚ} {e : ℤ} (h1 : (2 : ℚ) ^ e ≤ x)
    (h2 : x < 2 ^ (e + 1)) : (2 : ℚ) ^ e ≤ roundBits p x ∧ roundBits p x ≤ 2 ^ (e + 1) := by
  have hx : 0 < x := lt_of_lt_of_le (by positivity) h1
  rw [roundBits_eq p (by rwa [abs_of_pos hx]) (by rwa [abs_of_pos hx])]
  set g : ℚ := 2 ^ (e - ((p : ℤ) - 1)) with hg
  have hgp : 0 < g := by positivity
  obtain ⟨q, rfl⟩ : ∃ q, p = q + 1 := ⟨p - 1, by omega⟩
  have a1 : (2 : ℚ) ^ e = ((2 ^ q : ℤ) : ℚ) * g := by
    rw [hg]
    push_cast
    rw [← zpow_natCast, ← zpow_add₀ (by norm_num)]
    congr 1
    ring
  have a2 : (2 : ℚ) ^ (e + 1) = ((2 ^ (q + 1) : ℤ) : ℚ) * g := by
    rw [zpow_add_one₀ (by norm_num), a1]
    push_cast
    ring
  constructor
  · rw [a1] at h1 ⊢
    gcongr
    rw [← npRint_int (2 ^ q)]
    exact_mod_cast npRint_mono (by rwa [le_div_iff₀ hgp])
  · rw [a2] at h2 ⊢
    gcongr
    rw [← npRint_int (2 ^ (q + 1))]
    exact_mod_cast npRint_mono (by rw [div_le_iff₀ hgp]; exact h2.le)

theorem roundBits_nonneg {p : ℕ} (hp : 1 ≤ p) {x : ℚ} (hx : 0 ≤ x) : 0 ≤ roundBits p x := by
  rcases hx.eq_or_lt with h | h
  · rw [← h, roundBits_zero]
  · obtain ⟨e, h1, h2⟩ := exists_exponent h.ne'
    rw [abs_of_pos h] at h1 h2
    exact le_trans (by positivity) (roundBits_pos_bounds hp h1 h2).1

theorem roundBits_mono_pos {p : ℕ} (hp : 1 ≤ p) {x y : ℚ} (hx : 0 < x) (h : x ≤ y) :
    roundBits p x ≤ roundBits p y := by
  have hy : 0 < y := hx.trans_le h
  obtain ⟨e, h1, h2⟩ := exists_exponent hx.ne'
  obtain ⟨f, h3, h4⟩ := exists_exponent hy.ne'
  rw [abs_of_pos hx] at h1 h2
  rw [abs_of_pos hy] at h3 h4
  have hef : e < f + 1 := (zpow_lt_zpow_iff_right₀ (by norm_num : (1 : ℚ) < 2)).1 (by linarith)
  rcases (Int.lt_add_one_iff.1 hef).lt_or_eq with hlt | heq
  · have a := (roundBits_pos_bounds hp h1 h2).2
    have b := (roundBits_pos_bounds hp h3 h4).1
    have c : (2 : ℚ) ^ (e + 1) ≤ 2 ^ f := zpow_le_zpow_right₀ (by norm_num) (by omega)
    linarith
  · subst heq
    rw [roundBits_eq p (by rwa [abs_of_pos hx]) (by rwa [abs_of_pos hx]),
      roundBits_eq p (by rwa [abs_of_pos hy]) (by rwa [abs_of_pos hy])]
    gcongr
    exact_mod_cast npRint_mono (by gcongr)

theorem roundBits_mono {p : ℕ} (hp : 1 ≤ p) : Monotone (roundBits p) := by
  intro x y h
  rcases lt_trichotomy x 0 with hx | hx | hx
  · rcases lt_or_ge y 0 with hy | hy
    · have := roundBits_mono_pos hp (x := -y) (y := -x) (by linarith) (by linarith)
      rw [roundBits_neg, roundBits_neg] at this
      linarith
    · have a := roundBits_nonneg hp hy
      have b := roundBits_nonneg hp (x := -x) (by linarith)
      rw [roundBits_neg] at b
      linarith
  · rw [hx, roundBits_zero]
    exact roundBits_nonneg hp (by linarith)
  · exact roundBits_mono_pos hp hx h

/-- Multiples of a power of two with few digits are floats. -/
theorem roundBits_grid {p : ℕ} (hp : 1 ≤ p) (k f : ℤ) (hk : k.natAbs ≤ 2 ^ p) :
    roundBits p ((k : ℚ) * 2 ^ f) = k * 2 ^ f := by
  by_cases h0 : k = 0
  · simp [h0, roundBits_zero]
  · set a := Nat.log 2 k.natAbs with ha
    have hk0 : k.natAbs ≠ 0 := by omega
    have b1 : 2 ^ a ≤ k.natAbs := Nat.pow_log_le_self 2 hk0
    have b2 : k.natAbs < 2 ^ (a + 1) := Nat.lt_pow_succ_log_self (by norm_num) _
    have hkq : |(k : ℚ)| = (k.natAbs : ℚ) := by
      rw [Nat.cast_natAbs, Int.cast_abs]
    have habs : |(k : ℚ) * 2 ^ f| = (k.natAbs : ℚ) * 2 ^ f := by
      rw [abs_mul, hkq, abs_of_pos (by positivity : (0 : ℚ) < 2 ^ f)]
    have c1 : (2 : ℚ) ^ (f + a) ≤ |(k : ℚ) * 2 ^ f| := by
      rw [habs, zpow_add₀ (by norm_num), mul_comm, zpow_natCast]
      gcongr
      exact_mod_cast b1
    have c2 : |(k : ℚ) * 2 ^ f| < 2 ^ (f + a + 1) := by
      rw [habs, add_assoc, zpow_add₀ (by norm_num), mul_comm, ← Nat.cast_succ, zpow_natCast]
      gcongr
      exact_mod_cast b2
    rw [roundBits_eq p c1 c2]
    have hap : a ≤ p := by
      have : 2 ^ a ≤ 2 ^ p := b1.trans hk
      exact (Nat.pow_le_pow_iff_right (by norm_num)).1 this
    rcases hap.lt_or_eq with hlt | heq
    · have e1 : (k : ℚ) * 2 ^ f / 2 ^ (f + a - ((p : ℤ) - 1)) = ((k * 2 ^ (p - 1 - a) : ℤ) : ℚ) := by
        rw [mul_div_assoc, ← zpow_sub₀ (by norm_num)]
        push_cast
        rw [← zpow_natCast]
        congr 2
        omega
      rw [e1, npRint_int, ← e1]
      field_simp
    · have hk2 : k.natAbs = 2 ^ p := by
        rw [heq] at b1
        omega
      obtain ⟨q, rfl⟩ : ∃ q, p = q + 1 := ⟨p - 1, by omega⟩
      have hk3 : k = 2 ^ (q + 1) ∨ k = -2 ^ (q + 1) := by
        have h := Int.natAbs_eq k
        rw [hk2] at h
        push_cast at h
        exact h
      have e1 : ∃ n : ℤ, (k : ℚ) * 2 ^ f / 2 ^ (f + a - (((q + 1 : ℕ) : ℤ) - 1)) = (n : ℚ) := by
        rw [mul_div_assoc, ← zpow_sub₀ (by norm_num)]
        have : f - (f + a - (((q + 1 : ℕ) : ℤ) - 1)) = -1 := by push_cast; omega
        rw [this]
        rcases hk3 with h | h
        · refine ⟨2 ^ q, ?_⟩
          rw [h]
          push_cast
          rw [zpow_neg_one, pow_succ]
          ring
        · refine ⟨-2 ^ q, ?_⟩
          rw [h]
          push_cast
          rw [zpow_neg_one, pow_succ]
          ring
      obtain ⟨n, hn⟩ := e1
      rw [hn, npRint_int, ← hn]
      field_simp

/-- A rounded number is a multiple of a power of two with few digits. -/
theorem roundBits_onGrid {p : ℕ} (hp : 1 ≤ p) (x : ℚ) :
    ∃ k f : ℤ, k.natAbs ≤ 2 ^ p ∧ roundBits p x = k * 2 ^ f := by
  by_cases hx : x = 0
  · exact ⟨0, 0, by simp, by simp [hx, roundBits_zero]⟩
  · obtain ⟨e, h1, h2⟩ := exists_exponent hx
    refine ⟨_, _, ?_, roundBits_eq p h1 h2⟩
    set g : ℚ := 2 ^ (e - ((p : ℤ) - 1)) with hg
    have hgp : 0 < g := by positivity
    obtain ⟨q, rfl⟩ : ∃ q, p = q + 1 := ⟨p - 1, by omega⟩
    have a2 : (2 : ℚ) ^ (e + 1) = ((2 ^ (q + 1) : ℤ) : ℚ) * g := by
      rw [hg]
      push_cast
      rw [← zpow_natCast, ← zpow_add₀ (by norm_num)]
      congr 1
      push_cast
      ring
    rw [a2, abs_lt] at h2
    have u1 : npRint (x / g) ≤ 2 ^ (q + 1) := by
      rw [← npRint_int (2 ^ (q + 1))]
      exact npRint_mono (by rw [div_le_iff₀ hgp]; exact h2.2.le)
    have u2 : -2 ^ (q + 1) ≤ npRint (x / g) := by
      rw [← npRint_int (-2 ^ (q + 1))]
      exact npRint_mono (by
        rw [le_div_iff₀ hgp]
        push_cast at h2 ⊢
        linarith [h2.1])
    have : |npRint (x / g)| ≤ 2 ^ (q + 1) := abs_le.2 ⟨u2, u1⟩
    zify
    exact this

/-- Rounding to `p` binary digits is a rounding; `binary 53` is python's. -/
def binary (p : ℕ) (hp : 1 ≤ p) : Rounding where
  rnd := roundBits p
  u := (1 / 2) ^ p
  big := 2 ^ p
  mono := roundBits_mono hp
  rel := roundBits_rel p
  idem x := by
    obtain ⟨k, f, hk, h⟩ := roundBits_onGrid hp x
    rw [h, roundBits_grid hp k f hk]
  int n hn := by
    have := roundBits_grid hp n 0 hn
    simpa using this

end Verif
