import Verif.Lemmas.FloatFill
import Mathlib.Tactic.LinearCombination

/-! # Lemmas about filling with binary floats -/

namespace Verif

theorem ulp_split {p : ℕ} (e : ℤ) : (2 : ℚ) ^ (e + 1) = 2 ^ p * 2 ^ (e - ((p : ℤ) - 1)) := by
  rw [← zpow_natCast, ← zpow_add₀ (by norm_num)]
  congr 1
  ring

theorem half_split {p : ℕ} (e : ℤ) : (2 : ℚ) ^ e = 2 ^ p * 2 ^ (e - (p : ℤ)) := by
  rw [← zpow_natCast, ← zpow_add₀ (by norm_num)]
  congr 1
  ring

/-- Two floats one above the other differ by half a unit in the last place, relative to the upper
one. -/
theorem roundBits_gap {p : ℕ} (hp : 1 ≤ p) {a d : ℚ} (ha : roundBits p a = a)
    (hd : roundBits p d = d) (h0 : 0 ≤ a) (h : a < d) : a ≤ (1 - (1 / 2) ^ p) * d := by
  have hdp : 0 < d := h0.trans_lt h
  obtain ⟨e, h1, h2⟩ := exists_exponent hdp.ne'
  rw [abs_of_pos hdp] at h1 h2
  have hpow : (1 / 2 : ℚ) ^ p * 2 ^ p = 1 := by
    rw [← mul_pow]
    norm_num
  have hpp : (0 : ℚ) < (1 / 2) ^ p := by positivity
  by_cases hae : (2 : ℚ) ^ e ≤ a
  · have ha' := roundBits_eq p (x := a) (e := e) (by rwa [abs_of_nonneg h0])
      (by rw [abs_of_nonneg h0]; linarith)
    have hd' := roundBits_eq p (x := d) (e := e) (by rwa [abs_of_pos hdp])
      (by rwa [abs_of_pos hdp])
    rw [ha] at ha'
    rw [hd] at hd'
    have hs := ulp_split (p := p) e
    have hg : (0 : ℚ) < 2 ^ (e - ((p : ℤ) - 1)) := by positivity
    generalize hgg : (2 : ℚ) ^ (e - ((p : ℤ) - 1)) = g at *
    generalize npRint (a / g) = m at *
    generalize npRint (d / g) = k at *
    have hmk : (m : ℚ) < k := by
      rw [ha', hd'] at h
      exact lt_of_mul_lt_mul_right h hg.le
    have hmk' : (m : ℚ) + 1 ≤ k := by exact_mod_cast hmk
    have h3 : a + g ≤ d := by
      rw [ha', hd']
      nlinarith
    have h4 : (1 / 2 : ℚ) ^ p * d ≤ g := by
      calc (1 / 2 : ℚ) ^ p * d ≤ (1 / 2 : ℚ) ^ p * 2 ^ (e + 1) := by gcongr
        _ = g := by rw [hs, ← mul_assoc, hpow, one_mul]
    linarith
  · rw [not_le] at hae
    have hs := half_split (p := p) e
    have hg : (0 : ℚ) < 2 ^ (e - (p : ℤ)) := by positivity
    have hc : a ≤ (2 ^ p - 1) * 2 ^ (e - (p : ℤ)) := by
      by_contra hlt
      rw [not_le] at hlt
      have h2e : (2 : ℚ) ^ (e - 1) ≤ a := by
        have h2 : (2 : ℚ) ^ e = 2 * 2 ^ (e - 1) := by
          rw [zpow_sub_one₀ (by norm_num)]
          ring
        have : (2 : ℚ) ≤ 2 ^ p := by
          calc (2 : ℚ) = 2 ^ 1 := by norm_num
            _ ≤ 2 ^ p := by gcongr; norm_num
        nlinarith
      have ha' := roundBits_eq p (x := a) (e := e - 1) (by rwa [abs_of_nonneg h0])
        (by rwa [abs_of_nonneg h0, sub_add_cancel])
      rw [ha, show e - 1 - ((p : ℤ) - 1) = e - p by ring] at ha'
      generalize (2 : ℚ) ^ (e - (p : ℤ)) = g at *
      generalize npRint (a / g) = m at *
      rw [ha'] at hlt hae
      rw [hs] at hae
      have b1 : (2 : ℚ) ^ p - 1 < m := lt_of_mul_lt_mul_right hlt hg.le
      have b2 : (m : ℚ) < 2 ^ p := lt_of_mul_lt_mul_right hae hg.le
      have c1 : (2 : ℤ) ^ p - 1 < m := by exact_mod_cast b1
      have c2 : m < (2 : ℤ) ^ p := by exact_mod_cast b2
      omega
    have h1p : (1 / 2 : ℚ) ^ p ≤ 1 := pow_le_one₀ (by norm_num) (by norm_num)
    calc a ≤ (2 ^ p - 1) * 2 ^ (e - (p : ℤ)) := hc
      _ = (1 - (1 / 2) ^ p) * 2 ^ e := by
          rw [hs]
          linear_combination (2 : ℚ) ^ (e - (p : ℤ)) * hpow
      _ ≤ (1 - (1 / 2) ^ p) * d := by gcongr

/-- A number of bins times the float just below one stays below the number of bins. -/
theorem roundBits_below {p : ℕ} (hp : 1 ≤ p) {n : ℕ} (h1 : 1 ≤ n) (h2 : n ≤ 2 ^ p) :
    roundBits p ((1 - (1 / 2) ^ p) * n) < n := by
  have hn : (0 : ℚ) < n := by exact_mod_cast h1
  have hpow : (1 / 2 : ℚ) ^ p * 2 ^ p = 1 := by
    rw [← mul_pow]
    norm_num
  have hpp : (0 : ℚ) < (1 / 2) ^ p := by positivity
  have hlog1 : 2 ^ Nat.log 2 n ≤ n := Nat.pow_log_le_self 2 (by omega)
  have hlog2 : n < 2 ^ (Nat.log 2 n + 1) := Nat.lt_pow_succ_log_self (by norm_num) n
  set e := Nat.log 2 n with he
  rcases hlog1.eq_or_lt with heq | hlt
  · have : (1 - (1 / 2 : ℚ) ^ p) * n = ((2 ^ p - 1 : ℤ) : ℚ) * 2 ^ ((e : ℤ) - p) := by
      rw [← heq]
      push_cast
      have hs := half_split (p := p) (e : ℤ)
      rw [zpow_natCast] at hs
      rw [hs]
      linear_combination -(2 : ℚ) ^ ((e : ℤ) - p) * hpow
    have h2p : (1 : ℤ) ≤ 2 ^ p := one_le_pow₀ (by norm_num)
    have hab : (2 ^ p - 1 : ℤ).natAbs ≤ 2 ^ p := by
      have : ((2 ^ p - 1 : ℤ).natAbs : ℤ) ≤ ((2 ^ p : ℕ) : ℤ) := by
        push_cast
        rw [abs_of_nonneg (by linarith)]
        linarith
      exact_mod_cast this
    rw [this, roundBits_grid hp _ _ hab, ← this]
    nlinarith
  · have hlt' : (2 : ℚ) ^ e + 1 ≤ n := by exact_mod_cast hlt
    have h2' : (n : ℚ) ≤ 2 ^ p := by exact_mod_cast h2
    have hn1 : (1 / 2 : ℚ) ^ p * n ≤ 1 := by
      calc (1 / 2 : ℚ) ^ p * n ≤ (1 / 2 : ℚ) ^ p * 2 ^ p := by gcongr
        _ = 1 := hpow
    have hlog2' : (n : ℚ) < 2 ^ (e + 1) := by exact_mod_cast hlog2
    set y := (1 - (1 / 2 : ℚ) ^ p) * n with hy
    have hy1 : (2 : ℚ) ^ (e : ℤ) ≤ y := by
      rw [zpow_natCast]
      linarith
    have hy0 : 0 < y := lt_of_lt_of_le (by positivity) hy1
    have hy2 : y < (2 : ℚ) ^ ((e : ℤ) + 1) := by
      have : (2 : ℚ) ^ ((e : ℤ) + 1) = 2 ^ (e + 1) := by
        rw [← zpow_natCast]
        push_cast
        rfl
      rw [this]
      nlinarith
    rw [roundBits_eq p (x := y) (e := e) (by rwa [abs_of_pos hy0]) (by rwa [abs_of_pos hy0])]
    have hs := ulp_split (p := p) (e : ℤ)
    have hg : (0 : ℚ) < 2 ^ ((e : ℤ) - ((p : ℤ) - 1)) := by positivity
    rw [zpow_add_one₀ (by norm_num), zpow_natCast] at hs
    generalize (2 : ℚ) ^ ((e : ℤ) - ((p : ℤ) - 1)) = g at *
    have hr := (abs_le.1 (npRint_near (y / g))).2
    by_contra hge
    rw [not_lt] at hge
    have h5 : (npRint (y / g) : ℚ) * g ≤ y + g / 2 := by
      have h6 : (npRint (y / g) : ℚ) ≤ y / g + 1 / 2 := by linarith
      calc (npRint (y / g) : ℚ) * g ≤ (y / g + 1 / 2) * g := by gcongr
        _ = y + g / 2 := by field_simp
    have h7 : (1 / 2 : ℚ) ^ p * n ≤ g / 2 := by linarith
    have h8 : (n : ℚ) ≤ 2 ^ e := by
      have h9 : (2 : ℚ) ^ p * ((1 / 2 : ℚ) ^ p * n) ≤ 2 ^ p * (g / 2) := by gcongr
      have h10 : (2 : ℚ) ^ p * ((1 / 2 : ℚ) ^ p * n) = n := by
        rw [← mul_assoc, mul_comm ((2 : ℚ) ^ p), hpow, one_mul]
      linarith
    linarith

/-- The bin number that does not exist is computed exactly when the rounded distances of the
point and of the upper edge from the lower edge agree. -/
theorem binary_fillBin_eq_bins {d : ℕ} (hd : 1 ≤ d) {p : SPar} (hp : p.WF)
    (hb : p.bins.toNat ≤ 2 ^ d) (hu : (1 / 2 : ℚ) ^ d ≤ 1 / 16) {x : ℚ} (h1 : p.low ≤ x) (h2 : x < p.high) :
    (binary d hd).fillBin p x = p.bins ↔ roundBits d (x - p.low) = roundBits d (p.high - p.low) := by
  set R := binary d hd with hR
  have hu' : R.u ≤ 1 / 16 := hu
  have hD : 0 < p.high - p.low := by linarith [hp.2]
  have hn : (0 : ℚ) < p.bins := by exact_mod_cast hp.1
  have hdp : 0 < R.rnd (p.high - p.low) := by
    have := (R.rnd_bounds hD.le).1
    exact lt_of_lt_of_le (by nlinarith [R.u_nonneg]) this
  have hbins : R.rnd p.bins = p.bins := R.int _ (by
    have := hp.1
    change _ ≤ 2 ^ d
    omega)
  have hone : R.rnd 1 = 1 := by
    have := R.int 1 (by
      change _ ≤ 2 ^ d
      exact Nat.one_le_two_pow)
    simpa using this
  have hfb : R.fillBin p x = ⌊R.rnd (R.rnd (R.rnd (x - p.low) / R.rnd (p.high - p.low)) * p.bins)⌋ :=
    Rounding.pyInt_nonneg (R.fill_position hp hu' h1).1
  rw [hfb]
  change _ ↔ R.rnd (x - p.low) = R.rnd (p.high - p.low)
  constructor
  · intro h
    have hle : R.rnd (x - p.low) ≤ R.rnd (p.high - p.low) := R.mono (by linarith)
    rcases hle.eq_or_lt with heq | hlt
    · exact heq
    exfalso
    have hgap : R.rnd (x - p.low) ≤ (1 - (1 / 2) ^ d) * R.rnd (p.high - p.low) :=
      roundBits_gap hd (R.idem _) (R.idem _) (R.rnd_nonneg (by linarith)) hlt
    have hq : R.rnd (R.rnd (x - p.low) / R.rnd (p.high - p.low)) ≤ 1 - (1 / 2) ^ d := by
      have hg1 : R.rnd (1 - (1 / 2) ^ d) = 1 - (1 / 2) ^ d := by
        have h2p : (1 : ℤ) ≤ 2 ^ d := one_le_pow₀ (by norm_num)
        have hab : (2 ^ d - 1 : ℤ).natAbs ≤ 2 ^ d := by
          have : ((2 ^ d - 1 : ℤ).natAbs : ℤ) ≤ ((2 ^ d : ℕ) : ℤ) := by
            push_cast
            rw [abs_of_nonneg (by linarith)]
            linarith
          exact_mod_cast this
        have hg := roundBits_grid hd (2 ^ d - 1) (-d) hab
        have he : ((2 ^ d - 1 : ℤ) : ℚ) * 2 ^ (-(d : ℤ)) = 1 - (1 / 2) ^ d := by
          push_cast
          rw [zpow_neg, zpow_natCast, one_div, inv_pow, sub_mul, mul_inv_cancel₀ (by positivity)]
          ring
        rw [he] at hg
        exact hg
      rw [← hg1]
      exact R.mono ((div_le_iff₀ hdp).2 hgap)
    have hm : R.rnd (R.rnd (R.rnd (x - p.low) / R.rnd (p.high - p.low)) * p.bins) < p.bins := by
      have hb1 := roundBits_below hd (n := p.bins.toNat) (by have := hp.1; omega) hb
      have hcast : ((p.bins.toNat : ℕ) : ℚ) = p.bins := by
        have : ((p.bins.toNat : ℕ) : ℤ) = p.bins := Int.toNat_of_nonneg hp.1.le
        exact_mod_cast this
      rw [hcast] at hb1
      refine lt_of_le_of_lt (R.mono ?_) hb1
      gcongr
    have := Int.floor_le (R.rnd (R.rnd (R.rnd (x - p.low) / R.rnd (p.high - p.low)) * p.bins))
    rw [h] at this
    linarith
  · intro h
    rw [h, div_self hdp.ne', hone, one_mul, hbins, Int.floor_intCast]

end Verif
