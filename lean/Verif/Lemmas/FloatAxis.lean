import Verif.Lemmas.FloatShrink

/-! # Lemmas about the bins of an axis in floating point arithmetic -/

namespace Verif

namespace Rounding

variable (R : Rounding)

theorem rel_pos {x : ℚ} (hx : 0 ≤ x) : |R.rnd x - x| ≤ R.u * x := by
  have := R.rel x
  rwa [abs_of_nonneg hx] at this

/-- A non-negative number of computed widths, the number itself rounded. -/
theorem mul_width_near {p : SPar} (hp : p.WF) (hu : R.u ≤ 1 / 1000) {a k : ℚ} (hk : 0 ≤ k)
    (ha : |a - k| ≤ R.u * k) : |R.mul a (R.width p) - k * p.width| ≤ 6 * R.u * k * p.width := by
  have hu0 := R.u_nonneg
  have hw := hp.width_pos
  have hW := R.width_near hp hu
  obtain ⟨W1, W2⟩ := R.width_pos hp hu
  set w := p.width
  set W := R.width p
  have ha' := abs_le.1 ha
  have huk : R.u * k ≤ 1 / 1000 * k := by gcongr
  have ha0 : 0 ≤ a := by linarith
  have hWp : 0 < W := by linarith
  unfold mul
  have h1 := R.rel_pos (x := a * W) (by positivity)
  have h2 : R.u * (a * W) ≤ R.u * ((1001 / 1000 * k) * (1003 / 1000 * w)) := by
    gcongr
    linarith
  have h3 : |(a - k) * W| ≤ R.u * k * (1003 / 1000 * w) := by
    rw [abs_mul, abs_of_pos hWp]
    gcongr
  have h4 : |k * (W - w)| ≤ k * (3 * R.u * w) := by
    rw [abs_mul, abs_of_nonneg hk]
    gcongr
  have h5 := abs_add_le (R.rnd (a * W) - a * W) ((a - k) * W + k * (W - w))
  have h6 := abs_add_le ((a - k) * W) (k * (W - w))
  have h7 : R.rnd (a * W) - a * W + ((a - k) * W + k * (W - w)) = R.rnd (a * W) - k * w := by ring
  rw [h7] at h5
  have h8 : 0 ≤ R.u * k * w := by positivity
  linarith

/-- Adding to a number: the sum is rounded once. -/
theorem add_near {p : SPar} {x y X Y ε ζ M : ℚ} (hx : |x - X| ≤ ε * p.width)
    (hy : |y - Y| ≤ ζ * p.width) (hM : |X + Y| ≤ M * p.width) :
    |R.add x y - (X + Y)| ≤ (ε + ζ + R.u * (M + ε + ζ)) * p.width := by
  have hu0 := R.u_nonneg
  have h0 := abs_add_le (x - X) (y - Y)
  have h1 : |x + y - (X + Y)| ≤ (ε + ζ) * p.width := by
    have : x + y - (X + Y) = (x - X) + (y - Y) := by ring
    rw [this]
    linarith
  have h2 := R.rel (x + y)
  have h3 : |x + y| ≤ (M + ε + ζ) * p.width := by
    have := abs_add_le (x + y - (X + Y)) (X + Y)
    rw [sub_add_cancel] at this
    linarith
  have h4 : R.u * |x + y| ≤ R.u * ((M + ε + ζ) * p.width) := by gcongr
  unfold add
  have h5 := abs_add_le (R.rnd (x + y) - (x + y)) (x + y - (X + Y))
  rw [sub_add_sub_cancel] at h5
  linarith

/-- The numbers of bin widths that matter. -/
theorem axis_bounds {p : SPar} (hp : p.WF) {κ : ℚ} (hκ : (|p.low| / p.width + p.bins) * R.u ≤ κ)
    (hκ1 : κ ≤ 1 / 1000) : 1 ≤ |p.low| / p.width + p.bins ∧ R.u ≤ κ ∧ R.u ≤ 1 / 1000 ∧
      (p.bins : ℚ) * R.u ≤ κ ∧ ∀ k : ℚ, 0 ≤ k → k ≤ p.bins →
      |p.low + k * p.width| ≤ (|p.low| / p.width + p.bins) * p.width := by
  have hw := hp.width_pos
  have hb : (1 : ℚ) ≤ p.bins := by exact_mod_cast hp.1
  have h0 : 0 ≤ |p.low| / p.width := by positivity
  have h1 : 1 ≤ |p.low| / p.width + p.bins := by linarith
  have hu0 := R.u_nonneg
  have h2 : R.u ≤ κ := by nlinarith
  have h3 : (p.bins : ℚ) * R.u ≤ κ := by nlinarith
  refine ⟨h1, h2, by linarith, h3, fun k k0 k1 => ?_⟩
  have := abs_add_le p.low (k * p.width)
  rw [abs_mul, abs_of_nonneg k0, abs_of_pos hw] at this
  have e : (|p.low| / p.width + p.bins) * p.width = |p.low| + p.bins * p.width := by
    field_simp
  rw [e]
  have : k * p.width ≤ p.bins * p.width := by gcongr
  linarith

/-- The computed bin centre. -/
theorem centre_near {p : SPar} (hp : p.WF) {κ : ℚ}
    (hκ : (|p.low| / p.width + p.bins) * R.u ≤ κ) (hκ1 : κ ≤ 1 / 1000) {i : ℤ} (hi : 0 ≤ i)
    (hi' : i < p.bins) :
    |R.add p.low (R.mul (R.add i (1 / 2)) (R.width p)) - (p.low + ((i : ℚ) + 1 / 2) * p.width)| ≤
      8 * κ * p.width := by
  obtain ⟨h1, h2, h3, h4, h5⟩ := R.axis_bounds hp hκ hκ1
  have hw := hp.width_pos
  have hu0 := R.u_nonneg
  have hiq : (0 : ℚ) ≤ i := by exact_mod_cast hi
  have hiq' : (i : ℚ) + 1 ≤ p.bins := by exact_mod_cast hi'
  have ha : |R.add i (1 / 2) - ((i : ℚ) + 1 / 2)| ≤ R.u * ((i : ℚ) + 1 / 2) :=
    R.rel_pos (by linarith)
  have hm := R.mul_width_near hp h3 (by linarith) ha
  have hs := R.add_near (x := p.low) (X := p.low) (ε := 0) (by simp) hm
    (h5 ((i : ℚ) + 1 / 2) (by linarith) (by linarith))
  refine hs.trans ?_
  gcongr
  have e1 : R.u * ((i : ℚ) + 1 / 2) ≤ R.u * p.bins := by
    gcongr
    linarith
  have e2 : R.u * (6 * R.u * ((i : ℚ) + 1 / 2)) ≤ 1 / 1000 * (6 * R.u * ((i : ℚ) + 1 / 2)) := by
    gcongr
  linarith

/-- Looking up a point near a bin centre. -/
theorem getBin_near {p : SPar} (hp : p.WF) {κ : ℚ}
    (hκ : (|p.low| / p.width + p.bins) * R.u ≤ κ) (hκ1 : κ ≤ 1 / 1000) {i : ℤ} (hi : 0 ≤ i)
    (hi' : i < p.bins) {x : ℚ} (hx : |x - (p.low + ((i : ℚ) + 1 / 2) * p.width)| ≤ 2 / 5 * p.width) :
    R.getBin p x = .ok i := by
  obtain ⟨h1, h2, h3, h4, -⟩ := R.axis_bounds hp hκ hκ1
  have hw := hp.width_pos
  have hu0 := R.u_nonneg
  have hiq : (0 : ℚ) ≤ i := by exact_mod_cast hi
  have hiq' : (i : ℚ) + 1 ≤ p.bins := by exact_mod_cast hi'
  have hx' := abs_le.1 hx
  have hlow : p.low ≤ x := by nlinarith
  have hhigh : x ≤ p.high := by
    rw [hp.high_eq]
    nlinarith
  have hd := R.div_width hp h3 (X := x - p.low) (k := (i : ℚ) + 1 / 2) (ε := 2 / 5)
    (by
      have : x - p.low - ((i : ℚ) + 1 / 2) * p.width = x - (p.low + ((i : ℚ) + 1 / 2) * p.width) := by ring
      rw [this]
      exact hx) (by norm_num)
  rw [abs_of_pos (by linarith : 0 < (i : ℚ) + 1 / 2)] at hd
  have e : 6 * R.u * ((i : ℚ) + 1 / 2 + 1) ≤ 12 / 1000 := by nlinarith
  have hd' := abs_le.1 (hd.trans (by linarith : _ ≤ (2 / 5 + 12 / 1000 : ℚ)))
  unfold getBin
  rw [if_neg (not_lt.2 hlow), if_neg (not_lt.2 hhigh), if_neg]
  · congr 1
    unfold sub
    rw [pyInt_nonneg (by linarith [hd'.1]), Int.floor_eq_iff]
    constructor <;> linarith [hd'.1, hd'.2]
  · rintro (h0 | h0)
    · omega
    · have := (R.width_pos hp h3).1
      linarith

/-- The entries of `numpy.arange` from the first bin centre on. -/
theorem centres_near {p : SPar} (hp : p.WF) {κ : ℚ}
    (hκ : (|p.low| / p.width + p.bins) * R.u ≤ κ) (hκ1 : p.bins * κ ≤ 1 / 1000) :
    (R.binCentres p).length = p.bins.toNat ∧ ∀ (i : ℕ) (x : ℚ), (R.binCentres p)[i]? = some x →
      |x - (p.low + ((i : ℚ) + 1 / 2) * p.width)| ≤ 16 * (p.bins * κ) * p.width := by
  have hbq : (1 : ℚ) ≤ p.bins := by exact_mod_cast hp.1
  have hκ0 : 0 ≤ κ := by
    have hw := hp.width_pos
    have hu0 := R.u_nonneg
    refine le_trans ?_ hκ
    positivity
  have hκb : κ ≤ p.bins * κ := by nlinarith
  obtain ⟨h1, h2, h3, h4, h5⟩ := R.axis_bounds hp hκ (by linarith)
  have hw := hp.width_pos
  have hu0 := R.u_nonneg
  have hW := R.width_near hp h3
  obtain ⟨W1, W2⟩ := R.width_pos hp h3
  set w := p.width with hwd
  set W := R.width p with hWd
  generalize hMM : |p.low| / w + p.bins = M at *
  have hMu : R.u * M ≤ κ := by linarith
  -- the first centre
  have hhalf : |R.mul W (1 / 2) - 1 / 2 * w| ≤ (3 * R.u) * w := by
    unfold mul
    have a1 := R.rel_pos (x := W * (1 / 2)) (by linarith)
    have a2 : R.u * (W * (1 / 2)) ≤ R.u * (1003 / 1000 * w * (1 / 2)) := by gcongr
    have a3 := abs_le.1 hW
    have a4 := abs_le.1 a1
    have a5 : 0 ≤ R.u * w := by positivity
    rw [abs_le]
    constructor <;> linarith [a3.1, a3.2, a4.1, a4.2]
  have hstart : |R.add p.low (R.mul W (1 / 2)) - (p.low + 1 / 2 * w)| ≤ 5 * κ * w := by
    refine (R.add_near (x := p.low) (X := p.low) (ε := 0) (by simp) hhalf
      (h5 (1 / 2) (by norm_num) (by linarith))).trans ?_
    gcongr
    nlinarith
  set st := R.add p.low (R.mul W (1 / 2)) with hst
  -- the number of entries
  have hlen : ⌈R.div (R.sub p.high st) W⌉ = p.bins := by
    have hX : |p.high - st - ((p.bins : ℚ) - 1 / 2) * w| ≤ 5 * κ * w := by
      have : p.high - st - ((p.bins : ℚ) - 1 / 2) * w = -(st - (p.low + 1 / 2 * w)) := by
        rw [hp.high_eq]
        ring
      rw [this, abs_neg]
      exact hstart
    have hd := R.div_width hp h3 hX (by linarith)
    rw [abs_of_pos (by linarith : 0 < (p.bins : ℚ) - 1 / 2)] at hd
    have e : 5 * κ + 6 * R.u * ((p.bins : ℚ) - 1 / 2 + 1) ≤ 1 / 4 := by nlinarith
    have hd' := abs_le.1 (hd.trans e)
    unfold sub
    rw [Int.ceil_eq_iff]
    constructor <;> linarith [hd'.1, hd'.2]
  unfold binCentres arange
  dsimp only
  rw [← hst, ← hWd, hlen]
  refine ⟨by simp, fun i x hx => ?_⟩
  rw [List.getElem?_map, Option.map_eq_some_iff] at hx
  obtain ⟨i', hi', hx⟩ := hx
  obtain ⟨hlt, rfl⟩ := List.getElem?_eq_some_iff.1 hi'
  rw [List.getElem_range] at hx
  rw [List.length_range] at hlt
  have hin : (i : ℤ) < p.bins := by omega
  have hiq : (0 : ℚ) ≤ i := by positivity
  have hiq' : (i : ℚ) + 1 ≤ p.bins := by exact_mod_cast hin
  have hbk : (0 : ℚ) ≤ p.bins * κ := by positivity
  -- the second entry and the step
  have hsW : |st + W| ≤ (M + 2) * w := by
    have a1 := abs_add_le (st - (p.low + 1 / 2 * w)) (p.low + 1 / 2 * w)
    rw [sub_add_cancel] at a1
    have a2 := h5 (1 / 2) (by norm_num) (by linarith)
    have a3 := abs_add_le st W
    rw [abs_of_pos (by linarith : 0 < W)] at a3
    have a4 : 5 * κ * w ≤ 5 * (1 / 1000) * w := by
      gcongr
      linarith
    linarith
  have hsec := R.rel (st + W)
  have hsec' : R.u * |st + W| ≤ 3 * κ * w := by
    calc R.u * |st + W| ≤ R.u * ((M + 2) * w) := by gcongr
      _ = (R.u * M + 2 * R.u) * w := by ring
      _ ≤ 3 * κ * w := by
          gcongr
          linarith
  by_cases hi0 : i = 0
  · subst hi0
    rw [if_pos rfl] at hx
    subst hx
    simp only [Nat.cast_zero, zero_add]
    refine hstart.trans ?_
    gcongr
    linarith
  rw [if_neg hi0] at hx
  by_cases hi1 : i = 1
  · subst hi1
    rw [if_pos rfl] at hx
    subst hx
    unfold add
    have a1 := abs_le.1 (hsec.trans hsec')
    have a2 := abs_le.1 hstart
    have a3 := abs_le.1 hW
    have a4 : R.u * w ≤ κ * w := by gcongr
    have a5 : κ * w ≤ p.bins * κ * w := by gcongr
    push_cast
    rw [abs_le]
    constructor <;> linarith [a1.1, a1.2, a2.1, a2.2, a3.1, a3.2]
  rw [if_neg hi1] at hx
  subst hx
  have hdel : |R.sub (R.add st W) st - w| ≤ 8 * κ * w := by
    have a1 := abs_le.1 (hsec.trans hsec')
    have a3 := abs_le.1 hW
    have a4 : R.u * w ≤ κ * w := by gcongr
    have b1 : |R.add st W - st - w| ≤ 6 * κ * w := by
      unfold add
      rw [abs_le]
      constructor <;> linarith [a1.1, a1.2, a3.1, a3.2]
    unfold sub
    have b2 := R.rel (R.add st W - st)
    have b3 : |R.add st W - st| ≤ 11 / 10 * w := by
      have := abs_add_le (R.add st W - st - w) w
      rw [sub_add_cancel, abs_of_pos hw] at this
      have : 6 * κ * w ≤ 6 * (1 / 1000) * w := by
        gcongr
        linarith
      linarith
    have b4 : R.u * |R.add st W - st| ≤ R.u * (11 / 10 * w) := by gcongr
    have b5 := abs_add_le (R.rnd (R.add st W - st) - (R.add st W - st)) (R.add st W - st - w)
    rw [sub_add_sub_cancel] at b5
    linarith
  set dl := R.sub (R.add st W) st
  have hmul : |R.mul i dl - i * w| ≤ (10 * κ * i) * w := by
    unfold mul
    have c1 := R.rel ((i : ℚ) * dl)
    have c2 : |(i : ℚ) * dl - i * w| ≤ i * (8 * κ * w) := by
      rw [← mul_sub, abs_mul, abs_of_nonneg hiq]
      gcongr
    have c3 : |(i : ℚ) * dl| ≤ i * (11 / 10 * w) := by
      rw [abs_mul, abs_of_nonneg hiq]
      gcongr
      have := abs_add_le (dl - w) w
      rw [sub_add_cancel, abs_of_pos hw] at this
      have : 8 * κ * w ≤ 8 * (1 / 1000) * w := by
        gcongr
        linarith
      linarith
    have c4 : R.u * |(i : ℚ) * dl| ≤ κ * (i * (11 / 10 * w)) := by gcongr
    have c5 := abs_add_le (R.rnd ((i : ℚ) * dl) - i * dl) (i * dl - i * w)
    rw [sub_add_sub_cancel] at c5
    have c6 : 0 ≤ κ * i * w := by positivity
    linarith
  have hM : |p.low + 1 / 2 * w + i * w| ≤ M * w := by
    have := h5 ((i : ℚ) + 1 / 2) (by linarith) (by linarith)
    have e : p.low + 1 / 2 * w + i * w = p.low + ((i : ℚ) + 1 / 2) * w := by ring
    rw [e]
    exact this
  have hfin := R.add_near hstart hmul hM
  have e : p.low + 1 / 2 * w + i * w = p.low + ((i : ℚ) + 1 / 2) * w := by ring
  rw [e] at hfin
  refine hfin.trans ?_
  gcongr
  have d1 : κ * i ≤ p.bins * κ - κ := by nlinarith
  have d2 : R.u * (5 * κ + 10 * κ * i) ≤ 1 / 1000 * (5 * κ + 10 * κ * i) := by gcongr
  linarith

/-- The computed bin boundaries. -/
theorem boundary_near {p : SPar} (hp : p.WF) {κ : ℚ}
    (hκ : (|p.low| / p.width + p.bins) * R.u ≤ κ) (hκ1 : κ ≤ 1 / 1000) {i : ℕ} (hi : (i : ℤ) ≤ p.bins) :
    |R.add (R.mul i (R.width p)) p.low - p.edge i| ≤ 7 * κ * p.width := by
  obtain ⟨h1, h2, h3, h4, h5⟩ := R.axis_bounds hp hκ hκ1
  have hw := hp.width_pos
  have hu0 := R.u_nonneg
  have hiq : (0 : ℚ) ≤ i := by positivity
  have hiq' : (i : ℚ) ≤ p.bins := by exact_mod_cast hi
  have hm := R.mul_width hp h3 i
  rw [Int.cast_natCast, abs_of_nonneg hiq] at hm
  have hs := R.add_near (y := p.low) (Y := p.low) (ζ := 0) hm (by simp)
    (M := |p.low| / p.width + p.bins) (by
      rw [add_comm]
      exact h5 i hiq hiq')
  have e : p.edge i = i * p.width + p.low := by
    rw [SPar.edge_eq]
    push_cast
    ring
  rw [e]
  refine hs.trans ?_
  gcongr
  have e1 : R.u * i ≤ R.u * p.bins := by gcongr
  have e2 : R.u * (5 * R.u * i) ≤ 1 / 1000 * (5 * R.u * i) := by gcongr
  linarith

end Rounding

end Verif
