import Verif.Lemmas.FloatFill
import Verif.Lemmas.Shrink

/-! # Lemmas about shrinking in floating point arithmetic -/

namespace Verif

theorem pyInt_near {q : ℚ} {i : ℤ} (hi : 0 ≤ i) (h : |q - i| < 1) :
    pyInt q = i ∨ (1 ≤ i ∧ pyInt q = i - 1) := by
  rw [abs_lt] at h
  unfold pyInt
  by_cases h0 : 0 ≤ q
  · rw [if_pos h0]
    by_cases hq : (i : ℚ) ≤ q
    · left
      rw [Int.floor_eq_iff]
      exact ⟨hq, by linarith⟩
    · right
      rw [not_le] at hq
      have : (0 : ℚ) < i := by linarith
      have h1 : 0 < i := by exact_mod_cast this
      refine ⟨h1, ?_⟩
      rw [Int.floor_eq_iff]
      push_cast
      exact ⟨by linarith, by linarith⟩
  · rw [if_neg h0]
    rw [not_le] at h0
    have : (i : ℚ) < 1 := by linarith
    have h1 : i < 1 := by exact_mod_cast this
    have h2 : i = 0 := by omega
    left
    rw [h2] at h ⊢
    rw [Int.ceil_eq_iff]
    push_cast at h ⊢
    exact ⟨by linarith, by linarith⟩

theorem ceil_near {q : ℚ} {j : ℤ} (h : |q - j| < 1) : ⌈q⌉ = j ∨ ⌈q⌉ = j + 1 := by
  rw [abs_lt] at h
  by_cases hq : q ≤ j
  · left
    rw [Int.ceil_eq_iff]
    exact ⟨by linarith, hq⟩
  · right
    rw [not_le] at hq
    rw [Int.ceil_eq_iff]
    push_cast
    exact ⟨by linarith, by linarith⟩

theorem pyRound_near {q : ℚ} {k : ℤ} (h : |q - k| < 1 / 2) : pyRound q = k := by
  rw [abs_lt] at h
  have h1 := abs_le.1 (pyRound_close q)
  have a : (pyRound q : ℚ) < k + 1 := by linarith
  have b : (k : ℚ) < pyRound q + 1 := by linarith
  have a' : pyRound q < k + 1 := by exact_mod_cast a
  have b' : k < pyRound q + 1 := by exact_mod_cast b
  omega

namespace Rounding

variable (R : Rounding)

theorem width_near {p : SPar} (hp : p.WF) (hu : R.u ≤ 1 / 1000) :
    |R.width p - p.width| ≤ 3 * R.u * p.width := by
  have hu0 := R.u_nonneg
  have hD : 0 < p.high - p.low := by linarith [hp.2]
  have hn : (0 : ℚ) < p.bins := by exact_mod_cast hp.1
  have hw := hp.width_pos
  have hwD : p.width = (p.high - p.low) / p.bins := rfl
  obtain ⟨d1, d2⟩ := R.rnd_bounds hD.le
  unfold width div sub
  have q1 : (1 - R.u) * p.width ≤ R.rnd (p.high - p.low) / p.bins := by
    rw [hwD, ← mul_div_assoc]
    gcongr
  have q2 : R.rnd (p.high - p.low) / p.bins ≤ (1 + R.u) * p.width := by
    rw [hwD, ← mul_div_assoc]
    gcongr
  have h0 : 0 ≤ R.rnd (p.high - p.low) / p.bins := le_trans (by
    have : 0 ≤ 1 - R.u := by linarith
    positivity) q1
  obtain ⟨r1, r2⟩ := R.rnd_bounds h0
  set r := R.rnd (R.rnd (p.high - p.low) / p.bins)
  set q := R.rnd (p.high - p.low) / p.bins
  rw [abs_le]
  constructor
  · have : (1 - R.u) * ((1 - R.u) * p.width) ≤ (1 - R.u) * q := by
      gcongr
      linarith
    nlinarith [mul_nonneg (mul_nonneg hu0 hu0) hw.le]
  · have : (1 + R.u) * q ≤ (1 + R.u) * ((1 + R.u) * p.width) := by
      gcongr
    have h3 : R.u * R.u * p.width ≤ R.u * p.width := by
      gcongr
      nlinarith
    nlinarith

theorem width_pos {p : SPar} (hp : p.WF) (hu : R.u ≤ 1 / 1000) :
    997 / 1000 * p.width ≤ R.width p ∧ R.width p ≤ 1003 / 1000 * p.width := by
  have h := abs_le.1 (R.width_near hp hu)
  have hw := hp.width_pos
  have : R.u * p.width ≤ 1 / 1000 * p.width := by gcongr
  constructor <;> linarith [h.1, h.2]

/-- A rounded length divided by the computed width. -/
theorem div_width {p : SPar} (hp : p.WF) (hu : R.u ≤ 1 / 1000) {X ε k : ℚ}
    (h : |X - k * p.width| ≤ ε * p.width) (hε : ε ≤ 1) :
    |R.div (R.rnd X) (R.width p) - k| ≤ ε + 6 * R.u * (|k| + 1) := by
  have hu0 := R.u_nonneg
  have hw := hp.width_pos
  have hW := R.width_near hp hu
  obtain ⟨W1, W2⟩ := R.width_pos hp hu
  set w := p.width
  set W := R.width p
  have hWp : 0 < W := by linarith
  set t := X / w with ht
  have hX : X = t * w := by
    rw [ht]
    field_simp
  have htk : |t - k| ≤ ε := by
    have : |t - k| * w ≤ ε * w := by
      rw [← abs_of_pos hw, ← abs_mul, abs_of_pos hw, sub_mul, ← hX]
      exact h
    exact le_of_mul_le_mul_right this hw
  have htb : |t| ≤ |k| + 1 := by
    have := abs_add_le (t - k) k
    rw [sub_add_cancel] at this
    linarith
  have ha := R.rel X
  rw [hX, abs_mul, abs_of_pos hw] at ha
  have hq : |R.rnd X / W - t| ≤ 41 / 10 * R.u * |t| := by
    have e : R.rnd X / W - t = ((R.rnd (t * w) - t * w) + t * (w - W)) / W := by
      rw [hX]
      field_simp
      ring
    rw [e, abs_div, abs_of_pos hWp, div_le_iff₀ hWp]
    have h1 := abs_add_le (R.rnd (t * w) - t * w) (t * (w - W))
    have h2 : |t * (w - W)| ≤ |t| * (3 * R.u * w) := by
      rw [abs_mul, abs_sub_comm w W]
      gcongr
    have h3 : 41 / 10 * R.u * |t| * (997 / 1000 * w) ≤ 41 / 10 * R.u * |t| * W := by gcongr
    have h4 : 0 ≤ R.u * |t| * w := by positivity
    nlinarith
  unfold div
  have hr := R.rel (R.rnd X / W)
  have hqa : |R.rnd X / W| ≤ 11 / 10 * |t| := by
    have h1 := abs_add_le (R.rnd X / W - t) t
    rw [sub_add_cancel] at h1
    have h2 : 41 / 10 * R.u * |t| ≤ 41 / 10 * (1 / 1000) * |t| := by gcongr
    have := abs_nonneg t
    linarith
  have h5 : R.u * |R.rnd X / W| ≤ R.u * (11 / 10 * |t|) := by gcongr
  have h6 : 6 * R.u * |t| ≤ 6 * R.u * (|k| + 1) := by gcongr
  have h7 := abs_add_le (R.rnd (R.rnd X / W) - R.rnd X / W) ((R.rnd X / W - t) + (t - k))
  have h8 := abs_add_le (R.rnd X / W - t) (t - k)
  have h9 : R.rnd (R.rnd X / W) - R.rnd X / W + ((R.rnd X / W - t) + (t - k)) =
      R.rnd (R.rnd X / W) - k := by ring
  rw [h9] at h7
  have h10 : 0 ≤ R.u * |t| := by positivity
  linarith

/-- A number of computed widths. -/
theorem mul_width {p : SPar} (hp : p.WF) (hu : R.u ≤ 1 / 1000) (k : ℤ) :
    |R.mul k (R.width p) - k * p.width| ≤ 5 * R.u * |(k : ℚ)| * p.width := by
  have hu0 := R.u_nonneg
  have hw := hp.width_pos
  have hW := R.width_near hp hu
  obtain ⟨W1, W2⟩ := R.width_pos hp hu
  set w := p.width
  set W := R.width p
  unfold mul
  have h1 := R.rel (k * W)
  have h2 := abs_add_le (R.rnd (k * W) - k * W) (k * (W - w))
  have h3 : R.rnd (k * W) - k * W + k * (W - w) = R.rnd (k * W) - k * w := by ring
  rw [h3] at h2
  have h4 : |(k : ℚ) * (W - w)| ≤ |(k : ℚ)| * (3 * R.u * w) := by
    rw [abs_mul]
    gcongr
  have h5 : R.u * |(k : ℚ) * W| ≤ R.u * (|(k : ℚ)| * (1003 / 1000 * w)) := by
    rw [abs_mul, abs_of_pos (by linarith : 0 < W)]
    gcongr
  have h6 : 0 ≤ R.u * |(k : ℚ)| * w := by positivity
  linarith

/-- The edge of a bin and the edge rounded to a number of widths, as computed. -/
theorem edge_round {p : SPar} (hp : p.WF) {m lb : ℤ} {δ N : ℚ} (hδ : δ ≤ 1 / 1000)
    (hN : N * R.u ≤ 1 / 10000) (hm : |p.low - m * p.width| ≤ δ * p.width) (h1 : 1 ≤ N)
    (hk1 : |(lb : ℚ)| ≤ 2 * N) (hk2 : |((m + lb : ℤ) : ℚ)| ≤ 2 * N) :
    |R.edge p lb - p.edge lb| ≤ 13 * (N * R.u) * p.width ∧
    |R.round p (R.edge p lb) - p.edge lb| ≤ (δ + 10 * (N * R.u)) * p.width := by
  have hu0 := R.u_nonneg
  have hu : R.u ≤ 1 / 1000 := by nlinarith
  have hw := hp.width_pos
  have hmw := R.mul_width hp hu lb
  have hmw2 := R.mul_width hp hu (m + lb)
  set w := p.width with hwdef
  have hη : R.u ≤ N * R.u := by nlinarith
  have b1 : 5 * R.u * |(lb : ℚ)| * w ≤ 10 * (N * R.u) * w := by
    have : 5 * R.u * |(lb : ℚ)| ≤ 5 * R.u * (2 * N) := by gcongr
    nlinarith
  have b2 : 5 * R.u * |((m + lb : ℤ) : ℚ)| * w ≤ 10 * (N * R.u) * w := by
    have : 5 * R.u * |((m + lb : ℤ) : ℚ)| ≤ 5 * R.u * (2 * N) := by gcongr
    nlinarith
  have hedge : p.edge lb = p.low + lb * w := rfl
  set η := N * R.u with hηdef
  -- the edge before rounding
  have hX1 : |p.low + R.mul lb (R.width p) - p.edge lb| ≤ 10 * η * w := by
    rw [hedge]
    have : p.low + R.mul lb (R.width p) - (p.low + lb * w) = R.mul lb (R.width p) - lb * w := by ring
    rw [this]
    linarith
  have hX2 : |p.low + R.mul lb (R.width p) - ((m + lb : ℤ) : ℚ) * w| ≤ (δ + 10 * η) * w := by
    have e : p.low + R.mul lb (R.width p) - ((m + lb : ℤ) : ℚ) * w =
        (p.low - m * w) + (R.mul lb (R.width p) - lb * w) := by
      push_cast
      ring
    rw [e]
    have := abs_add_le (p.low - m * w) (R.mul lb (R.width p) - lb * w)
    linarith
  have hXabs : |p.low + R.mul lb (R.width p)| ≤ (2 * N + 1) * w := by
    have := abs_add_le (p.low + R.mul lb (R.width p) - ((m + lb : ℤ) : ℚ) * w) (((m + lb : ℤ) : ℚ) * w)
    rw [sub_add_cancel, abs_mul, abs_of_pos hw] at this
    have h5 : |((m + lb : ℤ) : ℚ)| * w ≤ 2 * N * w := by gcongr
    have h6 : (δ + 10 * η) * w ≤ 1 * w := by
      gcongr
      linarith
    linarith
  have hrel := R.rel (p.low + R.mul lb (R.width p))
  have hrel2 : R.u * |p.low + R.mul lb (R.width p)| ≤ 3 * η * w := by
    calc R.u * |p.low + R.mul lb (R.width p)| ≤ R.u * ((2 * N + 1) * w) := by gcongr
      _ = (2 * η + R.u) * w := by rw [hηdef]; ring
      _ ≤ 3 * η * w := by
          gcongr
          linarith
  constructor
  · unfold edge add
    have := abs_add_le (R.rnd (p.low + R.mul lb (R.width p)) - (p.low + R.mul lb (R.width p)))
      (p.low + R.mul lb (R.width p) - p.edge lb)
    rw [sub_add_sub_cancel] at this
    linarith
  · have hd := R.div_width hp hu (k := ((m + lb : ℤ) : ℚ)) hX2 (by linarith)
    have hround : pyRound (R.div (R.edge p lb) (R.width p)) = m + lb := by
      refine pyRound_near (lt_of_le_of_lt hd ?_)
      have : 6 * R.u * (|((m + lb : ℤ) : ℚ)| + 1) ≤ 6 * R.u * (2 * N + 1) := by gcongr
      have e : 6 * R.u * (2 * N + 1) = 12 * η + 6 * R.u := by rw [hηdef]; ring
      linarith
    unfold round
    rw [hround, hedge]
    have e : R.mul ((m + lb : ℤ) : ℚ) (R.width p) - (p.low + lb * w) =
        (R.mul ((m + lb : ℤ) : ℚ) (R.width p) - ((m + lb : ℤ) : ℚ) * w) + -(p.low - m * w) := by
      push_cast
      ring
    rw [e]
    have := abs_add_le (R.mul ((m + lb : ℤ) : ℚ) (R.width p) - ((m + lb : ℤ) : ℚ) * w) (-(p.low - m * w))
    rw [abs_neg] at this
    linarith

/-- The computed difference of a computed edge and a bound. -/
theorem compare_edges {p : SPar} (hp : p.WF) {c δ η a : ℚ} (hc : |c - 99 / 100| ≤ R.u)
    (hu : R.u ≤ 1 / 10000) (hδ : δ ≤ 1 / 1000) (hη : η ≤ 1 / 10000) :
    (|a| ≤ (2 * δ + 10 * η) * p.width → ¬ R.mul c (R.width p) < |R.rnd a|) ∧
    (|a + p.width| ≤ (2 * δ + 10 * η) * p.width →
      R.mul c (R.width p) < |R.rnd a| ∧ ¬ 0 < R.rnd a) ∧
    (|a - p.width| ≤ (2 * δ + 10 * η) * p.width →
      R.mul c (R.width p) < |R.rnd a| ∧ 0 < R.rnd a) := by
  have hu0 := R.u_nonneg
  have hw := hp.width_pos
  have hW := abs_le.1 (R.width_near hp (by linarith))
  have hc' := abs_le.1 hc
  set w := p.width
  set W := R.width p
  have hW1 : 999 / 1000 * w ≤ W := by
    have : R.u * w ≤ 1 / 10000 * w := by gcongr
    linarith [hW.1]
  have hW2 : W ≤ 10003 / 10000 * w := by
    have : R.u * w ≤ 1 / 10000 * w := by gcongr
    linarith [hW.2]
  have hcW : 0 ≤ c * W := by
    have : 0 ≤ c := by linarith
    have : 0 ≤ W := by linarith
    positivity
  obtain ⟨m1, m2⟩ := R.rnd_bounds hcW
  have hlo : 1 / 2 * w ≤ R.mul c W := by
    unfold mul
    have h1 : 9 / 10 * (999 / 1000 * w) ≤ c * W := by
      gcongr <;> linarith
    have h2 : (1 - R.u) * (c * W) ≥ 9 / 10 * (c * W) := by
      gcongr
      linarith
    linarith
  have hhi : R.mul c W ≤ 9906 / 10000 * w := by
    unfold mul
    have h1 : c * W ≤ 9901 / 10000 * (10003 / 10000 * w) := by
      gcongr <;> linarith
    have h2 : (1 + R.u) * (c * W) ≤ 10001 / 10000 * (c * W) := by
      gcongr
      linarith
    linarith
  have hsm : (2 * δ + 10 * η) * w ≤ 3 / 1000 * w := by
    gcongr
    linarith
  have hrel := R.rel a
  refine ⟨fun h => ?_, fun h => ?_, fun h => ?_⟩
  · rw [not_lt]
    have h1 := abs_add_le (R.rnd a - a) a
    rw [sub_add_cancel] at h1
    have h2 : R.u * |a| ≤ 1 * |a| := by
      gcongr
      linarith
    linarith
  · have h1 := abs_le.1 h
    have ha : a < 0 := by linarith [h1.2]
    rw [abs_of_neg ha] at hrel
    have hr := abs_le.1 hrel
    have h2 : R.u * -a ≤ 1 / 10000 * -a := by
      gcongr
      linarith
    have hneg : R.rnd a < 0 := by linarith [hr.2]
    refine ⟨?_, by linarith⟩
    rw [abs_of_neg hneg]
    linarith [hr.2, h1.2]
  · have h1 := abs_le.1 h
    have ha : 0 < a := by linarith [h1.1]
    rw [abs_of_pos ha] at hrel
    have hr := abs_le.1 hrel
    have h2 : R.u * a ≤ 1 / 10000 * a := by gcongr
    have hpos : 0 < R.rnd a := by linarith [hr.1]
    refine ⟨?_, hpos⟩
    rw [abs_of_pos hpos]
    linarith [hr.1, h1.1]

/-- `shrinkAxis` for bounds near bin edges of an axis that is almost aligned. -/
theorem shrinkAxis_near {p : SPar} (hp : p.WF) {c δ : ℚ} {m : ℤ} (hc : |c - 99 / 100| ≤ R.u)
    (hδ : δ ≤ 1 / 1000) (hN : (|(m : ℚ)| + p.bins) * R.u ≤ 1 / 10000)
    (hm : |p.low - m * p.width| ≤ δ * p.width) {kl kh : ℚ} {i j : ℤ} (hi : 0 ≤ i) (hij : i ≤ j)
    (hj : j ≤ p.bins) (hl : |kl - p.edge i| ≤ δ * p.width) (hh : |kh - p.edge j| ≤ δ * p.width) :
    ∃ lo hi', R.shrinkAxis c p kl kh = ({ p with low := lo, high := hi', bins := j - i }, (i, j)) ∧
      |lo - p.edge i| ≤ (δ + 13 * ((|(m : ℚ)| + p.bins) * R.u)) * p.width ∧
      |hi' - p.edge j| ≤ (δ + 13 * ((|(m : ℚ)| + p.bins) * R.u)) * p.width := by
  have hu0 := R.u_nonneg
  have hw := hp.width_pos
  have hbq : (1 : ℚ) ≤ p.bins := by exact_mod_cast hp.1
  have hma := abs_nonneg (m : ℚ)
  have hN1 : 1 ≤ |(m : ℚ)| + p.bins := by linarith
  generalize hNN : |(m : ℚ)| + p.bins = N at *
  have huN : R.u ≤ N * R.u := by nlinarith
  have hu : R.u ≤ 1 / 10000 := by linarith
  have hδ0 : 0 ≤ δ := by
    have := (abs_nonneg _).trans hl
    exact nonneg_of_mul_nonneg_left this hw
  have hiq : (0 : ℚ) ≤ i := by exact_mod_cast hi
  have hjq : (j : ℚ) ≤ p.bins := by exact_mod_cast hj
  have hijq : (i : ℚ) ≤ j := by exact_mod_cast hij
  -- bounds on the integers that occur
  have hint : ∀ k : ℤ, 0 ≤ k → k ≤ p.bins + 1 → |(k : ℚ)| ≤ 2 * N ∧ |((m + k : ℤ) : ℚ)| ≤ 2 * N := by
    intro k k0 k1
    have k0' : (0 : ℚ) ≤ k := by exact_mod_cast k0
    have k1' : (k : ℚ) ≤ p.bins + 1 := by exact_mod_cast k1
    rw [abs_of_nonneg k0']
    refine ⟨by linarith, ?_⟩
    push_cast
    have := abs_add_le (m : ℚ) k
    rw [abs_of_nonneg k0'] at this
    linarith
  have hed : ∀ k : ℤ, p.edge k - p.low = k * p.width := by
    intro k
    rw [SPar.edge_eq]
    ring
  have hstep : ∀ k : ℤ, p.edge (k + 1) = p.edge k + p.width := by
    intro k
    simp only [SPar.edge_eq]
    push_cast
    ring
  -- the computed bins
  have hq : ∀ (k : ℤ) (x : ℚ), 0 ≤ k → k ≤ p.bins → |x - p.edge k| ≤ δ * p.width →
      |R.div (R.sub x p.low) (R.width p) - k| < 1 := by
    intro k x k0 k1 hx
    have e : x - p.low - k * p.width = x - p.edge k := by rw [← hed]; ring
    have := R.div_width hp (by linarith) (X := x - p.low) (k := (k : ℚ)) (ε := δ) (by rw [e]; exact hx) (by linarith)
    unfold sub
    refine lt_of_le_of_lt this ?_
    have k0' : (0 : ℚ) ≤ k := by exact_mod_cast k0
    have k1' : (k : ℚ) ≤ p.bins := by exact_mod_cast k1
    rw [abs_of_nonneg k0']
    have : 6 * R.u * ((k : ℚ) + 1) ≤ 6 * R.u * (N + 1) := by
      gcongr
      linarith
    nlinarith
  have hlb := pyInt_near hi (hq i kl hi (by omega) hl)
  have hhb := ceil_near (hq j kh (by omega) hj hh)
  -- the low side
  have hlo : ∃ lo, (if R.mul c (R.width p) < |R.sub (R.round p (R.edge p
        (pyInt (R.div (R.sub kl p.low) (R.width p))))) kl| then
        if 0 < R.sub (R.round p (R.edge p (pyInt (R.div (R.sub kl p.low) (R.width p))))) kl then
          (pyInt (R.div (R.sub kl p.low) (R.width p)) - 1,
            R.edge p (pyInt (R.div (R.sub kl p.low) (R.width p)) - 1))
        else (pyInt (R.div (R.sub kl p.low) (R.width p)) + 1,
            R.edge p (pyInt (R.div (R.sub kl p.low) (R.width p)) + 1))
      else (pyInt (R.div (R.sub kl p.low) (R.width p)),
        R.round p (R.edge p (pyInt (R.div (R.sub kl p.low) (R.width p)))))) = (i, lo) ∧
      |lo - p.edge i| ≤ (δ + 13 * (N * R.u)) * p.width := by
    obtain ⟨i1, i2⟩ := hint i hi (by omega)
    obtain ⟨e1, e2⟩ := R.edge_round hp hδ hN hm hN1 i1 i2
    rcases hlb with h | ⟨h1, h⟩
    · rw [h]
      have hcmp := (R.compare_edges hp hc hu hδ hN (a := R.round p (R.edge p i) - kl)).1 (by
        have := abs_add_le (R.round p (R.edge p i) - p.edge i) (-(kl - p.edge i))
        rw [abs_neg] at this
        have e : R.round p (R.edge p i) - p.edge i + -(kl - p.edge i) = R.round p (R.edge p i) - kl := by ring
        rw [e] at this
        linarith)
      refine ⟨_, if_neg hcmp, e2.trans ?_⟩
      gcongr
      linarith
    · rw [h]
      obtain ⟨j1, j2⟩ := hint (i - 1) (by omega) (by omega)
      obtain ⟨-, e3⟩ := R.edge_round hp hδ hN hm hN1 j1 j2
      have hs := hstep (i - 1)
      rw [sub_add_cancel] at hs
      have hcmp := (R.compare_edges hp hc hu hδ hN (a := R.round p (R.edge p (i - 1)) - kl)).2.1 (by
        have := abs_add_le (R.round p (R.edge p (i - 1)) - p.edge (i - 1)) (-(kl - p.edge i))
        rw [abs_neg] at this
        have e : R.round p (R.edge p (i - 1)) - p.edge (i - 1) + -(kl - p.edge i) =
            R.round p (R.edge p (i - 1)) - kl + p.width := by
          rw [hs]
          ring
        rw [e] at this
        linarith)
      refine ⟨R.edge p i, ?_, ?_⟩
      · unfold sub at hcmp ⊢
        rw [if_pos hcmp.1, if_neg hcmp.2, sub_add_cancel]
      · have : 0 ≤ δ * p.width := by positivity
        linarith
  have hhi : ∃ hi', (if R.mul c (R.width p) < |R.sub (R.round p (R.edge p
        ⌈R.div (R.sub kh p.low) (R.width p)⌉)) kh| then
        if 0 < R.sub (R.round p (R.edge p ⌈R.div (R.sub kh p.low) (R.width p)⌉)) kh then
          (⌈R.div (R.sub kh p.low) (R.width p)⌉ - 1,
            R.round p (R.edge p (⌈R.div (R.sub kh p.low) (R.width p)⌉ - 1)))
        else (⌈R.div (R.sub kh p.low) (R.width p)⌉ + 1,
            R.round p (R.edge p (⌈R.div (R.sub kh p.low) (R.width p)⌉ + 1)))
      else (⌈R.div (R.sub kh p.low) (R.width p)⌉,
        R.round p (R.edge p ⌈R.div (R.sub kh p.low) (R.width p)⌉))) = (j, hi') ∧
      |hi' - p.edge j| ≤ (δ + 13 * (N * R.u)) * p.width := by
    obtain ⟨i1, i2⟩ := hint j (by omega) (by omega)
    obtain ⟨-, e2⟩ := R.edge_round hp hδ hN hm hN1 i1 i2
    have e2' : |R.round p (R.edge p j) - p.edge j| ≤ (δ + 13 * (N * R.u)) * p.width := by
      refine e2.trans ?_
      gcongr
      linarith
    rcases hhb with h | h
    · rw [h]
      have hcmp := (R.compare_edges hp hc hu hδ hN (a := R.round p (R.edge p j) - kh)).1 (by
        have := abs_add_le (R.round p (R.edge p j) - p.edge j) (-(kh - p.edge j))
        rw [abs_neg] at this
        have e : R.round p (R.edge p j) - p.edge j + -(kh - p.edge j) = R.round p (R.edge p j) - kh := by ring
        rw [e] at this
        linarith)
      exact ⟨_, if_neg hcmp, e2'⟩
    · rw [h]
      obtain ⟨j1, j2⟩ := hint (j + 1) (by omega) (by omega)
      obtain ⟨-, e3⟩ := R.edge_round hp hδ hN hm hN1 j1 j2
      have hs := hstep j
      have hcmp := (R.compare_edges hp hc hu hδ hN (a := R.round p (R.edge p (j + 1)) - kh)).2.2 (by
        have := abs_add_le (R.round p (R.edge p (j + 1)) - p.edge (j + 1)) (-(kh - p.edge j))
        rw [abs_neg] at this
        have e : R.round p (R.edge p (j + 1)) - p.edge (j + 1) + -(kh - p.edge j) =
            R.round p (R.edge p (j + 1)) - kh - p.width := by
          rw [hs]
          ring
        rw [e] at this
        linarith)
      refine ⟨R.round p (R.edge p j), ?_, e2'⟩
      unfold sub at hcmp ⊢
      rw [if_pos hcmp.1, if_pos hcmp.2, add_sub_cancel_right]
  obtain ⟨lo, hlo1, hlo2⟩ := hlo
  obtain ⟨hi', hhi1, hhi2⟩ := hhi
  refine ⟨lo, hi', ?_, hlo2, hhi2⟩
  unfold shrinkAxis
  dsimp only
  rw [hlo1, hhi1]

end Rounding

end Verif
