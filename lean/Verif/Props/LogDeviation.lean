import Verif.Props.FitParameter
import Verif.Spec.LogDeviation

/-! # C48: exactly which values a logarithmic-deviation parameter has -/

namespace Verif

theorem npRintReal_of_roundsTo {x : ℝ} {n : ℕ} (h : RoundsTo x n) : npRintReal x = n := by
  obtain ⟨h1, h2⟩ := h
  rcases lt_or_eq_of_le h1 with h1 | h1
  · rw [abs_lt] at h1
    exact npRintReal_eq (by push_cast; linarith) (by push_cast; linarith)
  · have he := h2 h1
    unfold npRintReal
    have hx := Int.floor_add_fract x
    rcases abs_eq (by norm_num : (0 : ℝ) ≤ 1 / 2) |>.1 h1 with h | h
    · have hf : ⌊x⌋ = (n : ℤ) := by rw [Int.floor_eq_iff]; push_cast; constructor <;> linarith
      rw [hf] at hx ⊢
      push_cast at hx
      have hfr : Int.fract x = 1 / 2 := by linarith
      rw [hfr, if_neg (lt_irrefl _), if_neg (lt_irrefl _), if_pos]
      exact Int.even_iff.1 (by exact_mod_cast he)
    · have hf : ⌊x⌋ = (n : ℤ) - 1 := by rw [Int.floor_eq_iff]; push_cast; constructor <;> linarith
      rw [hf] at hx ⊢
      push_cast at hx
      have hfr : Int.fract x = 1 / 2 := by linarith
      have : Even (n : ℤ) := by exact_mod_cast he
      rw [hfr, if_neg (lt_irrefl _), if_neg (lt_irrefl _), if_neg]
      · ring
      · have := Int.even_iff.1 this
        omega

theorem mem_npLinspace_left {a b : ℝ} {n : ℕ} : a ∈ npLinspace a b n ↔ 1 ≤ n := by
  constructor
  · intro hm
    have := List.length_pos_of_mem hm
    rwa [length_npLinspace] at this
  · intro hn
    exact List.mem_of_mem_head? (npLinspace_head? hn)

theorem npLinspace_one (a b : ℝ) : npLinspace a b 1 = [a] := by simp [npLinspace]

theorem mem_npLinspace_right {a b : ℝ} {n : ℕ} (h : a < b) : b ∈ npLinspace a b n ↔ 2 ≤ n := by
  constructor
  · intro hm
    have h1 := List.length_pos_of_mem hm
    rw [length_npLinspace] at h1
    by_contra hc
    obtain rfl : n = 1 := by omega
    rw [npLinspace_one, List.mem_singleton] at hm
    exact h.ne' hm
  · intro hn
    exact List.mem_of_getLast? (npLinspace_last? hn)

theorem npLinspace_between {a b : ℝ} {n : ℕ} (h : a ≤ b) {x : ℝ} (hx : x ∈ npLinspace a b n) :
    a ≤ x ∧ x ≤ b := by
  refine ⟨npLinspace_mem_range h hx, ?_⟩
  unfold npLinspace at hx
  obtain ⟨i, hi, rfl⟩ := List.mem_map.1 hx
  rw [List.mem_range] at hi
  rcases Nat.lt_or_ge n 2 with hn | hn
  · obtain rfl : i = 0 := by omega
    simpa using h
  · have h1 : (2 : ℝ) ≤ n := by exact_mod_cast hn
    have h2 : (i : ℝ) + 1 ≤ n := by exact_mod_cast hi
    have h3 : (i : ℝ) * ((b - a) / ((n : ℝ) - 1)) ≤ ((n : ℝ) - 1) * ((b - a) / ((n : ℝ) - 1)) :=
      mul_le_mul_of_nonneg_right (by linarith) (div_nonneg (by linarith) (by linarith))
    rw [mul_div_cancel₀ _ (by linarith : (n : ℝ) - 1 ≠ 0)] at h3
    linarith

/-- What is behind the first value. -/
theorem mem_npLinspace_tail {a b : ℝ} {n : ℕ} (h : a < b) {x : ℝ} :
    x ∈ (npLinspace a b n).tail ↔ x ∈ npLinspace a b n ∧ a < x := by
  rcases Nat.eq_zero_or_pos n with rfl | hn
  · simp [npLinspace]
  have hh := npLinspace_head? (a := a) (b := b) hn
  have hp := npLinspace_pairwise (n := n) h
  generalize npLinspace a b n = l at hh hp
  cases l with
  | nil => simp at hh
  | cons y t =>
    obtain rfl : y = a := by simpa using hh
    rw [List.pairwise_cons] at hp
    constructor
    · exact fun hx => ⟨List.mem_cons_of_mem _ hx, hp.1 x hx⟩
    · rintro ⟨h1, h2⟩
      rcases List.mem_cons.1 h1 with rfl | h1
      · exact absurd h2 (lt_irrefl _)
      · exact h1

/-- **C48, exactly.** For every range around the prior and every number of bins, let `n` and `m` be the
shares of `bins + 1` below and above the prior, rounded. There are `n` values from the prior down and
`m - 1` above it, increasing; the prior is missing exactly when `n` is zero, `low` when `n` is at most
one, `high` when `m` is at most one. -/
theorem c48_exactly {p : FitPar} (hv : p.values = none) (hl : p.logscale ≠ some true)
    (hd : p.logDev = some true) (h1 : p.low < p.prior) (h2 : p.prior < p.high) {n m : ℕ}
    (hn : RoundsTo (p.share (p.prior - p.low)) n) (hm : RoundsTo (p.share (p.high - p.prior)) m) :
    ∃ vs, p.getValues = .ok vs ∧ (vs.filter (fun v => decide (v ≤ p.prior))).length = n ∧
      (vs.filter (fun v => decide (p.prior < v))).length = m - 1 ∧ vs.Pairwise (· < ·) ∧
      (∀ v ∈ vs, p.low ≤ v ∧ v ≤ p.high) ∧ (p.prior ∈ vs ↔ 1 ≤ n) ∧ (p.low ∈ vs ↔ 2 ≤ n) ∧
      (p.high ∈ vs ↔ 2 ≤ m) := by
  have hdl : |p.low - p.prior| = p.prior - p.low := by
    rw [abs_of_neg (by linarith)]; ring
  have hdh : |p.high - p.prior| = p.high - p.prior := abs_of_pos (by linarith)
  have hsum : p.prior - p.low + (p.high - p.prior) = p.high - p.low := by ring
  have hpos : 0 < p.high - p.low := by linarith
  have hnl := npRintReal_of_roundsTo hn
  have hnh := npRintReal_of_roundsTo hm
  unfold FitPar.share at hnl hnh
  have hL : 0 < Real.log (p.prior - p.low + 1) := Real.log_pos (by linarith)
  have hH : 0 < Real.log (p.high - p.prior + 1) := Real.log_pos (by linarith)
  set lo := (npLinspace 0 (Real.log (p.prior - p.low + 1)) n).reverse.map
    (fun d => p.prior - Real.exp d + 1) with hlo
  set hi := (npLinspace 0 (Real.log (p.high - p.prior + 1)) m).tail.map
    (fun d => p.prior + Real.exp d - 1) with hhi
  have hval : p.getValues = .ok (lo ++ hi) := by
    simp only [FitPar.getValues, hv, FitPar.genValues, if_neg hl, if_pos hd, hdl, hdh, hsum,
      if_neg hpos.ne', hnl, hnh, Int.toNat_natCast, hlo, hhi]
  have lo_mem : ∀ v, v ∈ lo ↔ ∃ d ∈ npLinspace 0 (Real.log (p.prior - p.low + 1)) n,
      p.prior - Real.exp d + 1 = v := fun v => by rw [hlo, List.mem_map]; simp only [List.mem_reverse]
  have hi_mem : ∀ v, v ∈ hi ↔ ∃ d, (d ∈ npLinspace 0 (Real.log (p.high - p.prior + 1)) m ∧ 0 < d) ∧
      p.prior + Real.exp d - 1 = v := fun v => by
    rw [hhi, List.mem_map]
    simp only [mem_npLinspace_tail hH]
  have lo_le : ∀ v ∈ lo, p.low ≤ v ∧ v ≤ p.prior := by
    intro v hv
    obtain ⟨d, hd, rfl⟩ := (lo_mem v).1 hv
    obtain ⟨d0, d1⟩ := npLinspace_between hL.le hd
    have e0 := Real.exp_le_exp.2 d0
    have e1 := Real.exp_le_exp.2 d1
    rw [Real.exp_zero] at e0
    rw [Real.exp_log (by linarith)] at e1
    constructor <;> linarith
  have hi_lt : ∀ v ∈ hi, p.prior < v ∧ v ≤ p.high := by
    intro v hv
    obtain ⟨d, ⟨hd, d0⟩, rfl⟩ := (hi_mem v).1 hv
    obtain ⟨-, d1⟩ := npLinspace_between hH.le hd
    have e0 := Real.exp_lt_exp.2 d0
    have e1 := Real.exp_le_exp.2 d1
    rw [Real.exp_zero] at e0
    rw [Real.exp_log (by linarith)] at e1
    constructor <;> linarith
  refine ⟨lo ++ hi, hval, ?_, ?_, ?_, ?_, ?_, ?_, ?_⟩
  · rw [List.filter_append, List.filter_eq_self.2 (fun v hv => by simpa using (lo_le v hv).2),
      List.filter_eq_nil_iff.2 (fun v hv => by simpa using (hi_lt v hv).1)]
    simp [hlo, length_npLinspace]
  · rw [List.filter_append, List.filter_eq_nil_iff.2 (fun v hv => by simpa using (lo_le v hv).2),
      List.filter_eq_self.2 (fun v hv => by simpa using (hi_lt v hv).1)]
    simp [hhi, length_npLinspace]
  · rw [List.pairwise_append]
    refine ⟨?_, ?_, fun a ha b hb => lt_of_le_of_lt (lo_le a ha).2 (hi_lt b hb).1⟩
    · rw [hlo, List.pairwise_map, List.pairwise_reverse]
      exact (npLinspace_pairwise hL).imp fun h => by have := Real.exp_lt_exp.2 h; linarith
    · rw [hhi, List.pairwise_map]
      exact ((npLinspace_pairwise hH).sublist (List.tail_sublist _)).imp fun h => by
        have := Real.exp_lt_exp.2 h; linarith
  · intro v hv
    rcases List.mem_append.1 hv with hv | hv
    · exact ⟨(lo_le v hv).1, by linarith [(lo_le v hv).2]⟩
    · exact ⟨by linarith [(hi_lt v hv).1], (hi_lt v hv).2⟩
  · rw [List.mem_append, or_iff_left (fun h => lt_irrefl _ (hi_lt _ h).1), lo_mem,
      ← mem_npLinspace_left (b := Real.log (p.prior - p.low + 1))]
    constructor
    · rintro ⟨d, hd, he⟩
      have : d = 0 := Real.exp_eq_one_iff d |>.1 (by linarith)
      exact this ▸ hd
    · exact fun h => ⟨0, h, by rw [Real.exp_zero]; ring⟩
  · rw [List.mem_append, or_iff_left (fun h => absurd (hi_lt _ h).1 (by linarith)), lo_mem,
      ← mem_npLinspace_right hL]
    constructor
    · rintro ⟨d, hd, he⟩
      have : d = Real.log (p.prior - p.low + 1) := by
        rw [← Real.log_exp d]; congr 1; linarith
      exact this ▸ hd
    · exact fun h => ⟨_, h, by rw [Real.exp_log (by linarith)]; ring⟩
  · rw [List.mem_append, or_iff_right (fun h => absurd (lo_le _ h).2 (by linarith)), hi_mem,
      ← mem_npLinspace_right hH]
    constructor
    · rintro ⟨d, ⟨hd, -⟩, he⟩
      have : d = Real.log (p.high - p.prior + 1) := by
        rw [← Real.log_exp d]; congr 1; linarith
      exact this ▸ hd
    · exact fun h => ⟨_, ⟨h, hH⟩, by rw [Real.exp_log (by linarith)]; ring⟩

/-- **C48, the number of values.** When both ends and the prior are among the values, there are as many
values as bins for every odd number of bins. For an even number this is so exactly when the share below
the prior does not lie half-way between two whole numbers. -/
theorem c48_count {p : FitPar} (h1 : p.low < p.prior) (h2 : p.prior < p.high) {n m : ℕ}
    (hn : RoundsTo (p.share (p.prior - p.low)) n) (hm : RoundsTo (p.share (p.high - p.prior)) m) :
    n + m = p.bins + 1 ↔ Odd p.bins ∨ ∀ k : ℕ, p.share (p.prior - p.low) ≠ k + 1 / 2 := by
  have hpos : 0 < p.high - p.low := by linarith
  have hxy : p.share (p.prior - p.low) + p.share (p.high - p.prior) = (p.bins : ℝ) + 1 := by
    unfold FitPar.share
    field_simp
    ring
  have hx0 : 0 < p.share (p.prior - p.low) :=
    mul_pos (div_pos (by linarith) hpos) (by positivity)
  generalize p.share (p.prior - p.low) = x at hn hxy hx0 ⊢
  generalize p.share (p.high - p.prior) = y at hm hxy
  obtain ⟨a1, a2⟩ := hn
  obtain ⟨b1, b2⟩ := hm
  constructor
  · intro h
    by_contra hc
    push Not at hc
    obtain ⟨he, k, hk⟩ := hc
    have hR : (n : ℝ) + m = p.bins + 1 := by exact_mod_cast h
    rw [Nat.not_odd_iff_even] at he
    have hxn : |x - n| = 1 / 2 := by
      rw [abs_le] at a1
      have c1 : (k : ℝ) ≤ n := by linarith
      have c2 : (n : ℝ) ≤ (k + 1 : ℕ) := by push_cast; linarith
      have c1' : k ≤ n := by exact_mod_cast c1
      have c2' : n ≤ k + 1 := by exact_mod_cast c2
      rcases (by omega : n = k ∨ n = k + 1) with rfl | rfl
      · rw [hk]; norm_num
      · rw [hk]; push_cast; rw [show (k : ℝ) + 1 / 2 - (k + 1) = -(1 / 2) by ring, abs_neg]; norm_num
    have hym : |y - m| = 1 / 2 := by
      rw [show y - m = -(x - n) by linarith, abs_neg, hxn]
    have e1 := Nat.even_iff.1 (a2 hxn)
    have e2 := Nat.even_iff.1 (b2 hym)
    have e3 := Nat.even_iff.1 he
    omega
  · intro h
    by_contra hc
    rw [abs_le] at a1 b1
    have r1 : (n : ℝ) + m ≤ (p.bins + 2 : ℕ) := by push_cast; linarith
    have r2 : ((p.bins : ℕ) : ℝ) ≤ ((n + m : ℕ) : ℝ) := by push_cast; linarith
    have r1' : n + m ≤ p.bins + 2 := by exact_mod_cast r1
    have r2' : p.bins ≤ n + m := by exact_mod_cast r2
    rcases (by omega : n + m = p.bins ∨ n + m = p.bins + 2) with hs | hs
    · have hR : (n : ℝ) + m = p.bins := by exact_mod_cast hs
      have ex : x - n = 1 / 2 := by linarith
      have ey : y - m = 1 / 2 := by linarith
      have e1 := Nat.even_iff.1 (a2 (by rw [ex]; norm_num))
      have e2 := Nat.even_iff.1 (b2 (by rw [ey]; norm_num))
      rcases h with h | h
      · have := Nat.odd_iff.1 h; omega
      · exact h n (by linarith)
    · have hR : (n : ℝ) + m = p.bins + 2 := by exact_mod_cast hs
      have ex : x - n = -(1 / 2) := by linarith
      have ey : y - m = -(1 / 2) := by linarith
      have e1 := Nat.even_iff.1 (a2 (by rw [ex, abs_neg]; norm_num))
      have e2 := Nat.even_iff.1 (b2 (by rw [ey, abs_neg]; norm_num))
      rcases h with h | h
      · have := Nat.odd_iff.1 h; omega
      · have hn1 : 1 ≤ n := by
          rcases Nat.eq_zero_or_pos n with rfl | h
          · push_cast at ex; linarith
          · exact h
        refine h (n - 1) ?_
        rw [Nat.cast_sub hn1]
        push_cast
        linarith

/-- Four bins from -1 to 1: two values below the prior, it and one above. -/
example : ∃ p : FitPar, p.values = none ∧ p.logscale ≠ some true ∧ p.logDev = some true ∧
    p.low < p.prior ∧ p.prior < p.high ∧ RoundsTo (p.share (p.prior - p.low)) 2 ∧
    RoundsTo (p.share (p.high - p.prior)) 2 ∧ p.bins = 4 := by
  refine ⟨FitPar.new (lit "shift") 0 (some 1) (-1) 1 4 (logDev := some true), ?_⟩
  norm_num [FitPar.new, none_eq_true, RoundsTo, FitPar.share]

/-- Seven bins with a prior close to the lower end: the lower end is not among the values. -/
example : ∃ p : FitPar, p.values = none ∧ p.logscale ≠ some true ∧ p.logDev = some true ∧
    p.low < p.prior ∧ p.prior < p.high ∧ RoundsTo (p.share (p.prior - p.low)) 1 ∧
    RoundsTo (p.share (p.high - p.prior)) 7 ∧ p.bins = 7 := by
  refine ⟨FitPar.new (lit "shift") 1 (some 1) 0 8 7 (logDev := some true), ?_⟩
  norm_num [FitPar.new, none_eq_true, RoundsTo, FitPar.share]

end Verif
