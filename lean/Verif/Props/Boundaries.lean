import Verif.Props.PlotResults

/-! # C110: bin boundaries of fit parameters -/

namespace Verif

theorem binBoundaries_linear {p : FitPar} (hp : p.Linear) (hb : 0 < p.bins) :
    p.binBoundaries = .ok (npLinspace (p.low + 1 / 2 * ((p.high - p.low) / p.bins))
      (p.high + 1 / 2 * ((p.high - p.low) / p.bins)) (p.bins + 1)) := by
  unfold FitPar.binBoundaries FitPar.width
  rw [if_neg hp.2.1, if_neg hp.2.2, if_neg (by omega)]
  rfl

/-- C110, for parameters with equally spaced values: there is one boundary more than there are bins,
the boundaries increase, and any two neighbours are one bin width apart. -/
theorem c110_linear_partial {p : FitPar} (hp : p.Linear) (hb : 0 < p.bins) (hlow : p.low < p.high) :
    ∃ bs, p.binBoundaries = .ok bs ∧ bs.length = p.bins + 1 ∧ bs.Pairwise (· < ·) ∧
      ∀ i x y, bs[i]? = some x → bs[i + 1]? = some y → y - x = (p.high - p.low) / p.bins := by
  refine ⟨_, binBoundaries_linear hp hb, length_npLinspace _ _ _, npLinspace_pairwise (by linarith),
    fun i x y hx hy => ?_⟩
  have hl : i + 1 < p.bins + 1 := by
    have := (List.getElem?_eq_some_iff.1 hy).1
    rwa [length_npLinspace] at this
  rw [npLinspace_getElem? (by omega)] at hx hy
  injection hx with hx
  injection hy with hy
  rw [← hx, ← hy]
  have : (p.bins : ℝ) ≠ 0 := by exact_mod_cast hb.ne'
  push_cast
  rw [add_sub_cancel_right]
  field_simp
  ring

/-- C110 fails for the bins: of `n` equally spaced values, those with an index below `(n - 1) / 2`
lie below the lower boundary of their bin; the first one lies in no bin at all. -/
theorem c110_linear_negation {p : FitPar} (hp : p.Linear) (hb : 2 ≤ p.bins) (hlow : p.low < p.high) :
    ∃ vs bs, p.getValues = .ok vs ∧ p.binBoundaries = .ok bs ∧
      (∀ i x b, i < p.bins → vs[i]? = some x → bs[i]? = some b →
        (x < b ↔ 2 * i < p.bins - 1)) ∧
      (∀ b ∈ bs, p.low < b) ∧ vs.head? = some p.low := by
  refine ⟨_, _, getValues_linear hp, binBoundaries_linear hp (by omega), fun i x b hi hx hbi => ?_,
    fun b hbm => ?_, npLinspace_head? (by omega)⟩
  · rw [npLinspace_getElem? (by omega)] at hx hbi
    injection hx with hx
    injection hbi with hbi
    have h2 : (2 : ℝ) ≤ p.bins := by exact_mod_cast hb
    have hn : (0 : ℝ) < (p.bins : ℝ) - 1 := by linarith
    have hn' : (0 : ℝ) < p.bins := by linarith
    have hd : 0 < p.high - p.low := by linarith
    have e : b - x = (p.high - p.low) / (2 * p.bins * ((p.bins : ℝ) - 1)) *
        (((p.bins : ℝ) - 1) - 2 * i) := by
      rw [← hx, ← hbi]
      push_cast
      rw [add_sub_cancel_right]
      field_simp
      ring
    have hpos : 0 < (p.high - p.low) / (2 * p.bins * ((p.bins : ℝ) - 1)) := by positivity
    have hcast : (2 * i < p.bins - 1) ↔ (0 : ℝ) < ((p.bins : ℝ) - 1) - 2 * i := by
      rw [sub_pos, lt_sub_iff_add_lt]
      constructor
      · intro h
        exact_mod_cast (show 2 * i + 1 < p.bins by omega)
      · intro h
        have : 2 * i + 1 < p.bins := by exact_mod_cast h
        omega
    rw [hcast, ← sub_pos, e]
    exact mul_pos_iff_of_pos_left hpos
  · have hw : 0 < (p.high - p.low) / p.bins := by
      have : (0 : ℝ) < p.bins := by exact_mod_cast (show 0 < p.bins by omega)
      exact div_pos (by linarith) this
    have := npLinspace_mem_range (by linarith) hbm
    linarith

theorem exp_pairwise {a b : ℝ} {n : ℕ} (h : a < b) :
    ((npLinspace a b n).map Real.exp).Pairwise (· < ·) := by
  rw [List.pairwise_map]
  exact (npLinspace_pairwise h).imp (fun h => Real.exp_lt_exp.2 h)

/-- C110, for logarithmic parameters with a range above one: there is one boundary more than there
are bins, the boundaries increase, and they enclose the range. -/
theorem c110_log_partial {p : FitPar} (hp : p.logscale = some true) (hb : 0 < p.bins)
    (h1 : 1 < p.low) (hlow : p.low < p.high) :
    ∃ bs, p.binBoundaries = .ok bs ∧ bs.length = p.bins + 1 ∧ bs.Pairwise (· < ·) ∧
      (∀ b, bs.head? = some b → b ≤ p.low) ∧ (∀ b, bs.getLast? = some b → p.high ≤ b) := by
  have hl0 : 0 < Real.log p.low := Real.log_pos h1
  have hh0 : Real.log p.low < Real.log p.high := Real.log_lt_log (by linarith) hlow
  have hww : Real.log (Real.log p.low) < Real.log (Real.log p.high) := Real.log_lt_log hl0 hh0
  have hw : 0 < (Real.log (Real.log p.high) - Real.log (Real.log p.low)) / p.bins := by
    have : (0 : ℝ) < p.bins := by exact_mod_cast hb
    exact div_pos (by linarith) this
  refine ⟨((npLinspace (Real.log p.low -
      1 / 2 * ((Real.log (Real.log p.high) - Real.log (Real.log p.low)) / p.bins))
      (Real.log p.high +
        1 / 2 * ((Real.log (Real.log p.high) - Real.log (Real.log p.low)) / p.bins))
      (p.bins + 1)).map Real.exp), ?_, by simp [length_npLinspace], exp_pairwise (by linarith),
      ?_, ?_⟩
  · unfold FitPar.binBoundaries
    rw [if_pos hp, if_neg (by linarith)]
    simp only
    rw [if_neg (show ¬ p.low ≤ 0 by linarith), if_neg (by push Not; constructor <;> linarith),
      if_neg (by omega)]
  · intro b hbd
    rw [List.head?_map, npLinspace_head? (by omega)] at hbd
    simp only [Option.map_some, Option.some.injEq] at hbd
    rw [← hbd, ← Real.le_log_iff_exp_le (by linarith)]
    linarith
  · intro b hbd
    rw [List.getLast?_map, npLinspace_last? (by omega)] at hbd
    simp only [Option.map_some, Option.some.injEq] at hbd
    rw [← hbd, ← Real.log_le_iff_le_exp (by linarith)]
    linarith

/-- C110 fails for logarithmic parameters that start at one or below: the boundaries are not
numbers. -/
theorem c110_log_negation {p : FitPar} (hp : p.logscale = some true) (h1 : p.low ≤ 1) :
    p.binBoundaries = .error .valueError := by
  unfold FitPar.binBoundaries
  rw [if_pos hp]
  split
  · rfl
  · simp only
    rw [if_pos ?_]
    by_cases h0 : p.low ≤ 0
    · rw [if_pos h0]
      rcases le_total (Real.log p.high) 0 with h | h
      · exact Or.inl h
      · exact Or.inr (by linarith)
    · rw [if_neg h0]
      exact Or.inr (Real.log_nonpos (not_le.1 h0).le h1)

/-- C110 fails for parameters on the scale of logarithmic deviations with an even number of bins:
there are only as many boundaries as bins. -/
theorem c110_deviation_negation {p : FitPar} (hp : p.logscale ≠ some true)
    (hd : p.logDev = some true) (hb : 2 ≤ p.bins) (he : p.bins % 2 = 0) (hh : p.prior < p.high) :
    ∃ bs, p.binBoundaries = .ok bs ∧ bs.length = p.bins := by
  unfold FitPar.binBoundaries
  rw [if_neg hp, if_pos hd]
  simp only
  rw [if_neg (by linarith), if_neg (by omega)]
  refine ⟨_, rfl, ?_⟩
  simp [length_npLinspace]
  omega

/-- C110 is not vacuous. -/
example : exSpaced.Linear ∧ 2 ≤ exSpaced.bins ∧ exSpaced.low < exSpaced.high ∧
    (∃ p : FitPar, p.logscale = some true ∧ 0 < p.bins ∧ 1 < p.low ∧ p.low < p.high) ∧
    (∃ p : FitPar, p.logscale ≠ some true ∧ p.logDev = some true ∧ p.bins = 4 ∧
      p.prior < p.high) := by
  refine ⟨⟨rfl, by simp [exSpaced], by simp [exSpaced]⟩, by simp [exSpaced], by norm_num [exSpaced],
    ⟨{ exSpaced with logscale := some true, low := 2, high := 8 }, rfl, by simp [exSpaced], ?_, ?_⟩,
    ⟨{ exSpaced with logDev := some true, bins := 4 }, by simp [exSpaced], rfl, rfl, ?_⟩⟩ <;>
    norm_num [exSpaced]

end Verif
