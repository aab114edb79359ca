import Verif.Spec.FitParameter

/-! # Vocabulary of C48: rounding to a whole number -/

namespace Verif

/-- `n` is `x` rounded to a whole number; half-way between two of them to the even one. -/
def RoundsTo (x : ℝ) (n : ℕ) : Prop := |x - n| ≤ 1 / 2 ∧ (|x - n| = 1 / 2 → Even n)

/-- The share `delta` of `n + 1` values of the range of a parameter from `low` to `high`. -/
noncomputable def FitPar.share (p : FitPar) (delta : ℝ) : ℝ := delta / (p.high - p.low) * ((p.bins : ℝ) + 1)

end Verif
