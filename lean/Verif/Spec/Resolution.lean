import Mathlib.Analysis.SpecialFunctions.Trigonometric.Basic
import Mathlib.Data.Nat.Factorial.Basic

/-! # Vocabulary for smearing weights: textbook densities -/

namespace Verif

/-- Density at `x` of the normal distribution with the given mean and standard deviation. -/
noncomputable def normalDensity (mean sigma x : ℝ) : ℝ :=
  1 / (sigma * √(2 * Real.pi)) * Real.exp (-((x - mean) / sigma) ^ 2 / 2)

/-- Probability of `n` in the Poisson distribution of mean `l`. -/
noncomputable def poissonProb (l : ℝ) (n : ℕ) : ℝ := Real.exp (-l) * l ^ n / n.factorial

end Verif
