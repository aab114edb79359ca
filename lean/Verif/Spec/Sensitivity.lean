import Verif.Spec.LimitWhole

/-!
# Specification of expected limits

The data that stand for the expected background, and minima over the values of a grid.
-/

namespace Verif

/-- The contents of the region (`c q` those of the spectrum `q`) after the data `d` have been filled up
with the fixed backgrounds, scaled to the given decays, and the floating ones, scaled to the `rates`. -/
def FitArgs.filledUp (a : FitArgs) (st : FitState) (c : ℕ → NdArray ℚ) (d : ℕ) (rates : List ℚ) :
    NdArray ℚ := ⟨(c d).shape, fun idx => (c d).get idx + a.sumAt st rates c idx⟩

/-- `m` is the smallest value of `F` over all combinations of values. -/
def SmallestOf (vss : List (List ℝ)) (F : List ℝ → ℝ) (m : ℝ) : Prop :=
  (∃ u, Combination vss u ∧ F u = m) ∧ ∀ u, Combination vss u → m ≤ F u

end Verif
