import Verif.Spec.Normalise
import Verif.Spec.Merge

/-! # Vocabulary of the property about limits for larger exposures -/

namespace Verif

/-- The same arguments, with the numbers of decays of the fixed backgrounds multiplied by `k`. -/
def FitArgs.exposed (a : FitArgs) (k : ℚ) : FitArgs :=
  { a with fixed := a.fixed.map (fun e => (e.1, k * e.2)) }

/-- The objects after the spectrum `d` has been scaled to `k` times its number of decays. -/
def FitState.exposed (st : FitState) (d : ℕ) (k : ℚ) : FitState :=
  st.afterScaling [(d, k * (st.view d).numDecays)]

/-- What is supposed of tested scalings: they increase, are not rounded, and none but zero is close to
zero. -/
structure ExactScales (rnd : ℝ → ℚ) (scales : List ℝ) : Prop where
  increasing : scales.Pairwise (· < ·)
  exact : ∀ x ∈ scales, x ≠ 0 → ((rnd x : ℚ) : ℝ) = x
  zero : ∀ x ∈ scales, npCloseReal x 0 → x = 0

/-- An outcome with the number multiplied by `k`. -/
def timesOutcome (k : ℝ) : Except PyErr ℝ → Except PyErr ℝ
  | .ok x => .ok (k * x)
  | .error e => .error e

end Verif
