import Verif.Model.Decay

/-!
# Specification of the decay conversions
-/

namespace Verif

/-- `N` is the number of atoms a conversion uses: the argument, or by default the
number computed for the isotope. -/
def DBIsotope.Atoms (c : DecayConst) (s : DBIsotope) (n : Option ℝ) (N : ℝ) : Prop :=
  n = some N ∨ (n = none ∧ s.getNAtoms c = .ok N)

/-- The call `f` gives `y` at `x`, and `g` takes `y` back to `x`. -/
def Inverts (f g : ℝ → Except PyErr ℝ) (x : ℝ) : Prop :=
  ∃ y, 0 < y ∧ f x = .ok y ∧ g y = .ok x

/-- Larger positive arguments give larger results. -/
def Increases (f : ℝ → Except PyErr ℝ) : Prop :=
  ∀ x x', 0 < x → x < x' → ∃ y y', f x = .ok y ∧ f x' = .ok y' ∧ y < y'

/-- Larger positive arguments give smaller results. -/
def Decreases (f : ℝ → Except PyErr ℝ) : Prop :=
  ∀ x x', 0 < x → x < x' → ∃ y y', f x = .ok y ∧ f x' = .ok y' ∧ y' < y

end Verif
