import Verif.Spec.FitParameter
import Verif.Spec.Minimise

/-! # Vocabulary of C157: values between the values of a grid -/

namespace Verif

/-- A parameter with two or more equally spaced values `vs` from its lower to its upper edge. -/
def FitPar.EquallySpaced (p : FitPar) (vs : List ℝ) : Prop :=
  p.getValues = .ok vs ∧ Spaced id p.low p.high p.bins vs ∧ 2 ≤ p.bins ∧ p.low < p.high

/-- `y` agrees with `x` up to numpy's tolerance. -/
def CloseTo (x y : ℝ) : Prop := |y - x| ≤ 1 / 10 ^ 8 + 1 / 10 ^ 5 * |x|

/-- The value at `i` agrees with `x` up to numpy's tolerance, or no other value of `vs` lies between it
and `x`. -/
def NextTo (vs : List ℝ) (i : ℕ) (x : ℝ) : Prop :=
  ∃ y, vs[i]? = some y ∧
    (CloseTo x y ∨ ∀ z ∈ vs, ¬ (y < z ∧ z ≤ x) ∧ ¬ (x ≤ z ∧ z < y))

/-- On every axis `idx` is the place of a value next to the asked one. -/
def AllNextTo (vss : List (List ℝ)) (idx : List ℕ) (w : List ℝ) : Prop :=
  List.Forall₂ (fun (e : List ℝ × ℕ) x => NextTo e.1 e.2 x) (vss.zip idx) w ∧ idx.length = vss.length

end Verif
