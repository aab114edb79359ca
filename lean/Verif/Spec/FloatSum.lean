import Verif.Model.FloatSum

/-! # Vocabulary of the properties of sums of bins in floating point arithmetic -/

namespace Verif

/-- `tot` adds up numbers, in some order, with a rounding after every addition. -/
def Rounding.Totals (R : Rounding) (tot : List ℚ → ℚ) : Prop :=
  ∀ l, ∃ t : SumTree, t.leaves.Perm l ∧ tot l = R.sumTree t

/-- All sums are computed so, each in an order of its own. -/
def Rounding.Sums (R : Rounding) (sm : ℕ → List ℕ → List ℚ → ℚ) : Prop :=
  ∀ i idx, R.Totals (sm i idx)

/-- The array of the absolute values. -/
def NdArray.abs (a : NdArray ℚ) : NdArray ℚ := ⟨a.shape, fun i => |a.get i|⟩

/-- The spectrum of the absolute values. -/
def Spectrum.abs (s : Spectrum) : Spectrum := { s with data := s.data.abs }

/-- Every cell of `d` is the cell of `e` up to `N` roundings of numbers of the size in `m`. -/
def Rounding.Within (R : Rounding) (N : ℕ) (d e m : NdArray ℚ) : Prop :=
  d.shape = e.shape ∧
  ∀ i, InB e.shape i → |d.get i - e.get i| ≤ ((1 + R.u) ^ N - 1) * m.get i

/-- Whole contents, altogether small enough for a float. -/
def Rounding.Counts (R : Rounding) (a : NdArray ℚ) : Prop :=
  (∀ i, InB a.shape i → IsWhole (a.get i)) ∧ a.abs.sum ≤ R.big

/-- The computed result `x` fails as the exact result `y` does, or it is right up to as many
roundings as there are bins on the axes summed over (`n` is the number of bins on all axes);
`z` is the result for the absolute values. -/
def Rounding.Accurate (R : Rounding) (n : ℕ) (x y z : Except PyErr (NdArray ℚ)) : Prop :=
  match y with
  | .error err => x = .error err
  | .ok e => ∃ d m, x = .ok d ∧ z = .ok m ∧ R.Within (n - e.shape.sum) d e m

/-- The computed result `x` fails as the exact result `y` does, or it is the same array. -/
def SameArray (x y : Except PyErr (NdArray ℚ)) : Prop :=
  match y with
  | .error err => x = .error err
  | .ok e => ∃ d, x = .ok d ∧ d.Eqv e

end Verif
