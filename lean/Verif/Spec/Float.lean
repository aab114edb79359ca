import Verif.Model.Float
import Verif.Spec.Spectra

/-! # Vocabulary of the properties of spectra in floating point arithmetic -/

namespace Verif

/-- `b` assigns bins on the axis `p`, right up to a distance `tol` from the edges. The value `p.bins`
stands for a point just below the upper end that was taken to be beyond the last bin. -/
structure BinRule (p : SPar) (tol : ℚ) (b : ℚ → ℤ) : Prop where
  first : b p.low = 0
  range : ∀ x, p.low ≤ x → x < p.high → 0 ≤ b x ∧ b x ≤ p.bins
  mono : ∀ x y, p.low ≤ x → x ≤ y → y < p.high → b x ≤ b y
  near : ∀ x, p.low ≤ x → x < p.high → p.edge (b x) - tol ≤ x ∧ x < p.edge (b x + 1) + tol

/-- The point is further than `tol` from all edges of the axis but the lowest. -/
def ClearOfEdges (p : SPar) (tol x : ℚ) : Prop := ∀ k : ℤ, 1 ≤ k → k ≤ p.bins → tol < |x - p.edge k|

/-- The numbers at the leaves of the tree. -/
def SumTree.leaves : SumTree → List ℚ
  | .zero => []
  | .leaf x => [x]
  | .node l r => l.leaves ++ r.leaves

/-- The lower edge of the axis is a whole number of bin widths up to `δ` widths, and the numbers of
widths in question times `u` are at most `κ`. -/
def AlignedUpTo (p : SPar) (u δ κ : ℚ) : Prop :=
  ∃ m : ℤ, |p.low - m * ((p.high - p.low) / p.bins)| ≤ δ * ((p.high - p.low) / p.bins) ∧
    (|(m : ℚ)| + p.bins) * u ≤ κ

/-- The keywords ask on every axis for the bin edges given by `rs`, up to `δ` bin widths. -/
def AsksNear (s : Spectrum) (kw : List (PyStr × ℚ)) (rs : List (ℕ × ℕ)) (δ : ℚ) : Prop :=
  IsDict kw ∧ (∀ e ∈ kw, BoundAccepted s e) ∧
  List.Forall₂ (fun (p : SPar) (r : ℕ × ℕ) => r.1 ≤ r.2 ∧ (r.2 : ℤ) ≤ p.bins ∧
    ∃ kl kh, Asked kw (p.name ++ lit "_low") p.low kl ∧ Asked kw (p.name ++ lit "_high") p.high kh ∧
      |kl - p.edge r.1| ≤ δ * ((p.high - p.low) / p.bins) ∧
      |kh - p.edge r.2| ≤ δ * ((p.high - p.low) / p.bins)) s.cfg rs

/-- The axis `q` is the part `r` of the axis `p`, with edges that are right up to `ε` bin widths. -/
def SubAxisUpTo (ε : ℚ) (p : SPar) (r : ℕ × ℕ) (q : SPar) : Prop :=
  q.name = p.name ∧ q.bins = (r.2 : ℤ) - r.1 ∧
  |q.low - p.edge r.1| ≤ ε * ((p.high - p.low) / p.bins) ∧
  |q.high - p.edge r.2| ≤ ε * ((p.high - p.low) / p.bins)

/-- A whole number. -/
def IsWhole (x : ℚ) : Prop := ∃ n : ℤ, x = n

end Verif
