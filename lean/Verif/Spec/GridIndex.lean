import Verif.Spec.Minimise

/-! # Vocabulary of C46: negative indices -/

namespace Verif

/-- As many indices as axes, each not below minus the length of its axis and smaller than the length. -/
def WithinTwice (shape : List ℕ) (idx : List ℤ) : Prop :=
  List.Forall₂ (fun (n : ℕ) (i : ℤ) => -(n : ℤ) ≤ i ∧ i < n) shape idx

/-- Negative indices counted from the end of their axis. -/
def fromEnd (shape : List ℕ) (idx : List ℤ) : List ℕ :=
  List.zipWith (fun (n : ℕ) (i : ℤ) => if i < 0 then (i + n).toNat else i.toNat) shape idx

end Verif

namespace Verif

/-- `idx` is, on every axis, the first value that agrees with the asked one up to numpy's tolerance. -/
def FirstClose (vss : List (List ℝ)) (idx : List ℕ) (w : List ℝ) : Prop :=
  List.Forall₂ (fun (e : List ℝ × ℕ) x =>
    (∃ y, e.1[e.2]? = some y ∧ |y - x| ≤ 1 / 10 ^ 8 + 1 / 10 ^ 5 * |x|) ∧
    ∀ j < e.2, ∀ z, e.1[j]? = some z → 1 / 10 ^ 8 + 1 / 10 ^ 5 * |x| < |z - x|) (vss.zip idx) w ∧
    idx.length = vss.length

end Verif
