import Verif.Model.Base
import Mathlib.Algebra.BigOperators.Group.Finset.Basic
import Mathlib.Algebra.BigOperators.Intervals
import Mathlib.Data.List.InsertIdx

/-!
# numpy arrays

A numpy array is a shape and a function from index lists. Only the entries at
in-range index lists are meaningful (`NdArray.Eqv`). These definitions model
numpy itself, as far as the repository uses it.
-/

namespace Verif

open Finset

/-- A numpy array with entries in `α`. -/
structure NdArray (α : Type) where
  /-- `a.shape` -/
  shape : List ℕ
  /-- `a[idx]` for in-range `idx` -/
  get : List ℕ → α

/-- The index list is in range for the shape. -/
def InB (shape idx : List ℕ) : Prop := List.Forall₂ (· < ·) idx shape

instance : (shape idx : List ℕ) → Decidable (InB shape idx) :=
  fun _ _ => by unfold InB; infer_instance

/-- Sum of `f` over all in-range index lists. -/
def sumIdx {α : Type} [AddCommMonoid α] : List ℕ → (List ℕ → α) → α
  | [], f => f []
  | n :: s, f => ∑ i ∈ range n, sumIdx s (fun idx => f (i :: idx))

/-- Row-major list of all in-range index lists (`itertools.product` of ranges,
and the order of `numpy.ndarray.ravel`). -/
def allIdx : List ℕ → List (List ℕ)
  | [] => [[]]
  | n :: s => (List.range n).flatMap (fun i => (allIdx s).map (i :: ·))

/-- Row-major flat index of an index list. -/
def ravelIdx : List ℕ → List ℕ → ℕ
  | [], _ => 0
  | _ :: _, [] => 0
  | _ :: s, i :: idx => i * s.prod + ravelIdx s idx

/-- `numpy.unravel_index`: index list of a row-major flat index. -/
def unravelIdx : List ℕ → ℕ → List ℕ
  | [], _ => []
  | _ :: s, k => (k / s.prod) :: unravelIdx s (k % s.prod)

namespace NdArray

variable {α : Type}

/-- Equality of arrays: same shape and same entries in range. -/
def Eqv (a b : NdArray α) : Prop :=
  a.shape = b.shape ∧ ∀ idx, InB a.shape idx → a.get idx = b.get idx

/-- `len(a.shape)` -/
def ndim (a : NdArray α) : ℕ := a.shape.length

/-- `a.sum()` -/
def sum [AddCommMonoid α] (a : NdArray α) : α := sumIdx a.shape a.get

/-- `numpy.zeros(shape)` -/
def zeros [Zero α] (shape : List ℕ) : NdArray α := ⟨shape, fun _ => 0⟩

/-- `a.sum(k)` with a non-negative axis: numpy raises if `k` is not an axis. -/
def sumAxis [AddCommMonoid α] (a : NdArray α) (k : ℕ) : Except PyErr (NdArray α) :=
  match a.shape[k]? with
  | none => .error .axisError
  | some n =>
    .ok ⟨a.shape.eraseIdx k, fun idx => ∑ j ∈ range n, a.get (idx.insertIdx k j)⟩

/-- `a.sum(-k)` for `k ≥ 1`. -/
def sumAxisNeg [AddCommMonoid α] (a : NdArray α) (k : ℕ) : Except PyErr (NdArray α) :=
  if k ≤ a.ndim then a.sumAxis (a.ndim - k) else .error .axisError

/-- `a.reshape(shape)`: row-major; numpy raises a `ValueError` when the sizes differ. -/
def reshape (a : NdArray α) (shape : List ℕ) : Except PyErr (NdArray α) :=
  if shape.prod = a.shape.prod then
    .ok ⟨shape, fun idx => a.get (unravelIdx a.shape (ravelIdx shape idx))⟩
  else .error .valueError

/-- `a[idx] += w` -/
def addAt [Add α] (a : NdArray α) (idx : List ℕ) (w : α) : NdArray α :=
  ⟨a.shape, fun j => if j = idx then a.get j + w else a.get j⟩

/-- `a * c` -/
def smul [Mul α] (a : NdArray α) (c : α) : NdArray α := ⟨a.shape, fun j => a.get j * c⟩

/-- `a + b` for arrays of the same shape -/
def add [Add α] (a b : NdArray α) : NdArray α := ⟨a.shape, fun j => a.get j + b.get j⟩

/-- One-dimensional slice bounds `lo:hi` on an axis of length `n`, for
`lo, hi` as python slice bounds (negative ones count from the end, all are
clipped); returns start and length. -/
def sliceBounds (n : ℕ) (lo hi : ℤ) : ℕ × ℕ :=
  let clip := fun (x : ℤ) => if x < 0 then (x + n).toNat else min x.toNat n
  (clip lo, clip hi - clip lo)

/-- `a[lo0:hi0, lo1:hi1, ...]`, one pair of bounds per axis. -/
def slice (a : NdArray α) (b : List (ℤ × ℤ)) : NdArray α :=
  let se := List.zipWith (fun n (p : ℤ × ℤ) => sliceBounds n p.1 p.2) a.shape b
  ⟨se.map Prod.snd, fun idx => a.get (List.zipWith (fun (p : ℕ × ℕ) i => p.1 + i) se idx)⟩

end NdArray

end Verif
