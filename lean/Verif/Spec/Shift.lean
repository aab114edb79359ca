import Verif.Spec.Spectra

/-!
# Vocabulary of the properties of shifting and scaling an axis
-/

namespace Verif

/-- No cell is negative. -/
def NonNeg (a : NdArray ℚ) : Prop := ∀ idx, InB a.shape idx → 0 ≤ a.get idx

/-- Sum of all cells whose index on axis `k` is `j`. -/
def axisTotal (a : NdArray ℚ) (k j : ℕ) : ℚ :=
  sumIdx a.shape (fun idx => if idx[k]? = some j then a.get idx else 0)

/-- `b` is `a` with every slice along axis `k` moved up by `m` bins (down if `m` is negative);
vacated cells are zero. -/
def Moved (a b : NdArray ℚ) (k : ℕ) (m : ℤ) : Prop :=
  b.shape = a.shape ∧ ∀ n, a.shape[k]? = some n → ∀ idx (i : ℕ), InB a.shape idx →
    idx[k]? = some i → b.get idx =
      if 0 ≤ (i : ℤ) - m ∧ (i : ℤ) - m < n then a.get (idx.set k ((i : ℤ) - m).toNat) else 0

/-- Everything but the name and the stored array is the same. -/
def SameButNameData (s t : Spectrum) : Prop :=
  t.cfg = s.cfg ∧ t.numDecays = s.numDecays ∧ t.rawEvents = s.rawEvents ∧ t.rois = s.rois

/-- Centre of bin `i`. -/
def SPar.centre (p : SPar) (i : ℕ) : ℚ := (p.edge i + p.edge (i + 1)) / 2

/-- `c` is the point at which the interpolation is read for the position `x`: `x` itself
when it lies between the first and the last bin centre, else at most half a bin (and
`1e-6`) away. -/
def ReadAt (p : SPar) (x c : ℚ) : Prop :=
  (p.low + (p.high - p.low) / p.bins / 2 ≤ x → x ≤ p.high - (p.high - p.low) / p.bins / 2 → c = x) ∧
  |c - x| ≤ (p.high - p.low) / p.bins / 2 + 1 / 10 ^ 6

/-! ### where the contents of a slice come from -/

/-- Area under `f` between two points by the trapezium rule. -/
def trapArea (f : ℚ → ℚ) (a b : ℚ) : ℚ := |(b - a) * (f a + f b) / 2|

/-- The source bins of a bin that was centred at `c` before the shift, with the areas under `f` of
its overlaps with them: `c` lies in bin `j`, and `j'` is the neighbour on the side of `c`. Next to
the last (first) bin centre the overlap with bin `j` is cut there. Where there is no neighbour,
everything is from bin `j`. -/
inductive SourceBins (p : SPar) (f : ℚ → ℚ) (c : ℚ) : ℕ → ℕ → ℚ → ℚ → Prop
  | below (j : ℕ) (h : c < p.centre (j + 1)) (x : ℚ)
      (hx : x = if p.high - p.width / 2 < c + p.width / 2 then p.high - p.width / 2 - 1 / 10 ^ 6
        else c + p.width / 2) :
      SourceBins p f c (j + 1) j (trapArea f (p.edge ((j : ℤ) + 1)) x)
        (trapArea f (c - p.width / 2) (p.edge ((j : ℤ) + 1)))
  | above (j : ℕ) (h : p.centre j ≤ c) (hj : (j : ℤ) + 1 < p.bins) (x : ℚ)
      (hx : x = if c - p.width / 2 < p.low + p.width / 2 then p.low + p.width / 2
        else c - p.width / 2) :
      SourceBins p f c j (j + 1) (trapArea f x (p.edge ((j : ℤ) + 1)))
        (trapArea f (p.edge ((j : ℤ) + 1)) (c + p.width / 2))
  | first (h : c < p.centre 0) : SourceBins p f c 0 0 1 0
  | last (j : ℕ) (h : p.centre j ≤ c) (hj : (j : ℤ) + 1 = p.bins) : SourceBins p f c j j 1 0

/-- The contents of the cell `idx`, moved along axis `k` to bin `j`, as a fraction of the contents of
the slice. -/
def cellShare (a : NdArray ℚ) (k j : ℕ) (idx : List ℕ) : ℚ := a.get (idx.set k j) / axisTotal a k j

/-- The mixture of the shares of two slices with weights proportional to the areas; only slices
with positive contents count. -/
def mixture (a : NdArray ℚ) (k j j' : ℕ) (A A' : ℚ) (idx : List ℕ) : ℚ :=
  if A = 0 ∧ A' = 0 then 0
  else if axisTotal a k j ≤ 0 ∧ axisTotal a k j' ≤ 0 then 0
  else if axisTotal a k j ≤ 0 then cellShare a k j' idx
  else if axisTotal a k j' ≤ 0 then cellShare a k j idx
  else (A * cellShare a k j idx + A' * cellShare a k j' idx) / (A + A')

/-- Contents of the cells of a slice whose centre was at `x`: nothing if that is out of range or
the interpolation is not positive there, else the interpolation times the mixture of the source
bins. -/
def FilledFrom (a : NdArray ℚ) (k : ℕ) (p : SPar) (f : ℚ → ℚ) (x : ℚ) (cell : List ℕ → ℚ) : Prop :=
  ((x < p.low ∨ p.high ≤ x) ∧ ∀ idx, cell idx = 0) ∨
  (p.low ≤ x ∧ x < p.high ∧ ∃ c, ReadAt p x c ∧
    ((f c ≤ 0 ∧ ∀ idx, cell idx = 0) ∨
     (0 < f c ∧ ∃ j j' A A', InCell p c j ∧ SourceBins p f c j j' A A' ∧
      ∀ idx, cell idx = f c * mixture a k j j' A A' idx)))

/-- The contents are a product of a function of the index on axis `k` and one of the other
indices. -/
def Separable (a : NdArray ℚ) (k : ℕ) (g : ℕ → ℚ) (h : List ℕ → ℚ) : Prop :=
  ∀ idx i, InB a.shape idx → idx[k]? = some i → a.get idx = g i * h (idx.eraseIdx k)

end Verif
