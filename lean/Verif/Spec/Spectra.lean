import Verif.Model.Spectra

/-!
# Vocabulary of the properties of spectra

Only the data types of the model are used here, none of its functions.
-/

namespace Verif

/-- An axis a user can build: at least one bin and a range of positive length. -/
def SPar.WF (p : SPar) : Prop := 0 < p.bins ∧ p.low < p.high

/-- Lower edge of bin `i` (the upper edge of bin `i` is `p.edge (i + 1)`). -/
def SPar.edge (p : SPar) (i : ℤ) : ℚ := p.low + i * ((p.high - p.low) / p.bins)

/-- Bin `i` exists and contains the value `x`: lower edge included, upper edge not. -/
def InCell (p : SPar) (x : ℚ) (i : ℕ) : Prop :=
  (i : ℤ) < p.bins ∧ p.edge i ≤ x ∧ x < p.edge (i + 1)

/-- A usable spectrum: usable axes with distinct names, and stored data of the shape
given by the bin counts. -/
structure Spectrum.WF (s : Spectrum) : Prop where
  axes : ∀ p ∈ s.cfg, p.WF
  names : (s.cfg.map SPar.name).Nodup
  shape : s.data.shape.map (fun n : ℕ => (n : ℤ)) = s.cfg.map SPar.bins

/-- Keyword arguments: a dictionary, no key twice. -/
def IsDict {α : Type} (kw : List (PyStr × α)) : Prop := (kw.map Prod.fst).Nodup

/-- The keyword coordinates name exactly the parameters of the spectrum and lie in range. -/
def InRange (s : Spectrum) (kw : List (PyStr × ℚ)) : Prop :=
  (∀ e ∈ kw, ∃ p ∈ s.cfg, p.name = e.1) ∧
  ∀ p ∈ s.cfg, ∃ x, (p.name, x) ∈ kw ∧ p.low ≤ x ∧ x < p.high

/-- `idx` is the cell of the spectrum that contains the point `kw`. -/
def CellOf (s : Spectrum) (kw : List (PyStr × ℚ)) (idx : List ℕ) : Prop :=
  List.Forall₂ (fun p i => ∃ x, (p.name, x) ∈ kw ∧ InCell p x i) s.cfg idx

/-- Everything but the stored array is the same. -/
def SameButData (s t : Spectrum) : Prop :=
  t.name = s.name ∧ t.cfg = s.cfg ∧ t.numDecays = s.numDecays ∧
  t.rawEvents = s.rawEvents ∧ t.rois = s.rois

end Verif

namespace Verif

/-- `d` is the dimension part of the parameter name `n`: everything before the last
underscore, empty when there is none. -/
def HasDim (n d : PyStr) : Prop :=
  (∃ t, '_' ∉ t ∧ n = d ++ '_' :: t) ∨ ('_' ∉ n ∧ d = [])

/-- Two axes agree up to numpy's tolerance relative to the second one. -/
def AxesClose (p q : SPar) : Prop :=
  |p.high - q.high| ≤ 1 / 10 ^ 8 + 1 / 10 ^ 5 * |q.high| ∧
  |p.low - q.low| ≤ 1 / 10 ^ 8 + 1 / 10 ^ 5 * |q.low| ∧ p.bins = q.bins

end Verif

namespace Verif

/-- The entries of `l` whose axis name is one of `dims` (in the order of the axes). -/
def pick (dims : List PyStr) : List PyStr → List ℕ → List ℕ
  | n :: ns, a :: l => if n ∈ dims then a :: pick dims ns l else pick dims ns l
  | _, _ => []

/-- `b` is the projection of the spectrum onto the parameters `dims`: its axes are the
axes of these parameters, and each entry is the sum of all cells of the spectrum with
these indices. -/
def IsProjection (s : Spectrum) (dims : List PyStr) (b : NdArray ℚ) : Prop :=
  b.shape = pick dims (s.cfg.map SPar.name) s.data.shape ∧
  ∀ idx, InB b.shape idx → b.get idx =
    sumIdx s.data.shape (fun full =>
      if pick dims (s.cfg.map SPar.name) full = idx then s.data.get full else 0)

end Verif

namespace Verif

/-- `b` is `a` rebinned to `newBins`: the cell with indices `full` of `a` goes to the cell
whose index on each axis is `full / k`, where `k` is the number of old bins per new bin. -/
def IsRebin (a : NdArray ℚ) (newBins : List ℕ) (b : NdArray ℚ) : Prop :=
  b.shape = newBins ∧ ∀ idx, InB newBins idx → b.get idx =
    sumIdx a.shape (fun full =>
      if List.zipWith (· / ·) full (List.zipWith (· / ·) a.shape newBins) = idx
      then a.get full else 0)

/-- The same spectrum: equal fields, equal shape and equal cells. -/
def Spectrum.Eqv (s t : Spectrum) : Prop := SameButData s t ∧ s.data.Eqv t.data

end Verif

namespace Verif

/-- The lower edge of the axis is an integer multiple of the bin width. -/
def SPar.Aligned (p : SPar) : Prop := ∃ m : ℤ, p.low = m * ((p.high - p.low) / p.bins)

/-- The axis restricted to the bins `r.1 ≤ i < r.2`. -/
def subAxis (p : SPar) (r : ℕ × ℕ) : SPar :=
  { p with low := p.edge r.1, high := p.edge r.2, bins := (r.2 : ℤ) - r.1 }

/-- Everything but the data and the axes is the same. -/
def SameMeta (s t : Spectrum) : Prop :=
  t.name = s.name ∧ t.numDecays = s.numDecays ∧ t.rawEvents = s.rawEvents ∧ t.rois = s.rois

/-- The data of `t` are the cells of `s` with index range `rs` on the axes. -/
def IsSlice (s : Spectrum) (rs : List (ℕ × ℕ)) (t : Spectrum) : Prop :=
  t.data.shape = rs.map (fun r => r.2 - r.1) ∧
  ∀ idx, InB t.data.shape idx →
    t.data.get idx = s.data.get (List.zipWith (fun r i => r.1 + i) rs idx)

/-- `t` is the part of `s` given by the bin ranges `rs`: the same cells, and axes with the
edges of these ranges. -/
def IsSub (s : Spectrum) (rs : List (ℕ × ℕ)) (t : Spectrum) : Prop :=
  IsSlice s rs t ∧ t.cfg = List.zipWith subAxis s.cfg rs ∧ SameMeta s t

/-- Keyword `key` asks for `v`, or is absent and `v` is the default. -/
def Asked (kw : List (PyStr × ℚ)) (key : PyStr) (dflt v : ℚ) : Prop :=
  (key, v) ∈ kw ∨ ((∀ v', (key, v') ∉ kw) ∧ v = dflt)

/-- Every keyword is a parameter name followed by `_low` or `_high`. -/
def BoundKeys (s : Spectrum) (kw : List (PyStr × ℚ)) : Prop :=
  ∀ e ∈ kw, ∃ p ∈ s.cfg, e.1 = p.name ++ lit "_low" ∨ e.1 = p.name ++ lit "_high"

/-- The keywords ask on every axis for the bin edges given by `rs`. -/
def AsksEdges (s : Spectrum) (kw : List (PyStr × ℚ)) (rs : List (ℕ × ℕ)) : Prop :=
  IsDict kw ∧ BoundKeys s kw ∧
  List.Forall₂ (fun (p : SPar) (r : ℕ × ℕ) => r.1 ≤ r.2 ∧ (r.2 : ℤ) ≤ p.bins ∧
    Asked kw (p.name ++ lit "_low") p.low (p.edge r.1) ∧
    Asked kw (p.name ++ lit "_high") p.high (p.edge r.2)) s.cfg rs

/-- The keywords ask on every axis for bounds in range and in order. -/
def AsksOrdered (s : Spectrum) (kw : List (PyStr × ℚ)) : Prop :=
  IsDict kw ∧ BoundKeys s kw ∧
  ∀ p ∈ s.cfg, ∃ kl kh, Asked kw (p.name ++ lit "_low") p.low kl ∧
    Asked kw (p.name ++ lit "_high") p.high kh ∧ p.low ≤ kl ∧ kl ≤ kh ∧ kh ≤ p.high

/-- The keyword is a parameter name followed by `_low` or `_high`, and the bound is in
range on its side, up to the tolerance of `numpy.isclose`. -/
def BoundAccepted (s : Spectrum) (e : PyStr × ℚ) : Prop :=
  ∃ p ∈ s.cfg,
    (e.1 = p.name ++ lit "_low" ∧
      (|e.2 - p.low| ≤ 1 / 10 ^ 8 + 1 / 10 ^ 5 * |p.low| ∨ p.low ≤ e.2)) ∨
    (e.1 = p.name ++ lit "_high" ∧
      (|e.2 - p.high| ≤ 1 / 10 ^ 8 + 1 / 10 ^ 5 * |p.high| ∨ e.2 ≤ p.high))

end Verif
