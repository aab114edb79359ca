import Verif.Model.Float
import Verif.Spec.Float

/-!
# Sums of bins in floating point arithmetic

Adding, projecting and rebinning of `/repo/echidna/core/spectra.py` with a rounding after every
operation. numpy may add up the numbers along an axis in any order, and in another order for every
call and every cell: `sm i idx l` is the sum of the numbers `l` for the cell `idx` in the `i`-th
call of `numpy.sum`.
-/

namespace Verif

namespace NdArray

/-- `a.sum(k)` with a non-negative axis, cf. `NdArray.sumAxis`. -/
def sumAxisBy (sm : List ℕ → List ℚ → ℚ) (a : NdArray ℚ) (k : ℕ) : Except PyErr (NdArray ℚ) :=
  match a.shape[k]? with
  | none => .error .axisError
  | some n => .ok ⟨a.shape.eraseIdx k,
      fun idx => sm idx ((List.range n).map fun j => a.get (idx.insertIdx k j))⟩

/-- `a.sum(-k)` for `k ≥ 1`. -/
def sumAxisNegBy (sm : List ℕ → List ℚ → ℚ) (a : NdArray ℚ) (k : ℕ) : Except PyErr (NdArray ℚ) :=
  if k ≤ a.ndim then a.sumAxisBy sm (a.ndim - k) else .error .axisError

end NdArray

namespace Spectrum

/-- `Spectra.project`, `/repo/echidna/core/spectra.py:322-341`; cf. `Spectrum.project`. -/
def projectBy (sm : ℕ → List ℕ → List ℚ → ℚ) (s : Spectrum) (dimension : PyStr) :
    Except PyErr (NdArray ℚ) := do
  let axis ← s.getIndex dimension
  (List.range (s.cfg.length - 1)).foldlM (fun (proj : NdArray ℚ) i =>
    if axis < i + 1 then proj.sumAxisBy (sm i) 1 else proj.sumAxisBy (sm i) 0) s.data

/-- `Spectra.nd_project`, `/repo/echidna/core/spectra.py:302-320`; cf. `Spectrum.ndProject`. -/
def ndProjectBy (sm : ℕ → List ℕ → List ℚ → ℚ) (s : Spectrum) (dimensions : List PyStr) :
    Except PyErr (NdArray ℚ) := do
  let axes ← dimensions.mapM s.getIndex
  if axes.length = s.cfg.length then return s.data
  (List.range s.cfg.length).foldlM (fun (proj : NdArray ℚ) i =>
    if i ∉ axes then proj.sumAxisBy (sm i) i else pure proj) s.data

/-- `Spectra.surface`, `/repo/echidna/core/spectra.py:573-599`; cf. `Spectrum.surface`. -/
def surfaceBy (sm : ℕ → List ℕ → List ℚ → ℚ) (s : Spectrum) (d1 d2 : PyStr) :
    Except PyErr (NdArray ℚ) := do
  let a1 ← s.getIndex d1
  let a2 ← s.getIndex d2
  if s.cfg.length < a1 then throw .indexError
  if s.cfg.length < a2 then throw .indexError
  (List.range s.cfg.length).foldlM (fun (proj : NdArray ℚ) i =>
    if i ≠ a1 ∧ i ≠ a2 then proj.sumAxisBy (sm i) i else pure proj) s.data

/-- Reshape and sums of `Spectra.rebin`, `/repo/echidna/core/spectra.py:374-376`; cf.
`Spectrum.rebinData`. -/
def rebinDataBy (sm : ℕ → List ℕ → List ℚ → ℚ) (a : NdArray ℚ) (newBins : List ℕ) :
    Except PyErr (NdArray ℚ) := do
  let b ← a.reshape (compression newBins a.shape)
  (List.range newBins.length).foldlM (fun (c : NdArray ℚ) i => c.sumAxisNegBy (sm i) (i + 1)) b

/-- `Spectra.rebin`, `/repo/echidna/core/spectra.py:343-376`; cf. `Spectrum.rebin`. -/
def rebinBy (sm : ℕ → List ℕ → List ℚ → ℚ) (s : Spectrum) (newBins : List ℕ) : Outcome :=
  if newBins.length ≠ s.cfg.length then .fail s .valueError
  else
    let r := rebinLoop s.cfg newBins
    match r.2 with
    | some e => .fail { s with cfg := r.1 } e
    | none =>
      match rebinDataBy sm s.data newBins with
      | .error e => .fail { s with cfg := r.1 } e
      | .ok d => .ok { s with cfg := r.1, data := d }

/-- `Spectra.sum`, `/repo/echidna/core/spectra.py:565-571`; `tot` adds up all cells. -/
def sumBy (tot : List ℚ → ℚ) (s : Spectrum) : ℚ := tot ((allIdx s.data.shape).map s.data.get)

end Spectrum

namespace Rounding

variable (R : Rounding)

/-- `Spectra.add`, `/repo/echidna/core/spectra.py:65-138`; cf. `Spectrum.add`. The raw events are
counted exactly. -/
def addSpectrum (s t : Spectrum) : Outcome :=
  match Spectrum.addCheck s t with
  | .error e => .fail s e
  | .ok _ => .ok { s with
      data := ⟨s.data.shape, fun j => R.add (s.data.get j) (t.data.get j)⟩
      rawEvents := s.rawEvents + t.rawEvents
      numDecays := R.add s.numDecays t.numDecays }

/-- `Spectra.shrink_to_roi`, `/repo/echidna/core/spectra.py:538-563`; cf. `Spectrum.shrinkToRoi`.
`tot` and `tot'` are the two sums. -/
def shrinkToRoi (c : ℚ) (tot tot' : List ℚ → ℚ) (s : Spectrum) (lower upper : ℚ)
    (dimension : PyStr) : Outcome :=
  let integralFull := s.sumBy tot
  let o := R.shrink c s [(dimension ++ lit "_low", lower), (dimension ++ lit "_high", upper)]
  match o.err with
  | some _ => o
  | none =>
    if integralFull = 0 then .fail o.st .zeroDivision
    else
      match o.st.getPar dimension with
      | .error e => .fail o.st e
      | .ok par => .ok { o.st with
          rois := (dimension, ⟨par.low, par.high, R.div (o.st.sumBy tot') integralFull⟩) ::
            o.st.rois }

end Rounding

end Verif
