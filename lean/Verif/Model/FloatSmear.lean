import Verif.Model.Float
import Verif.Model.Smear

/-!
# Weighted smearing in floating point arithmetic

`weighted_smear` of the three classes of `/repo/echidna/core/smear.py` with a rounding after every
operation; cf. `Spectrum.weightedSmear`. `sigma` and `weight` are arbitrary functions, so their own
rounding errors are included.
-/

namespace Verif

namespace Rounding

variable (R : Rounding)

/-- `Smear.get_bin_mean`, `/repo/echidna/core/smear.py:52-63`. -/
def binMean (p : SPar) (i : ℕ) : ℚ := R.add p.low (R.mul (R.add i (1 / 2)) (R.width p))

/-- `Smear.get_bounds`, `/repo/echidna/core/smear.py:89-103`, and the rounding and clipping to
the axis, 253-264 (`EnergySmearLY`), 501-512 (`EnergySmearRes`), 719-730 (`RadialSmear`). -/
def smearWindow (p : SPar) (ns sg mean : ℚ) : ℚ × ℚ :=
  let half := R.mul (1 / 2) (R.width p)
  let low := R.add (R.round p (R.sub (R.sub mean (R.mul ns sg)) half)) half
  let high := R.add (R.round p (R.add (R.add mean (R.mul ns sg)) half)) half
  (if low < p.low then R.add p.low half else low,
   if p.high < high then R.sub p.high half else high)

/-- The points that get a weight: `numpy.arange(low, high, widths[i])`,
`/repo/echidna/core/smear.py:266`, 514, 732. -/
def smearPoints (p : SPar) (ns sg mean : ℚ) : List ℚ :=
  R.arange (R.smearWindow p ns sg mean).1 (R.smearWindow p ns sg mean).2 (R.width p)

/-- The keyword dictionary of a fill: bin centres, but `x` on axis `k`,
`/repo/echidna/core/smear.py:251`, 274-281 and likewise in the other classes. -/
def smearKw (cfg : List SPar) (k : ℕ) (idx : List ℕ) (x : ℚ) : List (PyStr × ℚ) :=
  (List.zipWith (fun p i => (p.name, R.binMean p i)) cfg idx).modify k (fun e => (e.1, x))

/-- A fill whose exception is passed on. -/
def fillOrRaise (acc : Spectrum) (w : ℚ) (kw : List (PyStr × ℚ)) : Except PyErr Spectrum :=
  match (R.fill acc w kw).err with
  | some e => .error e
  | none => .ok (R.fill acc w kw).st

/-- Loop body of `weighted_smear` for one cell, `/repo/echidna/core/smear.py:243-282`
(491-530, 709-744); `tot` is python's `sum` of the weights. A zero total weight makes the contents
nan in python. -/
def smearCell (tot : List ℚ → ℚ) (sigma : ℚ → ℚ) (weight : ℚ → ℚ → ℚ → ℚ) (ns : ℚ) (s : Spectrum)
    (k : ℕ) (p : SPar) (acc : Spectrum) (idx : List ℕ) : Except PyErr Spectrum :=
  let entries := s.data.get idx
  if entries = 0 then .ok acc
  else
    let mean := R.binMean p (idx.getD k 0)
    let sg := sigma mean
    let pts := R.smearPoints p ns sg mean
    let total := tot (pts.map (fun x => weight x mean sg))
    if pts ≠ [] ∧ total = 0 then .error .zeroDivision
    else pts.foldlM (fun acc x =>
      R.fillOrRaise acc (R.div (R.mul entries (weight x mean sg)) total)
        (R.smearKw s.cfg k idx x)) acc

/-- `weighted_smear`, `/repo/echidna/core/smear.py:209-284` (`EnergySmearLY`), 457-532
(`EnergySmearRes`), 674-746 (`RadialSmear`). -/
def weightedSmear (suffix : PyStr) (tot : List ℚ → ℚ) (sigma : ℚ → ℚ) (weight : ℚ → ℚ → ℚ → ℚ)
    (ns : ℚ) (s : Spectrum) (par : PyStr) : Except PyErr Spectrum := do
  if par ∉ s.pars then throw .indexError
  let k ← s.getIndex par
  if s.cfg.any (fun p => p.bins = 0) then throw .zeroDivision
  let p ← s.getPar par
  (allIdx (s.cfg.map (fun p => p.bins.toNat))).foldlM (R.smearCell tot sigma weight ns s k p)
    { s with name := s.name ++ suffix, data := .zeros s.data.shape }

end Rounding

end Verif
