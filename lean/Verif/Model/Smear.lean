import Verif.Model.Shift

/-!
# `echidna/core/smear.py`

The three classes share the loops; they differ in `get_sigma` and in the weight function,
which are parameters here (`sigma mean`, `weight x mean sigma`), arbitrary rational-valued
functions. `suffix` is what is appended to the name.
-/

namespace Verif

/-- `numpy.arange(lo, hi, step)` for a positive step. -/
def npArange (lo hi step : ℚ) : List ℚ :=
  (List.range ⌈(hi - lo) / step⌉.toNat).map (fun i : ℕ => lo + i * step)

/-- `Smear.get_bin_mean`, `/repo/echidna/core/smear.py:52-63`. -/
def binMean (p : SPar) (i : ℕ) : ℚ := p.low + (i + 1 / 2) * p.width

/-- `Smear.get_bounds`, `/repo/echidna/core/smear.py:89-103`, and the rounding and clipping to
the axis, 253-264 (`EnergySmearLY`), 501-512 (`EnergySmearRes`), 719-730 (`RadialSmear`). -/
def smearWindow (p : SPar) (ns sg mean : ℚ) : ℚ × ℚ :=
  let w := p.width
  let low := p.round (mean - ns * sg - 1 / 2 * w) + 1 / 2 * w
  let high := p.round (mean + ns * sg + 1 / 2 * w) + 1 / 2 * w
  (if low < p.low then p.low + 1 / 2 * w else low,
   if p.high < high then p.high - 1 / 2 * w else high)

/-- The points that get a weight: `numpy.arange(low, high, widths[i])`,
`/repo/echidna/core/smear.py:266`, 514, 732. -/
def smearPoints (p : SPar) (ns sg mean : ℚ) : List ℚ :=
  npArange (smearWindow p ns sg mean).1 (smearWindow p ns sg mean).2 p.width

/-- The keyword dictionary of a fill: bin centres, but `x` on axis `k`,
`/repo/echidna/core/smear.py:251`, 274-281 and likewise in the other classes. -/
def smearKw (cfg : List SPar) (k : ℕ) (idx : List ℕ) (x : ℚ) : List (PyStr × ℚ) :=
  (List.zipWith (fun p i => (p.name, binMean p i)) cfg idx).modify k (fun e => (e.1, x))

/-- A fill whose exception is passed on. -/
def fillOrRaise (acc : Spectrum) (w : ℚ) (kw : List (PyStr × ℚ)) : Except PyErr Spectrum :=
  match (acc.fill w kw).err with
  | some e => .error e
  | none => .ok (acc.fill w kw).st

/-- Loop body of `weighted_smear` for one cell, `/repo/echidna/core/smear.py:243-282`
(491-530, 709-744). A zero total weight makes the contents nan in python. -/
def smearCell (sigma : ℚ → ℚ) (weight : ℚ → ℚ → ℚ → ℚ) (ns : ℚ) (s : Spectrum) (k : ℕ) (p : SPar)
    (acc : Spectrum) (idx : List ℕ) : Except PyErr Spectrum :=
  let entries := s.data.get idx
  if entries = 0 then .ok acc
  else
    let mean := binMean p (idx.getD k 0)
    let sg := sigma mean
    let pts := smearPoints p ns sg mean
    let total := (pts.map (fun x => weight x mean sg)).sum
    if pts ≠ [] ∧ total = 0 then .error .zeroDivision
    else pts.foldlM (fun acc x =>
      fillOrRaise acc (entries * weight x mean sg / total) (smearKw s.cfg k idx x)) acc

/-- `weighted_smear`, `/repo/echidna/core/smear.py:209-284` (`EnergySmearLY`), 457-532
(`EnergySmearRes`), 674-746 (`RadialSmear`). -/
def Spectrum.weightedSmear (suffix : PyStr) (sigma : ℚ → ℚ) (weight : ℚ → ℚ → ℚ → ℚ) (ns : ℚ)
    (s : Spectrum) (par : PyStr) : Except PyErr Spectrum := do
  if par ∉ s.pars then throw .indexError
  let k ← s.getIndex par
  if s.cfg.any (fun p => p.bins = 0) then throw .zeroDivision
  let p ← s.getPar par
  (allIdx (s.cfg.map (fun p => p.bins.toNat))).foldlM (smearCell sigma weight ns s k p)
    { s with name := s.name ++ suffix, data := .zeros s.data.shape }

/-- A fill whose `ValueError` is caught, `/repo/echidna/core/smear.py:340-343`, 589-592. -/
def fillOrSkip (acc : Spectrum) (kw : List (PyStr × ℚ)) : Except PyErr Spectrum :=
  match (acc.fill 1 kw).err with
  | some .valueError => .ok acc
  | some e => .error e
  | none => .ok (acc.fill 1 kw).st

/-- `random_smear` of `EnergySmearLY` (`/repo/echidna/core/smear.py:286-345`) and
`EnergySmearRes` (534-594). `draws idx i` is the `i`-th random number drawn for cell `idx`
(a normal value, or the photon count over the light yield); the code takes its absolute
value. -/
def Spectrum.randomSmear (suffix : PyStr) (draws : List ℕ → ℕ → ℚ) (s : Spectrum) (par : PyStr) :
    Except PyErr Spectrum := do
  if par ∉ s.pars then throw .indexError
  let k ← s.getIndex par
  if s.cfg.any (fun p => p.bins = 0) then throw .zeroDivision
  (allIdx (s.cfg.map (fun p => p.bins.toNat))).foldlM (fun acc idx =>
    (List.range (pyInt (s.data.get idx)).toNat).foldlM (fun acc i =>
      fillOrSkip acc (smearKw s.cfg k idx |draws idx i|)) acc)
    { s with name := s.name ++ suffix, data := .zeros s.data.shape }

/-- `RadialSmear.random_smear`, `/repo/echidna/core/smear.py:748-801`: the number of entries is a
float there and `range` of a float raises. -/
def Spectrum.randomSmearRadial (suffix : PyStr) (s : Spectrum) (par : PyStr) :
    Except PyErr Spectrum := do
  if par ∉ s.pars then throw .indexError
  if s.cfg.any (fun p => p.bins = 0) then throw .zeroDivision
  (allIdx (s.cfg.map (fun p => p.bins.toNat))).foldlM (fun acc idx =>
    if s.data.get idx = 0 then .ok acc else .error .typeError)
    { s with name := s.name ++ suffix, data := .zeros s.data.shape }

end Verif
