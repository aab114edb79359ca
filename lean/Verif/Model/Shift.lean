import Verif.Model.Spectra

/-!
# `echidna/core/shift.py` and `echidna/core/scale.py`

The spline of scipy is a parameter of the model: `spline xs ys` is
`interpolate.InterpolatedUnivariateSpline(xs, ys, k)`, an arbitrary function (or an
exception). `str` is python's `str` of a float; it only enters the names.
-/

namespace Verif

/-- Sum of `a[:, ..., j:j+1, ..., :]` with the slice on axis `k`
(`/repo/echidna/core/shift.py:143-146`, 220-221, `/repo/echidna/core/scale.py:146-149`); an empty
slice has sum zero. -/
def sliceSum (a : NdArray ℚ) (k j : ℕ) : ℚ :=
  if j < (a.shape[k]?).getD 0 then
    sumIdx (a.shape.eraseIdx k) (fun idx => a.get (idx.insertIdx k j))
  else 0

/-- `a[:, ..., j:j+1, ..., :] += f` with the slice on axis `k`
(`/repo/echidna/core/shift.py:150-163`, 224-225, `/repo/echidna/core/scale.py:153-166`). -/
def addSlice (a : NdArray ℚ) (k j : ℕ) (f : List ℕ → ℚ) : NdArray ℚ :=
  ⟨a.shape, fun idx => if idx[k]? = some j then a.get idx + f idx else a.get idx⟩

/-- `for bin in range(n_bins)` of `Shift.shift` (`/repo/echidna/core/shift.py:61-163`),
`Shift.shift_by_bin` (195-225) and `Scale.scale` (`/repo/echidna/core/scale.py:64-166`):
`contrib bin` is what is added to the slice `bin`, `none` for `continue`. -/
def binLoop (n k : ℕ) (contrib : ℕ → Except PyErr (Option (List ℕ → ℚ)))
    (start : NdArray ℚ) : Except PyErr (NdArray ℚ) :=
  (List.range n).foldlM (fun d bin =>
    match contrib bin with
    | .error e => .error e
    | .ok none => .ok d
    | .ok (some f) => .ok (addSlice d k bin f)) start

/-- `spectrum._data[old_slice]` as seen from the cells of another slice. -/
def oldData (a : NdArray ℚ) (k j : ℕ) : List ℕ → ℚ := fun idx => a.get (idx.set k j)

/-- Loop body of `Shift.shift_by_bin`, `/repo/echidna/core/shift.py:196-225`. -/
def shiftByBinContrib (data : NdArray ℚ) (k : ℕ) (p : SPar) (shift : ℚ) (bin : ℕ) :
    Except PyErr (Option (List ℕ → ℚ)) := do
  let x := p.low + (bin + 1 / 2) * p.width
  if x - shift < p.low ∨ p.high < x - shift then return none
  let old ← p.getBin (x - shift)
  if 0 < sliceSum data k old.toNat then return some (oldData data k old.toNat)
  return none

/-- `Shift.shift_by_bin`, `/repo/echidna/core/shift.py:170-226`. `%` by a zero width raises. -/
def Spectrum.shiftByBin (str : ℚ → PyStr) (s : Spectrum) (dim : PyStr) (shift : ℚ) :
    Except PyErr Spectrum := do
  let p ← s.getPar dim
  if p.bins = 0 ∨ p.width = 0 then throw .zeroDivision
  if ¬ npClose (pyMod shift p.width) 0 then throw .valueError
  let k ← s.getIndex dim
  let d ← binLoop p.bins.toNat k (shiftByBinContrib s.data k p shift) (.zeros s.data.shape)
  return { s with name := s.name ++ lit "_shift" ++ str shift, data := d }

/-- Clamping of the back-shifted (or back-scaled) bin centre,
`/repo/echidna/core/shift.py:64-69`, `/repo/echidna/core/scale.py:67-72`. `none`: out of range. -/
def clampCentre (p : SPar) (c : ℚ) : Option ℚ :=
  if c < p.low ∨ p.high ≤ c then none
  else if c < p.low + 1 / 2 * p.width then some (p.low + 1 / 2 * p.width)
  else if p.high - 1 / 2 * p.width < c then some (p.high - 1 / 2 * p.width - 1 / 10 ^ 6)
  else some c

/-- `numpy.fabs(0.5 * (b - a) * (f(b) + f(a)))` -/
def trapezium (f : ℚ → ℚ) (a b : ℚ) : ℚ := |1 / 2 * (b - a) * (f b + f a)|

/-- Second source bin and the two areas, `/repo/echidna/core/shift.py:75-110`,
`/repo/echidna/core/scale.py:78-113`. -/
def interpAreas (p : SPar) (f : ℚ → ℚ) (c : ℚ) (old1 : ℤ) (centre1 : ℚ) : ℤ × ℚ × ℚ :=
  let w := p.width
  if c < centre1 then
    if 0 ≤ old1 - 1 then
      let xl1 := centre1 - 1 / 2 * w
      let xh1 := if p.high - 1 / 2 * w < c + 1 / 2 * w then p.high - 1 / 2 * w - 1 / 10 ^ 6
        else c + 1 / 2 * w
      (old1 - 1, trapezium f xl1 xh1, trapezium f (c - 1 / 2 * w) xl1)
    else (0, 1, 0)
  else
    if old1 + 1 < p.bins then
      let xl1 := if c - 1 / 2 * w < p.low + 1 / 2 * w then p.low + 1 / 2 * w else c - 1 / 2 * w
      let xh1 := centre1 + 1 / 2 * w
      (old1 + 1, trapezium f xl1 xh1, trapezium f xh1 (c + 1 / 2 * w))
    else (p.bins - 1, 1, 0)

/-- Loop body of `Shift.shift` and `Scale.scale` for the back-shifted (back-scaled) bin centre
`c0`, `/repo/echidna/core/shift.py:64-163`, `/repo/echidna/core/scale.py:67-166`. -/
def interpContrib (data : NdArray ℚ) (k : ℕ) (p : SPar) (f : ℚ → ℚ) (c0 : ℚ) :
    Except PyErr (Option (List ℕ → ℚ)) :=
  match clampCentre p c0 with
  | none => .ok none
  | some c => do
    let y := f c
    if y ≤ 0 then return none
    let old1 ← p.getBin c
    let centre1 ← p.getBinCentre old1
    let (old2, area1, area2) := interpAreas p f c old1 centre1
    if area1 = 0 ∧ area2 = 0 then return none
    let scale1 := area1 / (area1 + area2)
    let scale2 := area2 / (area1 + area2)
    let sum1 := sliceSum data k old1.toNat
    let sum2 := sliceSum data k old2.toNat
    let d1 := oldData data k old1.toNat
    let d2 := oldData data k old2.toNat
    if sum1 ≤ 0 ∧ sum2 ≤ 0 then return none
    else if sum1 ≤ 0 then return some (fun idx => d2 idx * (y / sum2))
    else if sum2 ≤ 0 then return some (fun idx => d1 idx * (y / sum1))
    else return some (fun idx => d1 idx * scale1 * (y / sum1) + d2 idx * scale2 * (y / sum2))

/-- A spectrum after a division of numpy floats: its contents are numbers, or the divisor
was zero and the contents are nan or inf (numpy only warns). -/
inductive NpResult
  | finite (s : Spectrum)
  | notFinite

/-- `/repo/echidna/core/shift.py:164-168`, `/repo/echidna/core/scale.py:167-171`: renormalise to
`preSum` counts. `d` is the filled array. -/
def renormalise (s : Spectrum) (name : PyStr) (d : NdArray ℚ) : NpResult :=
  if d.sum = 0 then .notFinite
  else .finite { s with name := name, data := d.smul (s.sum / d.sum) }

/-- The values of a one-dimensional array. -/
def NdArray.toList1 (a : NdArray ℚ) : List ℚ :=
  (List.range ((a.shape[0]?).getD 0)).map (fun i => a.get [i])

/-- `Spectra.interpolate1d`, `/repo/echidna/core/spectra.py:288-300`. -/
def Spectrum.interpolate1d (spline : List ℚ → List ℚ → Except PyErr (ℚ → ℚ)) (s : Spectrum)
    (dim : PyStr) : Except PyErr (ℚ → ℚ) := do
  let p ← s.getPar dim
  if p.bins = 0 ∨ p.width = 0 then throw .zeroDivision
  let y ← s.project dim
  spline p.binCentres y.toList1

/-- `Shift.shift`, `/repo/echidna/core/shift.py:33-168`. -/
def Spectrum.shift (str : ℚ → PyStr) (spline : List ℚ → List ℚ → Except PyErr (ℚ → ℚ))
    (s : Spectrum) (dim : PyStr) (shift : ℚ) : Except PyErr NpResult := do
  let p ← s.getPar dim
  if p.bins = 0 ∨ p.width = 0 then throw .zeroDivision
  if npClose (pyMod shift p.width) 0 then
    let t ← s.shiftByBin str dim shift
    return .finite t
  let f ← s.interpolate1d spline dim
  let k ← s.getIndex dim
  let d ← binLoop p.bins.toNat k (fun bin =>
    interpContrib s.data k p f (p.low + (bin + 1 / 2) * p.width - shift)) (.zeros s.data.shape)
  return renormalise s (s.name ++ lit "_shift" ++ str shift) d

/-- `Scale.set_scale_factor`, `/repo/echidna/core/scale.py:25-36`: new factor and exception. -/
def setScaleFactor (cur new : ℚ) : ℚ × Option PyErr :=
  if new ≤ 0 then (cur, some .valueError) else (new, none)

/-- `Scale.scale`, `/repo/echidna/core/scale.py:38-171`, for a scale factor `sf`. -/
def Spectrum.scaleAxis (str : ℚ → PyStr) (spline : List ℚ → List ℚ → Except PyErr (ℚ → ℚ))
    (s : Spectrum) (dim : PyStr) (sf : ℚ) : Except PyErr NpResult := do
  let f ← s.interpolate1d spline dim
  let k ← s.getIndex dim
  let p ← s.getPar dim
  if p.bins = 0 ∨ sf = 0 then throw .zeroDivision
  let d ← binLoop p.bins.toNat k (fun bin => do
    let x ← p.getBinCentre bin
    interpContrib s.data k p f (x / sf)) (.zeros s.data.shape)
  return renormalise s (s.name ++ lit "_sf" ++ str sf) d

end Verif
