import Verif.Model.Float
import Verif.Model.Shift

/-!
# Shifting by whole bins in floating point arithmetic

`Shift.shift_by_bin` of `/repo/echidna/core/shift.py` with a rounding after every operation; cf.
`Spectrum.shiftByBin`.
-/

namespace Verif

/-- The numbers in `a[:, ..., j:j+1, ..., :]` with the slice on axis `k`, cf. `sliceSum`. -/
def sliceList (a : NdArray ℚ) (k j : ℕ) : List ℚ :=
  if j < (a.shape[k]?).getD 0 then
    (allIdx (a.shape.eraseIdx k)).map (fun idx => a.get (idx.insertIdx k j))
  else []

namespace Rounding

variable (R : Rounding)

/-- `a % b` for floats and a positive `b`: the remainder with the sign of `a` (`fmod`) is exact; a
negative one gets `b` added. -/
def mod (a b : ℚ) : ℚ :=
  let r := a - b * pyInt (a / b)
  if r < 0 then R.add r b else r

/-- `a[:, ..., j:j+1, ..., :] += f`, cf. `addSlice`. -/
def addSlice (a : NdArray ℚ) (k j : ℕ) (f : List ℕ → ℚ) : NdArray ℚ :=
  ⟨a.shape, fun idx => if idx[k]? = some j then R.add (a.get idx) (f idx) else a.get idx⟩

/-- Loop body of `Shift.shift_by_bin`, `/repo/echidna/core/shift.py:196-225`; `tot` adds up the
numbers of a slice. -/
def shiftByBinContrib (tot : List ℚ → ℚ) (data : NdArray ℚ) (k : ℕ) (p : SPar) (shift : ℚ)
    (bin : ℕ) : Except PyErr (Option (List ℕ → ℚ)) := do
  let x := R.add p.low (R.mul (R.add bin (1 / 2)) (R.width p))
  if R.sub x shift < p.low ∨ p.high < R.sub x shift then return none
  let old ← R.getBin p (R.sub x shift)
  if 0 < tot (sliceList data k old.toNat) then return some (oldData data k old.toNat)
  return none

/-- `Shift.shift_by_bin`, `/repo/echidna/core/shift.py:170-226`; `tot bin` is the sum in the round
for `bin`. The comparison of the remainder with zero (`numpy.isclose`) is taken as exact. -/
def shiftByBin (str : ℚ → PyStr) (tot : ℕ → List ℚ → ℚ) (s : Spectrum) (dim : PyStr) (shift : ℚ) :
    Except PyErr Spectrum := do
  let p ← s.getPar dim
  if p.bins = 0 ∨ R.width p = 0 then throw .zeroDivision
  if ¬ npClose (R.mod shift (R.width p)) 0 then throw .valueError
  let k ← s.getIndex dim
  let d ← (List.range p.bins.toNat).foldlM (fun d bin =>
    match R.shiftByBinContrib (tot bin) s.data k p shift bin with
    | .error e => .error e
    | .ok none => .ok d
    | .ok (some f) => .ok (R.addSlice d k bin f)) (.zeros s.data.shape)
  return { s with name := s.name ++ lit "_shift" ++ str shift, data := d }

end Rounding

end Verif
