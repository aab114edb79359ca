import Verif.Model.NdArray
import Mathlib.Analysis.SpecialFunctions.Log.Basic
import Mathlib.Analysis.SpecialFunctions.Pow.Real

/-!
# `get_array_errors`

Model of `/repo/echidna/utilities.py:47-70`. Floats are reals. The rest of the file
(timer, logging) is not modelled.
-/

namespace Verif

open Classical in
/-- `if x` for an optional number: true unless `None` or `0`. -/
noncomputable def truthy (x : Option ℝ) : Option ℝ :=
  match x with
  | none => none
  | some v => if v = 0 then none else some v

open Classical in
/-- One round of the loop, `/repo/echidna/utilities.py:52-67`, with the subtraction of
line 68: the entry of the result for the value `v`. The logarithm of zero is minus infinity in
numpy: adding to it or multiplying it by a positive number gives minus infinity, which becomes
zero again. The other cases that are not finite in numpy (the logarithm of a negative number,
minus infinity times a negative number) are a `valueError` here. -/
noncomputable def arrayError (lin frac : Option ℝ) (log log10 : Bool) (v : ℝ) :
    Except PyErr ℝ :=
  if (log || log10) && decide (v < 0) then .error .valueError
  else if (log || log10) && decide (v = 0) then
    match truthy lin, truthy frac with
    | some _, _ => .ok 0
    | none, some f => if 0 < f then .ok 0 else .error .valueError
    | none, none => .error .valueError
  else
    let w := if log then Real.log v else if log10 then Real.log v / Real.log 10 else v
    let fin := fun e : ℝ => if log then Real.exp e else if log10 then (10 : ℝ) ^ e else e
    match truthy lin, truthy frac with
    | some l, _ => .ok (fin (w + l) - v)
    | none, some f => .ok (fin (w * f) - v)
    | none, none => .error .valueError

/-- `get_array_errors`, `/repo/echidna/utilities.py:47-70`. The last `reshape` returns a
new array that is dropped, so the result keeps the flattened shape. -/
noncomputable def getArrayErrors (a : NdArray ℝ) (lin : Option ℝ := some (1 / 100))
    (frac : Option ℝ := none) (log log10 : Bool := false) : Except PyErr (NdArray ℝ) :=
  match ((List.range a.shape.prod).map (fun k => a.get (unravelIdx a.shape k))).mapM
      (arrayError lin frac log log10) with
  | .error e => .error e
  | .ok es => .ok ⟨[es.length], fun idx => es.getD (idx.headD 0) 0⟩

end Verif
