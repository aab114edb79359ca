import Verif.Model.Base
import Verif.Model.Resolution
import Mathlib.Analysis.SpecialFunctions.Log.Basic

/-!
# Fit parameters

Model of `FitParameter` in `/repo/echidna/core/parameter.py`. Floats are reals
here, because the logarithmic scales use `log` and `exp`.
-/

namespace Verif

open Classical in
/-- `numpy.rint(x)` on a real: nearest integer, halves to the even neighbour. -/
noncomputable def npRintReal (x : ℝ) : ℤ :=
  if Int.fract x < 1 / 2 then ⌊x⌋
  else if 1 / 2 < Int.fract x then ⌊x⌋ + 1
  else if ⌊x⌋ % 2 = 0 then ⌊x⌋ else ⌊x⌋ + 1

/-- `numpy.isclose(a, b)` on reals, default tolerances. -/
def npCloseReal (a b : ℝ) : Prop := |a - b| ≤ 1 / 10 ^ 8 + 1 / 10 ^ 5 * |b|

/-- `numpy.linspace(a, b, n)`: `n` equally spaced values with both ends
(only `a` when `n = 1`, nothing when `n = 0`). -/
noncomputable def npLinspace (a b : ℝ) (n : ℕ) : List ℝ :=
  (List.range n).map (fun i : ℕ => a + (i : ℝ) * ((b - a) / ((n : ℝ) - 1)))

/-- `FitParameter`: `/repo/echidna/core/parameter.py:125-222` (attributes of
`__init__`). Simplifications: `bins` is a natural number (`set_par` stores a
float), the logger and the unused `_bin_boundaries` are left out. `fresh values`
are produced by `genValues`; `values` is the cache (or the `values` argument of
the constructor). -/
structure FitPar where
  /-- `_name` -/
  name : PyStr
  /-- `_prior` -/
  prior : ℝ
  /-- `_sigma` -/
  sigma : Option ℝ
  /-- `_low` -/
  low : ℝ
  /-- `_high` -/
  high : ℝ
  /-- `_bins` -/
  bins : ℕ
  /-- `_dimension` -/
  dimension : Option PyStr := none
  /-- `_values` -/
  values : Option (List ℝ) := none
  /-- `_current_value` -/
  current : Option ℝ := none
  /-- `_best_fit` -/
  bestFit : Option ℝ := none
  /-- `_penalty_term` -/
  penaltyTerm : Option ℝ := none
  /-- `_logscale` -/
  logscale : Option Bool := none
  /-- `_base` -/
  base : Option ℝ := none
  /-- `_logscale_deviation` -/
  logDev : Option Bool := none

namespace FitPar

/-- Constructor, `/repo/echidna/core/parameter.py:193-232`: the `base` is kept
only together with `logscale`, `logscale_deviation` only without it. -/
noncomputable def new (name : PyStr) (prior : ℝ) (sigma : Option ℝ) (low high : ℝ) (bins : ℕ)
    (dimension : Option PyStr := none) (values : Option (List ℝ) := none)
    (current penaltyTerm bestFit : Option ℝ := none) (logscale : Option Bool := none)
    (base : Option ℝ := some (Real.exp 1)) (logDev : Option Bool := none) : FitPar :=
  { name, prior, sigma, low, high, bins, dimension, values, current, bestFit, penaltyTerm
    logscale := if logscale = some true then logscale else none
    base := if logscale = some true then base else none
    logDev := if logscale ≠ some true ∧ logDev = some true then logDev else none }

open Classical in
/-- The array generated by `get_values` when nothing is cached,
`/repo/echidna/core/parameter.py:419-487`. The `base` attribute is not used by
the code. Logarithms of non-positive numbers (nan in numpy) are `valueError`,
a vanishing `delta_low + delta_high` is `zeroDivision` (nan in numpy).
A negative `low` for the logarithmic scale is replaced by `1/high`, as in the
code (`low = -log(high)`). -/
noncomputable def genValues (p : FitPar) : Except PyErr (List ℝ) :=
  if p.logscale = some true then
    if p.high ≤ 0 then .error .valueError
    else
      let low := if p.low ≤ 0 then -Real.log p.high else Real.log p.low
      .ok ((npLinspace low (Real.log p.high) p.bins).map Real.exp)
  else if p.logDev = some true then
    let dl := |p.low - p.prior|
    let dh := |p.high - p.prior|
    if dl + dh = 0 then .error .zeroDivision
    else
      let nl := (npRintReal (dl / (dl + dh) * ((p.bins : ℝ) + 1))).toNat
      let nh := (npRintReal (dh / (dl + dh) * ((p.bins : ℝ) + 1))).toNat
      let deltasLow := npLinspace 0 (Real.log (dl + 1)) nl
      let deltasHigh := npLinspace 0 (Real.log (dh + 1)) nh
      .ok (deltasLow.reverse.map (fun d => p.prior - Real.exp d + 1)
        ++ deltasHigh.tail.map (fun d => p.prior + Real.exp d - 1))
  else .ok (npLinspace p.low p.high p.bins)

/-- `get_values`, `/repo/echidna/core/parameter.py:419-487`: the returned array. -/
noncomputable def getValues (p : FitPar) : Except PyErr (List ℝ) :=
  match p.values with
  | some v => .ok v
  | none => p.genValues

/-- `get_values`: the parameter after the call, with the array cached. -/
noncomputable def afterGetValues (p : FitPar) : FitPar :=
  match p.getValues with
  | .ok v => { p with values := some v }
  | .error _ => p

/-- `get_value_at`, `/repo/echidna/core/parameter.py:489-498`, for a
non-negative index (numpy raises an `IndexError` outside the array). -/
noncomputable def getValueAt (p : FitPar) (i : ℕ) : Except PyErr ℝ := do
  let v ← p.getValues
  match v[i]? with
  | some x => .ok x
  | none => .error .indexError

open Classical in
/-- `get_value_index`, `/repo/echidna/core/parameter.py:500-518`. When the value is
missing, the formatting of the message (`"...%s." % (value, name)`: two values
for one placeholder) raises a `TypeError` before the intended `ValueError`. -/
noncomputable def getValueIndex (p : FitPar) (x : ℝ) : Except PyErr ℕ := do
  let v ← p.getValues
  match v.findIdx? (fun y => decide (y = x)) with
  | some i => .ok i
  | none => .error .typeError

open Classical in
/-- `get_bin`, `/repo/echidna/core/parameter.py:305-318`: the first value close to
`x`; without one the bare `except` takes the formula. -/
noncomputable def getBin (p : FitPar) (x : ℝ) : Except PyErr ℤ :=
  match p.getValues with
  | .ok v =>
    match v.findIdx? (fun y => decide (npCloseReal y x)) with
    | some i => .ok i
    | none => if p.high - p.low = 0 then .error .zeroDivision
        else .ok (pyIntReal ((x - p.low) / (p.high - p.low) * p.bins))
  | .error _ => if p.high - p.low = 0 then .error .zeroDivision
        else .ok (pyIntReal ((x - p.low) / (p.high - p.low) * p.bins))

/-- `get_best_fit`, `/repo/echidna/core/parameter.py:290-303`. -/
def getBestFit (p : FitPar) : Except PyErr ℝ :=
  match p.bestFit with | some x => .ok x | none => .error .valueError

/-- `get_current_value`, `/repo/echidna/core/parameter.py:370-379`. -/
def getCurrentValue (p : FitPar) : Except PyErr ℝ :=
  match p.current with | some x => .ok x | none => .error .valueError

/-- `get_penalty_term`, `/repo/echidna/core/parameter.py:388-403`. -/
def getPenaltyTerm (p : FitPar) : Except PyErr ℝ :=
  match p.penaltyTerm with | some x => .ok x | none => .error .valueError

/-- A keyword argument of `set_par` (one constructor per keyword; `other` is any
keyword that names no attribute). -/
inductive Kw
  | prior (v : ℝ) | sigma (v : Option ℝ) | low (v : ℝ) | high (v : ℝ) | bins (v : ℕ)
  | logscale (v : Bool) | base (v : ℝ) | logDev (v : Bool) | dimension (v : PyStr) | other

/-- One round of the loop of `set_par`, `/repo/echidna/core/parameter.py:557-584`.
The warning at the top of the loop formats old and new value with `%.4g`, which
is a `TypeError` for `None` and for strings; an unknown attribute is a
`KeyError`. -/
def setKw (p : FitPar) : Kw → Except PyErr FitPar
  | .prior v => .ok { p with prior := v }
  | .sigma v =>
    match p.sigma, v with
    | some _, some _ => .ok { p with sigma := v }
    | _, _ => .error .typeError
  | .low v => .ok { p with low := v }
  | .high v => .ok { p with high := v }
  | .bins v => .ok { p with bins := v }
  | .logscale v =>
    match p.logscale with
    | some _ => .ok { p with logscale := some v }
    | none => .error .typeError
  | .base v =>
    match p.base with
    | some _ => .ok { p with base := some v }
    | none => .error .typeError
  | .logDev v =>
    match p.logDev with
    | some _ => .ok { p with logDev := some v }
    | none => .error .typeError
  | .dimension _ => .error .typeError
  | .other => .error .keyError

/-- `set_par`, `/repo/echidna/core/parameter.py:536-587`: the keywords in the order
in which python iterates over them, then the cache is emptied. Returns the
parameter and the exception, if any: the updates before an exception stay. -/
def setPar (p : FitPar) : List Kw → FitPar × Option PyErr
  | [] => ({ p with values := none }, none)
  | kw :: kws =>
    match p.setKw kw with
    | .ok p' => p'.setPar kws
    | .error e => (p, some e)

open Classical in
/-- The warnings of `check_values`, `/repo/echidna/core/parameter.py:247-288`: are
there values outside `[min, max]` (the class attributes `_min`, `_max`), and is
the prior missing from the array (compared as `around(values / prior, 12) == 1`;
simplification: written as rounding of the scaled ratio). A prior of zero
gives nan for every comparison, so the prior counts as missing. -/
noncomputable def checkValues (p : FitPar) (min max : ℝ) : Except PyErr (Bool × Bool) := do
  let v ← p.getValues
  .ok (v.any (fun x => decide (x < min ∨ max < x)),
    !(v.any (fun x => decide (p.prior ≠ 0 ∧ npRintReal (x / p.prior * 10 ^ 12) = 10 ^ 12))))

end FitPar

end Verif
