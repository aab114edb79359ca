import Verif.Model.Decay
import Verif.Model.Resolution
import Verif.Model.TestStatistic

/-!
# Whole numbers

The other models take every number to be a float. In python 2 a number written without a decimal
point is an `int`, and the quotient of two of them is rounded down. Here the functions that divide
by their arguments are modelled for both kinds of numbers.
-/

namespace Verif

open Real

/-- A number of python 2 or an element of a numpy array. Overflow of numpy's integers is not
modelled. -/
inductive PyNum where
  | int (n : ℤ)
  | float (x : ℝ)

namespace PyNum

/-- The number that is meant. -/
noncomputable def val : PyNum → ℝ
  | int n => n
  | float x => x

/-- `float(x)`, `array.astype('float')`. -/
noncomputable def toFloat (x : PyNum) : PyNum := .float x.val

/-- `a + b` -/
noncomputable def add : PyNum → PyNum → PyNum
  | int m, int n => .int (m + n)
  | a, b => .float (a.val + b.val)

/-- `a - b` -/
noncomputable def sub : PyNum → PyNum → PyNum
  | int m, int n => .int (m - n)
  | a, b => .float (a.val - b.val)

/-- `a * b`, and `a ** 2` for `b = a` -/
noncomputable def mul : PyNum → PyNum → PyNum
  | int m, int n => .int (m * n)
  | a, b => .float (a.val * b.val)

/-- `a / b` for numbers of python 2. -/
noncomputable def div (a b : PyNum) : Except PyErr PyNum :=
  match a, b with
  | int m, int n => if n = 0 then .error .zeroDivision else .ok (.int (m.fdiv n))
  | a, b =>
    open Classical in if b.val = 0 then .error .zeroDivision else .ok (.float (a.val / b.val))

/-- `a / b` for elements of numpy arrays: integers divided by zero are zero; `none` stands for
inf and nan. -/
noncomputable def npDiv (a b : PyNum) : Option PyNum :=
  match a, b with
  | int m, int n => if n = 0 then some (.int 0) else some (.int (m.fdiv n))
  | a, b => open Classical in if b.val = 0 then none else some (.float (a.val / b.val))

/-- `numpy.log(a)`; `none` for -inf and nan. -/
noncomputable def npLog (a : PyNum) : Option PyNum :=
  open Classical in if a.val ≤ 0 then none else some (.float (log a.val))

/-- `array[i] = epsilon` when `array[i]` is below it: an array of integers stores zero. -/
noncomputable def storeEps (a : PyNum) : PyNum :=
  open Classical in
  if a.val < statEps then
    match a with
    | int _ => .int 0
    | float _ => .float statEps
  else a

/-- `if a < epsilon: a = epsilon` for a local variable. -/
noncomputable def localEps (a : PyNum) : PyNum :=
  open Classical in if a.val < statEps then .float statEps else a

end PyNum

/-! ### conversions -/

open Classical in
/-- `DBIsotope.counts_to_activity`, `/repo/echidna/calc/decay.py:229-246`. -/
noncomputable def countsToActivityNum (counts : PyNum) (livetime : PyNum := .float 5) :
    Except PyErr PyNum :=
  if livetime.val ≤ 0 then .error .valueError else counts.div livetime

open Classical in
/-- `DBIsotope.counts_to_half_life`, `/repo/echidna/calc/decay.py:326-349`. `numpy.log(2)` is a
float, so that only the first quotient depends on the kind of the numbers. -/
noncomputable def DBIsotope.countsToHalfLifeNum (c : DecayConst) (s : DBIsotope) (counts : PyNum)
    (n : Option ℝ := none) (livetime : PyNum := .float 5) : Except PyErr ℝ := do
  let n ← s.orNAtoms c n
  if livetime.val ≤ 0 then .error .valueError
  else do
    let a ← countsToActivityNum counts livetime
    s.activityToHalfLife c a.val (some n)

open Classical in
/-- `DBIsotope.counts_to_eff_mass`, `/repo/echidna/calc/decay.py:248-271`. -/
noncomputable def DBIsotope.countsToEffMassNum (c : DecayConst) (s : DBIsotope) (counts : PyNum)
    (n : Option ℝ := none) (livetime : PyNum := .float 5) : Except PyErr ℝ := do
  let n ← s.orNAtoms c n
  if livetime.val ≤ 0 then .error .valueError
  else do
    let t ← s.countsToHalfLifeNum c counts (some n) livetime
    s.halfLifeToEffMass c t

open Classical in
/-- `EnergySmearLY.calc_smear_ly`, `/repo/echidna/core/smear.py:149-173`. -/
noncomputable def calcSmearLYNum (own new : PyNum) (cur : Option PyNum) : Except PyErr PyNum :=
  let cur := match cur with
    | none => own
    | some c => if c.val = 0 then own else c
  if cur.val < new.val then .error .valueError
  else (new.mul cur).div (cur.sub new)

/-- `_light_yield` of a new `EnergySmearLY`, `/repo/echidna/core/smear.py:125`. -/
def newLightYield : PyNum := .int 200

/-- `get_penalty_term`, `/repo/echidna/fit/test_statistic.py:226`, 332 with `float(sigma)`, and 424,
516, 611, 698 without. -/
noncomputable def Stat.penaltyNum (st : Stat) (value prior sigma : PyNum) : Except PyErr PyNum := do
  let q ← match st with
    | .bcChi | .bcChiUp => (value.sub prior).div sigma.toFloat
    | _ => (value.sub prior).div sigma
  match st with
  | .bcLL => .ok ((PyNum.float 0.5).mul (q.mul q))
  | _ => .ok (q.mul q)

/-! ### test statistics -/

/-- One bin of the Baker-Cousins classes, `exp` having been clamped,
`/repo/echidna/fit/test_statistic.py:170-173` and likewise 201-204, 276-279, 377-381, 403-407. -/
noncomputable def bakerCousinsNum (obs exp : PyNum) : Option PyNum :=
  open Classical in
  if obs.val < statEps then some exp
  else do
    let q ← obs.npDiv exp
    let l ← q.npLog
    some ((exp.sub obs).add (obs.mul l))

/-- One bin of `Neyman`, `/repo/echidna/fit/test_statistic.py:468-473`, 494-499. -/
noncomputable def neymanNum (obs exp : PyNum) : Option PyNum :=
  open Classical in
  let obs := obs.storeEps
  if exp.val < statEps then some obs else ((exp.sub obs).mul (exp.sub obs)).npDiv obs

/-- One bin of `Pearson`, `/repo/echidna/fit/test_statistic.py:563-568`, 589-594. -/
noncomputable def pearsonNum (obs exp : PyNum) : Option PyNum :=
  open Classical in
  let exp := exp.storeEps
  if obs.val < statEps then some exp else ((obs.sub exp).mul (obs.sub exp)).npDiv exp

/-- One bin of `ExtendedLL`, `/repo/echidna/fit/test_statistic.py:654-657`. -/
noncomputable def extendedNum (obs exp : PyNum) : Option PyNum := do
  let l ← exp.localEps.npLog
  some (obs.mul l)

/-- `total = 0; for ...: total += value`; once a value is not finite the total stays so. -/
noncomputable def totalNum (f : PyNum → PyNum → Option PyNum) (obs exp : List PyNum) :
    Option PyNum :=
  (obs.zip exp).foldlM (fun total b => do
    let v ← f b.1 b.2
    some (total.add v)) (.int 0)

/-- `_compute`, `/repo/echidna/fit/test_statistic.py:146-175`, 250-281, 355-383, 447-475, 539-570,
634-659, for arrays of either kind. The two chi-squared classes convert the arrays to floats. The
changes of the caller's arrays are left out. -/
noncomputable def Stat.computeNum (st : Stat) (obs exp : List PyNum) : Option PyNum :=
  match st with
  | .bcChi => do
    let t ← totalNum (fun o e => bakerCousinsNum o.toFloat e.toFloat.localEps) obs exp
    some ((PyNum.float 2).mul t)
  | .bcChiUp => do
    let t ← totalNum (fun o e =>
      open Classical in
      if e.val < o.val then some (.int 0) else bakerCousinsNum o.toFloat e.toFloat.localEps) obs exp
    some ((PyNum.float 2).mul t)
  | .bcLL => totalNum (fun o e => bakerCousinsNum o e.storeEps) obs exp
  | .neyman => totalNum neymanNum obs exp
  | .pearson => totalNum pearsonNum obs exp
  | .extLL => do
    let t ← totalNum extendedNum obs exp
    some ((exp.foldl PyNum.add (.int 0)).sub t)

end Verif
