import Verif.Model.Base
import Mathlib.Analysis.SpecialFunctions.Log.Basic
import Mathlib.Analysis.SpecialFunctions.Trigonometric.Basic
import Mathlib.Analysis.SpecialFunctions.Pow.Real

/-!
# `echidna/core/smear.py`: resolutions and weights

The part of the smearing classes that takes square roots, exponentials and logarithms, over ℝ.
-/

namespace Verif

open Real

/-- A smearing object: the class and the attributes it reads.
`EnergySmearLY` (`/repo/echidna/core/smear.py:106-126`), `EnergySmearRes` (348-370; it has no
`_resolution` until one is set), `RadialSmear` (597-614). `numSigma` is set in
`Smear.__init__`, 30-35. -/
inductive Smearer where
  | lightYield (poisson : Bool) (ly : ℝ) (numSigma : ℝ)
  | energyRes (poisson : Bool) (res : Option ℝ) (numSigma : ℝ)
  | radial (res : ℝ) (numSigma : ℝ)

/-- A smearing object as constructed. -/
def Smearer.newLY (poisson : Bool) : Smearer := .lightYield poisson 200 5
def Smearer.newRes (poisson : Bool) : Smearer := .energyRes poisson none 5
def Smearer.newRadial : Smearer := .radial 100 5

/-- `get_resolution`, `/repo/echidna/core/smear.py:175-181`, 419-426, 642-648. -/
def Smearer.getResolution : Smearer → Except PyErr ℝ
  | .lightYield _ ly _ => .ok ly
  | .energyRes _ none _ => .error .attributeError
  | .energyRes _ (some r) _ => .ok r
  | .radial r _ => .ok r

open Classical in
/-- `set_resolution`, `/repo/echidna/core/smear.py:194-207`, 440-455, 650-663. The message of
the light-yield class is a format string without argument; the error is a `ValueError` all
the same. -/
noncomputable def Smearer.setResolution (v : ℝ) : Smearer → Smearer × Option PyErr
  | .lightYield q ly n => if 0 < v then (.lightYield q v n, none)
      else (.lightYield q ly n, some .valueError)
  | .energyRes q r n => if 0 < v ∧ v < 1 then (.energyRes q (some v) n, none)
      else (.energyRes q r n, some .valueError)
  | .radial r n => if 0 < v then (.radial v n, none) else (.radial r n, some .valueError)

open Classical in
/-- `Smear.set_num_sigma`, `/repo/echidna/core/smear.py:74-87`. -/
noncomputable def Smearer.setNumSigma (v : ℝ) : Smearer → Smearer × Option PyErr
  | .lightYield q ly n => if 0 < v then (.lightYield q ly v, none)
      else (.lightYield q ly n, some .valueError)
  | .energyRes q r n => if 0 < v then (.energyRes q r v, none)
      else (.energyRes q r n, some .valueError)
  | .radial r n => if 0 < v then (.radial r v, none) else (.radial r n, some .valueError)

/-- `get_sigma`, `/repo/echidna/core/smear.py:183-192`, 428-438, 665-672. numpy gives nan for the
square root of a negative number; the model gives the error `.valueError` there. -/
noncomputable def Smearer.getSigma (e : ℝ) : Smearer → Except PyErr ℝ
  | .lightYield _ ly _ => if e / ly < 0 then .error .valueError else .ok (√(e / ly))
  | .energyRes _ none _ => .error .attributeError
  | .energyRes _ (some r) _ => if e < 0 then .error .valueError else .ok (r * e ^ ((1 : ℝ) / 2))
  | .radial r _ => .ok r

/-- `EnergySmearLY.calc_smear_ly`, `/repo/echidna/core/smear.py:149-173`. `cur = none` or zero
means the light yield `own` of the object. -/
noncomputable def calcSmearLY (own new : ℝ) (cur : Option ℝ) : Except PyErr ℝ :=
  let cur := match cur with
    | none => own
    | some c => if c = 0 then own else c
  if cur < new then .error .valueError
  else if cur - new = 0 then .error .zeroDivision
  else .ok (new * cur / (cur - new))

/-- `EnergySmearRes.calc_smear_resoluton` and `RadialSmear.calc_smear_resoluton`,
`/repo/echidna/core/smear.py:393-417`, 616-640; `cur = none` or zero means the resolution
`own` of the object, which may not be set. -/
noncomputable def calcSmearRes (own : Except PyErr ℝ) (new : ℝ) (cur : Option ℝ) :
    Except PyErr ℝ := do
  let cur ← match cur with
    | none => own
    | some c => if c = 0 then own else .ok c
  if new < cur then .error .valueError else .ok |√(new ^ 2 - cur ^ 2)|

/-- `Smear.calc_gaussian`, `/repo/echidna/core/smear.py:37-50`. A zero `sigma` gives nan or inf. -/
noncomputable def calcGaussian (x mean sigma : ℝ) : Except PyErr ℝ :=
  if sigma = 0 then .error .zeroDivision
  else .ok (exp (-(x - mean) ^ 2 / (2 * sigma ^ 2)) / (sigma * √(2 * π)))

/-- `int(x)` for a real. -/
noncomputable def pyIntReal (x : ℝ) : ℤ := if 0 ≤ x then ⌊x⌋ else ⌈x⌉

/-- `calc_poisson_energy`, `/repo/echidna/core/smear.py:128-147`, 372-391. The cache
`_log_factorial` only avoids recomputing the sum. The logarithm of a number that is not
positive is nan or -inf in numpy and an error here. -/
noncomputable def calcPoissonEnergy (ly x lamb : ℝ) : Except PyErr ℝ :=
  let photons := pyIntReal (x * ly)
  let expected := lamb * ly
  if expected ≤ 0 then .error .valueError
  else .ok (exp (photons * log expected -
    ((List.range photons.toNat).map (fun i : ℕ => log ((i : ℝ) + 1))).sum - expected))

/-- The weight that `weighted_smear` gives to the point `x` for the bin with centre `mean`,
`/repo/echidna/core/smear.py:267-273`, 515-521, 733-735. `EnergySmearRes` has its own
`_light_yield` of 200 (line 369), which nothing changes. -/
noncomputable def Smearer.weight (o : Smearer) (x mean : ℝ) : Except PyErr ℝ := do
  let sigma ← o.getSigma mean
  match o with
  | .lightYield true ly _ => calcPoissonEnergy ly x mean
  | .lightYield false _ _ => calcGaussian x mean sigma
  | .energyRes true _ _ => calcPoissonEnergy 200 x mean
  | .energyRes false _ _ => calcGaussian x mean sigma
  | .radial _ _ => calcGaussian x mean sigma

end Verif
