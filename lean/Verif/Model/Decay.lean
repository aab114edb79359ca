import Verif.Model.Base
import Mathlib.Analysis.SpecialFunctions.Log.Basic
import Mathlib.Analysis.Real.Pi.Bounds
import Mathlib.Analysis.SpecialFunctions.Pow.Real

/-!
# Double beta decay conversions

Model of `DBIsotope` in `/repo/echidna/calc/decay.py`. Floats are reals.
A vanishing denominator is the exception `zeroDivision` (python floats raise,
numpy floats give inf or nan with a warning), the square root of a negative
number (nan in numpy) is `valueError`.
-/

namespace Verif

/-- Constants, `/repo/echidna/calc/constants.py:2-15`. -/
structure DecayConst where
  /-- `_electron_mass` -/
  electronMass : ℝ
  /-- `_atomic_mass_unit` -/
  amu : ℝ
  /-- `_n_avagadro` -/
  avogadro : ℝ
  /-- `_av_radius` -/
  avRadius : ℝ
  /-- `_scint_density` -/
  scintDensity : ℝ
  /-- `_loading` -/
  loading : ℝ

/-- The values in `/repo/echidna/calc/constants.py:2-15`. -/
noncomputable def DecayConst.std : DecayConst where
  electronMass := 510998.910
  amu := 1.660538921 / 10 ^ 27
  avogadro := 6.02214129 * 10 ^ 23
  avRadius := 5997
  scintDensity := 862.8 / 10 ^ 9
  loading := 0.003

/-- Division of floats. -/
noncomputable def realDiv (a b : ℝ) : Except PyErr ℝ :=
  open Classical in if b = 0 then .error .zeroDivision else .ok (a / b)

/-- `numpy.sqrt`. -/
noncomputable def realSqrt (a : ℝ) : Except PyErr ℝ :=
  open Classical in if a < 0 then .error .valueError else .ok (Real.sqrt a)

/-- Truth value of an optional float: `None` and `0.` are false. -/
noncomputable def realTruthy (x : Option ℝ) : Option ℝ :=
  open Classical in x.bind (fun v => if v = 0 then none else some v)

/-- `DBIsotope`, attributes: `/repo/echidna/calc/decay.py:54-81`. -/
structure DBIsotope where
  /-- `_atm_weight_iso` -/
  weightIso : ℝ
  /-- `_atm_weight_nat` -/
  weightNat : ℝ
  /-- `_abundance` -/
  abundance : ℝ
  /-- `_phase_space` -/
  phaseSpace : ℝ
  /-- `_matrix_element` -/
  matrixElement : ℝ
  /-- `_loading` -/
  loading : ℝ
  /-- `_outer_radius` -/
  outerRadius : ℝ
  /-- `_scint_density` -/
  scintDensity : ℝ

namespace DBIsotope

variable (c : DecayConst)

open Classical in
/-- Constructor, `/repo/echidna/calc/decay.py:54-81` (the name is left out). -/
noncomputable def new (weightIso weightNat abundance phaseSpace matrixElement : ℝ)
    (loading outerRadius scintDensity : Option ℝ := none) : Except PyErr DBIsotope :=
  if abundance < 0 ∨ abundance > 1 then .error .valueError
  else
    let l : Except PyErr ℝ := match realTruthy loading with
      | some l => if l < 0 ∨ l > 1 then .error .valueError else .ok l
      | none => .ok c.loading
    let r : Except PyErr ℝ := match realTruthy outerRadius with
      | some r => if r ≤ 0 then .error .valueError else .ok r
      | none => .ok c.avRadius
    let d : ℝ := match realTruthy scintDensity with
      | some d => d
      | none => c.scintDensity
    match l, r with
    | .error e, _ => .error e
    | .ok _, .error e => .error e
    | .ok l, .ok r =>
      .ok { weightIso, weightNat, abundance, phaseSpace, matrixElement, loading := l
            outerRadius := r, scintDensity := d }

open Classical in
/-- `get_n_atoms`, `/repo/echidna/calc/decay.py:83-140`. -/
noncomputable def getNAtoms (s : DBIsotope)
    (loading scintDensity targetMass scintMass outerRadius : Option ℝ := none) :
    Except PyErr ℝ :=
  let r := outerRadius.getD s.outerRadius
  let l := loading.getD s.loading
  let d := scintDensity.getD s.scintDensity
  if r ≤ 0 then .error .valueError
  else if l < 0 ∨ l > 1 then .error .valueError
  else do
    let target ← match targetMass with
      | some t => .ok t
      | none => do
        let mass := scintMass.getD (d * (4 / 3 * Real.pi * r ^ 3))
        let frac ← realDiv (s.abundance * (s.weightIso * c.amu)) (s.weightNat * c.amu)
        .ok (frac * l * mass)
    realDiv (target * c.avogadro) (s.weightIso * (1 / 10 ^ 3))

/-- The repeated default `if n_atoms is None: n_atoms = self.get_n_atoms()`. -/
noncomputable def orNAtoms (s : DBIsotope) (n : Option ℝ) : Except PyErr ℝ :=
  match n with
  | some n => .ok n
  | none => s.getNAtoms c

/-- `half_life_to_activity`, `/repo/echidna/calc/decay.py:142-156`. -/
noncomputable def halfLifeToActivity (s : DBIsotope) (halfLife : ℝ) (n : Option ℝ := none) :
    Except PyErr ℝ := do
  let n ← s.orNAtoms c n
  let q ← realDiv (Real.log 2) halfLife
  .ok (q * n)

/-- `activity_to_half_life`, `/repo/echidna/calc/decay.py:158-173`. -/
noncomputable def activityToHalfLife (s : DBIsotope) (activity : ℝ) (n : Option ℝ := none) :
    Except PyErr ℝ := do
  let n ← s.orNAtoms c n
  realDiv (Real.log 2 * n) activity

open Classical in
/-- `eff_mass_to_half_life`, `/repo/echidna/calc/decay.py:175-192`. -/
noncomputable def effMassToHalfLife (s : DBIsotope) (m : ℝ) : Except PyErr ℝ :=
  if m ≤ 0 then .error .valueError
  else do
    let ratio ← realDiv (m ^ 2) (c.electronMass ^ 2)
    realDiv 1 (s.phaseSpace * s.matrixElement ^ 2 * ratio)

/-- `half_life_to_eff_mass`, `/repo/echidna/calc/decay.py:194-207`. -/
noncomputable def halfLifeToEffMass (s : DBIsotope) (halfLife : ℝ) : Except PyErr ℝ := do
  let q ← realDiv (c.electronMass ^ 2) (s.phaseSpace * s.matrixElement ^ 2 * halfLife)
  realSqrt q

open Classical in
/-- `activity_to_counts`, `/repo/echidna/calc/decay.py:209-227`. -/
noncomputable def activityToCounts (activity : ℝ) (livetime : ℝ := 5) : Except PyErr ℝ :=
  if livetime ≤ 0 then .error .valueError else .ok (activity * livetime)

open Classical in
/-- `counts_to_activity`, `/repo/echidna/calc/decay.py:229-246`. -/
noncomputable def countsToActivity (counts : ℝ) (livetime : ℝ := 5) : Except PyErr ℝ :=
  if livetime ≤ 0 then .error .valueError else realDiv counts livetime

open Classical in
/-- `half_life_to_counts`, `/repo/echidna/calc/decay.py:301-324`. -/
noncomputable def halfLifeToCounts (s : DBIsotope) (halfLife : ℝ) (n : Option ℝ := none)
    (livetime : ℝ := 5) : Except PyErr ℝ := do
  let n ← s.orNAtoms c n
  if livetime ≤ 0 then .error .valueError
  else do
    let a ← s.halfLifeToActivity c halfLife (some n)
    activityToCounts a livetime

open Classical in
/-- `counts_to_half_life`, `/repo/echidna/calc/decay.py:326-349`. -/
noncomputable def countsToHalfLife (s : DBIsotope) (counts : ℝ) (n : Option ℝ := none)
    (livetime : ℝ := 5) : Except PyErr ℝ := do
  let n ← s.orNAtoms c n
  if livetime ≤ 0 then .error .valueError
  else do
    let a ← countsToActivity counts livetime
    s.activityToHalfLife c a (some n)

open Classical in
/-- `counts_to_eff_mass`, `/repo/echidna/calc/decay.py:248-271`. -/
noncomputable def countsToEffMass (s : DBIsotope) (counts : ℝ) (n : Option ℝ := none)
    (livetime : ℝ := 5) : Except PyErr ℝ := do
  let n ← s.orNAtoms c n
  if livetime ≤ 0 then .error .valueError
  else do
    let t ← s.countsToHalfLife c counts (some n) livetime
    s.halfLifeToEffMass c t

open Classical in
/-- `eff_mass_to_counts`, `/repo/echidna/calc/decay.py:273-299`. -/
noncomputable def effMassToCounts (s : DBIsotope) (m : ℝ) (n : Option ℝ := none)
    (livetime : ℝ := 5) : Except PyErr ℝ :=
  if m ≤ 0 then .error .valueError
  else do
    let n ← s.orNAtoms c n
    if livetime ≤ 0 then .error .valueError
    else do
      let t ← s.effMassToHalfLife c m
      s.halfLifeToCounts c t (some n) livetime

end DBIsotope

end Verif
