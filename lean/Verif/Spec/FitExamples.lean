import Verif.Spec.Fit
import Verif.Model.FitSession

/-! Concrete fits used by the `example`s that accompany the theorems about fits. -/

namespace Verif.Ex

/-- four bins of width one half, from 0 to 2 -/
def fitAxis : SPar := ⟨lit "energy_mc", 0, 2, 4⟩

/-- An array of four cells. -/
def four (a b c d : ℚ) : NdArray ℚ := ⟨[4], fun idx => match idx with
  | [0] => a
  | [1] => b
  | [2] => c
  | [3] => d
  | _ => 0⟩

/-- data, fixed background, two floating backgrounds and signal; each with its own
configuration -/
def fitObj : ℕ → Obj
  | 0 => ⟨lit "data", lit "data", 0, four 5 6 7 8, 26, 26, [], none⟩
  | 1 => ⟨lit "Fixed Background", lit "fixed", 1, four 1 1 1 1, 4, 4, [], none⟩
  | 2 => ⟨lit "bkg", lit "bkg", 2, four 1 2 3 4, 10, 10, [], some [0]⟩
  | 3 => ⟨lit "other", lit "other", 3, four 4 3 2 1, 10, 10, [], some [1]⟩
  | _ => ⟨lit "signal", lit "signal", 4, four 0 1 1 0, 2, 2, [], none⟩

/-- The rates of the backgrounds, and a global parameter of kind `kind`. -/
noncomputable def fitParam (kind : ParKind) : ℕ → Param
  | 0 => ⟨.rate, lit "rate", none, 10, some 2, none⟩
  | 1 => ⟨.rate, lit "rate", none, 10, none, none⟩
  | _ => ⟨kind, lit "global", some (lit "energy_mc"), 10, some 2, none⟩

/-- The state before the first evaluation. -/
noncomputable def fitState : FitState where
  cfgs := fun _ => [fitAxis]
  objs := fitObj
  next := 5
  params := fitParam .resolution
  cache := []

/-- A fit with the two floating backgrounds, without global parameters. -/
def fit : Fit where
  data := 0
  dataPars := [lit "energy_mc"]
  fixed := some (1, [lit "energy_mc"])
  floating := some [(2, [lit "energy_mc"]), (3, [lit "energy_mc"])]
  signal := some (4, [lit "energy_mc"])
  pars := [0, 1]
  globals := []
  stat := .bcChi
  statPerBin := false
  perBin := false
  singleBin := false

/-- The same fit with a global parameter. -/
def fitGlobal : Fit := { fit with pars := [2, 0, 1], globals := [2] }

/-- Smearing that moves each bin's contents to the bins in reach in equal parts. -/
def flat : SmearFn := ⟨lit "_flat", fun _ => 1 / 2, fun _ _ _ => 1, 1⟩

/-- An environment: values are written in unary, smearing is flat. -/
def fitEnv : FitEnv where
  str := fun v => List.replicate v.num.natAbs '1' ++ lit "/" ++ List.replicate v.den '1' ++
    (if v < 0 then lit "-" else [])
  spline := fun _ _ => .error .valueError
  smearLY := fun _ => flat
  smearRes := fun _ => flat

/-- Smearing that leaves everything in its bin, if it is not the last one. -/
def narrow : SmearFn := ⟨lit "_narrow", fun _ => 0, fun _ _ _ => 1, 1⟩

/-- Both backgrounds have the background name `bkg`. -/
noncomputable def sameName : FitState := { fitState with
  objs := fun r => if r = 3 then { fitObj 3 with background := lit "bkg" } else fitObj r }

/-- An environment where all values have the same text, as values that agree in twelve digits
have in python. -/
def roundedEnv : FitEnv := { fitEnv with str := fun _ => lit "1", smearRes := fun _ => narrow }

/-- Data and fixed background have half as many bins as the other spectra. -/
noncomputable def coarseData : FitState := { fitState with
  cfgs := fun c => if c ≤ 1 then [{ fitAxis with bins := 2 }] else [fitAxis]
  objs := fun r => if r ≤ 1 then
      { fitObj r with data := ⟨[2], fun idx => if idx = [0] then 11 else 15⟩ }
    else fitObj r }

/-- A region of interest: the two bins in the middle. -/
def sesRoi : Dict (ℚ × ℚ) := [(lit "energy", (1 / 2, 3 / 2))]

/-- The axis of the region. -/
def roiAxis : SPar := ⟨lit "energy_mc", 1 / 2, 3 / 2, 2⟩

/-- Two cells. -/
def two (a b : ℚ) : NdArray ℚ := ⟨[2], fun idx => if idx = [0] then a else if idx = [1] then b else 0⟩

/-- Data and fixed background have been shrunk to the region; the others have not. -/
noncomputable def shrunkState : FitState := { fitState with
  cfgs := fun c => if c ≤ 1 then [roiAxis] else [fitAxis]
  objs := fun r => if r = 0 then { fitObj 0 with data := two 6 7 }
    else if r = 1 then { fitObj 1 with data := two 1 1 } else fitObj r }

/-- A spectrum with two axes, and one with the first of them. -/
noncomputable def planeState : FitState := { fitState with
  cfgs := fun c => if c = 0 then [fitAxis, ⟨lit "radial_mc", 0, 1, 2⟩] else [fitAxis]
  objs := fun r => if r = 0 then { fitObj 0 with data := ⟨[4, 2], fun _ => 1⟩ } else fitObj r }

/-- A fit before any spectrum has been set. -/
def sesNew : Session := { roi := sesRoi, stat := .bcChi }

/-- A fit of data and fixed background. -/
def ses : Session := { sesNew with
  data := some 0
  dataPars := some [lit "energy_mc"]
  fixed := some 1
  fixedPars := some [lit "energy_mc"]
  minimiser := some false }

/-- The same with a floating background. -/
def sesFloating : Session := { ses with
  floating := some [2]
  floatingPars := some [[lit "energy_mc"]]
  config := [(lit "bkg_rate", (0, false))] }

/-- The same with a global parameter. -/
def sesGlobal : Session := { sesFloating with
  config := [(lit "bkg_rate", (0, false)), (lit "global", (1, true))] }

/-- The names under which parameters are entered. -/
def keyOf : ℕ → PyStr
  | 0 => lit "bkg_rate"
  | _ => lit "other_rate"

end Verif.Ex
