import Verif.Model.Fit

/-!
# `Fit` objects over time: setters, checks and `Fit.fit`

`/repo/echidna/fit/fit.py` without the function to minimise, which is in `Model/Fit`.

Simplifications: spectra are truthy (the class defines neither `__len__` nor `__nonzero__`);
`check_values` of the fit parameters is left out, as it only warns; logging is left out except
for the dump of the fit configuration in `check_fitter`, which can raise.
-/

namespace Verif

/-- The attributes of a `Fit`, `/repo/echidna/fit/fit.py:54-76`. Lists of roi parameters are
`none` before they have been set. -/
structure Session where
  /-- `_roi`, as it is after `check_roi` -/
  roi : Dict (ℚ × ℚ)
  checked : Bool := false
  data : Option ℕ := none
  dataPars : Option (List PyStr) := none
  fixed : Option ℕ := none
  fixedPars : Option (List PyStr) := none
  floating : Option (List ℕ) := none
  floatingPars : Option (List (List PyStr)) := none
  signal : Option ℕ := none
  signalPars : Option (List PyStr) := none
  /-- `_fit_config`: parameter objects by name; true for global ones -/
  config : Dict (ℕ × Bool) := []
  /-- `_minimiser`: its per-bin flag -/
  minimiser : Option Bool := none
  stat : Stat
  /-- `_test_statistic._per_bin` -/
  statPerBin : Bool := false
  perBin : Bool := false
  singleBin : Bool := false

/-- The result of a method call: attributes and objects afterwards, result or exception. -/
abbrev SesResult (α : Type) : Type := (Session × FitState) × Except PyErr α

namespace Session

/-- `Fit.set_roi`, `/repo/echidna/fit/fit.py:794-805`, for a dictionary of pairs (for other
arguments see `setRoi` in `Model/Fit`): pairs are put in order, and the checks have to be
redone. -/
def setRoi (ses : Session) (roi : Dict (ℚ × ℚ)) : Session :=
  { ses with
    roi := roi.map (fun e => (e.1, if e.2.2 < e.2.1 then (e.2.2, e.2.1) else e.2))
    checked := false }

/-- The first lines of the setters: shrink, or compare with the region of interest,
`/repo/echidna/fit/fit.py:677-680`, 710-713, 734-737. -/
def shrinkOrCheck (roi : Dict (ℚ × ℚ)) (shrink : Bool) (r : ℕ) : FitM Unit :=
  if shrink then shrinkSpectra roi r
  else fun st => (st, checkSpectra roi (st.view r))

/-- `Fit.set_data`, `/repo/echidna/fit/fit.py:668-684`. -/
def setData (ses : Session) (st : FitState) (r : ℕ) (shrink : Bool := true) : SesResult Unit :=
  match shrinkOrCheck ses.roi shrink r st with
  | (st, .error e) => ((ses, st), .error e)
  | (st, .ok _) =>
    match roiPars ses.roi (st.view r) with
    | .error e => (({ ses with data := some r }, st), .error e)
    | .ok ps => (({ ses with data := some r, dataPars := some ps }, st), .ok ())

/-- `Fit.set_fixed_background`, `/repo/echidna/fit/fit.py:701-715`. -/
def setFixed (ses : Session) (st : FitState) (r : ℕ) (shrink : Bool := true) : SesResult Unit :=
  match shrinkOrCheck ses.roi shrink r st with
  | (st, .error e) => ((ses, st), .error e)
  | (st, .ok _) =>
    match roiPars ses.roi (st.view r) with
    | .error e => (({ ses with fixed := some r }, st), .error e)
    | .ok ps => (({ ses with fixed := some r, fixedPars := some ps }, st), .ok ())

/-- `Fit.make_fixed_background`, `/repo/echidna/fit/fit.py:630-661`; the dictionary in iteration
order. -/
def makeFixed (ses : Session) (st : FitState) (d : List (ℕ × ℚ)) (shrink : Bool := true) :
    SesResult Unit :=
  match makeFixedBackground ses.roi shrink d st with
  | (st, .error e) => ((ses, st), .error e)
  | (st, .ok (r, ps)) => (({ ses with fixed := some r, fixedPars := some ps }, st), .ok ())

/-- `Fit.set_signal`, `/repo/echidna/fit/fit.py:807-822`. There is no check without `shrink`. -/
def setSignal (ses : Session) (st : FitState) (r : ℕ) (shrink : Bool := true) : SesResult Unit :=
  match shrinkIf ses.roi shrink r st with
  | (st, .error e) => ((ses, st), .error e)
  | (st, .ok _) =>
    match roiPars ses.roi (st.view r) with
    | .error e => (({ ses with signal := some r }, st), .error e)
    | .ok ps => (({ ses with signal := some r, signalPars := some ps }, st), .ok ())

/-- `Fit.remove_signal`, `/repo/echidna/fit/fit.py:663-666`. -/
def removeSignal (ses : Session) : Session := { ses with signal := none }

/-- `_fit_config.add_config(background.get_fit_config())`, `/repo/echidna/fit/fit.py:730-733`
and `/repo/echidna/core/config.py:235-241`: the parameters of the background are renamed and
entered. `keyOf p` is the name given to the parameter object `p`: name of the spectrum,
underscore, key of the parameter. -/
def addConfig (keyOf : ℕ → PyStr) (config : Dict (ℕ × Bool)) (st : FitState) (r : ℕ) :
    Dict (ℕ × Bool) × FitState :=
  ((st.objs r).fit.getD []).foldl (fun c p =>
    (dictSet c.1 (keyOf p) (p, false),
      { c.2 with params := Function.update c.2.params p { c.2.params p with name := keyOf p } }))
    (config, st)

/-- The loop of `Fit.set_floating_backgrounds`, `/repo/echidna/fit/fit.py:726-738`: fit
configuration and roi parameters. -/
def floatingLoop (keyOf : ℕ → PyStr) (roi : Dict (ℚ × ℚ)) (shrink : Bool) :
    Dict (ℕ × Bool) → FitState → List ℕ → Dict (ℕ × Bool) × FitState × Except PyErr (List (List PyStr))
  | config, st, [] => (config, st, .ok [])
  | config, st, r :: rs =>
    let c := addConfig keyOf config st r
    match shrinkOrCheck roi shrink r c.2 with
    | (st, .error e) => (c.1, st, .error e)
    | (st, .ok _) =>
      match roiPars roi (st.view r) with
      | .error e => (c.1, st, .error e)
      | .ok ps =>
        match floatingLoop keyOf roi shrink c.1 st rs with
        | (config, st, .error e) => (config, st, .error e)
        | (config, st, .ok pss) => (config, st, .ok (ps :: pss))

/-- `Fit.set_floating_backgrounds`, `/repo/echidna/fit/fit.py:717-740`. -/
def setFloating (keyOf : ℕ → PyStr) (ses : Session) (st : FitState) (rs : List ℕ)
    (shrink : Bool := true) : SesResult Unit :=
  match floatingLoop keyOf ses.roi shrink ses.config st rs with
  | (config, st, .error e) => (({ ses with config }, st), .error e)
  | (config, st, .ok pss) =>
    (({ ses with config, floating := some rs, floatingPars := some pss }, st), .ok ())

/-- Shrinking several spectra one after another. -/
def shrinkList (roi : Dict (ℚ × ℚ)) (rs : List ℕ) : FitM Unit := rs.forM (shrinkSpectra roi)

/-- `Fit.shrink_all`, `/repo/echidna/fit/fit.py:838-849`. -/
def shrinkAll (ses : Session) : FitM Unit :=
  shrinkList ses.roi
    (ses.data.toList ++ ses.fixed.toList ++ ses.signal.toList ++ ses.floating.getD [])

/-- A spectrum that has been set, in `Fit.check_all_spectra`: `/repo/echidna/fit/fit.py:191-194`,
203-207, 209-212. An empty list of roi parameters counts as not set. -/
def checkSet (roi : Dict (ℚ × ℚ)) (st : FitState) (r : ℕ) (pars : Option (List PyStr)) :
    Except PyErr Unit :=
  if pars.getD [] = [] then .error .compatibility
  else checkSpectra roi (st.view r)

/-- The floating backgrounds in `Fit.check_all_spectra`, `/repo/echidna/fit/fit.py:214-224`. -/
def checkFloating (ses : Session) : Except PyErr Unit :=
  if ses.floating.getD [] = [] then .ok ()
  else if ses.floatingPars.getD [] = [] then .error .compatibility
  else if (ses.floatingPars.getD []).length ≠ (ses.floating.getD []).length then
    .error .compatibility
  else .ok ()

/-- A spectrum that may be missing, in `Fit.check_all_spectra`. -/
def checkOptional (roi : Dict (ℚ × ℚ)) (st : FitState) (r : Option ℕ) (pars : Option (List PyStr)) :
    Except PyErr Unit :=
  match r with
  | none => .ok ()
  | some r => checkSet roi st r pars

/-- `Fit.check_all_spectra`, `/repo/echidna/fit/fit.py:170-224`. -/
def checkAllSpectra (ses : Session) (st : FitState) : Except PyErr Unit :=
  match ses.data with
  | none => .error .compatibility
  | some d => do
    checkSet ses.roi st d ses.dataPars
    if ses.fixed = none ∧ ses.floating = none then .error .compatibility
    else do
      checkOptional ses.roi st ses.fixed ses.fixedPars
      checkOptional ses.roi st ses.signal ses.signalPars
      checkFloating ses

/-- The parameters of the fit configuration, global or not. -/
def parsOf (ses : Session) (global : Bool) : List ℕ :=
  (ses.config.filter (fun e => e.2.2 == global)).map (fun e => e.2.1)

/-- The numbers of parameters, the minimiser and the per-bin flags in `Fit.check_fitter`,
`/repo/echidna/fit/fit.py:256-278`. -/
def checkSettings (ses : Session) : Except PyErr Unit :=
  if ses.floating.getD [] ≠ [] ∧ ses.config = [] then .error .indexError
  else if ses.floating.getD [] = [] ∧ ses.parsOf false ≠ [] then .error .valueError
  else match ses.minimiser with
    | none => .error .attributeError
    | some minPerBin =>
      if ses.perBin = true ∧ minPerBin = false then .error .valueError
      else if ses.perBin = true ∧ ses.statPerBin = false then .error .valueError
      else .ok ()

/-- `self.get_fit_config().dump(basic=True)` in `Fit.check_fitter`,
`/repo/echidna/fit/fit.py:284-285`: a global parameter without dimension is a `TypeError`
(`GlobalFitConfig.dumpPar` in `Model/Config`). -/
def dumpConfig (ses : Session) (st : FitState) : Except PyErr Unit :=
  if ∃ p ∈ ses.parsOf true, (st.params p).dimension = none then .error .typeError else .ok ()

instance (ses : Session) (st : FitState) :
    Decidable (∃ p ∈ ses.parsOf true, (st.params p).dimension = none) :=
  List.decidableBEx _ _

/-- `Fit.check_fitter`, `/repo/echidna/fit/fit.py:242-288`: the attributes afterwards. -/
def checkFitter (ses : Session) (st : FitState) : Session × Except PyErr Unit :=
  match (do checkAllSpectra ses st; checkSettings ses) with
  | .error e => (ses, .error e)
  | .ok _ => ({ ses with checked := true }, dumpConfig ses st)

/-- `Fit.set_minimiser`, `/repo/echidna/fit/fit.py:742-781`: a given minimiser with this flag, or
a new grid search with the flag of the fit. -/
def setMinimiser (ses : Session) (st : FitState) (given : Option Bool) :
    Session × Except PyErr Unit :=
  match checkAllSpectra ses st with
  | .error e => (ses, .error e)
  | .ok _ => ({ ses with minimiser := some (given.getD ses.perBin) }, .ok ())

/-- Observed and expected contents without floating backgrounds,
`/repo/echidna/fit/fit.py:433-437`. The checks have been passed before, so data are set. -/
def fixedOnly (ses : Session) (st : FitState) : Except PyErr (NdArray ℚ × NdArray ℚ) := do
  let d ← optionOr ses.data .attributeError
  let observed ← (st.view d).ndProject (ses.dataPars.getD [])
  let b ← optionOr ses.fixed .attributeError
  let expected ← (st.view b).ndProject (ses.fixedPars.getD [])
  match ses.signal with
  | none => .ok (observed, expected)
  | some r => do
    let proj ← (st.view r).ndProject (ses.signalPars.getD [])
    let expected ← addProjection (some expected) proj
    .ok (observed, expected)
where
  /-- an attribute of `None` -/
  optionOr {α : Type} (o : Option α) (e : PyErr) : Except PyErr α :=
    match o with
    | some a => .ok a
    | none => .error e

/-- The attributes as the function to minimise reads them (`zip` of backgrounds and roi
parameters, `/repo/echidna/fit/fit.py:493-495`). -/
def toFit (ses : Session) : Fit where
  data := ses.data.getD 0
  dataPars := ses.dataPars.getD []
  fixed := ses.fixed.map (fun r => (r, ses.fixedPars.getD []))
  floating := ses.floating.map (fun rs => rs.zip (ses.floatingPars.getD []))
  signal := ses.signal.map (fun r => (r, ses.signalPars.getD []))
  pars := ses.config.map (fun e => e.2.1)
  globals := ses.parsOf true
  stat := ses.stat
  statPerBin := ses.statPerBin
  perBin := ses.perBin
  singleBin := ses.singleBin

/-- `Fit.fit` after the checks, `/repo/echidna/fit/fit.py:432-445`; `mini` is the minimiser
applied to the function of the fit. -/
noncomputable def runFit {ρ : Type} (mini : Fit → FitM ρ) (ses : Session) (st : FitState) :
    FitState × Except PyErr (StatValue ⊕ ρ) :=
  if ses.floating.getD [] = [] then
    (st, do
      let c ← fixedOnly ses st
      let out ← ses.stat.computeStatistic ses.statPerBin (flatten ses.singleBin c.1)
        (flatten ses.singleBin c.2)
      .ok (.inl out.value))
  else if ses.minimiser = none then (st, .error .attributeError)
  else
    match mini ses.toFit st with
    | (st, .error e) => (st, .error e)
    | (st, .ok r) => (st, .ok (.inr r))

/-- `Fit.fit`, `/repo/echidna/fit/fit.py:423-445`. -/
noncomputable def fit {ρ : Type} (mini : Fit → FitM ρ) (ses : Session) (st : FitState) :
    SesResult (StatValue ⊕ ρ) :=
  if ses.checked then
    let r := runFit mini ses st
    ((ses, r.1), r.2)
  else
    match checkFitter ses st with
    | (ses, .error e) => ((ses, st), .error e)
    | (ses, .ok _) =>
      let r := runFit mini ses st
      ((ses, r.1), r.2)

end Session

end Verif
