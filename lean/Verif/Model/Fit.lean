import Verif.Model.Smear
import Verif.Model.Config
import Verif.Model.TestStatistic

/-!
# `echidna/fit/fit.py`

Spectra, their configurations and fit parameters are objects: `copy.copy` of a spectrum
makes a new spectrum object with the same configuration object, and a fit changes objects in
place. So this model has a store of objects (`FitState`), and methods are state
transformers that keep the state reached when they raise (`FitM`).

Loading pre-made spectra (`use_pre_made=True`) is not part of this model but of
`Model/FitPreMade`.
-/

namespace Verif

/-! ### the region of interest -/

/-- A value of the roi dictionary: a tuple or list of numbers, or something else. -/
inductive RoiVal
  | seq (l : List ℚ)
  | other

/-- The argument of `set_roi`: a dictionary (in iteration order), or something else. -/
inductive RoiArg
  | dict (d : Dict RoiVal)
  | other

/-- The tests for one entry in `Fit.check_roi`, `/repo/echidna/fit/fit.py:304-312`, and the
new entry. The message for a wrong length reads `self._roi[dim]`: `AttributeError` when no
region has been set yet (`old = none`), `KeyError` when the old one has no such dimension. -/
def checkRoiVal (old : Option (Dict RoiVal)) (dim : PyStr) : RoiVal → Except PyErr RoiVal
  | .other => .error .typeError
  | .seq l =>
    match l with
    | [a, b] => if b < a then .ok (.seq [b, a]) else .ok (.seq l)
    | _ =>
      match old with
      | none => .error .attributeError
      | some d => match assoc d dim with
        | none => .error .keyError
        | some _ => .error .compatibility

/-- The loop of `Fit.check_roi`, `/repo/echidna/fit/fit.py:304-312`: entries are reversed in
place, those before a wrong one stay reversed. -/
def checkRoiLoop (old : Option (Dict RoiVal)) : Dict RoiVal → Dict RoiVal × Option PyErr
  | [] => ([], none)
  | e :: d =>
    match checkRoiVal old e.1 e.2 with
    | .error err => (e :: d, some err)
    | .ok v =>
      let r := checkRoiLoop old d
      ((e.1, v) :: r.1, r.2)

/-- `Fit.check_roi`, `/repo/echidna/fit/fit.py:290-312`: the argument after the call and the
exception. -/
def checkRoi (old : Option (Dict RoiVal)) : RoiArg → RoiArg × Option PyErr
  | .other => (.other, some .typeError)
  | .dict d =>
    let r := checkRoiLoop old d
    (.dict r.1, r.2)

/-- `Fit.set_roi`, `/repo/echidna/fit/fit.py:794-805`: the region of the fit after the call (it
is the caller's dictionary, not a copy), the argument after the call, the exception. -/
def setRoi (old : Option (Dict RoiVal)) (roi : RoiArg) :
    Option (Dict RoiVal) × RoiArg × Option PyErr :=
  match checkRoi old roi with
  | (.dict d, none) => (some d, .dict d, none)
  | (r, e) => (old, r, e)

/-! ### objects -/

/-- A `Spectra` object. `cfg` refers to the configuration object; `fit` are the parameter
objects of the fit configuration, if there is one. The array belongs to the object: in
`fit.py` the only operation that writes into an array, `add`, is called on spectra whose array
`scale` has just created. The background name is taken to be set
(`Spectra.get_background_name`, see `Model/Store`). -/
structure Obj where
  name : PyStr
  background : PyStr
  cfg : ℕ
  data : NdArray ℚ
  numDecays : ℚ
  rawEvents : ℤ
  rois : List (PyStr × Roi)
  fit : Option (List ℕ)

/-- A fit parameter object: the attributes used by `fit.py`. The value being tried is a
float, so rational here (`FitPar` has reals because of logarithmic scales). -/
structure Param where
  kind : ParKind
  name : PyStr
  dimension : Option PyStr
  prior : ℝ
  sigma : Option ℝ
  /-- `_current_value` -/
  value : Option ℚ

/-- All objects, and `_global_dict` (`/repo/echidna/fit/fit.py:118`): the convolved spectra by
background name and text of the parameter values. -/
structure FitState where
  cfgs : ℕ → List SPar
  objs : ℕ → Obj
  /-- the first unused spectrum reference -/
  next : ℕ
  params : ℕ → Param
  cache : List ((PyStr × PyStr) × ℕ)

/-- The array with all entries outside its shape set to zero: arrays with the same shape and
entries become equal. -/
def NdArray.norm (a : NdArray ℚ) : NdArray ℚ :=
  ⟨a.shape, fun idx => if InB a.shape idx then a.get idx else 0⟩

namespace FitState

/-- The spectrum seen through a reference. -/
def view (st : FitState) (r : ℕ) : Spectrum :=
  let o := st.objs r
  { name := o.name, cfg := st.cfgs o.cfg, data := o.data.norm, numDecays := o.numDecays,
    rawEvents := o.rawEvents, rois := o.rois }

/-- Write the attributes of a spectrum; the axes go to the configuration object, which other
spectra may share. -/
def write (st : FitState) (r : ℕ) (s : Spectrum) : FitState :=
  { st with
    cfgs := Function.update st.cfgs (st.objs r).cfg s.cfg
    objs := Function.update st.objs r { st.objs r with
      name := s.name, data := s.data, numDecays := s.numDecays, rawEvents := s.rawEvents,
      rois := s.rois } }

/-- `copy.copy(spectrum)`: a new object with the same attributes. -/
def copy (st : FitState) (r : ℕ) : FitState :=
  { st with objs := Function.update st.objs st.next (st.objs r), next := st.next + 1 }

end FitState

/-- A method call: new state, and result or exception. -/
def FitM (α : Type) : Type := FitState → FitState × Except PyErr α

namespace FitM

/-- Sequencing; an exception keeps the state. -/
instance : Monad FitM where
  pure a := fun st => (st, .ok a)
  bind m f := fun st =>
    match m st with
    | (st', .ok a) => f a st'
    | (st', .error e) => (st', .error e)

/-- Raise. -/
def raise {α : Type} (e : PyErr) : FitM α := fun st => (st, .error e)

/-- A computation on values. -/
def lift {α : Type} (x : Except PyErr α) : FitM α := fun st => (st, x)

/-- Read the state. -/
def read {α : Type} (f : FitState → α) : FitM α := fun st => (st, .ok (f st))

/-- Change the state. -/
def change (f : FitState → FitState) : FitM Unit := fun st => (f st, .ok ())

/-- Call a mutating method of a spectrum. -/
def call (r : ℕ) (f : Spectrum → Outcome) : FitM Unit := fun st =>
  let o := f (st.view r)
  (st.write r o.st, match o.err with | none => .ok () | some e => .error e)

/-- `copy.copy(spectrum)` -/
def copy (r : ℕ) : FitM ℕ := fun st => (st.copy r, .ok st.next)

end FitM

/-! ### convolutions -/

/-- A smearer: suffix of the name, sigma and weight functions, number of sigmas. -/
structure SmearFn where
  suffix : PyStr
  sigma : ℚ → ℚ
  weight : ℚ → ℚ → ℚ → ℚ
  numSigma : ℚ

/-- The parts of numpy and scipy that are parameters of the model: `str` of a float, splines,
and the smearers `EnergySmearLY` and `EnergySmearRes` for a resolution. -/
structure FitEnv where
  str : ℚ → PyStr
  spline : List ℚ → List ℚ → Except PyErr (ℚ → ℚ)
  smearLY : ℚ → SmearFn
  smearRes : ℚ → SmearFn

/-- nan contents end the evaluation in this model. -/
def NpResult.orRaise : NpResult → Except PyErr Spectrum
  | .finite s => .ok s
  | .notFinite => .error .zeroDivision

/-- The convolved spectrum of `ResolutionParameter.apply_to`
(`/repo/echidna/core/parameter.py:709-731`), `ScaleParameter.apply_to` (832-849) and
`ShiftParameter.apply_to` (946-963) for the value `v`. Without a dimension no parameter of
the spectrum is found. Rates do not convolve. -/
def convolve (env : FitEnv) (kind : ParKind) (dimension : Option PyStr) (v : ℚ) (s : Spectrum) :
    Except PyErr Spectrum :=
  match kind, dimension with
  | .rate, _ => .error .typeError
  | .resolution, none => .error .indexError
  | .resolution, some dim =>
    let m := if 10 < v then env.smearLY v else env.smearRes v
    s.weightedSmear m.suffix m.sigma m.weight m.numSigma dim
  | .scale, none => if v ≤ 0 then .error .valueError else .error .keyError
  | .scale, some dim =>
    match (setScaleFactor 1 v).2 with
    | some e => .error e
    | none => do (← s.scaleAxis env.str env.spline dim v).orRaise
  | .shift, none => .error .keyError
  | .shift, some dim => do (← s.shift env.str env.spline dim v).orRaise

/-- `apply_to` on objects: `RateParameter.apply_to` (`/repo/echidna/core/parameter.py:667-684`)
scales the spectrum itself; the others make a copy and give it a new array and name. -/
def applyTo (env : FitEnv) (p : Param) (r : ℕ) : FitM ℕ :=
  match p.value with
  | none => FitM.raise .valueError
  | some v =>
    if p.kind = .rate then do
      FitM.call r (fun s => s.scale v)
      pure r
    else do
      let s ← FitM.read (fun st => st.view r)
      let t ← FitM.lift (convolve env p.kind p.dimension v s)
      let c ← FitM.copy r
      FitM.change (fun st => st.write c t)
      pure c

/-- `for parameter in parameters: spectrum = parameter.apply_to(spectrum)`. -/
def applyAll (env : FitEnv) (ps : List ℕ) (r : ℕ) : FitM ℕ :=
  ps.foldlM (fun r p => do
    let par ← FitM.read (fun st => st.params p)
    applyTo env par r) r

/-! ### shrinking -/

/-- The keyword arguments of `Fit.shrink_spectra`, `/repo/echidna/fit/fit.py:858-863`, in the
order of the roi. -/
def roiKw (names : List PyStr) (roi : Dict (ℚ × ℚ)) : Except PyErr (List (PyStr × ℚ)) :=
  roi.foldlM (fun kw e => do
    let ty ← getDimType names e.1
    let par := e.1 ++ '_' :: ty
    pure (dictSet (dictSet kw (par ++ lit "_low") e.2.1) (par ++ lit "_high") e.2.2)) []

/-- `Fit.shrink_spectra`, `/repo/echidna/fit/fit.py:851-864`. -/
def shrinkSpectra (roi : Dict (ℚ × ℚ)) (r : ℕ) : FitM Unit := do
  let s ← FitM.read (fun st => st.view r)
  let kw ← FitM.lift (roiKw s.pars roi)
  FitM.call r (fun s => s.shrink kw)

/-- The keyword arguments of `Fit.shrink_to_data`, `/repo/echidna/fit/fit.py:873-883`: as
`roiKw`, with the axes of the data. -/
def dataKw (names : List PyStr) (axes : List SPar) : Except PyErr (List (PyStr × ℚ)) :=
  roiKw names (axes.map (fun p => (getDim p.name, (p.low, p.high))))

/-- `Fit.shrink_to_data`, `/repo/echidna/fit/fit.py:866-884`. -/
def shrinkToData (data r : ℕ) : FitM Unit := do
  let d ← FitM.read (fun st => st.view data)
  let s ← FitM.read (fun st => st.view r)
  let kw ← FitM.lift (dataKw s.pars d.cfg)
  FitM.call r (fun s => s.shrink kw)

/-! ### checks -/

/-- One round of `Fit.check_spectra`, `/repo/echidna/fit/fit.py:324-339`. -/
def checkSpectraDim (s : Spectrum) (e : PyStr × (ℚ × ℚ)) : Except PyErr Unit := do
  let ty ← getDimType s.pars e.1
  let p ← s.getPar (e.1 ++ '_' :: ty)
  if ¬ npClose e.2.1 p.low then throw .valueError
  if ¬ npClose e.2.2 p.high then throw .valueError

/-- `Fit.check_spectra`, `/repo/echidna/fit/fit.py:314-339`. -/
def checkSpectra (roi : Dict (ℚ × ℚ)) (s : Spectrum) : Except PyErr Unit :=
  roi.forM (checkSpectraDim s)

/-- `Fit.get_roi_pars`, `/repo/echidna/fit/fit.py:397-412`. -/
def roiPars (roi : Dict (ℚ × ℚ)) (s : Spectrum) : Except PyErr (List PyStr) :=
  roi.mapM (fun e => do
    let ty ← getDimType s.pars e.1
    pure (e.1 ++ '_' :: ty))

/-! ### the fixed background -/

/-- `if shrink: self.shrink_spectra(spectrum)` -/
def shrinkIf (roi : Dict (ℚ × ℚ)) (shrink : Bool) (r : ℕ) : FitM Unit :=
  if shrink then shrinkSpectra roi r else pure ()

/-- Shrink (if asked) and scale one spectrum of the dictionary, on a copy:
`/repo/echidna/fit/fit.py:163-167`, 646-650, 655-657. -/
def prepareFixed (roi : Dict (ℚ × ℚ)) (shrink : Bool) (e : ℕ × ℚ) : FitM ℕ := do
  let c ← FitM.copy e.1
  shrinkIf roi shrink c
  FitM.call c (fun s => s.scale e.2)
  pure c

/-- `total_spectrum.add(spectrum)` -/
def addTo (total c : ℕ) : FitM Unit := do
  let s ← FitM.read (fun st => st.view c)
  FitM.call total (fun t => t.add s)

/-- `Fit.append_fixed_background`, `/repo/echidna/fit/fit.py:153-168`; the dictionary in
iteration order. -/
def appendFixed (roi : Dict (ℚ × ℚ)) (shrink : Bool) (total : ℕ) (d : List (ℕ × ℚ)) :
    FitM Unit :=
  d.forM (fun e => do
    let c ← prepareFixed roi shrink e
    addTo total c)

/-- The loop of `Fit.make_fixed_background`, `/repo/echidna/fit/fit.py:639-658`. An empty
dictionary leaves `total_spectrum` unset (`NameError`). -/
def makeFixed (roi : Dict (ℚ × ℚ)) (shrink : Bool) (d : List (ℕ × ℚ)) : FitM ℕ :=
  match d with
  | [] => FitM.raise .nameError
  | e :: d => do
    let total ← prepareFixed roi shrink e
    FitM.change (fun st => { st with
      objs := Function.update st.objs total { st.objs total with name := lit "Fixed Background" } })
    appendFixed roi shrink total d
    pure total

/-- `Fit.make_fixed_background`, `/repo/echidna/fit/fit.py:630-661`: the fixed background and its
roi parameters. -/
def makeFixedBackground (roi : Dict (ℚ × ℚ)) (shrink : Bool) (d : List (ℕ × ℚ)) :
    FitM (ℕ × List PyStr) := do
  let total ← makeFixed roi shrink d
  let s ← FitM.read (fun st => st.view total)
  FitM.lift (if shrink then .ok () else checkSpectra roi s)
  let pars ← FitM.lift (roiPars roi s)
  pure (total, pars)

/-! ### the function to minimise -/

/-- The attributes of a `Fit` that stay as they are during an evaluation. `pars` are the
parameters of `_fit_config` in order, `globals` those of type `global`. -/
structure Fit where
  data : ℕ
  dataPars : List PyStr
  fixed : Option (ℕ × List PyStr)
  /-- backgrounds with their roi parameters (`zip` of the two lists) -/
  floating : Option (List (ℕ × List PyStr))
  signal : Option (ℕ × List PyStr)
  pars : List ℕ
  globals : List ℕ
  stat : Stat
  /-- `_test_statistic._per_bin` -/
  statPerBin : Bool
  perBin : Bool
  singleBin : Bool

/-- Setting the current values, `/repo/echidna/fit/fit.py:479-481`. -/
def setValues (pars : List ℕ) (args : List ℚ) : FitM Unit :=
  args.zipIdx.forM (fun (v, i) =>
    match pars[i]? with
    | none => FitM.raise .indexError
    | some p => FitM.change (fun st => { st with
        params := Function.update st.params p { st.params p with value := some v } }))

/-- `str(parameter._current_value)` -/
def strValue (str : ℚ → PyStr) : Option ℚ → PyStr
  | none => lit "None"
  | some v => str v

/-- `cur_val`, `/repo/echidna/fit/fit.py:490-492`. -/
def curVal (str : ℚ → PyStr) (ps : List Param) : PyStr :=
  ps.foldl (fun cur p => cur ++ (p.name ++ (strValue str p.value ++ ['_']))) []

/-- Spectrum with the global parameters applied, `/repo/echidna/fit/fit.py:496-511`: taken from
the cache or made by `make` and put there. `spectrum._fit_config = fit_config` keeps the fit
configuration of the original. -/
def cached (bg key : PyStr) (fitConfig : Option (List ℕ)) (make : FitM ℕ) : FitM ℕ := do
  let hit ← FitM.read (fun st => assoc st.cache (bg, key))
  match hit with
  | some r => pure r
  | none =>
    let r ← make
    FitM.change (fun st => { st with
      objs := Function.update st.objs r { st.objs r with fit := fitConfig }
      cache := ((bg, key), r) :: st.cache })
    pure r

/-- `expected += projection`, or the projection if there is no expectation yet
(`/repo/echidna/fit/fit.py:526-529`). Different shapes are a `ValueError` (simplification:
numpy would repeat axes of length one). -/
def addProjection (expected : Option (NdArray ℚ)) (proj : NdArray ℚ) :
    Except PyErr (NdArray ℚ) :=
  match expected with
  | none => .ok proj
  | some e => if e.shape = proj.shape then .ok (e.add proj) else .error .valueError

/-- A floating background with the global parameters, `/repo/echidna/fit/fit.py:496-511`. -/
def withGlobals (env : FitEnv) (f : Fit) (r : ℕ) : FitM ℕ :=
  if f.globals = [] then pure r
  else do
    let o ← FitM.read (fun st => st.objs r)
    let ps ← FitM.read (fun st => f.globals.map st.params)
    cached o.background (curVal env.str ps) o.fit (applyAll env f.globals r)

/-- The spectrum of one floating background, ready to be projected,
`/repo/echidna/fit/fit.py:496-524`. -/
def floatingSpectrum (env : FitEnv) (f : Fit) (r : ℕ) : FitM ℕ := do
  let r ← withGlobals env f r
  let o ← FitM.read (fun st => st.objs r)
  let r ← applyAll env (o.fit.getD []) r
  shrinkToData f.data r
  let d ← FitM.read (fun st => st.view f.data)
  FitM.call r (fun s => s.rebin d.data.shape)
  pure r

/-- One round of the loop over the floating backgrounds, `/repo/echidna/fit/fit.py:493-529`. -/
def floatingRound (env : FitEnv) (f : Fit) (expected : Option (NdArray ℚ))
    (b : ℕ × List PyStr) : FitM (Option (NdArray ℚ)) := do
  let r ← floatingSpectrum env f b.1
  let s ← FitM.read (fun st => st.view r)
  let proj ← FitM.lift (s.ndProject b.2)
  let e ← FitM.lift (addProjection expected proj)
  pure (some e)

/-- The signal with the global parameters, `/repo/echidna/fit/fit.py:533-554`. In the loop every
parameter is applied to the original signal, so only the last one counts. -/
def signalSpectrum (env : FitEnv) (f : Fit) (r : ℕ) : FitM ℕ := do
  if f.globals = [] then pure r
  else do
    let o ← FitM.read (fun st => st.objs r)
    let ps ← FitM.read (fun st => f.globals.map st.params)
    let c ← cached o.background (curVal env.str ps) o.fit
      (f.globals.foldlM (fun _ p => do
        let par ← FitM.read (fun st => st.params p)
        applyTo env par r) r)
    shrinkToData f.data c
    let d ← FitM.read (fun st => st.view f.data)
    FitM.call c (fun s => s.rebin d.data.shape)
    FitM.call c (fun s => s.scale o.numDecays)
    pure c

/-- Adding the signal, `/repo/echidna/fit/fit.py:532-555`. Without any background `expected` is
`None` and the addition a `TypeError`. -/
def addSignal (env : FitEnv) (f : Fit) (expected : Option (NdArray ℚ)) :
    FitM (Option (NdArray ℚ)) :=
  match f.signal with
  | none => pure expected
  | some (r, pars) => do
    let c ← signalSpectrum env f r
    let s ← FitM.read (fun st => st.view c)
    let proj ← FitM.lift (s.ndProject pars)
    match expected with
    | none => FitM.raise .typeError
    | some e => do
      let e ← FitM.lift (addProjection (some e) proj)
      pure (some e)

/-- The contents of the fixed background, `/repo/echidna/fit/fit.py:485-488`. -/
def fixedContents (f : Fit) : FitM (Option (NdArray ℚ)) :=
  match f.fixed with
  | none => pure none
  | some (r, pars) => do
    let s ← FitM.read (fun st => st.view r)
    let e ← FitM.lift (s.ndProject pars)
    pure (some e)

/-- Observed and expected contents, `/repo/echidna/fit/fit.py:483-555`. -/
def contents (env : FitEnv) (f : Fit) (floating : List (ℕ × List PyStr)) :
    FitM (NdArray ℚ × Option (NdArray ℚ)) := do
  let d ← FitM.read (fun st => st.view f.data)
  let observed ← FitM.lift (d.ndProject f.dataPars)
  let expected ← fixedContents f
  let expected ← floating.foldlM (floatingRound env f) expected
  let expected ← addSignal env f expected
  pure (observed, expected)

/-- `a.ravel()`, as floats; with `single_bin` the one-element array of the sum,
`/repo/echidna/fit/fit.py:557-560`. -/
noncomputable def flatten (singleBin : Bool) (a : NdArray ℚ) : RArr :=
  if singleBin then ⟨[1], [((a.sum : ℚ) : ℝ)]⟩
  else ⟨[a.shape.prod], (allIdx a.shape).map (fun idx => ((a.get idx : ℚ) : ℝ))⟩

/-- Penalty loop, `/repo/echidna/fit/fit.py:566-575`. -/
noncomputable def totalPenalty (st : Stat) (ps : List Param) : Except PyErr ℝ :=
  ps.foldlM (fun total p =>
    match p.value with
    | none => .error .valueError
    | some v =>
      match p.sigma with
      | none => .ok total
      | some sigma => do
        let t ← st.penalty v p.prior sigma
        .ok (total + t)) 0

/-- The test statistic with the shape given to it, `/repo/echidna/fit/fit.py:577-579`: `none`
when it is not reshaped. -/
noncomputable def reshapeStat (perBin : Bool) (shape : List ℕ) (v : StatValue) :
    Except PyErr (StatValue × Option (List ℕ)) :=
  if perBin then
    match v with
    | .total _ => .error .valueError
    | .bins l => if l.length = shape.prod then .ok (v, some shape) else .error .valueError
  else .ok (v, none)

/-- Statistic and penalty from the contents, `/repo/echidna/fit/fit.py:557-581`; `shape` is the
shape of the last floating spectrum, which is that of the data after `rebin`. -/
noncomputable def evaluate (f : Fit) (ps : List Param) (shape : List ℕ)
    (c : NdArray ℚ × Option (NdArray ℚ)) :
    Except PyErr ((StatValue × Option (List ℕ)) × ℝ) :=
  match c.2 with
  | none => .error .attributeError
  | some expected => do
    let out ← f.stat.computeStatistic f.statPerBin (flatten f.singleBin c.1)
      (flatten f.singleBin expected)
    let total ← totalPenalty f.stat ps
    let r ← reshapeStat f.perBin shape out.value
    pure (r, total)

/-- `Fit._funct`, `/repo/echidna/fit/fit.py:447-581`. -/
noncomputable def funct (env : FitEnv) (f : Fit) (args : List ℚ) :
    FitM ((StatValue × Option (List ℕ)) × ℝ) :=
  match f.floating with
  | none => FitM.raise .valueError
  | some floating => do
    setValues f.pars args
    let c ← contents env f floating
    let ps ← FitM.read (fun st => f.pars.map st.params)
    let d ← FitM.read (fun st => st.view f.data)
    FitM.lift (evaluate f ps d.data.shape c)

end Verif
