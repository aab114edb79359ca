import Verif.Model.Fit
import Verif.Model.PreConvolved
import Verif.Model.Scripts

/-!
# Fits with pre-made spectra: `use_pre_made=True` in `echidna/fit/fit.py`

With global parameters, such a fit does not convolve its spectra but loads convolved ones from
files. (Without global parameters the flag is not looked at, and `Model/Fit` applies.) Every
loaded spectrum is an object of its own with its own configuration, and nothing but the
evaluations refers to it; so loaded spectra are values here, kept in the dictionary
`_global_dict` (`/repo/echidna/fit/fit.py:118`). The spectra of the fit itself are only read.

`store.load` is a parameter: what a file holds, or what loading it raises. So is the text of a
number. Simplification: the parameters of a floating background are rates, as
`SpectraFitConfig` loads no others (`Model/FitConfig`); another kind is a `TypeError` here.
-/

namespace Verif

/-- Where pre-made spectra are looked for, and what is found there. -/
structure PreMade where
  /-- `_pre_made_base_dir`, `/repo/echidna/fit/fit.py:150` -/
  baseDir : Option PyStr
  /-- `_location` of the spectra of the fit: the file they were loaded from
  (`/repo/echidna/output/store.py:304`), or `None` (`/repo/echidna/core/spectra.py:63`) -/
  location : ℕ → Option PyStr
  /-- `_orig_num_decays`; no code in the repository sets it -/
  origDecays : ℕ → Option ℚ
  /-- `store.load` -/
  files : PyStr → Except PyErr Spectrum

/-- `get_pre_convolved` of a parameter (`/repo/echidna/core/parameter.py:733-807`, 851-921,
965-1035), as `getPreConvolved`, for the parameters of a fit. -/
def Param.preConvolved (str : ℚ → PyStr) (p : Param) (directory filename : PyStr)
    (addedDim : Bool) : Except PyErr (PyStr × PyStr) :=
  match p.kind, p.value with
  | .rate, _ => .error .attributeError
  | _, none => .error .valueError
  | k, some v => do
    let folder := match k with
      | .scale => lit "scale"
      | .shift => lit "shift"
      | _ => lit "smear"
    let ext := match k with
      | .scale => lit "sc"
      | .shift => lit "sh"
      | _ => if 10 < v then lit "ly" else lit "rs"
    let d ← preDir folder p.dimension directory addedDim
    .ok (d, preName (valueString (str v)) ext filename)

/-- One round of the loop over the global parameters, `/repo/echidna/fit/fit.py:609-616`. -/
def preMadeStep (str : ℚ → PyStr) (path : PyStr × PyStr) (p : Param) :
    Except PyErr (PyStr × PyStr) :=
  match p.dimension with
  | none => .error .typeError
  | some dim =>
    if dim <:+: path.1 then p.preConvolved str path.1 path.2 false
    else p.preConvolved str (path.1 ++ (dim ++ ['/'])) path.2 true

/-- The directory the search starts from, `/repo/echidna/fit/fit.py:603-606`. -/
def PreMade.startDir (pm : PreMade) (location : PyStr) : PyStr :=
  match pm.baseDir with
  | none => dirName location ++ ['/']
  | some d => if d = [] then dirName location ++ ['/'] else d

/-- The file for the spectrum `r` and the global parameters `ps`,
`/repo/echidna/fit/fit.py:600-623`. -/
def preMadeFile (str : ℚ → PyStr) (pm : PreMade) (r : ℕ) (ps : List Param) :
    Except PyErr PyStr :=
  match pm.location r with
  | none => .error .attributeError
  | some location => do
    let path ← ps.foldlM (preMadeStep str) (pm.startDir location, baseName location)
    .ok (path.1 ++ path.2)

/-- `Fit.load_pre_made`, `/repo/echidna/fit/fit.py:582-628`; `n` is the number of decays of the
spectrum `r`. -/
def loadPreMade (str : ℚ → PyStr) (pm : PreMade) (r : ℕ) (n : ℚ) (ps : List Param) :
    Except PyErr Spectrum := do
  let file ← preMadeFile str pm r ps
  let s ← pm.files file
  let s := match pm.origDecays r with
    | none => s
    | some m => if m = 0 then s else { s with numDecays := m }
  let o := s.scale n
  match o.err with
  | some e => .error e
  | none => .ok o.st

/-- A loaded spectrum and the parameters of its fit configuration. -/
structure Loaded where
  spectrum : Spectrum
  fit : Option (List ℕ)

/-- `_global_dict`: loaded spectra by background name and text of the parameter values. -/
abbrev Loads := PyStr × PyStr → Option Loaded

/-- A part of an evaluation: the loaded spectra after it, and result or exception. -/
def PreM (α : Type) : Type := Loads → Loads × Except PyErr α

namespace PreM

/-- Sequencing; an exception keeps the state. -/
instance : Monad PreM where
  pure a := fun ld => (ld, .ok a)
  bind m f := fun ld =>
    match m ld with
    | (ld', .ok a) => f a ld'
    | (ld', .error e) => (ld', .error e)

/-- A computation on values. -/
def lift {α : Type} (x : Except PyErr α) : PreM α := fun ld => (ld, x)

/-- The spectrum that has been loaded for a key. -/
def get (key : PyStr × PyStr) : PreM Loaded := fun ld =>
  match ld key with
  | none => (ld, .error .keyError)
  | some x => (ld, .ok x)

/-- Call a mutating method of a loaded spectrum. -/
def call (key : PyStr × PyStr) (f : Spectrum → Outcome) : PreM Unit := fun ld =>
  match ld key with
  | none => (ld, .error .keyError)
  | some x =>
    let o := f x.spectrum
    (Function.update ld key (some { x with spectrum := { o.st with data := o.st.data.norm } }),
      match o.err with
      | none => .ok ()
      | some e => .error e)

end PreM

/-- The spectrum for the present values of the global parameters,
`/repo/echidna/fit/fit.py:496-511` and 534-550: loaded unless it has been loaded before. Returns
its key. -/
def preMadeFor (env : FitEnv) (pm : PreMade) (f : Fit) (st : FitState) (r : ℕ) :
    PreM (PyStr × PyStr) := fun ld =>
  let ps := f.globals.map st.params
  let key := ((st.objs r).background, curVal env.str ps)
  match ld key with
  | some _ => (ld, .ok key)
  | none =>
    match loadPreMade env.str pm r (st.objs r).numDecays ps with
    | .error e => (ld, .error e)
    | .ok s =>
      (Function.update ld key (some ⟨{ s with data := s.data.norm }, (st.objs r).fit⟩), .ok key)

/-- `parameter.apply_to(spectrum)` for a rate, `/repo/echidna/core/parameter.py:667-684`. -/
def applyRate (key : PyStr × PyStr) (p : Param) : PreM Unit :=
  match p.value with
  | none => PreM.lift (.error .valueError)
  | some v =>
    if p.kind = .rate then PreM.call key (fun s => s.scale v) else PreM.lift (.error .typeError)

/-- `shrink_to_data` and `rebin`, `/repo/echidna/fit/fit.py:521-524`, 551-552 and 866-884. -/
def cutToData (data : Spectrum) (key : PyStr × PyStr) : PreM Unit := do
  let x ← PreM.get key
  let kw ← PreM.lift (dataKw x.spectrum.pars data.cfg)
  PreM.call key (fun s => s.shrink kw)
  PreM.call key (fun s => s.rebin data.data.shape)

/-- One round of the loop over the floating backgrounds, `/repo/echidna/fit/fit.py:493-529`. -/
def preMadeRound (env : FitEnv) (pm : PreMade) (f : Fit) (st : FitState)
    (expected : Option (NdArray ℚ)) (b : ℕ × List PyStr) : PreM (Option (NdArray ℚ)) := do
  let key ← preMadeFor env pm f st b.1
  let x ← PreM.get key
  ((x.fit.getD []).map st.params).forM (applyRate key)
  cutToData (st.view f.data) key
  let x ← PreM.get key
  let proj ← PreM.lift (x.spectrum.ndProject b.2)
  let e ← PreM.lift (addProjection expected proj)
  pure (some e)

/-- Adding the signal, `/repo/echidna/fit/fit.py:532-555`. -/
def preMadeSignal (env : FitEnv) (pm : PreMade) (f : Fit) (st : FitState)
    (expected : Option (NdArray ℚ)) : PreM (Option (NdArray ℚ)) :=
  match f.signal with
  | none => pure expected
  | some (r, pars) => do
    let key ← preMadeFor env pm f st r
    cutToData (st.view f.data) key
    PreM.call key (fun s => s.scale (st.objs r).numDecays)
    let x ← PreM.get key
    let proj ← PreM.lift (x.spectrum.ndProject pars)
    match expected with
    | none => PreM.lift (.error .typeError)
    | some e => do
      let e ← PreM.lift (addProjection (some e) proj)
      pure (some e)

/-- Observed and expected contents, `/repo/echidna/fit/fit.py:483-555`. -/
def preMadeContents (env : FitEnv) (pm : PreMade) (f : Fit) (st : FitState)
    (floating : List (ℕ × List PyStr)) : PreM (NdArray ℚ × Option (NdArray ℚ)) := do
  let observed ← PreM.lift ((st.view f.data).ndProject f.dataPars)
  let expected ← PreM.lift (fixedContents f st).2
  let expected ← floating.foldlM (preMadeRound env pm f st) expected
  let expected ← preMadeSignal env pm f st expected
  pure (observed, expected)

/-- `Fit._funct` with `use_pre_made=True` and global parameters,
`/repo/echidna/fit/fit.py:447-581`: objects and loaded spectra after the call, and the result. -/
noncomputable def preMadeFunct (env : FitEnv) (pm : PreMade) (f : Fit) (args : List ℚ)
    (w : FitState × Loads) :
    (FitState × Loads) × Except PyErr ((StatValue × Option (List ℕ)) × ℝ) :=
  match f.floating with
  | none => (w, .error .valueError)
  | some floating =>
    match setValues f.pars args w.1 with
    | (st, .error e) => ((st, w.2), .error e)
    | (st, .ok _) =>
      match preMadeContents env pm f st floating w.2 with
      | (ld, .error e) => ((st, ld), .error e)
      | (ld, .ok c) =>
        ((st, ld), evaluate f (f.pars.map st.params) (st.view f.data).data.shape c)

/-- The attributes of a fit that say where pre-made spectra are: the directory given to the
constructor and the one given to `set_pre_made_dir`. -/
structure PreMadeDirs where
  /-- `_pre_made_base_dir` -/
  base : Option PyStr
  /-- `_pre_made_dir`; nothing reads it -/
  dir : Option PyStr

/-- `Fit.set_pre_made_dir`, `/repo/echidna/fit/fit.py:824-836`; `isdir` is `os.path.isdir`. -/
def PreMadeDirs.set (isdir : PyStr → Bool) (d : PreMadeDirs) (directory : PyStr) :
    PreMadeDirs × Option PyErr :=
  if isdir directory then ({ d with dir := some directory }, none) else (d, some .valueError)

end Verif
