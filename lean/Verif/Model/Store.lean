import Verif.Model.Config
import Verif.Model.Minimise

/-!
# Saving and loading

Model of `/repo/echidna/output/store.py`. HDF5 itself is not modelled: a file is the
tree of groups, attributes and data sets written to it. JSON keeps the order and
the values of dictionaries, so an attribute holding JSON is identified with the
dictionary. The import of the missing module `echidna.limit.summary` (line 6) is
ignored.
-/

namespace Verif

/-! ### dictionaries as strings -/

/-- A value in a style dictionary. -/
inductive PyVal
  | str (s : PyStr)
  | int (i : ℤ)
  | float (x : ℚ)
  /-- a value of any other type -/
  | other

/-- `str` of a float and `float` of a string (`none`: `ValueError`). -/
structure FloatText where
  «show» : ℚ → PyStr
  read : PyStr → Option ℚ

/-- `str` of an integer. -/
def intStr (i : ℤ) : PyStr :=
  if i < 0 then '-' :: Nat.toDigits 10 i.natAbs else Nat.toDigits 10 i.natAbs

/-- `int` of a string of digits. -/
def readNat (s : PyStr) : Option ℕ :=
  if s ≠ [] ∧ s.all Char.isDigit then some (Nat.ofDigitChars 10 s 0) else none

/-- `int` of a string (`none`: `ValueError`). Simplification: no blanks around the
number and no plus sign. -/
def readInt (s : PyStr) : Option ℤ :=
  match s with
  | '-' :: t => (readNat t).map (fun n : ℕ => -(n : ℤ))
  | s => (readNat s).map (fun n : ℕ => (n : ℤ))

/-- `str(value)` and the name of the type, `/repo/echidna/output/store.py:38-47`. -/
def PyVal.encode (ft : FloatText) : PyVal → Except PyErr (PyStr × PyStr)
  | .str s => .ok (s, lit "str")
  | .float x => .ok (ft.show x, lit "float")
  | .int i => .ok (intStr i, lit "int")
  | .other => .error .typeError

/-- One round of the loop of `dict_to_string`, `/repo/echidna/output/store.py:37-47`. -/
def encodeEntry (ft : FloatText) (out : PyStr) (e : PyStr × PyVal) : Except PyErr PyStr :=
  match e.2.encode ft with
  | .error err => .error err
  | .ok (txt, typ) =>
    .ok (out ++ (e.1 ++ (lit ":" ++ (txt ++ (lit ";" ++ (typ ++ lit ","))))))

/-- `dict_to_string`, `/repo/echidna/output/store.py:22-48`. -/
def dictToString (ft : FloatText) (d : Dict PyVal) : Except PyErr PyStr :=
  match d.foldlM (encodeEntry ft) [] with
  | .error e => .error e
  | .ok s => .ok (dropRight s 1)

/-- Conversion of the text by the type, `/repo/echidna/output/store.py:71-78`. -/
def decodeVal (ft : FloatText) (value typ : PyStr) : Except PyErr PyVal :=
  if typ = lit "str" then .ok (.str value)
  else if typ = lit "int" then
    match readInt value with
    | some i => .ok (.int i)
    | none => .error .valueError
  else if typ = lit "float" then
    match ft.read value with
    | some x => .ok (.float x)
    | none => .error .valueError
  else .error .typeError

/-- One round of the loop of `string_to_dict`, `/repo/echidna/output/store.py:67-78`. -/
def decodeEntry (ft : FloatText) (d : Dict PyVal) (entry : PyStr) : Except PyErr (Dict PyVal) :=
  match (pySplit ':' entry)[1]?, (pySplit ';' entry)[1]? with
  | some v, some typ =>
    match decodeVal ft ((pySplit ';' v).headD []) typ with
    | .ok x => .ok (dictSet d ((pySplit ':' entry).headD []) x)
    | .error e => .error e
  | _, _ => .error .indexError

/-- `string_to_dict`, `/repo/echidna/output/store.py:51-79`. -/
def stringToDict (ft : FloatText) (s : PyStr) : Except PyErr (Dict PyVal) :=
  (pySplit ',' s).foldlM (decodeEntry ft) []

/-! ### spectra -/

/-- Plotting style: a string or a dictionary. -/
inductive Style
  | text (s : PyStr)
  | dict (d : Dict PyVal)

/-- `len(style) == 0` -/
def Style.isEmpty : Style → Bool
  | .text s => s.isEmpty
  | .dict d => d.isEmpty

/-- Entry of `_rois`. The second kind only comes from files of the old format. -/
inductive RoiEntry
  | roi (r : Roi)
  | plain (v : PyVal)

/-- `Spectra` with all its attributes, `/repo/echidna/core/spectra.py:43-63`. -/
structure FullSpec where
  name : PyStr
  /-- `_background_name` -/
  background : Option PyStr
  config : SpectraConfig
  fitConfig : Option SpectraFitConfig
  numDecays : ℚ
  rawEvents : ℤ
  bipo : ℤ
  style : Style
  rois : Dict RoiEntry
  data : NdArray ℚ
  /-- `_location` -/
  location : Option PyStr

/-- The default style `{"color": "blue"}`. -/
def defaultStyle : Style := .dict [(lit "color", .str (lit "blue"))]

namespace FullSpec

/-- `Spectra.__init__`, `/repo/echidna/core/spectra.py:43-63`. -/
def new (name : PyStr) (numDecays : ℚ) (config : SpectraConfig)
    (fitConfig : Option SpectraFitConfig) (background : Option PyStr) : FullSpec :=
  { name, background, config, fitConfig, numDecays, rawEvents := 0, bipo := 0
    style := defaultStyle, rois := []
    data := .zeros (config.pars.map (fun e => e.2.bins.toNat)), location := none }

/-- `s.split(sub)[0]` for a non-empty `sub`: the part before the first occurrence. -/
def before (sub : PyStr) : PyStr → PyStr
  | [] => []
  | c :: s => if sub.isPrefixOf (c :: s) then [] else c :: before sub s

/-- `get_background_name`, `/repo/echidna/core/spectra.py:202-222`: the returned name, which is
also stored in the spectrum. -/
def getBackgroundName (s : FullSpec) : Except PyErr PyStr :=
  match s.background with
  | some (c :: b) => .ok (c :: b)
  | _ =>
    if pyContains (lit "mc") s.name then .ok (dropRight (before (lit "mc") s.name) 1)
    else if pyContains (lit "mix") s.name then .ok (dropRight (before (lit "mix") s.name) 1)
    else if pyContains (lit "reco") s.name then .ok (dropRight (before (lit "reco") s.name) 1)
    else .error .valueError

end FullSpec

/-! ### files -/

/-- The group `spectrum` of a file, `/repo/echidna/output/store.py:98-119`. `background`,
`fitConfig` and `bipo` may be missing in older files. An empty string for style
or regions of interest is `none`. -/
structure SpecGroup where
  name : PyStr
  background : Option PyStr
  configName : PyStr
  config : Dict (Dict AxisDict)
  fitConfig : Option (PyStr × Dict (Dict ParDict))
  numDecays : ℚ
  rawEvents : ℤ
  bipo : Option ℤ
  style : Option Style
  rois : Option (Dict RoiEntry)
  data : NdArray ℚ

/-- The group `fit_results`, `/repo/echidna/output/store.py:166-180`. -/
structure FitGroup where
  name : PyStr
  spectraConfig : Dict (Dict AxisDict)
  spectraConfigName : PyStr
  fitConfig : Dict (Dict (Dict ParDict)) × Dict (Dict ParDict)
  fitConfigName : PyStr
  penaltyTerms : NdArray ℝ
  stats : NdArray ℝ
  resets : ℕ

/-- A sub-group of `limit_results`, `/repo/echidna/output/store.py:229-239`. -/
structure SubGroup where
  penaltyTerms : NdArray ℝ
  stats : NdArray ℝ
  resets : ℕ

/-- The group `limit_results`, `/repo/echidna/output/store.py:201-241`. -/
structure LimitGroup where
  name : PyStr
  spectraConfig : Dict (Dict AxisDict)
  spectraConfigName : PyStr
  fitConfig : Dict (Dict (Dict ParDict)) × Dict (Dict ParDict)
  fitConfigName : PyStr
  limitConfig : Dict (Dict ParDict)
  limitConfigName : PyStr
  limitConfigSpectraName : PyStr
  penaltyTerms : Option (NdArray ℝ)
  bestFits : Option (NdArray ℝ)
  stats : NdArray ℝ
  /-- `fits_exist` -/
  fitsExist : Bool
  /-- sub-groups `0`, `1`, ...; `none`: `exists` is zero -/
  subs : List (Option SubGroup)

/-- A file of the old format: attributes of the file itself. `pars` are the
attributes whose name starts with `pars:`, in the order in which the file lists
them. -/
structure OldFile where
  name : PyStr
  numDecays : ℚ
  rawEvents : ℤ
  bipo : Option ℤ
  style : PyStr
  rois : PyStr
  data : NdArray ℚ
  pars : List (PyStr × ℚ)

/-- A file. `some none` is a group that was not written to its end: reading it is
taken to raise a `KeyError`. -/
structure H5 where
  spectrum : Option (Option SpecGroup) := none
  fitResults : Option (Option FitGroup) := none
  limitResults : Option (Option LimitGroup) := none
  old : Option OldFile := none

/-- File after opening it with mode `"a"` or `"w"`: `none` is a file that does not
exist. -/
def H5.opened (file : Option H5) (append : Bool) : H5 := if append then file.getD {} else {}

/-- The fit configuration written by `dump`, `/repo/echidna/output/store.py:103-107`. -/
def dumpFitConfig (s : FullSpec) : Except PyErr (Option (PyStr × Dict (Dict ParDict))) :=
  match s.fitConfig with
  | none => .ok none
  | some fc => (SpectraFitConfig.dump fc).map (fun d => some (fc.config.name, d))

/-- The attributes written by `dump`, `/repo/echidna/output/store.py:99-119`. A data set
without axes cannot be compressed: `TypeError` of h5py. -/
def specGroup (s : FullSpec) (b : PyStr) : Except PyErr SpecGroup := do
  let config ← SpectraConfig.dump s.config
  let fitConfig ← dumpFitConfig s
  if s.data.shape = [] then .error .typeError
  else .ok { name := s.name, background := some b, configName := s.config.name, config
             fitConfig, numDecays := s.numDecays, rawEvents := s.rawEvents
             bipo := some s.bipo, style := if s.style.isEmpty then none else some s.style
             rois := if s.rois.isEmpty then none else some s.rois, data := s.data }

/-- What a call of `dump` leaves behind: the file, the spectrum and the exception. -/
structure DumpOut where
  file : H5
  spec : FullSpec
  err : Option PyErr

/-- `dump`, `/repo/echidna/output/store.py:82-120`. Creating a group that exists is a
`ValueError` of h5py. -/
def dump (file : Option H5) (s : FullSpec) (append overwrite : Bool := false) : DumpOut :=
  let f := H5.opened file append
  let f := if overwrite then { f with spectrum := none } else f
  if f.spectrum.isSome then ⟨f, s, some .valueError⟩
  else
    match s.getBackgroundName with
    | .error e => ⟨{ f with spectrum := some none }, s, some e⟩
    | .ok b =>
      let s := { s with background := some b }
      match specGroup s b with
      | .error e => ⟨{ f with spectrum := some none }, s, some e⟩
      | .ok g => ⟨{ f with spectrum := some (some g) }, s, none⟩

/-- `SpectraParameter.set_par` with one keyword, `/repo/echidna/core/parameter.py:1142-1168`. -/
def SPar.setOld (p : SPar) (val : PyStr) (x : ℚ) : Except PyErr SPar :=
  if val = lit "low" then .ok { p with low := x }
  else if val = lit "high" then .ok { p with high := x }
  else if val = lit "bins" then .ok { p with bins := pyInt x }
  else .error .typeError

/-- One round of the loop of `_load_old`, `/repo/echidna/output/store.py:324-329`. -/
def oldPar (ps : Dict SPar) (e : PyStr × ℚ) : Except PyErr (Dict SPar) :=
  match pySplit ':' e.1 with
  | [_, par, val] =>
    match ((assoc ps par).getD ⟨par, 1, 1, 1⟩).setOld val e.2 with
    | .ok p => .ok (dictSet ps par p)
    | .error err => .error err
  | _ => .error .valueError

/-- `_load_old`, `/repo/echidna/output/store.py:313-346`. A file of the new format has no
attributes of its own: `KeyError`. -/
def loadOld (ft : FloatText) (f : H5) : Except PyErr FullSpec :=
  match f.old with
  | none => .error .keyError
  | some o => do
    let pars ← o.pars.foldlM oldPar []
    let s := FullSpec.new o.name o.numDecays ⟨lit "spectral_config", pars⟩ none none
    let s := { s with rawEvents := o.rawEvents, bipo := o.bipo.getD 0, data := o.data }
    let style ← if o.style = [] then .ok s.style else (stringToDict ft o.style).map Style.dict
    let rois ← if o.rois = [] then .ok s.rois
      else (stringToDict ft o.rois).map (fun d => d.map (fun e => (e.1, RoiEntry.plain e.2)))
    .ok { s with style, rois }

/-- The fit configuration of a group, `/repo/echidna/output/store.py:270-280`: `KeyError`s give
`None`, all other exceptions get through. -/
noncomputable def loadFitConfig (g : SpecGroup) : Except PyErr (Option SpectraFitConfig) :=
  match g.fitConfig with
  | none => .ok none
  | some (n, d) =>
    match SpectraFitConfig.load d g.name n with
    | .ok fc => .ok (some fc)
    | .error .keyError => .ok none
    | .error e => .error e

/-- `load`, `/repo/echidna/output/store.py:246-310`. -/
noncomputable def load (ft : FloatText) (path : PyStr) (f : H5) : Except PyErr FullSpec :=
  match f.spectrum with
  | some (some g) =>
    match SpectraConfig.load g.config g.configName with
    | .error .keyError => loadOld ft f
    | .error e => .error e
    | .ok config => do
      let fitConfig ← loadFitConfig g
      let s := FullSpec.new g.name g.numDecays config fitConfig g.background
      .ok { s with rawEvents := g.rawEvents, bipo := g.bipo.getD 0
                   style := g.style.getD s.style, rois := g.rois.getD s.rois
                   data := g.data, location := some path }
  | _ => loadOld ft f

/-! ### results of fits -/

/-- `GridSearch` with its configurations, `/repo/echidna/fit/minimise.py:90-101`. -/
structure FullSearch where
  name : Option PyStr
  fitConfig : GlobalFitConfig
  spectraConfig : SpectraConfig
  perBin : Bool
  stats : NdArray ℝ
  penaltyTerms : NdArray ℝ
  resets : ℕ

/-- `get_shape` of a global fit configuration, `/repo/echidna/core/config.py:135-145` (the
names are distinct). -/
def GlobalFitConfig.shape (g : GlobalFitConfig) : List ℕ := g.pars.map (fun e => e.2.par.bins)

/-- `get_shape` of a spectral configuration. -/
def SpectraConfig.shape (c : SpectraConfig) : List ℤ := c.pars.map (fun e => e.2.bins)

/-- `dump_fit_results`, `/repo/echidna/output/store.py:151-183`: the file after the call and
the exception. A name of `None` cannot be stored: `TypeError` of h5py. -/
def dumpFitResults (file : Option H5) (r : FullSearch) (append : Bool := false) :
    H5 × Option PyErr :=
  let f := H5.opened file append
  if f.fitResults.isSome then (f, some .valueError)
  else
    match r.name, SpectraConfig.dump r.spectraConfig, r.fitConfig.dump with
    | none, _, _ => ({ f with fitResults := some none }, some .typeError)
    | some _, .error e, _ => ({ f with fitResults := some none }, some e)
    | some _, .ok _, .error e => ({ f with fitResults := some none }, some e)
    | some n, .ok sc, .ok fc =>
      if r.penaltyTerms.shape = [] ∨ r.stats.shape = [] then
        ({ f with fitResults := some none }, some .typeError)
      else
        ({ f with fitResults := some (some
            { name := n, spectraConfig := sc, spectraConfigName := r.spectraConfig.name
              fitConfig := fc, fitConfigName := r.fitConfig.name
              penaltyTerms := r.penaltyTerms, stats := r.stats, resets := r.resets }) }, none)

/-- `per_bin` from the shapes, `/repo/echidna/output/store.py:404-411`. -/
def perBinOf (stats : List ℕ) (fit : List ℕ) (spec : List ℤ) : Except PyErr Bool :=
  if stats = fit then .ok false
  else if stats.map (fun n : ℕ => (n : ℤ)) = fit.map (fun n : ℕ => (n : ℤ)) ++ spec then .ok true
  else .error .valueError

/-- `load_fit_results`, `/repo/echidna/output/store.py:372-420`. -/
noncomputable def loadFitResults (f : H5) : Except PyErr FullSearch :=
  match f.fitResults with
  | some (some g) => do
    let spectraConfig ← SpectraConfig.load g.spectraConfig g.spectraConfigName
    let fitConfig ← GlobalFitConfig.load g.fitConfig.1 (some g.fitConfig.2) g.fitConfigName
    let perBin ← perBinOf g.stats.shape fitConfig.shape spectraConfig.shape
    if g.penaltyTerms.shape ≠ fitConfig.shape then .error .valueError
    else .ok { name := some g.name, fitConfig, spectraConfig, perBin, stats := g.stats
               penaltyTerms := g.penaltyTerms, resets := g.resets }
  | _ => .error .keyError

/-! ### results of limits -/

/-- `LimitResults`, `/repo/echidna/fit/fit_results.py:107-146`. -/
structure FullLimit where
  name : PyStr
  spectraConfig : SpectraConfig
  fitConfig : GlobalFitConfig
  limitConfig : SpectraFitConfig
  penaltyTerms : NdArray ℝ
  bestFits : NdArray ℝ
  stats : NdArray ℝ
  fitResults : List (Option FullSearch)

/-- `a.any()` -/
def NdArray.AnyNonzero (a : NdArray ℝ) : Prop := ∃ idx, InB a.shape idx ∧ a.get idx ≠ 0

open Classical in
/-- `dump_limit_results`, `/repo/echidna/output/store.py:186-243`. -/
noncomputable def dumpLimitResults (file : Option H5) (r : FullLimit) (append : Bool := false) :
    H5 × Option PyErr :=
  let f := H5.opened file append
  if f.limitResults.isSome then (f, some .valueError)
  else
    match SpectraConfig.dump r.spectraConfig, r.fitConfig.dump, r.limitConfig.dump with
    | .error e, _, _ => ({ f with limitResults := some none }, some e)
    | .ok _, .error e, _ => ({ f with limitResults := some none }, some e)
    | .ok _, .ok _, .error e => ({ f with limitResults := some none }, some e)
    | .ok sc, .ok fc, .ok lc =>
      let exist := r.fitResults.any Option.isSome
      ({ f with limitResults := some (some
          { name := r.name, spectraConfig := sc, spectraConfigName := r.spectraConfig.name
            fitConfig := fc, fitConfigName := r.fitConfig.name, limitConfig := lc
            limitConfigName := r.limitConfig.config.name
            limitConfigSpectraName := r.limitConfig.spectraName
            penaltyTerms := if r.penaltyTerms.AnyNonzero then some r.penaltyTerms else none
            bestFits := if r.bestFits.AnyNonzero then some r.bestFits else none
            stats := r.stats, fitsExist := exist
            subs := if exist then r.fitResults.map (Option.map
                (fun s => ⟨s.penaltyTerms, s.stats, s.resets⟩)) else [] }) }, none)

/-- The fit configuration of limit results, `/repo/echidna/output/store.py:442-452`. -/
noncomputable def loadLimitFitConfig (g : LimitGroup) : Except PyErr GlobalFitConfig :=
  match assoc g.fitConfig.2 (lit "spectral_fit_parameters") with
  | none => .error .keyError
  | some [] => GlobalFitConfig.load g.fitConfig.1 none g.fitConfigName
  | some _ => GlobalFitConfig.load g.fitConfig.1 (some g.fitConfig.2) g.fitConfigName

/-- Setting the best fits of all parameters, `/repo/echidna/output/store.py:483-485`: column
`j` of the table belongs to the parameter at position `j`. -/
def setBestFits (best : NdArray ℝ) (i : ℕ) (g : GlobalFitConfig) : Except PyErr GlobalFitConfig :=
  if ∀ j < g.pars.length, InB best.shape [i, j] then
    .ok { g with pars := g.pars.mapIdx (fun j e =>
      (e.1, { e.2 with par := { e.2.par with bestFit := some (best.get [i, j]) } })) }
  else .error .indexError

/-- One round of the loop over the sub-groups, `/repo/echidna/output/store.py:472-486`: the
shared fit configuration, and the results so far. -/
def loadSub (g : LimitGroup) (spectraConfig : SpectraConfig) (best : NdArray ℝ) (scales : ℕ)
    (st : GlobalFitConfig × List (Option FullSearch)) (i : ℕ) :
    Except PyErr (GlobalFitConfig × List (Option FullSearch)) :=
  match g.subs[i]? with
  | none => .error .keyError
  | some none => .ok st
  | some (some sub) =>
    match setBestFits best i st.1 with
    | .error e => .error e
    | .ok fc =>
      if i < scales then
        .ok (fc, st.2.set i (some
          { name := some g.fitConfigName, fitConfig := fc, spectraConfig, perBin := false
            stats := sub.stats, penaltyTerms := sub.penaltyTerms, resets := sub.resets }))
      else .error .indexError

/-- `load_limit_results`, `/repo/echidna/output/store.py:423-488`. -/
noncomputable def loadLimitResults (f : H5) : Except PyErr FullLimit :=
  match f.limitResults with
  | some (some g) => do
    let spectraConfig ← SpectraConfig.load g.spectraConfig g.spectraConfigName
    let fitConfig ← loadLimitFitConfig g
    let limitConfig ← SpectraFitConfig.load g.limitConfig g.limitConfigSpectraName g.limitConfigName
    let rate ← limitConfig.config.getPar (lit "rate")
    let zeros : NdArray ℝ := .zeros [rate.bins, fitConfig.pars.length]
    let best := g.bestFits.getD zeros
    let fits ← (if g.fitsExist then
        match g.stats.shape with
        | [] => .error .typeError
        | n :: _ => (List.range n).foldlM (loadSub g spectraConfig best rate.bins)
            (fitConfig, List.replicate rate.bins none)
      else .ok (fitConfig, List.replicate rate.bins none)
        : Except PyErr (GlobalFitConfig × List (Option FullSearch)))
    .ok { name := g.name, spectraConfig, fitConfig := fits.1, limitConfig
          penaltyTerms := g.penaltyTerms.getD zeros, bestFits := best, stats := g.stats
          fitResults := fits.2 }
  | _ => .error .keyError

/-! ### any other object -/

/-- An attribute of an object: `None`, an array, or something else. -/
inductive ObjAttr (V : Type)
  | none
  | array (a : NdArray ℝ)
  | other (v : V)

/-- A file written by `dump_ndarray`. -/
structure NdFile (V : Type) where
  datasets : Dict (NdArray ℝ) := []
  attrs : Dict V := []

/-- `dump_ndarray`, `/repo/echidna/output/store.py:123-148`: the file and the exception.
`size` is `sys.getsizeof`; arrays without axes cannot be compressed (`TypeError`
of h5py). -/
def dumpNdarray {V : Type} (size : V → ℕ) : Dict (ObjAttr V) → NdFile V → NdFile V × Option PyErr
  | [], f => (f, none)
  | (n, a) :: obj, f =>
    match a with
    | .none => dumpNdarray size obj f
    | .array a =>
      if a.shape = [] then (f, some .typeError)
      else dumpNdarray size obj { f with datasets := dictSet f.datasets n a }
    | .other v =>
      if size v < 65536 then dumpNdarray size obj { f with attrs := dictSet f.attrs n v }
      else (f, some .attributeError)

/-- One attribute in `load_ndarray`, `/repo/echidna/output/store.py:358-367`. -/
def loadAttr {V : Type} (f : NdFile V) (n : PyStr) (a : ObjAttr V) : ObjAttr V :=
  match a with
  | .array a =>
    match assoc f.datasets n with
    | some b => .array b
    | none => .array a
  | a =>
    match assoc f.attrs n with
    | some v => .other v
    | none => a

/-- `load_ndarray`, `/repo/echidna/output/store.py:349-369`. -/
def loadNdarray {V : Type} (f : NdFile V) (obj : Dict (ObjAttr V)) : Dict (ObjAttr V) :=
  obj.map (fun e => (e.1, loadAttr f e.1 e.2))

end Verif
