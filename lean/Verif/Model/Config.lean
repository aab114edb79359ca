import Verif.Model.Spectra
import Verif.Model.FitParameter

/-!
# Configurations

Model of `/repo/echidna/core/config.py`. An `OrderedDict` is an association list
in insertion order (`Dict`). YAML itself is not modelled: the functions of
`/repo/echidna/util/yaml_loader.py:5-49` keep the order and the values of the
dictionaries, so a file is identified with the dictionary written to it.
-/

namespace Verif

/-- An `OrderedDict` with string keys. -/
abbrev Dict (α : Type) := List (PyStr × α)

/-- `d[k] = v` on an `OrderedDict`: an existing key keeps its position, a new one
goes to the end. -/
def dictSet {α : Type} : Dict α → PyStr → α → Dict α
  | [], k, v => [(k, v)]
  | e :: d, k, v => if e.1 = k then (k, v) :: d else e :: dictSet d k v

/-- python `s.replace(old, "")` for a non-empty `old`: occurrences are removed from
left to right. -/
def pyRemove (old : PyStr) : PyStr → PyStr
  | [] => []
  | c :: s =>
    if old.isPrefixOf (c :: s) then pyRemove old (s.drop (old.length - 1))
    else c :: pyRemove old s
termination_by s => s.length
decreasing_by
  · simp
  · simp

/-- python `sub in s` for strings. -/
def pyContains (sub s : PyStr) : Bool := decide (sub <:+: s)

/-! ### the base class -/

/-- `Config`, `/repo/echidna/core/config.py:15-36`: name and parameters. -/
structure Config (α : Type) where
  /-- `_name` -/
  name : PyStr
  /-- `_parameters` -/
  pars : Dict α

namespace Config

variable {α : Type}

/-- `Config.add_par`, `/repo/echidna/core/config.py:38-45`; `nameOf` is the
attribute `_name` of the parameter. -/
def addPar (nameOf : α → PyStr) (c : Config α) (p : α) : Config α :=
  { c with pars := dictSet c.pars (nameOf p) p }

/-- `Config.get_pars`, `/repo/echidna/core/config.py:127-133`. -/
def getPars (c : Config α) : List PyStr := c.pars.map Prod.fst

/-- `Config.get_index`, `/repo/echidna/core/config.py:78-93`. -/
def getIndex (c : Config α) (n : PyStr) : Except PyErr ℕ :=
  match c.getPars.findIdx? (fun p => p = n) with
  | some i => .ok i
  | none => .error .indexError

/-- `Config.get_par`, `/repo/echidna/core/config.py:103-112`. -/
def getPar (c : Config α) (n : PyStr) : Except PyErr α :=
  match assoc c.pars n with
  | some p => .ok p
  | none => .error .keyError

/-- `Config.get_par_by_index`, `/repo/echidna/core/config.py:114-125`. A negative
index counts from the end, as for any python list. -/
def getParByIndex (c : Config α) (i : ℤ) : Except PyErr α :=
  let n : ℤ := c.getPars.length
  let j := if i < 0 then i + n else i
  if j < 0 then .error .indexError
  else match c.getPars[j.toNat]? with
    | some name => c.getPar name
    | none => .error .indexError

/-- `Config.get_shape`, `/repo/echidna/core/config.py:135-145`; `binsOf` is
`get_bins` of the parameter. -/
def getShape {β : Type} (binsOf : α → β) (c : Config α) : Except PyErr (List β) :=
  c.getPars.mapM (fun n => (c.getPar n).map binsOf)

end Config

/-! ### `SpectraConfig` -/

/-- `Parameter.to_dict`, `/repo/echidna/core/parameter.py:105-122`. -/
structure AxisDict where
  low : ℚ
  high : ℚ
  bins : ℤ

/-- `Parameter.to_dict`, `/repo/echidna/core/parameter.py:105-122`. -/
def SPar.toDict (p : SPar) : AxisDict := ⟨p.low, p.high, p.bins⟩

/-- `SpectraParameter(name, **d)`, `/repo/echidna/core/parameter.py:1049-1053`.
The conversions `float(low)`, `float(high)`, `int(bins)` of numbers that are
already of the type are left out. -/
def SPar.ofDict (name : PyStr) (d : AxisDict) : SPar := ⟨name, d.low, d.high, d.bins⟩

/-- `SpectraConfig` -/
abbrev SpectraConfig := Config SPar

namespace SpectraConfig

/-- `SpectraConfig.dump`, `/repo/echidna/core/config.py:676-696`. -/
def dump (c : SpectraConfig) : Except PyErr (Dict (Dict AxisDict)) := do
  let inner ← c.getPars.foldlM (fun d parameter => do
    let par ← Config.getPar c parameter
    pure (dictSet d parameter par.toDict)) ([] : Dict AxisDict)
  pure [(lit "parameters", inner)]

/-- `SpectraConfig.load`, `/repo/echidna/core/config.py:718-757`. -/
def load (config : Dict (Dict AxisDict)) (name : PyStr := lit "config") :
    Except PyErr SpectraConfig :=
  match assoc config (lit "parameters") with
  | none | some [] => .error .keyError
  | some d => .ok ⟨name, d.foldl (fun ps e => dictSet ps e.1 (SPar.ofDict e.1 e.2)) []⟩

end SpectraConfig

/-! ### dictionaries of fit parameters -/

/-- The dictionary of a fit parameter: result of `FitParameter.to_dict` or read
from a file. `none` for `logscale`, `logDev`, `current`, `bestFit` and
`penaltyTerm` stands both for a missing key and for the value `None`: the
defaults of the constructor are `None`. The default of `base` is `e`, so a
missing `base` is told apart (`none`) from `base: None` (`some none`). Missing
`prior`, `sigma`, `low`, `high`, `bins` (a `TypeError`) are left out. -/
structure ParDict where
  prior : ℝ
  sigma : Option ℝ
  low : ℝ
  high : ℝ
  bins : ℕ
  logscale : Option Bool := none
  base : Option (Option ℝ) := none
  logDev : Option Bool := none
  current : Option ℝ := none
  bestFit : Option ℝ := none
  penaltyTerm : Option ℝ := none

/-- `FitParameter.to_dict`, `/repo/echidna/core/parameter.py:598-634`. The entry
`penalty_term` is the best fit, as in line 633. -/
def FitPar.toDict (basic : Bool) (p : FitPar) : ParDict :=
  { prior := p.prior, sigma := p.sigma, low := p.low, high := p.high, bins := p.bins
    logscale := p.logscale, base := some p.base, logDev := p.logDev
    current := if basic then none else p.current
    bestFit := if basic then none else p.bestFit
    penaltyTerm := if basic then none else p.bestFit }

/-- `RateParameter(name, **d)` and the other classes,
`/repo/echidna/core/parameter.py:193-232`: with `logscale` the message formats
`base` with `%.4g`, a `TypeError` for `None`. -/
noncomputable def FitPar.ofDict (name : PyStr) (dimension : Option PyStr) (d : ParDict) :
    Except PyErr FitPar :=
  if d.logscale = some true ∧ d.base = some none then .error .typeError
  else .ok (FitPar.new name d.prior d.sigma d.low d.high d.bins dimension none
    d.current d.penaltyTerm d.bestFit d.logscale (d.base.getD (some (Real.exp 1))) d.logDev)

/-! ### `SpectraFitConfig` -/

/-- `SpectraFitConfig`, `/repo/echidna/core/config.py:515-537`. -/
structure SpectraFitConfig where
  config : Config FitPar
  /-- `_spectra_name` -/
  spectraName : PyStr

namespace SpectraFitConfig

/-- `SpectraFitConfig.dump`, `/repo/echidna/core/config.py:539-560`. -/
def dump (c : SpectraFitConfig) (basic : Bool := false) : Except PyErr (Dict (Dict ParDict)) := do
  let inner ← c.config.getPars.foldlM (fun d parameter => do
    let par ← c.config.getPar parameter
    pure (dictSet d parameter (par.toDict basic))) ([] : Dict ParDict)
  pure [(lit "spectral_fit_parameters", inner)]

/-- The body of the loop over spectral parameters in `load`,
`/repo/echidna/core/config.py:623-628`. -/
noncomputable def loadPar (ps : Dict FitPar) (e : PyStr × ParDict) : Except PyErr (Dict FitPar) :=
  if pyContains (lit "rate") e.1 then do
    let p ← FitPar.ofDict e.1 none e.2
    pure (dictSet ps e.1 p)
  else .error .indexError

/-- `SpectraFitConfig.load`, `/repo/echidna/core/config.py:586-629`. -/
noncomputable def load (config : Dict (Dict ParDict)) (spectraName : PyStr)
    (name : PyStr := lit "spectral_fit_config") : Except PyErr SpectraFitConfig :=
  match assoc config (lit "spectral_fit_parameters") with
  | none | some [] => .error .keyError
  | some d => do
    let ps ← d.foldlM loadPar []
    pure ⟨⟨name, ps⟩, spectraName⟩

end SpectraFitConfig

/-! ### `GlobalFitConfig` -/

/-- The class of a fit parameter: `RateParameter`, `ResolutionParameter`,
`ShiftParameter`, `ScaleParameter`. -/
inductive ParKind
  | rate | resolution | shift | scale
  deriving DecidableEq

/-- An entry `{'par': par, 'type': type}` of `_parameters`,
`/repo/echidna/core/config.py:262`. -/
structure GEntry where
  /-- class of `par` -/
  kind : ParKind
  par : FitPar
  /-- `'type'`: `'global'` (true) or `'spectra'` (false) -/
  isGlobal : Bool

/-- `GlobalFitConfig`, `/repo/echidna/core/config.py:211-226`. -/
structure GlobalFitConfig where
  name : PyStr
  pars : Dict GEntry

namespace GlobalFitConfig

/-- `GlobalFitConfig.add_par`, `/repo/echidna/core/config.py:251-262`. -/
def addPar (g : GlobalFitConfig) (kind : ParKind) (par : FitPar) (parType : PyStr) :
    Except PyErr GlobalFitConfig :=
  if parType ≠ lit "global" ∧ parType ≠ lit "spectra" then .error .indexError
  else .ok { g with pars := dictSet g.pars par.name ⟨kind, par, parType = lit "global"⟩ }

/-- `GlobalFitConfig.get_par`, `/repo/echidna/core/config.py:353-362`. -/
def getPar (g : GlobalFitConfig) (n : PyStr) : Except PyErr FitPar :=
  match assoc g.pars n with
  | some e => .ok e.par
  | none => .error .keyError

/-- `GlobalFitConfig.get_global_pars`, `/repo/echidna/core/config.py:364-375`, with
the class of each parameter. -/
def globalPars (g : GlobalFitConfig) : List (ParKind × FitPar) :=
  (g.pars.filter (fun e => e.2.isGlobal)).map (fun e => (e.2.kind, e.2.par))

/-- `GlobalFitConfig.get_spectra_pars`, `/repo/echidna/core/config.py:377-388`. -/
def spectraPars (g : GlobalFitConfig) : List (ParKind × FitPar) :=
  (g.pars.filter (fun e => !e.2.isGlobal)).map (fun e => (e.2.kind, e.2.par))

/-- `add_config` for a `spectra_fit` configuration,
`/repo/echidna/core/config.py:235-241`: the parameter objects are shared, so the
renaming is seen in the added configuration too (second component). All
parameters of a `SpectraFitConfig` are taken to be `RateParameter`s. -/
def addSpectra (g : GlobalFitConfig) (c : SpectraFitConfig) :
    GlobalFitConfig × SpectraFitConfig :=
  let rename (e : PyStr × FitPar) : FitPar :=
    { e.2 with name := c.spectraName ++ (lit "_" ++ e.1) }
  (c.config.pars.foldl
      (fun g e => { g with pars := dictSet g.pars (rename e).name ⟨.rate, rename e, false⟩ }) g,
    { c with config := { c.config with
        pars := c.config.pars.map (fun e => (e.1, rename e)) } })

/-- `add_config` for a `global_fit` configuration,
`/repo/echidna/core/config.py:242-246`. -/
def addGlobal (g c : GlobalFitConfig) : GlobalFitConfig :=
  let g := c.globalPars.foldl
    (fun g e => { g with pars := dictSet g.pars e.2.name ⟨e.1, e.2, true⟩ }) g
  c.spectraPars.foldl
    (fun g e => { g with pars := dictSet g.pars e.2.name ⟨e.1, e.2, false⟩ }) g

/-- Adding several spectral fit configurations one after another. -/
def addAll (g : GlobalFitConfig) (cs : List SpectraFitConfig) : GlobalFitConfig :=
  cs.foldl (fun g c => (g.addSpectra c).1) g

/-- One round of the loop over the global parameters in `dump`,
`/repo/echidna/core/config.py:284-297`. A parameter without a dimension:
`None in name` is a `TypeError`. -/
def dumpPar (basic : Bool) (d : Dict (Dict ParDict)) (par : FitPar) :
    Except PyErr (Dict (Dict ParDict)) :=
  match par.dimension with
  | none => .error .typeError
  | some dim =>
    let name := if pyContains dim par.name then pyRemove (dim ++ lit "_") par.name else par.name
    .ok (dictSet d dim (dictSet ((assoc d dim).getD []) name (par.toDict basic)))

/-- `GlobalFitConfig.dump`, `/repo/echidna/core/config.py:264-311`: the two
dictionaries. -/
def dump (g : GlobalFitConfig) (basic : Bool := false) :
    Except PyErr (Dict (Dict (Dict ParDict)) × Dict (Dict ParDict)) := do
  let glob ← (g.globalPars.map Prod.snd).foldlM (dumpPar basic) []
  let spec := (g.spectraPars.map Prod.snd).foldl
    (fun d par => dictSet d par.name (par.toDict basic)) ([] : Dict ParDict)
  pure ([(lit "global_fit_parameters", glob)], [(lit "spectral_fit_parameters", spec)])

/-- Class of a global parameter by the name of the systematic,
`/repo/echidna/core/config.py:443-463`. -/
def kindOf (syst : PyStr) : Except PyErr ParKind :=
  if syst = lit "resolution" ∨ syst = lit "resolution_ly" then .ok .resolution
  else if syst = lit "shift" then .ok .shift
  else if syst = lit "scale" then .ok .scale
  else .error .indexError

/-- The inner loop over systematics, `/repo/echidna/core/config.py:441-463`: sets
the local variable `name` (first component) and the parameters. -/
noncomputable def loadSyst (dim : PyStr) (st : PyStr × Dict GEntry) (e : PyStr × ParDict) :
    Except PyErr (PyStr × Dict GEntry) := do
  let name := dim ++ (lit "_" ++ e.1)
  let kind ← kindOf e.1
  let p ← FitPar.ofDict name (some dim) e.2
  pure (name, dictSet st.2 name ⟨kind, p, true⟩)

/-- The loop over dimensions, `/repo/echidna/core/config.py:440-463`. -/
noncomputable def loadDim (st : PyStr × Dict GEntry) (e : PyStr × Dict ParDict) :
    Except PyErr (PyStr × Dict GEntry) :=
  e.2.foldlM (loadSyst e.1) st

/-- The loop over spectral parameters, `/repo/echidna/core/config.py:474-481`. -/
noncomputable def loadRate (ps : Dict GEntry) (e : PyStr × ParDict) : Except PyErr (Dict GEntry) :=
  if pyContains (lit "rate") e.1 then do
    let p ← FitPar.ofDict e.1 none e.2
    pure (dictSet ps e.1 ⟨.rate, p, false⟩)
  else .error .indexError

/-- `GlobalFitConfig.load`, `/repo/echidna/core/config.py:389-483`. The local
variable of the loop over systematics has the name of the argument `name`, so
the argument is overwritten. -/
noncomputable def load (globalConfig : Dict (Dict (Dict ParDict)))
    (spectralConfig : Option (Dict (Dict ParDict)) := none)
    (name : PyStr := lit "global_fit_config") : Except PyErr GlobalFitConfig :=
  match assoc globalConfig (lit "global_fit_parameters") with
  | none => .error .keyError
  | some d => do
    let st ← d.foldlM loadDim (name, [])
    match spectralConfig with
    | none => pure ⟨st.1, st.2⟩
    | some sc =>
      match assoc sc (lit "spectral_fit_parameters") with
      | none | some [] => .error .keyError
      | some s => do
        let ps ← s.foldlM loadRate st.2
        pure ⟨st.1, ps⟩

end GlobalFitConfig

/-! ### files -/

/-- The file name chosen by the `dump_to_file` methods,
`/repo/echidna/core/config.py:335-340`, `344-349`, `577-582`, `710-715`: `default`
without a name, the name of the configuration for a blank one. -/
def dumpName (default configName : PyStr) (fname : Option PyStr) : PyStr :=
  let f := match fname with
    | none => default
    | some f => if f = [] then configName else f
  if pyContains (lit ".yml") f then f else f ++ lit ".yml"

/-- `GlobalFitConfig.dump_to_file`, `/repo/echidna/core/config.py:313-351`, on a file
system of two kinds of documents: files written with mode `"w"` replace older
ones. -/
def GlobalFitConfig.dumpToFile {Doc : Type} (encG : Dict (Dict (Dict ParDict)) → Doc)
    (encS : Dict (Dict ParDict) → Doc) (g : GlobalFitConfig) (fs : Dict Doc) (path : PyStr := [])
    (globalFname spectralFname : Option PyStr := none) (basic : Bool := false) :
    Except PyErr (Dict Doc) := do
  let d ← g.dump basic
  let fs := dictSet fs (path ++ dumpName (lit "global_fit_config") g.name globalFname) (encG d.1)
  pure (dictSet fs (path ++ dumpName (lit "spectral_fit_config") g.name spectralFname) (encS d.2))

/-- python `s.rfind(c)` for one character: the last position, `-1` without one. -/
def pyRfind (c : Char) (s : PyStr) : ℤ :=
  match s.reverse.findIdx? (· = c) with
  | some i => (s.length : ℤ) - 1 - i
  | none => -1

/-- python `s[a:b]` for `a ≥ 0` and any `b`: a negative `b` counts from the end. -/
def pySlice (s : PyStr) (a b : ℤ) : PyStr :=
  let b := if b < 0 then max 0 (b + s.length) else b
  (s.take b.toNat).drop a.toNat

/-- The name given to the configuration by the `load_from_file` methods,
`/repo/echidna/core/config.py:508-512`, `653-657`, `777-781`; `none`: the default
of `load` is used. `not name` holds for the blank name too, so the second test
is never true. -/
def loadName (filename : PyStr) (name : Option PyStr) : Option PyStr :=
  match name with
  | none => none
  | some n =>
    if n = [] then none
    else if n = [] then some (pySlice filename (pyRfind '/' filename + 1) (pyRfind '.' filename))
    else some n

end Verif
