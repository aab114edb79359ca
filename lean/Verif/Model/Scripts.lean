import Verif.Model.Store
import Verif.Model.Shift
import Verif.Model.Smear
import Verif.Model.FillSpectrum
import Mathlib.Data.List.DropRight

/-!
# The command-line scripts

Model of the scripts in `/repo/echidna/scripts` that read spectra, change them and
save the result. The disk is a function from paths to files; every path can be
written. Not modelled: the option parser, printing, logging, the plots made on the
way and the current directory (a path is the string given). The scripts with a
function `main` catch every exception of it and log it
(`/repo/echidna/scripts/dump_scaled.py:86-89`); the model gives the exception.
-/

namespace Verif

/-! ### python strings and paths -/

/-- `os.path.basename` of a posix path. -/
def baseName (p : PyStr) : PyStr := p.drop (pyRfind '/' p + 1).toNat

/-- `os.path.dirname` of a posix path: slashes at the end are removed unless there is
nothing else. -/
def dirName (p : PyStr) : PyStr :=
  let head := p.take (pyRfind '/' p + 1).toNat
  if head.all (· = '/') then head else head.rdropWhile (· = '/')

/-- `os.path.splitext(name)[0]` for a name without slash: dots at the beginning do not
start an extension. -/
def splitRoot (name : PyStr) : PyStr :=
  let root := name.take (pyRfind '.' name).toNat
  if root.any (· ≠ '.') then root else name

/-- Directory and file name of the simple scripts, `/repo/echidna/scripts/rebin.py:34-36`,
`/repo/echidna/scripts/dump_shifted.py:41-43`, `/repo/echidna/scripts/dump_smeared.py:39-41`. -/
def cutPath (p : PyStr) : PyStr × PyStr :=
  (pySlice p 0 (pyRfind '/' p + 1), pySlice p (pyRfind '/' p + 1) (pyRfind '.' p))

/-- Their output: directory, file name and a suffix. -/
def besides (p suffix : PyStr) : PyStr := (cutPath p).1 ++ (cutPath p).2 ++ suffix

/-- The directory of the output when one may be asked for,
`/repo/echidna/scripts/dump_scaled.py:50-58`. -/
def scaledDir (isdir : PyStr → Bool) (dest : Option PyStr) (file : PyStr) : Except PyErr PyStr :=
  match dest with
  | some (c :: d) =>
    if isdir (c :: d) then
      .ok (if (c :: d).getLast? ≠ some '/' then (c :: d) ++ lit "/" else c :: d)
    else .error .valueError
  | _ => .ok (dirName file ++ lit "/")

/-- The same in `/repo/echidna/scripts/dump_smeared_energy.py:42-54`. -/
def smearedDir (isdir : PyStr → Bool) (dest : Option PyStr) (path : PyStr) : Except PyErr PyStr :=
  match dest with
  | some (c :: d) =>
    if isdir (c :: d) then
      .ok (if (c :: d).getLast? ≠ some '/' then (c :: d) ++ lit "/" else c :: d)
    else .error .valueError
  | _ => .ok (if dirName path ≠ [] then dirName path ++ lit "/" else lit "./")

/-- `if text[-2:] == '.0': text = text[:-2]`, `/repo/echidna/scripts/dump_scaled.py:64-67`,
`/repo/echidna/scripts/dump_smeared_energy.py:91-93`. The call of `rstrip` after it has no
effect. -/
def shortText (t : PyStr) : PyStr :=
  if t.drop (t.length - 2) = lit ".0" then dropRight t 2 else t

/-! ### the disk -/

/-- Path to file; `none`: no such file. -/
abbrev Disk := PyStr → Option H5

/-- `disk` with another file at `path`. -/
def Disk.write (disk : Disk) (path : PyStr) (f : H5) : Disk :=
  fun p => if p = path then some f else disk p

/-- Why a script stops early. -/
inductive Stop
  | raised (e : PyErr)
  /-- `IOError` -/
  | ioError
  /-- `parser.error`: message and exit -/
  | usage
  deriving DecidableEq

/-- How a script ends. -/
inductive RunEnd
  | done (disk : Disk)
  | stopped (disk : Disk) (why : Stop)
  /-- a file of nan and inf is written, see `NpResult` -/
  | notFinite

/-- `store.load(path)`, `/repo/echidna/output/store.py:246-310`; a missing file is an
`IOError` of h5py. -/
noncomputable def loadAt (ft : FloatText) (disk : Disk) (path : PyStr) : Except Stop FullSpec :=
  match disk path with
  | none => .error .ioError
  | some f =>
    match load ft path f with
    | .ok s => .ok s
    | .error e => .error (.raised e)

/-- `store.dump(path, spectrum)`, `/repo/echidna/output/store.py:82-120`. -/
def dumpAt (disk : Disk) (path : PyStr) (s : FullSpec) : RunEnd :=
  let o := dump (disk path) s
  match o.err with
  | none => .done (disk.write path o.file)
  | some e => .stopped (disk.write path o.file) (.raised e)

/-! ### methods of a spectrum with all attributes -/

/-- The attributes used by the methods of `Model/Spectra`. The regions of interest are
not touched by the methods used here and left out. -/
def FullSpec.core (s : FullSpec) : Spectrum :=
  ⟨s.name, s.config.pars.map Prod.snd, s.data, s.numDecays, s.rawEvents, []⟩

/-- The spectrum after a method has changed these attributes. -/
def FullSpec.withCore (s : FullSpec) (c : Spectrum) : FullSpec :=
  { s with
    name := c.name, data := c.data, numDecays := c.numDecays, rawEvents := c.rawEvents
    config := ⟨s.config.name, List.zipWith (fun e p => (e.1, p)) s.config.pars c.cfg⟩ }

/-! ### scripts -/

/-- `/repo/echidna/scripts/rebin.py:24-48`. `bins = none`: option not given. -/
noncomputable def rebinScript (ft : FloatText) (disk : Disk) (input : PyStr) (output : Option PyStr)
    (bins : Option (List ℕ)) : RunEnd :=
  match loadAt ft disk input with
  | .error e => .stopped disk e
  | .ok s =>
    match bins with
    | none => .stopped disk (.raised .typeError)
    | some ns =>
      match s.core.rebin ns with
      | ⟨_, some e⟩ => .stopped disk (.raised e)
      | ⟨t, none⟩ =>
        match output with
        | some (c :: o) => dumpAt disk (c :: o) (s.withCore t)
        | _ => dumpAt disk (besides input (lit "_rebin.hdf5")) (s.withCore t)

/-- The keywords of `/repo/echidna/scripts/dump_shrink.py:47-73`. An option that was not
given is the empty list. -/
def shrinkArgs (pars : List PyStr) (low up : List ℚ) : Except PyErr (Dict ℚ) :=
  if low ≠ [] ∧ up ≠ [] then
    if low.length ≠ pars.length ∨ up.length ≠ pars.length then .error .valueError
    else .ok ((pars.zip (low.zip up)).foldl (fun d e =>
      dictSet (dictSet d (e.1 ++ lit "_low") e.2.1) (e.1 ++ lit "_high") e.2.2) [])
  else if low ≠ [] then
    if low.length ≠ pars.length then .error .valueError
    else .ok ((pars.zip low).foldl (fun d e => dictSet d (e.1 ++ lit "_low") e.2) [])
  else
    if up.length ≠ pars.length then .error .valueError
    else .ok ((pars.zip up).foldl (fun d e => dictSet d (e.1 ++ lit "_high") e.2) [])

/-- `main` of `/repo/echidna/scripts/dump_shrink.py:29-80`. -/
noncomputable def shrinkScript (ft : FloatText) (disk : Disk) (input : PyStr)
    (output : Option PyStr) (pars : List PyStr) (low up : List ℚ) : RunEnd :=
  if input = [] ∨ pars = [] ∨ (low = [] ∧ up = []) then .stopped disk (.raised .valueError)
  else
    match loadAt ft disk input with
    | .error e => .stopped disk e
    | .ok s =>
      match shrinkArgs pars low up with
      | .error e => .stopped disk (.raised e)
      | .ok kw =>
        match s.core.shrink kw with
        | ⟨_, some e⟩ => .stopped disk (.raised e)
        | ⟨t, none⟩ =>
          match output with
          | some (c :: o) => dumpAt disk (c :: o) (s.withCore t)
          | _ => dumpAt disk
              (dirName input ++ lit "/" ++ splitRoot (baseName input) ++ lit "_shrunk.hdf5")
              (s.withCore t)

/-- Saving a spectrum made by `Shift` or `Scale`. -/
def dumpNp (disk : Disk) (path : PyStr) (s : FullSpec) : NpResult → RunEnd
  | .notFinite => .notFinite
  | .finite t => dumpAt disk path (s.withCore t)

/-- `/repo/echidna/scripts/dump_shifted.py:20-49`. `not args.shift` also holds for a shift of
zero. -/
noncomputable def shiftScript (ft : FloatText) (str : ℚ → PyStr)
    (spline : List ℚ → List ℚ → Except PyErr (ℚ → ℚ)) (disk : Disk) (file dimension : PyStr)
    (shift : Option ℚ) : RunEnd :=
  if file = [] then .stopped disk .ioError
  else
    match shift with
    | none => .stopped disk (.raised .valueError)
    | some x =>
      if x = 0 ∨ dimension = [] then .stopped disk (.raised .valueError)
      else
        match loadAt ft disk file with
        | .error e => .stopped disk e
        | .ok s =>
          match s.core.shift str spline dimension x with
          | .error e => .stopped disk (.raised e)
          | .ok r => dumpNp disk (besides file (lit "_shifted.hdf5")) s r

/-- `main` of `/repo/echidna/scripts/dump_scaled.py:27-69`. -/
noncomputable def scaleScript (ft : FloatText) (str : ℚ → PyStr)
    (spline : List ℚ → List ℚ → Except PyErr (ℚ → ℚ)) (isdir : PyStr → Bool) (disk : Disk)
    (file par : PyStr) (scale : Option ℚ) (dest : Option PyStr) : RunEnd :=
  if file = [] then .stopped disk .ioError
  else
    match scale with
    | none => .stopped disk (.raised .valueError)
    | some x =>
      if x = 0 ∨ par = [] then .stopped disk (.raised .valueError)
      else
        match scaledDir isdir dest file with
        | .error e => .stopped disk (.raised e)
        | .ok dir =>
          match (setScaleFactor 1 x).2 with
          | some e => .stopped disk (.raised e)
          | none =>
            match loadAt ft disk file with
            | .error e => .stopped disk e
            | .ok s =>
              match s.core.scaleAxis str spline par x with
              | .error e => .stopped disk (.raised e)
              | .ok r => dumpNp disk (dir ++ splitRoot (baseName file) ++ lit "_" ++
                  shortText (str x) ++ lit "sc.hdf5") s r

/-- A smearing object: what the two methods of smearing do to a spectrum and a parameter
(`Spectrum.weightedSmear`, `Spectrum.randomSmear`). -/
structure SmearObj where
  weighted : Spectrum → PyStr → Except PyErr Spectrum
  random : Spectrum → PyStr → Except PyErr Spectrum

/-- The loop over the parameters, `/repo/echidna/scripts/dump_smeared.py:51-70`: `how` is the
method, `radial = none` is the loop of
`/repo/echidna/scripts/dump_smeared_energy.py:72-83`. -/
def smearLoop (how : SmearObj → Spectrum → PyStr → Except PyErr Spectrum) (energy : SmearObj)
    (radial : Option SmearObj) (s : Spectrum) (pars : List PyStr) : Except PyErr Spectrum :=
  pars.foldlM (fun acc par =>
    if pyContains (lit "energy") par then how energy acc par
    else
      match radial with
      | some r => if pyContains (lit "radial") par then how r acc par else .ok acc
      | none => .ok acc) s

/-- The choice of the method, `/repo/echidna/scripts/dump_smeared.py:51-72`. -/
def smearBy (method : PyStr) (energy : SmearObj) (radial : Option SmearObj) (s : Spectrum) :
    Except Stop Spectrum :=
  let r (how : SmearObj → Spectrum → PyStr → Except PyErr Spectrum) : Except Stop Spectrum :=
    match smearLoop how energy radial s s.pars with
    | .ok t => .ok t
    | .error e => .error (.raised e)
  if method = lit "weight" then r SmearObj.weighted
  else if method = lit "random" then r SmearObj.random
  else .error .usage

/-- `/repo/echidna/scripts/dump_smeared.py:26-75`. `res` is the energy smearer with a given
resolution, or the exception of `set_resolution`; `ly` the one with the default light yield. A
resolution of zero counts as not given. -/
noncomputable def smearScript (ft : FloatText) (res : ℚ → Except PyErr SmearObj)
    (ly radial : SmearObj) (disk : Disk) (path method : PyStr) (resolution : Option ℚ) : RunEnd :=
  match (match resolution with
    | none => Except.ok ly
    | some x => if x = 0 then Except.ok ly else res x) with
  | .error e => .stopped disk (.raised e)
  | .ok energy =>
    match loadAt ft disk path with
    | .error e => .stopped disk e
    | .ok s =>
      match smearBy method energy (some radial) s.core with
      | .error e => .stopped disk e
      | .ok t => dumpAt disk (besides path (lit "_smeared.hdf5")) (s.withCore t)

/-- `main` of `/repo/echidna/scripts/dump_smeared_energy.py:31-95`. `res` and `ly` are the
smearers with a given resolution and light yield, or the exception of `set_resolution`; the
choice between the Gaussian and the Poisson form is part of them. -/
noncomputable def smearEnergyScript (ft : FloatText) (str : ℚ → PyStr) (isdir : PyStr → Bool)
    (res ly : ℚ → Except PyErr SmearObj) (disk : Disk) (path method : PyStr)
    (resolution : Option ℚ) (lightYield : ℚ) (dest : Option PyStr) : RunEnd :=
  match smearedDir isdir dest path with
  | .error e => .stopped disk (.raised e)
  | .ok dir =>
    let given := match resolution with
      | none => none
      | some x => if x = 0 then none else some x
    match (match given with
      | none => ly lightYield
      | some x => res x) with
    | .error e => .stopped disk (.raised e)
    | .ok energy =>
      match loadAt ft disk path with
      | .error e => .stopped disk e
      | .ok s =>
        match smearBy method energy none s.core with
        | .error e => .stopped disk e
        | .ok t =>
          dumpAt disk (dir ++ splitRoot (baseName path) ++ lit "_" ++
            (match given with
              | some x => str x ++ lit "rs.hdf5"
              | none => shortText (str lightYield) ++ lit "ly.hdf5")) (s.withCore t)

/-- The loop of `/repo/echidna/scripts/combine_hdf5.py:32-39` over the files after the first. -/
noncomputable def combineLoop (ft : FloatText) (disk : Disk) :
    FullSpec → List PyStr → Except Stop FullSpec
  | s, [] => .ok s
  | s, path :: paths =>
    match loadAt ft disk path with
    | .error e => .error e
    | .ok t =>
      match s.core.add t.core with
      | ⟨_, some e⟩ => .error (.raised e)
      | ⟨u, none⟩ => combineLoop ft disk (s.withCore u) paths

/-- `/repo/echidna/scripts/combine_hdf5.py:21-40`. -/
noncomputable def combineScript (ft : FloatText) (disk : Disk) : List PyStr → RunEnd
  | path :: path' :: paths =>
    match loadAt ft disk path with
    | .error e => .stopped disk e
    | .ok s =>
      match combineLoop ft disk s (path' :: paths) with
      | .error e => .stopped disk e
      | .ok t => dumpAt disk (lit "combined.hdf5") t
  | _ => .stopped disk .usage

/-! ### spectra from ntuples -/

/-- An ntuple: its entries with their event index. -/
abbrev Ntuple := List (ℤ × NtEntry)

/-- `fill_from_ntuple` for a spectrum with all attributes,
`/repo/echidna/core/fill_spectrum.py:239-296`. The flag of the coincidence cut is set before
the loop (279-280). -/
noncomputable def fillNew (rnd : ℝ → ℚ) (file : Ntuple) (name : PyStr) (config : SpectraConfig)
    (bipo : Bool) (args : ExtArgs) : Except PyErr FullSpec :=
  match fillFromNtuple rnd file name (some (config.pars.map Prod.snd)) none bipo args with
  | .error e => .error e
  | .ok ⟨_, some e⟩ => .error e
  | .ok ⟨t, none⟩ =>
    .ok { (FullSpec.new name file.length config none none).withCore t with
          bipo := if bipo then 1 else 0 }

/-- The same with an existing spectrum. -/
noncomputable def fillMore (rnd : ℝ → ℚ) (bipo : Bool) (args : ExtArgs) (s : FullSpec)
    (file : Ntuple) : Except PyErr FullSpec :=
  match fillFromNtuple rnd file [] none (some s.core) bipo args with
  | .error e => .error e
  | .ok ⟨_, some e⟩ => .error e
  | .ok ⟨t, none⟩ => .ok { s.withCore t with bipo := if bipo then 1 else s.bipo }

/-- The check of the outer radius, `/repo/echidna/scripts/multi_ntuple_spectrum.py:51-54`,
`/repo/echidna/scripts/dump_spectra_ntuple.py:47-50`: zero counts as not given. -/
noncomputable def outerCheck (config : SpectraConfig) (outer : Option ℝ) : Except PyErr (Option ℝ) :=
  match outer with
  | none => .ok none
  | some r =>
    open Classical in
    if r = 0 then .ok none
    else if lit "radial3" ∈ getDims config.getPars then .ok (some r) else .error .valueError

/-- `create_combined_ntuple_spectrum`, `/repo/echidna/scripts/multi_ntuple_spectrum.py:30-78`.
`files` are the ntuples of the directory in the order of `os.listdir`; without any the name
`spec` is not bound. -/
noncomputable def multiNtupleScript (rnd : ℝ → ℚ) (disk : Disk) (files : List Ntuple)
    (config : SpectraConfig) (bkgndName savePath : PyStr) (bipo : Bool) (fv outer : Option ℝ) :
    RunEnd :=
  match outerCheck config outer with
  | .error e => .stopped disk (.raised e)
  | .ok outer =>
    match files with
    | [] => .stopped disk (.raised .nameError)
    | first :: rest =>
      match (do
        let s ← fillNew rnd first bkgndName config bipo { fv, outer }
        rest.foldlM (fillMore rnd bipo { fv, outer }) s) with
      | .error e => .stopped disk (.raised e)
      | .ok s => dumpAt disk (savePath ++ bkgndName ++ lit ".hdf5") s

/-- The default name, `/repo/echidna/scripts/multi_ntuple_spectrum.py:120-124`:
`data_path[data_path.rfind('/', 0, -2)+1:-1]`. -/
def bkgndDefault (dataPath : PyStr) : PyStr :=
  pySlice dataPath (pyRfind '/' (pySlice dataPath 0 (-2)) + 1) (-1)

/-- `read_and_dump_ntuple`, `/repo/echidna/scripts/dump_spectra_ntuple.py:28-63`. Simplified: the
histograms drawn for every axis before saving (61, 66-78) are left out; they do not change the
spectrum. -/
noncomputable def ntupleScript (rnd : ℝ → ℚ) (disk : Disk) (file : Ntuple) (config : SpectraConfig)
    (name savePath : PyStr) (bipo : Bool) (fv outer : Option ℝ) : RunEnd :=
  match outerCheck config outer with
  | .error e => .stopped disk (.raised e)
  | .ok outer =>
    match fillNew rnd file (name ++ lit "_mc") config bipo { fv, outer } with
    | .error e => .stopped disk (.raised e)
    | .ok s => dumpAt disk (savePath ++ lit "/" ++ name ++ lit ".hdf5") s

/-- `read_and_dump_root`, `/repo/echidna/scripts/dump_spectra_root.py:27-58`. `plot_spectrum`
(69) calls `config.getpars()`, which no configuration has, so `store.dump` is never
reached. -/
noncomputable def rootScript (rnd : ℝ → ℚ)
    (order : List (PyStr × Extractor) → List (PyStr × Extractor)) (disk : Disk)
    (file : List RootDS) (config : SpectraConfig) (name : PyStr) (bipo : Bool)
    (fv outer : Option ℝ) : RunEnd :=
  match outerCheck config outer with
  | .error e => .stopped disk (.raised e)
  | .ok outer =>
    match fillFromRoot rnd order file name (some (config.pars.map Prod.snd)) none bipo
        { fv, outer } with
    | .error e => .stopped disk (.raised e)
    | .ok ⟨_, some e⟩ => .stopped disk (.raised e)
    | .ok ⟨_, none⟩ => .stopped disk (.raised .attributeError)

/-- The name of the spectrum, `/repo/echidna/scripts/dump_spectra_ntuple.py:121`:
`fname[fname.rfind('/', 0, -1)+1:]`. -/
def ntupleName (fname : PyStr) : PyStr :=
  fname.drop (pyRfind '/' (pySlice fname 0 (-1)) + 1).toNat

/-- `read_tab_delim_file`, `/repo/echidna/scripts/dump_spectra_ntuple.py:78-93`: one list of
fields per line. Simplification: no quotes, and an empty line is `[]`. -/
def readTabDelim (lines : List PyStr) : List (List PyStr) :=
  lines.map (fun l => if l = [] then [] else pySplit '\t' l)

/-- The files and half lives taken from it, `/repo/echidna/scripts/dump_spectra_ntuple.py:118-120`:
two rows are needed. -/
def listedFiles (lines : List PyStr) : Except PyErr (List (PyStr × PyStr)) :=
  match readTabDelim lines with
  | [paths, halfLives] => .ok (paths.zip halfLives)
  | _ => .error .valueError

end Verif
