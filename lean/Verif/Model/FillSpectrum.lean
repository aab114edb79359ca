import Verif.Model.Spectra
import Verif.Model.Config
import Verif.Model.DsExtract

/-!
# Filling spectra from files

Model of `/repo/echidna/core/fill_spectrum.py`. A file is the list of its entries.
Values read by the extractors are reals; `rnd` is the rounding to a float, a
parameter. Not modelled: the printing, `_bipo` (a flag of the spectrum), loading the
configuration from a file name (see `Model/Config`), `ROOT`.
-/

namespace Verif

/-- `get_valid_…` followed by `get_value_…`: `none` when not valid. -/
abbrev Getter (ε : Type) := ε → Except PyErr (Option ℚ)

/-- The loop over the extractors of one event,
`/repo/echidna/core/fill_spectrum.py:47-53`, `81-96`, `125-130`, `162-167`,
`283-288`: the keyword dictionary is updated until an extractor rejects the event. Returns
the dictionary and the flag `fill`. -/
def collect {ε : Type} : List (PyStr × Getter ε) → ε → Dict ℚ → Except PyErr (Dict ℚ × Bool)
  | [], _, kw => .ok (kw, true)
  | (n, g) :: es, x, kw =>
    match g x with
    | .error e => .error e
    | .ok none => .ok (kw, false)
    | .ok (some v) => collect es x (dictSet kw n v)

/-- `try: spectrum.fill(**fill_kwargs); spectrum._raw_events += 1; except ValueError: pass`,
`/repo/echidna/core/fill_spectrum.py:37-41` and at the end of each loop. -/
def tryFill (s : Spectrum) (kw : Dict ℚ) : Outcome :=
  match s.fill 1 kw with
  | ⟨s', none⟩ => .ok { s' with rawEvents := s'.rawEvents + 1 }
  | ⟨s', some .valueError⟩ => .ok s'
  | o => o

/-- Standard loop of `fill_from_ntuple`, `/repo/echidna/core/fill_spectrum.py:279-296`. -/
def plainLoop {ε : Type} (exts : List (PyStr × Getter ε)) : Spectrum → List ε → Outcome
  | s, [] => .ok s
  | s, x :: xs =>
    match collect exts x [] with
    | .error e => .fail s e
    | .ok (_, false) => plainLoop exts s xs
    | .ok (kw, true) =>
      match tryFill s kw with
      | ⟨s', none⟩ => plainLoop exts s' xs
      | o => o

/-- `_bipo_ntuple`, `/repo/echidna/core/fill_spectrum.py:15-54`: entries with their
`evIndex`; the state is `check_next` and `fill_kwargs`. -/
def bipoLoop {ε : Type} (exts : List (PyStr × Getter ε)) :
    Spectrum → Bool → Dict ℚ → List (ℤ × ε) → Outcome
  | s, _, _, [] => .ok s
  | s, check, kw, (evIndex, x) :: xs =>
    match (if check && decide (evIndex < 1) then tryFill s kw else .ok s) with
    | ⟨s', none⟩ =>
      if evIndex ≠ 0 then bipoLoop exts s' false [] xs
      else
        match collect exts x [] with
        | .error e => .fail s' e
        | .ok (kw', ok) => bipoLoop exts s' (if exts.isEmpty then check else ok) kw' xs
    | o => o

/-- `_root_mc`, `/repo/echidna/core/fill_spectrum.py:141-173`. -/
def rootMC (exts : List (PyStr × Getter RootDS)) (bipo : Bool) : Spectrum → List RootDS → Outcome
  | s, [] => .ok s
  | s, d :: ds =>
    if bipo && decide (d.evs.length ≠ 1) then rootMC exts bipo s ds
    else
      match collect exts d [] with
      | .error e => .fail s e
      | .ok (_, false) => rootMC exts bipo s ds
      | .ok (kw, true) =>
        match tryFill s kw with
        | ⟨s', none⟩ => rootMC exts bipo s' ds
        | o => o

/-- Inner loop of `_root_ev`, `/repo/echidna/core/fill_spectrum.py:121-138`. -/
def evLoop (exts : List (PyStr × Getter (RootEV × RootDS))) (d : RootDS) :
    Spectrum → List RootEV → Outcome
  | s, [] => .ok s
  | s, ev :: evs =>
    match collect exts (ev, d) [] with
    | .error e => .fail s e
    | .ok (_, false) => evLoop exts d s evs
    | .ok (kw, true) =>
      match tryFill s kw with
      | ⟨s', none⟩ => evLoop exts d s' evs
      | o => o

/-- `_root_ev`, `/repo/echidna/core/fill_spectrum.py:105-138`. -/
def rootEV (exts : List (PyStr × Getter (RootEV × RootDS))) (bipo : Bool) :
    Spectrum → List RootDS → Outcome
  | s, [] => .ok s
  | s, d :: ds =>
    if bipo && decide (d.evs.length ≠ 1) then rootEV exts bipo s ds
    else
      match evLoop exts d s d.evs with
      | ⟨s', none⟩ => rootEV exts bipo s' ds
      | o => o

/-- Inner loop of `_root_mix`, `/repo/echidna/core/fill_spectrum.py:78-102`: here the keyword
dictionary is not emptied between the events of an entry. -/
def mixLoop (exts : List (PyStr × Getter (RootEV × RootDS))) (d : RootDS) :
    Spectrum → Dict ℚ → List RootEV → Outcome
  | s, _, [] => .ok s
  | s, kw, ev :: evs =>
    match collect exts (ev, d) kw with
    | .error e => .fail s e
    | .ok (kw', false) => mixLoop exts d s kw' evs
    | .ok (kw', true) =>
      match tryFill s kw' with
      | ⟨s', none⟩ => mixLoop exts d s' kw' evs
      | o => o

/-- `_root_mix`, `/repo/echidna/core/fill_spectrum.py:57-102`. -/
def rootMix (exts : List (PyStr × Getter (RootEV × RootDS))) (bipo : Bool) :
    Spectrum → List RootDS → Outcome
  | s, [] => .ok s
  | s, d :: ds =>
    if bipo && decide (d.evs.length ≠ 1) then rootMix exts bipo s ds
    else
      match mixLoop exts d s [] d.evs with
      | ⟨s', none⟩ => rootMix exts bipo s' ds
      | o => o

/-- Reading an ntuple entry with an extractor. -/
noncomputable def ntGet (rnd : ℝ → ℚ) (e : Extractor) : Getter NtEntry :=
  fun n => .ok (if e.validNtuple n then some (rnd (e.valueNtuple n)) else none)

/-- Reading the simulated part of a root entry with an extractor. -/
noncomputable def mcGet (rnd : ℝ → ℚ) (e : Extractor) : Getter RootDS := fun d =>
  match e.validRootMC d with
  | .error x => .error x
  | .ok false => .ok none
  | .ok true =>
    match e.valueRootMC d with
    | .error x => .error x
    | .ok v => .ok (some (rnd v))

/-- Reading a triggered event of a root entry with an extractor. -/
noncomputable def recoGet (rnd : ℝ → ℚ) (e : Extractor) : Getter (RootEV × RootDS) := fun x =>
  match e.validRootReco x.1 x.2 with
  | .error y => .error y
  | .ok false => .ok none
  | .ok true => .ok (some (rnd (e.valueRootReco x.1)))

/-- The choice in `_root_mix`, `/repo/echidna/core/fill_spectrum.py:82-96`. -/
noncomputable def mixGet (rnd : ℝ → ℚ) (var : PyStr) (e : Extractor) :
    Getter (RootEV × RootDS) :=
  if lastPart var = lit "reco" then recoGet rnd e else fun x => mcGet rnd e x.2

/-- The spectrum to fill, `/repo/echidna/core/fill_spectrum.py:206-215`, `266-274`: a new
one needs a name and a configuration; an existing one gets the number of entries
added to its decays. -/
def fillTarget (name : PyStr) (cfg : Option (List SPar)) (spectrum : Option Spectrum)
    (entries : ℕ) : Except PyErr Spectrum :=
  match spectrum with
  | some s => .ok { s with numDecays := s.numDecays + entries }
  | none =>
    match cfg with
    | none => .error .valueError
    | some c => if name = [] then .error .valueError else .ok (Spectrum.new name entries c)

/-- The keyword arguments passed on to the extractors. -/
structure ExtArgs where
  /-- `fv_radius` -/
  fv : Option ℝ := none
  /-- `external` -/
  external : Bool := false
  /-- `outer_radius` -/
  outer : Option ℝ := none

/-- The extractors of the axes, in the order of the configuration,
`/repo/echidna/core/fill_spectrum.py:276-278`. -/
noncomputable def makeExtractors (args : ExtArgs) (names : List PyStr) :
    Except PyErr (List (PyStr × Extractor)) :=
  names.mapM (fun n =>
    match Extractor.factory n args.fv args.external args.outer with
    | .ok e => .ok (n, e)
    | .error x => .error x)

/-- `fill_from_ntuple`, `/repo/echidna/core/fill_spectrum.py:239-296`. `.error` is an
exception before there is a spectrum; otherwise the outcome for the spectrum. The
keyword names are the `_name` of the extractors, equal to the axis names. -/
noncomputable def fillFromNtuple (rnd : ℝ → ℚ) (file : List (ℤ × NtEntry)) (name : PyStr)
    (cfg : Option (List SPar)) (spectrum : Option Spectrum) (bipo : Bool) (args : ExtArgs) :
    Except PyErr Outcome :=
  match fillTarget name cfg spectrum file.length with
  | .error x => .error x
  | .ok s =>
    match makeExtractors args s.pars with
    | .error x => .ok (.fail s x)
    | .ok exts =>
      let gs := exts.map (fun e => (e.2.name, ntGet rnd e.2))
      if bipo then .ok (bipoLoop gs s false [] file)
      else .ok (plainLoop gs s (file.map Prod.snd))

/-- The loop over the axes in `fill_from_root`,
`/repo/echidna/core/fill_spectrum.py:217-228`. -/
noncomputable def makeRootExtractors (args : ExtArgs) (names : List PyStr) :
    Except PyErr (List (PyStr × Extractor)) :=
  names.mapM (fun n =>
    if lastPart n = lit "mc" ∨ lastPart n = lit "truth" ∨ lastPart n = lit "reco" then
      match Extractor.factory n args.fv args.external args.outer with
      | .ok e => .ok (n, e)
      | .error x => .error x
    else .error .indexError)

/-- `fill_from_root`, `/repo/echidna/core/fill_spectrum.py:176-236`. The extractors are
kept in a dictionary; `order` is the order in which python iterates over it. -/
noncomputable def fillFromRoot (rnd : ℝ → ℚ)
    (order : List (PyStr × Extractor) → List (PyStr × Extractor)) (file : List RootDS)
    (name : PyStr) (cfg : Option (List SPar)) (spectrum : Option Spectrum) (bipo : Bool)
    (args : ExtArgs) : Except PyErr Outcome :=
  match fillTarget name cfg spectrum file.length with
  | .error x => .error x
  | .ok s =>
    match makeRootExtractors args s.pars with
    | .error x => .ok (.fail s x)
    | .ok exts =>
      let mcFill := s.pars.any (fun n => lastPart n = lit "mc" ∨ lastPart n = lit "truth")
      let evFill := s.pars.any (fun n => lastPart n = lit "reco")
      if mcFill && evFill then
        .ok (rootMix ((order exts).map (fun e => (e.2.name, mixGet rnd e.1 e.2))) bipo s file)
      else if mcFill then
        .ok (rootMC ((order exts).map (fun e => (e.2.name, mcGet rnd e.2))) bipo s file)
      else
        .ok (rootEV ((order exts).map (fun e => (e.2.name, recoGet rnd e.2))) bipo s file)

end Verif
