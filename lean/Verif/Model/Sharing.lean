import Verif.Model.Shift
import Verif.Model.Smear
import Mathlib.Logic.Function.Basic

/-!
# Several spectra in one program: which objects they share

The other models treat a spectrum as a value. Here a program makes several spectra, and the
objects that python shares between them are shared: `Spectra.__init__` keeps the configuration
object it is given (`/repo/echidna/core/spectra.py:47`), and `copy.copy(spectrum)` at the start of
every smearing, shifting and scaling copies the references `_config` and `_rois`. The histogram
`_data` is never shared: `__init__` makes a new array, and every one of these functions assigns a
new one to the copy (`/repo/echidna/core/shift.py:54`, 189, `/repo/echidna/core/scale.py:56`,
`/repo/echidna/core/smear.py:242`, 319, 489, 567, 708, 782).

`_style` and `_fit_config` are shared by the copies as well but are only replaced, never changed
in place, by the methods of `Spectra`; they are left out.
-/

namespace Verif

/-- A function that makes a new spectrum out of an existing one. -/
inductive Making
  /-- `Shift.shift`, `/repo/echidna/core/shift.py:33-168` -/
  | shift (str : ℚ → PyStr) (spline : List ℚ → List ℚ → Except PyErr (ℚ → ℚ)) (dim : PyStr) (x : ℚ)
  /-- `Shift.shift_by_bin`, `/repo/echidna/core/shift.py:170-226` -/
  | shiftByBin (str : ℚ → PyStr) (dim : PyStr) (x : ℚ)
  /-- `Scale.scale`, `/repo/echidna/core/scale.py:38-171` -/
  | scale (str : ℚ → PyStr) (spline : List ℚ → List ℚ → Except PyErr (ℚ → ℚ)) (dim : PyStr) (x : ℚ)
  /-- `weighted_smear`, `/repo/echidna/core/smear.py:209-284`, 457-532, 674-746 -/
  | weightedSmear (suffix : PyStr) (sigma : ℚ → ℚ) (weight : ℚ → ℚ → ℚ → ℚ) (ns : ℚ) (par : PyStr)
  /-- `random_smear`, `/repo/echidna/core/smear.py:286-345`, 534-594 -/
  | randomSmear (suffix : PyStr) (draws : List ℕ → ℕ → ℚ) (par : PyStr)
  /-- `RadialSmear.random_smear`, `/repo/echidna/core/smear.py:748-801` -/
  | randomSmearRadial (suffix : PyStr) (par : PyStr)

/-- The value that the function returns for a spectrum with the value `s`. -/
def Making.run (s : Spectrum) : Making → Except PyErr NpResult
  | .shift str spline dim x => s.shift str spline dim x
  | .shiftByBin str dim x => (s.shiftByBin str dim x).map .finite
  | .scale str spline dim x => s.scaleAxis str spline dim x
  | .weightedSmear suffix sigma weight ns par => (s.weightedSmear suffix sigma weight ns par).map .finite
  | .randomSmear suffix draws par => (s.randomSmear suffix draws par).map .finite
  | .randomSmearRadial suffix par => (s.randomSmearRadial suffix par).map .finite

/-- A call of a method that changes a spectrum in place; `add j` adds the spectrum made at
step `j`. -/
inductive Method
  | fill (weight : ℚ) (kw : List (PyStr × ℚ))
  | add (j : ℕ)
  | scale (n : ℚ)
  | rebin (ns : List ℕ)
  | shrink (kw : List (PyStr × ℚ))
  | cut (kw : List (PyStr × ℚ))
  | roi (lower upper : ℚ) (dim : PyStr)

/-- The method applied to a spectrum with the value `s`; `others j` is the spectrum made at step
`j`. `none` when the spectrum to add does not exist. -/
def Method.outcome (others : ℕ → Option Spectrum) (s : Spectrum) : Method → Option Outcome
  | .fill w kw => some (s.fill w kw)
  | .add j => (others j).map s.add
  | .scale n => some (s.scale n)
  | .rebin ns => some (s.rebin ns)
  | .shrink kw => some (s.shrink kw)
  | .cut kw => some (s.cut kw)
  | .roi l u d => some (s.shrinkToRoi l u d)

/-- One statement of a program. What a statement makes is called by the number of the
statement. -/
inductive Stmt
  /-- a new `SpectraConfig`, `/repo/echidna/core/config.py:670-674` -/
  | config (axes : List SPar)
  /-- `Spectra(name, num_decays, config)` with the configuration of step `c`,
  `/repo/echidna/core/spectra.py:43-63` -/
  | create (name : PyStr) (decays : ℚ) (c : ℕ)
  /-- `Spectra(name, num_decays, other.get_config())` -/
  | createLike (name : PyStr) (decays : ℚ) (i : ℕ)
  /-- `store.load`, which makes its own configuration, `/repo/echidna/output/store.py:266-288` -/
  | load (s : Spectrum)
  | make (i : ℕ) (m : Making)
  | call (i : ℕ) (m : Method)

/-- A `Spectra` object: `config` and `roiDict` are references. -/
structure SpecObj where
  name : PyStr
  config : ℕ
  roiDict : ℕ
  data : NdArray ℚ
  numDecays : ℚ
  rawEvents : ℤ

/-- The objects that exist. -/
structure SHeap where
  configs : ℕ → Option (List SPar)
  roiDicts : ℕ → List (PyStr × Roi)
  objs : ℕ → Option SpecObj

namespace SHeap

/-- Before the first statement. -/
def empty : SHeap := ⟨fun _ => none, fun _ => [], fun _ => none⟩

/-- What a user sees of the spectrum made at step `i`. -/
def view (h : SHeap) (i : ℕ) : Option Spectrum :=
  match h.objs i with
  | none => none
  | some o =>
    match h.configs o.config with
    | none => none
    | some cfg => some ⟨o.name, cfg, o.data, o.numDecays, o.rawEvents, h.roiDicts o.roiDict⟩

/-- The attributes of `s` become those of a new object `n` that refers to the configuration `c`
and the dictionary `r`. -/
def put (h : SHeap) (n c r : ℕ) (s : Spectrum) : SHeap :=
  { h with objs :=
      Function.update h.objs n (some ⟨s.name, c, r, s.data, s.numDecays, s.rawEvents⟩) }

/-- The object `i` is changed in place to have the value `s`: the methods assign the attributes of
the object, but the parameters of the configuration (`/repo/echidna/core/spectra.py:369`, 526-528)
and the entries of `_rois` (561) are changed inside the objects referred to. -/
def write (h : SHeap) (i : ℕ) (o : SpecObj) (s : Spectrum) : SHeap :=
  { configs := Function.update h.configs o.config (some s.cfg)
    roiDicts := Function.update h.roiDicts o.roiDict s.rois
    objs :=
      Function.update h.objs i
        (some ⟨s.name, o.config, o.roiDict, s.data, s.numDecays, s.rawEvents⟩) }

/-- Statement number `n`. A statement that refers to something that does not exist raises a
`NameError`; exceptions are caught by the program. A function that returns a spectrum with
contents that are not finite is treated like one that raises (simplification). -/
def step (h : SHeap) (n : ℕ) : Stmt → SHeap
  | .config axes => { h with configs := Function.update h.configs n (some axes) }
  | .create name decays c =>
    match h.configs c with
    | none => h
    | some cfg =>
      put { h with roiDicts := Function.update h.roiDicts n [] } n c n
        (Spectrum.new name decays cfg)
  | .createLike name decays i =>
    match h.objs i with
    | none => h
    | some o =>
      match h.configs o.config with
      | none => h
      | some cfg =>
        put { h with roiDicts := Function.update h.roiDicts n [] } n o.config n
          (Spectrum.new name decays cfg)
  | .load s =>
    put { h with
      configs := Function.update h.configs n (some s.cfg)
      roiDicts := Function.update h.roiDicts n s.rois } n n n s
  | .make i m =>
    match h.objs i, h.view i with
    | some o, some s =>
      match m.run s with
      | .ok (.finite t) => h.put n o.config o.roiDict t
      | _ => h
    | _, _ => h
  | .call i m =>
    match h.objs i, h.view i with
    | some o, some s =>
      match m.outcome h.view s with
      | some r => h.write i o r.st
      | none => h
    | _, _ => h

/-- The statements of a program from number `n` on. -/
def run (h : SHeap) (n : ℕ) : List Stmt → SHeap
  | [] => h
  | st :: prog => run (h.step n st) (n + 1) prog

end SHeap

/-- The spectrum made at step `i`, as it is at the end of the program. -/
def specAfter (prog : List Stmt) (i : ℕ) : Option Spectrum := (SHeap.empty.run 0 prog).view i

end Verif
