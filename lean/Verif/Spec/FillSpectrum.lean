import Verif.Spec.Spectra
import Verif.Spec.DsExtract
import Verif.Model.FillSpectrum

/-! # Vocabulary of the properties of filling from files -/

namespace Verif

open Classical in
/-- `t` is `s` with the points `pts` filled: those in range are counted as raw events and
add one to the cell that contains them, the others are ignored; nothing else changes. -/
structure Filled (s t : Spectrum) (pts : List (List (PyStr × ℚ))) : Prop where
  name : t.name = s.name
  cfg : t.cfg = s.cfg
  numDecays : t.numDecays = s.numDecays
  rois : t.rois = s.rois
  shape : t.data.shape = s.data.shape
  raw : t.rawEvents = s.rawEvents + (pts.filter (fun p => InRange s p)).length
  cells : ∀ j, t.data.get j =
    s.data.get j + ((pts.filter (fun p => InRange s p ∧ CellOf s p j)).length : ℚ)

/-- The point of an event for a list of axes: the axis names with the values of the event,
or nothing when some axis does not accept the event. -/
def pointOf {α ε : Type} (val : α → ε → Option ℚ) (axes : List (PyStr × α)) (x : ε) :
    Option (List (PyStr × ℚ)) :=
  axes.mapM (fun a => (val a.2 x).map (fun v => (a.1, v)))

/-- Value of an ntuple entry for an extractor, if it is selected. -/
noncomputable def ntVal (rnd : ℝ → ℚ) (e : Extractor) (n : NtEntry) : Option ℚ :=
  if e.validNtuple n = true then some (rnd (e.valueNtuple n)) else none

/-- The entry is accepted by all axes and lies in the ranges of the spectrum. -/
def Counted (rnd : ℝ → ℚ) (exts : List (PyStr × Extractor)) (s : Spectrum) (n : NtEntry) : Prop :=
  ∃ p, pointOf (ntVal rnd) exts n = some p ∧ InRange s p

/-- Value of the simulated part of a root entry, if it is selected. -/
noncomputable def mcVal (rnd : ℝ → ℚ) (e : Extractor) (d : RootDS) : Option ℚ :=
  match e.validRootMC d, e.valueRootMC d with
  | .ok true, .ok v => some (rnd v)
  | _, _ => none

/-- Value of a triggered event, if it is selected. -/
noncomputable def recoVal (rnd : ℝ → ℚ) (e : Extractor) (x : RootEV × RootDS) : Option ℚ :=
  match e.validRootReco x.1 x.2 with
  | .ok true => some (rnd (e.valueRootReco x.1))
  | _ => none

/-- Value for a mixed set of axes: of the triggered event for reconstructed axes, of the
simulation for the others. -/
noncomputable def mixVal (rnd : ℝ → ℚ) (e : Extractor) (x : RootEV × RootDS) : Option ℚ :=
  if e.name ∈ simulatedDims then mcVal rnd e x.2 else recoVal rnd e x

/-- The extractors documented for the axes of a spectrum. -/
def ExtractorsOf (args : ExtArgs) (cfg : List SPar) (exts : List (PyStr × Extractor)) : Prop :=
  List.Forall₂ (fun p e => e.1 = p.name ∧
    Extractor.factory p.name args.fv args.external args.outer = .ok e.2) cfg exts

/-- Coincidence candidates (`evIndex` 0) that are followed by an entry which is not another
trigger of the same event. -/
def followed {ε : Type} (file : List (ℤ × ε)) : List ε :=
  (file.zip file.tail).filterMap (fun ab => if ab.1.1 = 0 ∧ ab.2.1 < 1 then some ab.1.2 else none)

/-- The coincidence candidates that should be kept: not followed by another trigger of the
same event. The last entry is followed by nothing. -/
def untagged {ε : Type} : List (ℤ × ε) → List ε
  | [] => []
  | [a] => if a.1 = 0 then [a.2] else []
  | a :: b :: l => if a.1 = 0 ∧ b.1 < 1 then a.2 :: untagged (b :: l) else untagged (b :: l)

/-- The entries kept by the coincidence cut of root files. -/
def bipoKept (bipo : Bool) (file : List RootDS) : List RootDS :=
  file.filter (fun d => !bipo || decide (d.evs.length = 1))

/-- The triggered events of a file with their entries. -/
def evsOf (file : List RootDS) : List (RootEV × RootDS) :=
  file.flatMap (fun d => d.evs.map (fun ev => (ev, d)))

end Verif
