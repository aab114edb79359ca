import Verif.Spec.Fit
import Verif.Spec.PreConvolved
import Verif.Model.FitPreMade

/-!
# Vocabulary of the properties of fits with pre-made spectra
-/

namespace Verif

/-- `t` is `s` shrunk to the ranges of the data and then rebinned to the bins of the data. At
least one bin of each axis is left (entries outside the shape of an array do not count). -/
def CutToData (d s t : Spectrum) : Prop :=
  ∃ roi kw, List.Forall₂ (fun (p : SPar) (e : PyStr × (ℚ × ℚ)) =>
      OfDim p.name e.1 ∧ e.2 = (p.low, p.high)) d.cfg roi ∧
    AsksRoi s.cfg roi kw ∧ (s.shrink kw).err = none ∧ (s.shrink kw).st.WF ∧
    ((s.shrink kw).st.rebin d.data.shape).err = none ∧
    t = { ((s.shrink kw).st.rebin d.data.shape).st with
      data := ((s.shrink kw).st.rebin d.data.shape).st.data.norm }

/-- A spectrum that a fit to the data can use: cut to the data, it has the axes of the data. -/
structure FitsData (d s : Spectrum) : Prop where
  wf : s.WF
  dims : DistinctDims s.cfg
  cut : ∃ t, CutToData d s t ∧ OnDataAxes d t
  norm : s.data.norm = s.data

/-- A fit with pre-made spectra before its first evaluation, as the property supposes it. -/
structure PreMadeReady (env : FitEnv) (pm : PreMade) (f : Fit) (st : FitState) : Prop where
  /-- different values have different texts, and texts have no underscore -/
  str : Function.Injective env.str ∧ ∀ v, '_' ∉ env.str v
  /-- floating backgrounds and signal have different background names -/
  backgrounds : (f.moving.map (fun r => (st.objs r).background)).Nodup
  decays : ∀ r ∈ f.moving, (st.objs r).numDecays ≠ 0
  pars : f.pars.Nodup
  globals : ∀ p ∈ f.globals, p ∈ f.pars
  /-- the parameters of the backgrounds are fit parameters and rates -/
  rates : ∀ r ∈ f.floatingRefs, ∀ p ∈ (st.objs r).fit.getD [],
    p ∈ f.pars ∧ (st.params p).kind = .rate
  /-- the files can be used with these data -/
  files : ∀ file s, pm.files file = .ok s → FitsData (st.view f.data) s

/-- Objects and loaded spectra after evaluating the fit at these values, one after the other. -/
noncomputable def afterPreMade (env : FitEnv) (pm : PreMade) (f : Fit) :
    List (List ℚ) → FitState × Loads → FitState × Loads
  | [], w => w
  | args :: hist, w => afterPreMade env pm f hist (preMadeFunct env pm f args w).1

/-- Observed and expected contents when the fit is evaluated at these values. -/
def preMadeEvaluated (env : FitEnv) (pm : PreMade) (f : Fit) (args : List ℚ)
    (w : FitState × Loads) : Except PyErr (NdArray ℚ × Option (NdArray ℚ)) :=
  match setValues f.pars args w.1 with
  | (_, .error e) => .error e
  | (st, .ok _) => (preMadeContents env pm f st (f.floating.getD []) w.2).2

/-- The parameters with these values. -/
def WithTheseValues (st : FitState) (vals : List (ℕ × ℚ)) (ids : List ℕ) (ps : List Param) : Prop :=
  List.Forall₂ (fun p q => ∃ v, (p, v) ∈ vals ∧ q = { st.params p with value := some v }) ids ps

/-- The number of decays which the spectrum in a file counts as. -/
def PreMade.decays (pm : PreMade) (r : ℕ) (s : Spectrum) : ℚ :=
  match pm.origDecays r with
  | none => s.numDecays
  | some m => if m = 0 then s.numDecays else m

/-- A pre-made spectrum: the number of decays of the spectrum in the file, and the projection of
that spectrum cut to the data. -/
structure PreTerm where
  decays : ℚ
  proj : NdArray ℚ

/-- What the file for the spectrum `b.1` and these values contributes. -/
def IsPreTerm (env : FitEnv) (pm : PreMade) (f : Fit) (st : FitState) (args : List ℚ)
    (b : ℕ × List PyStr) (x : PreTerm) : Prop :=
  ∃ ps file s t, WithTheseValues st (f.pars.zip args) f.globals ps ∧
    preMadeFile env.str pm b.1 ps = .ok file ∧ pm.files file = .ok s ∧
    x.decays = pm.decays b.1 s ∧ x.decays ≠ 0 ∧
    CutToData (st.view f.data) s t ∧ t.ndProject b.2 = .ok x.proj

/-- The pre-made file for the spectrum `r` and these values holds the spectrum `t`, scaled to any
number of decays. -/
def HoldsScaled (env : FitEnv) (pm : PreMade) (f : Fit) (st : FitState) (args : List ℚ) (r : ℕ)
    (t : Spectrum) : Prop :=
  ∃ ps file s, WithTheseValues st (f.pars.zip args) f.globals ps ∧
    preMadeFile env.str pm r ps = .ok file ∧ pm.files file = .ok s ∧ pm.decays r s ≠ 0 ∧
    s.cfg = t.cfg ∧ s.data.shape = t.data.shape ∧
    ∀ idx, InB t.data.shape idx → s.data.get idx = pm.decays r s / t.numDecays * t.data.get idx

/-- The folder and the tag in the file name which belong to a parameter of the dimension `dim`. -/
def FolderAndTag (str : ℚ → PyStr) (dim : PyStr) (p : Param) (x : PyStr × PyStr) : Prop :=
  p.dimension = some dim ∧ ∃ v ext w, p.value = some v ∧ Tagged p.kind (v : ℝ) x.1 ext ∧
    Written (str v) w ∧ x.2 = w ++ ext

end Verif
