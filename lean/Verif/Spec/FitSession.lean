import Verif.Spec.Fit
import Verif.Model.FitSession

/-! Specification of fits over time. -/

namespace Verif

/-- The bounds of the region are edges of bins, on every axis it mentions, with at least one bin
between them. -/
def RoiOnEdges (roi : Dict (ℚ × ℚ)) (axes : List SPar) : Prop :=
  ∀ e ∈ roi, ∀ p ∈ axes, OfDim p.name e.1 →
    ∃ i j : ℕ, i < j ∧ (j : ℤ) ≤ p.bins ∧ e.2.1 = p.edge i ∧ e.2.2 = p.edge j

/-- The spectrum can be shrunk to the region without rounding, or the region is refused: axes start
at a multiple of their bin width and have names with different dimensions, and the bounds are bin edges
unless they are out of range. -/
structure Shrinkable (roi : Dict (ℚ × ℚ)) (s : Spectrum) : Prop where
  wf : s.WF
  aligned : ∀ p ∈ s.cfg, p.Aligned
  named : ∀ p ∈ s.cfg, ∃ dim, OfDim p.name dim
  dims : DistinctDims s.cfg
  edges : RoiOnEdges roi s.cfg ∨ ∀ kw, AsksRoi s.cfg roi kw → (s.shrink kw).err ≠ none

/-- The axes have exactly the range of the region. -/
def HasRegion (axes : List SPar) (roi : Dict (ℚ × ℚ)) : Prop :=
  ∀ e ∈ roi, ∃ p ∈ axes, OfDim p.name e.1 ∧ p.low = e.2.1 ∧ p.high = e.2.2

/-- A spectrum that is set is ready: its list of roi parameters is not empty, and its axes have the
range of the region up to the tolerance. -/
def ReadyFor (roi : Dict (ℚ × ℚ)) (st : FitState) (r : ℕ) (pars : Option (List PyStr)) : Prop :=
  (∃ ps, pars = some ps ∧ ps ≠ []) ∧ FitsRoi (st.view r).cfg roi

/-- What `check_all_spectra` asks for. -/
structure SpectraReady (ses : Session) (st : FitState) : Prop where
  data : ∃ r, ses.data = some r ∧ ReadyFor ses.roi st r ses.dataPars
  background : ses.fixed ≠ none ∨ ses.floating ≠ none
  fixed : ∀ r, ses.fixed = some r → ReadyFor ses.roi st r ses.fixedPars
  signal : ∀ r, ses.signal = some r → ReadyFor ses.roi st r ses.signalPars
  floating : ∀ rs, ses.floating = some rs → rs ≠ [] →
    ∃ pss, ses.floatingPars = some pss ∧ pss.length = rs.length

/-- What `check_fitter` asks for besides. -/
structure SettingsReady (ses : Session) : Prop where
  floating : ∀ rs, ses.floating = some rs → rs ≠ [] → ses.config ≠ []
  fixed : (∀ rs, ses.floating = some rs → rs = []) → ∀ e ∈ ses.config, e.2.2 = true
  minimiser : ∃ b, ses.minimiser = some b ∧ (ses.perBin = true → b = true)
  stat : ses.perBin = true → ses.statPerBin = true

/-- The axes of the spectra that are set can be addressed by dimension. -/
def Addressable (st : FitState) (rs : List ℕ) : Prop :=
  ∀ r ∈ rs, DistinctDims (st.view r).cfg ∧ ((st.view r).cfg.map SPar.name).Nodup

/-- The spectra of a fit that are compared with the region. -/
def Session.compared (ses : Session) : List ℕ :=
  ses.data.toList ++ ses.fixed.toList ++ ses.signal.toList

/-! ### fits without floating backgrounds -/

/-- The contents of an array that are compared: all cells, or with `single_bin` their sum. -/
noncomputable def comparedContents (singleBin : Bool) (a : NdArray ℚ) : List ℝ :=
  if singleBin = true then [((a.sum : ℚ) : ℝ)]
  else (allIdx a.shape).map (fun idx => ((a.get idx : ℚ) : ℝ))

/-- A spectrum that is set, its list of parameters, and its projection onto them. -/
structure SetProjection (st : FitState) (o : Option ℕ) (pars : Option (List PyStr))
    (a : NdArray ℚ) : Prop where
  set : ∃ r ps, o = some r ∧ pars = some ps ∧ (st.view r).WF ∧ ps.Nodup ∧
    (∀ p ∈ ps, ∃ q ∈ (st.view r).cfg, q.name = p) ∧ (st.view r).cfg.length ≤ ps.length + 1 ∧
    IsProjection (st.view r) ps a

/-- What is expected: the fixed background with the projection `b`, plus the signal if there is
one. -/
def ExpectedSum (ses : Session) (st : FitState) (b e : NdArray ℚ) : Prop :=
  (ses.signal = none ∧ b.Eqv e) ∨
  ∃ s, SetProjection st ses.signal ses.signalPars s ∧ s.shape = b.shape ∧ e.shape = b.shape ∧
    ∀ idx, InB b.shape idx → e.get idx = b.get idx + s.get idx

/-! ### sequences of calls -/

/-- A fit as it is before any spectrum has been set. -/
structure FreshSession (ses : Session) : Prop where
  roi : IsDict ses.roi
  data : ses.data = none
  fixed : ses.fixed = none
  signal : ses.signal = none
  checked : ses.checked = false

/-- A call of a method of `Fit`. -/
inductive FitCall
  | setRoi (roi : Dict (ℚ × ℚ))
  | setData (r : ℕ) (shrink : Bool)
  | setFixed (r : ℕ) (shrink : Bool)
  | makeFixed (d : List (ℕ × ℚ)) (shrink : Bool)
  | setSignal (r : ℕ) (shrink : Bool)
  | removeSignal
  | setFloating (rs : List ℕ) (shrink : Bool)
  | shrinkAll
  | setMinimiser (given : Option Bool)
  | setStat (stat : Stat) (perBin : Bool)
  | checkFitter
  | fit

/-- Attributes and objects after a call, whether it raises or not. -/
noncomputable def FitCall.perform {ρ : Type} (keyOf : ℕ → PyStr) (mini : Fit → FitM ρ) (w : Session × FitState) :
    FitCall → Session × FitState
  | .setRoi roi => (w.1.setRoi roi, w.2)
  | .setData r shrink => (w.1.setData w.2 r shrink).1
  | .setFixed r shrink => (w.1.setFixed w.2 r shrink).1
  | .makeFixed d shrink => (w.1.makeFixed w.2 d shrink).1
  | .setSignal r shrink => (w.1.setSignal w.2 r shrink).1
  | .removeSignal => (w.1.removeSignal, w.2)
  | .setFloating rs shrink => (Session.setFloating keyOf w.1 w.2 rs shrink).1
  | .shrinkAll => (w.1, (w.1.shrinkAll w.2).1)
  | .setMinimiser given => ((w.1.setMinimiser w.2 given).1, w.2)
  | .setStat stat perBin => ({ w.1 with stat, statPerBin := perBin }, w.2)
  | .checkFitter => ((w.1.checkFitter w.2).1, w.2)
  | .fit => (w.1.fit mini w.2).1

/-- All these spectra can be shrunk, one after another. -/
def ShrinkableAll (roi : Dict (ℚ × ℚ)) : List ℕ → FitState → Prop
  | [], _ => True
  | r :: rs, st => Shrinkable roi (st.view r) ∧ ShrinkableAll roi rs (shrinkSpectra roi r st).1

/-- What is supposed of a call: spectra exist; whatever is shrunk can be shrunk without rounding or
is refused; a minimiser leaves the axes of data, fixed background and signal alone (C92). With
`strict`, signals that are not shrunk have the range of the region. -/
def FitCall.Supposed {ρ : Type} (mini : Fit → FitM ρ) (strict : Bool) (w : Session × FitState) :
    FitCall → Prop
  | .setRoi roi => IsDict roi
  | .setData r shrink => r < w.2.next ∧ (shrink = true → Shrinkable w.1.roi (w.2.view r))
  | .setFixed r shrink => r < w.2.next ∧ (shrink = true → Shrinkable w.1.roi (w.2.view r))
  | .makeFixed d shrink => d ≠ [] ∧ w.2.Allocated (d.map Prod.fst) ∧ (shrink = true →
      ∃ ts, Suppliable w.1.roi d ts w.2 ∧ ∀ e ∈ d, Shrinkable w.1.roi (w.2.view e.1))
  | .setSignal r shrink => r < w.2.next ∧ (shrink = true → Shrinkable w.1.roi (w.2.view r)) ∧
      (strict = true → shrink = false → FitsRoi (w.2.view r).cfg w.1.roi)
  | .setFloating rs shrink => shrink = true → ShrinkableAll w.1.roi rs w.2
  | .shrinkAll => ShrinkableAll w.1.roi (w.1.compared ++ w.1.floating.getD []) w.2
  | .fit => ∀ q ∈ w.1.compared, w.2.next ≤ (mini w.1.toFit w.2).1.next ∧
      ((mini w.1.toFit w.2).1.view q).cfg = (w.2.view q).cfg
  | _ => True

/-- A session: attributes and objects after calls that are as supposed. -/
inductive AfterCalls {ρ : Type} (keyOf : ℕ → PyStr) (mini : Fit → FitM ρ) (strict : Bool)
    (w : Session × FitState) : Session × FitState → Prop
  | nil : AfterCalls keyOf mini strict w w
  | snoc (c : FitCall) (v : Session × FitState) (h : AfterCalls keyOf mini strict w v)
      (hc : c.Supposed mini strict v) : AfterCalls keyOf mini strict w (c.perform keyOf mini v)

end Verif
