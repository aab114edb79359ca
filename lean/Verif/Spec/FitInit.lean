import Verif.Spec.FitSession
import Verif.Model.FitInit

/-! Specification of the constructor of fits. -/

namespace Verif

/-- The region with the bounds of every dimension in ascending order. -/
def inOrder (roi : Dict (ℚ × ℚ)) : Dict (ℚ × ℚ) :=
  roi.map (fun e => (e.1, (min e.2.1 e.2.2, max e.2.1 e.2.2)))

/-- The spectrum can be cut to the region at bin edges: it has the dimensions of the region, each
once, its axes start at multiples of their bin widths, and the bounds are bin edges. -/
structure CanShrink (roi : Dict (ℚ × ℚ)) (s : Spectrum) : Prop where
  wf : s.WF
  aligned : ∀ p ∈ s.cfg, p.Aligned
  dims : DistinctDims s.cfg
  edges : RoiOnEdges roi s.cfg
  has : ∀ e ∈ roi, ∃ p ∈ s.cfg, OfDim p.name e.1

/-- `t` is the spectrum `s` shrunk once to the region. -/
def ShrunkTo (roi : Dict (ℚ × ℚ)) (s t : Spectrum) : Prop :=
  ∃ kw, AsksRoi s.cfg roi kw ∧ (s.shrink kw).err = none ∧ (s.shrink kw).st.Eqv t

/-- The spectra given to the constructor as they are, without the fixed backgrounds. -/
def FitArgs.kept (a : FitArgs) : List ℕ := a.data.toList ++ a.signal.toList ++ a.floating

/-- What the property supposes of the spectra given to the constructor: each has its own
configuration and can be cut to the region at bin edges, and the fixed backgrounds, shrunk
and scaled, are the `ts`, which have the same axes. -/
structure FitArgs.Given (a : FitArgs) (ts : List Spectrum) (st : FitState) : Prop where
  region : IsDict a.roi
  some : a.roi ≠ []
  alloc : st.Allocated a.kept
  own : ((a.kept ++ a.fixed.map Prod.fst).map (fun r => (st.objs r).cfg)).Nodup
  able : ∀ r ∈ a.kept ++ a.fixed.map Prod.fst, CanShrink (inOrder a.roi) (st.view r)
  fixed : Suppliable (inOrder a.roi) a.fixed ts st

/-- What the property supposes of the parameters and flags: a floating background, if there is
any, has a parameter; otherwise all parameters are global; global parameters have a
dimension; a fit per bin has a test statistic and minimiser per bin. -/
structure FitArgs.Settings (a : FitArgs) (st : FitState) : Prop where
  floating : a.floating ≠ [] → a.config ≠ [] ∨ ∃ r ∈ a.floating, ((st.objs r).fit.getD []) ≠ []
  fixed : a.floating = [] → ∀ e ∈ a.config, e.2.2 = true
  dimension : ∀ e ∈ a.config, e.2.2 = true → (st.params e.2.1).dimension ≠ none
  perBin : a.perBin = true → a.statPerBin = true ∧ a.minimiser ≠ .some false

/-- The fit has the given spectra: data, signal and floating backgrounds are the given ones,
each shrunk once to the region; the fixed background is the total of the given ones; and
all of them have exactly the region. -/
structure Constructed (a : FitArgs) (ts : List Spectrum) (st : FitState) (ses : Session)
    (st' : FitState) : Prop where
  roi : ses.roi = inOrder a.roi
  data : ses.data = a.data
  signal : ses.signal = a.signal
  floating : ses.floating = if a.floating = [] then none else .some a.floating
  shrunk : ∀ r ∈ a.kept, ShrunkTo (inOrder a.roi) (st.view r) (st'.view r) ∧
    HasRegion (st'.view r).cfg (inOrder a.roi)
  nofixed : a.fixed = [] → ses.fixed = none
  fixed : a.fixed ≠ [] → ∃ b, ses.fixed = .some b ∧ IsTotal ts (st'.view b) ∧
    HasRegion (st'.view b).cfg (inOrder a.roi)

/-- `w` are the attributes and objects after the constructor has set the data, if given. The
attributes before are the settings with the region in order. -/
def AfterData (a : FitArgs) (st : FitState) (w : Session × FitState) : Prop :=
  match a.data with
  | none => w = (Session.bare a, st)
  | .some r => (Session.bare a).setData st r = (w, .ok ())

/-- `w` are the attributes and objects after it has also set the fixed backgrounds, if given. -/
def AfterFixed (a : FitArgs) (st : FitState) (w : Session × FitState) : Prop :=
  ∃ v, AfterData a st v ∧ ((a.fixed = [] ∧ w = v) ∨
    (a.fixed ≠ [] ∧ v.1.makeFixed v.2 a.fixed = (w, .ok ())))

/-- `w` are the attributes and objects after it has also set the floating backgrounds, if given. -/
def AfterFloating (keyOf : ℕ → PyStr) (a : FitArgs) (st : FitState) (w : Session × FitState) :
    Prop :=
  ∃ v, AfterFixed a st v ∧ ((a.floating = [] ∧ w = v) ∨
    (a.floating ≠ [] ∧ Session.setFloating keyOf v.1 v.2 a.floating = (w, .ok ())))

/-- `w` are the attributes and objects after it has also set the signal, if given. -/
def AfterSignal (keyOf : ℕ → PyStr) (a : FitArgs) (st : FitState) (w : Session × FitState) : Prop :=
  ∃ v, AfterFloating keyOf a st v ∧
    match a.signal with
    | none => w = v
    | .some r => v.1.setSignal v.2 r = (w, .ok ())

/-- `w` are the attributes and objects after it has also shrunk all spectra, if asked to. -/
def AfterShrink (keyOf : ℕ → PyStr) (a : FitArgs) (st : FitState) (w : Session × FitState) : Prop :=
  ∃ v, AfterSignal keyOf a st v ∧ ((a.shrink = false ∧ w = v) ∨
    (a.shrink = true ∧ v.1 = w.1 ∧ v.1.shrinkAll v.2 = (w.2, .ok ())))

end Verif
