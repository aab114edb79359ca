import Verif.Spec.LimitWhole

/-! # Vocabulary of the properties about spectra that differ outside the region of a fit -/

namespace Verif

/-- The cell with the indices `idx` is part of the region: on every axis with a dimension of the
region, its bin lies between the bounds. -/
def InRegion (roi : Dict (ℚ × ℚ)) (axes : List SPar) (idx : List ℕ) : Prop :=
  List.Forall₂ (fun (p : SPar) (i : ℕ) => ∀ e ∈ roi, OfDim p.name e.1 →
    e.2.1 ≤ p.edge i ∧ p.edge ((i : ℤ) + 1) ≤ e.2.2) axes idx

/-- Two sets of objects with the same parameters, and the same spectra `qs` as far as a fit reads them:
the same axes, background names, parameters and contents of the cells that are part of the region.
Other contents, names and numbers of events may be different. -/
structure AgreeInside (roi : Dict (ℚ × ℚ)) (qs : List ℕ) (st st' : FitState) : Prop where
  next : st'.next = st.next
  params : st'.params = st.params
  cache : st'.cache = st.cache
  rest : ∀ q ∈ qs, (st'.objs q).background = (st.objs q).background ∧
    (st'.objs q).cfg = (st.objs q).cfg ∧ (st'.objs q).fit = (st.objs q).fit
  axes : ∀ q ∈ qs, (st'.view q).cfg = (st.view q).cfg
  shape : ∀ q ∈ qs, (st'.view q).data.shape = (st.view q).data.shape
  cells : ∀ q ∈ qs, ∀ idx, InB (st.view q).data.shape idx → InRegion roi (st.view q).cfg idx →
    (st'.view q).data.get idx = (st.view q).data.get idx

/-- Two sets of objects with the same parameters, and spectra `qs` that are the same but for axes and
contents: the same background names, parameters, and names and dimensions of axes. Spectra that had the
same axes have the same again, and the region can be cut from all of them. -/
structure SameObjects (roi : Dict (ℚ × ℚ)) (qs : List ℕ) (st st' : FitState) : Prop where
  next : st'.next = st.next
  params : st'.params = st.params
  cache : st'.cache = st.cache
  rest : ∀ q ∈ qs, (st'.objs q).background = (st.objs q).background ∧
    (st'.objs q).cfg = (st.objs q).cfg ∧ (st'.objs q).fit = (st.objs q).fit
  can : ∀ q ∈ qs, CanShrink roi (st'.view q)
  names : ∀ q ∈ qs, (st'.view q).cfg.map SPar.name = (st.view q).cfg.map SPar.name
  axes : ∀ q ∈ qs, ∀ q' ∈ qs, (st.view q).cfg = (st.view q').cfg → (st'.view q).cfg = (st'.view q').cfg

/-- The objects after calls of `shrink` with the keywords `kw`, for every spectrum of the list in
order. -/
def FitState.afterShrinking (st : FitState) (kw : List (PyStr × ℚ)) (l : List ℕ) : FitState :=
  l.foldl (fun st q => (FitM.call q (fun s => s.shrink kw) st).1) st

/-- The range `outer` contains the region: it is given for dimensions of the region only, and its bounds
are not inside those of the region. -/
def Contains (outer roi : Dict (ℚ × ℚ)) : Prop :=
  ∀ e ∈ outer, ∃ e' ∈ roi, e'.1 = e.1 ∧ e.2.1 ≤ e'.2.1 ∧ e'.2.2 ≤ e.2.2

end Verif
