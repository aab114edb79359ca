import Verif.Model.Fit
import Verif.Spec.Spectra

/-!
# Vocabulary of the properties of fits
-/

namespace Verif

/-! ### region of interest -/

/-- Every entry is a pair of numbers. -/
def Pairs (d : Dict RoiVal) : Prop := ∀ e ∈ d, ∃ a b, e.2 = .seq [a, b]

/-- The same dimensions in the same order, and each pair of values in ascending order. -/
def PutInOrder (d d' : Dict RoiVal) : Prop :=
  List.Forall₂ (fun e e' => e'.1 = e.1 ∧
    ∃ a b, e.2 = RoiVal.seq [a, b] ∧ e'.2 = RoiVal.seq [min a b, max a b]) d d'

/-! ### penalty -/

/-- The penalty of one parameter with a sigma: the squared pull, halved for the
Baker-Cousins likelihood. -/
noncomputable def pull (st : Stat) (value prior sigma : ℝ) : ℝ :=
  (if st = .bcLL then 1 / 2 else 1) * ((value - prior) / sigma) ^ 2

/-- The penalty of a parameter at a value; nothing without sigma. -/
noncomputable def penaltyOf (st : Stat) (p : Param) (v : ℚ) : ℝ :=
  match p.sigma with
  | none => 0
  | some sigma => pull st v p.prior sigma

/-! ### fixed background -/

/-- The parameter name has the dimension `dim`: everything before its last underscore. -/
def OfDim (n dim : PyStr) : Prop := ∃ t, '_' ∉ t ∧ n = dim ++ '_' :: t

/-- No two parameters have the same dimension. -/
def DistinctDims (axes : List SPar) : Prop :=
  ∀ p ∈ axes, ∀ q ∈ axes, ∀ d, HasDim p.name d → HasDim q.name d → p = q

/-- Keyword arguments that ask for the region of interest on the axes of these
dimensions. -/
inductive AsksRoi (axes : List SPar) : Dict (ℚ × ℚ) → List (PyStr × ℚ) → Prop
  | nil : AsksRoi axes [] []
  | cons (p : SPar) (dim : PyStr) (low high : ℚ) (roi : Dict (ℚ × ℚ)) (kw : List (PyStr × ℚ))
      (hp : p ∈ axes) (hd : OfDim p.name dim) (h : AsksRoi axes roi kw) :
      AsksRoi axes ((dim, (low, high)) :: roi)
        ((p.name ++ lit "_low", low) :: (p.name ++ lit "_high", high) :: kw)

/-- `t` is the spectrum `s` shrunk to the region of interest and scaled to `n` decays. -/
def ShrunkScaled (roi : Dict (ℚ × ℚ)) (s : Spectrum) (n : ℚ) (t : Spectrum) : Prop :=
  ∃ kw, AsksRoi s.cfg roi kw ∧ (s.shrink kw).err = none ∧
    t = ((s.shrink kw).st.scale n).st ∧ ((s.shrink kw).st.scale n).err = none

/-- `b` is the total of the spectra `ts`: the axes of all of them, in every cell the sum, and
the sums of the counts. -/
structure IsTotal (ts : List Spectrum) (b : Spectrum) : Prop where
  axes : ∀ t ∈ ts, b.cfg = t.cfg ∧ b.data.shape = t.data.shape
  cells : ∀ idx, InB b.data.shape idx → b.data.get idx = (ts.map (fun t => t.data.get idx)).sum
  numDecays : b.numDecays = (ts.map Spectrum.numDecays).sum
  rawEvents : b.rawEvents = (ts.map Spectrum.rawEvents).sum

/-- The names are those of the parameters with the dimensions of the region. -/
def RoiNames (axes : List SPar) (roi : Dict (ℚ × ℚ)) (names : List PyStr) : Prop :=
  List.Forall₂ (fun e n => OfDim n e.1 ∧ ∃ p ∈ axes, p.name = n) roi names

/-- The axes have the range of the region, up to the tolerance of `numpy.allclose`. -/
def FitsRoi (axes : List SPar) (roi : Dict (ℚ × ℚ)) : Prop :=
  ∀ e ∈ roi, ∃ p ∈ axes, OfDim p.name e.1 ∧
    |e.2.1 - p.low| ≤ 1 / 10 ^ 8 + 1 / 10 ^ 5 * |p.low| ∧
    |e.2.2 - p.high| ≤ 1 / 10 ^ 8 + 1 / 10 ^ 5 * |p.high|

/-- All references are to objects that exist. -/
def FitState.Allocated (st : FitState) (rs : List ℕ) : Prop := ∀ r ∈ rs, r < st.next

/-- What the property supposes of the supplied spectra: they exist, each has its own
configuration, and shrinking to the region and scaling gives spectra with the same axes. -/
structure Suppliable (roi : Dict (ℚ × ℚ)) (d : List (ℕ × ℚ)) (ts : List Spectrum)
    (st : FitState) : Prop where
  alloc : st.Allocated (d.map Prod.fst)
  own : (d.map (fun e => (st.objs e.1).cfg)).Nodup
  region : IsDict roi
  dims : ∀ e ∈ d, DistinctDims (st.view e.1).cfg
  names : ∀ e ∈ d, ((st.view e.1).cfg.map SPar.name).Nodup
  shrunk : List.Forall₂ (fun e t => ShrunkScaled roi (st.view e.1) e.2 t) d ts
  axes : ∀ t ∈ ts, ∀ t' ∈ ts, t'.cfg = t.cfg ∧ t'.data.shape = t.data.shape

/-! ### evaluations -/

/-- The spectrum has the axes of the data: the same dimensions in the same order, with the
same ranges and numbers of bins. Lower edges are multiples of the bin widths. -/
structure OnDataAxes (d s : Spectrum) : Prop where
  wf : s.WF
  aligned : ∀ p ∈ s.cfg, p.Aligned
  dims : DistinctDims s.cfg
  same : List.Forall₂ (fun p q : SPar => (∃ dim, OfDim p.name dim ∧ OfDim q.name dim) ∧
    q.low = p.low ∧ q.high = p.high ∧ q.bins = p.bins) d.cfg s.cfg
  shape : s.data.shape = d.data.shape

/-- The references of the floating backgrounds. -/
def Fit.floatingRefs (f : Fit) : List ℕ := (f.floating.getD []).map Prod.fst

/-- The references of the floating backgrounds and of the signal. -/
def Fit.moving (f : Fit) : List ℕ := f.floatingRefs ++ f.signal.toList.map Prod.fst

/-- A fit before its first evaluation, as the property supposes it. -/
structure FitReady (env : FitEnv) (f : Fit) (st : FitState) : Prop where
  /-- different values have different texts, and texts have no underscore -/
  str : Function.Injective env.str ∧ ∀ v, '_' ∉ env.str v
  /-- nothing has been evaluated -/
  cache : st.cache = []
  /-- all spectra exist -/
  alloc : f.data < st.next ∧ (∀ b ∈ f.fixed, b.1 < st.next) ∧ st.Allocated f.moving
  /-- data and fixed background are not floating -/
  apart : f.data ∉ f.floatingRefs ∧ ∀ b ∈ f.fixed, b.1 ∉ f.floatingRefs
  /-- floating backgrounds and signal have different background names -/
  backgrounds : (f.moving.map (fun r => (st.objs r).background)).Nodup
  /-- they have the axes of the data -/
  axes : ∀ r ∈ f.moving, OnDataAxes (st.view f.data) (st.view r)
  decays : ∀ r ∈ f.moving, (st.view r).numDecays ≠ 0
  pars : f.pars.Nodup
  /-- global parameters are fit parameters and not rates -/
  globals : ∀ p ∈ f.globals, p ∈ f.pars ∧ (st.params p).kind ≠ .rate
  /-- the parameters of the backgrounds are fit parameters and rates -/
  rates : ∀ r ∈ f.floatingRefs, ∀ p ∈ (st.objs r).fit.getD [],
    p ∈ f.pars ∧ (st.params p).kind = .rate

/-- One value for each parameter. -/
def FullArgs (f : Fit) (args : List ℚ) : Prop := args.length = f.pars.length

/-- No rate is zero. -/
def NonzeroRates (f : Fit) (st : FitState) (args : List ℚ) : Prop :=
  ∀ e ∈ f.pars.zip args, (st.params e.1).kind = .rate → e.2 ≠ 0

/-- The state after evaluating the fit at these values, one after the other. -/
noncomputable def afterEvaluations (env : FitEnv) (f : Fit) : List (List ℚ) → FitState → FitState
  | [], st => st
  | args :: hist, st => afterEvaluations env f hist (funct env f args st).1

/-- Observed and expected contents when the fit is evaluated at these values. -/
def evaluatedContents (env : FitEnv) (f : Fit) (args : List ℚ) (st : FitState) :
    Except PyErr (NdArray ℚ × Option (NdArray ℚ)) :=
  ((do
    setValues f.pars args
    contents env f (f.floating.getD [])) st).2

/-- The expected contents as a list, for comparisons. -/
def expectedList (c : Except PyErr (NdArray ℚ × Option (NdArray ℚ))) :
    Except PyErr (Option (List ℚ)) :=
  c.map (fun c => c.2.map (fun e => (allIdx e.shape).map e.get))

/-- `t` is the spectrum `s` after applying a parameter of the given kind and dimension with the value
`v`: smeared with the light yield `v` if it is above 10 and with the energy resolution `v` otherwise;
or its axis scaled by a positive `v`; or shifted by `v`. Rates are not applied so. -/
inductive AppliedTo (env : FitEnv) : ParKind → Option PyStr → ℚ → Spectrum → Spectrum → Prop
  | lightYield (dim : PyStr) (v : ℚ) (s t : Spectrum) (hv : 10 < v)
      (h : s.weightedSmear (env.smearLY v).suffix (env.smearLY v).sigma (env.smearLY v).weight
        (env.smearLY v).numSigma dim = .ok t) : AppliedTo env .resolution (some dim) v s t
  | energyResolution (dim : PyStr) (v : ℚ) (s t : Spectrum) (hv : v ≤ 10)
      (h : s.weightedSmear (env.smearRes v).suffix (env.smearRes v).sigma (env.smearRes v).weight
        (env.smearRes v).numSigma dim = .ok t) : AppliedTo env .resolution (some dim) v s t
  | scale (dim : PyStr) (v : ℚ) (s t : Spectrum) (hv : 0 < v)
      (h : s.scaleAxis env.str env.spline dim v = .ok (.finite t)) : AppliedTo env .scale (some dim) v s t
  | shift (dim : PyStr) (v : ℚ) (s t : Spectrum)
      (h : s.shift env.str env.spline dim v = .ok (.finite t)) : AppliedTo env .shift (some dim) v s t

/-- `t` is the spectrum `s` after applying the parameters `ps`, one after the other, with the
values in `vals` (entries outside the shape of an array do not count). -/
inductive Convolved (env : FitEnv) (st : FitState) (vals : List (ℕ × ℚ)) :
    List ℕ → Spectrum → Spectrum → Prop
  | nil (s : Spectrum) : Convolved env st vals [] s s
  | cons (p : ℕ) (v : ℚ) (ps : List ℕ) (s t u : Spectrum) (hv : (p, v) ∈ vals)
      (hc : AppliedTo env (st.params p).kind (st.params p).dimension v s t)
      (h : Convolved env st vals ps { t with data := t.data.norm } u) :
      Convolved env st vals (p :: ps) s u

/-- `t` is the signal `s` with the last of the parameters `ps` applied; the others could be
applied, too. -/
def LastConvolved (env : FitEnv) (st : FitState) (vals : List (ℕ × ℚ)) (ps : List ℕ)
    (s t : Spectrum) : Prop :=
  (ps = [] ∧ t = s) ∨ ∃ init last, ps = init ++ [last] ∧
    (∀ p ∈ init, ∃ u, Convolved env st vals [p] s u) ∧ Convolved env st vals [last] s t

/-- A floating background: its convolved spectrum, the value of its rate, and the projection of
the convolved spectrum. -/
structure BgTerm where
  spectrum : Spectrum
  rate : ℚ
  proj : NdArray ℚ

/-- What a floating background contributes: the convolved spectrum, projected; its only
parameter is a rate. -/
structure IsBgTerm (env : FitEnv) (f : Fit) (st : FitState) (args : List ℚ)
    (b : ℕ × List PyStr) (x : BgTerm) : Prop where
  conv : Convolved env st (f.pars.zip args) f.globals (st.view b.1) x.spectrum
  rate : ∃ p, (st.objs b.1).fit = some [p] ∧ (p, x.rate) ∈ f.pars.zip args
  proj : x.spectrum.ndProject b.2 = .ok x.proj

/-- What the signal contributes. -/
def IsSignalTerm (env : FitEnv) (f : Fit) (st : FitState) (args : List ℚ)
    (b : ℕ × List PyStr) (p : NdArray ℚ) : Prop :=
  ∃ t, LastConvolved env st (f.pars.zip args) f.globals (st.view b.1) t ∧ t.ndProject b.2 = .ok p

end Verif
