import Verif.Spec.FitInit

/-! Specification of what fits made by the constructor evaluate. -/

namespace Verif

/-- The parameters of the floating backgrounds given to the constructor, in order. -/
def FitArgs.ownPars (a : FitArgs) (st : FitState) : List ℕ :=
  a.floating.flatMap (fun r => (st.objs r).fit.getD [])

/-- All parameters given to the constructor: those of the fit configuration, then those of the
floating backgrounds. -/
def FitArgs.parameters (a : FitArgs) (st : FitState) : List ℕ :=
  a.config.map (fun e => e.2.1) ++ a.ownPars st

/-- The parameters given as global ones. -/
def FitArgs.globalPars (a : FitArgs) : List ℕ :=
  (a.config.filter (fun e => e.2.2)).map (fun e => e.2.1)

/-- The fit with the given spectra, parameters and settings, as the function to minimise reads it:
data `d`, total `b` of the fixed backgrounds, and for every spectrum the parameters `ns` of the
region. -/
def FitArgs.read (a : FitArgs) (st : FitState) (d : ℕ) (b : Option ℕ) (ns : List PyStr) : Fit where
  data := d
  dataPars := ns
  fixed := b.map (fun r => (r, ns))
  floating := some (a.floating.map (fun r => (r, ns)))
  signal := a.signal.map (fun r => (r, ns))
  pars := a.parameters st
  globals := a.globalPars
  stat := a.stat
  statPerBin := a.statPerBin
  perBin := a.perBin
  singleBin := a.singleBin

/-- What the property supposes of the arguments of the constructor, besides `FitArgs.Given`: all
spectra have the axes of the data `d`; floating backgrounds and signal have different background
names and decays; parameters are different objects with different full names; those of the
backgrounds are rates and global ones are not; nothing has been evaluated; texts of values are
different and without underscore. -/
structure FitArgs.Evaluable (env : FitEnv) (keyOf : ℕ → PyStr) (a : FitArgs) (d : ℕ) (st : FitState) :
    Prop where
  data : a.data = some d
  str : Function.Injective env.str ∧ ∀ v, '_' ∉ env.str v
  cache : st.cache = []
  backgrounds : ((a.floating ++ a.signal.toList).map (fun r => (st.objs r).background)).Nodup
  axes : ∀ r ∈ a.floating ++ a.signal.toList ++ a.fixed.map Prod.fst,
    (st.view r).cfg = (st.view d).cfg
  dims : ∀ p ∈ (st.view d).cfg, ∃ dim, OfDim p.name dim
  decays : ∀ r ∈ a.floating ++ a.signal.toList, (st.view r).numDecays ≠ 0
  names : (a.config.map Prod.fst ++ (a.ownPars st).map keyOf).Nodup
  pars : (a.parameters st).Nodup
  globals : ∀ e ∈ a.config, e.2.2 = true → (st.params e.2.1).kind ≠ .rate
  rates : ∀ p ∈ a.ownPars st, (st.params p).kind = .rate

/-- `c` are the contents of the spectrum in the region: the spectrum shrunk once to the region,
and projected onto the parameters `ns`. -/
def RegionContents (roi : Dict (ℚ × ℚ)) (ns : List PyStr) (s : Spectrum) (c : NdArray ℚ) : Prop :=
  ∃ t, ShrunkTo roi s t ∧ IsProjection t ns c

/-- One value for each parameter, and no rate is zero. -/
def FitArgs.Values (a : FitArgs) (st : FitState) (args : List ℚ) : Prop :=
  args.length = (a.parameters st).length ∧
    ∀ e ∈ (a.parameters st).zip args, (st.params e.1).kind = .rate → e.2 ≠ 0

end Verif
