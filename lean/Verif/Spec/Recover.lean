import Verif.Spec.FitWhole
import Verif.Spec.Closure

/-! Specification of fits that recover the rates the data have been made of. -/

namespace Verif

/-- The sum of the given spectra in the cell `idx`, when `x r` are the contents of the spectrum `r`:
fixed backgrounds scaled from their decays to the given numbers, floating backgrounds to the
`rates`, and the signal as it is. -/
def FitArgs.sumAt (a : FitArgs) (st : FitState) (rates : List ℚ) (x : ℕ → NdArray ℚ) (idx : List ℕ) :
    ℚ :=
  (a.fixed.map (fun e => e.2 / (st.view e.1).numDecays * (x e.1).get idx)).sum +
  (List.zipWith (fun r v => v / (st.view r).numDecays * (x r).get idx) a.floating rates).sum +
  (a.signal.toList.map (fun r => (x r).get idx)).sum

/-- The only parameters are rates, one for each floating background; the statistic is one number for
all bins; no sigma is zero. -/
structure FitArgs.OwnRates (a : FitArgs) (st : FitState) : Prop where
  floating : a.floating ≠ []
  config : a.config = []
  one : ∀ r ∈ a.floating, ∃ p, (st.objs r).fit = some [p]
  sigmas : ∀ p ∈ a.parameters st, (st.params p).sigma ≠ some 0
  statPerBin : a.statPerBin = false
  perBin : a.perBin = false

/-- And bins are compared one by one, with a statistic that does not ignore bins with too few expected
events. -/
structure FitArgs.RatesOnly (a : FitArgs) (st : FitState) : Prop extends a.OwnRates st where
  singleBin : a.singleBin = false
  stat : a.stat ≠ .bcChiUp

/-- A grid search over `n` rates that are not zero: the values `vss`, as many as bins, without
repetitions, also when they are converted by `rnd`. -/
structure RateSearch (rnd : ℝ → ℚ) (g : GridSearch) (vss : List (List ℝ)) (n : ℕ) : Prop where
  ready : g.Ready
  form : g.perBin = false
  values : HasValues g.pars vss
  counts : List.Forall₂ (fun (p : FitPar) (vs : List ℝ) => vs.length = p.bins ∧ vs ≠ []) g.pars vss
  number : vss.length = n
  nodup : ∀ vs ∈ vss, vs.Nodup
  injective : ∀ vs ∈ vss, ∀ x ∈ vs, ∀ y ∈ vs, rnd x = rnd y → x = y
  nonzero : ∀ vs ∈ vss, ∀ x ∈ vs, rnd x ≠ 0
  sigmas : ∀ p ∈ g.pars, p.sigma ≠ some 0

/-- The result of a fit: the best fit are the values `w`, statistic (if it is not the extended
likelihood) and penalty are zero. -/
def FoundExactly (s : Stat) (w : List ℝ) (r : GridSearch × NdArray ℝ × NdArray ℝ) : Prop :=
  r.1.pars.map FitPar.bestFit = w.map some ∧
    (s ≠ .extLL → r.2.1.shape = [] ∧ r.2.1.get [] = 0) ∧ r.2.2.shape = [] ∧ r.2.2.get [] = 0

end Verif
