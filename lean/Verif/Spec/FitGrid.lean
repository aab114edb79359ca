import Verif.Spec.Fit
import Verif.Spec.Minimise
import Verif.Model.FitGrid

/-! Specification of fits by grid search. -/

namespace Verif

/-- What a fit with the grid search `g` needs: the parameters of the search are those of the fit
and have as many values as bins (`vss`); evaluating the fresh fit at any combination `w` of these
values gives the statistic `F w`, in the form the search expects, and the penalty `P w`; no value
of a rate is zero. -/
structure FitGridSetup (env : FitEnv) (f : Fit) (st : FitState) (rnd : ℝ → ℚ) (g : GridSearch)
    (vss : List (List ℝ)) (F : List ℝ → FitVal) (P : List ℝ → ℝ) : Prop where
  values : HasValues g.pars vss
  counts : List.Forall₂ (fun (p : FitPar) (vs : List ℝ) => vs.length = p.bins ∧ vs ≠ []) g.pars vss
  number : vss.length = f.pars.length
  returns : ∀ w, Combination vss w →
    ∃ r, (funct env f (w.map rnd) st).2 = .ok (r, P w) ∧ F w = toFitVal r ∧ g.Fits (F w)
  rates : ∀ w, Combination vss w → NonzeroRates f st (w.map rnd)
  sigmas : ∀ p ∈ g.pars, p.sigma ≠ some 0
  nonempty : g.useNumpy = true ∨ g.pars ≠ []

/-- A fit and a grid search that belong together, whether or not the fit can be evaluated
everywhere: the parameters of the search are those of the fit and have as many values as bins
(`vss`); the fit has floating backgrounds; what evaluations return has the form the search expects
(a number, or an array with the bins of the spectra); no value of a rate is zero. -/
structure FitSearch (env : FitEnv) (f : Fit) (st : FitState) (rnd : ℝ → ℚ) (g : GridSearch)
    (vss : List (List ℝ)) : Prop where
  values : HasValues g.pars vss
  counts : List.Forall₂ (fun (p : FitPar) (vs : List ℝ) => vs.length = p.bins ∧ vs ≠ []) g.pars vss
  number : vss.length = f.pars.length
  floating : f.floating ≠ none
  form : ∀ w r, Combination vss w → (funct env f (w.map rnd) st).2 = .ok r →
    g.Fits (toFitVal r.1)
  rates : ∀ w, Combination vss w → NonzeroRates f st (w.map rnd)
  sigmas : ∀ p ∈ g.pars, p.sigma ≠ some 0
  nonempty : g.useNumpy = true ∨ g.pars ≠ []

end Verif
