import Verif.Spec.Limit
import Verif.Model.LimitSummary

/-! # Specification of the summary of a limit -/

namespace Verif

/-- What the fits give at the tested scalings: the statistic `st x`, a plain number; and one best
fit and one penalty term for each parameter, in order, `best x` and `pens x`. A scaling close to
zero means no signal. Parameters have different names. -/
structure SummaryResults (fit : Option ℝ → Except PyErr FitOut) (found : Option ℝ → List ℝ)
    (scales : List ℝ) (pars : List SummaryPar) (st : ℝ → ℝ) (best pens : ℝ → List ℝ) : Prop where
  fits : ScalarFits fit scales st pens
  found : ∀ x ∈ scales, (npCloseReal x 0 → found none = best x) ∧
    (¬ npCloseReal x 0 → found (some x) = best x)
  best : ∀ x ∈ scales, (best x).length = pars.length
  pens : ∀ x ∈ scales, (pens x).length = pars.length
  names : (pars.map SummaryPar.name).Nodup

/-- And all parameters have a sigma. -/
structure SummaryFits (fit : Option ℝ → Except PyErr FitOut) (found : Option ℝ → List ℝ)
    (scales : List ℝ) (pars : List SummaryPar) (st : ℝ → ℝ) (best pens : ℝ → List ℝ) : Prop
    extends SummaryResults fit found scales pars st best pens where
  sigmas : ∀ p ∈ pars, p.sigma ≠ none

/-- Apart from the number of decays the summary is about the scaling `y`: for every parameter, in
order, it shows name, prior and sigma, and the best fit and penalty term at `y`; and the statistic
is the one at `y`, `F y`. -/
def LimitSummary.About (s : LimitSummary) (pars : List SummaryPar) (best pens : ℝ → List ℝ)
    (F : ℝ → ℝ) (y : ℝ) : Prop :=
  s.lines.length = pars.length ∧
  (∀ (j : ℕ) (p : SummaryPar), pars[j]? = some p → ∃ l, s.lines[j]? = some l ∧ l.name = p.name ∧
    l.prior = p.prior ∧ some l.sigma = p.sigma ∧ (best y)[j]? = some l.bestFit ∧
    (pens y)[j]? = some l.penalty) ∧
  s.statistic = F y

/-- `z` is the smallest of the scalings from `b` on with the largest `F`. -/
def LargestFrom (scales : List ℝ) (F : ℝ → ℝ) (b z : ℝ) : Prop :=
  z ∈ scales ∧ b ≤ z ∧ ∀ y ∈ scales, b ≤ y → F y ≤ F z ∧ (F y = F z → z ≤ y)

/-- `M` is the largest value of `F` at all of the scalings. -/
def LargestValue (scales : List ℝ) (F : ℝ → ℝ) (M : ℝ) : Prop :=
  (∃ y ∈ scales, F y = M) ∧ ∀ y ∈ scales, F y ≤ M

end Verif
