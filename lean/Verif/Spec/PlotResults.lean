import Verif.Model.PlotResults
import Verif.Spec.Minimise

/-! Specification of plots of fit results. -/

namespace Verif

/-- The grid position at which the named parameters have the given indices. -/
def GridSearch.posOf (g : GridSearch) (choice : List (PyStr × ℕ)) : List ℕ :=
  g.pars.map (fun p => (assoc choice p.name).getD 0)

/-- The statistic stored for a grid position, summed over the bins of the spectrum. -/
noncomputable def GridSearch.rawAt (g : GridSearch) (idx : List ℕ) : ℝ :=
  sumIdx g.cellShape (fun j => g.stats.get (idx ++ j))

/-- Axes and ranges of a histogram are those of two fit parameters. -/
def TH2R.AxesOf (h : TH2R) (p q : FitPar) : Prop :=
  h.xBins = p.bins ∧ h.xLow = p.low ∧ h.xHigh = p.high ∧
  h.yBins = q.bins ∧ h.yLow = q.low ∧ h.yHigh = q.high

/-- The fit has two parameters, `p` and `q`, in either order. -/
def GridSearch.TwoPars (g : GridSearch) (p q : FitPar) : Prop :=
  (g.pars = [p, q] ∨ g.pars = [q, p]) ∧ p.name ≠ q.name

/-- The values of a parameter are not given explicitly and neither scale flag is set. -/
def FitPar.Linear (p : FitPar) : Prop :=
  p.values = none ∧ p.logscale ≠ some true ∧ p.logDev ≠ some true

/-- `w` are the values at the grid position `idx`. Every parameter has as many values as bins, and no
two of them are as close as numpy's tolerance. -/
structure GridSearch.OnGrid (g : GridSearch) (idx : List ℕ) (w : List ℝ) : Prop where
  ready : g.Ready
  grid : ∃ vss, HasValues g.pars vss ∧ vss.map List.length = g.fitShape ∧
    (∀ vs ∈ vss, vs.Nodup) ∧
    (∀ vs ∈ vss, ∀ x ∈ vs, ∀ y ∈ vs, npCloseReal y x → y = x) ∧ ValuesAt vss idx w

/-- The values at which `plot_per_bin` is asked to plot: the best fits (of a fit that has been
done), or those given by keyword. -/
def GridSearch.AsksFor (g : GridSearch) (minChisq : Bool) (kw : List (PyStr × ℝ)) (w : List ℝ) :
    Prop :=
  if minChisq then
    List.Forall₂ (fun (p : FitPar) x => p.bestFit = some x ∧ p.penaltyTerm ≠ none) g.pars w ∧
      (g.pars.map FitPar.name).Nodup
  else List.Forall₂ (fun (p : FitPar) x => assoc kw p.name = some x) g.pars w

/-- A list of points has a point for every index below `n`: the `i`-th value of `xs` with `f i`. -/
def PointsAre (pts : List (ℝ × ℝ)) (n : ℕ) (xs : List ℝ) (f : ℕ → ℝ) : Prop :=
  pts.length = n ∧ ∀ i x, i < n → xs[i]? = some x → pts[i]? = some (x, f i)

end Verif
