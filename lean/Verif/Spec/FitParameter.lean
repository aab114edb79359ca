import Verif.Model.FitParameter

/-!
# Specification of fit parameters
-/

namespace Verif

/-- `vs` are `n` increasing values from `low` to `high` whose images under `f`
are equally spaced. -/
structure Spaced (f : ℝ → ℝ) (low high : ℝ) (n : ℕ) (vs : List ℝ) : Prop where
  /-- as many values as bins -/
  count : vs.length = n
  /-- the first value -/
  first : vs.head? = some low
  /-- the last value -/
  last : vs.getLast? = some high
  /-- strictly increasing -/
  increasing : vs.Pairwise (· < ·)
  /-- one step for the whole list -/
  step : ∀ i x y z, vs[i]? = some x → vs[i + 1]? = some y → vs[i + 2]? = some z →
    f y - f x = f z - f y

/-- The keyword of a `set_par` argument. -/
def FitPar.Kw.key : FitPar.Kw → ℕ
  | .prior _ => 0 | .sigma _ => 1 | .low _ => 2 | .high _ => 3 | .bins _ => 4
  | .logscale _ => 5 | .base _ => 6 | .logDev _ => 7 | .dimension _ => 8 | .other => 9

/-- The parameter has the value given by the keyword argument. -/
def FitPar.Holds (p : FitPar) : FitPar.Kw → Prop
  | .prior v => p.prior = v
  | .sigma v => p.sigma = v
  | .low v => p.low = v
  | .high v => p.high = v
  | .bins v => p.bins = v
  | .logscale v => p.logscale = some v
  | .base v => p.base = some v
  | .logDev v => p.logDev = some v
  | .dimension v => p.dimension = some v
  | .other => False

/-- The attribute with keyword `k` is the same in both parameters. -/
def FitPar.SameAttr (p q : FitPar) : ℕ → Prop
  | 0 => p.prior = q.prior
  | 1 => p.sigma = q.sigma
  | 2 => p.low = q.low
  | 3 => p.high = q.high
  | 4 => p.bins = q.bins
  | 5 => p.logscale = q.logscale
  | 6 => p.base = q.base
  | 7 => p.logDev = q.logDev
  | 8 => p.dimension = q.dimension
  | _ => p.name = q.name ∧ p.current = q.current ∧ p.bestFit = q.bestFit ∧
      p.penaltyTerm = q.penaltyTerm

end Verif
