import Verif.Model.Limit

/-!
# Specification of limit setting
-/

namespace Verif

/-- The fitter, asked for the signal scaled by each of `scales`, gives the plain
number `st x` and the penalty terms `pens x`; a scaling close to zero means no
signal. -/
def ScalarFits (fit : Option ℝ → Except PyErr FitOut) (scales : List ℝ) (st : ℝ → ℝ)
    (pens : ℝ → List ℝ) : Prop :=
  ∀ x ∈ scales, (npCloseReal x 0 → fit none = .ok ⟨[st x], pens x⟩) ∧
    (¬ npCloseReal x 0 → fit (some x) = .ok ⟨[st x], pens x⟩)

/-- The statistics are taken relative to `m`: a number other than zero that was
given, or else the statistic of the fit without signal. -/
def RelativeTo (fit : Option ℝ → Except PyErr FitOut) (minStat : Option (List ℝ)) (m : ℝ) : Prop :=
  (minStat = some [m] ∧ m ≠ 0) ∨
    ((minStat = none ∨ minStat = some [0]) ∧ ∃ pens, fit none = .ok ⟨[m], pens⟩)

/-- `b` is the smallest of the scalings with the lowest statistic. -/
def BestScale (scales : List ℝ) (st : ℝ → ℝ) (b : ℝ) : Prop :=
  b ∈ scales ∧ ∀ y ∈ scales, st b ≤ st y ∧ (st y = st b → b ≤ y)

/-- `x` is the smallest of the scalings from `b` on with `F` above the threshold. -/
def FirstCrossing (scales : List ℝ) (F : ℝ → ℝ) (b limit x : ℝ) : Prop :=
  x ∈ scales ∧ b ≤ x ∧ limit < F x ∧ ∀ y ∈ scales, b ≤ y → y < x → F y ≤ limit

end Verif
