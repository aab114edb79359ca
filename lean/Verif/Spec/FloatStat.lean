import Verif.Model.FloatStat
import Verif.Spec.FloatSum

/-! # Vocabulary of the properties of test statistics in floating point arithmetic -/

namespace Verif

open Real

/-- The numbers agree up to the relative error of `N` roundings. In particular both are zero or none is,
and they have the same sign. -/
def Rounding.UpTo (R : Rounding) (N : ℕ) (x y : ℝ) : Prop :=
  (1 - (R.u : ℝ)) ^ N * y ≤ x ∧ (1 - (R.u : ℝ)) ^ N * x ≤ y

/-- The contents of a bin: nothing, or not so little that it is taken for nothing. -/
def Content (x : ℚ) : Prop := x = 0 ∨ 1 / 10 ^ 30 ≤ x

/-- A one-dimensional array with these contents. -/
def floatArr (l : List ℚ) : RArr := ⟨[l.length], l.map (fun x : ℚ => (x : ℝ))⟩

/-- Statistic plus penalty terms of constrained parameters, given by value, prior and sigma: in floating
point arithmetic. -/
def Rounding.judged (R : Rounding) (lg : ℚ → ℚ) (tot : List ℚ → ℚ) (st : Stat) (obs exp : List ℚ)
    (pars : List (ℚ × ℚ × ℚ)) : Except PyErr ℚ := do
  let v ← R.computeStatistic lg tot st false obs exp
  let ps ← pars.mapM (fun p => R.penalty st p.1 p.2.1 p.2.2)
  match v with
  | .inl v => .ok (R.add v (ps.foldl R.add 0))
  | .inr _ => .error .typeError

/-- Statistic plus penalty terms, exactly. -/
noncomputable def judgedExactly (st : Stat) (obs exp : List ℚ) (pars : List (ℚ × ℚ × ℚ)) :
    Except PyErr ℝ := do
  let v ← st.computeStatistic false (floatArr obs) (floatArr exp)
  let ps ← pars.mapM (fun p => st.penalty p.1 p.2.1 p.2.2)
  match v.value with
  | .total v => .ok (v + ps.sum)
  | .bins _ => .error .typeError

/-- `lg` is the logarithm up to the relative error `w`. -/
def LogUpTo (w : ℝ) (lg : ℚ → ℚ) : Prop := ∀ x : ℚ, 0 < x → |(lg x : ℝ) - log x| ≤ w * |log x|

/-- The size of the numbers in a bin of a Baker-Cousins statistic. -/
noncomputable def binSize (o e : ℚ) : ℝ :=
  o + max (e : ℝ) (1 / 10 ^ 34) + o * |log (o / max (e : ℝ) (1 / 10 ^ 34))|

/-- The size of the numbers in a bin of the extended likelihood. -/
noncomputable def extSize (o e : ℚ) : ℝ :=
  o + max (e : ℝ) (1 / 10 ^ 34) + o * |log (max (e : ℝ) (1 / 10 ^ 34))|

/-- The size of the numbers from which a statistic with logarithms is computed. -/
noncomputable def statSize (st : Stat) (obs exp : List ℚ) : ℝ :=
  match st with
  | .extLL => (List.zipWith extSize obs exp).sum
  | .bcLL => (List.zipWith binSize obs exp).sum
  | _ => 2 * (List.zipWith binSize obs exp).sum

end Verif
