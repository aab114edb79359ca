import Verif.Spec.FitLimit

/-! Specification of the numbers that fits by grid search return. -/

namespace Verif

/-- The number that is minimised, without the penalty: the total statistic, or the sum of the
statistics of the bins. -/
noncomputable def StatValue.sum : StatValue → ℝ
  | .total v => v
  | .bins l => l.sum

/-- The values `u` (with the statistic `s` and the penalty `p`) are the first of those in `vss`
where the fit `f`, evaluated with the objects `st`, has the smallest sum of statistic and
penalty. -/
def BestValues (env : FitEnv) (f : Fit) (st : FitState) (rnd : ℝ → ℚ) (vss : List (List ℝ))
    (u : List ℝ) (s : StatValue) (p : ℝ) : Prop :=
  ∃ idx, ValuesAt vss idx u ∧ (∃ o, (funct env f (u.map rnd) st).2 = .ok ((s, o), p)) ∧
    ∀ idx' u', ValuesAt vss idx' u' → ∃ s' o' p', (funct env f (u'.map rnd) st).2 = .ok ((s', o'), p') ∧
      s.sum + p ≤ s'.sum + p' ∧ (s'.sum + p' = s.sum + p → idx ≤ idx')

/-- `t` is the penalty of the parameter `p` at the value `x`. -/
def PenaltyIs (st : Stat) (p : FitPar) (x t : ℝ) : Prop :=
  (p.sigma = none → t = 0) ∧ ∀ sigma, p.sigma = some sigma → st.penalty x p.prior sigma = .ok t

/-- `ts` are the penalties of the parameters `ps` at the values `u`. -/
def PenaltiesAre (st : Stat) (ps : List FitPar) (u ts : List ℝ) : Prop :=
  ts.length = ps.length ∧ ∀ (i : ℕ) p x t, ps[i]? = some p → u[i]? = some x → ts[i]? = some t →
    PenaltyIs st p x t

end Verif
