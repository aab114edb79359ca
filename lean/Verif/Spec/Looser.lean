import Verif.Spec.Sensitivity
import Verif.Spec.LimitWhole

/-! # Vocabulary of the properties about constraints and grids of rates -/

namespace Verif

/-- `q` has the prior of `p`, and no sigma or one that is not smaller. -/
def Param.Looser (p q : Param) : Prop :=
  q.prior = p.prior ∧ (q.sigma = none ∨ ∃ s s', p.sigma = some s ∧ q.sigma = some s' ∧ 0 < s ∧ s ≤ s')

/-- Every value of the lists `vss` is one of the lists `wss`, rate by rate. -/
def Finer (vss wss : List (List ℝ)) : Prop := List.Forall₂ (fun vs ws => ∀ x ∈ vs, x ∈ ws) vss wss

end Verif
