import Verif.Spec.Minimise

/-! # Vocabulary of C43 for parameters with repeated values -/

namespace Verif

/-- Every position is the first one at which its parameter has that value. -/
def FirstOccurrence (vss : List (List ℝ)) (idx : List ℕ) : Prop :=
  List.Forall₂ (fun i (vs : List ℝ) => i < vs.length ∧ ∀ k < i, vs[k]? ≠ vs[i]?) idx vss

end Verif
