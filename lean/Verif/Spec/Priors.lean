import Verif.Spec.FitGrid

/-! # Vocabulary of the properties about priors and value lists of fits -/

namespace Verif

/-- The same state, with other priors and sigmas of the parameters. -/
def FitState.withPriors (st : FitState) (prior : ℕ → ℝ) (sigma : ℕ → Option ℝ) : FitState :=
  { st with params := fun p => { st.params p with prior := prior p, sigma := sigma p } }

/-- `b` is a tighter constraint than `a`: a smaller sigma, or a sigma where there was none. -/
def Tighter (a b : Option ℝ) : Prop :=
  ∃ y, b = some y ∧ 0 < y ∧ ∀ x, a = some x → y < x

/-- The value of the parameter `p` in the list of values of the parameters `ps`. -/
def ValueOf (ps : List ℕ) (w : List ℝ) (p : ℕ) (x : ℝ) : Prop := (p, x) ∈ ps.zip w

end Verif
