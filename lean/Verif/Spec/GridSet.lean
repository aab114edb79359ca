import Verif.Spec.Minimise

/-! # Vocabulary of C158: results put into a grid -/

namespace Verif

/-- Asked for the penalty or the total at a point of the grid, or for all totals, `g` answers with `P` and
with `S` summed over the bins of the spectrum, plus `P`. -/
def GridSearch.Shows (g : GridSearch) (S P : NdArray ℝ) : Prop :=
  (∃ m, g.getStats = .ok m ∧ m.shape = g.fitShape ∧ ∀ idx, InB g.fitShape idx →
    m.get idx = sumIdx g.cellShape (fun j => S.get (idx ++ j)) + P.get idx) ∧
  ∀ idx, InB g.fitShape idx → ∃ s p, g.getStat (idx.map (fun n : ℕ => (n : ℤ))) = .ok s ∧
    g.getPenaltyTerm (idx.map (fun n : ℕ => (n : ℤ))) = .ok p ∧ s.shape = [] ∧ p.shape = [] ∧
    s.get [] = sumIdx g.cellShape (fun j => S.get (idx ++ j)) + P.get idx ∧ p.get [] = P.get idx

/-- Setting statistic and penalty of one point of the grid to the entries of `S` and `P`. -/
def GridSearch.setPoint (S P : NdArray ℝ) (g : GridSearch) (idx : List ℕ) : Except PyErr GridSearch := do
  let g ← g.setStat (.array ⟨g.cellShape, fun j => S.get (idx ++ j)⟩) (idx.map (fun n : ℕ => (n : ℤ)))
  g.setPenaltyTerm (P.get idx) (idx.map (fun n : ℕ => (n : ℤ)))

end Verif
