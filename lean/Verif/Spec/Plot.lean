import Verif.Spec.Shift
import Verif.Model.Plot

/-! # Vocabulary of the properties of plots -/

namespace Verif

/-- Contents of a spectrum in the bins `at`: the sum of all its cells that have, for every pair
`(d, i)` in `at`, the index `i` on the axis named `d`. -/
def contentsAt (s : Spectrum) (at' : List (PyStr × ℕ)) : ℚ :=
  sumIdx s.data.shape (fun full =>
    if ∀ e ∈ at', e ∈ (s.cfg.map SPar.name).zip full then s.data.get full else 0)

/-- The histogram has the bins of the axis `p` and the heights `f 0`, `f 1`, … -/
def StepHist.Shows (h : StepHist) (p : SPar) (f : ℕ → ℚ) : Prop :=
  h.edges = (List.range (p.bins.toNat + 1)).map (fun i : ℕ => p.edge i) ∧
  h.heights = (List.range p.bins.toNat).map f

end Verif
