import Verif.Spec.LimitWhole
import Verif.Spec.FitLimit

/-! # Vocabulary of the properties about scaling spectra before they are used -/

namespace Verif

/-- The objects after calls of `scale`: for every pair `(q, n)` of the list, in order, the spectrum `q`
is scaled to `n` decays. -/
def FitState.afterScaling (st : FitState) (l : List (ℕ × ℚ)) : FitState :=
  l.foldl (fun st e => st.scaled e.1 e.2) st

end Verif
