import Verif.Spec.MoreData

/-! # Vocabulary of the properties about bins without signal -/

namespace Verif

open Classical in
/-- Observed events, background and signal of the bins in which there is some signal. -/
noncomputable def signalBins (obs bkg sig : List ℝ) : List (ℝ × ℝ × ℝ) :=
  (obs.zip (bkg.zip sig)).filter (fun b => b.2.2 ≠ 0)

end Verif
