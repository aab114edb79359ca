import Verif.Spec.TestStatistic

/-! # Vocabulary of the properties about exposure and signal strength -/

namespace Verif

/-- The observed and expected contents of a bin count: the observed number is zero or above
the threshold, the expected one is not negative, and above the threshold where something is
observed. Neyman's statistic needs both above the threshold. -/
def Stat.SoundBin (st : Stat) (o e : ℝ) : Prop :=
  match st with
  | .neyman => zeroThreshold ≤ o ∧ zeroThreshold ≤ e
  | _ => (o = 0 ∨ zeroThreshold ≤ o) ∧ 0 ≤ e ∧ (o = 0 ∨ zeroThreshold ≤ e)

/-- All bins count. -/
def Stat.Sound (st : Stat) (obs exp : List ℝ) : Prop := List.Forall₂ st.SoundBin obs exp

/-- The expected contents for the background `bkg` and `x` times the signal `sig`. -/
def expectedAt (bkg sig : List ℝ) (x : ℝ) : List ℝ := List.zipWith (fun b s => b + x * s) bkg sig

end Verif
