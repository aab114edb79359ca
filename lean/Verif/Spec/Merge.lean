import Verif.Spec.TestStatistic
import Verif.Model.NdArray

/-! # Vocabulary of the properties about merging bins -/

namespace Verif

/-- The contents (observed, expected) of a bin that the claim about merging covers. The
extended likelihood takes any numbers that are not negative. Neyman's statistic divides by
the observed number, which must not count as zero, and the expected one is zero or does not
count as zero. For the others the observed number is zero or does not count as zero, and the
expected number does not count as zero where something is observed. -/
def Stat.Mergeable (st : Stat) (b : ℝ × ℝ) : Prop :=
  match st with
  | .extLL => 0 ≤ b.1 ∧ 0 ≤ b.2
  | .neyman => zeroThreshold ≤ b.1 ∧ (b.2 = 0 ∨ zeroThreshold ≤ b.2)
  | _ => (b.1 = 0 ∨ zeroThreshold ≤ b.1) ∧ 0 ≤ b.2 ∧ (b.1 = 0 ∨ zeroThreshold ≤ b.2)

/-- The sums of the observed and of the expected contents of some bins. -/
def groupSum (L : List (ℝ × ℝ)) : ℝ × ℝ := ((L.map Prod.fst).sum, (L.map Prod.snd).sum)

/-- The contents of an array in row-major order. -/
noncomputable def ravel (a : NdArray ℚ) : List ℝ :=
  (allIdx a.shape).map (fun idx => ((a.get idx : ℚ) : ℝ))

/-- All corresponding cells of two arrays can be merged. -/
def Stat.MergeableArrays (st : Stat) (obs exp : NdArray ℚ) : Prop :=
  ∀ idx, InB obs.shape idx → st.Mergeable (((obs.get idx : ℚ) : ℝ), ((exp.get idx : ℚ) : ℝ))

/-- The contents of a bin (observed, expected) count, also after multiplying both by `k`. An
observed number of zero is allowed but for Neyman's statistic. -/
def Stat.CountsTimes (st : Stat) (k : ℝ) (b : ℝ × ℝ) : Prop :=
  (b.1 = 0 ∧ st ≠ .neyman ∨ zeroThreshold ≤ b.1 ∧ zeroThreshold ≤ k * b.1) ∧
    zeroThreshold ≤ b.2 ∧ zeroThreshold ≤ k * b.2

end Verif
