import Verif.Model.TestStatistic

/-! # Vocabulary of the properties of test statistics -/

namespace Verif

/-- A one-dimensional array. -/
def arr (l : List ℝ) : RArr := ⟨[l.length], l⟩

/-- `compute_statistic` of an object with `per_bin=False` returns `v`. -/
def Stat.Total (st : Stat) (obs exp : List ℝ) (v : ℝ) : Prop :=
  ∃ o e, st.computeStatistic false (arr obs) (arr exp) = .ok ⟨.total v, o, e⟩

/-- `compute_statistic` of an object with `per_bin=True` returns `l`. -/
def Stat.PerBin (st : Stat) (obs exp : List ℝ) (l : List ℝ) : Prop :=
  ∃ o e, st.computeStatistic true (arr obs) (arr exp) = .ok ⟨.bins l, o, e⟩

/-- The threshold below which a value counts as zero. -/
noncomputable def zeroThreshold : ℝ := 1 / 10 ^ 34

end Verif
