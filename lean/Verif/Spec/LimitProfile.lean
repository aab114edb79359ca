import Verif.Spec.LimitWhole
import Verif.Spec.Convex

/-! Specification for C160: signals and rates between those of a grid. -/

namespace Verif

/-- Each rate lies between two values of its list. -/
def WithinGrid (vss : List (List ℝ)) (u : List ℚ) : Prop :=
  List.Forall₂ (fun (v : ℚ) (vs : List ℝ) => ∃ p ∈ vs, ∃ q ∈ vs, p ≤ (v : ℝ) ∧ (v : ℝ) ≤ q) u vss

/-- The contents expected in the region: the backgrounds, the floating ones scaled to the rates `u`,
and the signal `r` scaled to `x` decays (`c` are the contents of the given spectra, `d` the data). -/
noncomputable def FitArgs.withSignalAt (a : FitArgs) (st : FitState) (c : ℕ → NdArray ℚ) (d r : ℕ)
    (x : ℚ) (u : List ℚ) : List ℝ :=
  expectedAt (comparedContents a.singleBin (a.backgroundAt st c (c d).shape u))
    (comparedContents a.singleBin (c r)) ((x : ℝ) / ((st.view r).numDecays : ℝ))

end Verif
