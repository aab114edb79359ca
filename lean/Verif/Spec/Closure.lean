import Verif.Spec.FitGrid
import Verif.Spec.FitSession
import Verif.Spec.TestStatistic

/-! # Vocabulary of the properties of fits to data that the model describes -/

namespace Verif

/-- At the values `args` the fit agrees with the data: the expected contents are the observed ones
(the compared contents, that is, the sums with `single_bin`), and each parameter with a sigma has
its prior. -/
structure Agrees (env : FitEnv) (f : Fit) (st : FitState) (args : List ℚ) : Prop where
  contents : ∃ obs e, evaluatedContents env f args st = .ok (obs, some e) ∧
    comparedContents f.singleBin e = comparedContents f.singleBin obs
  priors : List.Forall₂ (fun p v => (st.params p).sigma ≠ none → ((v : ℚ) : ℝ) = (st.params p).prior)
    f.pars args

/-- At the values `args` the fit expects nowhere more than observed, and each parameter with a sigma
has its prior. -/
structure NowhereMore (env : FitEnv) (f : Fit) (st : FitState) (args : List ℚ) : Prop where
  contents : ∃ obs e, evaluatedContents env f args st = .ok (obs, some e) ∧
    ∀ b ∈ (comparedContents f.singleBin obs).zip (comparedContents f.singleBin e), b.2 ≤ b.1
  priors : List.Forall₂ (fun p v => (st.params p).sigma ≠ none → ((v : ℚ) : ℝ) = (st.params p).prior)
    f.pars args

/-- All observed and expected contents at the values `args` are at or above the threshold. -/
def AllCount (env : FitEnv) (f : Fit) (st : FitState) (args : List ℚ) : Prop :=
  ∀ obs e, evaluatedContents env f args st = .ok (obs, some e) →
    ∀ x ∈ comparedContents f.singleBin obs ++ comparedContents f.singleBin e, zeroThreshold ≤ x

/-- No combination of the arrays but the trivial one vanishes everywhere. -/
def Independent (shape : List ℕ) (ps : List (NdArray ℚ)) : Prop :=
  ∀ c : List ℚ, c.length = ps.length →
    (∀ idx, InB shape idx → (List.zipWith (fun x p => x * p.get idx) c ps).sum = 0) →
    ∀ x ∈ c, x = 0

end Verif
