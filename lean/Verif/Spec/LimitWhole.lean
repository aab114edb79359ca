import Verif.Spec.FitWhole
import Verif.Spec.ConvexFit
import Verif.Spec.Recover
import Verif.Spec.Minimise

/-! # Vocabulary of the properties about limits set with fits made from their arguments -/

namespace Verif

/-- The arguments of the fit together with the signal that is given to the limit. -/
abbrev FitArgs.withSignal (a : FitArgs) (r : ℕ) : FitArgs := { a with signal := some r }

/-- What is supposed of a limit: the fit has been given data, the spectrum `d`, and no signal; the
limit is given the signal `r`, a spectrum of its own with a fit configuration that represents
some decays; all spectra have the axes of the data and can be cut to the region at bin edges; and
at most one axis is not part of the region. -/
structure FitArgs.LimitOn (a : FitArgs) (r d : ℕ) (ts : List Spectrum) (st : FitState) : Prop where
  given : (a.withSignal r).Given ts st
  settings : a.Settings st
  signal : a.signal = none
  data : a.data = some d
  axes : ∀ q ∈ (a.withSignal r).kept ++ a.fixed.map Prod.fst, (st.view q).cfg = (st.view d).cfg
  fit : (st.objs r).fit ≠ none
  decays : (st.view r).numDecays ≠ 0
  region : (st.view d).cfg.length ≤ a.roi.length + 1

/-- The contents of the region (`c q` those of the spectrum `q`) expected from the fixed backgrounds:
each scaled from its decays to the given number, added bin by bin. -/
def FitArgs.fixedTotal (a : FitArgs) (st : FitState) (c : ℕ → NdArray ℚ) (shape : List ℕ) :
    NdArray ℚ :=
  ⟨shape, fun idx => (a.fixed.map (fun e => e.2 / (st.view e.1).numDecays * (c e.1).get idx)).sum⟩

/-- The contents of the region expected from fixed and floating backgrounds, the latter scaled to the
`rates`. -/
def FitArgs.backgroundAt (a : FitArgs) (st : FitState) (c : ℕ → NdArray ℚ) (shape : List ℕ)
    (rates : List ℚ) : NdArray ℚ := ⟨shape, a.sumAt st rates c⟩

/-- The sum of the penalties of the fit's parameters at the values `u`. -/
noncomputable def FitArgs.penaltyAt (a : FitArgs) (st : FitState) (u : List ℝ) : ℝ :=
  (List.zipWith (fun p x => match (st.params p).sigma with
    | none => 0
    | some sigma => pull a.stat x (st.params p).prior sigma) (a.parameters st) u).sum

/-- `u` is the first of the combinations of values with the smallest `F`. -/
def FirstBest (vss : List (List ℝ)) (F : List ℝ → ℝ) (u : List ℝ) : Prop :=
  ∃ idx, ValuesAt vss idx u ∧
    ∀ idx' u', ValuesAt vss idx' u' → F u ≤ F u' ∧ (F u' = F u → idx ≤ idx')

end Verif
