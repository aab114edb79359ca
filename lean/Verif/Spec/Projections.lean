import Verif.Spec.Events

/-! Vocabulary of the properties about the order of projections and other operations. -/

namespace Verif

/-- The projection `b` of the spectrum onto the parameters `dims` as a spectrum of its own: the
axes of these parameters with the contents `b`, and everything else as in the spectrum. -/
def Spectrum.onto (s : Spectrum) (dims : List PyStr) (b : NdArray ℚ) : Spectrum :=
  { s with cfg := axesOf dims s.cfg, data := b }

/-- A call of one of the methods that project. -/
inductive ProjCall
  | project (d : PyStr)
  | nd (dims : List PyStr)
  | surface (d1 d2 : PyStr)

/-- The parameters that are kept. -/
def ProjCall.dims : ProjCall → List PyStr
  | .project d => [d]
  | .nd dims => dims
  | .surface d1 d2 => [d1, d2]

/-- What the call gives. -/
def ProjCall.run (s : Spectrum) : ProjCall → Except PyErr (NdArray ℚ)
  | .project d => s.project d
  | .nd dims => s.ndProject dims
  | .surface d1 d2 => s.surface d1 d2

/-- The parameters that are kept are different and belong to the spectrum; `nd_project` leaves at
most one axis out (see C11) and `surface` is called on at most three axes (see C12). -/
def ProjCall.Fits (s : Spectrum) (c : ProjCall) : Prop :=
  c.dims.Nodup ∧ (∀ d ∈ c.dims, d ∈ s.cfg.map SPar.name) ∧
  match c with
  | .project _ => True
  | .nd dims => s.cfg.length ≤ dims.length + 1
  | .surface _ _ => s.cfg.length ≤ 3

/-- Every keyword is a bound of one of the parameters `dims`. -/
def BoundsOf (dims : List PyStr) (kw : List (PyStr × ℚ)) : Prop :=
  ∀ e ∈ kw, ∃ d ∈ dims, e.1 = d ++ lit "_low" ∨ e.1 = d ++ lit "_high"

end Verif
