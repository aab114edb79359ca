import Verif.Props.Fill

/-! # Vocabulary: parts of a history of fills -/

namespace Verif

open Classical in
/-- The fills that the spectrum accepts. -/
noncomputable def accepted (s : Spectrum) (h : Fills) : Fills :=
  h.filter (fun e => decide (InRange s e.2))

/-- The same fills with the coordinates of `dims` only. -/
def onlyDims (dims : List PyStr) (h : Fills) : Fills :=
  h.map (fun e => (e.1, e.2.filter (fun c => decide (c.1 ∈ dims))))

/-- The axes of the parameters `dims`. -/
def axesOf (dims : List PyStr) (cfg : List SPar) : List SPar :=
  cfg.filter (fun p => decide (p.name ∈ dims))

end Verif
