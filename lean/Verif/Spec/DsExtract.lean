import Verif.Model.DsExtract

/-! # Vocabulary of the properties of extractors -/

namespace Verif

/-- The position lies strictly inside the ball of radius `r` around the origin. -/
def Pos.Inside (p : Pos) (r : ℝ) : Prop := 0 < r ∧ p.x ^ 2 + p.y ^ 2 + p.z ^ 2 < r ^ 2

/-- The dimensions for which an extractor is documented. -/
def documentedDims : List PyStr :=
  [lit "energy_mc", lit "energy_reco", lit "energy_truth", lit "radial_mc", lit "radial_reco",
   lit "radial3_mc", lit "radial3_reco", lit "zradial3_mc", lit "zradial3_reco"]

/-- The kinds of dimension that take simulated (not reconstructed) values. -/
def simulatedDims : List PyStr :=
  [lit "energy_mc", lit "energy_truth", lit "radial_mc", lit "radial3_mc"]

/-- The ntuple entry is usable for dimension `d`, before any fiducial cut. -/
def Usable (d : PyStr) (external : Bool) (n : NtEntry) : Prop :=
  if d ∈ simulatedDims then n.mc = 1 ∧ (external = true → n.scintFit = 1)
  else n.scintFit = 1 ∧ (d = lit "energy_reco" → 0 < n.energy)

/-- The position on which the fiducial cut is made: simulated for simulated values
of internal events, reconstructed otherwise. -/
def cutPos (d : PyStr) (external : Bool) (n : NtEntry) : Pos :=
  if d ∈ simulatedDims ∧ external = false then n.mcPos else n.pos

/-- The fiducial cut as documented: inside the radius, if one is given. -/
def PassesFv (fv : Option ℝ) (p : Pos) : Prop := ∀ r, fv = some r → p.Inside r

end Verif
