import Verif.Spec.Spectra

/-! Vocabulary of projections with several axes left out. -/

namespace Verif

/-- The positions of the parameters that are not among `dims`. -/
def Spectrum.leftOut (s : Spectrum) (dims : List PyStr) : List ℕ :=
  (List.range s.cfg.length).filter (fun i => decide ((s.cfg.map SPar.name).getD i [] ∉ dims))

/-- Positions moved up by the number of positions before them: the first stays, the second is
one higher and so on. -/
def movedUp (l : List ℕ) : List ℕ := l.zipIdx.map (fun e => e.1 + e.2)

/-- The names of the parameters at all positions but those given. -/
def Spectrum.namesBut (s : Spectrum) (l : List ℕ) : List PyStr :=
  ((List.range s.cfg.length).filter (fun i => decide (i ∉ l))).map
    (fun i => (s.cfg.map SPar.name).getD i [])

end Verif
