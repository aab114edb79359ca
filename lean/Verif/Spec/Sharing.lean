import Verif.Model.Sharing

/-! # Which spectra of a program refer to the same configuration -/

namespace Verif

/-- `Uses prog c i`: the configuration that was made at step `c` is the one that the spectrum made
at step `i` was given: by the constructor, by the file it was loaded from, or by the spectrum it
was made from. -/
inductive Uses (prog : List Stmt) (c : ℕ) : ℕ → Prop
  | create {n : ℕ} {name : PyStr} {d : ℚ} : prog[n]? = some (.create name d c) → Uses prog c n
  | load {s : Spectrum} : prog[c]? = some (.load s) → Uses prog c c
  | like {n i : ℕ} {name : PyStr} {d : ℚ} :
      prog[n]? = some (.createLike name d i) → Uses prog c i → Uses prog c n
  | make {n i : ℕ} {m : Making} : prog[n]? = some (.make i m) → Uses prog c i → Uses prog c n

/-- Two spectra that were given the same configuration. -/
def Related (prog : List Stmt) (i j : ℕ) : Prop := ∃ c, Uses prog c i ∧ Uses prog c j

/-- The methods that change the axes of a spectrum. -/
def Method.ChangesAxes : Method → Prop
  | .rebin _ | .shrink _ | .cut _ | .roi _ _ _ => True
  | _ => False

end Verif
