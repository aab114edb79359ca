import Verif.Model.PreConvolved

/-! Vocabulary for the names of pre-convolved files. -/

namespace Verif

/-- The file with the given parts. -/
def fileName (parts : List PyStr) : PyStr := ['_'].intercalate parts ++ lit ".hdf5"

/-- Something between two underscores that does not end like a file. -/
def Part (s : PyStr) : Prop := '_' ∉ s ∧ ¬ lit ".hdf5" <:+ s

/-- The parts of a name with the tag `value ++ ext` in place of the parts that end with
`ext`, or at the end if there are none. -/
def retag (value ext : PyStr) (parts : List PyStr) : List PyStr :=
  if ∃ c ∈ parts, ext <:+ c then parts.map (fun c => if ext <:+ c then value ++ ext else c)
  else parts ++ [value ++ ext]

/-- Kind of parameter, its folder and the ending of its tags. -/
inductive Tagged : ParKind → ℝ → PyStr → PyStr → Prop
  | lightYield (v : ℝ) : 10 < v → Tagged .resolution v (lit "smear") (lit "ly")
  | resolution (v : ℝ) : v ≤ 10 → Tagged .resolution v (lit "smear") (lit "rs")
  | scale (v : ℝ) : Tagged .scale v (lit "scale") (lit "sc")
  | shift (v : ℝ) : Tagged .shift v (lit "shift") (lit "sh")

/-- `a/b/c/` -/
def folders (fs : List PyStr) : PyStr := (fs.map (· ++ ['/'])).flatten

/-- How the text of a number is written in a file name: whole numbers without the `.0`,
others as they are. Texts of whole numbers without a point and of exponents that end with a
zero are not covered. -/
inductive Written : PyStr → PyStr → Prop
  | whole (i : PyStr) : '.' ∉ i → 'e' ∉ i → '_' ∉ i → Written (i ++ lit ".0") i
  | kept (g : PyStr) (c : Char) : c ≠ '0' → c ≠ '.' → ('.' ∈ g ∨ 'e' ∈ g) → '_' ∉ g → c ≠ '_' →
      Written (g ++ [c]) (g ++ [c])

end Verif
