import Mathlib.Data.Rat.Floor
import Mathlib.Algebra.Order.Round
import Mathlib.Data.List.Basic

/-!
# Base of the model: python errors, strings and number formats

Everything in this file models python 2 / numpy built-ins used by `/repo/echidna`,
not a function of the repository itself.
-/

namespace Verif

/-- Exceptions raised by the modelled code, by python class.
`zeroDivision` stands for every division by zero: python's `ZeroDivisionError`
and numpy's inf/nan results with a warning (simplification: the model has no
inf/nan). `axisError` is numpy's error for an axis outside the array.
`compatibility` and `limitError` are `/repo/echidna/errors/custom_errors.py:1-12`. -/
inductive PyErr
  | valueError | indexError | keyError | typeError | exception
  | zeroDivision | attributeError | axisError | nameError
  | compatibility | limitError | assertionError
  deriving DecidableEq, Repr

/-- A python string. Simplification: a list of characters. -/
abbrev PyStr := List Char

/-- `int(x)` of a float: truncation towards zero. -/
def pyInt (x : ℚ) : ℤ := if 0 ≤ x then ⌊x⌋ else ⌈x⌉

/-- python 2 `round(x)`: nearest integer, halves away from zero. -/
def pyRound (x : ℚ) : ℤ := if 0 ≤ x then ⌊x + 1 / 2⌋ else ⌈x - 1 / 2⌉

/-- `numpy.rint(x)`: nearest integer, halves to the even neighbour. -/
def npRint (x : ℚ) : ℤ :=
  if Int.fract x < 1 / 2 then ⌊x⌋
  else if 1 / 2 < Int.fract x then ⌊x⌋ + 1
  else if ⌊x⌋ % 2 = 0 then ⌊x⌋ else ⌊x⌋ + 1

/-- `numpy.isclose(a, b)` / `numpy.allclose(a, b)` on scalars with the default
tolerances `rtol = 1e-5`, `atol = 1e-8`. -/
def npClose (a b : ℚ) : Prop := |a - b| ≤ 1 / 10 ^ 8 + 1 / 10 ^ 5 * |b|

instance (a b : ℚ) : Decidable (npClose a b) := by unfold npClose; infer_instance

/-- python `x % y` on floats (`y ≠ 0`): the result has the sign of `y`. -/
def pyMod (x y : ℚ) : ℚ := x - y * ⌊x / y⌋

/-- python `s.split(c)` with a one-character separator. -/
def pySplit (c : Char) (s : PyStr) : List PyStr := s.splitOn c

/-- python `sep.join(parts)` with a one-character separator. -/
def pyJoin (c : Char) (parts : List PyStr) : PyStr := [c].intercalate parts

/-- python `s[:-k]` for `k ≥ 1`: drops the last `k` characters, empty if there
are fewer. -/
def dropRight (s : PyStr) (k : ℕ) : PyStr := s.take (s.length - k)

/-- python string literal: `lit "ab"` is the list `['a', 'b']`. -/
macro "lit " s:str : term => do
  let chars := s.getString.toList.toArray.map (fun c => Lean.Syntax.mkCharLit c)
  `(([$chars,*] : PyStr))

/-- Lookup in a dictionary given as association list (`d[k]` / `k in d`). -/
def assoc {α β : Type} [DecidableEq α] (d : List (α × β)) (k : α) : Option β :=
  (d.find? (fun e => e.1 = k)).map Prod.snd

end Verif
