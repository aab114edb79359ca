import Verif.Model.Minimise

/-! Specification of minima of grids. -/

namespace Verif

/-- `p` is the first position (comparing index lists lexicographically) at which
`f` is smallest over all positions inside the shape. -/
def FirstMin {α : Type} [LinearOrder α] (shape : List ℕ) (f : List ℕ → α) (p : List ℕ) : Prop :=
  InB shape p ∧ ∀ q, InB shape q → f p ≤ f q ∧ (f q = f p → p ≤ q)

/-- A combination takes one value from each list. -/
def Combination (vss : List (List ℝ)) (w : List ℝ) : Prop := List.Forall₂ (· ∈ ·) w vss

/-- `w` consists of the values at the positions `idx` of the lists. -/
def ValuesAt (vss : List (List ℝ)) (idx : List ℕ) (w : List ℝ) : Prop :=
  List.Forall₂ (fun (e : List ℝ × ℕ) x => e.1[e.2]? = some x) (vss.zip idx) w ∧
    idx.length = vss.length

/-- The value lists of fit parameters. -/
def HasValues (pars : List FitPar) (vss : List (List ℝ)) : Prop :=
  List.Forall₂ (fun p vs => p.getValues = .ok vs) pars vss

/-- The numbers in a result of the function to be minimised. -/
def FitVal.cells : FitVal → NdArray ℝ
  | .scalar x => ⟨[], fun _ => x⟩
  | .array a => a

/-- The shape the result must have: none for a search with one number per grid
point, the shape of the spectrum for a search per bin. -/
def GridSearch.cellShape (g : GridSearch) : List ℕ := if g.perBin then g.specShape else []

/-- The function returns results of the right form for the grid search. -/
def GridSearch.Fits (g : GridSearch) (r : FitVal) : Prop :=
  match r with
  | .scalar _ => g.perBin = false
  | .array a => g.perBin = true ∧ a.shape = g.specShape

/-- The arrays of the grid search have the shapes of a newly made one. -/
def GridSearch.Ready (g : GridSearch) : Prop :=
  g.stats.shape = g.fitShape ++ g.cellShape ∧ g.penalties.shape = g.fitShape

/-- What a user supplies to a grid search: parameters with as many values as
bins (`vss`, at least one each), and a function that returns `F` and the
penalty `P` at every combination of values, in the form the search expects. A
given sigma is not zero, and there is at least one parameter when numpy is not
used. -/
structure GridSearch.Setup (g : GridSearch) (vss : List (List ℝ))
    (funct : List ℝ → Except PyErr (FitVal × ℝ)) (F : List ℝ → FitVal) (P : List ℝ → ℝ) : Prop where
  values : HasValues g.pars vss
  counts : List.Forall₂ (fun (p : FitPar) (vs : List ℝ) => vs.length = p.bins ∧ vs ≠ []) g.pars vss
  returns : ∀ w, Combination vss w → funct w = .ok (F w, P w) ∧ g.Fits (F w)
  sigmas : ∀ p ∈ g.pars, p.sigma ≠ some 0
  nonempty : g.useNumpy = true ∨ g.pars ≠ []

/-- Statistic plus penalty of a combination of values. -/
noncomputable def objective (F : List ℝ → FitVal) (P : List ℝ → ℝ) (w : List ℝ) : ℝ :=
  (F w).cells.sum + P w

/-- `g'` results from `k` calls of `reset_grids`. -/
inductive ResetsTo : GridSearch → ℕ → GridSearch → Prop
  | zero (g : GridSearch) : ResetsTo g 0 g
  | succ {g g' g'' : GridSearch} {k : ℕ} : ResetsTo g k g' → g'.resetGrids = .ok g'' →
      ResetsTo g (k + 1) g''

end Verif
