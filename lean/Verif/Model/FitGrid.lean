import Verif.Model.Fit
import Verif.Model.Minimise

/-!
# `Fit.fit` with a grid search

The grid search of `/repo/echidna/fit/minimise.py` applied to `Fit._funct`, which reads and
changes the spectra and parameters of the fit. `Model/Minimise.lean` has the same loop for a
function without state.
-/

namespace Verif

/-- What `_funct` returns as test statistic, as the grid search receives it: a float, or an array
with one entry per bin (`/repo/echidna/fit/fit.py:577-581`). -/
noncomputable def toFitVal : StatValue × Option (List ℕ) → FitVal
  | (.total v, _) => .scalar v
  | (.bins l, some shape) => .array ⟨shape, fun idx => l.getD (ravelIdx shape idx) 0⟩
  | (.bins l, none) => .array ⟨[l.length], fun idx => l.getD (ravelIdx [l.length] idx) 0⟩

/-- `self._funct`, `/repo/echidna/fit/fit.py:447-581`, as it is passed to the minimiser (line
445). Parameter values are reals in the grid search and rationals in the spectra; `rnd` converts
them. -/
noncomputable def functAt (env : FitEnv) (f : Fit) (rnd : ℝ → ℚ) (w : List ℝ) : FitM (FitVal × ℝ) := do
  let r ← funct env f (w.map rnd)
  pure (toFitVal r.1, r.2)

/-- The loop of `GridSearch.minimise`, `/repo/echidna/fit/minimise.py:322-341`; cf.
`GridSearch.fillGrid`. -/
noncomputable def fillGridM (fn : List ℝ → FitM (FitVal × ℝ)) :
    GridSearch → List (List ℝ × List ℕ) → FitM GridSearch
  | g, [] => pure g
  | g, pt :: pts => do
    let r ← fn pt.1
    let g ← FitM.lift (g.fillPoint (fun _ => .ok r) pt)
    fillGridM fn g pts

/-- The rest of `GridSearch.minimise`, `/repo/echidna/fit/minimise.py:343-367`: best fit of the
filled grid. -/
noncomputable def reportBest (g : GridSearch) (st : Stat) :
    Except PyErr (GridSearch × NdArray ℝ × NdArray ℝ) := do
  let position ← g.bestPosition
  let pars ← GridSearch.setBests st position g.pars
  let g : GridSearch := { g with pars }
  let idx := position.map (fun n : ℕ => (n : ℤ))
  let raw ← g.getRawStat idx
  let pen ← g.getPenaltyTerm idx
  .ok (g, raw, pen)

/-- `Fit.fit` with floating backgrounds, `/repo/echidna/fit/fit.py:441-445`, for a fit that has
been checked and has the grid search `g`: `self._minimiser.minimise(self._funct,
self._test_statistic)`, `/repo/echidna/fit/minimise.py:303-367`. -/
noncomputable def fitGrid (env : FitEnv) (f : Fit) (rnd : ℝ → ℚ) (g : GridSearch) :
    FitM (GridSearch × NdArray ℝ × NdArray ℝ) := do
  let pts ← FitM.lift (GridSearch.gridPoints g.pars)
  let g ← fillGridM (functAt env f rnd) g pts
  FitM.lift (reportBest g f.stat)

end Verif
