import Verif.Model.Limit

/-!
# The summary of a limit

`Limit.get_limit`, `/repo/echidna/limit/limit.py:89-300`, together with the summary it writes to the
log and the message of its `LimitError`, which `Model/Limit` leaves out. Simplifications: numbers
appear as they are, not rounded to four digits; storing is in `Model/LimitSave`.
-/

namespace Verif

/-- A fit parameter, as far as the summary shows it. Simplification: the prior is a number. -/
structure SummaryPar where
  name : PyStr
  prior : ℝ
  sigma : Option ℝ

/-- The lines about one parameter, `/repo/echidna/limit/limit.py:205-218`. -/
structure SummaryLine where
  name : PyStr
  /-- "Best fit" -/
  bestFit : ℝ
  /-- "Prior" -/
  prior : ℝ
  /-- "Sigma" -/
  sigma : ℝ
  /-- "Penalty term" -/
  penalty : ℝ

/-- The summary, `/repo/echidna/limit/limit.py:203-222` and `270-286`. -/
structure LimitSummary where
  /-- "Limit found at" or "No limit found" -/
  found : Bool
  /-- "Signal Decays" -/
  decays : ℝ
  /-- "systematic" by "systematic" -/
  lines : List SummaryLine
  /-- "Test statistic" -/
  statistic : ℝ

/-- What can be seen of `get_limit`: the summary if one is written, the numbers "Max stat" and
"Limit" in the message of a `LimitError`, and the outcome. -/
structure LimitLog where
  summary : Option LimitSummary
  message : Option (ℝ × ℝ)
  result : Except PyErr ℝ

/-- The limit results after the loop over the scalings, `/repo/echidna/limit/limit.py:157-196`:
`rows` are statistic and penalty terms of each scaling, `best` the best fits of the fit for a
signal. Entries that are not set keep the zero of the constructor. -/
noncomputable def loopResults (names : List PyStr) (best : Option ℝ → List ℝ) (scales : List ℝ)
    (rows : List (List ℝ × List ℝ)) : LimitResults where
  pars := names
  scales := scales.length
  bestFits := fun i j => match scales[i]? with
    | some x => (best (signalAt x)).getD j 0
    | none => 0
  penaltyTerms := fun i j => match rows[i]? with
    | some r => r.2.getD j 0
    | none => 0
  stats := rows.map Prod.fst

/-- The lines about a parameter, `/repo/echidna/limit/limit.py:205-218`; a sigma of `None` cannot be
formatted. -/
def summaryLine (r : LimitResults) (i : ℕ) (p : SummaryPar) : Except PyErr SummaryLine := do
  let b ← r.getBestFit i p.name
  match p.sigma with
  | none => .error .typeError
  | some s => do
    let t ← r.getPenaltyTerm i p.name
    .ok ⟨p.name, b, p.prior, s, t⟩

/-- The summary with the results number `i`, `/repo/echidna/limit/limit.py:203-222` and `270-286`;
`full` are the rows of `get_full_stats`. -/
def summaryAt (found : Bool) (decays : ℝ) (pars : List SummaryPar) (r : LimitResults)
    (full : List (List ℝ)) (i : ℕ) : Except PyErr LimitSummary := do
  let lines ← pars.mapM (summaryLine r i)
  match full[i]? with
  | none => .error .indexError
  | some row => .ok ⟨found, decays, lines, row.sum⟩

open Classical in
/-- The `try` branch, `/repo/echidna/limit/limit.py:199-222`: the position of the limit is counted
from `min_bin`, and so is the one of the results in the summary. -/
noncomputable def summaryFound (scales : List ℝ) (pars : List SummaryPar) (r : LimitResults)
    (full : List (List ℝ)) (minBin : ℕ) (limit : ℝ) : Except PyErr (LimitSummary × ℝ) :=
  match (full.drop minBin).findIdx? (fun row => row.any (fun v => decide (limit < v))) with
  | none => .error .indexError
  | some i =>
    match scales[minBin + i]? with
    | none => .error .indexError
    | some x => do
      let s ← summaryAt true x pars r full i
      .ok (s, x)

/-- `max` of a numpy array. -/
noncomputable def npMax : List ℝ → Except PyErr ℝ
  | [] => .error .valueError
  | x :: l => .ok (l.foldl max x)

/-- The `except` branch, `/repo/echidna/limit/limit.py:265-300`; `argmax` counts single entries.
`limit` in the message is by then the scaling. -/
noncomputable def summaryNone (scales : List ℝ) (pars : List SummaryPar) (r : LimitResults)
    (full : List (List ℝ)) (minBin : ℕ) : LimitLog :=
  match (do
    let i ← npArgmax (full.drop minBin).flatten
    match scales[minBin + i]? with
    | none => .error .indexError
    | some x => do
      let s ← summaryAt false x pars r full i
      let m ← npMax full.flatten
      .ok (s, m, x) : Except PyErr (LimitSummary × ℝ × ℝ)) with
  | .error e => ⟨none, none, .error e⟩
  | .ok (s, m, x) => ⟨some s, some (m, x), .error .limitError⟩

/-- `get_limit` with its summary, `/repo/echidna/limit/limit.py:89-300`; an `IndexError` of the `try`
branch leads to the `except` branch. The arguments are those of `getLimit`, with names and priors
of the parameters and the best fits. -/
noncomputable def getLimitLog (scales : List ℝ) (pars : List SummaryPar)
    (fit : Option ℝ → Except PyErr FitOut) (minStat : Option (List ℝ)) (limit : ℝ)
    (best : Option ℝ → List ℝ) : LimitLog :=
  match (do
    let m ← minStatOf fit minStat
    let rows ← scales.mapM (limitRow fit m)
    let minBin ← npArgmin (rows.map Prod.fst).flatten
    let r := loopResults (pars.map SummaryPar.name) best scales rows
    let full ← r.getFullStats
    .ok (minBin, r, full) : Except PyErr (ℕ × LimitResults × List (List ℝ))) with
  | .error e => ⟨none, none, .error e⟩
  | .ok (minBin, r, full) =>
    match summaryFound scales pars r full minBin limit with
    | .ok (s, x) => ⟨some s, none, .ok x⟩
    | .error .indexError => summaryNone scales pars r full minBin
    | .error e => ⟨none, none, .error e⟩

end Verif
