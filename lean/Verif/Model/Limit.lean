import Verif.Model.Minimise

/-!
# Limit setting

Model of `Limit` in `/repo/echidna/limit/limit.py` and of `LimitResults` in
`/repo/echidna/fit/fit_results.py`. The fitter is a parameter: a function from
the signal (none, or scaled to a number of decays) to the outcome of the fit.
Statistics are rows of numbers: one number, or one per spectrum bin.
-/

namespace Verif

/-- What `Limit.get_limit` uses of one fit: the statistic without penalty (a list
with one entry for a plain number) and the penalty terms of the fit parameters
(zeros when the fitter has no minimiser). -/
structure FitOut where
  /-- first entry of the tuple returned by `fit` -/
  stat : List ℝ
  /-- `penalty_term` of the summary, in the order of the fit configuration -/
  pens : List ℝ

open Classical in
/-- The signal for a scaling, `/repo/echidna/limit/limit.py:161-171`: scaled, or
removed when the scaling is close to zero. -/
noncomputable def signalAt (scale : ℝ) : Option ℝ :=
  if npCloseReal scale 0 then none else some scale

/-- `stats[i] = fit_stats` for a row with `k` entries: a single number is repeated,
any other length is a `ValueError`. -/
def setRow (k : ℕ) (row : List ℝ) : Except PyErr (List ℝ) :=
  if row.length = k then .ok row
  else match row with
    | [x] => .ok (List.replicate k x)
    | _ => .error .valueError

/-- `numpy.argmax` of a flat array: first position of the largest entry. -/
noncomputable def npArgmax (l : List ℝ) : Except PyErr ℕ := npArgmin (l.map (fun x => -x))

open Classical in
/-- `min_stat` at `/repo/echidna/limit/limit.py:121-137`: the given one, or that of
the fit without signal. `if min_stat:` is false for zero and for an empty array,
and raises for an array with several entries. -/
noncomputable def minStatOf (fit : Option ℝ → Except PyErr FitOut) :
    Option (List ℝ) → Except PyErr (List ℝ)
  | some [x] => if x = 0 then (fit none).map FitOut.stat else .ok [x]
  | some (_ :: _ :: _) => .error .valueError
  | _ => (fit none).map FitOut.stat

open Classical in
/-- Reading off the limit, `/repo/echidna/limit/limit.py:199-222` and `266-300`:
`full` are the full statistics (for several bins per row every entry of the row
is the total, so rows are numbers here), `k` the number of entries per row.
Formatting the summary raises a `TypeError` for a parameter whose sigma is
`None` (so would a prior of `None`, which is not considered). Storing results and
spectra is in `Model/LimitSave`, the summary itself in `Model/LimitSummary`. -/
noncomputable def readLimit (scales : List ℝ) (sigmas : List (Option ℝ)) (k : ℕ) (full : List ℝ)
    (minBin : ℕ) (limit : ℝ) : Except PyErr ℝ :=
  match (full.drop minBin).findIdx? (fun x => decide (limit < x)) with
  | some i =>
    match scales[minBin + i]? with
    | none => .error .indexError
    | some x => if sigmas.any Option.isNone then .error .typeError else .ok x
  | none => do
    let i ← npArgmax (full.drop minBin)
    match scales[minBin + i * k]? with
    | none => .error .indexError
    | some _ => if sigmas.any Option.isNone then .error .typeError else .error .limitError

/-- One round of the loop over the scalings, `/repo/echidna/limit/limit.py:157-191`: the
statistic relative to `m` and the penalty terms. -/
noncomputable def limitRow (fit : Option ℝ → Except PyErr FitOut) (m : List ℝ) (scale : ℝ) :
    Except PyErr (List ℝ × List ℝ) := do
  let o ← fit (signalAt scale)
  let r ← setRow m.length o.stat
  .ok (List.zipWith (fun a b => a - b) r m, o.pens)

/-- `get_limit`, `/repo/echidna/limit/limit.py:89-300`. `scales` are the values of the
signal's rate parameter, `sigmas` those of the fit parameters. Simplification:
the signal has no other parameter, and as many values as bins. -/
noncomputable def getLimit (scales : List ℝ) (sigmas : List (Option ℝ))
    (fit : Option ℝ → Except PyErr FitOut) (minStat : Option (List ℝ)) (limit : ℝ) :
    Except PyErr ℝ := do
  let m ← minStatOf fit minStat
  let rows ← scales.mapM (limitRow fit m)
  let minBin ← npArgmin (rows.map Prod.fst).flatten
  readLimit scales sigmas m.length (rows.map (fun r => r.1.sum + r.2.sum)) minBin limit

/-- An array handed to `get_array_limit`: of floats or of arrays. -/
inductive StatArray
  | floats (l : List ℝ)
  | arrays (l : List (List ℝ))

/-- `sum_entries`, `/repo/echidna/limit/limit.py:319-332`. -/
def sumEntries (l : List (List ℝ)) : List ℝ := l.map List.sum

open Classical in
/-- The loop of `get_array_limit`, `/repo/echidna/limit/limit.py:78-87`: `counts[i]` for
the first entry above the limit. -/
noncomputable def arrayLimitLoop (counts : List ℝ) (limit : ℝ) : ℕ → List ℝ → Except PyErr ℝ
  | _, [] => .error .limitError
  | i, x :: l =>
    if limit < x then
      match counts[i]? with
      | some c => .ok c
      | none => .error .indexError
    else arrayLimitLoop counts limit (i + 1) l

/-- `get_array_limit`, `/repo/echidna/limit/limit.py:57-87`. -/
noncomputable def getArrayLimit (counts : List ℝ) (array : StatArray) (limit : ℝ) :
    Except PyErr ℝ :=
  let n := match array with
    | .floats l => l.length
    | .arrays l => l.length
  if counts.length ≠ n then .error .compatibility
  else if n = 0 then .error .indexError
  else match array with
    | .floats l => arrayLimitLoop counts limit 0 l
    | .arrays l => arrayLimitLoop counts limit 0 (sumEntries l)

/-! ## Results -/

/-- `LimitResults`, `/repo/echidna/fit/fit_results.py:107-146`: tables with one row per
scaling and one column per fit parameter, given as functions, and the rows of
statistics. -/
structure LimitResults where
  /-- names in the fit configuration -/
  pars : List PyStr
  /-- number of scalings -/
  scales : ℕ
  /-- `_best_fits` -/
  bestFits : ℕ → ℕ → ℝ
  /-- `_penalty_terms` -/
  penaltyTerms : ℕ → ℕ → ℝ
  /-- `_stats`, one row per scaling -/
  stats : List (List ℝ)

namespace LimitResults

/-- Constructor, `/repo/echidna/fit/fit_results.py:135-146`. -/
def new (pars : List PyStr) (scales : ℕ) : LimitResults :=
  ⟨pars, scales, fun _ _ => 0, fun _ _ => 0, List.replicate scales [0]⟩

/-- `Config.get_index`, `/repo/echidna/core/config.py:78-93`. -/
def getIndex (r : LimitResults) (par : PyStr) : Except PyErr ℕ :=
  match r.pars.findIdx? (fun p => p = par) with
  | some i => .ok i
  | none => .error .indexError

/-- `get_best_fit`, `/repo/echidna/fit/fit_results.py:148-159`, for an index that is not
negative. -/
def getBestFit (r : LimitResults) (i : ℕ) (par : PyStr) : Except PyErr ℝ := do
  let j ← r.getIndex par
  if i < r.scales then .ok (r.bestFits i j) else .error .indexError

/-- `get_best_fits`, `/repo/echidna/fit/fit_results.py:161-171`: a column. -/
def getBestFits (r : LimitResults) (par : PyStr) : Except PyErr (List ℝ) := do
  let j ← r.getIndex par
  .ok ((List.range r.scales).map (fun i => r.bestFits i j))

/-- `get_penalty_term`, `/repo/echidna/fit/fit_results.py:246-257`. -/
def getPenaltyTerm (r : LimitResults) (i : ℕ) (par : PyStr) : Except PyErr ℝ := do
  let j ← r.getIndex par
  if i < r.scales then .ok (r.penaltyTerms i j) else .error .indexError

/-- `get_penalty_terms`, `/repo/echidna/fit/fit_results.py:234-244`: a column. -/
def getPenaltyTerms (r : LimitResults) (par : PyStr) : Except PyErr (List ℝ) := do
  let j ← r.getIndex par
  .ok ((List.range r.scales).map (fun i => r.penaltyTerms i j))

/-- `set_best_fit`, `/repo/echidna/fit/fit_results.py:267-277`. -/
def setBestFit (r : LimitResults) (i : ℕ) (v : ℝ) (par : PyStr) : Except PyErr LimitResults := do
  let j ← r.getIndex par
  if i < r.scales then
    .ok { r with bestFits := fun a b => if a = i ∧ b = j then v else r.bestFits a b }
  else .error .indexError

/-- `set_penalty_term`, `/repo/echidna/fit/fit_results.py:279-290`. -/
def setPenaltyTerm (r : LimitResults) (i : ℕ) (v : ℝ) (par : PyStr) :
    Except PyErr LimitResults := do
  let j ← r.getIndex par
  if i < r.scales then
    .ok { r with penaltyTerms := fun a b => if a = i ∧ b = j then v else r.penaltyTerms a b }
  else .error .indexError

/-- `set_limit_stat`, `/repo/echidna/fit/fit_results.py:292-299`, for a plain number. -/
def setLimitStat (r : LimitResults) (i : ℕ) (v : ℝ) : Except PyErr LimitResults :=
  if i < r.stats.length then .ok { r with stats := r.stats.set i [v] } else .error .indexError

/-- `get_limit_stat`, `/repo/echidna/fit/fit_results.py:203-213`: it reads the attribute
`_limit_stat`, which is set nowhere. -/
def getLimitStat (_ : LimitResults) (_ : ℕ) : Except PyErr ℝ := .error .attributeError

/-- The sum over the penalty terms of a scaling: `get_penalty_terms_at_scale`,
`/repo/echidna/fit/fit_results.py:223-232`. -/
def penaltyRow (r : LimitResults) (i : ℕ) : List ℝ :=
  (List.range r.pars.length).map (fun j => r.penaltyTerms i j)

/-- `get_full_stat`, `/repo/echidna/fit/fit_results.py:173-186`. -/
def getFullStat (r : LimitResults) (i : ℕ) : Except PyErr ℝ :=
  match r.stats[i]? with
  | none => .error .indexError
  | some row => if i < r.scales then .ok ((r.penaltyRow i).foldl (fun a b => a + b) row.sum)
      else .error .indexError

/-- The loop of `get_full_stats`, from scaling `i` on. -/
def fullStatsFrom (r : LimitResults) : ℕ → List (List ℝ) → Except PyErr (List (List ℝ))
  | _, [] => .ok []
  | i, row :: rows =>
    if i < r.scales then do
      let rest ← r.fullStatsFrom (i + 1) rows
      .ok (List.replicate row.length ((r.penaltyRow i).foldl (fun a b => a + b) row.sum) :: rest)
    else .error .indexError

/-- `get_full_stats`, `/repo/echidna/fit/fit_results.py:188-201`: every entry of a row is
overwritten with the total of that row. -/
def getFullStats (r : LimitResults) : Except PyErr (List (List ℝ)) := r.fullStatsFrom 0 r.stats

end LimitResults

end Verif
