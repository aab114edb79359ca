import Verif.Model.Limit
import Verif.Model.Scripts

/-!
# What setting a limit saves

`Limit.get_limit`, `/repo/echidna/limit/limit.py:89-300`, together with the files it writes, which
`Model/Limit` leaves out. Simplifications: every path can be written; fit results of the single
scalings (`store_fits`) are not stored; the current time is a parameter.
-/

namespace Verif

/-! ### calls -/

/-- Binding the arguments of a call to a python function without `*args` and `**kwargs`: `params`
are its parameters, the first `required` of them without default; the call passes `pos` positional
arguments and the keywords `kws`. -/
def bindCall (params : List PyStr) (required pos : ℕ) (kws : List PyStr) : Except PyErr Unit :=
  if params.length < pos then .error .typeError
  else if kws.any (fun k => !(params.drop pos).contains k) then .error .typeError
  else if ((params.take required).drop pos).any (fun p => !kws.contains p) then .error .typeError
  else .ok ()

/-- Parameters of `store.dump`, `/repo/echidna/output/store.py:82`. -/
def dumpParams : List PyStr := [lit "file_path", lit "spectrum", lit "append", lit "overwrite"]

/-! ### names of files -/

/-- What is asked of `get_limit` about files, and where and when it runs. -/
structure SaveArgs where
  /-- `store_limit` -/
  limit : Bool
  /-- `store_spectra` -/
  spectra : Bool
  /-- `limit_fname` -/
  fname : Option PyStr
  /-- `output.__default_save_path__` -/
  dir : PyStr
  /-- the time, as written by `strftime` -/
  stamp : PyStr

/-- The default file, `/repo/echidna/limit/limit.py:227-232` and `283-288`. -/
def SaveArgs.defaultFile (a : SaveArgs) (name : PyStr) : PyStr :=
  a.dir ++ lit "/" ++ (name ++ lit "_" ++ a.stamp ++ lit ".hdf5")

/-- The file for a limit that was found, `/repo/echidna/limit/limit.py:223-232`. -/
def SaveArgs.limitFile (a : SaveArgs) (name : PyStr) : PyStr :=
  match a.fname with
  | some (c :: f) =>
    if (c :: f).drop ((c :: f).length - 5) ≠ lit ".hdf5" then (c :: f) ++ lit ".hdf5" else c :: f
  | _ => a.defaultFile name

/-! ### the results -/

/-- An array of rows, each the flattened array of one scaling with shape `binShape` (`[]` for a
plain number). -/
def rowArray (binShape : List ℕ) (rows : List (List ℝ)) : NdArray ℝ :=
  ⟨rows.length :: binShape, fun idx => match idx with
    | i :: rest => (rows.getD i []).getD (ravelIdx binShape rest) 0
    | [] => 0⟩

/-- The limit results after the loop over the scalings, `/repo/echidna/limit/limit.py:157-196`:
`before` are the ones of the constructor, `best` the best fits of the fit for a signal. -/
noncomputable def recordRows (before : FullLimit) (binShape : List ℕ) (best : Option ℝ → List ℝ)
    (scales : List ℝ) (rows : List (List ℝ × List ℝ)) : FullLimit :=
  { before with
    stats := rowArray binShape (rows.map Prod.fst)
    penaltyTerms := rowArray [before.fitConfig.pars.length] (rows.map Prod.snd)
    bestFits := rowArray [before.fitConfig.pars.length] (scales.map (fun x => best (signalAt x))) }

/-! ### saving -/

/-- `store.dump_limit_results(path, limit_results)`. -/
noncomputable def dumpLimitAt (disk : Disk) (path : PyStr) (r : FullLimit) :
    Disk × Except PyErr Unit :=
  let o := dumpLimitResults (disk path) r
  (disk.write path o.1, match o.2 with
    | none => .ok ()
    | some e => .error e)

/-- Storing after a limit was found, `/repo/echidna/limit/limit.py:223-262`: the results, then
the spectra, with a keyword `store.dump` does not have. -/
noncomputable def saveFound (a : SaveArgs) (disk : Disk) (r : FullLimit) : Disk × Except PyErr Unit :=
  match (if a.limit then dumpLimitAt disk (a.limitFile r.name) r else (disk, .ok ())) with
  | (d, .error e) => (d, .error e)
  | (d, .ok ()) =>
    if a.spectra then (d, bindCall dumpParams 2 2 [lit "append", lit "group_name"]) else (d, .ok ())

/-- Storing when no limit was found, `/repo/echidna/limit/limit.py:282-296`: `path` and `fname` are
unbound unless the results are stored. -/
noncomputable def saveNone (a : SaveArgs) (disk : Disk) (r : FullLimit) : Disk × Except PyErr Unit :=
  match (if a.limit then dumpLimitAt disk (a.defaultFile r.name) r else (disk, .ok ())) with
  | (d, .error e) => (d, .error e)
  | (d, .ok ()) =>
    if a.spectra then
      if a.limit then (d, bindCall dumpParams 2 2 [lit "append", lit "group_name"])
      else (d, .error .nameError)
    else (d, .ok ())

/-- The `except` branch, `/repo/echidna/limit/limit.py:265-300`. -/
noncomputable def limitNone (scales : List ℝ) (sigmas : List (Option ℝ)) (k : ℕ) (full : List ℝ)
    (minBin : ℕ) (a : SaveArgs) (r : FullLimit) (disk : Disk) : Disk × Except PyErr ℝ :=
  match npArgmax (full.drop minBin) with
  | .error e => (disk, .error e)
  | .ok i =>
    match scales[minBin + i * k]? with
    | none => (disk, .error .indexError)
    | some _ =>
      if sigmas.any Option.isNone then (disk, .error .typeError)
      else match saveNone a disk r with
        | (d, .error e) => (d, .error e)
        | (d, .ok ()) => (d, .error .limitError)

open Classical in
/-- The `try` branch, `/repo/echidna/limit/limit.py:199-264`. -/
noncomputable def limitFound (scales : List ℝ) (sigmas : List (Option ℝ)) (full : List ℝ)
    (minBin : ℕ) (limit : ℝ) (a : SaveArgs) (r : FullLimit) (disk : Disk) : Disk × Except PyErr ℝ :=
  match (full.drop minBin).findIdx? (fun x => decide (limit < x)) with
  | none => (disk, .error .indexError)
  | some i =>
    match scales[minBin + i]? with
    | none => (disk, .error .indexError)
    | some x =>
      if sigmas.any Option.isNone then (disk, .error .typeError)
      else match saveFound a disk r with
        | (d, .error e) => (d, .error e)
        | (d, .ok ()) => (d, .ok x)

/-- `get_limit` with its files, `/repo/echidna/limit/limit.py:89-300`; an `IndexError` of the `try`
branch leads to the `except` branch. The first arguments are those of `getLimit`. -/
noncomputable def getLimitSaving (scales : List ℝ) (sigmas : List (Option ℝ))
    (fit : Option ℝ → Except PyErr FitOut) (minStat : Option (List ℝ)) (limit : ℝ)
    (a : SaveArgs) (before : FullLimit) (binShape : List ℕ) (best : Option ℝ → List ℝ)
    (disk : Disk) : Disk × Except PyErr ℝ :=
  match (do
    let m ← minStatOf fit minStat
    let rows ← scales.mapM (limitRow fit m)
    let minBin ← npArgmin (rows.map Prod.fst).flatten
    .ok (m, rows, minBin) : Except PyErr (List ℝ × List (List ℝ × List ℝ) × ℕ)) with
  | .error e => (disk, .error e)
  | .ok (m, rows, minBin) =>
    let r := recordRows before binShape best scales rows
    let full := rows.map (fun r => r.1.sum + r.2.sum)
    match limitFound scales sigmas full minBin limit a r disk with
    | (d, .error .indexError) => limitNone scales sigmas m.length full minBin a r d
    | x => x

end Verif
