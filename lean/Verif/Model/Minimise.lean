import Verif.Model.NdArray
import Verif.Model.FitParameter
import Verif.Model.TestStatistic

/-!
# Grid search

Model of `GridSearch` in `/repo/echidna/fit/minimise.py`.
-/

namespace Verif

/-! ## numpy functions used by the grid search -/

/-- Comparison loop of `numpy.argmin` on a flat array: `best` at position `bi` so
far, next position `i`. A later equal value does not replace the best. -/
def argminAux {α : Type} [LinearOrder α] (best : α) (bi i : ℕ) : List α → ℕ
  | [] => bi
  | x :: l => if x < best then argminAux x i (i + 1) l else argminAux best bi (i + 1) l

/-- `numpy.argmin` of a flat array; a `ValueError` for an empty one. The model has
no nan. -/
def npArgmin {α : Type} [LinearOrder α] : List α → Except PyErr ℕ
  | [] => .error .valueError
  | x :: l => .ok (argminAux x 0 1 l)

/-- `numpy.nanmin` of a flat array. -/
def npMin {α : Type} [LinearOrder α] : List α → Except PyErr α
  | [] => .error .valueError
  | x :: l => .ok (l.foldl (fun m y => if y < m then y else m) x)

/-- `a.ravel()` -/
def NdArray.ravel {α : Type} (a : NdArray α) : List α := (allIdx a.shape).map a.get

/-- python comparison `t > s` of tuples: lexicographic. -/
def tupleGt : List ℤ → List ℤ → Bool
  | [], _ => false
  | _ :: _, [] => true
  | a :: t, b :: s => if a = b then tupleGt t s else decide (b < a)

/-- numpy's treatment of a tuple of integer indices (at most one per axis):
negative indices count from the end, anything else outside is an `IndexError`. -/
def npIndex : List ℕ → List ℤ → Except PyErr (List ℕ)
  | _, [] => .ok []
  | [], _ :: _ => .error .indexError
  | n :: s, i :: idx =>
    if 0 ≤ i ∧ i < n then do .ok (i.toNat :: (← npIndex s idx))
    else if i < 0 ∧ -(n : ℤ) ≤ i then do .ok ((i + n).toNat :: (← npIndex s idx))
    else .error .indexError

/-- `a[idx]` for a tuple of integers: the sub-array at these indices of the first axes. -/
def NdArray.take {α : Type} (a : NdArray α) (idx : List ℤ) : Except PyErr (NdArray α) := do
  let p ← npIndex a.shape idx
  .ok ⟨a.shape.drop p.length, fun j => a.get (p ++ j)⟩

/-- numpy broadcasting of two shapes, written from the last axis backwards. -/
def bcastRev : List ℕ → List ℕ → Option (List ℕ)
  | [], t => some t
  | n :: s, [] => some (n :: s)
  | n :: s, m :: t =>
    if n = m then (bcastRev s t).map (n :: ·)
    else if n = 1 then (bcastRev s t).map (m :: ·)
    else if m = 1 then (bcastRev s t).map (n :: ·)
    else none

/-- numpy broadcasting of two shapes. -/
def bcast (s t : List ℕ) : Option (List ℕ) := (bcastRev s.reverse t.reverse).map List.reverse

/-- Entry of a broadcast operand of shape `s` belonging to the index `idx` of the result. -/
def bcastIdx (s idx : List ℕ) : List ℕ :=
  List.zipWith (fun n i => if n = 1 then 0 else i) s (idx.drop (idx.length - s.length))

/-- `a + b` with numpy broadcasting; `ValueError` when the shapes do not fit. -/
def NdArray.bcastAdd {α : Type} [Add α] (a b : NdArray α) : Except PyErr (NdArray α) :=
  match bcast a.shape b.shape with
  | some s => .ok ⟨s, fun j => a.get (bcastIdx a.shape j) + b.get (bcastIdx b.shape j)⟩
  | none => .error .valueError

/-- `a[idx] = b`: `b` is broadcast to the shape of `a[idx]`; `ValueError` when it
does not fit. (Simplification: numpy also drops leading axes of length one of `b`.) -/
def NdArray.assign {α : Type} (a : NdArray α) (idx : List ℤ) (b : NdArray α) :
    Except PyErr (NdArray α) := do
  let p ← npIndex a.shape idx
  let t := a.shape.drop p.length
  if bcast b.shape t = some t then
    .ok ⟨a.shape, fun j => if j.take p.length = p then b.get (bcastIdx b.shape (j.drop p.length))
      else a.get j⟩
  else .error .valueError

/-- `n` times `numpy.sum(a, axis=-1)`. -/
def NdArray.sumLast {α : Type} [AddCommMonoid α] : ℕ → NdArray α → Except PyErr (NdArray α)
  | 0, a => .ok a
  | n + 1, a => do NdArray.sumLast n (← a.sumAxisNeg 1)

/-- `numpy.argmin(a, axis=-1)`, and for `f = npMin` `numpy.nanmin(a, axis=-1)`:
`f` of every one-dimensional array along the last axis. -/
def NdArray.alongLast {α β : Type} [Inhabited β] (f : List α → Except PyErr β) (a : NdArray α) :
    Except PyErr (NdArray β) :=
  match a.shape.getLast? with
  | none => .error .axisError
  | some n =>
    if n = 0 then .error .valueError
    else .ok ⟨a.shape.dropLast, fun o =>
      match f ((List.range n).map (fun k : ℕ => a.get (o ++ [k]))) with
      | .ok x => x
      | .error _ => default⟩

/-! ## Looking for the minimum dimension by dimension -/

/-- `_update_coords`, `/repo/echidna/fit/minimise.py:560-596`. `new_coords` is flat, so the
loop over its shape runs once; python 2 integer division. -/
def updateCoords (coords : List (List ℕ)) (newCoords : List ℕ) : Except PyErr (List (List ℕ)) :=
  if newCoords.length = 0 then .error .zeroDivision
  else
    let multiplier := coords.length / newCoords.length
    newCoords.zipIdx.mapM (fun (j, i) =>
      match coords[i * multiplier + j]? with
      | some row => .ok (j :: row)
      | none => .error .indexError)

/-- Loop of `find_minimum`, `/repo/echidna/fit/minimise.py:633-654`, over the
axes `dim = d - 1, ..., 0`; the axis in hand is always the last one left. -/
def findMinLoop {α : Type} [LinearOrder α] [Inhabited α] :
    ℕ → NdArray α → Option (List (List ℕ)) →
    Except PyErr (NdArray α × Option (List (List ℕ)))
  | 0, minimum, coords => .ok (minimum, coords)
  | dim + 1, minimum, coords => do
    let am ← minimum.alongLast npArgmin
    let coords' ← (match coords with
      | none => .ok (am.ravel.map (fun j => [j]))
      | some c =>
        if 0 < dim then updateCoords c am.ravel
        else
          match c[am.get []]? with
          | some row => .ok [am.get [] :: row]
          | none => .error .indexError : Except PyErr (List (List ℕ)))
    let m ← minimum.alongLast npMin
    findMinLoop dim m (some coords')

/-- `find_minimum`, `/repo/echidna/fit/minimise.py:598-658`: minimum and
co-ordinates. A zero-dimensional array leaves `coords` at `None`. -/
def findMinimum {α : Type} [LinearOrder α] [Inhabited α] (a : NdArray α) :
    Except PyErr (α × List ℕ) := do
  let (m, coords) ← findMinLoop a.ndim a none
  match coords with
  | none => .error .attributeError
  | some c => .ok (m.get [], c.flatten)

/-! ## The grid search -/

/-- `GridSearch` (with `FitResults` and `Minimiser`), `/repo/echidna/fit/minimise.py:54-101`.
The fit config is the ordered list of its parameters (their names are distinct),
the spectra config is its shape. -/
structure GridSearch where
  /-- `_fit_config` -/
  pars : List FitPar
  /-- `_spectra_config.get_shape()` -/
  specShape : List ℕ
  /-- `_name` -/
  name : Option PyStr
  /-- `_per_bin` -/
  perBin : Bool
  /-- `_use_numpy` -/
  useNumpy : Bool
  /-- `_resets` -/
  resets : ℕ
  /-- `_stats` -/
  stats : NdArray ℝ
  /-- `_penalty_terms` -/
  penalties : NdArray ℝ

/-- Result of the function to be minimised: a float or an array. -/
inductive FitVal
  | scalar (x : ℝ)
  | array (a : NdArray ℝ)

namespace GridSearch

/-- `_fit_config.get_shape()`, `/repo/echidna/core/config.py:135-145`. -/
def fitShape (g : GridSearch) : List ℕ := g.pars.map FitPar.bins

/-- `__init__`, `/repo/echidna/fit/minimise.py:90-101`. `Minimiser.__init__` stores the
`name` argument again, so the default name of `FitResults` is lost. -/
def new (pars : List FitPar) (specShape : List ℕ) (name : Option PyStr) (perBin : Bool)
    (useNumpy : Bool := true) : GridSearch :=
  { pars, specShape, name, perBin, useNumpy, resets := 0
    stats := NdArray.zeros
      (if perBin then pars.map FitPar.bins ++ specShape else pars.map FitPar.bins)
    penalties := NdArray.zeros (pars.map FitPar.bins) }

/-- The comparison `indices > shape` guarding the accessors. -/
def outOfBounds (g : GridSearch) (idx : List ℤ) : Bool :=
  tupleGt idx (g.fitShape.map (fun n : ℕ => (n : ℤ)))

/-- `get_penalty_term`, `/repo/echidna/fit/minimise.py:118-142`. -/
def getPenaltyTerm (g : GridSearch) (idx : List ℤ) : Except PyErr (NdArray ℝ) :=
  if g.outOfBounds idx then .error .indexError else g.penalties.take idx

/-- `par.get_bin(kwargs[par._name])`, `/repo/echidna/fit/minimise.py:112-115` and
`213-216`; a missing keyword is a `KeyError`. -/
noncomputable def kwBin (kw : List (PyStr × ℝ)) (p : FitPar) : Except PyErr ℤ :=
  match assoc kw p.name with
  | some x => p.getBin x
  | none => .error .keyError

/-- `get_penalty_at`, `/repo/echidna/fit/minimise.py:103-116`. `kw` are the keyword
arguments; a missing name is a `KeyError`. -/
noncomputable def getPenaltyAt (g : GridSearch) (kw : List (PyStr × ℝ)) :
    Except PyErr (NdArray ℝ) := do
  let bins ← g.pars.mapM (kwBin kw)
  g.penalties.take bins

/-- `get_raw_stat`, `/repo/echidna/fit/minimise.py:156-173`. -/
def getRawStat (g : GridSearch) (idx : List ℤ) : Except PyErr (NdArray ℝ) := g.stats.take idx

/-- First loop of `get_raw_stats_at`: sums leading axes of length one away;
`shape[0]` of a zero-dimensional array is an `IndexError`. -/
def dropLeading (a : NdArray ℝ) : ℕ → Except PyErr (NdArray ℝ)
  | 0 => .error .indexError
  | fuel + 1 =>
    match a.shape with
    | [] => .error .indexError
    | n :: _ => if n = 1 then do dropLeading (← a.sumAxis 0) fuel else .ok a

/-- Second loop of `get_raw_stats_at`: sums trailing axes of length one away. -/
def dropTrailing (a : NdArray ℝ) : ℕ → Except PyErr (NdArray ℝ)
  | 0 => .error .indexError
  | fuel + 1 =>
    match a.shape.getLast? with
    | none => .error .indexError
    | some n => if n = 1 then do dropTrailing (← a.sumAxisNeg 1) fuel else .ok a

/-- `get_raw_stats_at`, `/repo/echidna/fit/minimise.py:204-224`. A numpy scalar is not
of type `float`, so the early return is never taken. Every round of the loops
removes an axis, so `ndim + 1` rounds suffice. -/
noncomputable def getRawStatsAt (g : GridSearch) (kw : List (PyStr × ℝ)) :
    Except PyErr (NdArray ℝ) := do
  let bins ← g.pars.mapM (kwBin kw)
  let a ← g.stats.take bins
  let a ← dropLeading a (a.ndim + 1)
  dropTrailing a (a.ndim + 1)

/-- `get_stat`, `/repo/echidna/fit/minimise.py:244-278`. -/
def getStat (g : GridSearch) (idx : List ℤ) : Except PyErr (NdArray ℝ) :=
  if g.outOfBounds idx then .error .indexError
  else do
    let combined ← g.stats.take idx
    let combined ← if g.perBin then combined.sumLast g.specShape.length else .ok combined
    combined.bcastAdd (← g.penalties.take idx)

/-- `get_stats`, `/repo/echidna/fit/minimise.py:280-301`. -/
def getStats (g : GridSearch) : Except PyErr (NdArray ℝ) := do
  let combined ← if g.perBin then g.stats.sumLast g.specShape.length else .ok g.stats
  combined.bcastAdd g.penalties

/-- `set_penalty_term`, `/repo/echidna/fit/minimise.py:501-519`. -/
def setPenaltyTerm (g : GridSearch) (x : ℝ) (idx : List ℤ) : Except PyErr GridSearch :=
  if g.outOfBounds idx then .error .indexError
  else do .ok { g with penalties := ← g.penalties.assign idx ⟨[], fun _ => x⟩ }

/-- `set_stat`, `/repo/echidna/fit/minimise.py:521-540`. -/
def setStat (g : GridSearch) (stat : FitVal) (idx : List ℤ) : Except PyErr GridSearch :=
  if g.outOfBounds idx then .error .indexError
  else
    match stat with
    | .scalar _ => .error .typeError
    | .array a => do .ok { g with stats := ← g.stats.assign idx a }

/-- `set_stats`, `/repo/echidna/fit/minimise.py:542-558`. -/
def setStats (g : GridSearch) (stats : NdArray ℝ) : Except PyErr GridSearch :=
  if stats.shape ≠ g.stats.shape then .error .valueError else .ok { g with stats }

/-- `set_penalty_terms`, `/repo/echidna/fit/minimise.py:480-499`. -/
def setPenaltyTerms (g : GridSearch) (penalties : NdArray ℝ) : Except PyErr GridSearch :=
  if penalties.shape ≠ g.fitShape then .error .valueError else .ok { g with penalties }

/-- `_get_fit_par_values` / `_get_values`, `/repo/echidna/fit/minimise.py:660-693`: all
pairs (values, indices) in the order in which the generator yields them. (The
index array holds floats in the code; numpy of that time accepted them as
indices. The generator re-uses its two arrays, but each pair is consumed before
the next one is made.) -/
noncomputable def gridPoints : List FitPar → Except PyErr (List (List ℝ × List ℕ))
  | [] => .ok [([], [])]
  | p :: ps => do
    let vs ← p.getValues
    let blocks ← vs.mapM (fun v => do
      let i ← p.getValueIndex v
      let rest ← gridPoints ps
      .ok (rest.map (fun (w, j) => (v :: w, i :: j))))
    .ok blocks.flatten

/-- Body of the loop of `minimise`, `/repo/echidna/fit/minimise.py:322-341`. (The
shape check behind the `raise` is unreachable in the code.) -/
def fillPoint (g : GridSearch) (funct : List ℝ → Except PyErr (FitVal × ℝ))
    (pt : List ℝ × List ℕ) : Except PyErr GridSearch := do
  let (result, penalty) ← funct pt.1
  let result ← (match g.perBin, result with
    | true, .scalar _ => .error .typeError
    | false, .scalar x => .ok (.array ⟨[], fun _ => x⟩)
    | _, .array a => .ok (.array a) : Except PyErr FitVal)
  let idx := pt.2.map (fun n : ℕ => (n : ℤ))
  let g ← g.setStat result idx
  g.setPenaltyTerm penalty idx

/-- The loop of `minimise` over all grid points. -/
def fillGrid (g : GridSearch) (funct : List ℝ → Except PyErr (FitVal × ℝ)) :
    List (List ℝ × List ℕ) → Except PyErr GridSearch
  | [] => .ok g
  | pt :: pts => do fillGrid (← g.fillPoint funct pt) funct pts

/-- Position of the minimum of the combined grid,
`/repo/echidna/fit/minimise.py:343-353`. -/
noncomputable def bestPosition (g : GridSearch) : Except PyErr (List ℕ) := do
  let minimum ← g.getStats
  if g.useNumpy then do
    let k ← npArgmin minimum.ravel
    .ok (unravelIdx minimum.shape k)
  else do
    let (_, position) ← findMinimum minimum
    .ok position

/-- Best fit and penalty term of one parameter,
`/repo/echidna/fit/minimise.py:355-365`. -/
noncomputable def setBest (st : Stat) (p : FitPar) (i : ℕ) : Except PyErr FitPar := do
  let best ← p.getValueAt i
  match p.sigma with
  | some sigma => do
    let pen ← st.penalty best p.prior sigma
    .ok { p with bestFit := some best, penaltyTerm := some pen }
  | none => .ok { p with bestFit := some best, penaltyTerm := some 0 }

/-- Loop over `zip(position, pars)`: parameters beyond the shorter list stay. -/
noncomputable def setBests (st : Stat) : List ℕ → List FitPar → Except PyErr (List FitPar)
  | i :: is, p :: ps => do
    let p ← setBest st p i
    .ok (p :: (← setBests st is ps))
  | _, ps => .ok ps

/-- `minimise`, `/repo/echidna/fit/minimise.py:303-367`: the grid search after the call
and the returned pair. (The state after an exception is not modelled.) -/
noncomputable def minimise (g : GridSearch) (funct : List ℝ → Except PyErr (FitVal × ℝ))
    (st : Stat) : Except PyErr (GridSearch × NdArray ℝ × NdArray ℝ) := do
  let pts ← gridPoints g.pars
  let g ← g.fillGrid funct pts
  let position ← g.bestPosition
  let pars ← setBests st position g.pars
  let g : GridSearch := { g with pars }
  let idx := position.map (fun n : ℕ => (n : ℤ))
  let raw ← g.getRawStat idx
  let pen ← g.getPenaltyTerm idx
  .ok (g, raw, pen)

/-- Decimal digits of a natural number, `"%d" % n`. -/
def natStr (n : ℕ) : PyStr := Nat.toDigits 10 n

/-- `reset_grids`, `/repo/echidna/fit/minimise.py:458-478`. A name of `None` is a
`TypeError` (or `AttributeError`). The statistics get the spectral axes whether or not
`per_bin` is set. -/
def resetGrids (g : GridSearch) : Except PyErr GridSearch :=
  let grids (g : GridSearch) : GridSearch :=
    { g with stats := NdArray.zeros (g.fitShape ++ g.specShape)
             penalties := NdArray.zeros g.fitShape }
  match g.name with
  | none => if g.resets = 0 then .error .typeError else .error .attributeError
  | some name =>
    if g.resets = 0 then
      .ok (grids { g with resets := 1, name := some (name ++ lit "_" ++ natStr 1) })
    else
      match pySplit '_' name with
      | [] => .error .indexError
      | first :: parts =>
        let newName := parts.dropLast.foldl (fun acc part => acc ++ lit "_" ++ part) first
        .ok (grids { g with resets := g.resets + 1
                            name := some (newName ++ lit "_" ++ natStr (g.resets + 1)) })

end GridSearch

end Verif
