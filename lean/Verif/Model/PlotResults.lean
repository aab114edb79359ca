import Verif.Model.Plot
import Verif.Model.Limit
import Verif.Model.Config

/-!
# Results of fits and limits: arrays handed out and plots

Model of the remaining accessors of `GridSearch` in `/repo/echidna/fit/minimise.py`, of the
functions of `/repo/echidna/output/plot_root.py` that draw results of fits and limits, as far
as the drawn numbers go, and of `FitParameter.get_bin_boundaries`.
-/

namespace Verif

/-! ### accessors -/

namespace GridSearch

/-- `get_raw_stats`, `/repo/echidna/fit/minimise.py:175-202`. The keys of `_fit_config` are
strings without a method `get_bin`, so any known parameter among the keyword arguments is an
`AttributeError`; with unknown ones only, the expression is `stats[:,...,:]`. Without any fit
parameter it is `stats]`, a `SyntaxError` (`.exception` here). -/
def getRawStats (g : GridSearch) (kw : List (PyStr × ℝ) := []) : Except PyErr (NdArray ℝ) := do
  let stats ← (if g.stats.shape = g.fitShape ++ g.specShape then
      g.stats.sumLast g.specShape.length
    else .ok g.stats : Except PyErr (NdArray ℝ))
  if kw = [] then .ok stats
  else if g.pars.any (fun p => (assoc kw p.name).isSome) then .error .attributeError
  else if g.pars = [] then .error .exception
  else if stats.ndim < g.pars.length then .error .indexError
  else .ok stats

/-- `_fit_config.get_index`, `/repo/echidna/core/config.py:78-93`. -/
def parIndex (g : GridSearch) (par : PyStr) : Except PyErr ℕ :=
  match g.pars.findIdx? (fun p => p.name = par) with
  | some i => .ok i
  | none => .error .indexError

/-- `_fit_config.get_par`, `/repo/echidna/core/config.py:103-112`. -/
def parNamed (g : GridSearch) (par : PyStr) : Except PyErr FitPar :=
  match g.pars.find? (fun p => p.name = par) with
  | some p => .ok p
  | none => .error .keyError

/-- `get_penalty_terms`, `/repo/echidna/fit/minimise.py:144-154`. -/
def getPenaltyTerms (g : GridSearch) (par : PyStr) : Except PyErr (NdArray ℝ) :=
  if g.pars.length = 1 then .ok g.penalties
  else do
    let i ← g.parIndex par
    g.penalties.take [(i : ℤ)]

/-- `get_scales`, `/repo/echidna/fit/minimise.py:233-242`. -/
noncomputable def getScales (g : GridSearch) (par : PyStr) : Except PyErr (List ℝ) := do
  let p ← g.parNamed par
  p.getValues

/-- `nd_project_stats`, `/repo/echidna/fit/minimise.py:414-456`: with parameters, the first
thing evaluated is `itertools.chain`, but the module does not import `itertools`; without
parameters it is reached after `get_raw_stats`. -/
def ndProjectStats (g : GridSearch) (parameters : List PyStr) : Except PyErr (NdArray ℝ) :=
  if parameters ≠ [] then .error .nameError
  else do
    let _ ← g.getRawStats
    .error .nameError

/-- `nd_project_stat`, `/repo/echidna/fit/minimise.py:369-412`. -/
def ndProjectStat (g : GridSearch) (indices : List ℤ) (parameters : List PyStr) :
    Except PyErr (NdArray ℝ) :=
  if parameters ≠ [] then .error .nameError
  else do
    let _ ← g.getRawStat indices
    .error .nameError

end GridSearch

/-! ### histograms of ROOT with real contents -/

/-- `ROOT.TH1D` with real contents; cells `0` and `bins + 1` are underflow and overflow. -/
structure TH1R where
  bins : ℕ
  low : ℝ
  high : ℝ
  content : ℕ → ℝ

/-- `SetBinContent(k, v)`. -/
def TH1R.setBinContent (h : TH1R) (k : ℕ) (v : ℝ) : TH1R :=
  if k ≤ h.bins + 1 then { h with content := fun j => if j = k then v else h.content j } else h

/-- `ROOT.TH2D` with real contents. -/
structure TH2R where
  xBins : ℕ
  xLow : ℝ
  xHigh : ℝ
  yBins : ℕ
  yLow : ℝ
  yHigh : ℝ
  content : ℕ → ℕ → ℝ

/-- `SetBinContent(i, j, v)`; as in `TH2.setBinContent`, calls outside the histogram are ignored. -/
def TH2R.setBinContent (h : TH2R) (i j : ℕ) (v : ℝ) : TH2R :=
  if i ≤ h.xBins + 1 ∧ j ≤ h.yBins + 1 then
    { h with content := fun a b => if a = i ∧ b = j then v else h.content a b }
  else h

open Classical in
/-- `FindBin` of an axis of ROOT with `n` bins from `low` to `high`, for a real number. -/
noncomputable def rootFindBinR (n : ℕ) (low high x : ℝ) : ℕ :=
  if x < low then 0
  else if ¬ x < high then n + 1
  else 1 + ⌊n * (x - low) / (high - low)⌋₊

/-- The indices in the order of a double loop `for idx_1 ...: for idx_2 ...`. -/
def doubleLoop (n m : ℕ) : List (ℕ × ℕ) :=
  (List.range n).flatMap (fun i => (List.range m).map (fun j => (i, j)))

/-- The double loop over a two-dimensional array, `/repo/echidna/output/plot_root.py:297-302`,
`337-347`, `481-486`: the entry at `(idx_1, idx_2)` is drawn in the cell
`(idx_1 + 1, idx_2 + 1)`, or the other way round. `value` is what is drawn. (An array of
another shape raises a `TypeError` as soon as it has an entry.) -/
def fillCells (straight : Bool) (shape : List ℕ) (value : ℕ × ℕ → Except PyErr ℝ) (h : TH2R) :
    Except PyErr TH2R :=
  match shape with
  | [n, m] => (doubleLoop n m).foldlM (fun h e => do
      let v ← value e
      pure (if straight then h.setBinContent (e.1 + 1) (e.2 + 1) v
        else h.setBinContent (e.2 + 1) (e.1 + 1) v)) h
  | _ => .error .typeError

/-! ### statistics against two parameters -/

/-- The empty histogram of two fit parameters, `/repo/echidna/output/plot_root.py:290-293` and
`330-333`. -/
def emptyTH2R (p1 p2 : FitPar) : TH2R :=
  ⟨p1.bins, p1.low, p1.high, p2.bins, p2.low, p2.high, fun _ _ => 0⟩

/-- `plot_raw_stats_vs_pars`, `/repo/echidna/output/plot_root.py:274-311`: the histogram
returned. -/
def plotRawStatsVsPars (g : GridSearch) (par1 par2 : PyStr) (kw : List (PyStr × ℝ) := []) :
    Except PyErr TH2R := do
  let p1 ← g.parNamed par1
  let p2 ← g.parNamed par2
  let stats ← g.getRawStats kw
  let ix ← g.parIndex par1
  let iy ← g.parIndex par2
  fillCells (decide (ix < iy)) stats.shape (fun e => .ok (stats.get [e.1, e.2])) (emptyTH2R p1 p2)

/-- The number drawn by `plot_stats_vs_pars`, `/repo/echidna/output/plot_root.py:339-347`: `i` is
the index of the value of the first parameter, `j` that of the second one. -/
noncomputable def statWithPenalty (g : GridSearch) (p1 p2 : FitPar) (par1 par2 : PyStr)
    (kw : List (PyStr × ℝ)) (i j : ℕ) (datum : ℝ) : Except PyErr ℝ := do
  let v1 ← p1.getValueAt i
  let v2 ← p2.getValueAt j
  let pen ← g.getPenaltyAt (dictSet (dictSet kw par1 v1) par2 v2)
  .ok (datum + pen.get [])

/-- `plot_stats_vs_pars`, `/repo/echidna/output/plot_root.py:314-357`: the histogram returned. -/
noncomputable def plotStatsVsPars (g : GridSearch) (par1 par2 : PyStr)
    (kw : List (PyStr × ℝ) := []) : Except PyErr TH2R := do
  let p1 ← g.parNamed par1
  let p2 ← g.parNamed par2
  let stats ← g.getRawStats kw
  let ix ← g.parIndex par1
  let iy ← g.parIndex par2
  fillCells (decide (ix < iy)) stats.shape (fun e =>
    if ix < iy then statWithPenalty g p1 p2 par1 par2 kw e.1 e.2 (stats.get [e.1, e.2])
    else statWithPenalty g p1 p2 par1 par2 kw e.2 e.1 (stats.get [e.1, e.2])) (emptyTH2R p1 p2)

/-! ### statistics per bin of the spectrum -/

/-- Keyword arguments made of the best fits, `/repo/echidna/output/plot_root.py:462-467`; the
summary raises when a best fit or penalty term is missing. -/
def bestFitKw (g : GridSearch) : Except PyErr (List (PyStr × ℝ)) :=
  g.pars.mapM (fun p => do
    let x ← p.getBestFit
    let _ ← p.getPenaltyTerm
    .ok (p.name, x))

/-- The statistics drawn by `plot_per_bin`, `/repo/echidna/output/plot_root.py:462-470`. -/
noncomputable def perBinStats (g : GridSearch) (minChisq : Bool) (kw : List (PyStr × ℝ)) :
    Except PyErr (NdArray ℝ) := do
  let kw ← (if minChisq then bestFitKw g else .ok kw : Except PyErr (List (PyStr × ℝ)))
  g.getRawStatsAt kw

/-- `_spectra_config.get_par`. -/
def specPar (spec : List SPar) (dim : PyStr) : Except PyErr SPar :=
  match spec.find? (fun p => p.name = dim) with
  | some p => .ok p
  | none => .error .keyError

/-- `plot_per_bin` for one dimension, `/repo/echidna/output/plot_root.py:441-470` and `487-493`:
the histogram returned. `spec` is the spectra configuration of the search. -/
noncomputable def plotPerBin (g : GridSearch) (spec : List SPar) (minChisq : Bool) (xDim : PyStr)
    (kw : List (PyStr × ℝ) := []) : Except PyErr TH1R := do
  let stats ← perBinStats g minChisq kw
  let x ← specPar spec xDim
  match stats.shape with
  | [n] => .ok ((List.range n).foldl (fun h i => h.setBinContent (i + 1) (stats.get [i]))
      ⟨x.bins.toNat, x.low, x.high, fun _ => 0⟩)
  | _ => .error .typeError

/-- `plot_per_bin` for two dimensions, `/repo/echidna/output/plot_root.py:441-486`. Both indices
are that of the first dimension (lines 474-475), so the condition `idx_x < idx_y` is never
met. -/
noncomputable def plotPerBin2 (g : GridSearch) (spec : List SPar) (minChisq : Bool)
    (xDim yDim : PyStr) (kw : List (PyStr × ℝ) := []) : Except PyErr TH2R := do
  let stats ← perBinStats g minChisq kw
  let x ← specPar spec xDim
  let y ← specPar spec yDim
  fillCells false stats.shape (fun e => .ok (stats.get [e.1, e.2]))
    ⟨x.bins.toNat, x.low, x.high, y.bins.toNat, y.low, y.high, fun _ _ => 0⟩

/-! ### graphs -/

/-- `ROOT.TGraph(n, x, y)`: `n` points. ROOT reads the buffers of the arrays; an array with more
entries is cut off. (Shorter ones make it read other memory: an error here. Columns of tables are
assumed to be accepted like any other array.) -/
def tgraph (n : ℕ) (x y : List ℝ) : Except PyErr (List (ℝ × ℝ)) :=
  if x.length < n ∨ y.length < n then .error .indexError
  else .ok ((x.take n).zip (y.take n))

/-- `plot_stats_vs_par_scale`, `/repo/echidna/output/plot_root.py:360-382`: the points. -/
noncomputable def plotStatsVsParScale (g : GridSearch) (par : PyStr) :
    Except PyErr (List (ℝ × ℝ)) := do
  let scales ← g.getScales par
  let stats ← g.getStats
  tgraph scales.length scales stats.ravel

/-- `plot_raw_stats_vs_par_scale`, `/repo/echidna/output/plot_root.py:248-271`. -/
noncomputable def plotRawStatsVsParScale (g : GridSearch) (par : PyStr)
    (kw : List (PyStr × ℝ) := []) : Except PyErr (List (ℝ × ℝ)) := do
  let scales ← g.getScales par
  let stats ← g.getRawStats kw
  tgraph scales.length scales stats.ravel

/-- `plot_penalty_term_vs_par_scale`, `/repo/echidna/output/plot_root.py:501-523`. -/
noncomputable def plotPenaltyVsParScale (g : GridSearch) (par : PyStr) :
    Except PyErr (List (ℝ × ℝ)) := do
  let scales ← g.getScales par
  let pens ← g.getPenaltyTerms par
  tgraph scales.length scales pens.ravel

namespace LimitResults

/-- `plot_stats_vs_scale`, `/repo/echidna/output/plot_root.py:224-245`: the points. `rate` is the
parameter `rate` of the limit configuration, whose values are the scalings
(`get_scales`, `/repo/echidna/fit/fit_results.py:259-265`). -/
noncomputable def plotStats (r : LimitResults) (rate : FitPar) : Except PyErr (List (ℝ × ℝ)) := do
  let scales ← rate.getValues
  let full ← r.getFullStats
  tgraph scales.length scales full.flatten

/-- `plot_best_fit_vs_scale`, `/repo/echidna/output/plot_root.py:385-408`. -/
noncomputable def plotBestFit (r : LimitResults) (rate : FitPar) (par : PyStr) :
    Except PyErr (List (ℝ × ℝ)) := do
  let scales ← rate.getValues
  let best ← r.getBestFits par
  tgraph scales.length scales best

/-- `plot_penalty_term_vs_scale`, `/repo/echidna/output/plot_root.py:526-548`. -/
noncomputable def plotPenaltyTerm (r : LimitResults) (rate : FitPar) (par : PyStr) :
    Except PyErr (List (ℝ × ℝ)) := do
  let scales ← rate.getValues
  let pens ← r.getPenaltyTerms par
  tgraph scales.length scales pens

/-- An operation on a column of `_best_fits` in place. -/
def mapBestFits (r : LimitResults) (j : ℕ) (f : ℝ → ℝ) : LimitResults :=
  { r with bestFits := fun a b => if b = j then f (r.bestFits a b) else r.bestFits a b }

open Classical in
/-- `plot_sigma_best_fit_vs_scale`, `/repo/echidna/output/plot_root.py:411-438`: the results after
the call and the points. `get_best_fits` returns a view of the table, and `-=` and `/=` work in
place. `conf` are the parameters of the fit configuration. Dividing by `None` is a
`TypeError`; numpy's nan or infinity for a sigma of zero is `zeroDivision` here. -/
noncomputable def plotSigmaBestFit (r : LimitResults) (conf : List FitPar) (rate : FitPar)
    (par : PyStr) : LimitResults × Except PyErr (List (ℝ × ℝ)) :=
  match r.getIndex par, conf.find? (fun p => p.name = par) with
  | .error e, _ => (r, .error e)
  | .ok _, none => (r, .error .keyError)
  | .ok j, some p =>
    let r1 := r.mapBestFits j (fun x => x - p.prior)
    match p.sigma with
    | none => (r1, .error .typeError)
    | some sigma =>
      if sigma = 0 then (r1, .error .zeroDivision)
      else
        let r2 := r1.mapBestFits j (fun x => x / sigma)
        (r2, do
          let scales ← rate.getValues
          tgraph scales.length scales ((List.range r2.scales).map (fun i => r2.bestFits i j)))

end LimitResults

/-! ### bin boundaries of a fit parameter -/

/-- `get_width`, `/repo/echidna/core/parameter.py:97-103`. -/
noncomputable def FitPar.width (p : FitPar) : Except PyErr ℝ :=
  if p.bins = 0 then .error .zeroDivision else .ok ((p.high - p.low) / p.bins)

open Classical in
/-- `get_bin_boundaries`, `/repo/echidna/core/parameter.py:320-368`, when nothing is cached. For a
logarithmic parameter `high` and `low` are logarithms already when their logarithms are
taken for the width. Logarithms of non-positive numbers are `valueError`; python 2 divides
integers without remainder. -/
noncomputable def FitPar.binBoundaries (p : FitPar) : Except PyErr (List ℝ) :=
  if p.logscale = some true then
    if p.high ≤ 0 then .error .valueError
    else
      let low := if p.low ≤ 0 then -Real.log p.high else Real.log p.low
      let high := Real.log p.high
      if high ≤ 0 ∨ low ≤ 0 then .error .valueError
      else if p.bins = 0 then .error .zeroDivision
      else
        let width := (Real.log high - Real.log low) / p.bins
        .ok ((npLinspace (low - 1 / 2 * width) (high + 1 / 2 * width) (p.bins + 1)).map Real.exp)
  else if p.logDev = some true then
    let delta := p.high - p.prior
    if delta + 1 ≤ 0 then .error .valueError
    else if p.bins / 2 = 0 then .error .zeroDivision
    else
      let width := Real.log (delta + 1) / ((p.bins / 2 : ℕ) : ℝ)
      let deltas := npLinspace (1 / 2 * width) (Real.log (delta + 1) + 1 / 2 * width)
        ((p.bins + 1) / 2)
      .ok (deltas.reverse.map (fun d => p.prior - Real.exp d + 1) ++
        deltas.map (fun d => p.prior + Real.exp d - 1))
  else do
    let width ← p.width
    .ok (npLinspace (p.low + 1 / 2 * width) (p.high + 1 / 2 * width) (p.bins + 1))

end Verif
