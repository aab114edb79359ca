import Verif.Model.PlotResults
import Verif.Model.Decay

/-!
# Plots of chi-squareds

The functions of `/repo/echidna/output/plot_chi_squared.py` and
`/repo/echidna/output/plot_chi_squared_root.py`. The classes whose objects they take (`LimitConfig`,
`SystAnalyser`) are not part of the package any more; here they are records with the arrays that are
read. What is modelled are the numbers handed to matplotlib or ROOT; fonts, labels, colours and files
are left out.
-/

namespace Verif

/-- A signal configuration: the two-dimensional array `_chi_squareds`. Rows 0 and 2 are the chi-squareds
and the counts. -/
structure ChiTable where
  /-- `_chi_squareds` -/
  rows : List (List ℝ)

namespace ChiTable

/-- `get_chi_squareds()[k]`: row `k` of the array. -/
def row (t : ChiTable) (k : ℕ) : Except PyErr (List ℝ) :=
  match t.rows[k]? with
  | some r => .ok r
  | none => .error .indexError

/-! ### graphs of ROOT -/

/-- `chi_squared_vs_signal`, `/repo/echidna/output/plot_chi_squared_root.py:5-20`: the points. -/
def rootVsSignal (t : ChiTable) : Except PyErr (List (ℝ × ℝ)) := do
  let x ← t.row 2
  let y ← t.row 0
  tgraph x.length x y

open Classical in
/-- `1. / converter.counts_to_half_life(x)` for a numpy float, cf. `DBIsotope.countsToHalfLife`: no
counts give an infinite half-life (numpy does not raise) and so zero. Simplification: the infinite and
undefined numbers for an isotope without atoms are `zeroDivision`. -/
noncomputable def inverseHalfLife (c : DecayConst) (s : DBIsotope) (x : ℝ) : Except PyErr ℝ := do
  let n ← s.orNAtoms c none
  if x = 0 then
    if n = 0 then .error .zeroDivision else .ok 0
  else do
    let t ← s.countsToHalfLife c x
    realDiv 1 t

open Classical in
/-- `converter.counts_to_eff_mass(x)` for a numpy float, cf. `DBIsotope.countsToEffMass`: no counts give
an infinite half-life and so mass zero. Simplification: as for `inverseHalfLife`; vanishing phase space
or matrix element as well. -/
noncomputable def massOf (c : DecayConst) (s : DBIsotope) (x : ℝ) : Except PyErr ℝ := do
  let n ← s.orNAtoms c none
  if x = 0 then
    if n = 0 ∨ s.phaseSpace * s.matrixElement ^ 2 = 0 then .error .zeroDivision else .ok 0
  else s.countsToEffMass c x

/-- The loop `for i in range(len(x)): graph.SetPoint(i, f(x[i]), y[i])` on an empty graph: point `i` is
appended. `y[i]` beyond the end is an `IndexError`. -/
def setPoints (f : ℝ → Except PyErr ℝ) : List ℝ → List ℝ → Except PyErr (List (ℝ × ℝ))
  | [], _ => .ok []
  | x :: xs, ys => do
    let a ← f x
    match ys with
    | [] => .error .indexError
    | y :: ys => do
      let rest ← setPoints f xs ys
      .ok ((a, y) :: rest)

/-- `chi_squared_vs_half_life`, `/repo/echidna/output/plot_chi_squared_root.py:23-43`. -/
noncomputable def rootVsHalfLife (c : DecayConst) (s : DBIsotope) (t : ChiTable) :
    Except PyErr (List (ℝ × ℝ)) := do
  let x ← t.row 2
  let y ← t.row 0
  setPoints (inverseHalfLife c s) x y

/-- `chi_squared_vs_mass`, `/repo/echidna/output/plot_chi_squared_root.py:46-66`. -/
noncomputable def rootVsMass (c : DecayConst) (s : DBIsotope) (t : ChiTable) :
    Except PyErr (List (ℝ × ℝ)) := do
  let x ← t.row 2
  let y ← t.row 0
  setPoints (massOf c s) x y

/-! ### the plot of matplotlib -/

/-- `plt.plot(x, y)`: the points of a line; different lengths are a `ValueError`. -/
def mplLine (x y : List ℝ) : Except PyErr (List (ℝ × ℝ)) :=
  if x.length = y.length then .ok (x.zip y) else .error .valueError

/-- The values on the x axis, `/repo/echidna/output/plot_chi_squared.py:61-76`. For half-lives the loop
calls `append` on a numpy array. (`conv` is the converter with its keyword arguments. Without one
`converter.counts_to_eff_mass` is an attribute of `None`.) -/
noncomputable def axisValues (conv : Option (ℝ → Except PyErr ℝ)) (convMass : Option (ℝ → Except PyErr ℝ))
    (halfLife effMass : Bool) (counts : List ℝ) : Except PyErr (List ℝ) :=
  if effMass then
    counts.mapM (fun x => match convMass with | some f => f x | none => .error .attributeError)
  else if halfLife then
    match counts with
    | [] => .ok []
    | x :: _ => do
      let _ ← match conv with | some f => f x | none => .error .attributeError
      .error .attributeError
  else .ok counts

/-- `chi_squared_vs_signal`, `/repo/echidna/output/plot_chi_squared.py:22-98`: the lines. The isotope is
the converter. The condition is `converter is None and half_life or effective_mass`. -/
noncomputable def mplVsSignal (c : DecayConst) (t : ChiTable) (converter : Option DBIsotope)
    (penalty : Option ChiTable) (effMass halfLife : Bool) : Except PyErr (List (List (ℝ × ℝ))) :=
  if (converter = none ∧ halfLife = true) ∨ effMass = true then .error .typeError
  else do
    let counts ← t.row 2
    let x ← axisValues (converter.map (inverseHalfLife c)) (converter.map (massOf c)) halfLife effMass
      counts
    let y ← t.row 0
    match penalty with
    | some p => do
      let y2 ← p.row 0
      let l1 ← mplLine x y
      let l2 ← mplLine x y2
      .ok [l1, l2]
    | none => do
      let l ← mplLine x y
      .ok [l]

/-- `plot_chi_squared_per_bin`, `/repo/echidna/output/plot_root.py:190-221`: the histogram returned. The
calculator (`ChiSquared` is not part of the package any more) is the list of its values. -/
noncomputable def rootPerBin (chi : List ℝ) (bins : ℕ) (low high : ℝ) : TH1R :=
  (chi.foldl (fun (acc : TH1R × ℕ) x => (acc.1.setBinContent acc.2 x, acc.2 + 1))
    (⟨bins, low, high, fun _ => 0⟩, 1)).1

end ChiTable

/-! ### maps -/

/-- A systematic analyser: counts of the signal, values of the systematic, chi-squareds for every
count, trial and value, and the two rows of penalty values. -/
structure SystAnalyser where
  /-- `get_actual_counts()` -/
  counts : List ℝ
  /-- `get_syst_values()` -/
  values : List ℝ
  /-- the second dimension of `get_chi_squareds()` -/
  trials : ℕ
  /-- `get_chi_squareds()[i, k, j]` -/
  chi : ℕ → ℕ → ℕ → ℝ
  /-- `_penalty_values[0]` -/
  penaltyAt : List ℝ
  /-- `_penalty_values[1]` -/
  penalty : List ℝ

namespace SystAnalyser

/-- `numpy.transpose(numpy.average(get_chi_squareds(), axis=1))`,
`/repo/echidna/output/plot_chi_squared.py:132-133`. Supposes chi-squareds for every count and value.
An average of nothing (nan in numpy) is a `valueError`, and so is the minimum of an empty array, which all
three maps take. -/
noncomputable def averaged (a : SystAnalyser) : Except PyErr (NdArray ℝ) :=
  if a.trials = 0 ∨ a.counts = [] ∨ a.values = [] then .error .valueError
  else .ok ⟨[a.values.length, a.counts.length], fun idx =>
    (∑ k ∈ Finset.range a.trials, a.chi (idx.getD 1 0) k (idx.getD 0 0)) / a.trials⟩

/-- `chi_squared_map`, `/repo/echidna/output/plot_chi_squared.py:101-219`: the array that is drawn over
the counts (second index) and values (first index). -/
noncomputable def chiSquaredMap (a : SystAnalyser) : Except PyErr (NdArray ℝ) := a.averaged

/-- The array of chi-squareds without floating, `/repo/echidna/output/plot_chi_squared.py:284-289`: every
row is filled with the chi-squareds; too many are an `IndexError`, missing ones stay zero. -/
def unfloated (shape : List ℕ) (chi : List ℝ) : Except PyErr (NdArray ℝ) :=
  if shape.getD 0 0 ≠ 0 ∧ shape.getD 1 0 < chi.length then .error .indexError
  else .ok ⟨shape, fun idx => chi.getD (idx.getD 1 0) 0⟩

/-- `turn_on`, `/repo/echidna/output/plot_chi_squared.py:256-337`: the array that is drawn. -/
noncomputable def turnOn (a : SystAnalyser) (t : ChiTable) : Except PyErr (NdArray ℝ) := do
  let data ← a.averaged
  let chi ← t.row 0
  let np ← unfloated data.shape chi
  .ok ⟨data.shape, fun idx => data.get idx - np.get idx⟩

/-- `push_pull`, `/repo/echidna/output/plot_chi_squared.py:345-433`: the array that is drawn. The penalty
values are cut to the number of values of the systematic; missing ones stay zero. -/
noncomputable def pushPull (a : SystAnalyser) : Except PyErr (NdArray ℝ) := do
  let data ← a.averaged
  let pen := a.penalty.take a.values.length
  .ok ⟨data.shape, fun idx => 2 * pen.getD (idx.getD 0 0) 0 - data.get idx⟩

/-- `penalty_vs_systematic`, `/repo/echidna/output/plot_chi_squared.py:225-253`: the points. Saving uses
the undefined name `kwagrs`. -/
def penaltyVsSystematic (a : SystAnalyser) (saveAs : Bool) : Except PyErr (List (ℝ × ℝ)) := do
  let l ← ChiTable.mplLine a.penaltyAt a.penalty
  if saveAs then .error .nameError else .ok l

end SystAnalyser

end Verif
