import Verif.Model.Spectra
import Verif.Model.Minimise
import Verif.Model.Smear

/-!
# Plots of spectra

Model of the functions of `/repo/echidna/output/plot.py` and of
`/repo/echidna/output/plot_root.py` that draw spectra, as far as the drawn numbers go: which
number is drawn where. Labels, colours, legends and the display itself are left out.
-/

namespace Verif

/-! ### numpy and matplotlib -/

/-- `numpy.linspace(a, b, n)` for rational ends. -/
def npLinspaceQ (a b : ℚ) (n : ℕ) : List ℚ :=
  (List.range n).map (fun i : ℕ => a + i * ((b - a) / ((n : ℚ) - 1)))

/-- A drawn step histogram: edges of the bins and heights. -/
structure StepHist where
  edges : List ℚ
  heights : List ℚ
  deriving DecidableEq

/-- Whether `numpy.histogram` counts `x` in bin `k` of increasing `edges`: half-open
intervals, and the last one is closed. -/
def inHistBin (edges : List ℚ) (k : ℕ) (x : ℚ) : Bool :=
  match edges[k]?, edges[k + 1]? with
  | some a, some b => decide (a ≤ x ∧ (x < b ∨ (k + 2 = edges.length ∧ x = b)))
  | _, _ => false

/-- `axis.hist(x, bins=edges, weights=weights)` of matplotlib, which calls `numpy.histogram`:
the weights of the values in each bin are added. -/
def mplHist (x edges weights : List ℚ) : Except PyErr StepHist :=
  if x.length ≠ weights.length then .error .valueError
  else .ok ⟨edges, (List.range (edges.length - 1)).map (fun k =>
    (((x.zip weights).filter (fun e => inHistBin edges k e.1)).map Prod.snd).sum)⟩

/-! ### `plot.py` -/

/-- `_produce_axis`, `/repo/echidna/output/plot.py:7-23`. -/
def produceAxis (s : Spectrum) (dimension : PyStr) : Except PyErr (List ℚ) := do
  let par ← s.getPar dimension
  if par.bins = 0 ∨ par.width = 0 then throw .zeroDivision
  .ok ((npArange par.low par.high par.width).map (fun x => x + 1 / 2 * par.width))

/-- `_produce_bins`, `/repo/echidna/output/plot.py:26-43`. -/
def produceBins (s : Spectrum) (dimension : PyStr) : Except PyErr (List ℚ) := do
  let par ← s.getPar dimension
  .ok (npLinspaceQ par.low par.high (par.bins + 1).toNat)

/-- `plot_projection`, `/repo/echidna/output/plot.py:46-82`: the histogram drawn. -/
def plotProjection (s : Spectrum) (dimension : PyStr) : Except PyErr StepHist := do
  let par ← s.getPar dimension
  if par.bins = 0 then throw .zeroDivision
  let bins ← produceBins s dimension
  let x ← produceAxis s dimension
  let data ← s.project dimension
  mplHist x bins data.ravel

/-- An entry of the argument `spectra_dict` of `spectral_plot`: the spectrum, the value stored
under `type`, and whether that string is the very object of the literal `"background"` in
`plot.py` (python compares them with `is`; equal strings may be different objects). -/
structure PlotEntry where
  spectrum : Spectrum
  kind : Option PyStr
  interned : Bool

/-- `value.get("type") is "background"`, `/repo/echidna/output/plot.py:183`. -/
def PlotEntry.isBackground (e : PlotEntry) : Bool :=
  decide (e.kind = some (lit "background")) && e.interned

/-- What `spectral_plot` draws. The band around the summed background
(`/repo/echidna/output/plot.py:189-192`) and the chi squared per bin (218-225) are left out. -/
structure SpectralPlot where
  each : List StepHist
  background : StepHist
  total : StepHist
  limit : Option StepHist

/-- The comparisons of the first loop, `/repo/echidna/output/plot.py:141-152`. -/
def plotCheck (dimension : PyStr) (first : SPar) (e : PlotEntry) : Except PyErr Unit := do
  let par ← e.spectrum.getPar dimension
  if par.low ≠ first.low then throw .assertionError
  if par.high ≠ first.high then throw .assertionError
  if par.bins ≠ first.bins then throw .assertionError

/-- One round of the second loop, `/repo/echidna/output/plot.py:164-185`: the histograms drawn so
far, the summed background and the sum. -/
def plotEntry (dimension : PyStr) (x bins : List ℚ)
    (acc : List StepHist × NdArray ℚ × NdArray ℚ) (e : PlotEntry) :
    Except PyErr (List StepHist × NdArray ℚ × NdArray ℚ) := do
  let data ← e.spectrum.project dimension
  let h ← mplHist x bins data.ravel
  let background ← (if e.isBackground then do acc.2.1.bcastAdd (← e.spectrum.project dimension)
    else .ok acc.2.1 : Except PyErr (NdArray ℚ))
  let total ← acc.2.2.bcastAdd (← e.spectrum.project dimension)
  .ok (acc.1 ++ [h], background, total)

/-- `spectral_plot`, `/repo/echidna/output/plot.py:85-236`. The entries are the values of
`spectra_dict` in the order of iteration. Without entries the name `spectra` is unbound at
line 154. -/
def spectralPlot (entries : List PlotEntry) (dimension : PyStr) (limit : Option Spectrum) :
    Except PyErr SpectralPlot := do
  match entries.head?, entries.getLast? with
  | some first, some last => do
    let par ← first.spectrum.getPar dimension
    entries.tail.forM (plotCheck dimension par)
    let x ← produceAxis last.spectrum dimension
    let bins ← produceBins last.spectrum dimension
    let zero : NdArray ℚ := .zeros [par.bins.toNat]
    let (each, background, total) ← entries.foldlM (plotEntry dimension x bins) ([], zero, zero)
    let background ← mplHist x bins background.ravel
    let total ← mplHist x bins total.ravel
    let limit ← (match limit with
      | none => .ok none
      | some l => do
        let data ← l.project dimension
        let h ← mplHist x bins data.ravel
        .ok (some h) : Except PyErr (Option StepHist))
    .ok { each, background, total, limit }
  | _, _ => .error .nameError

/-- The arguments of `pcolormesh`: the names and values along x and y, and the colours, with
one row per y value. -/
structure Mesh where
  xDim : PyStr
  yDim : PyStr
  x : List ℚ
  y : List ℚ
  data : NdArray ℚ

/-- A quadrilateral drawn by `pcolormesh`. -/
structure Quad where
  xLow : ℚ
  xHigh : ℚ
  yLow : ℚ
  yHigh : ℚ
  value : ℚ
  deriving DecidableEq

/-- `axis.pcolormesh(X, Y, C)` of matplotlib: the quadrilateral between the points `(i, j)` and
`(i+1, j+1)` gets the colour `C[i, j]`; the shape of `C` is that of `X` (then the last row and
column of `C` are ignored) or one less. Any other shape raises. (This is what the versions of
matplotlib for python 2 do.) -/
def Mesh.quads (m : Mesh) : Except PyErr (List Quad) :=
  if m.data.shape = [m.y.length, m.x.length] ∨
      m.data.shape = [m.y.length - 1, m.x.length - 1] then
    .ok ((List.range (m.y.length - 1)).flatMap (fun i =>
      (List.range (m.x.length - 1)).map (fun j =>
        ⟨m.x.getD j 0, m.x.getD (j + 1) 0, m.y.getD i 0, m.y.getD (i + 1) 0, m.data.get [i, j]⟩)))
  else .error .typeError

/-- `plot_surface`, `/repo/echidna/output/plot.py:239-293`, up to the call of `pcolormesh`. The
choice of the colour levels (280-284) is left out. -/
def plotSurface (s : Spectrum) (d1 d2 : PyStr) : Except PyErr Mesh := do
  let i1 ← s.getIndex d1
  let i2 ← s.getIndex d2
  let (x, y) ← (if i1 < i2 then do
      let x ← produceAxis s d2
      let y ← produceAxis s d1
      .ok (x, y)
    else do
      let x ← produceAxis s d1
      let y ← produceAxis s d2
      .ok (x, y) : Except PyErr (List ℚ × List ℚ))
  let data ← s.surface d1 d2
  if i1 < i2 then .ok ⟨d2, d1, x, y, data⟩ else .ok ⟨d1, d2, x, y, data⟩

/-! ### ROOT -/

/-- `ROOT.TH1D`: number of bins, edges and the contents of the cells `0` (underflow) to
`bins + 1` (overflow). -/
structure TH1 where
  bins : ℕ
  low : ℚ
  high : ℚ
  content : ℕ → ℚ

/-- `SetBinContent(k, v)`; cells beyond the overflow are ignored. -/
def TH1.setBinContent (h : TH1) (k : ℕ) (v : ℚ) : TH1 :=
  if k ≤ h.bins + 1 then { h with content := fun j => if j = k then v else h.content j } else h

/-- `FindBin` of an axis of ROOT with `n` bins from `low` to `high`. -/
def rootFindBin (n : ℕ) (low high x : ℚ) : ℕ :=
  if x < low then 0
  else if ¬ x < high then n + 1
  else 1 + (pyInt (n * (x - low) / (high - low))).toNat

/-- `ROOT.TH2D`, with the cells `(i, j)` including underflow and overflow. -/
structure TH2 where
  xBins : ℕ
  xLow : ℚ
  xHigh : ℚ
  yBins : ℕ
  yLow : ℚ
  yHigh : ℚ
  content : ℕ → ℕ → ℚ

/-- `SetBinContent(i, j, v)`. (Simplification: calls outside the histogram are ignored; newer
versions of ROOT put them into the overflow cells. No theorem is about these cells.) -/
def TH2.setBinContent (h : TH2) (i j : ℕ) (v : ℚ) : TH2 :=
  if i ≤ h.xBins + 1 ∧ j ≤ h.yBins + 1 then
    { h with content := fun a b => if a = i ∧ b = j then v else h.content a b }
  else h

/-- `plot_projection`, `/repo/echidna/output/plot_root.py:9-39`: the histogram returned. -/
def rootProjection (s : Spectrum) (dimension : PyStr) : Except PyErr TH1 := do
  let par ← s.getPar dimension
  let data ← s.project dimension
  .ok (data.ravel.zipIdx.foldl (fun h e => h.setBinContent (e.2 + 1) e.1)
    ⟨par.bins.toNat, par.low, par.high, fun _ => 0⟩)

/-- The double loop over a two-dimensional array in `plot_surface`,
`/repo/echidna/output/plot_root.py:68-70`. (An array of another shape raises a `TypeError` as soon
as it has an entry.) -/
def fillSurface (h : TH2) (data : NdArray ℚ) : Except PyErr TH2 :=
  match data.shape with
  | [n, m] => .ok ((List.range n).foldl (fun h i =>
      (List.range m).foldl (fun h j => h.setBinContent (i + 1) (j + 1) (data.get [i, j])) h) h)
  | _ => .error .typeError

/-- `plot_surface`, `/repo/echidna/output/plot_root.py:44-77`: the histogram returned. -/
def rootSurface (s : Spectrum) (d1 d2 : PyStr) : Except PyErr TH2 := do
  let p1 ← s.getPar d1
  let p2 ← s.getPar d2
  let data ← s.surface d1 d2
  fillSurface ⟨p1.bins.toNat, p1.low, p1.high, p2.bins.toNat, p2.low, p2.high, fun _ _ => 0⟩ data

/-- `spectral_plot`, `/repo/echidna/output/plot_root.py:78-184`, up to line 138 for the first spectrum:
line 136 binds `summed_total` to an array, which has no `SetLineStyle`. Nothing after that line is
reached. Without entries the name `summed_total` is unbound at line 171. -/
def rootSpectralPlot (entries : List PlotEntry) (dimension : PyStr) : Except PyErr Unit :=
  match entries with
  | [] => .error .nameError
  | first :: _ => do
    let ty ← getDimType first.spectrum.pars dimension
    let _ ← first.spectrum.getPar (dimension ++ '_' :: ty)
    .error .attributeError

end Verif
