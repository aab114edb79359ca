import Verif.Model.NdArray
import Mathlib.Data.List.Sort

/-!
# `echidna/core/spectra.py`, with the parts of `config.py` and `parameter.py`
that describe the axes of a spectrum

Mutating methods return an `Outcome`: the state of the spectrum after the call
and the exception, if one was raised.
-/

namespace Verif

/-- `SpectraParameter`, `/repo/echidna/core/parameter.py:1038-1053` with the
attributes of `Parameter.__init__` (35-44). `_min`, `_max`, `_type` are not used
by the modelled methods and left out. `bins` is an integer because `shrink` can
make it negative. -/
structure SPar where
  name : PyStr
  low : ℚ
  high : ℚ
  bins : ℤ
  deriving DecidableEq

namespace SPar

/-- `Parameter.get_width`, `/repo/echidna/core/parameter.py:97-103`. Callers check
`bins ≠ 0` where python would raise. -/
def width (p : SPar) : ℚ := (p.high - p.low) / p.bins

/-- `SpectraParameter.get_bin`, `/repo/echidna/core/parameter.py:1055-1074`. -/
def getBin (p : SPar) (x : ℚ) : Except PyErr ℤ :=
  if x < p.low then .error .valueError
  else if p.high < x then .error .valueError
  else if p.bins = 0 ∨ p.width = 0 then .error .zeroDivision
  else .ok (pyInt ((x - p.low) / p.width))

/-- `SpectraParameter.get_bin_centre`, `/repo/echidna/core/parameter.py:1084-1105`.
The type check (1098-1099) is implicit: `bin` is an integer here. -/
def getBinCentre (p : SPar) (bin : ℤ) : Except PyErr ℚ :=
  if bin < 0 then .error .valueError
  else if p.bins - 1 < bin then .error .valueError
  else .ok (p.low + (bin + 1 / 2) * p.width)

/-- `SpectraParameter.get_bin_boundaries`, `/repo/echidna/core/parameter.py:1076-1082`:
`numpy.linspace(low, high, bins + 1)`. -/
def binBoundaries (p : SPar) : List ℚ :=
  (List.range (p.bins + 1).toNat).map (fun i : ℕ => p.low + i * ((p.high - p.low) / p.bins))

/-- `SpectraParameter.get_bin_centres`, `/repo/echidna/core/parameter.py:1107-1115`:
`numpy.arange(low + width*0.5, high, width)`, which has
`ceil((high - start)/width)` entries. -/
def binCentres (p : SPar) : List ℚ :=
  (List.range ⌈(p.high - (p.low + p.width * (1 / 2))) / p.width⌉.toNat).map
    (fun i : ℕ => (p.low + p.width * (1 / 2)) + i * p.width)

/-- `SpectraParameter.round`, `/repo/echidna/core/parameter.py:1131-1140`. -/
def round (p : SPar) (x : ℚ) : ℚ := pyRound (x / p.width) * p.width

end SPar

/-! ### names: `SpectraConfig.get_dims`, `get_dim`, `get_dim_type` -/

/-- `SpectraConfig.get_dim`, `/repo/echidna/core/config.py:799-812` (the same loop is in
`get_dims`, 791-796): all components but the last, joined again. -/
def getDim (par : PyStr) : PyStr :=
  dropRight (((pySplit '_' par).dropLast).foldl (fun dim entry => dim ++ (entry ++ ['_'])) []) 1

/-- `par.split('_')[-1]` -/
def lastPart (par : PyStr) : PyStr := (pySplit '_' par).getLastD []

/-- `sorted(names)` -/
def sortedNames (names : List PyStr) : List PyStr :=
  names.insertionSort (· ≤ ·)

/-- `SpectraConfig.get_dims`, `/repo/echidna/core/config.py:783-797`. -/
def getDims (names : List PyStr) : List PyStr := (sortedNames names).map getDim

/-- `SpectraConfig.get_dim_type`, `/repo/echidna/core/config.py:814-833`. -/
def getDimType (names : List PyStr) (dim : PyStr) : Except PyErr PyStr :=
  match (sortedNames names).find? (fun par => getDim par = dim) with
  | some par => .ok (lastPart par)
  | none => .error .indexError

/-! ### the spectrum -/

/-- Entry of `_rois`, `/repo/echidna/core/spectra.py:561-563`. -/
structure Roi where
  low : ℚ
  high : ℚ
  efficiency : ℚ
  deriving DecidableEq

/-- `Spectra`, attributes of `/repo/echidna/core/spectra.py:43-63`. `_fit_config`, `_style`,
`_bipo`, `_background_name`, `_location` are not touched by the methods of this file
and are part of the store model instead. `_config` is the list of axes in the insertion
order of the `OrderedDict`. -/
structure Spectrum where
  name : PyStr
  cfg : List SPar
  data : NdArray ℚ
  numDecays : ℚ
  rawEvents : ℤ
  rois : List (PyStr × Roi)

/-- State after a call of a mutating method, and the exception if one was raised. -/
structure Outcome where
  st : Spectrum
  err : Option PyErr

namespace Outcome
def ok (s : Spectrum) : Outcome := ⟨s, none⟩
def fail (s : Spectrum) (e : PyErr) : Outcome := ⟨s, some e⟩
end Outcome

namespace Spectrum

/-- `self._config.get_pars()`, `/repo/echidna/core/config.py:127-133`. -/
def pars (s : Spectrum) : List PyStr := s.cfg.map SPar.name

/-- `Config.get_index`, `/repo/echidna/core/config.py:78-93`. -/
def getIndex (s : Spectrum) (n : PyStr) : Except PyErr ℕ :=
  match s.pars.findIdx? (· = n) with
  | some i => .ok i
  | none => .error .indexError

/-- `Config.get_par`, `/repo/echidna/core/config.py:103-112`. -/
def getPar (s : Spectrum) (n : PyStr) : Except PyErr SPar :=
  match s.cfg.find? (fun p => p.name = n) with
  | some p => .ok p
  | none => .error .keyError

/-- `Spectra.__init__`, `/repo/echidna/core/spectra.py:43-63`. -/
def new (name : PyStr) (numDecays : ℚ) (cfg : List SPar) : Spectrum :=
  { name, cfg, data := .zeros (cfg.map (fun p => p.bins.toNat)), numDecays,
    rawEvents := 0, rois := [] }

/-- `Spectra.sum`, `/repo/echidna/core/spectra.py:565-571`. -/
def sum (s : Spectrum) : ℚ := s.data.sum

/-- Bin number used by `fill`, `/repo/echidna/core/spectra.py:196-199`. -/
def fillBin (p : SPar) (x : ℚ) : ℤ := pyInt ((x - p.low) / (p.high - p.low) * p.bins)

/-- `Spectra.fill`, `/repo/echidna/core/spectra.py:168-200`. The last step raises an
`IndexError` when the cell does not exist; python's wrap-around of negative
indices is not modelled (it would need a negative bin count). -/
def fill (s : Spectrum) (weight : ℚ) (kw : List (PyStr × ℚ)) : Outcome :=
  if kw.any (fun e => e.1 ∉ s.pars) then .fail s .exception
  else
    match s.cfg.mapM (fun p => assoc kw p.name) with
    | none => .fail s .exception
    | some xs =>
      if (s.cfg.zip xs).all (fun e => e.1.low ≤ e.2 ∧ e.2 < e.1.high) then
        let bins := List.zipWith fillBin s.cfg xs
        let idx := bins.map Int.toNat
        if bins.all (fun b => 0 ≤ b) ∧ InB s.data.shape idx then
          .ok { s with data := s.data.addAt idx weight }
        else .fail s .indexError
      else .fail s .valueError

/-- `types` dictionary of `Spectra.add`, `/repo/echidna/core/spectra.py:97-102`. -/
def addTypes (s t : Spectrum) : Except PyErr (List (PyStr × PyStr)) :=
  t.pars.foldlM (fun types v =>
    if v ∈ s.pars then pure types
    else do
      let dim := getDim v
      let dimType ← getDimType t.pars dim
      pure ((dim, dimType) :: types)) []

/-- One round of the loop of `Spectra.add`, `/repo/echidna/core/spectra.py:103-135`. -/
def addCheckPar (t : Spectrum) (types : List (PyStr × PyStr)) (p : SPar) : Except PyErr Unit := do
  let dim := getDim p.name
  let vSpec := match assoc types dim with
    | some ty => dim ++ ('_' :: ty)
    | none => p.name
  let q ← t.getPar vSpec
  if ¬ npClose p.high q.high then throw .valueError
  if ¬ npClose p.low q.low then throw .valueError
  if p.bins ≠ q.bins then throw .valueError

/-- Checks of `Spectra.add`, `/repo/echidna/core/spectra.py:85-135`. -/
def addCheck (s t : Spectrum) : Except PyErr Unit := do
  if s.data.shape ≠ t.data.shape then throw .valueError
  if (getDims s.pars).any (fun v => v ∉ getDims t.pars) then throw .indexError
  if (getDims t.pars).any (fun v => v ∉ getDims s.pars) then throw .indexError
  let types ← addTypes s t
  s.cfg.forM (addCheckPar t types)

/-- `Spectra.add`, `/repo/echidna/core/spectra.py:65-138`. -/
def add (s t : Spectrum) : Outcome :=
  match addCheck s t with
  | .error e => .fail s e
  | .ok _ => .ok { s with
      data := s.data.add t.data
      rawEvents := s.rawEvents + t.rawEvents
      numDecays := s.numDecays + t.numDecays }

/-- `Spectra.scale`, `/repo/echidna/core/spectra.py:378-392`. With `_num_decays` zero python
raises `ZeroDivisionError` for floats and numpy gives inf/nan for numpy floats. -/
def scale (s : Spectrum) (n : ℚ) : Outcome :=
  if s.numDecays = 0 then .fail s .zeroDivision
  else .ok { s with data := s.data.smul (n / s.numDecays), numDecays := n }

/-- `Spectra.project`, `/repo/echidna/core/spectra.py:322-341`. -/
def project (s : Spectrum) (dimension : PyStr) : Except PyErr (NdArray ℚ) := do
  let axis ← s.getIndex dimension
  (List.range (s.cfg.length - 1)).foldlM (fun (proj : NdArray ℚ) i =>
    if axis < i + 1 then proj.sumAxis 1 else proj.sumAxis 0) s.data

/-- `Spectra.nd_project`, `/repo/echidna/core/spectra.py:302-320`. -/
def ndProject (s : Spectrum) (dimensions : List PyStr) : Except PyErr (NdArray ℚ) := do
  let axes ← dimensions.mapM s.getIndex
  if axes.length = s.cfg.length then return s.data
  (List.range s.cfg.length).foldlM (fun (proj : NdArray ℚ) i =>
    if i ∉ axes then proj.sumAxis i else pure proj) s.data

/-- `Spectra.surface`, `/repo/echidna/core/spectra.py:573-599`. The range checks (591-594)
cannot fail after `get_index`. -/
def surface (s : Spectrum) (d1 d2 : PyStr) : Except PyErr (NdArray ℚ) := do
  let a1 ← s.getIndex d1
  let a2 ← s.getIndex d2
  if s.cfg.length < a1 then throw .indexError
  if s.cfg.length < a2 then throw .indexError
  (List.range s.cfg.length).foldlM (fun (proj : NdArray ℚ) i =>
    if i ≠ a1 ∧ i ≠ a2 then proj.sumAxis i else pure proj) s.data

/-- Loop over the parameters in `Spectra.rebin`, `/repo/echidna/core/spectra.py:363-369`: each
axis is updated as soon as it has been checked. `newBins` entries are
non-negative integers (simplification). -/
def rebinLoop : List SPar → List ℕ → List SPar × Option PyErr
  | p :: ps, n :: ns =>
    if n = 0 then (p :: ps, some .zeroDivision)
    else if p.bins % n ≠ 0 then (p :: ps, some .valueError)
    else
      let r := rebinLoop ps ns
      ({ p with bins := n } :: r.1, r.2)
  | ps, _ => (ps, none)

/-- `compression_pairs` flattened, `/repo/echidna/core/spectra.py:371-373`. -/
def compression (newBins shape : List ℕ) : List ℕ :=
  (List.zipWith (fun d c => [d, c / d]) newBins shape).flatten

/-- Reshape and sums of `Spectra.rebin`, `/repo/echidna/core/spectra.py:374-376`. -/
def rebinData (a : NdArray ℚ) (newBins : List ℕ) : Except PyErr (NdArray ℚ) := do
  let b ← a.reshape (compression newBins a.shape)
  (List.range newBins.length).foldlM (fun (c : NdArray ℚ) i => c.sumAxisNeg (i + 1)) b

/-- `Spectra.rebin`, `/repo/echidna/core/spectra.py:343-376`. -/
def rebin (s : Spectrum) (newBins : List ℕ) : Outcome :=
  if newBins.length ≠ s.cfg.length then .fail s .valueError
  else
    let r := rebinLoop s.cfg newBins
    match r.2 with
    | some e => .fail { s with cfg := r.1 } e
    | none =>
      match rebinData s.data newBins with
      | .error e => .fail { s with cfg := r.1 } e
      | .ok d => .ok { s with cfg := r.1, data := d }

/-- One round of the validation loop of `Spectra.shrink`,
`/repo/echidna/core/spectra.py:453-476`. -/
def shrinkCheck (s : Spectrum) (arg : PyStr × ℚ) : Except PyErr Unit := do
  let highLow := lastPart arg.1
  let par := dropRight arg.1 (highLow.length + 1)
  match s.cfg.find? (fun p => p.name = par) with
  | none => throw .indexError
  | some p =>
    if highLow = lit "low" then
      if npClose arg.2 p.low then pure ()
      else if arg.2 < p.low then throw .valueError
    else if highLow = lit "high" then
      if npClose arg.2 p.high then pure ()
      else if p.high < arg.2 then throw .valueError
    else throw .indexError

/-- New edges and slice bounds of one axis in `Spectra.shrink` for requested bounds
`kl`, `kh`, `/repo/echidna/core/spectra.py:487-528`. -/
def shrinkAxis (p : SPar) (kl kh : ℚ) : SPar × (ℤ × ℤ) :=
  let w := p.width
  let lowBin := pyInt ((kl - p.low) / w)
  let highBin := ⌈(kh - p.low) / w⌉
  let newLow := p.round (p.low + lowBin * w)
  let newHigh := p.round (p.low + highBin * w)
  let hi : ℤ × ℚ :=
    if 99 / 100 * w < |newHigh - kh| then
      if 0 < newHigh - kh then
        (highBin - 1, p.round (p.low + (highBin - 1 : ℤ) * w))
      else (highBin + 1, p.round (p.low + (highBin + 1 : ℤ) * w))
    else (highBin, newHigh)
  let lo : ℤ × ℚ :=
    if 99 / 100 * w < |newLow - kl| then
      if 0 < newLow - kl then (lowBin - 1, p.low + (lowBin - 1 : ℤ) * w)
      else (lowBin + 1, p.low + (lowBin + 1 : ℤ) * w)
    else (lowBin, newLow)
  ({ p with low := lo.2, high := hi.2, bins := hi.1 - lo.1 }, (lo.1, hi.1))

/-- One round of the main loop of `Spectra.shrink`, `/repo/echidna/core/spectra.py:479-528`:
default bounds, division by the width, `shrinkAxis`. -/
def shrinkPar (kw : List (PyStr × ℚ)) (p : SPar) : Except PyErr (SPar × (ℤ × ℤ)) :=
  let kl := (assoc kw (p.name ++ lit "_low")).getD p.low
  let kh := (assoc kw (p.name ++ lit "_high")).getD p.high
  if p.bins = 0 ∨ p.width = 0 then .error .zeroDivision
  else .ok (shrinkAxis p kl kh)

/-- Main loop of `Spectra.shrink`, `/repo/echidna/core/spectra.py:479-528`; each axis is
updated before the next one is looked at. -/
def shrinkLoop (kw : List (PyStr × ℚ)) : List SPar → List SPar × List (ℤ × ℤ) × Option PyErr
  | [] => ([], [], none)
  | p :: ps =>
    match shrinkPar kw p with
    | .error e => (p :: ps, [], some e)
    | .ok (p', b) =>
      let r := shrinkLoop kw ps
      (p' :: r.1, b :: r.2.1, r.2.2)

/-- `Spectra.shrink`, `/repo/echidna/core/spectra.py:425-536`. -/
def shrink (s : Spectrum) (kw : List (PyStr × ℚ)) : Outcome :=
  match kw.forM (shrinkCheck s) with
  | .error e => .fail s e
  | .ok _ =>
    let r := shrinkLoop kw s.cfg
    match r.2.2 with
    | some e => .fail { s with cfg := r.1 } e
    | none => .ok { s with cfg := r.1, data := s.data.slice r.2.1 }

/-- `Spectra.cut`, `/repo/echidna/core/spectra.py:140-166`. -/
def cut (s : Spectrum) (kw : List (PyStr × ℚ)) : Outcome :=
  let initialCount := s.sum
  let o := s.shrink kw
  match o.err with
  | some _ => o
  | none =>
    if initialCount = 0 then .fail o.st .zeroDivision
    else .ok { o.st with numDecays := o.st.numDecays * (o.st.sum / initialCount) }

/-- `Spectra.shrink_to_roi`, `/repo/echidna/core/spectra.py:538-563`. The entry of `_rois` is
put in front (dictionary assignment; the newest entry of a key wins). -/
def shrinkToRoi (s : Spectrum) (lower upper : ℚ) (dimension : PyStr) : Outcome :=
  let integralFull := s.sum
  let o := s.shrink [(dimension ++ lit "_low", lower), (dimension ++ lit "_high", upper)]
  match o.err with
  | some _ => o
  | none =>
    if integralFull = 0 then .fail o.st .zeroDivision
    else
      match o.st.getPar dimension with
      | .error e => .fail o.st e
      | .ok par => .ok { o.st with
          rois := (dimension, ⟨par.low, par.high, o.st.sum / integralFull⟩) :: o.st.rois }

end Spectrum

/-- Model of the loop of `/repo/echidna/scripts/combine_hdf5.py:32-40`: add every further
spectrum to the first one; an exception ends the script. -/
def combine (s : Spectrum) : List Spectrum → Outcome
  | [] => .ok s
  | t :: ts => match (s.add t).err with
    | some e => .fail (s.add t).st e
    | none => combine (s.add t).st ts

end Verif
