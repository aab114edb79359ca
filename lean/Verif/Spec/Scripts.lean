import Verif.Model.Scripts
import Verif.Spec.Store
import Verif.Spec.Shift
import Verif.Spec.FillSpectrum

/-! # Vocabulary of the properties of the scripts -/

namespace Verif

/-- The file at `path` holds the spectrum `s`: loading it gives `s`. -/
def Holds (ft : FloatText) (disk : Disk) (path : PyStr) (s : FullSpec) : Prop :=
  ∃ f, disk path = some f ∧ load ft path f = .ok s

/-- No file other than the one at `path` has changed. -/
def OnlyAt (path : PyStr) (disk disk' : Disk) : Prop := ∀ p, p ≠ path → disk' p = disk p

/-- A spectrum that can be saved: axes as in `AxesOk`, a fit configuration of rates if there
is one, and a plotting style. -/
structure Savable (s : FullSpec) : Prop where
  axes : AxesOk s
  fit : ∀ fc, s.fitConfig = some fc → RateConfig fc.spectraName fc
  style : s.style.isEmpty = false

/-- What the scripts are given: the file at `path` holds the spectrum `s` of background `b`,
which can be saved. -/
structure Input (ft : FloatText) (disk : Disk) (path : PyStr) (s : FullSpec) (b : PyStr) : Prop where
  holds : Holds ft disk path s
  savable : Savable s
  wf : s.core.WF
  background : s.background = some b
  named : b ≠ []

/-- The same labels, style and fit parameters; `b` is the name of the background. The fit
configuration belongs to the spectrum it is saved with. -/
structure SameLabels (b : PyStr) (s t : FullSpec) : Prop where
  config : t.config.name = s.config.name
  pars : t.config.getPars = s.config.getPars
  background : t.background = some b
  bipo : t.bipo = s.bipo
  style : t.style = s.style
  rois : t.rois = s.rois
  fit : SameFit (s.fitConfig.map (fun fc => { fc with spectraName := t.name })) t.fitConfig

/-- The path `p` is a directory (empty, or with a slash at the end), a file name, a dot and
an extension. -/
structure IsPath (p dir stem ext : PyStr) : Prop where
  eq : p = dir ++ (stem ++ '.' :: ext)
  dir : dir = [] ∨ dir.getLast? = some '/'
  stem : '/' ∉ stem
  ext : '/' ∉ ext ∧ '.' ∉ ext

/-- `out` is the path `input` with `suffix` in place of the dot and the extension. -/
def Beside (input suffix out : PyStr) : Prop :=
  ∃ dir stem ext, IsPath input dir stem ext ∧ out = dir ++ stem ++ suffix

/-- The same for a path with a directory, one slash after it and a name that does not consist of
dots. -/
def BesideIn (input suffix out : PyStr) : Prop :=
  ∃ d stem ext, IsPath input (d ++ lit "/") stem ext ∧ d ≠ [] ∧ d.getLast? ≠ some '/' ∧
    (∃ c ∈ stem, c ≠ '.') ∧ out = d ++ lit "/" ++ stem ++ suffix

/-- The path asked for, or else the default. -/
def Target (asked : Option PyStr) (default : PyStr → Prop) (out : PyStr) : Prop :=
  (asked = some out ∧ out ≠ []) ∨ ((asked = none ∨ asked = some []) ∧ default out)

/-- `u` is the text `t` without a final `.0`. -/
def NumText (t u : PyStr) : Prop := t = u ++ lit ".0" ∨ (¬ lit ".0" <:+ t ∧ u = t)

/-- The output in the directory asked for, or else beside the input. -/
def InDest (isdir : PyStr → Bool) (dest : Option PyStr) (input suffix out : PyStr) : Prop :=
  (∃ d d' dir stem ext, dest = some d ∧ d ≠ [] ∧ isdir d = true ∧ IsPath input dir stem ext ∧
    (∃ c ∈ stem, c ≠ '.') ∧ ((d.getLast? = some '/' ∧ d' = d) ∨ (d.getLast? ≠ some '/' ∧
      d' = d ++ lit "/")) ∧ out = d' ++ stem ++ suffix) ∨
  ((dest = none ∨ dest = some []) ∧ BesideIn input suffix out)

/-- The bounds asked for on the command line: lower bounds and upper bounds of the parameters.
An option that was not given is the empty list. -/
def boundsOf (pars : List PyStr) (low up : List ℚ) : List (PyStr × ℚ) :=
  (pars.zip low).map (fun e => (e.1 ++ lit "_low", e.2)) ++
    (pars.zip up).map (fun e => (e.1 ++ lit "_high", e.2))

/-! ### smearing -/

/-- A way of smearing by weights: what is appended to the name, the width at a value, the weight of
a value given the mean and the width, and the number of widths taken into account. -/
structure Weighting where
  suffix : PyStr
  sigma : ℚ → ℚ
  weight : ℚ → ℚ → ℚ → ℚ
  ns : ℚ

/-- The smearing object weighs in this way. -/
def SmearObj.Weighs (o : SmearObj) (w : Weighting) : Prop :=
  ∀ s par, o.weighted s par = s.weightedSmear w.suffix w.sigma w.weight w.ns par

/-- The axis `p` can be smeared without loss (see C32): positive weights, at least two bins, no
negative window, and a window of more than half a bin at the last bin. -/
def Lossless (w : Weighting) (p : SPar) : Prop :=
  (∀ x m g, 0 < w.weight x m g) ∧ 2 ≤ p.bins ∧
  (∀ i < p.bins.toNat, 0 ≤ w.ns * w.sigma (p.centre i)) ∧
  (p.high - p.low) / p.bins / 2 < w.ns * w.sigma (p.centre (p.bins.toNat - 1))

/-- What is appended to the name by the smearing of the axis with a name. -/
noncomputable def smearSuffix (e : Weighting) (r : Option Weighting) (n : PyStr) : PyStr :=
  open Classical in
  if lit "energy" <:+: n then e.suffix
  else match r with
    | some r => if lit "radial" <:+: n then r.suffix else []
    | none => []

/-- The names of the axes that are smeared. -/
def Smeared (radial : Bool) (n : PyStr) : Prop :=
  lit "energy" <:+: n ∨ (radial = true ∧ lit "radial" <:+: n)

/-- `g` does not depend on the coordinates on the axes with names in `sm`. -/
def IgnoresAxes (cfg : List SPar) (sm : PyStr → Prop) (g : List ℕ → ℚ) : Prop :=
  ∀ k p, cfg[k]? = some p → sm p.name → ∀ idx j, g (idx.set k j) = g idx

/-- The axis at `k` is the only one whose name contains `word`. -/
def OnlyAxis (cfg : List SPar) (word : PyStr) (k : ℕ) : Prop :=
  ∀ j p, cfg[j]? = some p → (word <:+: p.name ↔ j = k)

/-- The output of `dump_smeared_energy.py`: as `InDest`, or in the current directory for an input
without directory. -/
def InDestOrHere (isdir : PyStr → Bool) (dest : Option PyStr) (input suffix out : PyStr) : Prop :=
  InDest isdir dest input suffix out ∨
  ((dest = none ∨ dest = some []) ∧ ∃ stem ext, IsPath input [] stem ext ∧ (∃ c ∈ stem, c ≠ '.') ∧
    out = lit "./" ++ stem ++ suffix)

/-- A spectrum without its regions of interest. -/
def Spectrum.noRois (s : Spectrum) : Spectrum := { s with rois := [] }

/-- The disk after a script that has ended in one way or another. -/
def Leaves (e : RunEnd) (disk : Disk) : Prop := e = .done disk ∨ ∃ why, e = .stopped disk why

/-- The numbers of bins of a spectrum. -/
def FullSpec.sameBins (s : FullSpec) : List ℕ := s.core.cfg.map (fun p => p.bins.toNat)

/-! ### filling -/

/-- A configuration of distinct axes, each with a range and bins. -/
structure AxesConfig (c : SpectraConfig) : Prop where
  filled : c.pars ≠ []
  distinct : c.getPars.Nodup
  names : ∀ e ∈ c.pars, e.2.name = e.1
  axes : ∀ e ∈ c.pars, e.2.WF

/-- The outer radius in use: a radius of zero counts as not given, and another one needs an axis
`radial3`. -/
def OuterUsed (c : SpectraConfig) (given used : Option ℝ) : Prop :=
  ((given = none ∨ given = some 0) ∧ used = none) ∨
  ∃ r, given = some r ∧ r ≠ 0 ∧ used = some r ∧ lit "radial3" ∈ getDims c.getPars

/-- The entries of an ntuple that are looked at (see C66). -/
def keptEntries (bipo : Bool) (file : Ntuple) : List NtEntry :=
  if bipo then followed file else file.map Prod.snd

/-- A spectrum that was filled and then saved: `pts` are the points of `n` entries, `b` is the name
of the background. -/
structure SavedFill (name : PyStr) (config : SpectraConfig) (bipo : Bool) (n : ℕ)
    (pts : List (List (PyStr × ℚ))) (b : PyStr) (t : FullSpec) : Prop where
  core : Filled (Spectrum.new name n (config.pars.map Prod.snd)) t.core pts
  config : t.config = config
  background : t.background = some b
  bipo : t.bipo = if bipo then 1 else 0
  rois : t.rois = []
  fit : t.fitConfig = none

/-! ### combining -/

/-- The file at `path` holds a spectrum with the axes of `s`. -/
structure LikeInput (ft : FloatText) (disk : Disk) (s : FullSpec) (path : PyStr) (t : FullSpec) :
    Prop where
  holds : Holds ft disk path t
  axes : t.core.cfg = s.core.cfg
  shape : t.data.shape = s.data.shape

end Verif
