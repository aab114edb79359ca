import Verif.Model.Spectra
import Verif.Model.Utilities

/-!
# The KamLAND-Zen Majoron limits script

Model of `main` in `/repo/echidna/scripts/klz_majoron_limits.py:103-375` up to the point where it
always stops. The files it loads (`store.load`, see `Model/Store`) and the fit (`Model/FitInit`,
`Model/FitGrid`) are parameters. Spectra are values, so the lists passed to `main` are supposed to
hold distinct objects; what `main` does to them is returned. Logging, and reading the YAML file, are
left out. The configured name and `fit_config` only reach the fit and are part of that parameter.
-/

namespace Verif

/-! ### errors of plot grabbing -/

/-- `plot_grab_err`, `/repo/echidna/scripts/klz_majoron_limits.py:138-141`. -/
noncomputable def plotGrabErr : ℝ := Real.sqrt (3 * (4 * (5 / 1000)) ^ 2)

/-- numpy's `a + e` for a flat array `e`; results are stored by `rnd`. The flat array is
stretched or stretches the last axis if one of the two has length one. -/
def addFlat (rnd : ℝ → ℚ) (a : NdArray ℚ) (e : NdArray ℝ) : Except PyErr (NdArray ℚ) :=
  let m := e.shape.headD 0
  match a.shape.getLast? with
  | none => .ok ⟨[m], fun idx => rnd ((a.get [] : ℝ) + e.get idx)⟩
  | some d =>
    if d = m then .ok ⟨a.shape, fun idx => rnd ((a.get idx : ℝ) + e.get [idx.getLastD 0])⟩
    else if m = 1 then .ok ⟨a.shape, fun idx => rnd ((a.get idx : ℝ) + e.get [0])⟩
    else if d = 1 then
      .ok ⟨a.shape.dropLast ++ [m],
        fun idx => rnd ((a.get (idx.dropLast ++ [0]) : ℝ) + e.get [idx.getLastD 0])⟩
    else .error .valueError

/-- `spectrum._data = spectrum._data + get_array_errors(spectrum._data, lin_err, log10=True)`, e.g.
`/repo/echidna/scripts/klz_majoron_limits.py:208-210`. -/
noncomputable def grabOnce (rnd : ℝ → ℚ) (lin : ℝ) (s : Spectrum) : Except PyErr Spectrum := do
  let e ← getArrayErrors ⟨s.data.shape, fun idx => (s.data.get idx : ℝ)⟩ (some lin) none false true
  let d ← addFlat rnd s.data e
  .ok { s with data := d }

/-- Data and backgrounds, `/repo/echidna/scripts/klz_majoron_limits.py:206-215`, `231-238`,
`262-270`. -/
noncomputable def grab (rnd : ℝ → ℚ) (upper lower : Bool) (s : Spectrum) : Except PyErr Spectrum := do
  let s ← if upper then grabOnce rnd (-plotGrabErr) s else .ok s
  if lower then grabOnce rnd plotGrabErr s else .ok s

/-! ### the script -/

/-- An entry of the configuration file: missing, of the wrong type, or usable. -/
inductive Given (α : Type)
  | missing
  | wrong
  | given (x : α)

/-- The configuration file. -/
structure KlzConfig where
  roi : Given (List (PyStr × (ℚ × ℚ)))
  data : Option PyStr
  fixed : Given (List (PyStr × ℚ))
  floating : Given (List PyStr)

/-- What the fit is made from. -/
structure KlzFit where
  roi : List (PyStr × (ℚ × ℚ))
  data : Spectrum
  fixed : List (Spectrum × ℚ)
  floating : List Spectrum

/-- Loading the fixed backgrounds, `/repo/echidna/scripts/klz_majoron_limits.py:218-243`. -/
noncomputable def klzFixed (load : PyStr → Except PyErr Spectrum) (rnd : ℝ → ℚ) (upper lower : Bool) :
    Given (List (PyStr × ℚ)) → Except PyErr (List (Spectrum × ℚ))
  | .missing => .ok []
  | .wrong => .error .typeError
  | .given l => l.mapM (fun e => do
      let s ← load e.1
      let s ← grab rnd upper lower s
      .ok (s, e.2))

/-- The loop over the configured floating backgrounds,
`/repo/echidna/scripts/klz_majoron_limits.py:250-259`: the names to avoid are those of the spectra
passed to `main` and do not grow. The list as far as it was filled is returned also when loading
fails. -/
def klzAppend (load : PyStr → Except PyErr Spectrum) (names : List PyStr) :
    List Spectrum → List PyStr → List Spectrum × Except PyErr Unit
  | acc, [] => (acc, .ok ())
  | acc, f :: fs =>
    match load f with
    | .error e => (acc, .error e)
    | .ok s => klzAppend load names (if s.name ∈ names then acc else acc ++ [s]) fs

/-- The loop over all floating backgrounds, `/repo/echidna/scripts/klz_majoron_limits.py:262-270`:
spectra before a failing one are changed already. -/
noncomputable def grabAll (rnd : ℝ → ℚ) (upper lower : Bool) :
    List Spectrum → List Spectrum × Except PyErr Unit
  | [] => ([], .ok ())
  | s :: l =>
    match grab rnd upper lower s with
    | .error e => (s :: l, .error e)
    | .ok t => let r := grabAll rnd upper lower l; (t :: r.1, r.2)

/-- The configured floating backgrounds, `/repo/echidna/scripts/klz_majoron_limits.py:245-261`. -/
def klzFloating (load : PyStr → Except PyErr Spectrum) (passed : List Spectrum) :
    Given (List PyStr) → List Spectrum × Except PyErr Unit
  | .missing => (passed, .ok ())
  | .wrong => (passed, .error .typeError)
  | .given fs => klzAppend load (passed.map Spectrum.name) passed fs

/-- Everything before the fit, `/repo/echidna/scripts/klz_majoron_limits.py:127-280`: the list of
floating backgrounds afterwards, and what the fit is made from. Without a region of interest the
local variable `roi` is unbound. -/
noncomputable def klzPrepare (load : PyStr → Except PyErr Spectrum) (rnd : ℝ → ℚ)
    (upper lower : Bool) (cfg : KlzConfig) (passed : List Spectrum) :
    List Spectrum × Except PyErr KlzFit :=
  match cfg.roi with
  | .wrong => (passed, .error .typeError)
  | _ =>
    match cfg.data with
    | none => (passed, .error .valueError)
    | some path =>
      match (do let s ← load path; grab rnd upper lower s : Except PyErr Spectrum) with
      | .error e => (passed, .error e)
      | .ok data =>
        match klzFixed load rnd upper lower cfg.fixed with
        | .error e => (passed, .error e)
        | .ok fixed =>
          match klzFloating load passed cfg.floating with
          | (l, .error e) => (l, .error e)
          | (l, .ok ()) =>
            match grabAll rnd upper lower l with
            | (l, .error e) => (l, .error e)
            | (l, .ok ()) =>
              match cfg.roi with
              | .given roi => (l, .ok ⟨roi, data, fixed, l⟩)
              | _ => (l, .error .nameError)

/-- The methods of `Fit`, `/repo/echidna/fit/fit.py:78-866`. -/
def fitMethods : List PyStr :=
  [lit "__init__", lit "append_fixed_background", lit "check_all_spectra", lit "check_fit_config",
    lit "check_fitter", lit "check_roi", lit "check_spectra", lit "get_data", lit "get_fit_config",
    lit "get_fixed_background", lit "get_floating_backgrounds", lit "get_minimiser",
    lit "get_test_statistic", lit "get_roi", lit "get_roi_pars", lit "get_signal", lit "fit",
    lit "_funct", lit "load_pre_made", lit "make_fixed_background", lit "remove_signal",
    lit "set_data", lit "set_fit_config", lit "set_fixed_background",
    lit "set_floating_backgrounds", lit "set_minimiser", lit "set_test_statistic", lit "set_roi",
    lit "set_signal", lit "set_pre_made_dir", lit "shrink_all", lit "shrink_spectra",
    lit "shrink_to_data"]

/-- `main`, `/repo/echidna/scripts/klz_majoron_limits.py:103-375`: the list of floating backgrounds
afterwards, and how it ends. `fit` makes the fit, replaces the data for a sensitivity study and fits
(lines 276-286); it may change the floating backgrounds. Line 287 then calls `get_fit_results`; the
signals are loaded after it. -/
noncomputable def klzMain (load : PyStr → Except PyErr Spectrum) (rnd : ℝ → ℚ)
    (fit : KlzFit → List Spectrum × Except PyErr Unit) (upper lower : Bool) (cfg : KlzConfig)
    (passed : List Spectrum) : List Spectrum × Except PyErr Unit :=
  match klzPrepare load rnd upper lower cfg passed with
  | (l, .error e) => (l, .error e)
  | (_, .ok f) =>
    match fit f with
    | (l, .error e) => (l, .error e)
    | (l, .ok ()) =>
      if lit "get_fit_results" ∈ fitMethods then (l, .ok ()) else (l, .error .attributeError)

end Verif
