import Verif.Model.Config
import Mathlib.Data.List.DropRight

/-!
# `get_pre_convolved` of the fit parameters and the path in `Fit.load_pre_made`

`show` stands for python's `str` of a float.
-/

namespace Verif

/-- python `s[-n:]` for `n ≥ 1`, on strings and lists. -/
def lastN {α : Type} (n : ℕ) (s : List α) : List α := s.drop (s.length - n)

/-- python `s.rstrip(c)` for one character. -/
def rstrip (c : Char) (s : PyStr) : PyStr := s.rdropWhile (· = c)

/-- `value_string`, `/repo/echidna/core/parameter.py:788-790`. -/
def valueString (text : PyStr) : PyStr := rstrip '.' (rstrip '0' text)

/-- `'.hdf5'` -/
def hdf5 : PyStr := lit ".hdf5"

/-- One round of the loop over the parts of a file name,
`/repo/echidna/core/parameter.py:794-804`: the name so far and `subbed`. -/
def preStep (value ext : PyStr) (st : PyStr × Bool) (x : PyStr) : PyStr × Bool :=
  let y : PyStr × Bool :=
    if lastN 2 x = ext then (value ++ ext, true)
    else if lastN 7 x = ext ++ hdf5 then (value ++ (ext ++ hdf5), true)
    else (x, st.2)
  if lastN 5 y.1 = hdf5 then (st.1 ++ y.1, y.2) else (st.1 ++ (y.1 ++ ['_']), y.2)

/-- The new file name, `/repo/echidna/core/parameter.py:788-806`. -/
def preName (value ext filename : PyStr) : PyStr :=
  let r := (pySplit '_' filename).foldl (preStep value ext) ([], false)
  if r.2 then r.1 else dropRight r.1 5 ++ '_' :: (value ++ (ext ++ hdf5))

/-- The new directory, `/repo/echidna/core/parameter.py:774-783`. A dimension that is
`None` is in no directory. -/
def preDir (folder : PyStr) (dimension : Option PyStr) (directory : PyStr) (addedDim : Bool) :
    Except PyErr PyStr :=
  match directory.getLast? with
  | none => .error .indexError
  | some c =>
    let directory := if c ≠ '/' then directory ++ ['/'] else directory
    if addedDim then .ok (directory ++ (folder ++ ['/']))
    else
      let dirs := pySplit '/' directory
      match dirs.reverse.findIdx? (fun d => some d = dimension) with
      | none => .error .valueError
      | some idx =>
        if folder ∈ (if idx = 0 then dirs else lastN idx dirs) then .ok directory
        else .ok (directory ++ (folder ++ ['/']))

open Classical in
/-- Folder and extension: `/repo/echidna/core/parameter.py:780-787` (resolution), 898-901 and
909-913 (scale), 1012-1015 and 1023-1027 (shift). `RateParameter` has no
`get_pre_convolved`. -/
noncomputable def preKind (kind : ParKind) (value : ℝ) : Option (PyStr × PyStr) :=
  match kind with
  | .rate => none
  | .resolution => some (lit "smear", if 10 < value then lit "ly" else lit "rs")
  | .scale => some (lit "scale", lit "sc")
  | .shift => some (lit "shift", lit "sh")

/-- `get_pre_convolved`, `/repo/echidna/core/parameter.py:733-807` (resolution), 851-921 (scale),
965-1035 (shift): directory and file name. -/
noncomputable def getPreConvolved (show' : ℝ → PyStr) (kind : ParKind) (p : FitPar)
    (directory filename : PyStr) (addedDim : Bool := false) : Except PyErr (PyStr × PyStr) :=
  match kind, p.current with
  | .rate, _ => .error .attributeError
  | _, none => .error .valueError
  | k, some v =>
    match preKind k v with
    | none => .error .attributeError
    | some (folder, ext) => do
      let d ← preDir folder p.dimension directory addedDim
      .ok (d, preName (valueString (show' v)) ext filename)

/-- One round of the loop over the global parameters, `/repo/echidna/fit/fit.py:609-616`. -/
noncomputable def preStepPar (show' : ℝ → PyStr) (st : PyStr × PyStr) (p : ParKind × FitPar) :
    Except PyErr (PyStr × PyStr) :=
  match p.2.dimension with
  | none => .error .typeError
  | some dim =>
    if dim <:+: st.1 then getPreConvolved show' p.1 p.2 st.1 st.2 false
    else getPreConvolved show' p.1 p.2 (st.1 ++ (dim ++ ['/'])) st.2 true

/-- Directory and file name in `Fit.load_pre_made`, `/repo/echidna/fit/fit.py:602-616`, from the
base directory and the file name of the spectrum. Taking both from the location of the
spectrum (`os.path`) is in `Model/FitPreMade`. -/
noncomputable def prePath (show' : ℝ → PyStr) (directory filename : PyStr)
    (pars : List (ParKind × FitPar)) : Except PyErr (PyStr × PyStr) :=
  pars.foldlM (preStepPar show') (directory, filename)

end Verif
