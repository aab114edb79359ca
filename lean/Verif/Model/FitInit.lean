import Verif.Model.FitSession

/-!
# The constructor of `Fit`

`/repo/echidna/fit/fit.py:78-151`, on top of the setters in `Model/FitSession`.
-/

namespace Verif

/-- The arguments of `Fit.__init__`, `/repo/echidna/fit/fit.py:78-81`, with their defaults. Empty
dictionaries and lists of backgrounds are as good as `None` (they are tested for truth). The
fit configuration is given by its parameters; `None` makes an empty one. The arguments
about pre-made spectra are left out (see `Model/FitPreMade`). -/
structure FitArgs where
  roi : Dict (ℚ × ℚ)
  stat : Stat
  /-- the flag of the test statistic -/
  statPerBin : Bool := false
  config : Dict (ℕ × Bool) := []
  data : Option ℕ := none
  fixed : List (ℕ × ℚ) := []
  floating : List ℕ := []
  signal : Option ℕ := none
  shrink : Bool := true
  perBin : Bool := false
  /-- the flag of a given minimiser -/
  minimiser : Option Bool := none
  singleBin : Bool := false

namespace Session

/-- The attributes before any spectrum is set, `/repo/echidna/fit/fit.py:82-91`. -/
def bare (a : FitArgs) : Session :=
  setRoi { roi := [], stat := a.stat, statPerBin := a.statPerBin, config := a.config } a.roi

/-- `if x: self.set_x(x)`: a setter for an argument that may be missing. -/
def setIf {α : Type} (set : Session → FitState → α → SesResult Unit) (o : Option α)
    (ses : Session) (st : FitState) : SesResult Unit :=
  match o with
  | none => ((ses, st), .ok ())
  | some x => set ses st x

/-- Two parts of the constructor, one after the other; an exception ends it. -/
def thenDo (r : SesResult Unit) (f : Session → FitState → SesResult Unit) : SesResult Unit :=
  match r with
  | (w, .error e) => (w, .error e)
  | (w, .ok _) => f w.1 w.2

/-- A dictionary or list that is not empty. -/
def nonEmpty {α : Type} (l : List α) : Option (List α) := if l = [] then none else some l

/-- The setters called by the constructor, `/repo/echidna/fit/fit.py:93-130`: all of them with
their default `shrink=True`. Simplification: `check_values` of the parameters (122-123), which
only warns (C78), is left out; the values of every parameter are taken to exist. -/
def initSpectra (keyOf : ℕ → PyStr) (a : FitArgs) (st : FitState) : SesResult Unit :=
  thenDo (thenDo (thenDo
    (setIf (fun ses st r => ses.setData st r) a.data (bare a) st)
    (setIf (fun ses st d => ses.makeFixed st d) (nonEmpty a.fixed)))
    (setIf (fun ses st rs => setFloating keyOf ses st rs) (nonEmpty a.floating)))
    (setIf (fun ses st r => ses.setSignal st r) a.signal)

/-- `if shrink: self.shrink_all()`, `/repo/echidna/fit/fit.py:132-133`. -/
def shrinkAllIf (shrink : Bool) (ses : Session) (st : FitState) : SesResult Unit :=
  if shrink = true then
    match ses.shrinkAll st with
    | (st, res) => ((ses, st), res)
  else ((ses, st), .ok ())

/-- The end of the constructor, `/repo/echidna/fit/fit.py:135-151`: `CompatibilityError` and
`IndexError` are caught and leave the fit without minimiser. -/
def initMinimiser (a : FitArgs) (ses : Session) (st : FitState) : SesResult Unit :=
  let ses := { ses with perBin := a.perBin }
  match setMinimiser ses st a.minimiser with
  | (ses, .ok _) => (({ ses with singleBin := a.singleBin }, st), .ok ())
  | (ses, .error e) =>
    if e = .compatibility ∨ e = .indexError then
      (({ ses with minimiser := none, singleBin := a.singleBin }, st), .ok ())
    else ((ses, st), .error e)

/-- `Fit.__init__`, `/repo/echidna/fit/fit.py:78-151`: the attributes and objects afterwards.
After an exception there is no fit, but the objects may have changed. -/
def init (keyOf : ℕ → PyStr) (a : FitArgs) (st : FitState) : FitState × Except PyErr Session :=
  match thenDo (thenDo (initSpectra keyOf a st) (shrinkAllIf a.shrink)) (initMinimiser a) with
  | (w, .error e) => (w.2, .error e)
  | (w, .ok _) => (w.2, .ok w.1)

end Session

end Verif
