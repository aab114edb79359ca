import Verif.Model.FitSession
import Verif.Model.FitGrid
import Verif.Model.Limit

/-!
# Limits set with a fit

`/repo/echidna/limit/limit.py` together with the fit it uses: the loops over the signal
scalings change the signal spectrum, the fit and its grid search. `Model/Limit` has the same
method for a fitter without state.
-/

namespace Verif

/-- A fit with its objects and its grid search (`_minimiser`, which `check_fitter` asks for). -/
structure Fitter where
  ses : Session
  st : FitState
  search : GridSearch

/-- What `Fit.fit` returns: the statistic as a row of numbers, and with floating backgrounds the
penalty, too (then the result is a tuple). -/
structure FitReturn where
  stat : List ℝ
  pen : Option (List ℝ)

/-- The numbers in a test statistic. -/
def StatValue.row : StatValue → List ℝ
  | .total v => [v]
  | .bins l => l

namespace Fitter

/-- `Fit.fit`, `/repo/echidna/fit/fit.py:423-445`, with the grid search of the fitter. The contents
of the search after an exception are not modelled. -/
noncomputable def call (env : FitEnv) (rnd : ℝ → ℚ) (w : Fitter) : Fitter × Except PyErr FitReturn :=
  match w.ses.fit (fun f => fitGrid env f rnd w.search) w.st with
  | ((ses, st), .error e) => (⟨ses, st, w.search⟩, .error e)
  | ((ses, st), .ok (.inl v)) => (⟨ses, st, w.search⟩, .ok ⟨v.row, none⟩)
  | ((ses, st), .ok (.inr (g, raw, pen))) => (⟨ses, st, g⟩, .ok ⟨raw.ravel, some pen.ravel⟩)

/-- `fit_results.get_summary()` of the minimiser, `/repo/echidna/fit/fit_results.py:68-82`: the
penalty terms. Before the first search they are `None`, which becomes nan in the array of
penalty terms and ends the evaluation in this model. -/
def summaryPens (g : GridSearch) : Except PyErr (List ℝ) :=
  g.pars.mapM (fun p => match p.penaltyTerm with
    | some t => .ok t
    | none => .error .valueError)

/-- A fit in `Limit.get_limit`, `/repo/echidna/limit/limit.py:165-177`: of a tuple the first
entry, and the penalty terms of the summary. -/
noncomputable def fit (env : FitEnv) (rnd : ℝ → ℚ) (w : Fitter) : Fitter × Except PyErr FitOut :=
  match w.call env rnd with
  | (w, .error e) => (w, .error e)
  | (w, .ok r) => (w, do
      let pens ← summaryPens w.search
      .ok ⟨r.stat, pens⟩)

/-- `Limit.__init__`, `/repo/echidna/limit/limit.py:39-55`: check the fit configuration of the
signal, make it the signal of the fit, dump the configuration of the fit. -/
def limitInit (w : Fitter) (r : ℕ) (shrink : Bool) : Fitter × Except PyErr Unit :=
  if (w.st.objs r).fit = none then (w, .error .compatibility)
  else
    match w.ses.setSignal w.st r shrink with
    | ((ses, st), .error e) => (⟨ses, st, w.search⟩, .error e)
    | ((ses, st), .ok _) => (⟨ses, st, w.search⟩, ses.dumpConfig st)

/-- Preparing the signal for a scaling in `Limit.get_limit`, `/repo/echidna/limit/limit.py:156-163`;
`r` is the signal of the limit. -/
noncomputable def atScale (rnd : ℝ → ℚ) (r : ℕ) (scale : ℝ) (w : Fitter) :
    Fitter × Except PyErr Unit :=
  match signalAt scale with
  | none => ({ w with ses := w.ses.removeSignal }, .ok ())
  | some x =>
    match w.ses.signal with
    | none =>
      match w.ses.setSignal w.st r false with
      | ((ses, st), .error e) => (⟨ses, st, w.search⟩, .error e)
      | ((ses, st), .ok _) =>
        let o := FitM.call r (fun s => s.scale (rnd x)) st
        (⟨ses, o.1, w.search⟩, o.2)
    | some q =>
      let o := FitM.call q (fun s => s.scale (rnd x)) w.st
      (⟨w.ses, o.1, w.search⟩, o.2)

/-- The statistic without signal, `/repo/echidna/limit/limit.py:123-137`; cf. `minStatOf`. -/
noncomputable def minStat (env : FitEnv) (rnd : ℝ → ℚ) (w : Fitter) : Fitter × Except PyErr (List ℝ) :=
  match ({ w with ses := w.ses.removeSignal }).fit env rnd with
  | (w, .error e) => (w, .error e)
  | (w, .ok o) => (w, .ok o.stat)

open Classical in
/-- `min_stat`, `/repo/echidna/limit/limit.py:123-137`. -/
noncomputable def minStatGiven (env : FitEnv) (rnd : ℝ → ℚ) (w : Fitter) :
    Option (List ℝ) → Fitter × Except PyErr (List ℝ)
  | some [x] => if x = 0 then w.minStat env rnd else (w, .ok [x])
  | some (_ :: _ :: _) => (w, .error .valueError)
  | _ => w.minStat env rnd

/-- The loop over the scalings, `/repo/echidna/limit/limit.py:153-182`: statistics relative to `m`
and penalty terms. -/
noncomputable def limitRows (env : FitEnv) (rnd : ℝ → ℚ) (r : ℕ) (m : List ℝ) :
    List ℝ → Fitter → Fitter × Except PyErr (List (List ℝ × List ℝ))
  | [], w => (w, .ok [])
  | x :: xs, w =>
    match w.atScale rnd r x with
    | (w, .error e) => (w, .error e)
    | (w, .ok _) =>
      match w.fit env rnd with
      | (w, .error e) => (w, .error e)
      | (w, .ok o) =>
        match setRow m.length o.stat with
        | .error e => (w, .error e)
        | .ok row =>
          match limitRows env rnd r m xs w with
          | (w, .error e) => (w, .error e)
          | (w, .ok rows) => (w, .ok ((List.zipWith (fun a b => a - b) row m, o.pens) :: rows))

/-- `Limit.get_limit`, `/repo/echidna/limit/limit.py:89-300`; cf. `getLimit`. -/
noncomputable def limitOf (env : FitEnv) (rnd : ℝ → ℚ) (r : ℕ) (scales : List ℝ)
    (sigmas : List (Option ℝ)) (w : Fitter) (minStat : Option (List ℝ)) (limit : ℝ) :
    Fitter × Except PyErr ℝ :=
  match w.minStatGiven env rnd minStat with
  | (w, .error e) => (w, .error e)
  | (w, .ok m) =>
    match limitRows env rnd r m scales w with
    | (w, .error e) => (w, .error e)
    | (w, .ok rows) => (w, do
        let minBin ← npArgmin (rows.map Prod.fst).flatten
        readLimit scales sigmas m.length (rows.map (fun r => r.1.sum + r.2.sum)) minBin limit)

/-- Preparing the signal in `Limit.get_statistics`, `/repo/echidna/limit/limit.py:311-315`. -/
noncomputable def statScale (rnd : ℝ → ℚ) (r : ℕ) (scale : ℝ) (w : Fitter) :
    Fitter × Except PyErr Unit :=
  match signalAt scale with
  | none => ({ w with ses := w.ses.removeSignal }, .ok ())
  | some x =>
    match FitM.call r (fun s => s.scale (rnd x)) w.st with
    | (st, .error e) => (⟨w.ses, st, w.search⟩, .error e)
    | (st, .ok _) =>
      match w.ses.setSignal st r false with
      | ((ses, st), res) => (⟨ses, st, w.search⟩, res)

/-- `Limit.get_statistics`, `/repo/echidna/limit/limit.py:302-317`: what the fits return. -/
noncomputable def statistics (env : FitEnv) (rnd : ℝ → ℚ) (r : ℕ) :
    List ℝ → Fitter → Fitter × Except PyErr (List FitReturn)
  | [], w => (w, .ok [])
  | x :: xs, w =>
    match w.statScale rnd r x with
    | (w, .error e) => (w, .error e)
    | (w, .ok _) =>
      match w.call env rnd with
      | (w, .error e) => (w, .error e)
      | (w, .ok o) =>
        match statistics env rnd r xs w with
        | (w, .error e) => (w, .error e)
        | (w, .ok l) => (w, .ok (o :: l))

end Fitter

end Verif
