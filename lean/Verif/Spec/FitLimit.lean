import Verif.Spec.FitSession
import Verif.Spec.FitGrid
import Verif.Spec.Limit
import Verif.Spec.ConvScale
import Verif.Model.FitLimit

/-! Specification of limits set with a fit. -/

namespace Verif

/-- The objects after scaling the spectrum `r` to `n` decays. -/
def FitState.scaled (st : FitState) (r : ℕ) (n : ℚ) : FitState :=
  (FitM.call r (fun s => s.scale n) st).1

/-- The fit without signal. -/
def Fitter.without (w : Fitter) : Fitter := { w with ses := { w.ses with signal := none } }

/-- The fit with the signal `r`, as it is at the start. -/
def Fitter.with (w : Fitter) (r : ℕ) : Fitter := { w with ses := { w.ses with signal := some r } }

/-- The fit with the signal `r` scaled to `n` decays, and nothing else done before. -/
def Fitter.withScaled (w : Fitter) (r : ℕ) (n : ℚ) : Fitter :=
  { w.with r with st := w.st.scaled r n }

/-- What the fit gives without signal, or with the signal scaled to a number of decays, when it is
the first thing done. -/
noncomputable def Fitter.fresh (env : FitEnv) (rnd : ℝ → ℚ) (r : ℕ) (w : Fitter) :
    Option ℝ → Except PyErr FitOut
  | none => (w.without.fit env rnd).2
  | some x => ((w.withScaled r (rnd x)).fit env rnd).2

/-- What `fit()` returns then. -/
noncomputable def Fitter.freshReturn (env : FitEnv) (rnd : ℝ → ℚ) (r : ℕ) (w : Fitter) :
    Option ℝ → Except PyErr FitReturn
  | none => (w.without.call env rnd).2
  | some x => ((w.withScaled r (rnd x)).call env rnd).2

open Classical in
/-- The number of decays that a scaling stands for: none when it is close to zero. -/
noncomputable def decaysFor (scale : ℝ) : Option ℝ := if |scale| ≤ 1e-8 then none else some scale

/-- The checks have been passed, or will be. -/
def Fitter.Passes (w : Fitter) : Prop := w.ses.checked = true ∨ (w.ses.checkFitter w.st).2 = .ok ()

/-- The scalings that are tested: those not close to zero stay different from zero as floats. -/
def Testable (rnd : ℝ → ℚ) (scales : List ℝ) : Prop :=
  ∀ x ∈ scales, ¬ npCloseReal x 0 → rnd x ≠ 0

/-- What is supposed of the signal of a limit: it is the signal of the fit (or removed at the
moment), it is a spectrum of its own and represents some decays, and the fit passes its checks
with it and without it. -/
structure LimitSignal (r : ℕ) (w : Fitter) : Prop where
  set : w.ses.signal = none ∨ w.ses.signal = some r
  pars : ∃ ps, w.ses.signalPars = some ps ∧ roiPars w.ses.roi (w.st.view r) = .ok ps
  decays : (w.st.view r).numDecays ≠ 0
  apart : (∃ d, w.ses.data = some d ∧ d ≠ r) ∧ w.ses.fixed ≠ some r
  passes : w.without.Passes ∧ (w.with r).Passes

/-- A fit by grid search, as it is supposed for setting limits: every evaluation that is asked for
succeeds (`vss` are the values of the fit parameters). With global parameters (the convolved
signal is then kept from fit to fit) interpolations are supposed to follow multiplied contents, and
decays to be positive. -/
structure GridLimit (env : FitEnv) (rnd : ℝ → ℚ) (r : ℕ) (w : Fitter) (vss : List (List ℝ))
    (scales : List ℝ) : Prop where
  floating : w.ses.floating.getD [] ≠ []
  minimiser : w.ses.minimiser ≠ none
  ready : FitReady env (w.with r).ses.toFit w.st
  globals : w.ses.parsOf true ≠ [] → SplineHom env.spline ∧ 0 < (w.st.view r).numDecays ∧
    ∀ x ∈ scales, ¬ npCloseReal x 0 → 0 < rnd x
  search : w.search.Ready
  nodup : ∀ vs ∈ vss, vs.Nodup
  off : ∃ F P, FitGridSetup env w.without.ses.toFit w.st rnd w.search vss F P
  on : ∀ x ∈ scales, ¬ npCloseReal x 0 →
    ∃ F P, FitGridSetup env (w.with r).ses.toFit (w.st.scaled r (rnd x)) rnd w.search vss F P

/-- The fits for which limits are examined: without floating backgrounds, or by grid search. -/
def LimitFit (env : FitEnv) (rnd : ℝ → ℚ) (r : ℕ) (w : Fitter) (scales : List ℝ) : Prop :=
  w.ses.floating.getD [] = [] ∨ ∃ vss, GridLimit env rnd r w vss scales

/-- A call of a method of `Limit` with the values `scales` of the signal's rate. -/
inductive LimitCall
  | limit (scales : List ℝ) (sigmas : List (Option ℝ)) (minStat : Option (List ℝ)) (level : ℝ)
  | statistics (scales : List ℝ)

/-- The scalings of a call. -/
def LimitCall.scales : LimitCall → List ℝ
  | .limit scales _ _ _ => scales
  | .statistics scales => scales

/-- The fit after a call, whether it raises or not. -/
noncomputable def LimitCall.perform (env : FitEnv) (rnd : ℝ → ℚ) (r : ℕ) (w : Fitter) :
    LimitCall → Fitter
  | .limit scales sigmas minStat level => (w.limitOf env rnd r scales sigmas minStat level).1
  | .statistics scales => (w.statistics env rnd r scales).1

/-- The fit after several calls. -/
noncomputable def Fitter.afterCalls (env : FitEnv) (rnd : ℝ → ℚ) (r : ℕ) (w : Fitter)
    (calls : List LimitCall) : Fitter := calls.foldl (LimitCall.perform env rnd r) w

end Verif
