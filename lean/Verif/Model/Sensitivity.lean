import Verif.Model.FitInit

/-!
# Sensitivity studies

`/repo/echidna/scripts/klz_majoron_limits.py:272-283`: the data of a constructed fit, which hold
nothing so far, are made from its own backgrounds.
-/

namespace Verif

namespace Session

/-- One floating background, `/repo/echidna/scripts/klz_majoron_limits.py:279-281`. `rateOf r` is the
parameter that the fit configuration of the spectrum `r` has under the name `rate`, if any (a missing
name is a `KeyError`, `/repo/echidna/core/config.py:112`). Priors are reals, converted to floats by
`rnd`. Simplification: the spectrum has a fit configuration, and the prior is a number. -/
noncomputable def studyRound (rnd : ℝ → ℚ) (rateOf : ℕ → Option ℕ) (d r : ℕ) : FitM Unit :=
  match rateOf r with
  | none => FitM.raise .keyError
  | some p => do
    let prior ← FitM.read (fun st => (st.params p).prior)
    FitM.call r (fun s => s.scale (rnd prior))
    addTo d r

/-- Making the data, `/repo/echidna/scripts/klz_majoron_limits.py:274-281`. A fit without data, fixed
background or floating backgrounds has `None` in their place: the data then have no method `add`,
adding `None` asks it for `_data` (`/repo/echidna/core/spectra.py:84`), and `None` is not iterable. -/
noncomputable def studyData (rnd : ℝ → ℚ) (rateOf : ℕ → Option ℕ) (ses : Session) : FitM ℕ :=
  match ses.data, ses.fixed with
  | some d, some b => do
    addTo d b
    match ses.floating with
    | none => FitM.raise .typeError
    | some rs => do
      rs.forM (studyRound rnd rateOf d)
      pure d
  | _, _ => FitM.raise .attributeError

/-- The sensitivity study, `/repo/echidna/scripts/klz_majoron_limits.py:272-283`. -/
noncomputable def study (rnd : ℝ → ℚ) (rateOf : ℕ → Option ℕ) (ses : Session) (st : FitState) :
    SesResult Unit :=
  match ses.studyData rnd rateOf st with
  | (st, .error e) => ((ses, st), .error e)
  | (st, .ok d) => ses.setData st d

end Session

end Verif
