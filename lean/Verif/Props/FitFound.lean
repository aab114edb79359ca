import Verif.Lemmas.FitFound

/-! # C137: what the first fit finds -/

namespace Verif

open Session

variable {env : FitEnv} {keyOf : ℕ → PyStr} {a : FitArgs} {ts : List Spectrum} {d : ℕ} {st : FitState}
  {rnd : ℝ → ℚ} {g : GridSearch} {vss : List (List ℝ)}

/-- **C137, best fit.** A fit by grid search is made from data, floating backgrounds with one rate each,
and perhaps fixed backgrounds and a signal. `G u` is the statistic of the data and the sum of the
spectra in the region, the floating ones scaled to the rates `u`. Then the constructor accepts its
arguments, and the first `fit()` finds the first of the combinations of the values of the rates with
the smallest sum of statistic and penalty, and returns the statistic and the penalty there. (Partial:
the suppositions of C62 and C99; at most one axis is projected out; the values of the rates are not
rounded.) -/
theorem c137_best_partial (hg : a.Given ts st) (he : a.Evaluable env keyOf d st) (hs : a.Settings st)
    (ho : a.OwnRates st) (hl : (st.view d).cfg.length ≤ a.roi.length + 1) {ns : List PyStr}
    (hns : RoiNames (st.view d).cfg (inOrder a.roi) ns) {c : ℕ → NdArray ℚ}
    (hc : ∀ r ∈ a.kept ++ a.fixed.map Prod.fst,
      RegionContents (inOrder a.roi) ns (st.view r) (c r))
    (hsearch : RateSearch rnd g vss a.floating.length)
    (hex : ∀ vs ∈ vss, ∀ x ∈ vs, ((rnd x : ℚ) : ℝ) = x) {G : List ℝ → ℝ}
    (hG : ∀ u, Combination vss u → a.stat.Total (comparedContents a.singleBin (c d))
      (comparedContents a.singleBin (a.backgroundAt st c (c d).shape (u.map rnd))) (G u)) :
    ∃ ses st' g' raw pen u, init keyOf a st = (st', .ok ses) ∧
      (ses.fit (fun f => fitGrid env f rnd g) st').2 = .ok (.inr (g', raw, pen)) ∧
      FirstBest vss (fun u => G u + a.penaltyAt st u) u ∧
      g'.pars.map FitPar.bestFit = u.map some ∧ raw.ravel = [G u] ∧
      pen.ravel = [a.penaltyAt st u] :=
  fit_found hg he hs ho hl hns hc hsearch hex hG

/-! ### a case that meets the hypotheses -/

theorem made_settings : exWhole.Settings Ex.madeState where
  floating := fun _ => .inr ⟨2, by simp [exWhole], by simp [Ex.madeState, Ex.fitObj]⟩
  fixed := (fun h => by cases h)
  dimension := by simp [exWhole]
  perBin := by simp [exWhole]

theorem made_unrounded : ∀ vs ∈ Ex.closedValues, ∀ x ∈ vs, ((Ex.toInt x : ℚ) : ℝ) = x := by
  intro vs hvs x hx
  have : vs = [8, 10] ∨ vs = [7, 5, 3] := by simpa [Ex.closedValues] using hvs
  rcases this with rfl | rfl
  · have hx : x = 8 ∨ x = 10 := by simpa using hx
    rcases hx with rfl | rfl <;> simp [Ex.toInt]
  · have hx : x = 7 ∨ x = 5 ∨ x = 3 := by simpa using hx
    rcases hx with rfl | rfl | rfl <;> simp [Ex.toInt]

theorem made_names : RoiNames (Ex.madeState.view 0).cfg (inOrder exWhole.roi) [lit "energy_mc"] :=
  .cons ⟨⟨lit "mc", by decide, rfl⟩, Ex.fitAxis, by simp [FitState.view, Ex.madeState, Ex.fitState],
    rfl⟩ .nil

example : ∃ (G : List ℝ → ℝ) (ses : Session) (st' : FitState) (g' : GridSearch) (raw pen : NdArray ℝ)
    (u : List ℝ), init Ex.keyOf exWhole Ex.madeState = (st', .ok ses) ∧
    (ses.fit (fun f => fitGrid Ex.fitEnv f Ex.toInt Ex.closedSearch) st').2 = .ok (.inr (g', raw, pen)) ∧
    FirstBest Ex.closedValues (fun u => G u + exWhole.penaltyAt Ex.madeState u) u ∧
    g'.pars.map FitPar.bestFit = u.map some ∧ raw.ravel = [G u] ∧
    pen.ravel = [exWhole.penaltyAt Ex.madeState u] := by
  have h : ∀ u : List ℝ, ∃ v, exWhole.stat.Total
      (comparedContents exWhole.singleBin (Ex.madeContents 0)) (comparedContents exWhole.singleBin
        (exWhole.backgroundAt Ex.madeState Ex.madeContents (Ex.madeContents 0).shape
          (u.map Ex.toInt))) v := fun u =>
    exists_total _ (compared_length _ (a := Ex.madeContents 0) (b := exWhole.backgroundAt Ex.madeState
      Ex.madeContents (Ex.madeContents 0).shape (u.map Ex.toInt)) rfl).symm
  choose G hG using h
  exact ⟨G, c137_best_partial made_given made_evaluable made_settings made_ratesOnly.toOwnRates
    (by simp [FitState.view, Ex.madeState, Ex.fitState, exWhole]) made_names made_contents made_search
    made_unrounded fun u _ => hG u⟩

end Verif
