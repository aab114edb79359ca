import Verif.Lemmas.Levels
import Verif.Props.FitLimit

/-! # C164: limits at several confidence levels with one fit -/

namespace Verif

variable {env : FitEnv} {rnd : ℝ → ℚ} {r : ℕ} {w : Fitter}

/-- **C164, the fit afterwards.** What `get_limit` does with the fit, its spectra and its grid search
has nothing to do with the threshold, for every fit and whether it raises or not. So whatever is
called afterwards gives the same. -/
theorem c164_state (env : FitEnv) (rnd : ℝ → ℚ) (r : ℕ) (scales : List ℝ)
    (sigmas : List (Option ℝ)) (w : Fitter) (m : Option (List ℝ)) (a b : ℝ) :
    (w.limitOf env rnd r scales sigmas m a).1 = (w.limitOf env rnd r scales sigmas m b).1 ∧
    ∀ calls : List LimitCall,
      w.afterCalls env rnd r (.limit scales sigmas m a :: calls) =
        w.afterCalls env rnd r (.limit scales sigmas m b :: calls) := by
  have h : (w.limitOf env rnd r scales sigmas m a).1 = (w.limitOf env rnd r scales sigmas m b).1 := by
    obtain ⟨w', ⟨e, h⟩ | ⟨k, full, j, h⟩⟩ := limitOf_cases env rnd r scales sigmas w m <;>
      rw [h a, h b]
  refine ⟨h, fun calls => ?_⟩
  unfold Fitter.afterCalls
  rw [List.foldl_cons, List.foldl_cons]
  unfold LimitCall.perform
  dsimp only
  rw [h]

/-- **C164, two thresholds.** For every fit in every state and increasing scalings: where `get_limit`
gives a limit at a threshold, it gives one at every lower threshold, and that is not larger; where it
raises `LimitError`, it does so at every higher threshold. If it raises something else at one
threshold, there is no limit at any higher one. -/
theorem c164_levels {scales : List ℝ} (hs : scales.Pairwise (· < ·)) (env : FitEnv) (rnd : ℝ → ℚ)
    (r : ℕ) (sigmas : List (Option ℝ)) (w : Fitter) (m : Option (List ℝ)) {a b : ℝ} (hab : a ≤ b) :
    (∀ y, (w.limitOf env rnd r scales sigmas m b).2 = .ok y →
      ∃ x, (w.limitOf env rnd r scales sigmas m a).2 = .ok x ∧ x ≤ y) ∧
    ((w.limitOf env rnd r scales sigmas m a).2 = .error .limitError →
      (w.limitOf env rnd r scales sigmas m b).2 = .error .limitError) ∧
    ∀ e, (w.limitOf env rnd r scales sigmas m a).2 = .error e →
      ∃ e', (w.limitOf env rnd r scales sigmas m b).2 = .error e' := by
  have key : (∀ y, (w.limitOf env rnd r scales sigmas m b).2 = .ok y →
      ∃ x, (w.limitOf env rnd r scales sigmas m a).2 = .ok x ∧ x ≤ y) ∧
    ((w.limitOf env rnd r scales sigmas m a).2 = .error .limitError →
      (w.limitOf env rnd r scales sigmas m b).2 = .error .limitError) := by
    obtain ⟨w', ⟨e, h⟩ | ⟨k, full, j, h⟩⟩ := limitOf_cases env rnd r scales sigmas w m
    · rw [h a, h b]
      exact ⟨fun y hy => (by cases hy), fun h => h⟩
    · rw [h a, h b]
      exact readLimit_mono hs sigmas k full j hab
  refine ⟨key.1, key.2, fun e he => ?_⟩
  cases hb : (w.limitOf env rnd r scales sigmas m b).2 with
  | error e' => exact ⟨e', rfl⟩
  | ok y =>
    obtain ⟨x, hx, -⟩ := key.1 y hb
    rw [he] at hx
    cases hx

/-- **C164, one after the other.** The limits at several thresholds may be set one after the other with
one fit, in any order and with other calls between them: the limit at the higher threshold is never
below the one at the lower threshold. (Partial: the suppositions of C100.) -/
theorem c164_sequence_partial (h : LimitSignal r w) (calls calls' : List LimitCall) (scales : List ℝ)
    (hf : LimitFit env rnd r w (allScales calls ++ scales))
    (ht : Testable rnd (allScales calls ++ scales))
    (hf' : LimitFit env rnd r w (allScales calls' ++ scales))
    (ht' : Testable rnd (allScales calls' ++ scales)) (hs : scales.Pairwise (· < ·))
    (sigmas : List (Option ℝ)) (m : Option (List ℝ)) {a b : ℝ} (hab : a ≤ b) :
    (∀ y, ((w.afterCalls env rnd r calls').limitOf env rnd r scales sigmas m b).2 = .ok y →
      ∃ x, ((w.afterCalls env rnd r calls).limitOf env rnd r scales sigmas m a).2 = .ok x ∧ x ≤ y) ∧
    (((w.afterCalls env rnd r calls).limitOf env rnd r scales sigmas m a).2 = .error .limitError →
      ((w.afterCalls env rnd r calls').limitOf env rnd r scales sigmas m b).2 =
        .error .limitError) := by
  rw [c100_limit_partial h calls scales hf ht, c100_limit_partial h calls' scales hf' ht']
  exact c50_monotone hs sigmas _ m hab

/-- A fit for which the hypotheses hold: two limits in either order. -/
example := c164_sequence_partial (env := Ex.fitEnv) ex_limit_signal.1
  [.statistics [2]] [.limit [0, 4] [] none 3, .limit [0, 2, 4] [] none 1] [0, 2, 4] (.inl rfl)
  (fun x hx => ex_testable x (by
    simp [allScales, LimitCall.scales] at hx
    rcases hx with rfl | rfl | rfl | rfl <;> simp)) (.inl rfl)
  (fun x hx => ex_testable x (by
    simp [allScales, LimitCall.scales] at hx
    rcases hx with rfl | rfl | rfl | rfl | rfl | rfl | rfl | rfl <;> simp)) (by norm_num)
  [] none (a := 1) (b := 3) (by norm_num)

/-- Increasing scalings, for a fit with floating backgrounds. -/
example := c164_levels (scales := [0, 2, 4]) (by norm_num) Ex.fitEnv Ex.toInt 4 [] Ex.gridFitter none
  (a := 1) (b := 3) (by norm_num)

end Verif
