import Verif.Props.Limit
import Verif.Model.FitLimit

/-! # Lemmas for C164: thresholds -/

namespace Verif

/-- Reading off limits at two thresholds. -/
theorem readLimit_mono {scales : List ℝ} (hs : scales.Pairwise (· < ·)) (sigmas : List (Option ℝ))
    (k : ℕ) (full : List ℝ) (j : ℕ) {a b : ℝ} (hab : a ≤ b) :
    (∀ y, readLimit scales sigmas k full j b = .ok y →
      ∃ x, readLimit scales sigmas k full j a = .ok x ∧ x ≤ y) ∧
    (readLimit scales sigmas k full j a = .error .limitError →
      readLimit scales sigmas k full j b = .error .limitError) := by
  constructor
  · intro y hy
    unfold readLimit at hy ⊢
    cases hf : (full.drop j).findIdx?
        (fun x => @decide (b < x) (Classical.propDecidable _)) with
    | none =>
      rw [hf] at hy
      simp only [bind, Except.bind] at hy
      cases hn : npArgmax (full.drop j) with
      | error e => rw [hn] at hy; cases hy
      | ok i =>
        rw [hn] at hy
        simp only at hy
        cases hx : scales[j + i * k]? with
        | none => rw [hx] at hy; cases hy
        | some x =>
          rw [hx] at hy
          simp only at hy
          split at hy <;> cases hy
    | some i =>
      rw [hf] at hy
      obtain ⟨i', hi', hf'⟩ := findIdx?_mono hab hf
      rw [hf']
      simp only at hy ⊢
      cases hx : scales[j + i]? with
      | none => rw [hx] at hy; cases hy
      | some z =>
        rw [hx] at hy
        simp only at hy
        have hl := (List.getElem?_eq_some_iff.1 hx).1
        have hx' : scales[j + i']? = some (scales[j + i']'(by omega)) :=
          List.getElem?_eq_getElem _
        rw [hx']
        simp only
        split at hy
        · cases hy
        · injection hy with hy
          subst hy
          rename_i hsg
          exact ⟨_, if_neg hsg, (index_le hs hx' hx).1.2 (by omega)⟩
  · intro he
    unfold readLimit at he ⊢
    cases hf : (full.drop j).findIdx?
        (fun x => @decide (a < x) (Classical.propDecidable _)) with
    | some i =>
      rw [hf] at he
      simp only at he
      split at he
      · cases he
      · split at he <;> cases he
    | none =>
      rw [hf] at he
      rw [findIdx?_none_mono hab hf]
      exact he

/-- The fits of a limit do not involve the threshold: afterwards the state is given, and the outcome
is an exception or read off. -/
theorem limitOf_cases (env : FitEnv) (rnd : ℝ → ℚ) (r : ℕ) (scales : List ℝ)
    (sigmas : List (Option ℝ)) (w : Fitter) (m : Option (List ℝ)) :
    ∃ w' : Fitter, (∃ e, ∀ t, w.limitOf env rnd r scales sigmas m t = (w', .error e)) ∨
      ∃ k full j, ∀ t, w.limitOf env rnd r scales sigmas m t =
        (w', readLimit scales sigmas k full j t) := by
  unfold Fitter.limitOf
  cases h1 : w.minStatGiven env rnd m with
  | mk w₁ o₁ =>
    cases o₁ with
    | error e => exact ⟨w₁, .inl ⟨e, fun t => rfl⟩⟩
    | ok m' =>
      dsimp only
      cases h2 : w₁.limitRows env rnd r m' scales with
      | mk w₂ o₂ =>
        cases o₂ with
        | error e => exact ⟨w₂, .inl ⟨e, fun t => rfl⟩⟩
        | ok rows =>
          dsimp only
          cases h3 : npArgmin (rows.map Prod.fst).flatten with
          | error e => exact ⟨w₂, .inl ⟨e, fun t => rfl⟩⟩
          | ok j => exact ⟨w₂, .inr ⟨_, _, j, fun t => rfl⟩⟩

end Verif
