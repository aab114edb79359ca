import Verif.Lemmas.FloatStat

/-!
# C148: chi-squareds in floating point arithmetic

The chi-squareds of Pearson and Neyman and the penalty terms are sums of squares, and no accuracy is
lost in them: what is computed has the exact value up to the relative error of a few roundings.
-/

namespace Verif

variable {R : Rounding}

theorem upTo_of_rel {N : ℕ} {x y : ℚ} (h : Rounding.Rel R.u N x y) : R.UpTo N (x : ℝ) (y : ℝ) := by
  have e1 := h.lower
  have e2 := h.upper
  constructor
  · exact_mod_cast e1
  · exact_mod_cast e2

theorem upTo_sign (h4 : R.u ≤ 1 / 4) {N : ℕ} {v S : ℝ} (h : R.UpTo N v S) (hv : 0 ≤ v) :
    (v = 0 ↔ S = 0) := by
  have hu : (R.u : ℝ) ≤ 1 / 4 := by
    have : (R.u : ℝ) ≤ ((1 / 4 : ℚ) : ℝ) := Rat.cast_le.2 h4
    norm_num at this ⊢
    exact this
  have hp : (0 : ℝ) < (1 - (R.u : ℝ)) ^ N := pow_pos (by linarith) N
  obtain ⟨h1, h2⟩ := h
  constructor
  · rintro rfl
    have : 0 ≤ S := by simpa using h2
    nlinarith
  · rintro rfl
    nlinarith

theorem bins_rel {f g : ℚ → ℚ → ℚ} {F : ℝ → ℝ → ℝ}
    (hf : ∀ o e, Content o → Content e → Rounding.Rel R.u 7 (f o e) (g o e))
    (hF : ∀ o e : ℚ, F o e = (g o e : ℚ)) :
    ∀ (obs exp : List ℚ), (∀ x ∈ obs, Content x) → (∀ x ∈ exp, Content x) →
    List.Forall₂ (fun (v : ℚ) (S : ℝ) => R.UpTo 7 v S ∧ 0 ≤ v) (List.zipWith f obs exp)
      (List.zipWith F (obs.map (fun x : ℚ => (x : ℝ))) (exp.map (fun x : ℚ => (x : ℝ))))
  | [], _, _, _ => .nil
  | _ :: _, [], _, _ => .nil
  | o :: obs, e :: exp, ho, he => by
    simp only [List.zipWith_cons_cons, List.map_cons]
    refine .cons ⟨?_, ?_⟩ (bins_rel hf hF obs exp (fun x hx => ho x (List.mem_cons_of_mem _ hx))
      (fun x hx => he x (List.mem_cons_of_mem _ hx)))
    · rw [hF]
      exact upTo_of_rel (hf o e (ho _ List.mem_cons_self) (he _ List.mem_cons_self))
    · exact (hf o e (ho _ List.mem_cons_self) (he _ List.mem_cons_self)).left

/-- **C148.** In floating point arithmetic the chi-squareds of Pearson and Neyman are the exact ones up
to seven roundings, and one more for every bin that is added up. They are not negative, and they are
zero exactly when the exact ones are. -/
theorem c148_chi_squared (h4 : R.u ≤ 1 / 4) (lg : ℚ → ℚ) (tot : List ℚ → ℚ) {st : Stat}
    (hst : st = .pearson ∨ st = .neyman) {obs exp : List ℚ} (hl : obs.length = exp.length)
    (ho : ∀ x ∈ obs, Content x) (he : ∀ x ∈ exp, Content x) :
    (∃ v S, R.computeStatistic lg tot st false obs exp = .ok (.inl v) ∧
      (st.computeStatistic false (floatArr obs) (floatArr exp)).map StatOut.value = .ok (.total S) ∧
      R.UpTo (obs.length + 7) v S ∧ 0 ≤ v ∧ (v = 0 ↔ S = 0)) ∧
    (∃ vs Ss, R.computeStatistic lg tot st true obs exp = .ok (.inr vs) ∧
      (st.computeStatistic true (floatArr obs) (floatArr exp)).map StatOut.value = .ok (.bins Ss) ∧
      List.Forall₂ (fun (v : ℚ) (S : ℝ) => R.UpTo 7 v S ∧ 0 ≤ v ∧ (v = 0 ↔ S = 0)) vs Ss) := by
  have h1 : R.u ≤ 1 := by linarith
  have key : ∀ {f g : ℚ → ℚ → ℚ} {F : ℝ → ℝ → ℝ},
      (∀ o e, Content o → Content e → Rounding.Rel R.u 7 (f o e) (g o e)) →
      (∀ o e : ℚ, F o e = (g o e : ℚ)) →
      (R.UpTo (obs.length + 7) (R.loopTotal f obs exp : ℚ)
        (Verif.loopTotal F (obs.map (fun x : ℚ => (x : ℝ))) (exp.map (fun x : ℚ => (x : ℝ)))) ∧
        0 ≤ R.loopTotal f obs exp) ∧
      List.Forall₂ (fun (v : ℚ) (S : ℝ) => R.UpTo 7 v S ∧ 0 ≤ v ∧ (v = 0 ↔ S = 0))
        (List.zipWith f obs exp)
        (List.zipWith F (obs.map (fun x : ℚ => (x : ℝ))) (exp.map (fun x : ℚ => (x : ℝ)))) := by
    intro f g F hf hF
    refine ⟨⟨R.total_rel h4 hf hF ho he, ?_⟩, ?_⟩
    · exact (R.fold_rel h1 (obs.zip exp) (f := f) (g := g) (k := 7) (fun b hb => hf _ _
        (ho _ (List.of_mem_zip hb).1) (he _ (List.of_mem_zip hb).2)) 7 0 0 (le_refl _)
        ((Rounding.Rel.refl (le_refl _)).mono R.u_nonneg h1 (by omega))).left
    · refine (bins_rel hf hF obs exp ho he).imp fun v S h => ⟨h.1, h.2, ?_⟩
      rw [← upTo_sign h4 h.1 (by exact_mod_cast h.2)]
      norm_num
  have hlen : ¬ (floatArr obs).vals.length ≠ (floatArr exp).vals.length := by
    simpa [floatArr] using hl
  rcases hst with rfl | rfl
  · obtain ⟨⟨k1, k2⟩, k3⟩ := key (fun o e h h' => R.pearson_rel h4 h h') Rounding.pearson_cast
    refine ⟨⟨_, _, ?_, ?_, k1, k2, ?_⟩, ⟨_, _, ?_, ?_, k3⟩⟩
    · unfold Rounding.computeStatistic
      rw [if_neg (not_not.2 hl)]; rfl
    · unfold Stat.computeStatistic
      rw [if_neg (by simp [floatArr]), if_neg (by simp [floatArr]), if_neg hlen]; rfl
    · rw [← upTo_sign h4 k1 (by exact_mod_cast k2)]; norm_num
    · unfold Rounding.computeStatistic
      rw [if_neg (not_not.2 hl)]; rfl
    · unfold Stat.computeStatistic
      rw [if_neg (by simp [floatArr]), if_neg (by simp [floatArr]), if_neg hlen]; rfl
  · obtain ⟨⟨k1, k2⟩, k3⟩ := key (fun o e h h' => R.neyman_rel h4 h h') Rounding.neyman_cast
    refine ⟨⟨_, _, ?_, ?_, k1, k2, ?_⟩, ⟨_, _, ?_, ?_, k3⟩⟩
    · unfold Rounding.computeStatistic
      rw [if_neg (not_not.2 hl)]; rfl
    · unfold Stat.computeStatistic
      rw [if_neg (by simp [floatArr]), if_neg (by simp [floatArr]), if_neg hlen]; rfl
    · rw [← upTo_sign h4 k1 (by exact_mod_cast k2)]; norm_num
    · unfold Rounding.computeStatistic
      rw [if_neg (not_not.2 hl)]; rfl
    · unfold Stat.computeStatistic
      rw [if_neg (by simp [floatArr]), if_neg (by simp [floatArr]), if_neg hlen]; rfl

theorem penalty_rel (h1 : R.u ≤ 1) (x s : ℚ) :
    Rounding.Rel R.u 5 (R.mul (R.div (R.rnd x) s) (R.div (R.rnd x) s)) ((x / s) ^ 2) := by
  have hd : Rounding.Rel R.u 2 |R.div (R.rnd x) s| |x / s| := by
    have k1 := R.rel_abs_rnd h1 (R.rnd x / s)
    have k2 : Rounding.Rel R.u 1 |R.rnd x / s| |x / s| := by
      rw [abs_div, abs_div]
      have := R.rel_abs_rnd h1 x
      rcases eq_or_ne s 0 with rfl | hs
      · simp only [abs_zero, div_zero]
        exact (Rounding.Rel.refl (le_refl _)).mono R.u_nonneg h1 (by omega)
      · exact this.div h1 (Rounding.Rel.refl (abs_nonneg s)) (abs_pos.2 hs) (abs_pos.2 hs)
    exact k1.trans h1 k2
  have hm := hd.mul h1 hd
  rw [abs_mul_abs_self, abs_mul_abs_self, ← pow_two (x / s)] at hm
  exact hm.rnd R h1

/-- **C148, penalties.** A penalty term computed with floats is the exact one up to six roundings; it is
refused when the exact one is. -/
theorem c148_penalty (h4 : R.u ≤ 1 / 4) (st : Stat) (value prior sigma : ℚ) :
    (sigma = 0 → R.penalty st value prior sigma = .error .zeroDivision ∧
      st.penalty value prior sigma = .error .zeroDivision) ∧
    (sigma ≠ 0 → ∃ v S, R.penalty st value prior sigma = .ok v ∧
      st.penalty value prior sigma = .ok S ∧ R.UpTo 6 v S ∧ 0 ≤ v ∧ (v = 0 ↔ value = prior)) := by
  have h1 : R.u ≤ 1 := by linarith
  constructor
  · rintro rfl
    exact ⟨if_pos rfl, if_pos Rat.cast_zero⟩
  · intro hs
    have hs' : (sigma : ℝ) ≠ 0 := by exact_mod_cast hs
    have hr := penalty_rel h1 (value - prior) sigma
    have hz : ((value - prior) / sigma) ^ 2 = 0 ↔ value = prior := by
      rw [pow_eq_zero_iff (by norm_num), div_eq_zero_iff, sub_eq_zero]
      tauto
    have hsq : (((value : ℝ) - prior) / sigma) ^ 2 = ((((value - prior) / sigma) ^ 2 : ℚ) : ℝ) := by
      push_cast; rfl
    have fin : ∀ {v S : ℚ}, Rounding.Rel R.u 6 v S → (S = 0 ↔ value = prior) →
        R.UpTo 6 v S ∧ 0 ≤ v ∧ (v = 0 ↔ value = prior) := by
      intro v S h hS
      have := upTo_sign h4 (upTo_of_rel h) (by exact_mod_cast h.left)
      refine ⟨upTo_of_rel h, h.left, ?_⟩
      rw [← hS]
      exact_mod_cast this
    unfold Rounding.penalty Stat.penalty
    rw [if_neg hs, if_neg hs']
    by_cases hb : st = .bcLL
    · subst hb
      refine ⟨_, (((1 / 2 * ((value - prior) / sigma) ^ 2 : ℚ)) : ℝ), rfl, ?_, fin ?_ ?_⟩
      · dsimp only
        rw [hsq]; push_cast; norm_num
      · have h2 : Rounding.Rel R.u 0 (1 / 2) (1 / 2) := Rounding.Rel.refl (by norm_num)
        have := h2.mul h1 hr
        rw [zero_add] at this
        exact this.rnd R h1
      · rw [mul_eq_zero, hz]; norm_num
    · refine ⟨_, ((((value - prior) / sigma) ^ 2 : ℚ) : ℝ), ?_, ?_,
        fin (hr.mono R.u_nonneg h1 (by omega)) hz⟩
      · cases st <;> first | rfl | exact absurd rfl hb
      · cases st <;> first | exact absurd rfl hb | (dsimp only; rw [hsq])

theorem penalties_rel (h4 : R.u ≤ 1 / 4) (st : Stat) :
    ∀ (pars : List (ℚ × ℚ × ℚ)), (∀ p ∈ pars, p.2.2 ≠ 0) →
    ∃ ps : List (ℚ × ℚ), pars.mapM (fun p => R.penalty st p.1 p.2.1 p.2.2) = .ok (ps.map Prod.fst) ∧
      pars.mapM (fun p => st.penalty p.1 p.2.1 p.2.2) = .ok (ps.map (fun p => ((p.2 : ℚ) : ℝ))) ∧
      ps.length = pars.length ∧ ∀ p ∈ ps, Rounding.Rel R.u 6 p.1 p.2
  | [], _ => ⟨[], rfl, rfl, rfl, fun _ h => absurd h List.not_mem_nil⟩
  | p :: pars, h => by
    obtain ⟨ps, e1, e2, e3, e4⟩ := penalties_rel h4 st pars fun q hq => h q (List.mem_cons_of_mem _ hq)
    have h1 : R.u ≤ 1 := by linarith
    have hs := h p List.mem_cons_self
    have hs' : (p.2.2 : ℝ) ≠ 0 := by exact_mod_cast hs
    have hr := penalty_rel (R := R) h1 (p.1 - p.2.1) p.2.2
    have hsq : (((p.1 : ℝ) - p.2.1) / p.2.2) ^ 2 = ((((p.1 - p.2.1) / p.2.2) ^ 2 : ℚ) : ℝ) := by
      push_cast; rfl
    have key : ∃ v S : ℚ, R.penalty st p.1 p.2.1 p.2.2 = .ok v ∧
        st.penalty p.1 p.2.1 p.2.2 = .ok (S : ℝ) ∧ Rounding.Rel R.u 6 v S := by
      unfold Rounding.penalty Stat.penalty
      rw [if_neg hs, if_neg hs']
      by_cases hb : st = .bcLL
      · subst hb
        refine ⟨_, 1 / 2 * ((p.1 - p.2.1) / p.2.2) ^ 2, rfl, ?_, ?_⟩
        · dsimp only
          rw [hsq]; push_cast; norm_num
        · have h2 : Rounding.Rel R.u 0 (1 / 2) (1 / 2) := Rounding.Rel.refl (by norm_num)
          have := h2.mul h1 hr
          rw [zero_add] at this
          exact this.rnd R h1
      · refine ⟨_, ((p.1 - p.2.1) / p.2.2) ^ 2, ?_, ?_, hr.mono R.u_nonneg h1 (by omega)⟩
        · cases st <;> first | rfl | exact absurd rfl hb
        · cases st <;> first | exact absurd rfl hb | (dsimp only; rw [hsq])
    obtain ⟨v, S, k1, k2, k3⟩ := key
    refine ⟨(v, S) :: ps, ?_, ?_, by simp [e3], ?_⟩
    · rw [List.mapM_cons, k1]
      simp only [bind, Except.bind, e1, pure, Except.pure, List.map_cons]
    · rw [List.mapM_cons, k2]
      simp only [bind, Except.bind, e2, pure, Except.pure, List.map_cons]
    · intro q hq
      rcases List.mem_cons.1 hq with rfl | hq
      · exact k3
      · exact e4 q hq

theorem penalties_total (h1 : R.u ≤ 1) : ∀ (ps : List (ℚ × ℚ)), (∀ p ∈ ps, Rounding.Rel R.u 6 p.1 p.2) →
    ∀ (N : ℕ) (x y : ℚ), 6 ≤ N → Rounding.Rel R.u N x y →
      Rounding.Rel R.u (N + ps.length) ((ps.map Prod.fst).foldl R.add x) (y + (ps.map Prod.snd).sum)
  | [], _, _, _, _, _, h => by simpa using h
  | p :: ps, hp, N, x, y, hN, h => by
    have h2 := penalties_total h1 ps (fun q hq => hp q (List.mem_cons_of_mem _ hq)) (N + 1)
      (R.add x p.1) (y + p.2) (by omega)
      (Rounding.Rel.rnd R h1 (h.add ((hp p List.mem_cons_self).mono R.u_nonneg h1 hN)))
    rw [List.length_cons, show N + (ps.length + 1) = N + 1 + ps.length by omega]
    simpa only [List.map_cons, List.foldl_cons, List.sum_cons, ← add_assoc] using h2

theorem stat_rel (h4 : R.u ≤ 1 / 4) (lg : ℚ → ℚ) (tot : List ℚ → ℚ) {st : Stat}
    (hst : st = .pearson ∨ st = .neyman) {obs exp : List ℚ} (hl : obs.length = exp.length)
    (ho : ∀ x ∈ obs, Content x) (he : ∀ x ∈ exp, Content x) :
    ∃ v S : ℚ, R.computeStatistic lg tot st false obs exp = .ok (.inl v) ∧
      (∃ o e, st.computeStatistic false (floatArr obs) (floatArr exp) = .ok ⟨.total S, o, e⟩) ∧
      Rounding.Rel R.u (obs.length + 7) v S := by
  have h1 : R.u ≤ 1 := by linarith
  have hlen : ¬ (floatArr obs).vals.length ≠ (floatArr exp).vals.length := by
    simpa [floatArr] using hl
  have key : ∀ {f g : ℚ → ℚ → ℚ},
      (∀ o e, Content o → Content e → Rounding.Rel R.u 7 (f o e) (g o e)) →
      Rounding.Rel R.u (obs.length + 7) (R.loopTotal f obs exp)
        ((obs.zip exp).foldl (fun t b => t + g b.1 b.2) 0) := by
    intro f g hf
    have := R.fold_rel h1 (obs.zip exp) (f := f) (g := g) (k := 7) (fun b hb => hf _ _
        (ho _ (List.of_mem_zip hb).1) (he _ (List.of_mem_zip hb).2)) 7 0 0 (le_refl _)
        ((Rounding.Rel.refl (le_refl _)).mono R.u_nonneg h1 (by omega))
    exact this.mono R.u_nonneg h1 (by rw [List.length_zip]; omega)
  have cast : ∀ (F : ℝ → ℝ → ℝ) (g : ℚ → ℚ → ℚ), (∀ o e : ℚ, F o e = (g o e : ℚ)) →
      Verif.loopTotal F (floatArr obs).vals (floatArr exp).vals =
        (((obs.zip exp).foldl (fun t b => t + g b.1 b.2) 0 : ℚ) : ℝ) := by
    intro F g h
    have := Rounding.fold_cast F g h obs exp 0
    rw [Rat.cast_zero] at this
    exact this
  rcases hst with rfl | rfl
  · refine ⟨_, _, ?_, ⟨(floatArr obs).vals, (floatArr exp).vals.map clampEps, ?_⟩,
      key fun o e h h' => R.pearson_rel h4 h h'⟩
    · unfold Rounding.computeStatistic
      rw [if_neg (not_not.2 hl)]; rfl
    · unfold Stat.computeStatistic
      rw [if_neg (by simp [floatArr]), if_neg (by simp [floatArr]), if_neg hlen]
      simp only [Bool.false_eq_true, if_false, Stat.compute]
      rw [cast _ _ Rounding.pearson_cast]
  · refine ⟨_, _, ?_, ⟨(floatArr obs).vals.map clampEps, (floatArr exp).vals, ?_⟩,
      key fun o e h h' => R.neyman_rel h4 h h'⟩
    · unfold Rounding.computeStatistic
      rw [if_neg (not_not.2 hl)]; rfl
    · unfold Stat.computeStatistic
      rw [if_neg (by simp [floatArr]), if_neg (by simp [floatArr]), if_neg hlen]
      simp only [Bool.false_eq_true, if_false, Stat.compute]
      rw [cast _ _ Rounding.neyman_cast]

/-- **C148, choices.** Models for the same data are judged by the sum of the statistic and `m` penalty
terms. The sum computed with floats is the exact one up to `n + m + 8` roundings, `n` being the number of
bins; so a model that is not worse than another one by the computed sums is not worse by more than the
relative error of twice as many roundings. -/
theorem c148_best (h4 : R.u ≤ 1 / 4) (lg : ℚ → ℚ) (tot : List ℚ → ℚ) {st : Stat}
    (hst : st = .pearson ∨ st = .neyman) {obs : List ℚ} (ho : ∀ x ∈ obs, Content x) {ι : Type}
    (exp : ι → List ℚ) (hl : ∀ i, obs.length = (exp i).length) (he : ∀ i, ∀ x ∈ exp i, Content x)
    (pars : ι → List (ℚ × ℚ × ℚ)) {m : ℕ} (hm : ∀ i, (pars i).length = m)
    (hs : ∀ i, ∀ p ∈ pars i, p.2.2 ≠ 0) :
    ∃ (a : ι → ℚ) (A : ι → ℝ),
      (∀ i, R.judged lg tot st obs (exp i) (pars i) = .ok (a i)) ∧
      (∀ i, judgedExactly st obs (exp i) (pars i) = .ok (A i)) ∧
      (∀ i, R.UpTo (obs.length + m + 8) (a i) (A i)) ∧
      ∀ i j, a i ≤ a j → (1 - (R.u : ℝ)) ^ (2 * (obs.length + m + 8)) * A i ≤ A j := by
  have h1 : R.u ≤ 1 := by linarith
  have key : ∀ i, ∃ a A : ℚ, R.judged lg tot st obs (exp i) (pars i) = .ok a ∧
      judgedExactly st obs (exp i) (pars i) = .ok (A : ℝ) ∧
      Rounding.Rel R.u (obs.length + m + 8) a A := by
    intro i
    obtain ⟨v, S, e1, ⟨o, e, e2⟩, e3⟩ := stat_rel h4 lg tot hst (hl i) ho (he i)
    obtain ⟨ps, f1, f2, f3, f4⟩ := penalties_rel (R := R) h4 st (pars i) (hs i)
    have f5 := penalties_total h1 ps f4 6 0 0 (le_refl _)
      ((Rounding.Rel.refl (le_refl _)).mono R.u_nonneg h1 (by omega))
    rw [f3, hm i, zero_add] at f5
    refine ⟨R.add v ((ps.map Prod.fst).foldl R.add 0), S + (ps.map Prod.snd).sum, ?_, ?_, ?_⟩
    · unfold Rounding.judged
      simp only [bind, Except.bind, e1, f1]
    · unfold judgedExactly
      simp only [bind, Except.bind, e2, f2]
      congr 1
      rw [Rat.cast_add, Rat.cast_list_sum, List.map_map]
      rfl
    · exact Rounding.Rel.rnd R h1 ((e3.mono R.u_nonneg h1 (by omega : _ ≤ obs.length + m + 7)).add
        (f5.mono R.u_nonneg h1 (by omega)))
  choose a A k1 k2 k3 using key
  refine ⟨a, fun i => (A i : ℝ), k1, k2, fun i => upTo_of_rel (k3 i), fun i j hij => ?_⟩
  have hp : 0 ≤ (1 - R.u) ^ (obs.length + m + 8) := pow_nonneg (by linarith) _
  have : (1 - R.u) ^ (2 * (obs.length + m + 8)) * A i ≤ A j := by
    rw [two_mul, pow_add, mul_assoc]
    refine (mul_le_mul_of_nonneg_left ((k3 i).lower.trans hij) hp).trans ?_
    exact (k3 j).upper
  change (1 - (R.u : ℝ)) ^ (2 * (obs.length + m + 8)) * (A i : ℝ) ≤ (A j : ℝ)
  exact_mod_cast this

/-! ### python's floats, three bins, one of them without data and one without expectation -/

theorem double_u : (binary 53 (by norm_num)).u ≤ 1 / 4 := by
  change ((1 / 2 : ℚ) ^ 53) ≤ 1 / 4
  norm_num

theorem three_obs : ∀ x ∈ ([3, 0, 5] : List ℚ), Content x := by
  intro x hx
  simp only [List.mem_cons, List.not_mem_nil, or_false] at hx
  rcases hx with rfl | rfl | rfl <;> norm_num [Content]

theorem three_exp : ∀ x ∈ ([5 / 2, 1, 0] : List ℚ), Content x := by
  intro x hx
  simp only [List.mem_cons, List.not_mem_nil, or_false] at hx
  rcases hx with rfl | rfl | rfl <;> norm_num [Content]

example (lg : ℚ → ℚ) (tot : List ℚ → ℚ) :=
  c148_chi_squared (R := binary 53 (by norm_num)) double_u lg tot (st := .pearson) (.inl rfl)
    (obs := [3, 0, 5]) (exp := [5 / 2, 1, 0]) rfl three_obs three_exp

example := (c148_penalty (R := binary 53 (by norm_num)) double_u .bcLL 3 1 (1 / 3)).2 (by norm_num)

/-- Two models, the second with its parameter further from the prior. -/
example (lg : ℚ → ℚ) (tot : List ℚ → ℚ) :=
  c148_best (R := binary 53 (by norm_num)) double_u lg tot (st := .neyman) (.inr rfl)
    (obs := [3, 0, 5]) three_obs (ι := Bool) (fun b => if b then [5 / 2, 1, 0] else [3, 0, 5])
    (by intro b; cases b <;> rfl) (by intro b; cases b; exacts [three_obs, three_exp])
    (fun b => if b then [(3, 1, 1 / 3)] else [(2, 1, 1 / 3)]) (m := 1) (by intro b; cases b <;> rfl)
    (by intro b p hp; cases b <;> simp_all)

end Verif
