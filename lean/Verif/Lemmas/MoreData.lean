import Verif.Lemmas.StatConvex
import Verif.Spec.Limit

/-! # Lemmas for C168: differences of statistics with more observed or expected events -/

namespace Verif

open Real

theorem logClamp_mono {x y : ℝ} (h : x ≤ y) : log (clampEps x) ≤ log (clampEps y) :=
  log_le_log (clampEps_pos x) (clampEps_mono h)

theorem bc_observed {o o' e e₂ : ℝ} (ho : o ≤ o') (he : e ≤ e₂) :
    bakerCousinsBin o' e₂ - bakerCousinsBin o' e ≤ bakerCousinsBin o e₂ - bakerCousinsBin o e := by
  have hL := logClamp_mono he
  have hp := statEps_pos
  unfold bakerCousinsBin
  dsimp only
  by_cases h1 : o' < statEps
  · rw [if_pos h1, if_pos h1, if_pos (lt_of_le_of_lt ho h1), if_pos (lt_of_le_of_lt ho h1)]
  · have hp' : 0 < o' := hp.trans_le (not_lt.1 h1)
    rw [if_neg h1, if_neg h1, log_div hp'.ne' (clampEps_pos _).ne', log_div hp'.ne' (clampEps_pos _).ne']
    by_cases h2 : o < statEps
    · rw [if_pos h2, if_pos h2]
      have := mul_le_mul_of_nonneg_left hL hp'.le
      linarith
    · have hq : 0 < o := hp.trans_le (not_lt.1 h2)
      rw [if_neg h2, if_neg h2, log_div hq.ne' (clampEps_pos _).ne', log_div hq.ne' (clampEps_pos _).ne']
      have := mul_le_mul_of_nonneg_right ho (sub_nonneg.2 hL)
      linarith

theorem pearson_observed {o o' e e₂ : ℝ} (ho : o ≤ o') (he : e ≤ e₂) :
    pearsonBin o' e₂ - pearsonBin o' e ≤ pearsonBin o e₂ - pearsonBin o e := by
  have hp := statEps_pos
  have key : ∀ o x : ℝ, 0 < x → (o - x) ^ 2 / x = o ^ 2 * x⁻¹ - 2 * o + x := by
    intro o x hx
    field_simp
    ring
  have hL : (clampEps e₂)⁻¹ ≤ (clampEps e)⁻¹ := inv_anti₀ (clampEps_pos e) (clampEps_mono he)
  unfold pearsonBin
  dsimp only
  by_cases h1 : o' < statEps
  · rw [if_pos h1, if_pos h1, if_pos (lt_of_le_of_lt ho h1), if_pos (lt_of_le_of_lt ho h1)]
  · have hp' : 0 < o' := hp.trans_le (not_lt.1 h1)
    rw [if_neg h1, if_neg h1, key _ _ (clampEps_pos _), key _ _ (clampEps_pos _)]
    by_cases h2 : o < statEps
    · rw [if_pos h2, if_pos h2]
      have := mul_le_mul_of_nonneg_left hL (sq_nonneg o')
      linarith
    · have hq : 0 < o := hp.trans_le (not_lt.1 h2)
      rw [if_neg h2, if_neg h2, key _ _ (clampEps_pos _), key _ _ (clampEps_pos _)]
      have hsq : o ^ 2 ≤ o' ^ 2 := pow_le_pow_left₀ hq.le ho 2
      have := mul_le_mul_of_nonneg_right hsq (sub_nonneg.2 hL)
      linarith

theorem neyman_observed {o o' e e₂ : ℝ} (ho : o ≤ o') (he : e ≤ e₂) :
    neymanBin o' e₂ - neymanBin o' e ≤ neymanBin o e₂ - neymanBin o e := by
  have hp := statEps_pos
  have key : ∀ x e : ℝ, 0 < x → (e - x) ^ 2 / x = e ^ 2 * x⁻¹ - 2 * e + x := by
    intro x e hx
    field_simp
    ring
  have hL : (clampEps o')⁻¹ ≤ (clampEps o)⁻¹ := inv_anti₀ (clampEps_pos o) (clampEps_mono ho)
  unfold neymanBin
  dsimp only
  by_cases h2 : e₂ < statEps
  · rw [if_pos h2, if_pos h2, if_pos (lt_of_le_of_lt he h2), if_pos (lt_of_le_of_lt he h2)]
    linarith
  · have hq : 0 < e₂ := hp.trans_le (not_lt.1 h2)
    rw [if_neg h2, if_neg h2, key _ e₂ (clampEps_pos o), key _ e₂ (clampEps_pos o')]
    by_cases h1 : e < statEps
    · rw [if_pos h1, if_pos h1]
      have := mul_le_mul_of_nonneg_left hL (sq_nonneg e₂)
      linarith
    · have hp' : 0 < e := hp.trans_le (not_lt.1 h1)
      rw [if_neg h1, if_neg h1, key _ e (clampEps_pos o), key _ e (clampEps_pos o')]
      have hsq : e ^ 2 ≤ e₂ ^ 2 := pow_le_pow_left₀ hp'.le he 2
      have := mul_le_mul_of_nonneg_left hL (sub_nonneg.2 hsq)
      linarith

theorem bc_self {o : ℝ} (ho : statEps ≤ o) : bakerCousinsBin o o = 0 :=
  (bakerCousinsBin_eq_zero ho ho).2 rfl

/-- With more observed events, a larger expectation becomes better compared to a smaller one. -/
theorem bin_observed {st : Stat} {o o' e e₂ : ℝ} (ho : o ≤ o') (he : e ≤ e₂)
    (hs : st = .bcChiUp → st.SoundBin o e ∧ st.SoundBin o' e) :
    st.bin o' e₂ - st.bin o' e ≤ st.bin o e₂ - st.bin o e := by
  have hbc := bc_observed ho he
  cases st
  case bcChi => simp only [Stat.bin]; linarith
  case bcLL => exact hbc
  case neyman => exact neyman_observed ho he
  case pearson => exact pearson_observed ho he
  case extLL =>
    simp only [Stat.bin]
    have := mul_le_mul_of_nonneg_right ho (sub_nonneg.2 (logClamp_mono he))
    linarith
  case bcChiUp =>
    obtain ⟨⟨s1, s2, s3⟩, s4, -, s6⟩ := hs rfl
    have ee : zeroThreshold = statEps := rfl
    rw [ee] at s1 s3 s4 s6
    have hp := statEps_pos
    simp only [Stat.bin]
    by_cases h3 : o' ≤ e
    · rw [if_neg (not_lt.2 (h3.trans he)), if_neg (not_lt.2 h3), if_neg (not_lt.2 (ho.trans (h3.trans he))),
        if_neg (not_lt.2 (ho.trans h3))]
      linarith
    · have h3 := not_le.1 h3
      have ho' : statEps ≤ o' := s4.resolve_left (by linarith)
      have he' : statEps ≤ e := s6.resolve_left (by linarith)
      rw [if_pos h3, sub_zero]
      by_cases h2 : e₂ < o'
      · rw [if_pos h2]
        by_cases h4 : e₂ < o
        · rw [if_pos h4, if_pos (lt_of_le_of_lt he h4), sub_zero]
        · rw [if_neg h4]
          by_cases h5 : e < o
          · rw [if_pos h5]
            linarith [bakerCousinsBin_nonneg o e₂]
          · rw [if_neg h5]
            have h6 := bc_observed (not_lt.1 h5) he
            rw [bc_self he', sub_zero] at h6
            linarith [bakerCousinsBin_nonneg e e₂]
      · have h2 := not_lt.1 h2
        rw [if_neg (not_lt.2 h2), if_neg (not_lt.2 (ho.trans h2))]
        by_cases h5 : e < o
        · rw [if_pos h5, sub_zero]
          have h6 := bc_observed ho h2
          rw [bc_self ho', sub_zero] at h6
          linarith [bakerCousinsBin_nonneg o o']
        · rw [if_neg h5]
          have h6 := bc_observed h3.le h2
          rw [bc_self ho', sub_zero] at h6
          have h7 := bc_observed (not_lt.1 h5) he
          rw [bc_self he', sub_zero] at h7
          linarith [bakerCousinsBin_nonneg e o']

theorem soundBin_up {st : Stat} {o e e₂ : ℝ} (he : e ≤ e₂) (h : st.SoundBin o e) : st.SoundBin o e₂ := by
  cases st
  case neyman => exact ⟨h.1, h.2.trans he⟩
  all_goals exact ⟨h.1, h.2.1.trans he, h.2.2.imp id fun h => h.trans he⟩

/-- With more expected events, a larger expectation becomes worse compared to a smaller one. -/
theorem bin_expected {st : Stat} {o e k δ : ℝ} (hk : 0 ≤ k) (hδ : 0 ≤ δ) (h : st.SoundBin o e) :
    st.bin o (e + k) - st.bin o e ≤ st.bin o (e + δ + k) - st.bin o (e + δ) := by
  rcases hk.eq_or_lt with rfl | hk
  · simp
  have hd : 0 < k + δ := by linarith
  have hs := soundBin_up (show e ≤ e + δ + k by linarith) h
  have h1 := bin_convex (t := k / (k + δ)) (by positivity) ((div_le_one hd).2 (by linarith)) h hs
  have h2 := bin_convex (t := δ / (k + δ)) (by positivity) ((div_le_one hd).2 (by linarith)) h hs
  have e1 : (1 - k / (k + δ)) * e + k / (k + δ) * (e + δ + k) = e + k := by
    field_simp; ring
  have e2 : (1 - δ / (k + δ)) * e + δ / (k + δ) * (e + δ + k) = e + δ := by
    field_simp; ring
  have e3 : k / (k + δ) + δ / (k + δ) = 1 := by field_simp
  rw [e1] at h1
  rw [e2] at h2
  have : (1 - k / (k + δ)) * st.bin o e + k / (k + δ) * st.bin o (e + δ + k) +
      ((1 - δ / (k + δ)) * st.bin o e + δ / (k + δ) * st.bin o (e + δ + k)) =
      st.bin o e + st.bin o (e + δ + k) := by
    linear_combination (st.bin o (e + δ + k) - st.bin o e) * e3
  linarith

/-- The sum over the bins. -/
noncomputable def Stat.sumBins (st : Stat) (obs exp : List ℝ) : ℝ :=
  ((obs.zip exp).map (fun b => st.bin b.1 b.2)).sum

theorem sumBins_observed {st : Stat} {obs obs' exp exp₂ : List ℝ} (ho : List.Forall₂ (· ≤ ·) obs obs')
    (he : List.Forall₂ (· ≤ ·) exp exp₂)
    (hs : st = .bcChiUp → st.Sound obs exp ∧ st.Sound obs' exp) :
    st.sumBins obs' exp₂ - st.sumBins obs' exp ≤ st.sumBins obs exp₂ - st.sumBins obs exp := by
  unfold Stat.sumBins
  induction ho generalizing exp exp₂ with
  | nil => simp
  | cons h ho ih =>
    cases he with
    | nil => simp
    | cons h' he =>
      simp only [List.zip_cons_cons, List.map_cons, List.sum_cons]
      have h1 := bin_observed (st := st) h h' fun e =>
        ⟨(List.forall₂_cons.1 (hs e).1).1, (List.forall₂_cons.1 (hs e).2).1⟩
      have h2 := ih he fun e => ⟨(List.forall₂_cons.1 (hs e).1).2, (List.forall₂_cons.1 (hs e).2).2⟩
      linarith

theorem sumBins_expected {st : Stat} {obs bkg bkg' sig : List ℝ} {x y : ℝ} (hxy : y ≤ x)
    (hsig : ∀ s ∈ sig, 0 ≤ s) (hb : List.Forall₂ (· ≤ ·) bkg bkg')
    (hs : st.Sound obs (expectedAt bkg sig y)) :
    st.sumBins obs (expectedAt bkg sig x) - st.sumBins obs (expectedAt bkg sig y) ≤
      st.sumBins obs (expectedAt bkg' sig x) - st.sumBins obs (expectedAt bkg' sig y) := by
  unfold Stat.sumBins
  induction hb generalizing obs sig with
  | nil => simp [expectedAt]
  | @cons b b' bkg bkg' h hb ih =>
    cases sig with
    | nil => simp [expectedAt]
    | cons s sig =>
      cases obs with
      | nil => simp
      | cons o obs =>
        simp only [expectedAt, List.zipWith_cons_cons, List.zip_cons_cons, List.map_cons, List.sum_cons]
          at hs ih ⊢
        obtain ⟨hs1, hs2⟩ := List.forall₂_cons.1 hs
        have h1 := bin_expected (k := (x - y) * s) (δ := b' - b)
          (mul_nonneg (by linarith) (hsig s (by simp))) (by linarith) hs1
        rw [show b + y * s + (x - y) * s = b + x * s by ring,
          show b + y * s + (b' - b) + (x - y) * s = b' + x * s by ring,
          show b + y * s + (b' - b) = b' + y * s by ring] at h1
        have h2 := ih (fun s hs => hsig s (by simp [hs])) hs2
        linarith

/-- A statistic that grows faster crosses the threshold no later. -/
theorem crossing_earlier {scales : List ℝ} {F F' : ℝ → ℝ} {F₀ F₀' b b' : ℝ} (hb : BestScale scales F b)
    (hb' : BestScale scales F' b')
    (h : ∀ x ∈ scales, ∀ y ∈ scales, y < x → F' x - F' y ≤ F x - F y)
    (h0 : ∀ x ∈ scales, F' x - F₀' ≤ F x - F₀) (limit : ℝ) :
    b ≤ b' ∧ (∀ x', FirstCrossing scales (fun y => F' y - F₀') b' limit x' →
      ∃ x, x ≤ x' ∧ FirstCrossing scales (fun y => F y - F₀) b limit x) ∧
    ((∀ y ∈ scales, b ≤ y → F y - F₀ ≤ limit) → ∀ y ∈ scales, b' ≤ y → F' y - F₀' ≤ limit) := by
  have hbb : b ≤ b' := by
    by_contra hcon
    have hlt := not_le.1 hcon
    have h1 := h b hb.1 b' hb'.1 hlt
    have h2 := (hb'.2 b hb.1).1
    have h3 := hb.2 b' hb'.1
    exact hcon (h3.2 (le_antisymm (by linarith) h3.1))
  refine ⟨hbb, fun x' hx' => ?_, fun hall y hy hby => (h0 y hy).trans (hall y hy (hbb.trans hby))⟩
  classical
  obtain ⟨f1, f2, f3, -⟩ := hx'
  have f4 : limit < F x' - F₀ := lt_of_lt_of_le f3 (h0 x' f1)
  obtain ⟨x, hx, hmin⟩ := Finset.exists_min_image
    (scales.toFinset.filter fun y => b ≤ y ∧ limit < F y - F₀) id
    ⟨x', by simp only [Finset.mem_filter, List.mem_toFinset]; exact ⟨f1, hbb.trans f2, f4⟩⟩
  simp only [Finset.mem_filter, List.mem_toFinset, id] at hx hmin
  refine ⟨x, hmin x' ⟨f1, hbb.trans f2, f4⟩, hx.1, hx.2.1, hx.2.2, fun y hy hby hyx => ?_⟩
  by_contra hcon
  exact absurd (hmin y ⟨hy, hby, not_le.1 hcon⟩) (not_le.2 hyx)

end Verif
