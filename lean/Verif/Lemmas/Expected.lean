import Verif.Lemmas.Coarser

/-! # Lemmas on limits where the expected background is observed -/

namespace Verif

open Session Real

variable {env : FitEnv} {keyOf : ℕ → PyStr} {a a' : FitArgs} {ts ts' : List Spectrum} {r d r' d' : ℕ}
  {st st' : FitState} {rnd : ℝ → ℚ} {obs bkg sig bkg' sig' : List ℝ}

theorem logExcess_eq {b t : ℝ} (hb : statEps ≤ b) (ht : 0 ≤ t) :
    bakerCousinsBin b (b + t) = t - b * log ((b + t) / b) := by
  have hpos := statEps_pos
  have h0 : 0 < b := by linarith
  have h1 : 0 < b + t := by linarith
  unfold bakerCousinsBin
  rw [clampEps_of_ge (by linarith), if_neg (not_lt.2 hb), log_div h0.ne' h1.ne', log_div h1.ne' h0.ne']
  ring

theorem logExcess_background {b b' t : ℝ} (hb : statEps ≤ b) (hbb : b ≤ b') (ht : 0 ≤ t) :
    bakerCousinsBin b' (b' + t) ≤ bakerCousinsBin b (b + t) := by
  have hpos := statEps_pos
  have h0 : 0 < b := by linarith
  have h0' : 0 < b' := by linarith
  have h1 : 0 < b + t := by linarith
  have h1' : 0 < b' + t := by linarith
  rw [logExcess_eq hb ht, logExcess_eq (hb.trans hbb) ht]
  have k1 : log ((b + t) / b) - log ((b' + t) / b') ≤ t * (b' - b) / (b * (b' + t)) := by
    rw [← log_div (by positivity) (by positivity)]
    refine (log_le_sub_one_of_pos (by positivity)).trans (le_of_eq ?_)
    field_simp
    ring
  have k2 : t / (b' + t) ≤ log ((b' + t) / b') := by
    refine le_trans (le_of_eq ?_) (one_sub_inv_le_log_of_pos (by positivity))
    field_simp
    ring
  have k3 : b * (log ((b + t) / b) - log ((b' + t) / b')) ≤ t * (b' - b) / (b' + t) := by
    refine (mul_le_mul_of_nonneg_left k1 h0.le).trans (le_of_eq ?_)
    field_simp
  have k4 : t * (b' - b) / (b' + t) ≤ (b' - b) * log ((b' + t) / b') := by
    refine le_trans (le_of_eq ?_) (mul_le_mul_of_nonneg_left k2 (by linarith : 0 ≤ b' - b))
    ring
  nlinarith

theorem logExcess_signal {b t t' : ℝ} (hb : statEps ≤ b) (ht : 0 ≤ t) (htt : t ≤ t') :
    bakerCousinsBin b (b + t) ≤ bakerCousinsBin b (b + t') := by
  have hpos := statEps_pos
  have h0 : 0 < b := by linarith
  have h1 : 0 < b + t := by linarith
  have h1' : 0 < b + t' := by linarith
  rw [logExcess_eq hb ht, logExcess_eq hb (ht.trans htt)]
  have k1 : log ((b + t') / b) - log ((b + t) / b) ≤ (t' - t) / (b + t) := by
    rw [← log_div (by positivity) (by positivity)]
    refine (log_le_sub_one_of_pos (by positivity)).trans (le_of_eq ?_)
    field_simp
    ring
  have k2 : b * ((t' - t) / (b + t)) ≤ t' - t := by
    rw [← mul_div_assoc, div_le_iff₀ h1]
    nlinarith
  have k3 := mul_le_mul_of_nonneg_left k1 h0.le
  linarith

/-- With more background, the same signal is less of an excess. -/
theorem excess_background (s : Stat) {b b' t : ℝ} (hb : zeroThreshold ≤ b) (hbb : b ≤ b') (ht : 0 ≤ t) :
    s.core.bin b' (b' + t) ≤ s.core.bin b (b + t) := by
  rw [threshold_eq] at hb
  have hpos := statEps_pos
  have h0 : 0 < b := by linarith
  have hlog := logExcess_background hb hbb ht
  have e1 : statEps ≤ b + t := by linarith
  have e2 : statEps ≤ b' + t := by linarith
  cases s with
  | bcChi => exact mul_le_mul_of_nonneg_left hlog (by norm_num)
  | bcChiUp =>
    simp only [Stat.core, Stat.bin]
    rw [if_neg (by linarith), if_neg (by linarith)]
    linarith
  | bcLL => exact hlog
  | extLL => exact hlog
  | neyman =>
    simp only [Stat.core, Stat.bin, neymanBin]
    rw [if_neg (not_lt.2 e1), if_neg (not_lt.2 e2), clampEps_of_ge hb, clampEps_of_ge (hb.trans hbb),
      add_sub_cancel_left, add_sub_cancel_left]
    exact div_le_div_of_nonneg_left (sq_nonneg t) h0 hbb
  | pearson =>
    simp only [Stat.core, Stat.bin, pearsonBin]
    rw [if_neg (not_lt.2 hb), if_neg (not_lt.2 (hb.trans hbb)), clampEps_of_ge e1, clampEps_of_ge e2]
    have : ∀ c : ℝ, (c - (c + t)) ^ 2 = t ^ 2 := fun c => by ring
    rw [this, this]
    exact div_le_div_of_nonneg_left (sq_nonneg t) (by linarith) (by linarith)

/-- More signal is more of an excess. -/
theorem excess_signal (s : Stat) {b t t' : ℝ} (hb : zeroThreshold ≤ b) (ht : 0 ≤ t) (htt : t ≤ t') :
    s.core.bin b (b + t) ≤ s.core.bin b (b + t') := by
  rw [threshold_eq] at hb
  have hpos := statEps_pos
  have h0 : 0 < b := by linarith
  have hlog := logExcess_signal hb ht htt
  have e1 : statEps ≤ b + t := by linarith
  have e2 : statEps ≤ b + t' := by linarith
  cases s with
  | bcChi => exact mul_le_mul_of_nonneg_left hlog (by norm_num)
  | bcChiUp =>
    simp only [Stat.core, Stat.bin]
    rw [if_neg (by linarith), if_neg (by linarith)]
    linarith
  | bcLL => exact hlog
  | extLL => exact hlog
  | neyman =>
    simp only [Stat.core, Stat.bin, neymanBin]
    rw [if_neg (not_lt.2 e1), if_neg (not_lt.2 e2), clampEps_of_ge hb,
      add_sub_cancel_left, add_sub_cancel_left]
    exact div_le_div_of_nonneg_right (pow_le_pow_left₀ ht htt 2) h0.le
  | pearson =>
    simp only [Stat.core, Stat.bin, pearsonBin]
    rw [if_neg (not_lt.2 hb), if_neg (not_lt.2 hb), clampEps_of_ge e1, clampEps_of_ge e2]
    have : ∀ t : ℝ, (b - (b + t)) ^ 2 = t ^ 2 := fun t => by ring
    rw [this, this, div_le_div_iff₀ (by linarith) (by linarith)]
    have n1 : t ^ 2 ≤ t' ^ 2 := pow_le_pow_left₀ ht htt 2
    have n2 : 0 ≤ t * t' * (t' - t) := mul_nonneg (mul_nonneg ht (ht.trans htt)) (by linarith)
    nlinarith

/-- Background and signal times the same factor. -/
theorem excess_exposure (s : Stat) {b t k : ℝ} (hb : zeroThreshold ≤ b) (ht : 0 ≤ t) (hk : 1 ≤ k) :
    s.core.bin (k * b) (k * b + k * t) = k * s.core.bin b (b + t) := by
  rw [threshold_eq] at hb
  have hpos := statEps_pos
  have h0 : 0 < b := by linarith
  have hk0 : 0 < k := by linarith
  have hkb : statEps ≤ k * b := hb.trans (le_mul_of_one_le_left h0.le hk)
  have hkt : 0 ≤ k * t := mul_nonneg hk0.le ht
  have hlog : bakerCousinsBin (k * b) (k * b + k * t) = k * bakerCousinsBin b (b + t) := by
    rw [logExcess_eq hkb hkt, logExcess_eq hb ht, ← mul_add, mul_div_mul_left _ _ hk0.ne']
    ring
  have e1 : statEps ≤ b + t := by linarith
  have e2 : statEps ≤ k * b + k * t := by linarith
  cases s with
  | bcChi => simp only [Stat.core, Stat.bin]; rw [hlog]; ring
  | bcChiUp =>
    simp only [Stat.core, Stat.bin]
    rw [if_neg (by linarith), if_neg (by linarith), hlog]
    ring
  | bcLL => exact hlog
  | extLL => exact hlog
  | neyman =>
    simp only [Stat.core, Stat.bin, neymanBin]
    rw [if_neg (not_lt.2 e1), if_neg (not_lt.2 e2), clampEps_of_ge hb, clampEps_of_ge hkb,
      add_sub_cancel_left, add_sub_cancel_left]
    field_simp
  | pearson =>
    simp only [Stat.core, Stat.bin, pearsonBin]
    rw [if_neg (not_lt.2 hb), if_neg (not_lt.2 hkb), clampEps_of_ge e1, clampEps_of_ge e2, ← mul_add,
      ← mul_sub]
    have : b + t ≠ 0 := by linarith
    field_simp

/-- Limits of two programs in which the expected background is observed. -/
theorem asimov_ordered (h : a.Counts r d ts st bkg bkg sig) (h' : a'.Counts r' d' ts' st' bkg' bkg' sig')
    (hb : ∀ b ∈ bkg, zeroThreshold ≤ b) (hs : ∀ k ∈ sig, 0 ≤ k) (hb' : ∀ b ∈ bkg', zeroThreshold ≤ b)
    (hs' : ∀ k ∈ sig', 0 ≤ k) (hF : ∀ x : ℝ, 0 ≤ x → a'.stat.core.sumBins bkg' (expectedAt bkg' sig' x) ≤
      a.stat.core.sumBins bkg (expectedAt bkg sig x))
    (search search' : GridSearch) (hpars : search.pars = []) (hpars' : search'.pars = []) :
    ∃ ses₁ st₁ w₁ ses₂ st₂ w₂,
      init keyOf a st = (st₁, .ok ses₁) ∧ init keyOf a' st' = (st₂, .ok ses₂) ∧
      Fitter.limitInit ⟨ses₁, st₁, search⟩ r true = (w₁, .ok ()) ∧
      Fitter.limitInit ⟨ses₂, st₂, search'⟩ r' true = (w₂, .ok ()) ∧
      ∀ (calls calls' : List LimitCall) (scales : List ℝ), Testable rnd (allScales calls ++ scales) →
      Testable rnd (allScales calls' ++ scales) → PlainScales rnd scales → 0 ∈ scales →
      ∀ (sigmas : List (Option ℝ)), (∀ s ∈ sigmas, s ≠ none) → ∀ (limit : ℝ),
      (∀ x', ((w₂.afterCalls env rnd r' calls').limitOf env rnd r' scales sigmas none limit).2 = .ok x' →
        ∃ x, x ≤ x' ∧
          ((w₁.afterCalls env rnd r calls).limitOf env rnd r scales sigmas none limit).2 = .ok x) ∧
      (((w₁.afterCalls env rnd r calls).limitOf env rnd r scales sigmas none limit).2 =
          .error .limitError →
        ((w₂.afterCalls env rnd r' calls').limitOf env rnd r' scales sigmas none limit).2 =
          .error .limitError) := by
  obtain ⟨ses₁, st₁, w₁, i1, i2, i3⟩ := h.asimov (env := env) (keyOf := keyOf) (rnd := rnd)
    hb hs search hpars
  obtain ⟨ses₂, st₂, w₂, j1, j2, j3⟩ := h'.asimov (env := env) (keyOf := keyOf) (rnd := rnd)
    hb' hs' search' hpars'
  refine ⟨ses₁, st₁, w₁, ses₂, st₂, w₂, i1, j1, i2, j2, ?_⟩
  intro calls calls' scales ht ht' hp hz sigmas hsg limit
  obtain ⟨k1, k2⟩ := i3 calls scales ht hp hz sigmas hsg limit
  obtain ⟨l1, l2⟩ := j3 calls' scales ht' hp hz sigmas hsg limit
  obtain ⟨m1, m2⟩ := crossing_larger (limit := limit) (fun y _ h0 => hF y h0) (scales := scales)
  refine ⟨fun x' hx' => ?_, fun he => l2.2 (m2 (k2.1 he))⟩
  obtain ⟨x, hle, hx⟩ := m1 x' ((l1 x').1 hx')
  exact ⟨x, hle, (k1 x).2 hx⟩

theorem sumBins_bins (s : Stat) (x : ℝ) : s.sumBins bkg (expectedAt bkg sig x) =
    ((bkg.zip sig).map (fun b => s.bin b.1 (b.1 + x * b.2))).sum := by
  unfold Stat.sumBins expectedAt
  congr 1
  induction bkg generalizing sig with
  | nil => simp
  | cons b bkg ih =>
    cases sig with
    | nil => simp
    | cons k sig => simp [ih]

end Verif
