import Mathlib.Analysis.SpecialFunctions.Log.Basic
import Mathlib.Analysis.SpecialFunctions.Pow.Asymptotics
import Mathlib.Order.Filter.Finite
import Verif.Props.SideBands

/-! # Lemmas about statistics at large scalings -/

namespace Verif

open Filter Real

theorem linear_log_atTop (k : ℝ) : Tendsto (fun e : ℝ => e - k * log e) atTop atTop := by
  have h := (isLittleO_log_id_atTop.const_mul_left k).def (half_pos one_pos)
  refine tendsto_atTop_mono' atTop ?_ (tendsto_id.atTop_div_const (two_pos : (0 : ℝ) < 2))
  filter_upwards [h, eventually_ge_atTop (0 : ℝ)] with e h1 h2
  simp only [id, norm_eq_abs, abs_of_nonneg h2] at h1 ⊢
  have := (abs_le.1 h1).2
  linarith

theorem bakerCousins_atTop (o : ℝ) : Tendsto (fun e => bakerCousinsBin o e) atTop atTop := by
  by_cases ho : o < statEps
  · refine tendsto_atTop_mono (fun e => ?_) tendsto_id
    simp only [bakerCousinsBin, if_pos ho, clampEps, id]
    split_ifs with h
    · exact h.le
    · exact le_rfl
  · have hpos := statEps_pos
    refine ((tendsto_atTop_add_const_right atTop (o * log o - o) (linear_log_atTop o))).congr' ?_
    filter_upwards [eventually_ge_atTop statEps] with e he
    simp only [bakerCousinsBin, if_neg ho, clampEps_of_ge he]
    rw [log_div (by linarith) (by linarith)]
    ring

/-- A bin grows beyond all bounds with the expected contents. -/
theorem bin_atTop (s : Stat) (o : ℝ) : Tendsto (fun e => s.bin o e) atTop atTop := by
  have hpos := statEps_pos
  cases s with
  | bcChi => exact (bakerCousins_atTop o).const_mul_atTop two_pos
  | bcChiUp =>
    refine ((bakerCousins_atTop o).const_mul_atTop two_pos).congr' ?_
    filter_upwards [eventually_ge_atTop o] with e he
    simp only [Stat.bin, if_neg (not_lt.2 he)]
  | bcLL => exact bakerCousins_atTop o
  | neyman =>
    have hc := clampEps_ge o
    refine tendsto_atTop_mono' atTop ?_ (tendsto_atTop_add_const_right atTop (-clampEps o) tendsto_id)
    filter_upwards [eventually_ge_atTop statEps, eventually_ge_atTop (2 * clampEps o)] with e h1 h2
    simp only [Stat.bin, neymanBin, if_neg (not_lt.2 h1), id]
    rw [le_div_iff₀ (by linarith)]
    nlinarith
  | pearson =>
    by_cases ho : o < statEps
    · refine tendsto_atTop_mono (fun e => ?_) tendsto_id
      simp only [Stat.bin, pearsonBin, if_pos ho, clampEps, id]
      split_ifs with h
      · exact h.le
      · exact le_rfl
    · refine tendsto_atTop_mono' atTop ?_ (tendsto_atTop_add_const_right atTop (-(2 * o)) tendsto_id)
      filter_upwards [eventually_ge_atTop statEps] with e he
      simp only [Stat.bin, pearsonBin, if_neg ho, clampEps_of_ge he, id]
      rw [le_div_iff₀ (by linarith)]
      nlinarith [sq_nonneg o]
  | extLL =>
    refine (linear_log_atTop o).congr' ?_
    filter_upwards [eventually_ge_atTop statEps] with e he
    simp only [Stat.bin, clampEps_of_ge he]

theorem bins_lower (s : Stat) (L : List (ℝ × ℝ × ℝ)) (h0 : s = .extLL → ∀ b ∈ L, 0 ≤ b.2.2) :
    ∃ C, ∀ᶠ x : ℝ in atTop, C ≤ (L.map (fun b => s.bin b.1 (b.2.1 + x * b.2.2))).sum := by
  induction L with
  | nil => exact ⟨0, by simp⟩
  | cons b L ih =>
    obtain ⟨C, hC⟩ := ih fun h c hc => h0 h c (List.mem_cons_of_mem _ hc)
    have hd : ∃ D, ∀ᶠ x : ℝ in atTop, D ≤ s.bin b.1 (b.2.1 + x * b.2.2) := by
      rcases lt_trichotomy b.2.2 0 with hk | hk | hk
      · exact ⟨0, .of_forall fun x => bin_nonneg (fun h => absurd (h0 h b (by simp)) (not_le.2 hk)) _ _⟩
      · exact ⟨s.bin b.1 b.2.1, .of_forall fun x => by simp [hk]⟩
      · exact ⟨0, ((bin_atTop s b.1).comp (tendsto_atTop_add_const_left atTop _
          (tendsto_id.atTop_mul_const hk))).eventually_ge_atTop 0⟩
    obtain ⟨D, hD⟩ := hd
    refine ⟨D + C, ?_⟩
    filter_upwards [hC, hD] with x h1 h2
    simp only [List.map_cons, List.sum_cons]
    exact add_le_add h2 h1

theorem bins_atTop (s : Stat) (L : List (ℝ × ℝ × ℝ)) (h0 : s = .extLL → ∀ b ∈ L, 0 ≤ b.2.2)
    (hpos : ∃ b ∈ L, 0 < b.2.2) :
    Tendsto (fun x : ℝ => (L.map (fun b => s.bin b.1 (b.2.1 + x * b.2.2))).sum) atTop atTop := by
  obtain ⟨b, hb, hk⟩ := hpos
  obtain ⟨L₁, L₂, rfl⟩ := List.append_of_mem hb
  obtain ⟨C, hC⟩ := bins_lower s (L₁ ++ L₂) fun h c hc => h0 h c (by
    rcases List.mem_append.1 hc with hc | hc <;> simp [hc])
  refine (tendsto_atTop_add_left_of_le' atTop C hC ((bin_atTop s b.1).comp (tendsto_atTop_add_const_left
    atTop b.2.1 (tendsto_id.atTop_mul_const hk)))).congr fun x => ?_
  simp only [List.map_append, List.map_cons, List.sum_append, List.sum_cons, Function.comp, id]
  ring

variable {obs bkg sig : List ℝ}

/-- The statistic grows beyond all bounds with the scaling of a signal. -/
theorem sumBins_atTop (s : Stat) (hl : obs.length = bkg.length) (hl' : bkg.length = sig.length)
    (h0 : s = .extLL → ∀ k ∈ sig, 0 ≤ k) (hpos : ∃ k ∈ sig, 0 < k) :
    Tendsto (fun x => s.sumBins obs (expectedAt bkg sig x)) atTop atTop := by
  simp only [expected_bins]
  refine bins_atTop s _ ?_ ?_
  · rintro h ⟨o, b, k⟩ hm
    exact h0 h k (List.of_mem_zip (List.of_mem_zip hm).2).2
  · obtain ⟨k, hk, hne⟩ := hpos
    obtain ⟨i, hi, rfl⟩ := List.getElem_of_mem hk
    refine ⟨(obs[i]'(by omega), bkg[i]'(by omega), sig[i]), ?_, hne⟩
    rw [List.mem_iff_getElem]
    exact ⟨i, by simp; omega, by simp⟩

theorem combination_finite (vss : List (List ℝ)) : {u | Combination vss u}.Finite := by
  induction vss with
  | nil =>
    refine (Set.finite_singleton []).subset fun u hu => ?_
    have : Combination [] u := hu
    cases this
    rfl
  | cons vs vss ih =>
    refine (Set.Finite.image2 List.cons vs.finite_toSet ih).subset fun u hu => ?_
    obtain ⟨x, u', hx, hu', rfl⟩ :=
      List.forall₂_cons_right_iff.1 (show List.Forall₂ (· ∈ ·) u (vs :: vss) from hu)
    exact ⟨x, hx, u', hu', rfl⟩

/-- A scaling that crosses gives a first one that does. -/
theorem firstCrossing_exists {scales : List ℝ} {F : ℝ → ℝ} {b limit : ℝ}
    (h : ∃ x ∈ scales, b ≤ x ∧ limit < F x) : ∃ x, FirstCrossing scales F b limit x := by
  classical
  have hne : (scales.toFinset.filter (fun x => b ≤ x ∧ limit < F x)).Nonempty := by
    obtain ⟨x, hx, h1⟩ := h
    exact ⟨x, by simp [hx, h1]⟩
  obtain ⟨x, hx, hmin⟩ := Finset.exists_min_image _ id hne
  have hx' : x ∈ scales ∧ b ≤ x ∧ limit < F x := by simpa using hx
  refine ⟨x, hx'.1, hx'.2.1, hx'.2.2, fun y hy hby hyx => ?_⟩
  by_contra hlt
  have := hmin y (by simp [hy, hby, not_le.1 hlt])
  simp only [id] at this
  linarith

end Verif
