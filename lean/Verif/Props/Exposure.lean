import Verif.Lemmas.StatMerge
import Verif.Props.Merge

/-! # C131: statistics are proportional to the exposure -/

namespace Verif

open Real (log log_div log_mul)

theorem bin_times {st : Stat} (hst : st ≠ .extLL) {k : ℝ} (hk : 0 < k) {o e : ℝ}
    (h : st.CountsTimes k (o, e)) : st.bin (k * o) (k * e) = k * st.bin o e := by
  obtain ⟨ho, he, hke⟩ := h
  dsimp only at ho he hke
  rw [show zeroThreshold = statEps from rfl] at ho he hke
  have hpos := statEps_pos
  have he0 := hpos.trans_le he
  have hBC : st ≠ .neyman → bakerCousinsBin (k * o) (k * e) = k * bakerCousinsBin o e := by
    intro hn
    have h1 : o = 0 ∨ statEps ≤ o := ho.imp (fun h => h.1) (fun h => h.1)
    have h2 : k * o = 0 ∨ statEps ≤ k * o := ho.imp (fun h => by rw [h.1, mul_zero]) (fun h => h.2)
    rw [bakerCousinsBin_eq h1 he, bakerCousinsBin_eq h2 hke, mul_div_mul_left _ _ hk.ne']
    ring
  cases st
  case extLL => exact absurd rfl hst
  case bcChi => simp only [Stat.bin]; rw [hBC (by simp)]; ring
  case bcLL => simp only [Stat.bin]; rw [hBC (by simp)]
  case bcChiUp =>
    simp only [Stat.bin]
    rw [hBC (by simp)]
    have : k * e < k * o ↔ e < o := by constructor <;> intro h <;> nlinarith
    simp only [this]
    split <;> ring
  case pearson =>
    simp only [Stat.bin, pearsonBin, clampEps_of_ge he, clampEps_of_ge hke]
    rcases ho with ⟨rfl, -⟩ | ⟨h1, h2⟩
    · rw [mul_zero, if_pos hpos, if_pos hpos]
    · rw [if_neg (not_lt.2 h1), if_neg (not_lt.2 h2)]
      field_simp
  case neyman =>
    obtain ⟨h1, h2⟩ := ho.resolve_left fun h => h.2 rfl
    have ho0 := hpos.trans_le h1
    simp only [Stat.bin, neymanBin, clampEps_of_ge h1, clampEps_of_ge h2]
    rw [if_neg (not_lt.2 he), if_neg (not_lt.2 hke)]
    field_simp

/-- **C131.** Multiplying all observed and expected contents by the same factor multiplies the
statistic by this factor, for all statistics but the extended likelihood, as long as the contents
count. -/
theorem c131_exposure (st : Stat) (hst : st ≠ .extLL) (k : ℝ) (hk : 0 < k) (bins : List (ℝ × ℝ))
    (h : ∀ b ∈ bins, st.CountsTimes k b) (v : ℝ)
    (hv : st.Total (bins.map Prod.fst) (bins.map Prod.snd) v) :
    st.Total (bins.map (fun b => k * b.1)) (bins.map (fun b => k * b.2)) (k * v) := by
  rw [total_iff st (by simp), zip_fst_snd] at hv
  rw [total_iff st (by simp), hv]
  clear hv
  induction bins with
  | nil => simp
  | cons b L ih =>
    simp only [List.map_cons, List.sum_cons, List.zip_cons_cons, mul_add]
    rw [bin_times hst hk (h b (by simp)), ← ih fun b hb => h b (by simp [hb])]

/-- **C131, extended likelihood.** For the extended likelihood the same holds of the difference
between two models for the same data: with all contents multiplied, differences are. -/
theorem c131_likelihood (k : ℝ) (hk : 0 < k) (bins : List (ℝ × ℝ × ℝ))
    (h : ∀ b ∈ bins, (zeroThreshold ≤ b.2.1 ∧ zeroThreshold ≤ k * b.2.1) ∧
      zeroThreshold ≤ b.2.2 ∧ zeroThreshold ≤ k * b.2.2) (v v' w w' : ℝ)
    (hv : Stat.extLL.Total (bins.map (fun b => b.1)) (bins.map (fun b => b.2.1)) v)
    (hv' : Stat.extLL.Total (bins.map (fun b => b.1)) (bins.map (fun b => b.2.2)) v')
    (hw : Stat.extLL.Total (bins.map (fun b => k * b.1)) (bins.map (fun b => k * b.2.1)) w)
    (hw' : Stat.extLL.Total (bins.map (fun b => k * b.1)) (bins.map (fun b => k * b.2.2)) w') :
    w - w' = k * (v - v') := by
  rw [total_iff _ (by simp)] at hv hv' hw hw'
  subst hv hv' hw hw'
  have hpos := statEps_pos
  induction bins with
  | nil => simp
  | cons b L ih =>
    obtain ⟨⟨h1, h2⟩, h3, h4⟩ := h b (by simp)
    have := ih fun b hb => h b (by simp [hb])
    simp only [List.map_cons, List.sum_cons, List.zip_cons_cons, Stat.bin, clampEps_of_ge h1,
      clampEps_of_ge h2, clampEps_of_ge h3, clampEps_of_ge h4] at this ⊢
    rw [log_mul hk.ne' (hpos.trans_le h1).ne', log_mul hk.ne' (hpos.trans_le h3).ne']
    linarith

/-- **C131, spectra.** Scaling data and model spectrum to `k` times their numbers of decays
multiplies the statistic by `k`. -/
theorem c131_spectra (st : Stat) (hst : st ≠ .extLL) (k : ℚ) (hk : 0 < k) (s t : Spectrum)
    (hs : s.numDecays ≠ 0) (ht : t.numDecays ≠ 0) (hshape : t.data.shape = s.data.shape)
    (h : ∀ idx, InB s.data.shape idx →
      st.CountsTimes k (((s.data.get idx : ℚ) : ℝ), ((t.data.get idx : ℚ) : ℝ)))
    (v : ℝ) (hv : st.Total (ravel s.data) (ravel t.data) v) :
    st.Total (ravel (s.scale (k * s.numDecays)).st.data) (ravel (t.scale (k * t.numDecays)).st.data)
      (k * v) := by
  have e : ∀ u : Spectrum, u.numDecays ≠ 0 → (u.scale (k * u.numDecays)).st.data = u.data.smul k := by
    intro u hu
    unfold Spectrum.scale
    rw [if_neg hu, mul_div_assoc, div_self hu, mul_one]
    rfl
  rw [e s hs, e t ht, ravel_total (by exact hshape)]
  rw [ravel_total hshape] at hv
  rw [hv, ← List.sum_map_mul_left]
  congr 1
  refine List.map_congr_left fun idx hi => ?_
  rw [← bin_times hst (by exact_mod_cast hk) (h idx (mem_allIdx.1 hi))]
  simp [NdArray.smul, mul_comm]

example : Stat.bcChi.CountsTimes 3 (0, 2) ∧ Stat.neyman.CountsTimes (1 / 2) (4, 2) := by
  constructor
  · refine ⟨.inl ⟨rfl, by simp⟩, ?_, ?_⟩ <;> norm_num [zeroThreshold]
  · refine ⟨.inr ⟨?_, ?_⟩, ?_, ?_⟩ <;> norm_num [zeroThreshold]

/-- The spectra of the example of C130 meet the hypotheses. -/
example (st : Stat) : Ex.spec.numDecays ≠ 0 ∧ Ex.flatModel.numDecays ≠ 0 ∧
    ∀ idx, InB Ex.spec.data.shape idx →
      st.CountsTimes (2 : ℚ) (((Ex.spec.data.get idx : ℚ) : ℝ), ((Ex.flatModel.data.get idx : ℚ) : ℝ)) := by
  have h2 : zeroThreshold ≤ 1 := by unfold zeroThreshold; norm_num
  refine ⟨by norm_num [Ex.spec], by norm_num [Ex.flatModel, Ex.spec], fun idx h => ?_⟩
  have hx : (1 : ℝ) ≤ ((Ex.spec.data.get idx : ℚ) : ℝ) := by
    match idx, h with
    | [i, j], h =>
      have h3 : Ex.spec.data.get [i, j] = (i : ℚ) + 2 * (j : ℚ) + 1 := rfl
      rw [h3]
      push_cast
      have : (0 : ℝ) ≤ i := Nat.cast_nonneg _
      have : (0 : ℝ) ≤ j := Nat.cast_nonneg _
      linarith
    | [], h => simp [Ex.spec] at h
    | [_], h => simp [Ex.spec] at h
    | _ :: _ :: _ :: _, h => simp [Ex.spec] at h
  have hy : ((Ex.flatModel.data.get idx : ℚ) : ℝ) = 2 := by
    change ((2 : ℚ) : ℝ) = 2
    norm_num
  refine ⟨.inr ⟨h2.trans hx, ?_⟩, ?_, ?_⟩
  · push_cast
    linarith
  · rw [hy]; linarith
  · rw [hy]; push_cast; linarith

end Verif
