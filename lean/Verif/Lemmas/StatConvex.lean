import Verif.Lemmas.StatMerge
import Verif.Spec.Convex

/-! # Lemmas about lines below the statistics -/

namespace Verif

open Real

theorem clampEps_line (e₀ : ℝ) : ∃ c, ∀ e, clampEps e₀ + c * (e - e₀) ≤ clampEps e := by
  by_cases h : e₀ < statEps
  · refine ⟨0, fun e => ?_⟩
    have : clampEps e₀ = statEps := by unfold clampEps; rw [if_pos h]
    rw [this, zero_mul, add_zero]
    exact clampEps_ge e
  · refine ⟨1, fun e => ?_⟩
    rw [clampEps_of_ge (not_lt.1 h)]
    have := clampEps_self_le e
    linarith

/-- A line below the statistic of a bin that touches it at a given expectation. -/
theorem bin_line {st : Stat} {o e₀ : ℝ} (h₀ : st.SoundBin o e₀) :
    ∃ c, ∀ e, st.SoundBin o e → st.bin o e₀ + c * (e - e₀) ≤ st.bin o e := by
  have hpos := statEps_pos
  by_cases hn : st = .neyman
  · subst hn
    obtain ⟨ho, he⟩ := h₀
    refine ⟨2 * (e₀ / o) - 2, fun e h => ?_⟩
    have h1 := neymanBin_line (r := e₀ / o) ho (.inr h.2)
    simp only [Stat.bin]
    rw [neymanBin_at ho (.inr he)]
    linarith
  by_cases hx : st = .extLL
  · subst hx
    obtain ⟨ho, hp, he⟩ := h₀
    rcases ho with rfl | ho
    · refine ⟨1, fun e _ => ?_⟩
      simp only [Stat.bin, zero_mul]
      linarith
    · have hop := hpos.trans_le ho
      have he : statEps ≤ e₀ := he.resolve_left hop.ne'
      have hep := hpos.trans_le he
      refine ⟨1 - o / e₀, fun e h => ?_⟩
      have he' : statEps ≤ e := h.2.2.resolve_left hop.ne'
      have hep' := hpos.trans_le he'
      simp only [Stat.bin, clampEps_of_ge he, clampEps_of_ge he']
      have h1 := log_le_sub_one_of_pos (div_pos hep' hep)
      rw [log_div hep'.ne' hep.ne'] at h1
      have h2 := mul_le_mul_of_nonneg_left h1 hop.le
      have h3 : o * (e / e₀ - 1) = o / e₀ * (e - e₀) := by field_simp
      rw [h3] at h2
      linarith
  have hs : ∀ e, st.SoundBin o e ↔ ((o = 0 ∨ statEps ≤ o) ∧ 0 ≤ e ∧ (o = 0 ∨ statEps ≤ e)) := by
    intro e
    cases st <;> first | exact Iff.rfl | exact absurd rfl hn
  obtain ⟨ho, hp, he⟩ := (hs e₀).1 h₀
  rcases ho with rfl | ho
  · obtain ⟨c, hc⟩ := clampEps_line e₀
    obtain ⟨f, hf, hbin⟩ : ∃ c : ℝ, 0 ≤ c ∧ ∀ e, 0 ≤ e → st.bin 0 e = c * clampEps e := by
      cases st
      case neyman => exact absurd rfl hn
      case extLL => exact absurd rfl hx
      case bcChi => exact ⟨2, by norm_num, fun e _ => by simp only [Stat.bin, bakerCousinsBin_zero]⟩
      case bcLL => exact ⟨1, by norm_num, fun e _ => by simp only [Stat.bin, bakerCousinsBin_zero, one_mul]⟩
      case pearson =>
        refine ⟨1, by norm_num, fun e _ => ?_⟩
        simp only [Stat.bin, pearsonBin, one_mul]
        rw [if_pos statEps_pos]
      case bcChiUp =>
        refine ⟨2, by norm_num, fun e he => ?_⟩
        simp only [Stat.bin, bakerCousinsBin_zero]
        rw [if_neg (not_lt.2 he)]
    refine ⟨f * c, fun e h => ?_⟩
    rw [hbin _ hp, hbin _ ((hs e).1 h).2.1]
    have := mul_le_mul_of_nonneg_left (hc e) hf
    linarith
  · have hop := hpos.trans_le ho
    have he : statEps ≤ e₀ := he.resolve_left hop.ne'
    have hep := hpos.trans_le he
    have hr : 0 < o / e₀ := div_pos hop hep
    have hbc := bakerCousinsBin_at ho he
    cases st
    case neyman => exact absurd rfl hn
    case extLL => exact absurd rfl hx
    case bcChi =>
      refine ⟨2 * (1 - o / e₀), fun e h => ?_⟩
      have h1 := bakerCousinsBin_line h.1 h.2.1 h.2.2 hr
      simp only [Stat.bin]
      rw [hbc]
      linarith
    case bcLL =>
      refine ⟨1 - o / e₀, fun e h => ?_⟩
      have h1 := bakerCousinsBin_line h.1 h.2.1 h.2.2 hr
      simp only [Stat.bin]
      rw [hbc]
      linarith
    case pearson =>
      refine ⟨1 - (o / e₀) ^ 2, fun e h => ?_⟩
      have h1 := pearsonBin_line (r := o / e₀) h.1 h.2.1 h.2.2
      simp only [Stat.bin]
      rw [pearsonBin_at (.inr ho) he]
      linarith
    case bcChiUp =>
      by_cases hlt : e₀ < o
      · refine ⟨0, fun e h => ?_⟩
        simp only [Stat.bin]
        rw [if_pos hlt, zero_mul, add_zero]
        split
        · exact le_rfl
        · have := bakerCousinsBin_nonneg o e; linarith
      · have hr1 : o / e₀ ≤ 1 := (div_le_one hep).2 (not_lt.1 hlt)
        refine ⟨2 * (1 - o / e₀), fun e h => ?_⟩
        have h1 := bakerCousinsBin_line h.1 h.2.1 h.2.2 hr
        simp only [Stat.bin]
        rw [if_neg hlt, hbc]
        split
        · rename_i hb'
          have h1 := log_le_sub_one_of_pos hr
          have h2 : (1 - o / e₀) * e ≤ (1 - o / e₀) * o :=
            mul_le_mul_of_nonneg_left hb'.le (by linarith)
          have h3 : log (o / e₀) * o ≤ (o / e₀ - 1) * o := mul_le_mul_of_nonneg_right h1 hop.le
          linarith
        · linarith

theorem soundBin_mid {st : Stat} {o e e' t : ℝ} (ht : 0 ≤ t) (ht' : t ≤ 1) (h : st.SoundBin o e)
    (h' : st.SoundBin o e') : st.SoundBin o ((1 - t) * e + t * e') := by
  have key : ∀ a : ℝ, a ≤ e → a ≤ e' → a ≤ (1 - t) * e + t * e' := by
    intro a h1 h2
    have h3 := mul_le_mul_of_nonneg_left h1 (show 0 ≤ 1 - t by linarith)
    have h4 := mul_le_mul_of_nonneg_left h2 ht
    linarith
  cases st
  case neyman => exact ⟨h.1, key _ h.2 h'.2⟩
  all_goals
    refine ⟨h.1, key _ h.2.1 h'.2.1, ?_⟩
    rcases h.2.2 with h0 | h0
    · exact .inl h0
    · rcases h'.2.2 with h1 | h1
      · exact .inl h1
      · exact .inr (key _ h0 h1)

theorem bin_convex {st : Stat} {o e e' t : ℝ} (ht : 0 ≤ t) (ht' : t ≤ 1) (h : st.SoundBin o e)
    (h' : st.SoundBin o e') :
    st.bin o ((1 - t) * e + t * e') ≤ (1 - t) * st.bin o e + t * st.bin o e' := by
  obtain ⟨c, hc⟩ := bin_line (soundBin_mid ht ht' h h')
  have h1 := mul_le_mul_of_nonneg_left (hc e h) (show 0 ≤ 1 - t by linarith)
  have h2 := mul_le_mul_of_nonneg_left (hc e' h') ht
  obtain ⟨m, hm⟩ : ∃ m, m = (1 - t) * e + t * e' := ⟨_, rfl⟩
  rw [← hm] at h1 h2 ⊢
  have h3 : c * ((1 - t) * e + t * e' - m) = 0 := by rw [hm]; ring
  linarith

theorem sum_zip_convex {st : Stat} {t : ℝ} (ht : 0 ≤ t) (ht' : t ≤ 1) {obs bkg sig : List ℝ} {x y : ℝ}
    (hlen : bkg.length = sig.length)
    (hx : st.Sound obs (expectedAt bkg sig x)) (hy : st.Sound obs (expectedAt bkg sig y)) :
    ((obs.zip (expectedAt bkg sig ((1 - t) * x + t * y))).map (fun b => st.bin b.1 b.2)).sum ≤
      (1 - t) * ((obs.zip (expectedAt bkg sig x)).map (fun b => st.bin b.1 b.2)).sum +
      t * ((obs.zip (expectedAt bkg sig y)).map (fun b => st.bin b.1 b.2)).sum := by
  induction bkg generalizing obs sig with
  | nil =>
    cases hx
    simp [expectedAt]
  | cons b bkg ih =>
    cases sig with
    | nil => simp at hlen
    | cons s sig =>
      cases hx with
      | cons h1 h2 =>
        cases hy with
        | cons h3 h4 =>
          have := ih (by simpa using hlen) h2 h4
          have hb := bin_convex ht ht' h1 h3
          have e : b + ((1 - t) * x + t * y) * s = (1 - t) * (b + x * s) + t * (b + y * s) := by ring
          simp only [expectedAt, List.zipWith_cons_cons, List.zip_cons_cons, List.map_cons,
            List.sum_cons, e] at this ⊢
          linarith

theorem sound_mid {st : Stat} {t : ℝ} (ht : 0 ≤ t) (ht' : t ≤ 1) {obs bkg sig : List ℝ} {x y : ℝ}
    (hx : st.Sound obs (expectedAt bkg sig x)) (hy : st.Sound obs (expectedAt bkg sig y)) :
    st.Sound obs (expectedAt bkg sig ((1 - t) * x + t * y)) := by
  induction bkg generalizing obs sig with
  | nil => exact hx
  | cons b bkg ih =>
    cases sig with
    | nil => exact hx
    | cons s sig =>
      cases hx with
      | cons h1 h2 =>
        cases hy with
        | cons h3 h4 =>
          refine List.Forall₂.cons ?_ (ih h2 h4)
          have e : b + ((1 - t) * x + t * y) * s = (1 - t) * (b + x * s) + t * (b + y * s) := by ring
          change st.SoundBin _ (b + ((1 - t) * x + t * y) * s)
          rw [e]
          exact soundBin_mid ht ht' h1 h3

theorem sound_above {st : Stat} {obs bkg sig : List ℝ} {x y : ℝ} (hxy : x ≤ y)
    (hsig : ∀ s ∈ sig, 0 ≤ s) (hx : st.Sound obs (expectedAt bkg sig x)) :
    st.Sound obs (expectedAt bkg sig y) := by
  induction bkg generalizing obs sig with
  | nil => exact hx
  | cons b bkg ih =>
    cases sig with
    | nil => exact hx
    | cons s sig =>
      cases hx with
      | cons h1 h2 =>
        refine List.Forall₂.cons ?_ (ih (fun s hs => hsig s (by simp [hs])) h2)
        have hle : b + x * s ≤ b + y * s := by
          have := mul_le_mul_of_nonneg_right hxy (hsig s (by simp))
          linarith
        cases st
        case neyman => exact ⟨h1.1, h1.2.trans hle⟩
        all_goals
          exact ⟨h1.1, h1.2.1.trans hle, h1.2.2.imp_right fun h => h.trans hle⟩

end Verif
