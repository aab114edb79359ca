import Verif.Lemmas.TestStatistic
import Verif.Spec.Merge

/-! # Lemmas about merging bins: supporting lines of the statistics -/

namespace Verif

open Real

theorem bc_line {o e r : ℝ} (ho : 0 < o) (he : 0 < e) (hr : 0 < r) :
    log r * o + (1 - r) * e ≤ e - o + o * log (o / e) := by
  have h := (bc_core ho (mul_pos he hr)).1
  rw [div_mul_eq_div_div, log_div (by positivity) hr.ne'] at h
  linarith

theorem bakerCousinsBin_eq {o e : ℝ} (ho : o = 0 ∨ statEps ≤ o) (he : statEps ≤ e) :
    bakerCousinsBin o e = e - o + o * log (o / e) := by
  unfold bakerCousinsBin
  rw [clampEps_of_ge he]
  dsimp only
  rcases ho with rfl | ho
  · rw [if_pos statEps_pos]; simp
  · rw [if_neg (not_lt.2 ho)]

theorem bakerCousinsBin_zero (e : ℝ) : bakerCousinsBin 0 e = clampEps e := by
  unfold bakerCousinsBin
  dsimp only
  rw [if_pos statEps_pos]

theorem clampEps_self_le (e : ℝ) : e ≤ clampEps e := by
  unfold clampEps
  split
  · rename_i h; exact h.le
  · exact le_rfl

theorem bakerCousinsBin_line {o e r : ℝ} (ho : o = 0 ∨ statEps ≤ o) (he0 : 0 ≤ e)
    (he : o = 0 ∨ statEps ≤ e) (hr : 0 < r) : log r * o + (1 - r) * e ≤ bakerCousinsBin o e := by
  rcases ho with rfl | ho
  · rw [bakerCousinsBin_zero]
    have := clampEps_self_le e
    have : 0 ≤ r * e := by positivity
    linarith
  · have hp := statEps_pos.trans_le ho
    have he : statEps ≤ e := he.resolve_left hp.ne'
    rw [bakerCousinsBin_eq (.inr ho) he]
    exact bc_line hp (statEps_pos.trans_le he) hr

theorem bakerCousinsBin_at {o e : ℝ} (ho : statEps ≤ o) (he : statEps ≤ e) :
    bakerCousinsBin o e = log (o / e) * o + (1 - o / e) * e := by
  rw [bakerCousinsBin_eq (.inr ho) he]
  have := statEps_pos.trans_le he
  field_simp
  ring

theorem pearsonBin_line {o e r : ℝ} (ho : o = 0 ∨ statEps ≤ o) (he0 : 0 ≤ e)
    (he : o = 0 ∨ statEps ≤ e) : (2 * r - 2) * o + (1 - r ^ 2) * e ≤ pearsonBin o e := by
  unfold pearsonBin
  dsimp only
  rcases ho with rfl | ho
  · rw [if_pos statEps_pos]
    have := clampEps_self_le e
    have : 0 ≤ r ^ 2 * e := by positivity
    linarith
  · have hp := statEps_pos.trans_le ho
    have he : statEps ≤ e := he.resolve_left hp.ne'
    have hpe := statEps_pos.trans_le he
    rw [if_neg (not_lt.2 ho), clampEps_of_ge he, le_div_iff₀ hpe]
    nlinarith [sq_nonneg (o - r * e)]

theorem pearsonBin_at {o e : ℝ} (ho : o = 0 ∨ statEps ≤ o) (he : statEps ≤ e) :
    pearsonBin o e = (2 * (o / e) - 2) * o + (1 - (o / e) ^ 2) * e := by
  unfold pearsonBin
  have hpe := statEps_pos.trans_le he
  rw [clampEps_of_ge he]
  dsimp only
  rcases ho with rfl | ho
  · rw [if_pos statEps_pos]; simp
  · rw [if_neg (not_lt.2 ho)]
    field_simp
    ring

theorem neymanBin_line {o e r : ℝ} (ho : statEps ≤ o) (he : e = 0 ∨ statEps ≤ e) :
    (1 - r ^ 2) * o + (2 * r - 2) * e ≤ neymanBin o e := by
  unfold neymanBin
  have hp := statEps_pos.trans_le ho
  rw [clampEps_of_ge ho]
  dsimp only
  rcases he with rfl | he
  · rw [if_pos statEps_pos]
    have : 0 ≤ r ^ 2 * o := by positivity
    linarith
  · rw [if_neg (not_lt.2 he), le_div_iff₀ hp]
    nlinarith [sq_nonneg (e - r * o)]

theorem neymanBin_at {o e : ℝ} (ho : statEps ≤ o) (he : e = 0 ∨ statEps ≤ e) :
    neymanBin o e = (1 - (e / o) ^ 2) * o + (2 * (e / o) - 2) * e := by
  unfold neymanBin
  have hp := statEps_pos.trans_le ho
  rw [clampEps_of_ge ho]
  dsimp only
  rcases he with rfl | he
  · rw [if_pos statEps_pos]; simp
  · rw [if_neg (not_lt.2 he)]
    field_simp
    ring

theorem sum_line (a b : ℝ) (L : List (ℝ × ℝ)) :
    (L.map (fun x => a * x.1 + b * x.2)).sum = a * (groupSum L).1 + b * (groupSum L).2 := by
  unfold groupSum
  induction L with
  | nil => simp
  | cons x L ih => simp only [List.map_cons, List.sum_cons, ih]; ring

theorem sum_zero_or {L : List ℝ} (h : ∀ x ∈ L, x = 0 ∨ statEps ≤ x) : L.sum = 0 ∨ statEps ≤ L.sum := by
  induction L with
  | nil => simp
  | cons x L ih =>
    have h1 := h x (by simp)
    have h2 := ih fun y hy => h y (by simp [hy])
    have := statEps_pos
    rw [List.sum_cons]
    rcases h1 with h1 | h1 <;> rcases h2 with h2 | h2
    · left; linarith
    · right; linarith
    · right; linarith
    · right; linarith

/-- Merging a group of bins with observed numbers that are zero or count. -/
theorem group_le_counts {st : Stat} (hst : st = .bcChi ∨ st = .bcLL ∨ st = .pearson ∨ st = .bcChiUp)
    {L : List (ℝ × ℝ)} (hne : L ≠ [])
    (h : ∀ b ∈ L, (b.1 = 0 ∨ statEps ≤ b.1) ∧ 0 ≤ b.2 ∧ (b.1 = 0 ∨ statEps ≤ b.2)) :
    st.bin (groupSum L).1 (groupSum L).2 ≤ (L.map (fun b => st.bin b.1 b.2)).sum := by
  have hO : (groupSum L).1 = 0 ∨ statEps ≤ (groupSum L).1 :=
    sum_zero_or fun x hx => by
      obtain ⟨b, hb, rfl⟩ := List.mem_map.1 hx
      exact (h b hb).1
  have hpos := statEps_pos
  have hO0 : ∀ b ∈ L, 0 ≤ b.1 := fun b hb => by
    rcases (h b hb).1 with h1 | h1 <;> linarith
  -- lines
  have line : ∀ a c : ℝ, st.bin (groupSum L).1 (groupSum L).2 ≤ a * (groupSum L).1 + c * (groupSum L).2 →
      (∀ b ∈ L, a * b.1 + c * b.2 ≤ st.bin b.1 b.2) →
      st.bin (groupSum L).1 (groupSum L).2 ≤ (L.map (fun b => st.bin b.1 b.2)).sum := by
    intro a c h1 h2
    refine h1.trans ?_
    rw [← sum_line]
    exact List.sum_le_sum h2
  have hfst : ∀ b ∈ L, b.1 ≤ (groupSum L).1 := fun b hb => by
    refine List.single_le_sum ?_ _ (List.mem_map_of_mem hb)
    intro x hx
    obtain ⟨b, hb, rfl⟩ := List.mem_map.1 hx
    exact hO0 b hb
  have hsnd : ∀ b ∈ L, b.2 ≤ (groupSum L).2 := fun b hb => by
    refine List.single_le_sum ?_ _ (List.mem_map_of_mem hb)
    intro x hx
    obtain ⟨b, hb, rfl⟩ := List.mem_map.1 hx
    exact (h b hb).2.1
  rcases hO with hO | hO
  · -- nothing observed
    have hz : ∀ b ∈ L, b.1 = 0 := fun b hb => le_antisymm (hO ▸ hfst b hb) (hO0 b hb)
    have hE0 : 0 ≤ (groupSum L).2 := by
      refine List.sum_nonneg fun x hx => ?_
      obtain ⟨b, hb, rfl⟩ := List.mem_map.1 hx
      exact (h b hb).2.1
    -- a common factor times the clamped expectation
    obtain ⟨c, hc, hbin⟩ : ∃ c : ℝ, 0 ≤ c ∧ ∀ e, 0 ≤ e → st.bin 0 e = c * clampEps e := by
      rcases hst with rfl | rfl | rfl | rfl
      · exact ⟨2, by norm_num, fun e _ => by simp only [Stat.bin, bakerCousinsBin_zero]⟩
      · exact ⟨1, by norm_num, fun e _ => by simp only [Stat.bin, bakerCousinsBin_zero, one_mul]⟩
      · refine ⟨1, by norm_num, fun e _ => ?_⟩
        simp only [Stat.bin, pearsonBin, one_mul]
        rw [if_pos statEps_pos]
      · refine ⟨2, by norm_num, fun e he => ?_⟩
        simp only [Stat.bin, bakerCousinsBin_zero]
        rw [if_neg (not_lt.2 he)]
    rw [hO, hbin _ hE0]
    have hmap : L.map (fun b => st.bin b.1 b.2) = L.map (fun b => c * clampEps b.2) :=
      List.map_congr_left fun b hb => by rw [hz b hb, hbin _ (h b hb).2.1]
    rw [hmap, List.sum_map_mul_left]
    refine mul_le_mul_of_nonneg_left ?_ hc
    have hcl : ∀ x ∈ L.map (fun b => clampEps b.2), 0 ≤ x := by
      intro x hx
      obtain ⟨b, hb, rfl⟩ := List.mem_map.1 hx
      exact (clampEps_pos _).le
    by_cases hE : (groupSum L).2 < statEps
    · unfold clampEps
      rw [if_pos hE]
      obtain ⟨b, hb⟩ := List.exists_mem_of_ne_nil L hne
      refine (clampEps_ge b.2).trans ?_
      exact List.single_le_sum hcl _ (List.mem_map.2 ⟨b, hb, rfl⟩)
    · rw [clampEps_of_ge (not_lt.1 hE)]
      unfold groupSum
      exact List.sum_le_sum fun b _ => clampEps_self_le b.2
  · -- something observed, so something expected
    have hE : statEps ≤ (groupSum L).2 := by
      by_contra hE
      have : ∀ b ∈ L, b.1 = 0 := fun b hb => (h b hb).2.2.resolve_right
        fun h1 => hE (h1.trans (hsnd b hb))
      have : (groupSum L).1 = 0 := by
        unfold groupSum
        refine List.sum_eq_zero fun x hx => ?_
        obtain ⟨b, hb, rfl⟩ := List.mem_map.1 hx
        exact this b hb
      linarith
    have hr : 0 < (groupSum L).1 / (groupSum L).2 := by
      have := hpos.trans_le hO
      have := hpos.trans_le hE
      positivity
    generalize hr' : (groupSum L).1 / (groupSum L).2 = r at hr
    have hbc : bakerCousinsBin (groupSum L).1 (groupSum L).2 =
        log r * (groupSum L).1 + (1 - r) * (groupSum L).2 := by
      rw [bakerCousinsBin_at hO hE, hr']
    rcases hst with rfl | rfl | rfl | rfl
    · refine line (2 * log r) (2 * (1 - r)) (le_of_eq ?_) fun b hb => ?_
      · simp only [Stat.bin]; rw [hbc]; ring
      · simp only [Stat.bin]
        have := bakerCousinsBin_line (h b hb).1 (h b hb).2.1 (h b hb).2.2 hr
        linarith
    · refine line (log r) (1 - r) (le_of_eq ?_) fun b hb => ?_
      · simp only [Stat.bin]; rw [hbc]
      · exact bakerCousinsBin_line (h b hb).1 (h b hb).2.1 (h b hb).2.2 hr
    · refine line (2 * r - 2) (1 - r ^ 2) (le_of_eq ?_) fun b hb => ?_
      · simp only [Stat.bin]; rw [pearsonBin_at (.inr hO) hE, hr']
      · exact pearsonBin_line (h b hb).1 (h b hb).2.1 (h b hb).2.2
    · by_cases hlt : (groupSum L).2 < (groupSum L).1
      · refine line 0 0 (le_of_eq ?_) fun b hb => ?_
        · simp only [Stat.bin]; rw [if_pos hlt]; ring
        · simp only [Stat.bin]
          split
          · linarith
          · have := bakerCousinsBin_nonneg b.1 b.2; linarith
      · have hr1 : r ≤ 1 := by
          rw [← hr']
          exact (div_le_one (hpos.trans_le hE)).2 (not_lt.1 hlt)
        refine line (2 * log r) (2 * (1 - r)) (le_of_eq ?_) fun b hb => ?_
        · simp only [Stat.bin]; rw [if_neg hlt, hbc]; ring
        · simp only [Stat.bin]
          split
          · rename_i hb'
            have h1 := log_le_sub_one_of_pos hr
            have h2 : (1 - r) * b.2 ≤ (1 - r) * b.1 :=
              mul_le_mul_of_nonneg_left hb'.le (by linarith)
            have h3 : log r * b.1 ≤ (r - 1) * b.1 := mul_le_mul_of_nonneg_right h1 (hO0 b hb)
            linarith
          · have := bakerCousinsBin_line (h b hb).1 (h b hb).2.1 (h b hb).2.2 hr
            linarith

theorem clampEps_mono {x y : ℝ} (h : x ≤ y) : clampEps x ≤ clampEps y := by
  unfold clampEps
  split
  · split
    · exact le_rfl
    · linarith
  · split <;> linarith

/-- Merging a group of bins. -/
theorem group_le {st : Stat} {L : List (ℝ × ℝ)} (hne : L ≠ []) (h : ∀ b ∈ L, st.Mergeable b) :
    st.bin (groupSum L).1 (groupSum L).2 ≤ (L.map (fun b => st.bin b.1 b.2)).sum := by
  cases st with
  | bcChi => exact group_le_counts (.inl rfl) hne h
  | bcLL => exact group_le_counts (.inr (.inl rfl)) hne h
  | pearson => exact group_le_counts (.inr (.inr (.inl rfl))) hne h
  | bcChiUp => exact group_le_counts (.inr (.inr (.inr rfl))) hne h
  | extLL =>
    have hb : ∀ b ∈ L, -log (clampEps (groupSum L).2) * b.1 + 1 * b.2 ≤ Stat.extLL.bin b.1 b.2 := by
      intro b hb
      have hsnd : b.2 ≤ (groupSum L).2 := by
        refine List.single_le_sum ?_ _ (List.mem_map_of_mem hb)
        intro x hx
        obtain ⟨b, hb, rfl⟩ := List.mem_map.1 hx
        exact (h b hb).2
      have h1 := log_le_log (clampEps_pos _) (clampEps_mono hsnd)
      have h2 := mul_le_mul_of_nonneg_left h1 (h b hb).1
      simp only [Stat.bin]
      linarith
    have := List.sum_le_sum hb
    rw [sum_line] at this
    refine le_trans (le_of_eq ?_) this
    simp only [Stat.bin]
    ring
  | neyman =>
    have hO : statEps ≤ (groupSum L).1 := by
      obtain ⟨b, hb⟩ := List.exists_mem_of_ne_nil L hne
      refine (h b hb).1.trans (List.single_le_sum ?_ _ (List.mem_map_of_mem hb))
      intro x hx
      obtain ⟨b, hb, rfl⟩ := List.mem_map.1 hx
      exact statEps_pos.le.trans (h b hb).1
    have hE : (groupSum L).2 = 0 ∨ statEps ≤ (groupSum L).2 :=
      sum_zero_or fun x hx => by
        obtain ⟨b, hb, rfl⟩ := List.mem_map.1 hx
        exact (h b hb).2
    have hb : ∀ b ∈ L, (1 - ((groupSum L).2 / (groupSum L).1) ^ 2) * b.1 +
        (2 * ((groupSum L).2 / (groupSum L).1) - 2) * b.2 ≤ Stat.neyman.bin b.1 b.2 :=
      fun b hb => neymanBin_line (h b hb).1 (h b hb).2
    have := List.sum_le_sum hb
    rw [sum_line] at this
    refine le_trans (le_of_eq ?_) this
    simp only [Stat.bin]
    exact neymanBin_at hO hE

theorem zip_fst_snd (L : List (ℝ × ℝ)) : (L.map Prod.fst).zip (L.map Prod.snd) = L := by
  induction L with
  | nil => rfl
  | cons b L ih => simp [ih]

theorem sum_ite_mem {β : Type} [DecidableEq β] {B : List β} (hB : B.Nodup) {k : β} (hk : k ∈ B)
    (x : ℝ) : (B.map (fun j => if k = j then x else 0)).sum = x := by
  induction B with
  | nil => simp at hk
  | cons b B ih =>
    rw [List.nodup_cons] at hB
    rw [List.map_cons, List.sum_cons]
    by_cases h : k = b
    · subst h
      rw [if_pos rfl, List.sum_eq_zero, add_zero]
      intro y hy
      obtain ⟨j, hj, rfl⟩ := List.mem_map.1 hy
      rw [if_neg]
      rintro rfl
      exact hB.1 hj
    · rw [if_neg h, zero_add]
      exact ih hB.2 ((List.mem_cons.1 hk).resolve_left h)

theorem sum_fiber {α β : Type} [DecidableEq β] {B : List β} (hB : B.Nodup) (π : α → β) (f : α → ℝ)
    (A : List α) (h : ∀ i ∈ A, π i ∈ B) :
    (B.map (fun j => ((A.filter (fun i => decide (π i = j))).map f).sum)).sum = (A.map f).sum := by
  induction A with
  | nil => simp
  | cons i A ih =>
    have h1 : ∀ j, (((i :: A).filter (fun i => decide (π i = j))).map f).sum =
        (if π i = j then f i else 0) + ((A.filter (fun i => decide (π i = j))).map f).sum := by
      intro j
      rw [List.filter_cons]
      by_cases hj : π i = j
      · simp [hj]
      · simp [hj]
    simp only [h1]
    rw [List.sum_map_add, ih fun a ha => h a (by simp [ha]), sum_ite_mem hB (h i (by simp))]
    simp

/-- Merging along a map of bins. -/
theorem merge_fiber {α β : Type} [DecidableEq β] {st : Stat} {A : List α} {B : List β} (hB : B.Nodup)
    (π : α → β) (h1 : ∀ i ∈ A, π i ∈ B) (h2 : ∀ j ∈ B, ∃ i ∈ A, π i = j) (o e : α → ℝ)
    (h : ∀ i ∈ A, st.Mergeable (o i, e i)) (O E : β → ℝ)
    (hO : ∀ j ∈ B, O j = ((A.filter (fun i => decide (π i = j))).map o).sum)
    (hE : ∀ j ∈ B, E j = ((A.filter (fun i => decide (π i = j))).map e).sum) :
    (B.map (fun j => st.bin (O j) (E j))).sum ≤ (A.map (fun i => st.bin (o i) (e i))).sum := by
  rw [← sum_fiber hB π _ A h1]
  refine List.sum_le_sum fun j hj => ?_
  rw [hO j hj, hE j hj]
  have := group_le (st := st) (L := (A.filter (fun i => decide (π i = j))).map (fun i => (o i, e i)))
    (by
      obtain ⟨i, hi, hij⟩ := h2 j hj
      intro hnil
      have : i ∈ A.filter (fun i => decide (π i = j)) := by simp [hi, hij]
      rw [List.map_eq_nil_iff] at hnil
      rw [hnil] at this
      cases this)
    (by
      intro b hb
      obtain ⟨i, hi, rfl⟩ := List.mem_map.1 hb
      exact h i (List.mem_filter.1 hi).1)
  simpa only [groupSum, List.map_map, Function.comp_def] using this

end Verif
