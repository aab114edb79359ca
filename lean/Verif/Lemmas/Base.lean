import Verif.Spec.Spectra
import Mathlib.Tactic.FieldSimp
import Mathlib.Tactic.Ring
import Mathlib.Tactic.Linarith
import Mathlib.Tactic.Positivity

/-! Helper lemmas about python built-ins and association lists. -/

namespace Verif

theorem forall₂_mem_left {α β : Type} {R : α → β → Prop} {l : List α} {m : List β}
    (h : List.Forall₂ R l m) {a : α} (ha : a ∈ l) : ∃ b, b ∈ m ∧ R a b := by
  induction h with
  | nil => simp at ha
  | cons h1 _ ih =>
    rcases List.mem_cons.1 ha with rfl | ha
    · exact ⟨_, by simp, h1⟩
    · obtain ⟨b, hb, hr⟩ := ih ha
      exact ⟨b, by simp [hb], hr⟩


theorem pyInt_of_nonneg {x : ℚ} (h : 0 ≤ x) : pyInt x = ⌊x⌋ := by simp [pyInt, h]

theorem pyRound_intCast (n : ℤ) : pyRound (n : ℚ) = n := by
  unfold pyRound
  split
  · rw [Int.floor_eq_iff]; constructor <;> norm_num
  · rw [Int.ceil_eq_iff]; constructor <;> norm_num

theorem npClose_self (a : ℚ) : npClose a a := by
  unfold npClose; simp; positivity

theorem assoc_eq_some_iff {α β : Type} [DecidableEq α] {d : List (α × β)}
    (hd : (d.map Prod.fst).Nodup) {k : α} {v : β} : assoc d k = some v ↔ (k, v) ∈ d := by
  induction d with
  | nil => simp [assoc]
  | cons e d ih =>
    obtain ⟨a, b⟩ := e
    simp only [List.map_cons, List.nodup_cons] at hd
    have ih' := ih hd.2
    by_cases hak : a = k
    · subst hak
      have hn : (a, v) ∉ d := fun h => hd.1 (List.mem_map.2 ⟨_, h, rfl⟩)
      simp [assoc, hn, eq_comm]
    · have : assoc ((a, b) :: d) k = assoc d k := by simp [assoc, hak]
      rw [this, ih']
      simp [Ne.symm hak]

theorem assoc_eq_none_iff {α β : Type} [DecidableEq α] {d : List (α × β)} {k : α} :
    assoc d k = none ↔ ∀ v, (k, v) ∉ d := by
  simp only [assoc, Option.map_eq_none_iff, List.find?_eq_none]
  constructor
  · intro h v hv; simpa using h _ hv
  · rintro h ⟨a, b⟩ hx
    simp only [decide_eq_true_eq]
    rintro rfl; exact h _ hx

theorem mapM_option_eq_some {α β : Type} {f : α → Option β} {l : List α} {xs : List β} :
    l.mapM f = some xs ↔ List.Forall₂ (fun a b => f a = some b) l xs := by
  induction l generalizing xs with
  | nil => simp [eq_comm]
  | cons a l ih =>
    rw [List.mapM_cons]
    cases hfa : f a with
    | none =>
      simp only [Option.bind_eq_bind, Option.bind_none]
      constructor
      · intro h; cases h
      · intro h; cases h with
        | cons h1 _ => rw [hfa] at h1; cases h1
    | some b =>
      cases hl : l.mapM f with
      | none =>
        simp only [Option.bind_eq_bind, Option.bind_some, Option.bind_none]
        constructor
        · intro h; cases h
        · intro h; cases h with
          | cons _ h2 => rw [← ih, hl] at h2; cases h2
      | some ys =>
        simp only [Option.bind_eq_bind, Option.bind_some, Option.pure_def, Option.some.injEq]
        constructor
        · rintro rfl; exact .cons hfa (ih.1 hl)
        · intro h; cases h with
          | cons h1 h2 =>
            rw [hfa] at h1; cases h1
            rw [← ih, hl] at h2; cases h2; rfl

theorem mapM_option_eq_none {α β : Type} {f : α → Option β} {l : List α} :
    l.mapM f = none ↔ ∃ a ∈ l, f a = none := by
  induction l with
  | nil => simp
  | cons a l ih =>
    rw [List.mapM_cons]
    cases hfa : f a with
    | none => simp [hfa]
    | some b =>
      cases hl : l.mapM f with
      | none =>
        obtain ⟨c, hc, hc'⟩ := ih.1 hl
        simp only [Option.bind_eq_bind, Option.bind_some, Option.bind_none, List.mem_cons, true_iff]
        exact ⟨c, .inr hc, hc'⟩
      | some ys =>
        simp only [Option.bind_eq_bind, Option.bind_some, Option.pure_def, List.mem_cons,
          reduceCtorEq, false_iff, not_exists, not_and]
        rintro c (rfl | hc) h
        · rw [hfa] at h; cases h
        · exact absurd (ih.2 ⟨c, hc, h⟩) (by simp [hl])

theorem forM_except_ok {α : Type} {f : α → Except PyErr Unit} {l : List α} :
    l.forM f = .ok () ↔ ∀ a ∈ l, f a = .ok () := by
  induction l with
  | nil => simp [pure, Except.pure]
  | cons a l ih =>
    change (f a >>= fun _ => l.forM f) = _ ↔ _
    cases hfa : f a with
    | error e => simp [bind, Except.bind, hfa]
    | ok u => cases u; simpa [bind, Except.bind, hfa] using ih

theorem forM_except_error {α : Type} {f : α → Except PyErr Unit} {l : List α} {e : PyErr}
    (h : l.forM f = .error e) : ∃ a ∈ l, f a = .error e := by
  induction l with
  | nil => simp [pure, Except.pure] at h
  | cons a l ih =>
    change (f a >>= fun _ => l.forM f) = _ at h
    cases hfa : f a with
    | error e' =>
      simp only [bind, Except.bind, hfa] at h; cases h
      exact ⟨a, by simp, hfa⟩
    | ok u =>
      simp only [bind, Except.bind, hfa] at h
      obtain ⟨b, hb, hb'⟩ := ih h
      exact ⟨b, by simp [hb], hb'⟩

/-! ### axes -/

namespace SPar

theorem WF.bins_pos {p : SPar} (h : p.WF) : (0 : ℚ) < p.bins := by exact_mod_cast h.1

theorem WF.width_pos {p : SPar} (h : p.WF) : 0 < p.width :=
  div_pos (sub_pos.2 h.2) h.bins_pos

theorem WF.bins_mul_width {p : SPar} (h : p.WF) : p.bins * p.width = p.high - p.low := by
  unfold width; have := h.bins_pos.ne'; field_simp

theorem WF.high_eq {p : SPar} (h : p.WF) : p.high = p.low + p.bins * p.width := by
  rw [h.bins_mul_width]; ring

theorem edge_eq (p : SPar) (i : ℤ) : p.edge i = p.low + i * p.width := rfl

end SPar

theorem floor_inCell {p : SPar} (hp : p.WF) {x : ℚ} (h1 : p.low ≤ x) (h2 : x < p.high) :
    0 ≤ ⌊(x - p.low) / p.width⌋ ∧ InCell p x ⌊(x - p.low) / p.width⌋.toNat := by
  have hw := hp.width_pos
  have h0 : 0 ≤ (x - p.low) / p.width := div_nonneg (by linarith) hw.le
  have hf : 0 ≤ ⌊(x - p.low) / p.width⌋ := Int.floor_nonneg.2 h0
  refine ⟨hf, ?_, ?_, ?_⟩
  · rw [Int.toNat_of_nonneg hf, Int.floor_lt, div_lt_iff₀ hw, hp.bins_mul_width]
    linarith
  · rw [Int.toNat_of_nonneg hf, SPar.edge_eq]
    have := (le_div_iff₀ hw).1 (Int.floor_le ((x - p.low) / p.width))
    linarith
  · rw [Int.toNat_of_nonneg hf, SPar.edge_eq]
    have := (div_lt_iff₀ hw).1 (Int.lt_floor_add_one ((x - p.low) / p.width))
    push_cast
    linarith

theorem inCell_unique {p : SPar} (hp : p.WF) {x : ℚ} {i j : ℕ} (hi : InCell p x i)
    (hj : InCell p x j) : i = j := by
  have hw := hp.width_pos
  obtain ⟨_, a1, a2⟩ := hi
  obtain ⟨_, b1, b2⟩ := hj
  rw [SPar.edge_eq] at a1 a2 b1 b2
  push_cast at a1 a2 b1 b2
  have h1 : (i : ℚ) < j + 1 := by
    by_contra hc
    have := mul_le_mul_of_nonneg_right (not_lt.1 hc) hw.le
    linarith
  have h2 : (j : ℚ) < i + 1 := by
    by_contra hc
    have := mul_le_mul_of_nonneg_right (not_lt.1 hc) hw.le
    linarith
  have h1' : i < j + 1 := by exact_mod_cast h1
  have h2' : j < i + 1 := by exact_mod_cast h2
  omega

theorem inCell_range {p : SPar} (hp : p.WF) {x : ℚ} {i : ℕ} (hi : InCell p x i) :
    p.low ≤ x ∧ x < p.high := by
  have hw := hp.width_pos
  obtain ⟨h0, a1, a2⟩ := hi
  rw [SPar.edge_eq] at a1 a2
  push_cast at a1 a2
  have hh := hp.high_eq
  have : (0 : ℚ) ≤ i * p.width := by positivity
  have h3 : ((i : ℚ) + 1) ≤ p.bins := by exact_mod_cast h0
  have := mul_le_mul_of_nonneg_right h3 hw.le
  constructor <;> linarith

theorem fillBin_eq {p : SPar} (hp : p.WF) {x : ℚ} (h1 : p.low ≤ x) :
    Spectrum.fillBin p x = ⌊(x - p.low) / p.width⌋ := by
  unfold Spectrum.fillBin
  have h2 : (x - p.low) / (p.high - p.low) * p.bins = (x - p.low) / p.width := by
    unfold SPar.width
    have := hp.bins_pos.ne'
    have : p.high - p.low ≠ 0 := (sub_pos.2 hp.2).ne'
    field_simp
  rw [h2, pyInt_of_nonneg]
  exact div_nonneg (by linarith) hp.width_pos.le

end Verif
