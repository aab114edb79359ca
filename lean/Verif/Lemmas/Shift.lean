import Verif.Model.Shift
import Verif.Spec.Shift
import Verif.Lemmas.NdArray
import Verif.Lemmas.Project
import Verif.Lemmas.Add

/-! Helper lemmas for shifting and scaling an axis. -/

namespace Verif

open Finset

theorem binLoop_ok {n k : ℕ} {contrib : ℕ → Except PyErr (Option (List ℕ → ℚ))}
    {c : ℕ → Option (List ℕ → ℚ)} (start : NdArray ℚ) (h : ∀ b < n, contrib b = .ok (c b)) :
    binLoop n k contrib start = .ok ⟨start.shape, fun idx => start.get idx +
      match idx[k]? with
      | some i => if i < n then (match c i with | some f => f idx | none => 0) else 0
      | none => 0⟩ := by
  induction n with
  | zero =>
    simp only [binLoop, List.range_zero, List.foldlM_nil, pure, Except.pure, Nat.not_lt_zero,
      if_false]
    congr 1
    cases start with
    | mk sh g =>
      congr 1
      funext idx
      cases idx[k]? <;> simp
  | succ n ih =>
    have ih := ih (fun b hb => h b (by omega))
    unfold binLoop at ih ⊢
    rw [List.range_succ, List.foldlM_append, ih]
    simp only [bind, Except.bind, List.foldlM_cons, List.foldlM_nil, pure, Except.pure,
      h n (by omega)]
    cases hc : c n with
    | none =>
      simp only
      congr
      funext idx
      cases hi : idx[k]? with
      | none => rfl
      | some i =>
        simp only
        by_cases h1 : i < n
        · simp [h1, Nat.lt_succ_of_lt h1]
        · by_cases h2 : i = n
          · subst h2; simp [hc]
          · simp [h1, show ¬ i < n + 1 by omega]
    | some f =>
      simp only [addSlice]
      congr
      funext idx
      cases hi : idx[k]? with
      | none => simp
      | some i =>
        simp only [Option.some.injEq]
        by_cases h1 : i < n
        · simp [h1, Nat.lt_succ_of_lt h1, show i ≠ n by omega]
        · by_cases h2 : i = n
          · subst h2; simp [hc]
          · simp [h1, h2, show ¬ i < n + 1 by omega]

theorem inB_getElem? {s idx : List ℕ} (h : InB s idx) {k n : ℕ} (hk : s[k]? = some n) :
    ∃ i, idx[k]? = some i ∧ i < n := by
  obtain ⟨hk1, hk2⟩ := List.getElem?_eq_some_iff.1 hk
  have hl := h.length_eq
  have := List.Forall₂.get h (i := k) (by omega) (by omega)
  simp only [List.get_eq_getElem] at this
  exact ⟨idx[k], List.getElem?_eq_getElem (by omega), by omega⟩

theorem inB_set {s idx : List ℕ} (h : InB s idx) {k n j : ℕ} (hk : s[k]? = some n) (hj : j < n) :
    InB s (idx.set k j) := by
  unfold InB at *
  induction h generalizing k with
  | nil => simp at hk
  | cons h1 h2 ih =>
    cases k with
    | zero => simp at hk; subst hk; exact .cons hj h2
    | succ k => exact .cons h1 (ih (by simpa using hk))

theorem inB_insertIdx {s idx : List ℕ} {k n j : ℕ} (hk : s[k]? = some n)
    (h : InB (s.eraseIdx k) idx) (hj : j < n) : InB s (idx.insertIdx k j) := by
  unfold InB at *
  induction s generalizing k idx with
  | nil => simp at hk
  | cons a s ih =>
    cases k with
    | zero =>
      simp at hk; subst hk
      simpa using ⟨hj, h⟩
    | succ k =>
      simp only [List.eraseIdx_cons_succ] at h
      cases h with
      | cons h1 h2 => simpa using ⟨h1, ih (by simpa using hk) h2⟩

theorem length_of_erase {s idx : List ℕ} {k n : ℕ} (hk : s[k]? = some n)
    (h : InB (s.eraseIdx k) idx) : k ≤ idx.length := by
  obtain ⟨hk1, -⟩ := List.getElem?_eq_some_iff.1 hk
  have := h.length_eq
  rw [List.length_eraseIdx, if_pos hk1] at this
  omega

theorem insertIdx_getElem? {idx : List ℕ} {k j : ℕ} (h : k ≤ idx.length) :
    (idx.insertIdx k j)[k]? = some j := by
  rw [List.getElem?_insertIdx_self]
  simp [h]

theorem insertIdx_set {idx : List ℕ} {k i j : ℕ} (h : k ≤ idx.length) :
    (idx.insertIdx k i).set k j = idx.insertIdx k j := by
  induction idx generalizing k with
  | nil =>
    have : k = 0 := by simpa using h
    subst this; rfl
  | cons a l ih =>
    cases k with
    | zero => rfl
    | succ k => simp only [List.insertIdx_succ_cons, List.set_cons_succ, ih (by simpa using h)]

theorem set_self {idx : List ℕ} {k i : ℕ} (h : idx[k]? = some i) : idx.set k i = idx := by
  obtain ⟨h1, h2⟩ := List.getElem?_eq_some_iff.1 h
  rw [← h2]; exact List.set_getElem_self h1

/-- The sum over a slice in terms of the whole array. -/
theorem axisTotal_eq (a : NdArray ℚ) {k n : ℕ} (hk : a.shape[k]? = some n) (j : ℕ) :
    axisTotal a k j = if j < n then
      sumIdx (a.shape.eraseIdx k) (fun idx => a.get (idx.insertIdx k j)) else 0 := by
  unfold axisTotal
  rw [← sumIdx_eraseIdx hk]
  have : ∀ idx, InB (a.shape.eraseIdx k) idx →
      (∑ i ∈ range n, if (idx.insertIdx k i)[k]? = some j then a.get (idx.insertIdx k i) else 0) =
        if j < n then a.get (idx.insertIdx k j) else 0 := by
    intro idx hidx
    simp only [insertIdx_getElem? (length_of_erase hk hidx), Option.some.injEq]
    simp
  rw [sumIdx_congr this]
  split
  · rfl
  · exact sumIdx_zero _

theorem sliceSum_eq (a : NdArray ℚ) {k n : ℕ} (hk : a.shape[k]? = some n) (j : ℕ) :
    sliceSum a k j = axisTotal a k j := by
  rw [axisTotal_eq a hk]; simp [sliceSum, hk]

theorem sum_axisTotal (a : NdArray ℚ) {k n : ℕ} (hk : a.shape[k]? = some n) :
    a.sum = ∑ j ∈ range n, axisTotal a k j := by
  unfold axisTotal
  rw [← sumIdx_sum]
  refine sumIdx_congr ?_
  intro idx hidx
  obtain ⟨i, hi, hin⟩ := inB_getElem? hidx hk
  simp [hi, hin]

theorem axisTotal_smul (a : NdArray ℚ) (c : ℚ) (k j : ℕ) :
    axisTotal (a.smul c) k j = axisTotal a k j * c := by
  unfold axisTotal
  rw [← sumIdx_mul]
  refine sumIdx_congr ?_
  intro idx _
  simp only [NdArray.smul]
  split <;> simp

theorem axisTotal_nonneg {a : NdArray ℚ} (h : NonNeg a) (k j : ℕ) : 0 ≤ axisTotal a k j := by
  refine sumIdx_nonneg ?_
  intro idx hidx
  split
  · exact h idx hidx
  · rfl

theorem eq_zero_of_axisTotal {a : NdArray ℚ} (h : NonNeg a) {k j : ℕ}
    (h0 : axisTotal a k j ≤ 0) {idx : List ℕ} (hi : InB a.shape idx) (hj : idx[k]? = some j) :
    a.get idx = 0 := by
  have h1 : axisTotal a k j = 0 := le_antisymm h0 (axisTotal_nonneg h k j)
  have := sumIdx_eq_zero (s := a.shape)
    (f := fun idx => if idx[k]? = some j then a.get idx else 0) ?_ h1 hi
  · simpa [hj] using this
  · intro idx hidx
    split
    · exact h idx hidx
    · rfl

/-- Axis `k` of a well-formed spectrum: index, parameter and length. -/
theorem axis_facts {s : Spectrum} (hs : s.WF) {k : ℕ} {p : SPar} (hk : s.cfg[k]? = some p) :
    p ∈ s.cfg ∧ p.WF ∧ s.getPar p.name = .ok p ∧ s.getIndex p.name = .ok k ∧
      s.data.shape[k]? = some p.bins.toNat := by
  have hm : p ∈ s.cfg := List.mem_of_getElem? hk
  refine ⟨hm, hs.axes p hm, getPar_mem hs.names hm, getIndex_ok hs.names ?_, ?_⟩
  · simp [hk]
  · have h1 : (s.data.shape.map (fun n : ℕ => (n : ℤ)))[k]? = (s.cfg.map SPar.bins)[k]? := by
      rw [hs.shape]
    rw [List.getElem?_map, List.getElem?_map, hk] at h1
    cases hx : s.data.shape[k]? with
    | none => simp [hx] at h1
    | some n => simp [hx] at h1; simp [← h1]

end Verif
