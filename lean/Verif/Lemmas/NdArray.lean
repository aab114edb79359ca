import Verif.Model.NdArray
import Mathlib.Algebra.BigOperators.Ring.Finset
import Mathlib.Algebra.Order.BigOperators.Group.Finset
import Mathlib.Tactic.Ring
import Mathlib.Tactic.Linarith

/-! Helper lemmas about arrays. -/

namespace Verif

open Finset

@[simp] theorem inB_nil_iff {idx : List ℕ} : InB [] idx ↔ idx = [] := by
  cases idx <;> simp [InB]

@[simp] theorem inB_cons_nil {n : ℕ} {s : List ℕ} : ¬ InB (n :: s) [] := by
  simp [InB]

@[simp] theorem inB_cons_cons {n i : ℕ} {s idx : List ℕ} :
    InB (n :: s) (i :: idx) ↔ i < n ∧ InB s idx := by
  simp [InB]

theorem InB.length_eq {s idx : List ℕ} (h : InB s idx) : idx.length = s.length :=
  List.Forall₂.length_eq h

theorem inB_append {s t i j : List ℕ} (h : i.length = s.length) :
    InB (s ++ t) (i ++ j) ↔ InB s i ∧ InB t j := by
  induction s generalizing i with
  | nil => cases i with
    | nil => simp
    | cons a i => simp at h
  | cons n s ih => cases i with
    | nil => simp at h
    | cons a i =>
      simp only [List.length_cons, Nat.add_right_cancel_iff] at h
      simp [ih h, and_assoc]

section sum
variable {α : Type} [AddCommMonoid α]

@[simp] theorem sumIdx_nil (f : List ℕ → α) : sumIdx [] f = f [] := rfl

theorem sumIdx_cons (n : ℕ) (s : List ℕ) (f : List ℕ → α) :
    sumIdx (n :: s) f = ∑ i ∈ range n, sumIdx s (fun idx => f (i :: idx)) := rfl

theorem sumIdx_congr {s : List ℕ} {f g : List ℕ → α}
    (h : ∀ idx, InB s idx → f idx = g idx) : sumIdx s f = sumIdx s g := by
  induction s generalizing f g with
  | nil => exact h [] (by simp)
  | cons n s ih =>
    simp only [sumIdx_cons]
    refine sum_congr rfl fun i hi => ih fun idx hidx => h _ ?_
    simp [hidx, mem_range.1 hi]

@[simp] theorem sumIdx_zero (s : List ℕ) : sumIdx s (fun _ => (0 : α)) = 0 := by
  induction s with
  | nil => rfl
  | cons n s ih => simp [sumIdx_cons, ih]

theorem sumIdx_add (s : List ℕ) (f g : List ℕ → α) :
    sumIdx s (fun i => f i + g i) = sumIdx s f + sumIdx s g := by
  induction s generalizing f g with
  | nil => rfl
  | cons n s ih => simp [sumIdx_cons, ih, sum_add_distrib]

theorem sumIdx_sum {ι : Type} (t : Finset ι) (s : List ℕ) (f : ι → List ℕ → α) :
    sumIdx s (fun i => ∑ j ∈ t, f j i) = ∑ j ∈ t, sumIdx s (f j) := by
  induction s generalizing f with
  | nil => rfl
  | cons n s ih => simp only [sumIdx_cons, ih]; exact sum_comm

theorem sumIdx_comm (s t : List ℕ) (f : List ℕ → List ℕ → α) :
    sumIdx s (fun i => sumIdx t (fun j => f i j)) =
      sumIdx t (fun j => sumIdx s (fun i => f i j)) := by
  induction s generalizing f with
  | nil => rfl
  | cons n s ih => simp only [sumIdx_cons, ih, sumIdx_sum]

theorem sumIdx_append (s t : List ℕ) (f : List ℕ → α) :
    sumIdx (s ++ t) f = sumIdx s (fun i => sumIdx t (fun j => f (i ++ j))) := by
  induction s generalizing f with
  | nil => rfl
  | cons n s ih => simp [sumIdx_cons, ih]

/-- Removing one axis and summing over it does not change the sum. -/
theorem sumIdx_eraseIdx {s : List ℕ} {k n : ℕ} (hk : s[k]? = some n) (f : List ℕ → α) :
    sumIdx (s.eraseIdx k) (fun idx => ∑ j ∈ range n, f (idx.insertIdx k j)) = sumIdx s f := by
  induction s generalizing k f with
  | nil => simp at hk
  | cons m s ih =>
    cases k with
    | zero =>
      simp at hk; subst hk
      simp [sumIdx_cons, sumIdx_sum]
    | succ k =>
      simp at hk
      simp only [List.eraseIdx_cons_succ, sumIdx_cons, List.insertIdx_succ_cons]
      exact sum_congr rfl fun i _ => ih hk (fun idx => f (i :: idx))

theorem sumIdx_mul {s : List ℕ} {R : Type} [NonUnitalNonAssocSemiring R] (f : List ℕ → R) (c : R) :
    sumIdx s (fun i => f i * c) = sumIdx s f * c := by
  induction s generalizing f with
  | nil => rfl
  | cons n s ih => simp [sumIdx_cons, ih, sum_mul]

theorem sumIdx_single {s idx : List ℕ} (h : InB s idx) (w : α) :
    sumIdx s (fun j => if j = idx then w else 0) = w := by
  induction s generalizing idx with
  | nil => simp at h; subst h; simp
  | cons n s ih =>
    cases idx with
    | nil => simp at h
    | cons a idx =>
      simp only [inB_cons_cons] at h
      rw [sumIdx_cons, sum_eq_single a]
      · simpa using ih h.2
      · intro b _ hb
        simp [hb]
      · intro hn; simp at hn; omega

end sum

theorem sumIdx_le {s : List ℕ} {f g : List ℕ → ℚ} (h : ∀ idx, InB s idx → f idx ≤ g idx) :
    sumIdx s f ≤ sumIdx s g := by
  induction s generalizing f g with
  | nil => exact h [] (by simp)
  | cons n s ih =>
    exact sum_le_sum fun i hi => ih fun idx hidx => h _ (by simp [hidx, mem_range.1 hi])

theorem sumIdx_nonneg {s : List ℕ} {f : List ℕ → ℚ} (h : ∀ idx, InB s idx → 0 ≤ f idx) :
    0 ≤ sumIdx s f := by
  have := sumIdx_le (s := s) (f := fun _ => 0) (g := f) h
  simpa using this

theorem sumIdx_eq_zero {s : List ℕ} {f : List ℕ → ℚ} (h : ∀ idx, InB s idx → 0 ≤ f idx)
    (h0 : sumIdx s f = 0) {idx : List ℕ} (hidx : InB s idx) : f idx = 0 := by
  induction s generalizing f idx with
  | nil => simp at hidx; subst hidx; exact h0
  | cons n s ih =>
    cases idx with
    | nil => simp at hidx
    | cons a idx =>
      simp only [inB_cons_cons] at hidx
      rw [sumIdx_cons, sum_eq_zero_iff_of_nonneg] at h0
      · exact ih (fun j hj => h _ (by simp [hj, hidx.1])) (h0 a (mem_range.2 hidx.1)) hidx.2
      · intro i hi
        exact sumIdx_nonneg fun j hj => h _ (by simp [hj, mem_range.1 hi])

/-! ### row-major indices -/

theorem ravelIdx_lt {s idx : List ℕ} (h : InB s idx) : ravelIdx s idx < s.prod := by
  induction s generalizing idx with
  | nil => simp [ravelIdx]
  | cons n s ih =>
    cases idx with
    | nil => simp at h
    | cons a idx =>
      simp only [inB_cons_cons] at h
      have := ih h.2
      simp only [ravelIdx, List.prod_cons]
      calc a * s.prod + ravelIdx s idx < a * s.prod + s.prod := by omega
        _ = (a + 1) * s.prod := by ring
        _ ≤ n * s.prod := Nat.mul_le_mul_right _ h.1

theorem unravel_ravel {s idx : List ℕ} (h : InB s idx) : unravelIdx s (ravelIdx s idx) = idx := by
  induction s generalizing idx with
  | nil => simp at h; subst h; rfl
  | cons n s ih =>
    cases idx with
    | nil => simp at h
    | cons a idx =>
      simp only [inB_cons_cons] at h
      have hlt := ravelIdx_lt h.2
      have hpos : 0 < s.prod := by omega
      simp only [ravelIdx, unravelIdx]
      rw [show (a * s.prod + ravelIdx s idx) / s.prod = a by
          rw [Nat.add_comm, Nat.add_mul_div_right _ _ hpos, Nat.div_eq_of_lt hlt, Nat.zero_add],
        show (a * s.prod + ravelIdx s idx) % s.prod = ravelIdx s idx by
          rw [Nat.add_comm, Nat.add_mul_mod_self_right, Nat.mod_eq_of_lt hlt], ih h.2]

theorem inB_unravel {s : List ℕ} {k : ℕ} (h : k < s.prod) : InB s (unravelIdx s k) := by
  induction s generalizing k with
  | nil => simp [unravelIdx]
  | cons n s ih =>
    simp only [List.prod_cons] at h
    have hpos : 0 < s.prod := Nat.pos_of_ne_zero (by rintro h0; simp [h0] at h)
    simp only [unravelIdx, inB_cons_cons]
    exact ⟨Nat.div_lt_of_lt_mul (by rwa [Nat.mul_comm]), ih (Nat.mod_lt _ hpos)⟩

theorem ravel_unravel {s : List ℕ} {k : ℕ} (h : k < s.prod) : ravelIdx s (unravelIdx s k) = k := by
  induction s generalizing k with
  | nil => simp at h; simp [ravelIdx, h]
  | cons n s ih =>
    simp only [List.prod_cons] at h
    have hpos : 0 < s.prod := Nat.pos_of_ne_zero (by rintro h0; simp [h0] at h)
    simp only [unravelIdx, ravelIdx]
    rw [ih (Nat.mod_lt _ hpos), Nat.mul_comm]
    exact Nat.div_add_mod k s.prod

/-! ### sums over one axis -/

namespace NdArray

variable {α : Type}

theorem Eqv.refl (a : NdArray α) : a.Eqv a := ⟨rfl, fun _ _ => rfl⟩

theorem Eqv.symm {a b : NdArray α} (h : a.Eqv b) : b.Eqv a :=
  ⟨h.1.symm, fun idx hi => (h.2 idx (h.1 ▸ hi)).symm⟩

theorem Eqv.trans {a b c : NdArray α} (h : a.Eqv b) (h' : b.Eqv c) : a.Eqv c :=
  ⟨h.1.trans h'.1, fun idx hi => (h.2 idx hi).trans (h'.2 idx (h.1 ▸ hi))⟩

theorem Eqv.sum_eq [AddCommMonoid α] {a b : NdArray α} (h : a.Eqv b) : a.sum = b.sum := by
  unfold sum
  rw [← h.1]
  exact sumIdx_congr h.2

theorem sumAxis_ok [AddCommMonoid α] {a b : NdArray α} {k : ℕ} (h : a.sumAxis k = .ok b) :
    ∃ n, a.shape[k]? = some n ∧ b.shape = a.shape.eraseIdx k ∧
      b.get = fun idx => ∑ j ∈ range n, a.get (idx.insertIdx k j) := by
  unfold sumAxis at h
  split at h
  · cases h
  · cases h; exact ⟨_, ‹_›, rfl, rfl⟩

theorem sumAxis_sum [AddCommMonoid α] {a b : NdArray α} {k : ℕ} (h : a.sumAxis k = .ok b) :
    b.sum = a.sum := by
  obtain ⟨n, hn, hs, hg⟩ := sumAxis_ok h
  unfold sum
  rw [hs, hg]
  exact sumIdx_eraseIdx hn a.get

theorem sumAxis_isOk [AddCommMonoid α] {a : NdArray α} {k : ℕ} (hk : k < a.shape.length) :
    a.sumAxis k = .ok ⟨a.shape.eraseIdx k,
      fun idx => ∑ j ∈ range (a.shape[k]), a.get (idx.insertIdx k j)⟩ := by
  unfold sumAxis
  simp [List.getElem?_eq_getElem hk]

theorem addAt_sum {a : NdArray ℚ} {idx : List ℕ} (h : InB a.shape idx) (w : ℚ) :
    (a.addAt idx w).sum = a.sum + w := by
  unfold sum addAt
  have : (fun j => if j = idx then a.get j + w else a.get j) =
      fun j => a.get j + (if j = idx then w else 0) := by
    funext j; split <;> simp
  simp only [this, sumIdx_add, sumIdx_single h]

theorem smul_sum (a : NdArray ℚ) (c : ℚ) : (a.smul c).sum = a.sum * c := sumIdx_mul _ _

theorem add_sum {a b : NdArray ℚ} (h : a.shape = b.shape) : (a.add b).sum = a.sum + b.sum := by
  unfold sum add
  simp only [sumIdx_add, h]

end NdArray

end Verif
