import Verif.Spec.FloatSum
import Verif.Lemmas.ProjectAll
import Verif.Lemmas.Rebin
import Verif.Props.FloatFill

/-! # Sums of bins in floating point arithmetic -/

namespace Verif

open Finset

namespace Rounding

variable (R : Rounding)

theorem one_le_pow (n : ℕ) : 1 ≤ (1 + R.u) ^ n :=
  one_le_pow₀ (by linarith [R.u_nonneg])

theorem sumTree_near (t : SumTree) :
    (R.rnd (R.sumTree t) = R.sumTree t ∨ ∃ x, t = .leaf x) ∧
    |t.leaves.sum| ≤ (t.leaves.map abs).sum ∧
    |R.sumTree t - t.leaves.sum| ≤
      ((1 + R.u) ^ t.leaves.length - 1) * (t.leaves.map abs).sum := by
  induction t with
  | zero => exact ⟨.inl R.rnd_zero, by simp [SumTree.leaves], by simp [SumTree.leaves, sumTree]⟩
  | leaf x =>
    refine ⟨.inr ⟨x, rfl⟩, by simp [SumTree.leaves], ?_⟩
    simp only [SumTree.leaves, sumTree, List.sum_cons, List.sum_nil, add_zero, sub_self, abs_zero,
      List.length_cons, List.length_nil, zero_add, pow_one, List.map_cons, List.map_nil]
    nlinarith [R.u_nonneg, abs_nonneg x]
  | node l r ihl ihr =>
    obtain ⟨l1, l2, l3⟩ := ihl
    obtain ⟨r1, r2, r3⟩ := ihr
    refine ⟨.inl (R.idem _), ?_, ?_⟩
    · simp only [SumTree.leaves, List.sum_append, List.map_append]
      exact (abs_add_le _ _).trans (add_le_add l2 r2)
    simp only [SumTree.leaves, List.sum_append, List.map_append, List.length_append, sumTree]
    have p1 : 0 ≤ (l.leaves.map abs).sum := list_abs_nonneg _
    have p2 : 0 ≤ (r.leaves.map abs).sum := list_abs_nonneg _
    have side : ∀ (v : SumTree), (R.rnd (R.sumTree v) = R.sumTree v ∨ ∃ x, v = .leaf x) →
        |R.sumTree v - v.leaves.sum| ≤
          ((1 + R.u) ^ v.leaves.length - 1) * (v.leaves.map abs).sum →
        |R.rnd (R.sumTree v) - v.leaves.sum| ≤
          ((1 + R.u) ^ v.leaves.length - 1) * (v.leaves.map abs).sum := by
      rintro v (h | ⟨x, rfl⟩) hv
      · rw [h]; exact hv
      · simpa [SumTree.leaves, sumTree] using R.rel x
    rcases Nat.eq_zero_or_pos l.leaves.length with hl | hl
    · have hl' := List.length_eq_zero_iff.1 hl
      rw [hl'] at l3 ⊢
      simp only [List.length_nil, pow_zero, sub_self, zero_mul, abs_nonpos_iff, List.sum_nil,
        sub_zero] at l3
      rw [l3]
      simpa using side r r1 r3
    rcases Nat.eq_zero_or_pos r.leaves.length with hr | hr
    · have hr' := List.length_eq_zero_iff.1 hr
      rw [hr'] at r3 ⊢
      simp only [List.length_nil, pow_zero, sub_self, zero_mul, abs_nonpos_iff, List.sum_nil,
        sub_zero] at r3
      rw [r3]
      simpa using side l l1 l3
    set a := R.sumTree l
    set b := R.sumTree r
    set A := l.leaves.sum
    set B := r.leaves.sum
    set MA := (l.leaves.map abs).sum
    set MB := (r.leaves.map abs).sum
    set n := l.leaves.length
    set m := r.leaves.length
    have hu := R.u_nonneg
    have h1 := R.rel (a + b)
    have hE : (1 + R.u) ^ n * (1 + R.u) ≤ (1 + R.u) ^ (n + m) := by
      rw [← pow_succ]; exact pow_le_pow_right₀ (by linarith) (by omega)
    have hF : (1 + R.u) ^ m * (1 + R.u) ≤ (1 + R.u) ^ (n + m) := by
      rw [← pow_succ]; exact pow_le_pow_right₀ (by linarith) (by omega)
    have ha : |a| ≤ (1 + R.u) ^ n * MA := by
      have := abs_sub_abs_le_abs_sub a A
      nlinarith
    have hb : |b| ≤ (1 + R.u) ^ m * MB := by
      have := abs_sub_abs_le_abs_sub b B
      nlinarith
    have h2 : R.u * |a + b| ≤ R.u * ((1 + R.u) ^ n * MA + (1 + R.u) ^ m * MB) :=
      mul_le_mul_of_nonneg_left ((abs_add_le _ _).trans (add_le_add ha hb)) hu
    have h3 : |R.rnd (a + b) - (A + B)| ≤ |R.rnd (a + b) - (a + b)| + (|a - A| + |b - B|) := by
      have e : R.rnd (a + b) - (A + B) = (R.rnd (a + b) - (a + b)) + ((a - A) + (b - B)) := by ring
      rw [e]
      exact (abs_add_le _ _).trans (by gcongr; exact abs_add_le _ _)
    have h4 := mul_le_mul_of_nonneg_right hE p1
    have h5 := mul_le_mul_of_nonneg_right hF p2
    nlinarith

/-- The error of a sum of numbers that have errors themselves. -/
theorem total_near {tot : List ℚ → ℚ} (ht : R.Totals tot) (l : List ℚ) :
    |tot l - l.sum| ≤ ((1 + R.u) ^ l.length - 1) * (l.map abs).sum := by
  obtain ⟨t, hp, h⟩ := ht l
  have := (R.sumTree_near t).2.2
  rwa [hp.sum_eq, hp.length_eq, (hp.map abs).sum_eq, ← h] at this

theorem total_exact {tot : List ℚ → ℚ} (ht : R.Totals tot) (l : List ℚ) (hw : ∀ x ∈ l, IsWhole x)
    (hbig : (l.map abs).sum ≤ R.big) : tot l = l.sum := by
  obtain ⟨t, hp, h⟩ := ht l
  rw [h, c126_sum R t (fun x hx => hw x (hp.mem_iff.1 hx)) (by rwa [(hp.map abs).sum_eq]), hp.sum_eq]

theorem range_sum (f : ℕ → ℚ) (n : ℕ) : ((List.range n).map f).sum = ∑ j ∈ range n, f j := by
  induction n with
  | zero => rfl
  | succ n ih => rw [List.range_succ, List.map_append, List.sum_append, ih, sum_range_succ]; simp

/-- State of a chain of sums: the computed array, the exact one and that of the absolute values. -/
def Chain (N : ℕ) (d e m : NdArray ℚ) : Prop :=
  d.shape = e.shape ∧ m.shape = e.shape ∧
  ∀ i, InB e.shape i → |d.get i - e.get i| ≤ ((1 + R.u) ^ N - 1) * m.get i ∧ |e.get i| ≤ m.get i

theorem chain_step {N : ℕ} {d e m : NdArray ℚ} (h : R.Chain N d e m) {sm : List ℕ → List ℚ → ℚ}
    (hs : ∀ idx, R.Totals (sm idx)) (k : ℕ) :
    (e.shape.length ≤ k ∧ d.sumAxisBy sm k = .error .axisError ∧ e.sumAxis k = .error .axisError) ∨
    ∃ n d' e' m', e.shape[k]? = some n ∧ d.sumAxisBy sm k = .ok d' ∧ e.sumAxis k = .ok e' ∧
      m.sumAxis k = .ok m' ∧ e'.shape = e.shape.eraseIdx k ∧ R.Chain (N + n) d' e' m' := by
  obtain ⟨h1, h2, h3⟩ := h
  unfold NdArray.sumAxisBy NdArray.sumAxis
  rw [h1, h2]
  cases hk : e.shape[k]? with
  | none => exact .inl ⟨List.getElem?_eq_none_iff.1 hk, rfl, rfl⟩
  | some n =>
    refine .inr ⟨n, _, _, _, rfl, rfl, rfl, rfl, rfl, rfl, rfl, fun i hi => ?_⟩
    dsimp only at hi ⊢
    have hin := fun j (hj : j < n) => inB_insertIdx hk hi hj
    have h4 := R.total_near (hs i) ((List.range n).map fun j => d.get (i.insertIdx k j))
    have hu := R.u_nonneg
    have hcell := fun j (hj : j < n) => h3 _ (hin j hj)
    set D := fun j => d.get (i.insertIdx k j) with hD
    set E := fun j => e.get (i.insertIdx k j) with hE
    set M := fun j => m.get (i.insertIdx k j) with hM
    rw [List.map_map, range_sum, range_sum, List.length_map, List.length_range] at h4
    have hsum : ∑ j ∈ range n, (abs ∘ D) j ≤ (1 + R.u) ^ N * ∑ j ∈ range n, M j := by
      rw [Finset.mul_sum]
      refine Finset.sum_le_sum fun j hj => ?_
      obtain ⟨c1, c2⟩ := hcell j (Finset.mem_range.1 hj)
      have := abs_sub_abs_le_abs_sub (D j) (E j)
      simp only [Function.comp]
      change |D j - E j| ≤ _ * M j at c1
      change |E j| ≤ M j at c2
      nlinarith
    have hdiff : |∑ j ∈ range n, D j - ∑ j ∈ range n, E j| ≤
        ((1 + R.u) ^ N - 1) * ∑ j ∈ range n, M j := by
      rw [← Finset.sum_sub_distrib, Finset.mul_sum]
      exact (Finset.abs_sum_le_sum_abs _ _).trans
        (Finset.sum_le_sum fun j hj => (hcell j (Finset.mem_range.1 hj)).1)
    have hE' : |∑ j ∈ range n, E j| ≤ ∑ j ∈ range n, M j :=
      (Finset.abs_sum_le_sum_abs _ _).trans
        (Finset.sum_le_sum fun j hj => (hcell j (Finset.mem_range.1 hj)).2)
    refine ⟨?_, hE'⟩
    have h5 := abs_sub_le (sm i ((List.range n).map D)) (∑ j ∈ range n, D j) (∑ j ∈ range n, E j)
    have h6 := mul_le_mul_of_nonneg_left hsum (sub_nonneg.2 (R.one_le_pow n))
    rw [pow_add]
    nlinarith

/-- State of a chain of sums of whole numbers. -/
def ChainExact (d e : NdArray ℚ) : Prop := d.Eqv e ∧ R.Counts e

theorem chainExact_step {d e : NdArray ℚ} (h : R.ChainExact d e) {sm : List ℕ → List ℚ → ℚ}
    (hs : ∀ idx, R.Totals (sm idx)) (k : ℕ) :
    (e.shape.length ≤ k ∧ d.sumAxisBy sm k = .error .axisError ∧ e.sumAxis k = .error .axisError) ∨
    ∃ d' e', d.sumAxisBy sm k = .ok d' ∧ e.sumAxis k = .ok e' ∧ R.ChainExact d' e' := by
  obtain ⟨⟨h1, h2⟩, h3, h4⟩ := h
  unfold NdArray.sumAxisBy NdArray.sumAxis
  rw [h1]
  cases hk : e.shape[k]? with
  | none => exact .inl ⟨List.getElem?_eq_none_iff.1 hk, rfl, rfl⟩
  | some n =>
    refine .inr ⟨_, _, rfl, rfl, ⟨rfl, fun i hi => ?_⟩, fun i hi => ?_, ?_⟩
    · dsimp only at hi ⊢
      have hin := fun j (hj : j < n) => inB_insertIdx hk hi hj
      rw [List.map_congr_left fun j hj => h2 _ (by
        rw [h1]; exact hin j (List.mem_range.1 hj)), R.total_exact (hs i), range_sum]
      · intro x hx
        obtain ⟨j, hj, rfl⟩ := List.mem_map.1 hx
        exact h3 _ (hin j (List.mem_range.1 hj))
      · rw [List.map_map, range_sum]
        refine le_trans ?_ h4
        unfold NdArray.sum NdArray.abs
        dsimp only
        rw [← sumIdx_eraseIdx hk]
        have := sumIdx_le (s := e.shape.eraseIdx k)
          (f := fun v => if v = i then ∑ j ∈ range n, |e.get (v.insertIdx k j)| else 0)
          (g := fun v => ∑ j ∈ range n, |e.get (v.insertIdx k j)|) (fun v _ => by
            split
            · exact le_rfl
            · exact Finset.sum_nonneg fun j _ => abs_nonneg _)
        rw [sumIdx_ite hi (fun v => ∑ j ∈ range n, |e.get (v.insertIdx k j)|)] at this
        exact this
    · dsimp only at hi ⊢
      refine Finset.sum_induction _ IsWhole (fun _ _ => isWhole_add) ⟨0, by simp⟩ fun j hj => ?_
      exact h3 _ (inB_insertIdx hk hi (Finset.mem_range.1 hj))
    · refine le_trans ?_ h4
      unfold NdArray.sum NdArray.abs
      dsimp only
      rw [← sumIdx_eraseIdx hk]
      exact sumIdx_le fun v _ => Finset.abs_sum_le_sum_abs _ _

/-- A loop of sums: round `i` sums over the axis `pick i ndim`, if any. -/
def sumLoop (sum : ℕ → NdArray ℚ → ℕ → Except PyErr (NdArray ℚ)) (pick : ℕ → ℕ → Option ℕ)
    (l : List ℕ) (a : NdArray ℚ) : Except PyErr (NdArray ℚ) :=
  l.foldlM (fun a i => match pick i a.ndim with | none => pure a | some k => sum i a k) a

theorem sum_eraseIdx {l : List ℕ} {k n : ℕ} (h : l[k]? = some n) :
    (l.eraseIdx k).sum + n = l.sum := by
  induction l generalizing k with
  | nil => simp at h
  | cons x l ih =>
    cases k with
    | zero =>
      simp only [List.getElem?_cons_zero, Option.some.injEq] at h
      subst h
      simp [add_comm]
    | succ k =>
      simp only [List.getElem?_cons_succ] at h
      simp only [List.eraseIdx_cons_succ, List.sum_cons]
      have := ih h
      omega

theorem loop_near {sm : ℕ → List ℕ → List ℚ → ℚ} (hs : R.Sums sm) (pick : ℕ → ℕ → Option ℕ)
    (l : List ℕ) {N : ℕ} {d e m : NdArray ℚ} (h : R.Chain N d e m) :
    (∃ err, sumLoop (fun i a k => a.sumAxisBy (sm i) k) pick l d = .error err ∧
      sumLoop (fun _ a k => a.sumAxis k) pick l e = .error err) ∨
    ∃ N' d' e' m', sumLoop (fun i a k => a.sumAxisBy (sm i) k) pick l d = .ok d' ∧
      sumLoop (fun _ a k => a.sumAxis k) pick l e = .ok e' ∧
      sumLoop (fun _ a k => a.sumAxis k) pick l m = .ok m' ∧
      N' + e'.shape.sum = N + e.shape.sum ∧ R.Chain N' d' e' m' := by
  induction l generalizing N d e m with
  | nil => exact .inr ⟨N, d, e, m, rfl, rfl, rfl, rfl, h⟩
  | cons i l ih =>
    have hd : d.ndim = e.ndim := by unfold NdArray.ndim; rw [h.1]
    have hm : m.ndim = e.ndim := by unfold NdArray.ndim; rw [h.2.1]
    unfold sumLoop
    simp only [List.foldlM_cons, hd, hm]
    cases pick i e.ndim with
    | none => exact ih h
    | some k =>
      rcases R.chain_step h (hs i) k with ⟨-, h1, h2⟩ | ⟨n, d', e', m', h0, h1, h2, h3, h4, h5⟩
      · simp only [h1, h2]
        exact .inl ⟨_, rfl, rfl⟩
      · simp only [h1, h2, h3]
        rcases ih h5 with h6 | ⟨N', d'', e'', m'', j1, j2, j3, j4, j5⟩
        · exact .inl h6
        · refine .inr ⟨N', d'', e'', m'', j1, j2, j3, ?_, j5⟩
          have := sum_eraseIdx h0
          rw [h4] at j4
          omega

theorem loop_exact {sm : ℕ → List ℕ → List ℚ → ℚ} (hs : R.Sums sm) (pick : ℕ → ℕ → Option ℕ)
    (l : List ℕ) {d e : NdArray ℚ} (h : R.ChainExact d e) :
    (∃ err, sumLoop (fun i a k => a.sumAxisBy (sm i) k) pick l d = .error err ∧
      sumLoop (fun _ a k => a.sumAxis k) pick l e = .error err) ∨
    ∃ d' e', sumLoop (fun i a k => a.sumAxisBy (sm i) k) pick l d = .ok d' ∧
      sumLoop (fun _ a k => a.sumAxis k) pick l e = .ok e' ∧ R.ChainExact d' e' := by
  induction l generalizing d e with
  | nil => exact .inr ⟨d, e, rfl, rfl, h⟩
  | cons i l ih =>
    have hd : d.ndim = e.ndim := by unfold NdArray.ndim; rw [h.1.1]
    unfold sumLoop
    simp only [List.foldlM_cons, hd]
    cases pick i e.ndim with
    | none => exact ih h
    | some k =>
      rcases R.chainExact_step h (hs i) k with ⟨-, h1, h2⟩ | ⟨d', e', h1, h2, h5⟩
      · simp only [h1, h2]
        exact .inl ⟨_, rfl, rfl⟩
      · simp only [h1, h2]
        exact ih h5

theorem sumIdx_unravel (s : List ℕ) (f : List ℕ → ℚ) :
    sumIdx s f = ∑ k ∈ range s.prod, f (unravelIdx s k) := by
  induction s generalizing f with
  | nil => simp [unravelIdx]
  | cons n s ih =>
    rw [sumIdx_cons, List.prod_cons]
    rcases Nat.eq_zero_or_pos s.prod with h0 | h0
    · rw [h0, Nat.mul_zero]
      refine Finset.sum_eq_zero fun i _ => ?_
      rw [ih, h0, range_zero, sum_empty]
    · induction n with
      | zero => simp
      | succ n ihn =>
        rw [sum_range_succ, ihn, Nat.succ_mul, sum_range_add, ih]
        congr 1
        refine Finset.sum_congr rfl fun k hk => ?_
        have hk' := Finset.mem_range.1 hk
        rw [unravelIdx, Nat.mul_comm n, Nat.mul_add_div h0, Nat.div_eq_of_lt hk', Nat.add_zero,
          Nat.mul_add_mod, Nat.mod_eq_of_lt hk']

theorem reshape_sum {a b : NdArray ℚ} {shape : List ℕ} (h : a.reshape shape = .ok b) :
    b.sum = a.sum := by
  unfold NdArray.reshape at h
  split at h
  · rename_i hp
    cases h
    unfold NdArray.sum
    dsimp only
    rw [sumIdx_unravel, sumIdx_unravel, hp]
    refine Finset.sum_congr rfl fun k hk => ?_
    rw [ravel_unravel (by rw [hp]; exact Finset.mem_range.1 hk)]
  · cases h

theorem reshape_abs {a b : NdArray ℚ} {shape : List ℕ} (h : a.reshape shape = .ok b) :
    a.abs.reshape shape = .ok b.abs := by
  unfold NdArray.reshape at h ⊢
  split at h
  · rename_i hp
    cases h
    rw [if_pos (by simpa [NdArray.abs] using hp)]
    rfl
  · cases h

theorem reshape_counts {a b : NdArray ℚ} {shape : List ℕ} (h : a.reshape shape = .ok b)
    (ha : R.Counts a) : R.Counts b := by
  refine ⟨fun i hi => ?_, (reshape_sum (reshape_abs h)).trans_le ha.2⟩
  unfold NdArray.reshape at h
  split at h
  · rename_i hp
    cases h
    exact ha.1 _ (inB_unravel (by rw [← hp]; exact ravelIdx_lt hi))
  · cases h

theorem chain_self (a : NdArray ℚ) : R.Chain 0 a a a.abs :=
  ⟨rfl, rfl, fun i _ => ⟨by simp, le_rfl⟩⟩

end Rounding

end Verif
