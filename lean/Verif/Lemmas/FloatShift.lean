import Verif.Model.FloatShift
import Verif.Lemmas.FloatAxis
import Verif.Lemmas.FloatSum
import Verif.Lemmas.Smear
import Verif.Props.Shift

/-! # Lemmas on shifting by whole bins with floats -/

namespace Verif

namespace Rounding

variable (R : Rounding)

theorem sumTree_pos (hu : R.u < 1) (t : SumTree) (h : ∀ x ∈ t.leaves, 0 ≤ x) :
    0 ≤ R.sumTree t ∧ (0 < R.sumTree t ↔ 0 < t.leaves.sum) := by
  induction t with
  | zero => simp [sumTree, SumTree.leaves]
  | leaf x =>
    have := h x (by simp [SumTree.leaves])
    simpa [sumTree, SumTree.leaves] using this
  | node l r hl hr =>
    obtain ⟨l1, l2⟩ := hl (fun x hx => h x (by simp [SumTree.leaves, hx]))
    obtain ⟨r1, r2⟩ := hr (fun x hx => h x (by simp [SumTree.leaves, hx]))
    have l3 : 0 ≤ l.leaves.sum := List.sum_nonneg (fun x hx => h x (by simp [SumTree.leaves, hx]))
    have r3 : 0 ≤ r.leaves.sum := List.sum_nonneg (fun x hx => h x (by simp [SumTree.leaves, hx]))
    obtain ⟨b1, b2⟩ := R.rnd_bounds (add_nonneg l1 r1)
    refine ⟨R.rnd_nonneg (add_nonneg l1 r1), ?_⟩
    simp only [sumTree, SumTree.leaves, List.sum_append]
    constructor
    · intro hp
      have : 0 < R.sumTree l + R.sumTree r := by
        by_contra hn
        have h0 : R.sumTree l + R.sumTree r = 0 := by linarith
        rw [h0, R.rnd_zero] at hp
        exact lt_irrefl _ hp
      rcases lt_or_eq_of_le l1 with hl' | hl'
      · linarith [l2.1 hl']
      · linarith [r2.1 (by linarith)]
    · intro hp
      have : 0 < R.sumTree l + R.sumTree r := by
        rcases lt_or_eq_of_le l3 with hl' | hl'
        · linarith [l2.2 hl']
        · linarith [r2.2 (by linarith)]
      have : 0 < (1 - R.u) * (R.sumTree l + R.sumTree r) := mul_pos (by linarith) this
      linarith

theorem total_pos {tot : List ℚ → ℚ} (ht : R.Totals tot) (hu : R.u < 1) (l : List ℚ)
    (h : ∀ x ∈ l, 0 ≤ x) : 0 < tot l ↔ 0 < l.sum := by
  obtain ⟨t, hp, e⟩ := ht l
  rw [e, (R.sumTree_pos hu t (fun x hx => h x (hp.mem_iff.1 hx))).2, hp.sum_eq]

/-- The remainder of a positive number. -/
theorem mod_of_nonneg {a b : ℚ} (ha : 0 ≤ a) (hb : 0 < b) : R.mod a b = a - b * ⌊a / b⌋ := by
  have h1 : pyInt (a / b) = ⌊a / b⌋ := pyInt_nonneg (by positivity)
  have h2 : (⌊a / b⌋ : ℚ) * b ≤ a := by
    rw [← le_div_iff₀ hb]
    exact Int.floor_le _
  unfold mod
  dsimp only
  rw [h1, if_neg (by linarith)]

/-- The remainder is not negative, and near the distance from the next lower multiple. -/
theorem mod_near {a b : ℚ} (hb : 0 < b) : 0 ≤ R.mod a b ∧ ∃ m : ℤ, 0 ≤ a - m * b ∧
    (1 - R.u) * (a - m * b) ≤ R.mod a b := by
  have hu0 := R.u_nonneg
  rcases le_or_gt 0 a with ha | ha
  · rw [R.mod_of_nonneg ha hb]
    have h2 : (⌊a / b⌋ : ℚ) * b ≤ a := by
      rw [← le_div_iff₀ hb]
      exact Int.floor_le _
    refine ⟨by linarith, ⌊a / b⌋, by linarith, ?_⟩
    nlinarith [mul_nonneg hu0 (by linarith : 0 ≤ a - ⌊a / b⌋ * b)]
  · have hneg : a / b < 0 := div_neg_of_neg_of_pos ha hb
    have h1 : pyInt (a / b) = ⌈a / b⌉ := by
      unfold pyInt
      rw [if_neg (not_le.2 hneg)]
    have hc : a / b ≤ ⌈a / b⌉ := Int.le_ceil _
    have hc' : (⌈a / b⌉ : ℚ) < a / b + 1 := Int.ceil_lt_add_one _
    rw [div_le_iff₀ hb] at hc
    have hc2 : (⌈a / b⌉ : ℚ) * b < a + b := by
      have := mul_lt_mul_of_pos_right hc' hb
      rwa [add_mul, one_mul, div_mul_cancel₀ _ hb.ne'] at this
    unfold mod
    dsimp only
    rw [h1]
    split
    · rename_i hr
      have hpos : 0 ≤ a - b * ⌈a / b⌉ + b := by linarith
      obtain ⟨b1, b2⟩ := R.rnd_bounds hpos
      refine ⟨R.rnd_nonneg hpos, ⌈a / b⌉ - 1, ?_, ?_⟩
      · push_cast
        linarith
      · push_cast
        unfold add
        have : a - (⌈a / b⌉ - 1) * b = a - b * ⌈a / b⌉ + b := by ring
        rwa [this]
    · rename_i hr
      refine ⟨not_lt.1 hr, ⌈a / b⌉, by linarith, ?_⟩
      have : 0 ≤ a - ⌈a / b⌉ * b := by linarith
      nlinarith [mul_nonneg hu0 this]

theorem sliceList_sum (a : NdArray ℚ) (k j : ℕ) : (sliceList a k j).sum = sliceSum a k j := by
  unfold sliceList sliceSum
  split
  · rw [sum_allIdx]
  · rfl

theorem sliceList_nonneg {a : NdArray ℚ} (ha : NonNeg a) {k n : ℕ} (hk : a.shape[k]? = some n)
    (j : ℕ) : ∀ x ∈ sliceList a k j, 0 ≤ x := by
  intro x hx
  unfold sliceList at hx
  split at hx
  · rename_i hj
    rw [hk, Option.getD_some] at hj
    obtain ⟨idx, hi, rfl⟩ := List.mem_map.1 hx
    exact ha _ (inB_insertIdx hk (mem_allIdx.1 hi) hj)
  · cases hx

/-- One round of the loop, for a shift near `m` bin widths. -/
theorem shiftByBinContrib_ok {tot : List ℚ → ℚ} (ht : R.Totals tot) {data : NdArray ℚ}
    (hn : NonNeg data) {k : ℕ} {p : SPar} (hp : p.WF) (hsh : data.shape[k]? = some p.bins.toNat)
    {shift : ℚ} (hκ : (|p.low| / p.width + p.bins + |shift| / p.width) * R.u ≤ 1 / 1000) {m : ℤ}
    (hm : |shift - m * p.width| ≤ p.width / 4) {b : ℕ} (hb : (b : ℤ) < p.bins) :
    R.shiftByBinContrib tot data k p shift b = .ok (
      if (0 ≤ (b : ℤ) - m ∧ (b : ℤ) - m < p.bins) ∧ 0 < sliceSum data k ((b : ℤ) - m).toNat
      then some (oldData data k ((b : ℤ) - m).toNat) else none) := by
  have hw := hp.width_pos
  have hu0 := R.u_nonneg
  have hsw : 0 ≤ |shift| / p.width := by positivity
  have hκ' : (|p.low| / p.width + p.bins) * R.u ≤ 1 / 1000 := by
    exact le_trans (mul_le_mul_of_nonneg_right (by linarith) hu0) hκ
  obtain ⟨h1, -, h3, h4, h5⟩ := R.axis_bounds hp hκ' le_rfl
  have hc := R.centre_near hp hκ' le_rfl (i := (b : ℤ)) (by omega) hb
  rw [Int.cast_natCast] at hc
  set x := R.add p.low (R.mul (R.add b (1 / 2)) (R.width p)) with hx
  have hbq : (b : ℚ) + 1 ≤ p.bins := by exact_mod_cast hb
  have hbq0 : (0 : ℚ) ≤ b := by positivity
  -- the size of the numbers
  have hsize : |x - shift| ≤ (|p.low| / p.width + p.bins + |shift| / p.width) * p.width +
      8 * (1 / 1000) * p.width := by
    have e1 := h5 ((b : ℚ) + 1 / 2) (by linarith) (by linarith)
    have e2 : x - shift = (x - (p.low + ((b : ℚ) + 1 / 2) * p.width)) +
      (p.low + ((b : ℚ) + 1 / 2) * p.width) + -shift := by ring
    have e3 := abs_add_le ((x - (p.low + ((b : ℚ) + 1 / 2) * p.width)) +
      (p.low + ((b : ℚ) + 1 / 2) * p.width)) (-shift)
    have e4 := abs_add_le (x - (p.low + ((b : ℚ) + 1 / 2) * p.width))
      (p.low + ((b : ℚ) + 1 / 2) * p.width)
    rw [← e2, abs_neg] at e3
    have e5 : (|p.low| / p.width + p.bins + |shift| / p.width) * p.width =
      (|p.low| / p.width + p.bins) * p.width + |shift| := by
      field_simp
    rw [e5]
    linarith
  have herr : |R.sub x shift - (x - shift)| ≤ 2 / 1000 * p.width := by
    refine (R.rel _).trans ((mul_le_mul_of_nonneg_left hsize hu0).trans ?_)
    have e : R.u * ((|p.low| / p.width + p.bins + |shift| / p.width) * p.width +
      8 * (1 / 1000) * p.width) = (|p.low| / p.width + p.bins + |shift| / p.width) * R.u * p.width +
      8 * (1 / 1000) * R.u * p.width := by ring
    rw [e]
    have e1 : (|p.low| / p.width + p.bins + |shift| / p.width) * R.u * p.width ≤
      1 / 1000 * p.width := by gcongr
    have e2 : 8 * (1 / 1000) * R.u * p.width ≤ 8 * (1 / 1000) * (1 / 1000) * p.width := by gcongr
    linarith
  set y := R.sub x shift with hy
  -- `y` is near the centre of bin `b - m`
  have hnear : |y - (p.low + ((((b : ℤ) - m : ℤ) : ℚ) + 1 / 2) * p.width)| ≤ 27 / 100 * p.width := by
    have e : y - (p.low + ((((b : ℤ) - m : ℤ) : ℚ) + 1 / 2) * p.width) =
      (y - (x - shift)) + (x - (p.low + ((b : ℚ) + 1 / 2) * p.width)) - (shift - m * p.width) := by
      push_cast
      ring
    rw [e]
    have a1 := abs_le.1 herr
    have a2 := abs_le.1 hc
    have a3 := abs_le.1 hm
    rw [abs_le]
    constructor <;> linarith [a1.1, a1.2, a2.1, a2.2, a3.1, a3.2]
  have hnear' := abs_le.1 hnear
  unfold Rounding.shiftByBinContrib
  simp only [bind, Except.bind, pure, Except.pure, ← hx, ← hy]
  by_cases c1 : 0 ≤ (b : ℤ) - m
  · by_cases c2 : (b : ℤ) - m < p.bins
    · have hg := R.getBin_near hp hκ' le_rfl c1 c2 (hnear.trans (by linarith))
      have q0 : (0 : ℚ) ≤ ((b : ℤ) - m : ℤ) := by exact_mod_cast c1
      have q1 : (((b : ℤ) - m : ℤ) : ℚ) + 1 ≤ p.bins := by exact_mod_cast c2
      have g1 : p.low ≤ y := by nlinarith [hnear'.1]
      have g2 : y ≤ p.high := by
        rw [hp.high_eq]
        nlinarith [hnear'.2]
      rw [if_neg (by rintro (h | h) <;> linarith), hg]
      have hpos := R.total_pos ht (by linarith) _ (sliceList_nonneg hn hsh ((b : ℤ) - m).toNat)
      rw [sliceList_sum] at hpos
      simp only [c1, c2, and_self, true_and, hpos]
      split <;> rfl
    · rw [if_pos, if_neg (by tauto)]
      right
      have : (p.bins : ℚ) * p.width ≤ ((b : ℤ) - m : ℤ) * p.width := by
        apply mul_le_mul_of_nonneg_right _ hw.le
        exact_mod_cast (not_lt.1 c2)
      rw [hp.high_eq]
      linarith [hnear'.1]
  · rw [if_pos, if_neg (by tauto)]
    left
    have : (((b : ℤ) - m : ℤ) + 1 : ℚ) * p.width ≤ 0 := by
      apply mul_nonpos_of_nonpos_of_nonneg _ hw.le
      have : (((b : ℤ) - m : ℤ) : ℚ) ≤ -1 := by exact_mod_cast (by omega : (b : ℤ) - m ≤ -1)
      linarith
    linarith [hnear'.2]

/-- The loop over the bins. -/
theorem binLoop_ok {n k : ℕ} {contrib : ℕ → Except PyErr (Option (List ℕ → ℚ))}
    {c : ℕ → Option (List ℕ → ℚ)} (shape : List ℕ) (h : ∀ b < n, contrib b = .ok (c b)) :
    (List.range n).foldlM (fun d bin =>
      match contrib bin with
      | .error e => .error e
      | .ok none => .ok d
      | .ok (some f) => .ok (R.addSlice d k bin f)) (NdArray.zeros shape) =
    (.ok ⟨shape, fun idx =>
      match idx[k]? with
      | some i => if i < n then (match c i with | some f => R.rnd (f idx) | none => 0) else 0
      | none => 0⟩ : Except PyErr (NdArray ℚ)) := by
  induction n with
  | zero =>
    simp only [List.range_zero, List.foldlM_nil, pure, Except.pure, Nat.not_lt_zero, if_false]
    unfold NdArray.zeros
    congr 2
    funext idx
    cases idx[k]? <;> rfl
  | succ n ih =>
    have ih := ih (fun b hb => h b (by omega))
    rw [List.range_succ, List.foldlM_append, ih]
    simp only [bind, Except.bind, List.foldlM_cons, List.foldlM_nil, pure, Except.pure,
      h n (by omega)]
    cases hc : c n with
    | none =>
      simp only
      congr
      funext idx
      cases hi : idx[k]? with
      | none => rfl
      | some i =>
        simp only
        by_cases h1 : i < n
        · simp [h1, Nat.lt_succ_of_lt h1]
        · by_cases h2 : i = n
          · subst h2; simp [hc]
          · simp [h1, show ¬ i < n + 1 by omega]
    | some f =>
      simp only [addSlice, add]
      congr
      funext idx
      cases hi : idx[k]? with
      | none => simp
      | some i =>
        simp only [Option.some.injEq]
        by_cases h1 : i < n
        · simp [h1, Nat.lt_succ_of_lt h1, show i ≠ n by omega]
        · by_cases h2 : i = n
          · subst h2; simp [hc]
          · simp [h1, h2, show ¬ i < n + 1 by omega]

end Rounding

end Verif
