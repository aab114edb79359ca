import Verif.Lemmas.Shift
import Verif.Props.Axis
import Verif.Props.Project
import Verif.Spec.Examples

/-!
# C27–C31: shifting and scaling an axis
-/

namespace Verif

open Finset

theorem shiftByBinContrib_ok {data : NdArray ℚ} {k : ℕ} {p : SPar} (hp : p.WF) {shift : ℚ} {m : ℤ}
    (h1 : m * p.width ≤ shift) (h2 : shift - m * p.width < p.width / 2) (b : ℕ) :
    shiftByBinContrib data k p shift b = .ok (
      if (0 ≤ (b : ℤ) - m ∧ (b : ℤ) - m < p.bins) ∧ 0 < sliceSum data k ((b : ℤ) - m).toNat
      then some (oldData data k ((b : ℤ) - m).toNat) else none) := by
  have hw := hp.width_pos
  have hh := hp.high_eq
  set x := p.low + ((b : ℚ) + 1 / 2) * p.width with hx
  have e1 : p.low + ((b : ℤ) - m : ℤ) * p.width < x - shift := by
    rw [hx]; push_cast; linarith
  have e2 : x - shift < p.low + ((b : ℤ) - m + 1 : ℤ) * p.width := by
    rw [hx]; push_cast; linarith
  have e3 : x - shift ≤ p.low + (((b : ℤ) - m : ℤ) + 1 / 2) * p.width := by
    rw [hx]; push_cast; linarith
  unfold shiftByBinContrib
  simp only [bind, Except.bind, pure, Except.pure, ← hx]
  by_cases c1 : 0 ≤ (b : ℤ) - m
  · by_cases c2 : (b : ℤ) - m < p.bins
    · have q1 : (0 : ℚ) ≤ ((b : ℤ) - m : ℤ) * p.width :=
        mul_nonneg (by exact_mod_cast c1) hw.le
      have q2 : (((b : ℤ) - m + 1 : ℤ) : ℚ) * p.width ≤ p.bins * p.width := by
        apply mul_le_mul_of_nonneg_right _ hw.le
        exact_mod_cast c2
      have g1 : p.low ≤ x - shift := by linarith
      have g2 : x - shift ≤ p.high := by linarith
      have hb : p.getBin (x - shift) = .ok ((b : ℤ) - m) := by
        rw [getBin_of_range hp g1 g2]
        congr 1
        rw [Int.floor_eq_iff, le_div_iff₀ hw, div_lt_iff₀ hw]
        constructor
        · linarith
        · push_cast at e2 ⊢; linarith
      rw [if_neg (by rintro (h | h) <;> linarith), hb]
      simp only [c1, c2, and_self, true_and]
      split <;> rfl
    · rw [if_pos, if_neg (by tauto)]
      right
      have : (p.bins : ℚ) * p.width ≤ ((b : ℤ) - m : ℤ) * p.width := by
        apply mul_le_mul_of_nonneg_right _ hw.le
        exact_mod_cast (not_lt.1 c2)
      linarith
  · rw [if_pos, if_neg (by tauto)]
    left
    have : (((b : ℤ) - m : ℤ) + 1 / 2 : ℚ) * p.width < 0 := by
      apply mul_neg_of_neg_of_pos _ hw
      have : (((b : ℤ) - m : ℤ) : ℚ) ≤ -1 := by exact_mod_cast (by omega : (b : ℤ) - m ≤ -1)
      linarith
    linarith

theorem pyMod_of_close {w shift : ℚ} (hw : 0 < w) {m : ℤ} (h1 : m * w ≤ shift)
    (h2 : shift - m * w < w) : pyMod shift w = shift - m * w := by
  have : ⌊shift / w⌋ = m := by
    rw [Int.floor_eq_iff, le_div_iff₀ hw, div_lt_iff₀ hw]
    constructor
    · exact h1
    · linarith
  unfold pyMod; rw [this]; ring

theorem npClose_zero {x : ℚ} (h : 0 ≤ x) : npClose x 0 ↔ x ≤ 1 / 10 ^ 8 := by
  unfold npClose
  rw [sub_zero, abs_of_nonneg h]; simp

theorem Moved.nonneg {a b : NdArray ℚ} {k n : ℕ} {m : ℤ} (hk : a.shape[k]? = some n)
    (h : Moved a b k m) (ha : NonNeg a) : NonNeg b := by
  intro idx hi
  rw [h.1] at hi
  obtain ⟨i, hi1, hi2⟩ := inB_getElem? hi hk
  rw [h.2 n hk idx i hi hi1]
  split
  · rename_i hc
    exact ha _ (inB_set hi hk (by omega))
  · rfl

theorem Moved.axisTotal {a b : NdArray ℚ} {k n : ℕ} {m : ℤ} (hk : a.shape[k]? = some n)
    (h : Moved a b k m) {j : ℕ} (hj : j < n) :
    axisTotal b k j = if 0 ≤ (j : ℤ) - m ∧ (j : ℤ) - m < n then
      Verif.axisTotal a k ((j : ℤ) - m).toNat else 0 := by
  rw [axisTotal_eq b (by rw [h.1]; exact hk), if_pos hj, h.1]
  split
  · rename_i hc
    rw [axisTotal_eq a hk, if_pos (by omega)]
    refine sumIdx_congr fun idx hidx => ?_
    have hl := length_of_erase hk hidx
    rw [h.2 n hk _ j (inB_insertIdx hk hidx hj) (insertIdx_getElem? hl), if_pos hc,
      insertIdx_set hl]
  · rename_i hc
    have : ∀ idx, InB (a.shape.eraseIdx k) idx → b.get (idx.insertIdx k j) = 0 := by
      intro idx hidx
      have hl := length_of_erase hk hidx
      rw [h.2 n hk _ j (inB_insertIdx hk hidx hj) (insertIdx_getElem? hl), if_neg hc]
    rw [sumIdx_congr this, sumIdx_zero]

theorem Moved.sum_le {a b : NdArray ℚ} {k n : ℕ} {m : ℤ} (hk : a.shape[k]? = some n)
    (h : Moved a b k m) (ha : NonNeg a) : b.sum ≤ a.sum := by
  rw [sum_axisTotal b (by rw [h.1]; exact hk), sum_axisTotal a hk]
  calc ∑ j ∈ range n, Verif.axisTotal b k j
      = ∑ j ∈ range n with 0 ≤ ((j : ℕ) : ℤ) - m ∧ ((j : ℕ) : ℤ) - m < n,
          Verif.axisTotal a k ((j : ℤ) - m).toNat := by
        rw [Finset.sum_filter]
        exact Finset.sum_congr rfl fun j hj => h.axisTotal hk (Finset.mem_range.1 hj)
    _ = ∑ j ∈ (range n).filter (fun j : ℕ => 0 ≤ (j : ℤ) - m ∧ (j : ℤ) - m < n) |>.image
          (fun j : ℕ => ((j : ℤ) - m).toNat), Verif.axisTotal a k j := by
        rw [Finset.sum_image]
        intro x hx y hy hxy
        simp only [coe_filter, mem_range, Set.mem_ofPred_eq] at hx hy
        simp only at hxy
        omega
    _ ≤ _ := by
        apply Finset.sum_le_sum_of_subset_of_nonneg
        · intro x hx
          simp only [mem_image, mem_filter, mem_range] at hx ⊢
          omega
        · intro i _ _; exact axisTotal_nonneg ha k i

/-- **C27.** A shift by `m` bin widths (or up to `1e-8` more, less than half a bin) moves the
contents by `m` bins along the axis and changes nothing else but the name; no counts are
created. -/
theorem c27_shift_by_bin (str : ℚ → PyStr) (s : Spectrum) (hs : s.WF) (hn : NonNeg s.data)
    (k : ℕ) (p : SPar) (hk : s.cfg[k]? = some p) (m : ℤ) (shift : ℚ)
    (h1 : m * ((p.high - p.low) / p.bins) ≤ shift)
    (h2 : shift - m * ((p.high - p.low) / p.bins) ≤ 1 / 10 ^ 8)
    (h3 : shift - m * ((p.high - p.low) / p.bins) < (p.high - p.low) / p.bins / 2) :
    ∃ t, s.shiftByBin str p.name shift = .ok t ∧ Moved s.data t.data k m ∧
      SameButNameData s t ∧ t.name = s.name ++ lit "_shift" ++ str shift ∧
      NonNeg t.data ∧ t.sum ≤ s.sum := by
  obtain ⟨hm, hp, hg, hi, hsh⟩ := axis_facts hs hk
  have hw := hp.width_pos
  change m * p.width ≤ shift at h1
  change shift - m * p.width ≤ _ at h2
  change shift - m * p.width < p.width / 2 at h3
  have hb := hp.1
  have hmod := pyMod_of_close hw h1 (by linarith)
  unfold Spectrum.shiftByBin
  simp only [bind, Except.bind, pure, Except.pure, throw, throwThe, MonadExceptOf.throw, hg, hi]
  rw [if_neg (by rintro (h | h); omega; exact hw.ne' h), if_neg, binLoop_ok _
    (fun b _ => shiftByBinContrib_ok hp h1 h3 b)]
  · refine ⟨_, rfl, ?_⟩
    have hmoved : Moved s.data ⟨s.data.shape, fun idx => (0 : ℚ) +
        match idx[k]? with
        | some i => if i < p.bins.toNat then
            (match (if (0 ≤ (i : ℤ) - m ∧ (i : ℤ) - m < p.bins) ∧
              0 < sliceSum s.data k ((i : ℤ) - m).toNat
              then some (oldData s.data k ((i : ℤ) - m).toNat) else none) with
              | some f => f idx | none => 0) else 0
        | none => 0⟩ k m := by
      refine ⟨rfl, ?_⟩
      intro n hn' idx i hidx hik
      rw [hsh] at hn'; cases hn'
      obtain ⟨i', hi', hlt⟩ := inB_getElem? hidx hsh
      rw [hik] at hi'; cases hi'
      simp only [hik, hlt, if_true, zero_add]
      have hcast : ((p.bins.toNat : ℕ) : ℤ) = p.bins := Int.toNat_of_nonneg hb.le
      rw [hcast]
      by_cases hc : 0 ≤ (i : ℤ) - m ∧ (i : ℤ) - m < p.bins
      · simp only [hc, and_self, true_and, if_true]
        split
        · rename_i f heq
          split at heq
          · cases heq; rfl
          · cases heq
        · rename_i heq
          split at heq
          · cases heq
          · rename_i hns
            rw [sliceSum_eq _ hsh] at hns
            have hin := inB_set (j := ((i : ℤ) - m).toNat) hidx hsh (by omega)
            refine (eq_zero_of_axisTotal hn (not_lt.1 hns) hin ?_).symm
            have : k < idx.length := (List.getElem?_eq_some_iff.1 hik).1
            simp [this]
      · rw [if_neg (fun h => hc h.1), if_neg hc]
    refine ⟨hmoved, ⟨rfl, rfl, rfl, rfl⟩, rfl, hmoved.nonneg hsh hn, hmoved.sum_le hsh hn⟩
  · rw [not_not, hmod, npClose_zero (by linarith)]
    exact h2

/-- **C27.** A shift that is not a whole number of bin widths (up to `1e-8`) is rejected. -/
theorem c27_rejects (str : ℚ → PyStr) (s : Spectrum) (hs : s.WF) (p : SPar) (hm : p ∈ s.cfg)
    (shift : ℚ) (h : ∀ m : ℤ, m * ((p.high - p.low) / p.bins) ≤ shift →
      1 / 10 ^ 8 < shift - m * ((p.high - p.low) / p.bins)) :
    s.shiftByBin str p.name shift = .error .valueError := by
  have hp := hs.axes p hm
  have hw := hp.width_pos
  have hb := hp.1
  unfold Spectrum.shiftByBin
  simp only [bind, Except.bind, pure, Except.pure, throw, throwThe, MonadExceptOf.throw,
    getPar_mem hs.names hm]
  rw [if_neg (by rintro (h | h); omega; exact hw.ne' h), if_pos]
  have hfl : (⌊shift / p.width⌋ : ℚ) * p.width ≤ shift := by
    rw [← le_div_iff₀ hw]; exact Int.floor_le _
  have := h ⌊shift / p.width⌋ hfl
  change 1 / 10 ^ 8 < shift - ⌊shift / p.width⌋ * p.width at this
  have h1 : pyMod shift p.width = shift - ⌊shift / p.width⌋ * p.width := by unfold pyMod; ring
  rw [h1, npClose_zero (by linarith)]
  linarith

/-- Moving by `m` and then by `l`. -/
theorem Moved.comp {a b c : NdArray ℚ} {k n : ℕ} {m l : ℤ} (hk : a.shape[k]? = some n)
    (h : Moved a b k m) (h' : Moved b c k l) {idx : List ℕ} {i : ℕ} (hi : InB a.shape idx)
    (hik : idx[k]? = some i) :
    c.get idx = if (0 ≤ (i : ℤ) - l ∧ (i : ℤ) - l < n) ∧
      (0 ≤ (i : ℤ) - l - m ∧ (i : ℤ) - l - m < n) then
        a.get (idx.set k ((i : ℤ) - l - m).toNat) else 0 := by
  rw [h'.2 n (by rw [h.1]; exact hk) idx i (by rw [h.1]; exact hi) hik]
  by_cases c1 : 0 ≤ (i : ℤ) - l ∧ (i : ℤ) - l < n
  · rw [if_pos c1]
    have hlt : k < idx.length := (List.getElem?_eq_some_iff.1 hik).1
    rw [h.2 n hk _ ((i : ℤ) - l).toNat (inB_set hi hk (by omega)) (by simp [hlt])]
    have e : (((i : ℤ) - l).toNat : ℤ) = (i : ℤ) - l := Int.toNat_of_nonneg c1.1
    rw [e]
    simp only [c1, and_self, true_and, List.set_set]
  · rw [if_neg c1, if_neg (fun h => c1 h.1)]

/-- The spectrum after a shift by bins is again usable. -/
theorem wf_of_moved {s t : Spectrum} (hs : s.WF) {k : ℕ} {m : ℤ} (h : Moved s.data t.data k m)
    (h' : SameButNameData s t) : t.WF := by
  obtain ⟨h1, -⟩ := h'
  exact ⟨by rw [h1]; exact hs.axes, by rw [h1]; exact hs.names, by rw [h1, h.1]; exact hs.shape⟩

/-- Two successive shifts by whole numbers of bins. -/
theorem shift_twice (str : ℚ → PyStr) {s : Spectrum} (hs : s.WF) (hn : NonNeg s.data)
    {k : ℕ} {p : SPar} (hk : s.cfg[k]? = some p) (m l : ℤ) :
    ∃ t u, s.shiftByBin str p.name (m * ((p.high - p.low) / p.bins)) = .ok t ∧
      t.shiftByBin str p.name (l * ((p.high - p.low) / p.bins)) = .ok u ∧
      Moved s.data t.data k m ∧ Moved t.data u.data k l ∧ SameButNameData s u := by
  have hw : 0 < (p.high - p.low) / p.bins := (axis_facts hs hk).2.1.width_pos
  obtain ⟨t, ht, hmt, hst, -, hnt, -⟩ := c27_shift_by_bin str s hs hn k p hk m _ le_rfl
    (by norm_num) (by linarith)
  obtain ⟨u, hu, hmu, hsu, -⟩ := c27_shift_by_bin str t (wf_of_moved hs hmt hst) hnt k p
    (by rw [hst.1]; exact hk) l _ le_rfl (by norm_num) (by linarith)
  obtain ⟨a1, a2, a3, a4⟩ := hst
  obtain ⟨b1, b2, b3, b4⟩ := hsu
  exact ⟨t, u, ht, hu, hmt, hmu, b1.trans a1, b2.trans a2, b3.trans a3, b4.trans a4⟩

/-- **C28.** Shifting by `m` bins and then by `-m` bins restores every slice that stayed in
range and empties the others. -/
theorem c28_opposite (str : ℚ → PyStr) (s : Spectrum) (hs : s.WF) (hn : NonNeg s.data)
    (k : ℕ) (p : SPar) (hk : s.cfg[k]? = some p) (m : ℤ) :
    ∃ t u, s.shiftByBin str p.name (m * ((p.high - p.low) / p.bins)) = .ok t ∧
      t.shiftByBin str p.name (-(m * ((p.high - p.low) / p.bins))) = .ok u ∧
      u.data.shape = s.data.shape ∧ SameButNameData s u ∧
      ∀ idx (i : ℕ), InB s.data.shape idx → idx[k]? = some i →
        u.data.get idx = if 0 ≤ (i : ℤ) + m ∧ (i : ℤ) + m < p.bins then s.data.get idx else 0 := by
  obtain ⟨-, hp, -, -, hsh⟩ := axis_facts hs hk
  obtain ⟨t, u, ht, hu, hmt, hmu, hsu⟩ := shift_twice str hs hn hk m (-m)
  refine ⟨t, u, ht, ?_, hmu.1.trans hmt.1, hsu, ?_⟩
  · rw [← hu]; push_cast; rw [neg_mul]
  · intro idx i hidx hik
    rw [hmt.comp hsh hmu hidx hik]
    obtain ⟨i', hi', hlt⟩ := inB_getElem? hidx hsh
    rw [hik] at hi'; cases hi'
    have hb := hp.1
    have hcast : ((p.bins.toNat : ℕ) : ℤ) = p.bins := Int.toNat_of_nonneg hb.le
    have e : (i : ℤ) - -m - m = i := by ring
    rw [e, hcast, Int.toNat_natCast, set_self hik]
    by_cases hc : 0 ≤ (i : ℤ) + m ∧ (i : ℤ) + m < p.bins
    · rw [if_pos hc, if_pos]; omega
    · rw [if_neg hc, if_neg]; omega

/-- **C28.** Shifting by zero leaves every cell as it is. -/
theorem c28_zero (str : ℚ → PyStr) (s : Spectrum) (hs : s.WF) (hn : NonNeg s.data)
    (p : SPar) (hm : p ∈ s.cfg) :
    ∃ t, s.shiftByBin str p.name 0 = .ok t ∧ s.data.Eqv t.data ∧ SameButNameData s t := by
  obtain ⟨k, hk⟩ := List.getElem?_of_mem hm
  obtain ⟨-, hp, -, -, hsh⟩ := axis_facts hs hk
  have hw : 0 < (p.high - p.low) / p.bins := hp.width_pos
  obtain ⟨t, ht, hmt, hst, -⟩ := c27_shift_by_bin str s hs hn k p hk 0 0 (by simp) (by norm_num)
    (by simpa using hw)
  refine ⟨t, ht, ⟨hmt.1.symm, ?_⟩, hst⟩
  intro idx hidx
  obtain ⟨i, hik, hlt⟩ := inB_getElem? hidx hsh
  rw [hmt.2 _ hsh idx i hidx hik]
  rw [if_pos (by omega)]
  simp [set_self hik]

/-- **C28.** Shifts in the same direction add up. -/
theorem c28_same_direction (str : ℚ → PyStr) (s : Spectrum) (hs : s.WF) (hn : NonNeg s.data)
    (k : ℕ) (p : SPar) (hk : s.cfg[k]? = some p) (m l : ℤ) (hml : 0 ≤ m * l) :
    ∃ t u v, s.shiftByBin str p.name (m * ((p.high - p.low) / p.bins)) = .ok t ∧
      t.shiftByBin str p.name (l * ((p.high - p.low) / p.bins)) = .ok u ∧
      s.shiftByBin str p.name (m * ((p.high - p.low) / p.bins) +
        l * ((p.high - p.low) / p.bins)) = .ok v ∧
      u.data.Eqv v.data := by
  obtain ⟨-, hp, -, -, hsh⟩ := axis_facts hs hk
  have hw : 0 < (p.high - p.low) / p.bins := hp.width_pos
  obtain ⟨t, u, ht, hu, hmt, hmu, hsu⟩ := shift_twice str hs hn hk m l
  obtain ⟨v, hv, hmv, -⟩ := c27_shift_by_bin str s hs hn k p hk (m + l) _ le_rfl
    (by norm_num) (by linarith)
  have e : ((m + l : ℤ) : ℚ) * ((p.high - p.low) / p.bins) =
      m * ((p.high - p.low) / p.bins) + l * ((p.high - p.low) / p.bins) := by push_cast; ring
  rw [e] at hv
  refine ⟨t, u, v, ht, hu, hv, ?_, ?_⟩
  · rw [hmu.1, hmt.1, hmv.1]
  · intro idx hidx
    rw [hmu.1, hmt.1] at hidx
    obtain ⟨i, hik, hlt⟩ := inB_getElem? hidx hsh
    rw [hmt.comp hsh hmu hidx hik, hmv.2 _ hsh idx i hidx hik]
    have e2 : (i : ℤ) - l - m = i - (m + l) := by ring
    rw [e2]
    have hb := hp.1
    by_cases hc : 0 ≤ (i : ℤ) - (m + l) ∧ (i : ℤ) - (m + l) < p.bins.toNat
    · have h0 : 0 ≤ (i : ℤ) - l ∧ (i : ℤ) - l < p.bins.toNat := by
        rcases mul_nonneg_iff.1 hml with ⟨h1, h2⟩ | ⟨h1, h2⟩ <;> constructor <;> omega
      rw [if_pos hc, if_pos ⟨h0, hc⟩]
    · rw [if_neg hc, if_neg (fun h => hc h.2)]

/-- The hypotheses of C27 and C28 hold for a two-dimensional spectrum, shifted by three bins
down the energy axis. -/
example : Ex.spec.WF ∧ NonNeg Ex.spec.data ∧ Ex.spec.cfg[0]? = some Ex.energy ∧
    ((-3 : ℤ) : ℚ) * ((Ex.energy.high - Ex.energy.low) / Ex.energy.bins) ≤ -3 / 2 ∧
    (0 : ℤ) ≤ -3 * -2 := by
  refine ⟨Ex.spec_wf, ?_, rfl, by norm_num [Ex.energy], by norm_num⟩
  intro idx hi
  change InB [10, 4] idx at hi
  cases hi with
  | cons h1 h2 => cases h2 with
    | cons h2 h3 => cases h3; simp only [Ex.spec]; positivity

/-! ### interpolated shift and scaling -/

theorem sum_oldData (a : NdArray ℚ) {k n old : ℕ} (hk : a.shape[k]? = some n) (ho : old < n)
    (j : ℕ) : sumIdx (a.shape.eraseIdx k) (fun idx => oldData a k old (idx.insertIdx k j)) =
      sliceSum a k old := by
  rw [sliceSum_eq a hk, axisTotal_eq a hk, if_pos ho]
  refine sumIdx_congr fun idx hidx => ?_
  rw [oldData, insertIdx_set (length_of_erase hk hidx)]

theorem lt_of_sliceSum {a : NdArray ℚ} {k n old : ℕ} (hk : a.shape[k]? = some n)
    (h : 0 < sliceSum a k old) : old < n := by
  by_contra hc
  simp [sliceSum, hk, hc] at h

theorem oldData_nonneg {a : NdArray ℚ} {k n old : ℕ} (hk : a.shape[k]? = some n) (ho : old < n)
    (ha : NonNeg a) {idx : List ℕ} (hi : InB a.shape idx) : 0 ≤ oldData a k old idx :=
  ha _ (inB_set hi hk ho)

theorem trapezium_nonneg (f : ℚ → ℚ) (a b : ℚ) : 0 ≤ trapezium f a b := abs_nonneg _

theorem interpAreas_nonneg (p : SPar) (f : ℚ → ℚ) (c : ℚ) (old : ℤ) (c1 : ℚ) :
    0 ≤ (interpAreas p f c old c1).2.1 ∧ 0 ≤ (interpAreas p f c old c1).2.2 := by
  unfold interpAreas
  dsimp only
  split
  · split <;> simp [trapezium_nonneg]
  · split <;> simp [trapezium_nonneg]

/-- What one round of the loop adds: nothing, or a slice with total `f c`. -/
theorem interpContrib_spec {data : NdArray ℚ} {k n : ℕ} {p : SPar} {f : ℚ → ℚ} {c0 : ℚ}
    {o : Option (List ℕ → ℚ)} (hk : data.shape[k]? = some n)
    (h : interpContrib data k p f c0 = .ok o) :
    o = none ∨ ∃ c g, clampCentre p c0 = some c ∧ o = some g ∧ 0 < f c ∧
      (∀ j, sumIdx (data.shape.eraseIdx k) (fun idx => g (idx.insertIdx k j)) = f c) ∧
      (NonNeg data → ∀ idx, InB data.shape idx → 0 ≤ g idx) := by
  unfold interpContrib at h
  cases hc : clampCentre p c0 with
  | none => rw [hc] at h; cases h; exact .inl rfl
  | some c =>
    rw [hc] at h
    simp only [bind, Except.bind, pure, Except.pure] at h
    split at h
    · cases h; exact .inl rfl
    rename_i hy
    have hy : 0 < f c := not_le.1 hy
    split at h
    · cases h
    rename_i old1 _
    split at h
    · cases h
    rename_i c1 _
    have hnn := interpAreas_nonneg p f c old1 c1
    generalize interpAreas p f c old1 c1 = A at h hnn
    obtain ⟨old2, a1, a2⟩ := A
    simp only at h hnn
    split at h
    · cases h; exact .inl rfl
    rename_i ha
    have hpos : 0 < a1 + a2 := by
      rcases lt_or_eq_of_le hnn.1 with h1 | h1
      · linarith [hnn.2]
      · rcases lt_or_eq_of_le hnn.2 with h2 | h2
        · linarith
        · exact absurd ⟨h1.symm, h2.symm⟩ ha
    split at h
    · cases h; exact .inl rfl
    rename_i hs
    split at h
    · rename_i h1
      have h2 : 0 < sliceSum data k old2.toNat := by
        by_contra h2; exact hs ⟨h1, not_lt.1 h2⟩
      have hlt := lt_of_sliceSum hk h2
      cases h
      refine .inr ⟨c, _, rfl, rfl, hy, ?_, ?_⟩
      · intro j
        rw [sumIdx_mul, sum_oldData data hk hlt]
        field_simp
      · intro hd idx hi
        exact mul_nonneg (oldData_nonneg hk hlt hd hi) (by positivity)
    · rename_i h1
      have h1 : 0 < sliceSum data k old1.toNat := not_le.1 h1
      have hlt1 := lt_of_sliceSum hk h1
      split at h
      · cases h
        refine .inr ⟨c, _, rfl, rfl, hy, ?_, ?_⟩
        · intro j
          rw [sumIdx_mul, sum_oldData data hk hlt1]
          field_simp
        · intro hd idx hi
          exact mul_nonneg (oldData_nonneg hk hlt1 hd hi) (by positivity)
      · rename_i h2
        have h2 : 0 < sliceSum data k old2.toNat := not_le.1 h2
        have hlt2 := lt_of_sliceSum hk h2
        cases h
        refine .inr ⟨c, _, rfl, rfl, hy, ?_, ?_⟩
        · intro j
          rw [sumIdx_add, sumIdx_mul, sumIdx_mul, sumIdx_mul, sumIdx_mul,
            sum_oldData data hk hlt1, sum_oldData data hk hlt2]
          field_simp
        · intro hd idx hi
          have q1 := oldData_nonneg hk hlt1 hd hi
          have q2 := oldData_nonneg hk hlt2 hd hi
          have := hnn.1
          have := hnn.2
          positivity

theorem binLoop_inv {n k : ℕ} {contrib : ℕ → Except PyErr (Option (List ℕ → ℚ))}
    {start d : NdArray ℚ} (h : binLoop n k contrib start = .ok d) :
    ∀ b < n, ∃ o, contrib b = .ok o := by
  induction n generalizing d with
  | zero => intro b hb; omega
  | succ n ih =>
    unfold binLoop at h
    rw [List.range_succ, List.foldlM_append] at h
    cases hx : binLoop n k contrib start with
    | error e =>
      unfold binLoop at hx
      rw [hx] at h
      cases h
    | ok d' =>
      intro b hb
      by_cases hbn : b < n
      · exact ih hx b hbn
      · have : b = n := by omega
        subst this
        unfold binLoop at hx
        rw [hx] at h
        simp only [bind, Except.bind, List.foldlM_cons, List.foldlM_nil, pure, Except.pure] at h
        cases hc : contrib b with
        | error e => rw [hc] at h; cases h
        | ok o => exact ⟨o, rfl⟩

/-- The filled array of an interpolated shift or scaling: each slice is empty or has total
`f c` for the clamped position `c`. -/
theorem interp_loop {data d : NdArray ℚ} {k : ℕ} {p : SPar} {f : ℚ → ℚ} {pos : ℕ → ℚ}
    (hk : data.shape[k]? = some p.bins.toNat)
    (h : binLoop p.bins.toNat k (fun b => interpContrib data k p f (pos b))
      (.zeros data.shape) = .ok d) :
    d.shape = data.shape ∧ (NonNeg data → NonNeg d) ∧
      ∀ b < p.bins.toNat,
        (interpContrib data k p f (pos b) = .ok none ∧ axisTotal d k b = 0) ∨
        ∃ c g, interpContrib data k p f (pos b) = .ok (some g) ∧
          clampCentre p (pos b) = some c ∧ 0 < f c ∧ axisTotal d k b = f c := by
  have hok := binLoop_inv h
  choose! o ho using hok
  rw [binLoop_ok (c := o) _ ho] at h
  cases h
  refine ⟨rfl, ?_, ?_⟩
  · intro hd idx hi
    simp only [NdArray.zeros, zero_add]
    obtain ⟨i, hik, hlt⟩ := inB_getElem? hi hk
    rw [hik]
    simp only [hlt, if_true]
    rcases interpContrib_spec hk (ho i hlt) with h1 | ⟨c, g, -, h1, -, -, h2⟩
    · rw [h1]
    · rw [h1]; exact h2 hd idx hi
  · intro b hb
    rw [axisTotal_eq _ (n := p.bins.toNat) (by exact hk), if_pos hb]
    rcases interpContrib_spec hk (ho b hb) with h1 | ⟨c, g, hc, h1, hy, h2, -⟩
    · left
      refine ⟨by rw [ho b hb, h1], ?_⟩
      rw [← sumIdx_zero (data.shape.eraseIdx k)]
      refine sumIdx_congr fun idx hidx => ?_
      simp [NdArray.zeros, insertIdx_getElem? (length_of_erase hk hidx), h1]
    · right
      refine ⟨c, g, by rw [ho b hb, h1], hc, hy, ?_⟩
      rw [← h2 b]
      refine sumIdx_congr fun idx hidx => ?_
      simp [NdArray.zeros, insertIdx_getElem? (length_of_erase hk hidx), h1, hb]

theorem clampCentre_readAt {p : SPar} (hp : p.WF) {x c : ℚ} (h : clampCentre p x = some c) :
    p.low ≤ x ∧ x < p.high ∧ ReadAt p x c := by
  have hw := hp.width_pos
  unfold clampCentre at h
  unfold ReadAt
  change _ ∧ _ ∧ (p.low + p.width / 2 ≤ x → x ≤ p.high - p.width / 2 → c = x) ∧
    |c - x| ≤ p.width / 2 + 1 / 10 ^ 6
  split at h
  · cases h
  rename_i h0
  simp only [not_or, not_lt, not_le] at h0
  refine ⟨h0.1, h0.2, ?_⟩
  split at h
  · rename_i h1
    cases h
    constructor
    · intro; linarith
    · rw [abs_le]
      have : (0 : ℚ) < 1 / 10 ^ 6 := by norm_num
      constructor <;> linarith [h0.1]
  · split at h
    · rename_i h1
      cases h
      constructor
      · intro _ _; linarith
      · rw [abs_le]
        have : (0 : ℚ) < 1 / 10 ^ 6 := by norm_num
        constructor <;> linarith [h0.2]
    · cases h
      refine ⟨fun _ _ => rfl, ?_⟩
      simp; positivity

/-- The renormalised result of an interpolated shift or scaling. -/
theorem interp_result {s t : Spectrum} {d : NdArray ℚ} {k : ℕ} {p : SPar} {f : ℚ → ℚ}
    {pos : ℕ → ℚ} {name : PyStr} (hp : p.WF) (hk : s.data.shape[k]? = some p.bins.toNat)
    (h : binLoop p.bins.toNat k (fun b => interpContrib s.data k p f (pos b))
      (.zeros s.data.shape) = .ok d) (ht : renormalise s name d = .finite t) :
    t.sum = s.sum ∧ SameButNameData s t ∧ t.data.shape = s.data.shape ∧ t.name = name ∧
      (NonNeg s.data → NonNeg t.data) ∧
      ∃ C, ∀ b < p.bins.toNat,
        (axisTotal t.data k b = 0 ∨ ∃ c, p.low ≤ pos b ∧ pos b < p.high ∧ ReadAt p (pos b) c ∧
          0 < f c ∧ axisTotal t.data k b = C * f c) := by
  obtain ⟨hsh, hnn, hax⟩ := interp_loop hk h
  unfold renormalise at ht
  split at ht
  · cases ht
  rename_i hd0
  cases ht
  refine ⟨?_, ⟨rfl, rfl, rfl, rfl⟩, hsh, rfl, ?_, s.sum / d.sum, ?_⟩
  · change (d.smul _).sum = _
    rw [NdArray.smul_sum]
    field_simp
  · intro hs idx hi
    have hd := hnn hs
    change 0 ≤ d.get idx * (s.sum / d.sum)
    refine mul_nonneg (hd idx hi) (div_nonneg ?_ ?_)
    · exact sumIdx_nonneg hs
    · exact sumIdx_nonneg hd
  · intro b hb
    change axisTotal (d.smul _) k b = 0 ∨ _
    rcases hax b hb with ⟨-, h0⟩ | ⟨c, g, -, hc, hy, h1⟩
    · left; rw [axisTotal_smul, h0, zero_mul]
    · right
      obtain ⟨r1, r2, r3⟩ := clampCentre_readAt hp hc
      refine ⟨c, r1, r2, r3, hy, ?_⟩
      change axisTotal (d.smul _) k b = _
      rw [axisTotal_smul, h1, mul_comm]

theorem centre_eq (p : SPar) (i : ℕ) : p.centre i = p.low + ((i : ℚ) + 1 / 2) * p.width := by
  unfold SPar.centre
  simp only [SPar.edge_eq]
  push_cast
  ring

theorem not_multiple {w shift : ℚ} (hw : 0 < w)
    (h : ∀ m : ℤ, m * w ≤ shift → 1 / 10 ^ 8 < shift - m * w) : ¬ npClose (pyMod shift w) 0 := by
  have hfl : (⌊shift / w⌋ : ℚ) * w ≤ shift := by
    rw [← le_div_iff₀ hw]; exact Int.floor_le _
  have := h ⌊shift / w⌋ hfl
  have h1 : pyMod shift w = shift - ⌊shift / w⌋ * w := by unfold pyMod; ring
  rw [h1, npClose_zero (by linarith)]
  linarith

/-- `shift` when the shift is not a whole number of bins, without the special case. -/
theorem shift_unfold (str : ℚ → PyStr) (spline : List ℚ → List ℚ → Except PyErr (ℚ → ℚ))
    {s : Spectrum} (hs : s.WF) {k : ℕ} {p : SPar} (hk : s.cfg[k]? = some p) {shift : ℚ}
    (hsh : ∀ m : ℤ, m * p.width ≤ shift → 1 / 10 ^ 8 < shift - m * p.width)
    {f : ℚ → ℚ} (hf : s.interpolate1d spline p.name = .ok f) :
    s.shift str spline p.name shift =
      (binLoop p.bins.toNat k (fun b => interpContrib s.data k p f (p.centre b - shift))
        (.zeros s.data.shape)).map (renormalise s (s.name ++ lit "_shift" ++ str shift)) := by
  obtain ⟨-, hp, hg, hi, -⟩ := axis_facts hs hk
  have hw := hp.width_pos
  have hb := hp.1
  unfold Spectrum.shift
  simp only [bind, Except.bind, pure, Except.pure, throw, throwThe, MonadExceptOf.throw, hg, hi, hf]
  rw [if_neg (by rintro (h | h); omega; exact hw.ne' h), if_neg (not_multiple hw hsh)]
  simp only [centre_eq]
  cases binLoop p.bins.toNat k (fun b => interpContrib s.data k p f
      (p.low + ((b : ℚ) + 1 / 2) * p.width - shift)) (.zeros s.data.shape) <;> rfl

theorem binLoop_congr {n k : ℕ} {f g : ℕ → Except PyErr (Option (List ℕ → ℚ))}
    (h : ∀ b < n, f b = g b) (start : NdArray ℚ) : binLoop n k f start = binLoop n k g start := by
  induction n with
  | zero => rfl
  | succ n ih =>
    have ih := ih (fun b hb => h b (by omega))
    unfold binLoop at ih ⊢
    rw [List.range_succ, List.foldlM_append, List.foldlM_append, ih]
    simp only [List.foldlM_cons, List.foldlM_nil, h n (by omega)]

theorem scale_unfold (str : ℚ → PyStr) (spline : List ℚ → List ℚ → Except PyErr (ℚ → ℚ))
    {s : Spectrum} (hs : s.WF) {k : ℕ} {p : SPar} (hk : s.cfg[k]? = some p) {sf : ℚ}
    (hsf : sf ≠ 0) {f : ℚ → ℚ} (hf : s.interpolate1d spline p.name = .ok f) :
    s.scaleAxis str spline p.name sf =
      (binLoop p.bins.toNat k (fun b => interpContrib s.data k p f (p.centre b / sf))
        (.zeros s.data.shape)).map (renormalise s (s.name ++ lit "_sf" ++ str sf)) := by
  obtain ⟨-, hp, hg, hi, -⟩ := axis_facts hs hk
  have hb := hp.1
  unfold Spectrum.scaleAxis
  simp only [bind, Except.bind, pure, Except.pure, throw, throwThe, MonadExceptOf.throw, hg, hi, hf]
  rw [if_neg (by rintro (h | h); omega; exact hsf h)]
  rw [binLoop_congr (g := fun b => interpContrib s.data k p f (p.centre b / sf))]
  · cases binLoop p.bins.toNat k (fun b => interpContrib s.data k p f (p.centre b / sf))
      (.zeros s.data.shape) <;> rfl
  · intro b hbn
    unfold SPar.getBinCentre
    rw [if_neg (by omega), if_neg (by omega), centre_eq]
    simp

/-- **C29.** An interpolated shift that returns a spectrum with finite contents keeps the
total, the decay count, the axes and non-negativity. Each slice of the result is empty or
proportional, with one common factor, to the interpolation at the position its centre was
shifted from. -/
theorem c29_shift (str : ℚ → PyStr) (spline : List ℚ → List ℚ → Except PyErr (ℚ → ℚ))
    (s : Spectrum) (hs : s.WF) (k : ℕ) (p : SPar) (hk : s.cfg[k]? = some p) (shift : ℚ)
    (hsh : ∀ m : ℤ, m * ((p.high - p.low) / p.bins) ≤ shift →
      1 / 10 ^ 8 < shift - m * ((p.high - p.low) / p.bins))
    (f : ℚ → ℚ) (hf : s.interpolate1d spline p.name = .ok f) (t : Spectrum)
    (ht : s.shift str spline p.name shift = .ok (.finite t)) :
    t.sum = s.sum ∧ SameButNameData s t ∧ t.data.shape = s.data.shape ∧
      t.name = s.name ++ lit "_shift" ++ str shift ∧
      (NonNeg s.data → NonNeg t.data) ∧
      ∃ C, ∀ b < p.bins.toNat, axisTotal t.data k b = 0 ∨
        ∃ c, p.low ≤ p.centre b - shift ∧ p.centre b - shift < p.high ∧
          ReadAt p (p.centre b - shift) c ∧ 0 < f c ∧ axisTotal t.data k b = C * f c := by
  obtain ⟨-, hp, -, -, hshape⟩ := axis_facts hs hk
  rw [shift_unfold str spline hs hk hsh hf] at ht
  cases hd : binLoop p.bins.toNat k (fun b => interpContrib s.data k p f (p.centre b - shift))
    (.zeros s.data.shape) with
  | error e => rw [hd] at ht; cases ht
  | ok d =>
    rw [hd] at ht
    simp only [Except.map, Except.ok.injEq] at ht
    exact interp_result hp hshape hd ht

/-- **C30.** The same for scaling the axis. -/
theorem c30_scale (str : ℚ → PyStr) (spline : List ℚ → List ℚ → Except PyErr (ℚ → ℚ))
    (s : Spectrum) (hs : s.WF) (k : ℕ) (p : SPar) (hk : s.cfg[k]? = some p) (sf : ℚ)
    (hsf : 0 < sf) (f : ℚ → ℚ) (hf : s.interpolate1d spline p.name = .ok f) (t : Spectrum)
    (ht : s.scaleAxis str spline p.name sf = .ok (.finite t)) :
    t.sum = s.sum ∧ SameButNameData s t ∧ t.data.shape = s.data.shape ∧
      t.name = s.name ++ lit "_sf" ++ str sf ∧
      (NonNeg s.data → NonNeg t.data) ∧
      ∃ C, ∀ b < p.bins.toNat, axisTotal t.data k b = 0 ∨
        ∃ c, p.low ≤ p.centre b / sf ∧ p.centre b / sf < p.high ∧
          ReadAt p (p.centre b / sf) c ∧ 0 < f c ∧ axisTotal t.data k b = C * f c := by
  obtain ⟨-, hp, -, -, hshape⟩ := axis_facts hs hk
  rw [scale_unfold str spline hs hk hsf.ne' hf] at ht
  cases hd : binLoop p.bins.toNat k (fun b => interpContrib s.data k p f (p.centre b / sf))
    (.zeros s.data.shape) with
  | error e => rw [hd] at ht; cases ht
  | ok d =>
    rw [hd] at ht
    simp only [Except.map, Except.ok.injEq] at ht
    exact interp_result hp hshape hd ht

/-- **C30.** Exactly the positive scale factors are accepted; a rejected one leaves the
factor as it was. -/
theorem c30_factor (cur new : ℚ) :
    (0 < new → setScaleFactor cur new = (new, none)) ∧
    (new ≤ 0 → setScaleFactor cur new = (cur, some .valueError)) := by
  unfold setScaleFactor
  constructor
  · intro h; rw [if_neg (not_le.2 h)]
  · intro h; rw [if_pos h]

/-- **C30.** Whatever sequence of factors is set, the factor in use stays positive: it is the
initial 1 or one of the accepted values. -/
theorem c30_factor_history (fs : List ℚ) :
    0 < fs.foldl (fun cur new => (setScaleFactor cur new).1) 1 := by
  suffices h : ∀ c : ℚ, 0 < c → 0 < fs.foldl (fun cur new => (setScaleFactor cur new).1) c from
    h 1 one_pos
  induction fs with
  | nil => intro c hc; exact hc
  | cons a l ih =>
    intro c hc
    refine ih _ ?_
    change 0 < (setScaleFactor c a).1
    rcases le_or_gt a 0 with h | h
    · rw [(c30_factor c a).2 h]; exact hc
    · rw [(c30_factor c a).1 h]; exact h

theorem clampCentre_none {p : SPar} {x : ℚ} (h : x < p.low ∨ p.high ≤ x) :
    clampCentre p x = none := by
  unfold clampCentre; rw [if_pos h]

/-- If no position lies in range nothing is filled. -/
theorem interp_none {s : Spectrum} {k : ℕ} {p : SPar} {f : ℚ → ℚ} {pos : ℕ → ℚ} (name : PyStr)
    (h : ∀ b < p.bins.toNat, pos b < p.low ∨ p.high ≤ pos b) :
    (binLoop p.bins.toNat k (fun b => interpContrib s.data k p f (pos b))
      (.zeros s.data.shape)).map (renormalise s name) = .ok .notFinite := by
  rw [binLoop_ok (c := fun _ => none)]
  · simp only [Except.map, Except.ok.injEq]
    unfold renormalise
    rw [if_pos]
    change sumIdx s.data.shape _ = 0
    rw [← sumIdx_zero s.data.shape]
    refine sumIdx_congr fun idx _ => ?_
    simp only [NdArray.zeros, zero_add]
    cases idx[k]? <;> simp
  · intro b hb
    unfold interpContrib
    rw [clampCentre_none (h b hb)]

theorem centre_range {p : SPar} (hp : p.WF) {b : ℕ} (hb : b < p.bins.toNat) :
    p.low + p.width / 2 ≤ p.centre b ∧ p.centre b ≤ p.high - p.width / 2 := by
  have hw := hp.width_pos
  have hb' : (b : ℚ) + 1 ≤ p.bins := by
    have : (b : ℤ) + 1 ≤ p.bins := by omega
    exact_mod_cast this
  rw [centre_eq, hp.high_eq]
  have h0 : (0 : ℚ) ≤ b := Nat.cast_nonneg b
  constructor
  · nlinarith
  · nlinarith

/-- **C31, negation in general form.** Every shift by at least the length of the axis that is
not a whole number of bins silently returns a spectrum without finite contents. -/
theorem c31_shift_out_of_range (str : ℚ → PyStr)
    (spline : List ℚ → List ℚ → Except PyErr (ℚ → ℚ)) (s : Spectrum) (hs : s.WF) (p : SPar)
    (hm : p ∈ s.cfg) (shift : ℚ)
    (hsh : ∀ m : ℤ, m * ((p.high - p.low) / p.bins) ≤ shift →
      1 / 10 ^ 8 < shift - m * ((p.high - p.low) / p.bins))
    (f : ℚ → ℚ) (hf : s.interpolate1d spline p.name = .ok f)
    (hfar : p.high - p.low ≤ |shift|) :
    s.shift str spline p.name shift = .ok .notFinite := by
  obtain ⟨k, hk⟩ := List.getElem?_of_mem hm
  obtain ⟨-, hp, -, -, hshape⟩ := axis_facts hs hk
  have hw := hp.width_pos
  rw [shift_unfold str spline hs hk hsh hf]
  refine interp_none _ fun b hb => ?_
  obtain ⟨h1, h2⟩ := centre_range hp hb
  rcases le_abs.1 hfar with h | h
  · left; linarith
  · right; linarith

/-- **C31, negation in general form.** Every scaling by a factor so small that even the first
bin centre is scaled from beyond the upper edge returns a spectrum without finite contents. -/
theorem c31_scale_out_of_range (str : ℚ → PyStr)
    (spline : List ℚ → List ℚ → Except PyErr (ℚ → ℚ)) (s : Spectrum) (hs : s.WF) (p : SPar)
    (hm : p ∈ s.cfg) (sf : ℚ) (hsf : 0 < sf) (f : ℚ → ℚ)
    (hf : s.interpolate1d spline p.name = .ok f)
    (hfar : sf * p.high ≤ p.low + (p.high - p.low) / p.bins / 2) :
    s.scaleAxis str spline p.name sf = .ok .notFinite := by
  obtain ⟨k, hk⟩ := List.getElem?_of_mem hm
  obtain ⟨-, hp, -, -, hshape⟩ := axis_facts hs hk
  rw [scale_unfold str spline hs hk hsf.ne' hf]
  refine interp_none _ fun b hb => ?_
  obtain ⟨h1, h2⟩ := centre_range hp hb
  right
  rw [le_div_iff₀ hsf]
  change _ ≤ p.low + p.width / 2 at hfar
  linarith

theorem interpolate1d_const {s : Spectrum} (hs : s.WF) {p : SPar} (hm : p ∈ s.cfg) (f : ℚ → ℚ) :
    s.interpolate1d (fun _ _ => .ok f) p.name = .ok f := by
  obtain ⟨b, hb, -⟩ := c10_project s hs p hm
  have hp := hs.axes p hm
  have hw := hp.width_pos
  have hbins := hp.1
  unfold Spectrum.interpolate1d
  simp only [bind, Except.bind, throw, throwThe, MonadExceptOf.throw,
    getPar_mem hs.names hm, hb]
  rw [if_neg (by rintro (h | h); omega; exact hw.ne' h)]

/-- 100.25 is not a multiple of one half. -/
theorem ex_not_multiple (m : ℤ)
    (h : m * ((Ex.energy.high - Ex.energy.low) / Ex.energy.bins) ≤ (401 / 4 : ℚ)) :
    1 / 10 ^ 8 < (401 / 4 : ℚ) - m * ((Ex.energy.high - Ex.energy.low) / Ex.energy.bins) := by
  have e : ((Ex.energy.high - Ex.energy.low) / Ex.energy.bins : ℚ) = 1 / 2 := by
    norm_num [Ex.energy]
  rw [e] at h ⊢
  have h' : (m : ℚ) ≤ 401 / 2 := by linarith
  have h3 : (m : ℚ) < ((201 : ℤ) : ℚ) := by push_cast; linarith
  have h4 : m < 201 := by exact_mod_cast h3
  have h5 : (m : ℚ) ≤ 200 := by exact_mod_cast (by omega : m ≤ 200)
  norm_num
  linarith

/-- **C31, negation.** -/
theorem c31_finite_negation :
    ¬ ∀ (str : ℚ → PyStr) (spline : List ℚ → List ℚ → Except PyErr (ℚ → ℚ)) (s : Spectrum)
      (d : PyStr) (x : ℚ) (r : NpResult), s.WF → 0 < s.sum →
      (s.shift str spline d x = .ok r ∨ (0 < x ∧ s.scaleAxis str spline d x = .ok r)) →
      r ≠ .notFinite := by
  intro h
  have hm : Ex.energy ∈ Ex.spec.cfg := by simp [Ex.spec]
  refine h (fun _ => []) (fun _ _ => .ok fun _ => 1) Ex.spec Ex.energy.name (401 / 4) _ Ex.spec_wf
    ?_ (.inl (c31_shift_out_of_range _ _ Ex.spec Ex.spec_wf Ex.energy hm _ ex_not_multiple _
      (interpolate1d_const Ex.spec_wf hm _) ?_)) rfl
  · change (0 : ℚ) < sumIdx [10, 4] _
    simp only [sumIdx, Ex.spec, Finset.sum_range_succ, Finset.sum_range_zero]
    norm_num
  · norm_num [Ex.energy, abs_of_pos]

theorem clampCentre_some {p : SPar} (hp : p.WF) (hw6 : 2 / 10 ^ 6 ≤ p.width) {x : ℚ}
    (h1 : p.low ≤ x) (h2 : x < p.high) :
    ∃ c, clampCentre p x = some c ∧ p.low ≤ c ∧ c < p.high := by
  have hw := hp.width_pos
  have hh := hp.high_eq
  have hb : (1 : ℚ) ≤ p.bins := by exact_mod_cast hp.1
  have h3 : p.width ≤ p.high - p.low := by
    rw [hh]; nlinarith
  unfold clampCentre
  rw [if_neg (by rintro (h | h) <;> linarith)]
  split
  · exact ⟨_, rfl, by linarith, by linarith⟩
  · split
    · refine ⟨_, rfl, by norm_num at hw6 ⊢; linarith, ?_⟩
      have : (0 : ℚ) < 1 / 10 ^ 6 := by norm_num
      linarith
    · exact ⟨_, rfl, h1, h2⟩

/-- A bin in range can be looked up, and so can its centre. -/
theorem getBin_centre {p : SPar} (hp : p.WF) {c : ℚ} (h1 : p.low ≤ c) (h2 : c < p.high) :
    ∃ i : ℕ, p.getBin c = .ok i ∧ p.getBinCentre i = .ok (p.centre i) ∧ i < p.bins.toNat ∧
      p.centre i - p.width / 2 ≤ c ∧ c < p.centre i + p.width / 2 := by
  obtain ⟨-, c2, -, -⟩ := c24_bin_centre_inverse p hp
  obtain ⟨i, hi, hc1, hc2, hc3⟩ := c2 c h1 h2
  refine ⟨i, hi, ?_, by omega, ?_, ?_⟩
  · unfold SPar.getBinCentre
    rw [if_neg (by omega), if_neg (by omega), centre_eq]
    simp
  · rw [centre_eq]; rw [SPar.edge_eq] at hc2; push_cast at hc2; linarith
  · rw [centre_eq]; rw [SPar.edge_eq] at hc3; push_cast at hc3; linarith

theorem interpContrib_isOk {data : NdArray ℚ} {k : ℕ} {p : SPar} (hp : p.WF)
    (hw6 : 2 / 10 ^ 6 ≤ p.width) (f : ℚ → ℚ) (x : ℚ) :
    ∃ o, interpContrib data k p f x = .ok o := by
  by_cases hx : p.low ≤ x ∧ x < p.high
  · obtain ⟨c, hc, h1, h2⟩ := clampCentre_some hp hw6 hx.1 hx.2
    obtain ⟨i, hi, hci, -⟩ := getBin_centre hp h1 h2
    unfold interpContrib
    rw [hc]
    simp only [bind, Except.bind, pure, Except.pure, hi, hci]
    generalize interpAreas p f c i (p.centre i) = A
    split <;> [exact ⟨_, rfl⟩; skip]
    split <;> [exact ⟨_, rfl⟩; skip]
    split <;> [exact ⟨_, rfl⟩; skip]
    split <;> [exact ⟨_, rfl⟩; skip]
    split <;> exact ⟨_, rfl⟩
  · refine ⟨none, ?_⟩
    unfold interpContrib
    rw [clampCentre_none (by
      by_contra hc
      simp only [not_or, not_lt, not_le] at hc
      exact hx hc)]

theorem trapezium_pos {f : ℚ → ℚ} (hf : ∀ x, 0 < f x) {a b : ℚ} (h : a ≠ b) :
    0 < trapezium f a b := by
  unfold trapezium
  rw [abs_pos]
  have := hf a; have := hf b
  have h1 : b - a ≠ 0 := sub_ne_zero.2 h.symm
  have h2 : f b + f a ≠ 0 := by linarith [hf a, hf b]
  positivity

theorem interpAreas_pos {p : SPar} (hp : p.WF) {f : ℚ → ℚ} (hf : ∀ x, 0 < f x) {c : ℚ} {i : ℕ}
    (hlo : p.low + p.width / 2 ≤ p.centre i) :
    ¬ ((interpAreas p f c i (p.centre i)).2.1 = 0 ∧
      (interpAreas p f c i (p.centre i)).2.2 = 0) := by
  have hw := hp.width_pos
  unfold interpAreas
  dsimp only
  split
  · rename_i hc
    split
    · rintro ⟨-, h⟩
      exact absurd h (trapezium_pos hf (by intro h; linarith)).ne'
    · rintro ⟨h, -⟩; exact absurd h one_ne_zero
  · rename_i hc
    split
    · rintro ⟨ha, hb⟩
      have hce : c = p.centre i := by
        by_contra hne
        exact absurd hb (trapezium_pos hf (by intro h; apply hne; linarith)).ne'
      refine absurd ha (trapezium_pos hf ?_).ne'
      split
      · intro h; linarith
      · intro h; linarith
    · rintro ⟨h, -⟩; exact absurd h one_ne_zero

theorem interpContrib_some {data : NdArray ℚ} {k : ℕ} {p : SPar} (hp : p.WF)
    (hk : data.shape[k]? = some p.bins.toNat)
    (hw6 : 2 / 10 ^ 6 ≤ p.width) {f : ℚ → ℚ} (hf : ∀ x, 0 < f x)
    (hd : ∀ b < p.bins.toNat, 0 < axisTotal data k b) {x : ℚ} (h1 : p.low ≤ x) (h2 : x < p.high) :
    interpContrib data k p f x ≠ .ok none := by
  obtain ⟨c, hc, g1, g2⟩ := clampCentre_some hp hw6 h1 h2
  obtain ⟨i, hi, hci, hlt, -, -⟩ := getBin_centre hp g1 g2
  have hA := interpAreas_pos (c := c) hp hf (centre_range hp hlt).1
  unfold interpContrib
  rw [hc]
  simp only [bind, Except.bind, pure, Except.pure, hi, hci]
  generalize interpAreas p f c i (p.centre i) = A at hA
  have hs : 0 < sliceSum data k i := by rw [sliceSum_eq data hk]; exact hd i hlt
  rw [if_neg (not_le.2 (hf c)), if_neg hA, if_neg, if_neg]
  · split <;> simp
  · simpa using hs
  · intro h
    have := h.1
    simp only [Int.toNat_natCast] at this
    linarith

/-- Enough for finite contents: some position is in range, all slices have contents and the
interpolation is positive. -/
theorem interp_finite {s : Spectrum} {k : ℕ} {p : SPar} (hp : p.WF)
    (hk : s.data.shape[k]? = some p.bins.toNat) (hw6 : 2 / 10 ^ 6 ≤ p.width) {f : ℚ → ℚ}
    (hf : ∀ x, 0 < f x) (hd : ∀ b < p.bins.toNat, 0 < axisTotal s.data k b) {pos : ℕ → ℚ}
    (name : PyStr) {b : ℕ} (hb : b < p.bins.toNat) (h1 : p.low ≤ pos b) (h2 : pos b < p.high) :
    ∃ t, (binLoop p.bins.toNat k (fun b => interpContrib s.data k p f (pos b))
      (.zeros s.data.shape)).map (renormalise s name) = .ok (.finite t) := by
  have hok : ∀ b, ∃ o, interpContrib s.data k p f (pos b) = .ok o :=
    fun b => interpContrib_isOk hp hw6 f _
  choose o ho using hok
  obtain ⟨d, hl⟩ : ∃ d, binLoop p.bins.toNat k (fun b => interpContrib s.data k p f (pos b))
      (.zeros s.data.shape) = .ok d := ⟨_, binLoop_ok _ (fun b _ => ho b)⟩
  obtain ⟨hsh, -, hax⟩ := interp_loop hk hl
  rw [hl]
  simp only [Except.map]
  unfold renormalise
  rw [if_neg]
  · exact ⟨_, rfl⟩
  · apply ne_of_gt
    rw [sum_axisTotal d (n := p.bins.toNat) (by rw [hsh]; exact hk)]
    refine Finset.sum_pos' ?_ ⟨b, Finset.mem_range.2 hb, ?_⟩
    · intro j hj
      rcases hax j (Finset.mem_range.1 hj) with ⟨-, h0⟩ | ⟨c, g, -, -, hy, h3⟩
      · rw [h0]
      · rw [h3]; exact hy.le
    · rcases hax b hb with ⟨h0, -⟩ | ⟨c, g, -, -, hy, h3⟩
      · exact absurd h0 (interpContrib_some hp hk hw6 hf hd h1 h2)
      · rw [h3]; exact hy

/-- **C31, partial.** If every slice along the axis has contents, the interpolation is positive,
the bins are at least `2e-6` wide and some bin centre is shifted from inside the range, the
result has finite contents. Missing from the full statement: shifts out of the range
(`c31_shift_out_of_range`) and interpolations or slices that are not positive. -/
theorem c31_shift_finite_partial (str : ℚ → PyStr)
    (spline : List ℚ → List ℚ → Except PyErr (ℚ → ℚ)) (s : Spectrum) (hs : s.WF) (k : ℕ)
    (p : SPar) (hk : s.cfg[k]? = some p) (shift : ℚ)
    (hsh : ∀ m : ℤ, m * ((p.high - p.low) / p.bins) ≤ shift →
      1 / 10 ^ 8 < shift - m * ((p.high - p.low) / p.bins))
    (f : ℚ → ℚ) (hf : s.interpolate1d spline p.name = .ok f) (hpos : ∀ x, 0 < f x)
    (hd : ∀ b < p.bins.toNat, 0 < axisTotal s.data k b)
    (hw6 : 2 / 10 ^ 6 ≤ (p.high - p.low) / p.bins)
    (hin : ∃ b < p.bins.toNat, p.low ≤ p.centre b - shift ∧ p.centre b - shift < p.high) :
    ∃ t, s.shift str spline p.name shift = .ok (.finite t) := by
  obtain ⟨-, hp, -, -, hshape⟩ := axis_facts hs hk
  obtain ⟨b, hb, h1, h2⟩ := hin
  rw [shift_unfold str spline hs hk hsh hf]
  exact interp_finite hp hshape hw6 hpos hd _ hb h1 h2

/-- **C31, partial.** The same for scaling. -/
theorem c31_scale_finite_partial (str : ℚ → PyStr)
    (spline : List ℚ → List ℚ → Except PyErr (ℚ → ℚ)) (s : Spectrum) (hs : s.WF) (k : ℕ)
    (p : SPar) (hk : s.cfg[k]? = some p) (sf : ℚ) (hsf : 0 < sf)
    (f : ℚ → ℚ) (hf : s.interpolate1d spline p.name = .ok f) (hpos : ∀ x, 0 < f x)
    (hd : ∀ b < p.bins.toNat, 0 < axisTotal s.data k b)
    (hw6 : 2 / 10 ^ 6 ≤ (p.high - p.low) / p.bins)
    (hin : ∃ b < p.bins.toNat, p.low ≤ p.centre b / sf ∧ p.centre b / sf < p.high) :
    ∃ t, s.scaleAxis str spline p.name sf = .ok (.finite t) := by
  obtain ⟨-, hp, -, -, hshape⟩ := axis_facts hs hk
  obtain ⟨b, hb, h1, h2⟩ := hin
  rw [scale_unfold str spline hs hk hsf.ne' hf]
  exact interp_finite hp hshape hw6 hpos hd _ hb h1 h2

/-- **C31, exactly when it fails.** If every slice along the axis has contents, the interpolation
is positive and the bins are at least `2e-6` wide, a shift by no whole number of bins loses the
finite contents exactly when every bin centre is shifted from outside the range. -/
theorem c31_shift_exactly (str : ℚ → PyStr)
    (spline : List ℚ → List ℚ → Except PyErr (ℚ → ℚ)) (s : Spectrum) (hs : s.WF) (k : ℕ)
    (p : SPar) (hk : s.cfg[k]? = some p) (shift : ℚ)
    (hsh : ∀ m : ℤ, m * ((p.high - p.low) / p.bins) ≤ shift →
      1 / 10 ^ 8 < shift - m * ((p.high - p.low) / p.bins))
    (f : ℚ → ℚ) (hf : s.interpolate1d spline p.name = .ok f) (hpos : ∀ x, 0 < f x)
    (hd : ∀ b < p.bins.toNat, 0 < axisTotal s.data k b)
    (hw6 : 2 / 10 ^ 6 ≤ (p.high - p.low) / p.bins) :
    s.shift str spline p.name shift = .ok .notFinite ↔
      ∀ b < p.bins.toNat, p.centre b - shift < p.low ∨ p.high ≤ p.centre b - shift := by
  constructor
  · intro h b hb
    by_contra hin
    rw [not_or, not_lt, not_le] at hin
    obtain ⟨t, ht⟩ := c31_shift_finite_partial str spline s hs k p hk shift hsh f hf hpos hd hw6
      ⟨b, hb, hin⟩
    rw [h] at ht
    cases ht
  · intro h
    rw [shift_unfold str spline hs hk hsh hf]
    exact interp_none _ h

/-- **C31, exactly when it fails**: the same for scaling. -/
theorem c31_scale_exactly (str : ℚ → PyStr)
    (spline : List ℚ → List ℚ → Except PyErr (ℚ → ℚ)) (s : Spectrum) (hs : s.WF) (k : ℕ)
    (p : SPar) (hk : s.cfg[k]? = some p) (sf : ℚ) (hsf : 0 < sf)
    (f : ℚ → ℚ) (hf : s.interpolate1d spline p.name = .ok f) (hpos : ∀ x, 0 < f x)
    (hd : ∀ b < p.bins.toNat, 0 < axisTotal s.data k b)
    (hw6 : 2 / 10 ^ 6 ≤ (p.high - p.low) / p.bins) :
    s.scaleAxis str spline p.name sf = .ok .notFinite ↔
      ∀ b < p.bins.toNat, p.centre b / sf < p.low ∨ p.high ≤ p.centre b / sf := by
  constructor
  · intro h b hb
    by_contra hin
    rw [not_or, not_lt, not_le] at hin
    obtain ⟨t, ht⟩ := c31_scale_finite_partial str spline s hs k p hk sf hsf f hf hpos hd hw6
      ⟨b, hb, hin⟩
    rw [h] at ht
    cases ht
  · intro h
    rw [scale_unfold str spline hs hk hsf.ne' hf]
    exact interp_none _ h

/-- The hypotheses of C29–C31 hold for the two-dimensional example with a constant
interpolation, shifted by a quarter or scaled by 1.1. -/
example : (∃ t, Ex.spec.shift (fun _ => []) (fun _ _ => .ok fun _ => 1) Ex.energy.name (1 / 4) =
      .ok (.finite t)) ∧
    ∃ t, Ex.spec.scaleAxis (fun _ => []) (fun _ _ => .ok fun _ => 1) Ex.energy.name (11 / 10) =
      .ok (.finite t) := by
  have hm : Ex.energy ∈ Ex.spec.cfg := by simp [Ex.spec]
  have hd : ∀ b < Ex.energy.bins.toNat, 0 < axisTotal Ex.spec.data 0 b := by
    intro b hb
    rw [axisTotal_eq (n := 10) _ rfl, if_pos (by simpa [Ex.energy] using hb)]
    simp only [Ex.spec, List.eraseIdx, sumIdx, List.insertIdx_zero, Finset.sum_range_succ,
      Finset.sum_range_zero]
    positivity
  constructor
  · refine c31_shift_finite_partial _ _ _ Ex.spec_wf 0 Ex.energy rfl _ ?_ _
      (interpolate1d_const Ex.spec_wf hm _) (fun _ => one_pos) hd (by norm_num [Ex.energy])
      ⟨3, by simp [Ex.energy], ?_⟩
    · intro m hm
      have e : ((Ex.energy.high - Ex.energy.low) / Ex.energy.bins : ℚ) = 1 / 2 := by
        norm_num [Ex.energy]
      rw [e] at hm ⊢
      have h3 : (m : ℚ) < ((1 : ℤ) : ℚ) := by push_cast; linarith
      have h4 : m < 1 := by exact_mod_cast h3
      have h5 : (m : ℚ) ≤ 0 := by exact_mod_cast (by omega : m ≤ 0)
      norm_num
      linarith
    · norm_num [SPar.centre, SPar.edge, Ex.energy]
  · refine c31_scale_finite_partial _ _ _ Ex.spec_wf 0 Ex.energy rfl _ (by norm_num) _
      (interpolate1d_const Ex.spec_wf hm _) (fun _ => one_pos) hd (by norm_num [Ex.energy])
      ⟨3, by simp [Ex.energy], ?_⟩
    norm_num [SPar.centre, SPar.edge, Ex.energy]

theorem pick_single {n : PyStr} {names : List PyStr} (hnd : names.Nodup) {k : ℕ}
    (hk : names[k]? = some n) {l : List ℕ} (hl : l.length = names.length) :
    pick [n] names l = (l[k]?).toList := by
  induction names generalizing k l with
  | nil => simp at hk
  | cons a ns ih =>
    cases l with
    | nil => simp at hl
    | cons x l =>
      have hl' : l.length = ns.length := by simpa using hl
      rw [List.nodup_cons] at hnd
      cases k with
      | zero =>
        simp only [List.getElem?_cons_zero, Option.some.injEq] at hk
        subst hk
        simp only [pick, List.mem_singleton, if_true, List.getElem?_cons_zero, Option.toList_some]
        rw [pick_none]
        intro m hm
        simp only [List.mem_singleton]
        rintro rfl; exact hnd.1 hm
      | succ k =>
        simp only [List.getElem?_cons_succ] at hk ⊢
        have hne : a ≠ n := by
          rintro rfl; exact hnd.1 (List.mem_of_getElem? hk)
        simp only [pick, List.mem_singleton, hne, if_false]
        exact ih hnd.2 hk hl'

theorem isProjection_axisTotal {s : Spectrum} (hs : s.WF) {k : ℕ} {p : SPar}
    (hk : s.cfg[k]? = some p) {b : NdArray ℚ} (hb : IsProjection s [p.name] b) :
    b.shape = [p.bins.toNat] ∧ ∀ i < p.bins.toNat, b.get [i] = axisTotal s.data k i := by
  obtain ⟨-, -, -, -, hsh⟩ := axis_facts hs hk
  have hn : (s.cfg.map SPar.name)[k]? = some p.name := by simp [hk]
  have hlen := shape_length hs
  have hshape : b.shape = [p.bins.toNat] := by
    rw [hb.1, pick_single hs.names hn (by simp [hlen]), hsh]; rfl
  refine ⟨hshape, fun i hi => ?_⟩
  rw [hb.2 [i] (by rw [hshape]; exact .cons hi .nil)]
  refine sumIdx_congr fun idx hidx => ?_
  rw [pick_single hs.names hn (by rw [hidx.length_eq, hlen]; simp)]
  obtain ⟨j, hj, -⟩ := inB_getElem? hidx hsh
  simp [hj]

/-- **C72.** If the spline passes through its points, the one-dimensional interpolation of a
spectrum takes at each bin centre the summed contents of that bin. -/
theorem c72_interpolation (spline : List ℚ → List ℚ → Except PyErr (ℚ → ℚ))
    (hspline : ∀ xs ys f, spline xs ys = .ok f → xs.length = ys.length →
      ∀ (i : ℕ) x y, xs[i]? = some x → ys[i]? = some y → f x = y)
    (s : Spectrum) (hs : s.WF) (k : ℕ) (p : SPar) (hk : s.cfg[k]? = some p) (f : ℚ → ℚ)
    (hf : s.interpolate1d spline p.name = .ok f) (i : ℕ) (hi : i < p.bins.toNat) :
    f (p.centre i) = axisTotal s.data k i := by
  obtain ⟨hm, hp, hg, -, -⟩ := axis_facts hs hk
  obtain ⟨b, hb, hproj, -⟩ := c10_project s hs p hm
  obtain ⟨hsh, hval⟩ := isProjection_axisTotal hs hk hproj
  have hw := hp.width_pos
  have hbins := hp.1
  unfold Spectrum.interpolate1d at hf
  simp only [bind, Except.bind, throw, throwThe, MonadExceptOf.throw, hg, hb] at hf
  rw [if_neg (by rintro (h | h); omega; exact hw.ne' h)] at hf
  have h1 : p.binCentres.length = p.bins.toNat := by rw [binCentres_eq hp]; simp
  have h2 : b.toList1 = (List.range p.bins.toNat).map (fun i => b.get [i]) := by
    unfold NdArray.toList1; rw [hsh]; rfl
  refine hspline _ _ f hf (by rw [h1, h2]; simp) i _ _ ?_ ?_
  · rw [binCentres_eq hp, List.getElem?_map, List.getElem?_range hi, centre_eq]
    simp only [Option.map_some, SPar.edge_eq]
    congr 1
    push_cast
    ring
  · rw [h2, List.getElem?_map, List.getElem?_range hi]
    simp [hval i hi]

/-- There is a spline as required by C72 (here: look the value up), and it interpolates the
example spectrum. -/
example : let spline : List ℚ → List ℚ → Except PyErr (ℚ → ℚ) := fun xs ys =>
      if xs.Nodup then .ok fun x => (assoc (xs.zip ys) x).getD 0 else .error .valueError
    (∀ xs ys f, spline xs ys = .ok f → xs.length = ys.length →
      ∀ (i : ℕ) x y, xs[i]? = some x → ys[i]? = some y → f x = y) ∧
    ∃ f, Ex.spec.interpolate1d spline Ex.energy.name = .ok f := by
  intro spline
  constructor
  · intro xs ys f hf hl i x y hx hy
    simp only [spline] at hf
    split at hf
    · rename_i hnd
      cases hf
      have hmem : (x, y) ∈ xs.zip ys := by
        apply List.mem_of_getElem? (i := i)
        rw [List.getElem?_zip_eq_some]
        exact ⟨hx, hy⟩
      have : assoc (xs.zip ys) x = some y := by
        rw [assoc_eq_some_iff]
        · exact hmem
        · rw [List.map_fst_zip (by omega)]; exact hnd
      simp [this]
    · cases hf
  · have hm : Ex.energy ∈ Ex.spec.cfg := by simp [Ex.spec]
    obtain ⟨b, hb, -⟩ := c10_project Ex.spec Ex.spec_wf Ex.energy hm
    have hp := Ex.energy_wf
    have hw := hp.width_pos
    have hbins := hp.1
    unfold Spectrum.interpolate1d
    simp only [bind, Except.bind, throw, throwThe, MonadExceptOf.throw,
      getPar_mem Ex.spec_wf.names hm, hb]
    rw [if_neg (by rintro (h | h); omega; exact hw.ne' h)]
    simp only [spline]
    rw [if_pos]
    · exact ⟨_, rfl⟩
    · rw [binCentres_eq hp]
      refine List.Nodup.map ?_ List.nodup_range
      intro a b hab
      simp only [SPar.edge_eq] at hab
      have h2 : (a : ℚ) * Ex.energy.width = b * Ex.energy.width := by push_cast at hab; linarith
      exact_mod_cast mul_right_cancel₀ hw.ne' h2

end Verif
