import Verif.Props.Shift

/-! # C29, C30: what every slice of a shifted or scaled spectrum holds -/

namespace Verif

open Finset

/-- Every slice of the renormalised result, when all slices have contents and the interpolation is
positive. -/
theorem interp_every {s t : Spectrum} {d : NdArray ℚ} {k : ℕ} {p : SPar} {f : ℚ → ℚ}
    {pos : ℕ → ℚ} {name : PyStr} (hp : p.WF) (hk : s.data.shape[k]? = some p.bins.toNat)
    (hw6 : 2 / 10 ^ 6 ≤ p.width) (hf : ∀ x, 0 < f x)
    (hd : ∀ b < p.bins.toNat, 0 < axisTotal s.data k b)
    (h : binLoop p.bins.toNat k (fun b => interpContrib s.data k p f (pos b))
      (.zeros s.data.shape) = .ok d) (ht : renormalise s name d = .finite t) :
    ∃ C, 0 < C ∧ ∀ b < p.bins.toNat,
      ((pos b < p.low ∨ p.high ≤ pos b) → axisTotal t.data k b = 0) ∧
      (p.low ≤ pos b → pos b < p.high → ∃ c, ReadAt p (pos b) c ∧ axisTotal t.data k b = C * f c) := by
  obtain ⟨hsh, -, hax⟩ := interp_loop hk h
  unfold renormalise at ht
  split at ht
  · cases ht
  rename_i hd0
  cases ht
  have hdpos : 0 < d.sum := by
    refine lt_of_le_of_ne ?_ (Ne.symm hd0)
    rw [sum_axisTotal d (n := p.bins.toNat) (by rw [hsh]; exact hk)]
    refine Finset.sum_nonneg fun j hj => ?_
    rcases hax j (Finset.mem_range.1 hj) with ⟨-, h0⟩ | ⟨c, g, -, -, hy, h3⟩
    · rw [h0]
    · rw [h3]; exact hy.le
  have hspos : 0 < s.sum := by
    show 0 < s.data.sum
    rw [sum_axisTotal s.data (n := p.bins.toNat) hk]
    refine Finset.sum_pos (fun j hj => hd j (Finset.mem_range.1 hj)) ?_
    have := hp.1
    exact ⟨0, Finset.mem_range.2 (by omega)⟩
  refine ⟨s.sum / d.sum, div_pos hspos hdpos, fun b hb => ⟨fun hout => ?_, fun h1 h2 => ?_⟩⟩
  · change axisTotal (d.smul _) k b = 0
    rcases hax b hb with ⟨-, h0⟩ | ⟨c, g, -, hc, -, -⟩
    · rw [axisTotal_smul, h0, zero_mul]
    · rw [clampCentre_none hout] at hc
      cases hc
  · rcases hax b hb with ⟨h0, -⟩ | ⟨c, g, -, hc, -, h3⟩
    · exact absurd h0 (interpContrib_some hp hk hw6 hf hd h1 h2)
    · refine ⟨c, (clampCentre_readAt hp hc).2.2, ?_⟩
      change axisTotal (d.smul _) k b = _
      rw [axisTotal_smul, h3, mul_comm]

/-- **C29, every slice.** When every slice along the axis has contents, the interpolation is positive
and the bins are at least `2e-6` wide, the slices whose centres come from inside the range hold the
interpolation there, with one positive factor for all of them, and all others are empty. -/
theorem c29_every_slice (str : ℚ → PyStr) (spline : List ℚ → List ℚ → Except PyErr (ℚ → ℚ))
    (s : Spectrum) (hs : s.WF) (k : ℕ) (p : SPar) (hk : s.cfg[k]? = some p) (shift : ℚ)
    (hsh : ∀ m : ℤ, m * ((p.high - p.low) / p.bins) ≤ shift →
      1 / 10 ^ 8 < shift - m * ((p.high - p.low) / p.bins))
    (f : ℚ → ℚ) (hf : s.interpolate1d spline p.name = .ok f) (hpos : ∀ x, 0 < f x)
    (hd : ∀ b < p.bins.toNat, 0 < axisTotal s.data k b)
    (hw6 : 2 / 10 ^ 6 ≤ (p.high - p.low) / p.bins) (t : Spectrum)
    (ht : s.shift str spline p.name shift = .ok (.finite t)) :
    ∃ C, 0 < C ∧ ∀ b < p.bins.toNat,
      ((p.centre b - shift < p.low ∨ p.high ≤ p.centre b - shift) → axisTotal t.data k b = 0) ∧
      (p.low ≤ p.centre b - shift → p.centre b - shift < p.high →
        ∃ c, ReadAt p (p.centre b - shift) c ∧ axisTotal t.data k b = C * f c) := by
  obtain ⟨-, hp, -, -, hshape⟩ := axis_facts hs hk
  rw [shift_unfold str spline hs hk hsh hf] at ht
  cases hl : binLoop p.bins.toNat k (fun b => interpContrib s.data k p f (p.centre b - shift))
    (.zeros s.data.shape) with
  | error e => rw [hl] at ht; cases ht
  | ok d =>
    rw [hl] at ht
    simp only [Except.map, Except.ok.injEq] at ht
    exact interp_every hp hshape hw6 hpos hd hl ht

/-- **C30, every slice.** The same for scaling. -/
theorem c30_every_slice (str : ℚ → PyStr) (spline : List ℚ → List ℚ → Except PyErr (ℚ → ℚ))
    (s : Spectrum) (hs : s.WF) (k : ℕ) (p : SPar) (hk : s.cfg[k]? = some p) (sf : ℚ) (hsf : 0 < sf)
    (f : ℚ → ℚ) (hf : s.interpolate1d spline p.name = .ok f) (hpos : ∀ x, 0 < f x)
    (hd : ∀ b < p.bins.toNat, 0 < axisTotal s.data k b)
    (hw6 : 2 / 10 ^ 6 ≤ (p.high - p.low) / p.bins) (t : Spectrum)
    (ht : s.scaleAxis str spline p.name sf = .ok (.finite t)) :
    ∃ C, 0 < C ∧ ∀ b < p.bins.toNat,
      ((p.centre b / sf < p.low ∨ p.high ≤ p.centre b / sf) → axisTotal t.data k b = 0) ∧
      (p.low ≤ p.centre b / sf → p.centre b / sf < p.high →
        ∃ c, ReadAt p (p.centre b / sf) c ∧ axisTotal t.data k b = C * f c) := by
  obtain ⟨-, hp, -, -, hshape⟩ := axis_facts hs hk
  rw [scale_unfold str spline hs hk hsf.ne' hf] at ht
  cases hl : binLoop p.bins.toNat k (fun b => interpContrib s.data k p f (p.centre b / sf))
    (.zeros s.data.shape) with
  | error e => rw [hl] at ht; cases ht
  | ok d =>
    rw [hl] at ht
    simp only [Except.map, Except.ok.injEq] at ht
    exact interp_every hp hshape hw6 hpos hd hl ht

theorem ex_slices : ∀ b < Ex.energy.bins.toNat, 0 < axisTotal Ex.spec.data 0 b := by
  intro b hb
  rw [axisTotal_eq (n := 10) _ rfl, if_pos (by simpa [Ex.energy] using hb)]
  simp only [Ex.spec, List.eraseIdx, sumIdx, List.insertIdx_zero, Finset.sum_range_succ,
    Finset.sum_range_zero]
  positivity

/-- The two-dimensional example with a constant interpolation, shifted by a quarter: all slices hold
the same, since all their centres come from inside the range or, for the first, from half a bin within. -/
example : ∃ t C, Ex.spec.shift (fun _ => []) (fun _ _ => .ok fun _ => 1) Ex.energy.name (1 / 4) =
      .ok (.finite t) ∧ 0 < C ∧ axisTotal t.data 0 3 = C ∧ axisTotal t.data 0 9 = C := by
  have hm : Ex.energy ∈ Ex.spec.cfg := by simp [Ex.spec]
  have hsh : ∀ m : ℤ, m * ((Ex.energy.high - Ex.energy.low) / Ex.energy.bins) ≤ (1 / 4 : ℚ) →
      1 / 10 ^ 8 < (1 / 4 : ℚ) - m * ((Ex.energy.high - Ex.energy.low) / Ex.energy.bins) := by
    intro m hm
    have e : ((Ex.energy.high - Ex.energy.low) / Ex.energy.bins : ℚ) = 1 / 2 := by
      norm_num [Ex.energy]
    rw [e] at hm ⊢
    have h3 : (m : ℚ) < ((1 : ℤ) : ℚ) := by push_cast; linarith
    have h4 : m < 1 := by exact_mod_cast h3
    have h5 : (m : ℚ) ≤ 0 := by exact_mod_cast (by omega : m ≤ 0)
    norm_num
    linarith
  obtain ⟨t, ht⟩ := c31_shift_finite_partial (fun _ => []) _ _ Ex.spec_wf 0 Ex.energy rfl _ hsh _
    (interpolate1d_const Ex.spec_wf hm _) (fun _ => one_pos) ex_slices (by norm_num [Ex.energy])
    ⟨3, by simp [Ex.energy], by norm_num [SPar.centre, SPar.edge, Ex.energy]⟩
  obtain ⟨C, h0, h1⟩ := c29_every_slice _ _ _ Ex.spec_wf 0 Ex.energy rfl _ hsh _
    (interpolate1d_const Ex.spec_wf hm _) (fun _ => one_pos) ex_slices (by norm_num [Ex.energy]) t ht
  refine ⟨t, C, ht, h0, ?_, ?_⟩
  · obtain ⟨c, -, h2⟩ := (h1 3 (by simp [Ex.energy])).2 (by norm_num [SPar.centre, SPar.edge, Ex.energy])
      (by norm_num [SPar.centre, SPar.edge, Ex.energy])
    rw [h2, mul_one]
  · obtain ⟨c, -, h2⟩ := (h1 9 (by simp [Ex.energy])).2 (by norm_num [SPar.centre, SPar.edge, Ex.energy])
      (by norm_num [SPar.centre, SPar.edge, Ex.energy])
    rw [h2, mul_one]

/-- The same example scaled by two: the upper slices come from inside the range. -/
example : ∃ t C, Ex.spec.scaleAxis (fun _ => []) (fun _ _ => .ok fun _ => 1) Ex.energy.name 2 =
      .ok (.finite t) ∧ 0 < C ∧ axisTotal t.data 0 3 = C := by
  have hm : Ex.energy ∈ Ex.spec.cfg := by simp [Ex.spec]
  obtain ⟨t, ht⟩ := c31_scale_finite_partial (fun _ => []) _ _ Ex.spec_wf 0 Ex.energy rfl 2 (by norm_num)
    _ (interpolate1d_const Ex.spec_wf hm _) (fun _ => one_pos) ex_slices (by norm_num [Ex.energy])
    ⟨3, by simp [Ex.energy], by norm_num [SPar.centre, SPar.edge, Ex.energy]⟩
  obtain ⟨C, h0, h1⟩ := c30_every_slice _ _ _ Ex.spec_wf 0 Ex.energy rfl 2 (by norm_num) _
    (interpolate1d_const Ex.spec_wf hm _) (fun _ => one_pos) ex_slices (by norm_num [Ex.energy]) t ht
  obtain ⟨c, -, h2⟩ := (h1 3 (by simp [Ex.energy])).2 (by norm_num [SPar.centre, SPar.edge, Ex.energy])
      (by norm_num [SPar.centre, SPar.edge, Ex.energy])
  exact ⟨t, C, ht, h0, by rw [h2, mul_one]⟩

end Verif
