import Verif.Props.Shift

/-!
# C98: where the contents of a shifted or scaled spectrum come from
-/

namespace Verif

theorem trapezium_eq (f : ℚ → ℚ) (a b : ℚ) : trapezium f a b = trapArea f a b := by
  unfold trapezium trapArea
  congr 1
  ring

theorem getBin_inCell {p : SPar} (hp : p.WF) {c : ℚ} {i : ℤ} {c1 : ℚ} (h : p.getBin c = .ok i)
    (h1 : p.getBinCentre i = .ok c1) :
    ∃ j : ℕ, i = j ∧ InCell p c j ∧ c1 = p.centre j := by
  obtain ⟨-, k2, k3, k4⟩ := c24_bin_centre_inverse p hp
  have hlow : p.low ≤ c := by
    by_contra hc
    rw [k4 c (.inl (not_le.1 hc))] at h; cases h
  have hhigh : c < p.high := by
    by_contra hc
    rcases eq_or_lt_of_le (not_lt.1 hc) with e | e
    · rw [← e, c25_upper_edge p hp] at h
      cases h
      rw [k3 _ (.inr le_rfl)] at h1; cases h1
    · rw [k4 c (.inr e)] at h; cases h
  obtain ⟨j, hj, hc⟩ := k2 c hlow hhigh
  rw [hj] at h
  cases h
  refine ⟨j, rfl, hc, ?_⟩
  unfold SPar.getBinCentre at h1
  rw [if_neg (by omega), if_neg (by have := hc.1; omega)] at h1
  rw [centre_eq]
  injection h1 with h1
  rw [← h1]
  simp

theorem interpAreas_source {p : SPar} {f : ℚ → ℚ} {c : ℚ} {j : ℕ} (hj : (j : ℤ) < p.bins) :
    ∃ j' : ℕ, (interpAreas p f c j (p.centre j)).1 = j' ∧
      SourceBins p f c j j' (interpAreas p f c j (p.centre j)).2.1
        (interpAreas p f c j (p.centre j)).2.2 := by
  have hlo : ∀ i : ℕ, p.centre i - 1 / 2 * p.width = p.edge i := by
    intro i; rw [centre_eq, SPar.edge_eq]; push_cast; ring
  have hhi : p.centre j + 1 / 2 * p.width = p.edge ((j : ℤ) + 1) := by
    rw [centre_eq, SPar.edge_eq]; push_cast; ring
  have e1 : ∀ x, x - 1 / 2 * p.width = x - p.width / 2 := fun x => by ring
  have e2 : ∀ x, x + 1 / 2 * p.width = x + p.width / 2 := fun x => by ring
  unfold interpAreas
  dsimp only
  by_cases h : c < p.centre j
  · rw [if_pos h]
    cases j with
    | zero =>
      rw [if_neg (by simp)]
      exact ⟨0, rfl, .first h⟩
    | succ j =>
      rw [if_pos (by push_cast; omega)]
      refine ⟨j, by push_cast; ring, ?_⟩
      simp only [trapezium_eq, hlo, e1, e2]
      exact SourceBins.below j h _ rfl
  · rw [if_neg h]
    by_cases h1 : (j : ℤ) + 1 < p.bins
    · rw [if_pos h1]
      refine ⟨j + 1, by push_cast; ring, ?_⟩
      simp only [trapezium_eq, hhi]
      simp only [e1, e2]
      exact SourceBins.above j (not_lt.1 h) h1 _ rfl
    · rw [if_neg h1]
      refine ⟨j, by omega, SourceBins.last j (not_lt.1 h) (by omega)⟩

/-- One round of the loop, cell by cell. -/
theorem interpContrib_filled {data : NdArray ℚ} {k : ℕ} {p : SPar} (hp : p.WF) {f : ℚ → ℚ} {x : ℚ}
    {o : Option (List ℕ → ℚ)} (hk : data.shape[k]? = some p.bins.toNat)
    (h : interpContrib data k p f x = .ok o) :
    FilledFrom data k p f x (fun idx => (o.map (fun g => g idx)).getD 0) := by
  unfold interpContrib at h
  cases hc : clampCentre p x with
  | none =>
    rw [hc] at h; cases h
    refine .inl ⟨?_, fun _ => rfl⟩
    by_contra hn
    unfold clampCentre at hc
    rw [if_neg hn] at hc
    split at hc
    · cases hc
    · split at hc <;> cases hc
  | some c =>
    obtain ⟨r1, r2, r3⟩ := clampCentre_readAt hp hc
    refine .inr ⟨r1, r2, c, r3, ?_⟩
    rw [hc] at h
    simp only [bind, Except.bind, pure, Except.pure] at h
    split at h
    · next hy => cases h; exact .inl ⟨hy, fun _ => rfl⟩
    rename_i hy
    refine .inr ⟨not_le.1 hy, ?_⟩
    split at h
    · cases h
    rename_i old1 ho
    split at h
    · cases h
    rename_i c1 hc1
    obtain ⟨j, rfl, hj, rfl⟩ := getBin_inCell hp ho hc1
    obtain ⟨j', h1, h2⟩ := interpAreas_source (f := f) (c := c) hj.1
    refine ⟨j, j', _, _, hj, h2, fun idx => ?_⟩
    clear h2
    generalize interpAreas p f c j (p.centre j) = R at h h1
    obtain ⟨old2, a1, a2⟩ := R
    simp only at h h1 ⊢
    subst h1
    simp only [Int.toNat_natCast, sliceSum_eq data hk] at h
    unfold mixture cellShare
    split at h
    · next ha => cases h; rw [if_pos ha]; simp
    rename_i ha
    rw [if_neg ha]
    split at h
    · next hs => cases h; rw [if_pos hs]; simp
    rename_i hs
    rw [if_neg hs]
    split at h
    · next h1 =>
      cases h
      rw [if_pos h1]
      simp only [oldData, Option.map_some, Option.getD_some]
      ring
    rename_i h1
    rw [if_neg h1]
    split at h
    · next h2 =>
      cases h
      rw [if_pos h2]
      simp only [oldData, Option.map_some, Option.getD_some]
      ring
    · next h2 =>
      cases h
      rw [if_neg h2]
      simp only [oldData, Option.map_some, Option.getD_some]
      ring

theorem interp_filled {s t : Spectrum} {d : NdArray ℚ} {k : ℕ} {p : SPar} {f : ℚ → ℚ}
    {pos : ℕ → ℚ} {name : PyStr} (hp : p.WF) (hk : s.data.shape[k]? = some p.bins.toNat)
    (h : binLoop p.bins.toNat k (fun b => interpContrib s.data k p f (pos b))
      (.zeros s.data.shape) = .ok d) (ht : renormalise s name d = .finite t) :
    ∃ C, ∀ b < p.bins.toNat, ∃ cell, FilledFrom s.data k p f (pos b) cell ∧
      ∀ idx, idx[k]? = some b → t.data.get idx = C * cell idx := by
  have hok := binLoop_inv h
  choose! o ho using hok
  rw [binLoop_ok (c := o) _ ho] at h
  cases h
  unfold renormalise at ht
  split at ht
  · cases ht
  generalize s.sum / NdArray.sum _ = C at ht
  cases ht
  refine ⟨C, fun b hb => ⟨_, interpContrib_filled hp hk (ho b hb), fun idx hi => ?_⟩⟩
  change (_ : ℚ) * C = _
  simp only [NdArray.zeros, zero_add, hi, hb, if_true]
  rw [mul_comm]
  cases o b <;> rfl

/-- **C98, shift.** Up to one common factor, each slice of the shifted spectrum is the
interpolation at the position its centre was shifted from, spread over the other axes like the
contents of the source bins there: the bin of that position and its neighbour on the near
side, in the proportion of the areas of the overlaps. -/
theorem c98_shift (str : ℚ → PyStr) (spline : List ℚ → List ℚ → Except PyErr (ℚ → ℚ))
    (s : Spectrum) (hs : s.WF) (k : ℕ) (p : SPar) (hk : s.cfg[k]? = some p) (shift : ℚ)
    (hsh : ∀ m : ℤ, m * ((p.high - p.low) / p.bins) ≤ shift →
      1 / 10 ^ 8 < shift - m * ((p.high - p.low) / p.bins))
    (f : ℚ → ℚ) (hf : s.interpolate1d spline p.name = .ok f) (t : Spectrum)
    (ht : s.shift str spline p.name shift = .ok (.finite t)) :
    ∃ C, ∀ b < p.bins.toNat, ∃ cell, FilledFrom s.data k p f (p.centre b - shift) cell ∧
      ∀ idx, idx[k]? = some b → t.data.get idx = C * cell idx := by
  obtain ⟨-, hp, -, -, hshape⟩ := axis_facts hs hk
  rw [shift_unfold str spline hs hk hsh hf] at ht
  cases hd : binLoop p.bins.toNat k (fun b => interpContrib s.data k p f (p.centre b - shift))
    (.zeros s.data.shape) with
  | error e => rw [hd] at ht; cases ht
  | ok d =>
    rw [hd] at ht
    simp only [Except.map, Except.ok.injEq] at ht
    exact interp_filled hp hshape hd ht

/-- **C98, scale.** The same for scaling. -/
theorem c98_scale (str : ℚ → PyStr) (spline : List ℚ → List ℚ → Except PyErr (ℚ → ℚ))
    (s : Spectrum) (hs : s.WF) (k : ℕ) (p : SPar) (hk : s.cfg[k]? = some p) (sf : ℚ)
    (hsf : 0 < sf) (f : ℚ → ℚ) (hf : s.interpolate1d spline p.name = .ok f) (t : Spectrum)
    (ht : s.scaleAxis str spline p.name sf = .ok (.finite t)) :
    ∃ C, ∀ b < p.bins.toNat, ∃ cell, FilledFrom s.data k p f (p.centre b / sf) cell ∧
      ∀ idx, idx[k]? = some b → t.data.get idx = C * cell idx := by
  obtain ⟨-, hp, -, -, hshape⟩ := axis_facts hs hk
  rw [scale_unfold str spline hs hk hsf.ne' hf] at ht
  cases hd : binLoop p.bins.toNat k (fun b => interpContrib s.data k p f (p.centre b / sf))
    (.zeros s.data.shape) with
  | error e => rw [hd] at ht; cases ht
  | ok d =>
    rw [hd] at ht
    simp only [Except.map, Except.ok.injEq] at ht
    exact interp_filled hp hshape hd ht

theorem share_separable {a : NdArray ℚ} {k n : ℕ} (hk : a.shape[k]? = some n) {g : ℕ → ℚ}
    {h : List ℕ → ℚ} (hsep : Separable a k g h) {j : ℕ} (hj : 0 < axisTotal a k j) {idx : List ℕ}
    (hi : InB a.shape idx) : cellShare a k j idx = g j / axisTotal a k j * h (idx.eraseIdx k) := by
  have hlt : j < n := by
    by_contra hc
    rw [axisTotal_eq a hk, if_neg hc] at hj
    exact lt_irrefl _ hj
  obtain ⟨i, hik, -⟩ := inB_getElem? hi hk
  have hlen : k < idx.length := by
    by_contra hc
    rw [List.getElem?_eq_none (not_lt.1 hc)] at hik; cases hik
  unfold cellShare
  rw [hsep _ j (inB_set hi hk hlt) (by rw [List.getElem?_set_self hlen]), List.eraseIdx_set_eq]
  ring

theorem filled_separable {a : NdArray ℚ} {k n : ℕ} (hk : a.shape[k]? = some n) {p : SPar} {f : ℚ → ℚ}
    {x : ℚ} {cell : List ℕ → ℚ} (hf : FilledFrom a k p f x cell) {g : ℕ → ℚ} {h : List ℕ → ℚ}
    (hsep : Separable a k g h) :
    ∃ G, ∀ idx, InB a.shape idx → cell idx = G * h (idx.eraseIdx k) := by
  have hzero : (∀ idx, cell idx = 0) → ∃ G, ∀ idx, InB a.shape idx → cell idx = G * h (idx.eraseIdx k) :=
    fun h0 => ⟨0, fun idx _ => by rw [h0, zero_mul]⟩
  rcases hf with ⟨-, h0⟩ | ⟨-, -, c, -, ⟨-, h0⟩ | ⟨-, j, j', A, A', -, -, h1⟩⟩
  · exact hzero h0
  · exact hzero h0
  · unfold mixture at h1
    split at h1
    · exact hzero fun idx => by rw [h1, mul_zero]
    split at h1
    · exact hzero fun idx => by rw [h1, mul_zero]
    rename_i hs
    split at h1
    · rename_i hj
      have hj' : 0 < axisTotal a k j' := by by_contra hc; exact hs ⟨hj, not_lt.1 hc⟩
      exact ⟨f c * (g j' / axisTotal a k j'), fun idx hi => by
        rw [h1, share_separable hk hsep hj' hi]; ring⟩
    rename_i hj
    split at h1
    · exact ⟨f c * (g j / axisTotal a k j), fun idx hi => by
        rw [h1, share_separable hk hsep (not_le.1 hj) hi]; ring⟩
    · rename_i hj'
      refine ⟨f c * (A * (g j / axisTotal a k j) + A' * (g j' / axisTotal a k j')) / (A + A'),
        fun idx hi => ?_⟩
      rw [h1, share_separable hk hsep (not_le.1 hj) hi, share_separable hk hsep (not_le.1 hj') hi]
      ring

theorem result_separable {a b : NdArray ℚ} {k n : ℕ} (hk : a.shape[k]? = some n) (hb : b.shape = a.shape)
    {p : SPar} {f : ℚ → ℚ} {pos : ℕ → ℚ} {C : ℚ}
    (hf : ∀ i < n, ∃ cell, FilledFrom a k p f (pos i) cell ∧
      ∀ idx, idx[k]? = some i → b.get idx = C * cell idx) {g : ℕ → ℚ} {h : List ℕ → ℚ}
    (hsep : Separable a k g h) : ∃ G, Separable b k G h := by
  have : ∀ i < n, ∃ G, ∀ idx, InB a.shape idx → idx[k]? = some i → b.get idx = G * h (idx.eraseIdx k) := by
    intro i hi
    obtain ⟨cell, h1, h2⟩ := hf i hi
    obtain ⟨G, hG⟩ := filled_separable hk h1 hsep
    exact ⟨C * G, fun idx hb hi => by rw [h2 idx hi, hG idx hb]; ring⟩
  choose! G hG using this
  refine ⟨G, fun idx i hidx hi => ?_⟩
  rw [hb] at hidx
  obtain ⟨i', hi', hlt⟩ := inB_getElem? hidx hk
  rw [hi] at hi'; cases hi'
  exact hG i hlt idx hidx hi

/-- **C98, uncorrelated axes.** If the contents are a product of a function of the shifted axis
and a function of the others, the contents of the shifted spectrum are such a product with the
same function of the others. -/
theorem c98_separable_shift (str : ℚ → PyStr) (spline : List ℚ → List ℚ → Except PyErr (ℚ → ℚ))
    (s : Spectrum) (hs : s.WF) (k : ℕ) (p : SPar) (hk : s.cfg[k]? = some p) (shift : ℚ)
    (hsh : ∀ m : ℤ, m * ((p.high - p.low) / p.bins) ≤ shift →
      1 / 10 ^ 8 < shift - m * ((p.high - p.low) / p.bins))
    (f : ℚ → ℚ) (hf : s.interpolate1d spline p.name = .ok f) (t : Spectrum)
    (ht : s.shift str spline p.name shift = .ok (.finite t)) (g : ℕ → ℚ) (h : List ℕ → ℚ)
    (hsep : Separable s.data k g h) : ∃ G, Separable t.data k G h := by
  obtain ⟨C, hC⟩ := c98_shift str spline s hs k p hk shift hsh f hf t ht
  exact result_separable (axis_facts hs hk).2.2.2.2
    (c29_shift str spline s hs k p hk shift hsh f hf t ht).2.2.1 hC hsep

/-- **C98, uncorrelated axes.** The same for scaling. -/
theorem c98_separable_scale (str : ℚ → PyStr) (spline : List ℚ → List ℚ → Except PyErr (ℚ → ℚ))
    (s : Spectrum) (hs : s.WF) (k : ℕ) (p : SPar) (hk : s.cfg[k]? = some p) (sf : ℚ)
    (hsf : 0 < sf) (f : ℚ → ℚ) (hf : s.interpolate1d spline p.name = .ok f) (t : Spectrum)
    (ht : s.scaleAxis str spline p.name sf = .ok (.finite t)) (g : ℕ → ℚ) (h : List ℕ → ℚ)
    (hsep : Separable s.data k g h) : ∃ G, Separable t.data k G h := by
  obtain ⟨C, hC⟩ := c98_scale str spline s hs k p hk sf hsf f hf t ht
  exact result_separable (axis_facts hs hk).2.2.2.2
    (c30_scale str spline s hs k p hk sf hsf f hf t ht).2.2.1 hC hsep

/-! ### example -/

/-- The example spectrum with contents `(index₀ + 1) · (2 · index₁ + 1)`. -/
def exProduct : Spectrum := { Ex.spec with
  data := ⟨[10, 4], fun idx => match idx with
    | [i, j] => ((i : ℚ) + 1) * (2 * j + 1)
    | _ => 0⟩ }

theorem exProduct_wf : exProduct.WF := ⟨Ex.spec_wf.1, Ex.spec_wf.2, Ex.spec_wf.3⟩

theorem exProduct_not_multiple (m : ℤ)
    (h : m * ((Ex.energy.high - Ex.energy.low) / Ex.energy.bins) ≤ (1 / 8 : ℚ)) :
    1 / 10 ^ 8 < (1 / 8 : ℚ) - m * ((Ex.energy.high - Ex.energy.low) / Ex.energy.bins) := by
  have e : ((Ex.energy.high - Ex.energy.low) / Ex.energy.bins : ℚ) = 1 / 2 := by
    norm_num [Ex.energy]
  rw [e] at h ⊢
  have h3 : (m : ℚ) < ((1 : ℤ) : ℚ) := by push_cast; linarith
  have h4 : m < 1 := by exact_mod_cast h3
  have h5 : (m : ℚ) ≤ 0 := by exact_mod_cast (by omega : m ≤ 0)
  norm_num
  linarith

theorem exProduct_finite :
    (∃ t, exProduct.shift (fun _ => []) (fun _ _ => .ok fun _ => 1) Ex.energy.name (1 / 8) =
      .ok (.finite t)) ∧
    ∃ t, exProduct.scaleAxis (fun _ => []) (fun _ _ => .ok fun _ => 1) Ex.energy.name (11 / 10) =
      .ok (.finite t) := by
  have hm : Ex.energy ∈ exProduct.cfg := by simp [exProduct, Ex.spec]
  have hd : ∀ b < Ex.energy.bins.toNat, 0 < axisTotal exProduct.data 0 b := by
    intro b hb
    rw [axisTotal_eq (n := 10) _ rfl, if_pos (by simpa [Ex.energy] using hb)]
    simp only [exProduct, List.eraseIdx, sumIdx, List.insertIdx_zero, Finset.sum_range_succ,
      Finset.sum_range_zero]
    positivity
  exact ⟨c31_shift_finite_partial _ _ _ exProduct_wf 0 Ex.energy rfl _ exProduct_not_multiple _
      (interpolate1d_const exProduct_wf hm _) (fun _ => one_pos) hd (by norm_num [Ex.energy])
      ⟨3, by simp [Ex.energy], by norm_num [SPar.centre, SPar.edge, Ex.energy]⟩,
    c31_scale_finite_partial _ _ _ exProduct_wf 0 Ex.energy rfl _ (by norm_num) _
      (interpolate1d_const exProduct_wf hm _) (fun _ => one_pos) hd (by norm_num [Ex.energy])
      ⟨3, by simp [Ex.energy], by norm_num [SPar.centre, SPar.edge, Ex.energy]⟩⟩

theorem exProduct_separable : Separable exProduct.data 0 (fun i => (i : ℚ) + 1)
    (fun idx => match idx with | [j] => 2 * (j : ℚ) + 1 | _ => 0) := by
  intro idx i hi hk
  change InB [10, 4] idx at hi
  cases hi with
  | cons h1 h2 => cases h2 with
    | cons h2 h3 =>
      cases h3
      cases hk
      rfl

example : ∃ t G, exProduct.shift (fun _ => []) (fun _ _ => .ok fun _ => 1) Ex.energy.name (1 / 8) =
    .ok (.finite t) ∧ Separable t.data 0 G
      (fun idx => match idx with | [j] => 2 * (j : ℚ) + 1 | _ => 0) := by
  obtain ⟨t, ht⟩ := exProduct_finite.1
  obtain ⟨G, hG⟩ := c98_separable_shift _ _ _ exProduct_wf 0 Ex.energy rfl _ exProduct_not_multiple _
    (interpolate1d_const exProduct_wf (by simp [exProduct, Ex.spec]) _) t ht _ _ exProduct_separable
  exact ⟨t, G, ht, hG⟩

example : ∃ t G, exProduct.scaleAxis (fun _ => []) (fun _ _ => .ok fun _ => 1) Ex.energy.name (11 / 10) =
    .ok (.finite t) ∧ Separable t.data 0 G
      (fun idx => match idx with | [j] => 2 * (j : ℚ) + 1 | _ => 0) := by
  obtain ⟨t, ht⟩ := exProduct_finite.2
  obtain ⟨G, hG⟩ := c98_separable_scale _ _ _ exProduct_wf 0 Ex.energy rfl _ (by norm_num) _
    (interpolate1d_const exProduct_wf (by simp [exProduct, Ex.spec]) _) t ht _ _ exProduct_separable
  exact ⟨t, G, ht, hG⟩

end Verif
