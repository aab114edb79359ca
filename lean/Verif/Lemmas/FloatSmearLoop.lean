import Verif.Lemmas.FloatSmearSum

/-! # Lemmas on weighted smearing with floats: the loops -/

namespace Verif

open Finset

namespace Rounding

variable (R : Rounding)

/-- The fills of one cell. -/
theorem smear_points {s acc : Spectrum} (hs : s.WF) (hf : R.AxesFine s) (hc : acc.cfg = s.cfg)
    (hsh : acc.data.shape = s.data.shape) {k : ℕ} {p : SPar} (hk : s.cfg[k]? = some p)
    {idx : List ℕ} (hi : InB s.data.shape idx) {a : ℕ} {pt G : ℕ → ℚ} {h : ℚ → ℚ} {τ : ℚ}
    (hτ : 0 ≤ τ) {X N : List ℕ → ℚ} (hN : ∀ out, 0 ≤ N out)
    (hX : ∀ out, NearF (τ + N out * R.u) (acc.data.get out) (X out)) (m : ℕ)
    (hpt : ∀ q < m, ((a + q : ℕ) : ℤ) < p.bins ∧
      |pt (a + q) - Verif.binMean p (a + q : ℕ)| ≤ p.width / 50 ∧
      NearF τ (h (pt (a + q))) (G (a + q))) :
    ∃ d : NdArray ℚ, ((List.range m).map (fun q => pt (a + q))).foldlM
        (fun acc x => R.fillOrRaise acc (h x) (R.smearKw s.cfg k idx x)) acc =
        .ok { acc with data := d } ∧ d.shape = acc.data.shape ∧
      ∀ out, NearF (τ + (N out + ∑ q ∈ range m, if out = idx.set k (a + q) then 1 else 0) * R.u)
        (d.get out) (X out + ∑ q ∈ range m, if out = idx.set k (a + q) then G (a + q) else 0) := by
  have hu0 := R.u_nonneg
  induction m with
  | zero => exact ⟨acc.data, rfl, rfl, fun out => by simpa using hX out⟩
  | succ m ih =>
    obtain ⟨d, h1, h2, h3⟩ := ih (fun q hq => hpt q (by omega))
    obtain ⟨g1, g2, g3⟩ := hpt m (by omega)
    have hfl := R.smear_fill (acc := { acc with data := d }) hs hf hc (h2.trans hsh) hk hi g1 g2
      (h (pt (a + m)))
    refine ⟨⟨d.shape, fun i => if i = idx.set k (a + m) then R.rnd (d.get i + h (pt (a + m)))
      else d.get i⟩, ?_, h2, ?_⟩
    · rw [List.range_succ, List.map_append, List.foldlM_append, h1]
      simp only [bind, Except.bind, List.map_cons, List.map_nil, List.foldlM_cons, List.foldlM_nil]
      rw [hfl]
      rfl
    · intro out
      rw [sum_range_succ, sum_range_succ]
      dsimp only
      by_cases ho : out = idx.set k (a + m)
      · rw [if_pos ho, if_pos ho, if_pos ho, ← add_assoc, ← add_assoc]
        have hsum : 0 ≤ ∑ q ∈ range m, if out = idx.set k (a + q) then (1 : ℚ) else 0 :=
          sum_nonneg fun q _ => by split <;> norm_num
        have hn := hN out
        have hadd := (h3 out).add (g3.mono (le_add_of_nonneg_right
          (mul_nonneg (add_nonneg hn hsum) hu0)))
        have := (R.nearF_rnd hadd.left).trans hadd hu0
          (add_nonneg hτ (mul_nonneg (add_nonneg hn hsum) hu0))
        exact this.mono (by linarith)
      · rw [if_neg ho, if_neg ho, if_neg ho, add_zero, add_zero]
        exact h3 out

/-- The loop over all cells. -/
theorem cells_loop_near {s : Spectrum} {step : Spectrum → List ℕ → Except PyErr Spectrum}
    {f n : List ℕ → List ℕ → ℚ} {τ : ℚ} {L : List (List ℕ)} {acc : Spectrum}
    (hc : acc.cfg = s.cfg) (hsh : acc.data.shape = s.data.shape) (hn : ∀ idx out, 0 ≤ n idx out)
    {X N : List ℕ → ℚ} (hN : ∀ out, 0 ≤ N out)
    (hX : ∀ out, NearF (τ + N out * R.u) (acc.data.get out) (X out))
    (h : ∀ idx ∈ L, ∀ (acc : Spectrum) (X N : List ℕ → ℚ), acc.cfg = s.cfg →
      acc.data.shape = s.data.shape → (∀ out, 0 ≤ N out) →
      (∀ out, NearF (τ + N out * R.u) (acc.data.get out) (X out)) →
      ∃ d : NdArray ℚ, step acc idx = .ok { acc with data := d } ∧ d.shape = acc.data.shape ∧
        ∀ out, NearF (τ + (N out + n idx out) * R.u) (d.get out) (X out + f idx out)) :
    ∃ d : NdArray ℚ, L.foldlM step acc = .ok { acc with data := d } ∧ d.shape = acc.data.shape ∧
      ∀ out, NearF (τ + (N out + (L.map (fun idx => n idx out)).sum) * R.u) (d.get out)
        (X out + (L.map (fun idx => f idx out)).sum) := by
  induction L generalizing acc X N with
  | nil => exact ⟨acc.data, rfl, rfl, fun out => by simpa using hX out⟩
  | cons idx L ih =>
    obtain ⟨d, h1, h2, h3⟩ := h idx (by simp) acc X N hc hsh hN hX
    obtain ⟨d', g1, g2, g3⟩ := ih (acc := { acc with data := d }) hc (h2.trans hsh)
      (X := fun out => X out + f idx out) (N := fun out => N out + n idx out)
      (fun out => add_nonneg (hN out) (hn idx out)) h3 (fun idx hidx => h idx (by simp [hidx]))
    refine ⟨d', ?_, g2.trans h2, ?_⟩
    · rw [List.foldlM_cons, h1]; exact g1
    · intro out
      simp only [List.map_cons, List.sum_cons]
      have := g3 out
      rwa [add_assoc, add_assoc] at this

/-- One point at most is filled into a given cell. -/
theorem count_le {out idx : List ℕ} {k a m : ℕ} (hk : k < idx.length) :
    (∑ q ∈ range m, if out = idx.set k (a + q) then (1 : ℚ) else 0) ≤
      if out.set k (idx.getD k 0) = idx then 1 else 0 := by
  by_cases ho : ∃ q < m, out = idx.set k (a + q)
  · obtain ⟨q, hq, rfl⟩ := ho
    have hd : idx.getD k 0 = idx[k] := by simp [List.getD_eq_getElem?_getD, hk]
    rw [hd, List.set_set, List.set_getElem_self, if_pos rfl]
    rw [Finset.sum_eq_single q]
    · simp
    · intro b _ hb
      rw [if_neg]
      intro he
      have := congrArg (fun l => l[k]?) he
      simp [hk] at this
      omega
    · intro hq'
      exact absurd (Finset.mem_range.2 hq) hq'
  · push Not at ho
    rw [Finset.sum_eq_zero]
    · split <;> norm_num
    · intro q hq
      rw [if_neg (ho q (Finset.mem_range.1 hq))]

/-- Share of the contents of bin `i` that goes to bin `j`, for the points `pt i j`. -/
def shareAt (w : ℕ → ℕ → ℚ) (a b : ℕ → ℕ) (i j : ℕ) : ℚ :=
  if a i ≤ j ∧ j < b i then w i j / ∑ j' ∈ Ico (a i) (b i), w i j' else 0

/-- The sum of the weights. -/
theorem weights_near {tot : List ℚ → ℚ} (ht : R.Totals tot) {w : ℕ → ℚ} {a m n : ℕ} (h0 : m ≠ 0)
    (hm : m ≤ n) (hw : ∀ j, 0 < w j) (hn : n * R.u ≤ 1 / 1000) :
    0 < tot ((List.range m).map fun q => w (a + q)) ∧
    NearF (2 * n * R.u) (tot ((List.range m).map fun q => w (a + q)))
      (∑ q ∈ range m, w (a + q)) := by
  have hu0 := R.u_nonneg
  have hl : ∀ x ∈ (List.range m).map (fun q => w (a + q)), 0 ≤ x := by
    intro x hx
    obtain ⟨q, -, rfl⟩ := List.mem_map.1 hx
    exact (hw _).le
  have hnear := R.nearF_total ht hl (n := n) (by simpa using hm) (by linarith)
  rw [range_sum] at hnear
  have hS : 0 < ∑ q ∈ range m, w (a + q) :=
    Finset.sum_pos (fun q _ => hw _) (by simpa using h0)
  refine ⟨lt_of_lt_of_le (mul_pos (by linarith) hS) hnear.lower, hnear⟩

/-- What one fill adds. -/
theorem share_near {e w T S : ℚ} {n : ℤ} (he : 0 ≤ e) (hw : 0 ≤ w) {m : ℕ} (hT : NearF (2 * m * R.u) T S) (hT0 : 0 < T)
    (hS : 0 < S) (hmn : (m : ℚ) = n) :
    NearF ((2 * n + 2) * R.u) (R.div (R.mul e w) T) (e * w / S) := by
  have hu0 := R.u_nonneg
  have h1 := R.nearF_rnd (mul_nonneg he hw)
  have hm : 0 ≤ 2 * (m : ℚ) * R.u := by positivity
  have h2 := h1.div hT hu0 hm hT0 hS
  have h3 := (R.nearF_rnd h2.left).trans h2 hu0 (by linarith)
  refine h3.mono ?_
  rw [← hmn]
  linarith

/-- What `weighted_smear` returns. -/
theorem smear_core {tot : List ℚ → ℚ} (ht : R.Totals tot) {s : Spectrum} (hs : s.WF)
    (hf : R.AxesFine s) (hnn : NonNeg s.data) {k : ℕ} {p : SPar} (hk : s.cfg[k]? = some p)
    (suffix : PyStr) (sigma : ℚ → ℚ) {weight : ℚ → ℚ → ℚ → ℚ} (ns : ℚ)
    (hpos : ∀ x m g, 0 < weight x m g) {a b : ℕ → ℕ} {pt : ℕ → ℕ → ℚ}
    (hw : ∀ i : ℕ, (i : ℤ) < p.bins → R.smearPoints p ns (sigma (R.binMean p i)) (R.binMean p i) =
      (List.range (b i - a i)).map (fun q => pt i (a i + q)) ∧ b i ≤ p.bins.toNat ∧
      ∀ j, a i ≤ j → j < b i → |pt i j - Verif.binMean p j| ≤ p.width / 50) :
    ∃ t, R.weightedSmear suffix tot sigma weight ns s p.name = .ok t ∧ SameButNameData s t ∧
      t.name = s.name ++ suffix ∧ t.data.shape = s.data.shape ∧
      ∀ out j, InB s.data.shape out → out[k]? = some j →
        NearF ((3 * p.bins + 2) * R.u) (t.data.get out)
          (∑ i ∈ range p.bins.toNat, s.data.get (out.set k i) *
            shareAt (fun i j => weight (pt i j) (R.binMean p i) (sigma (R.binMean p i))) a b i j) := by
  obtain ⟨hm, hp, hg, hidx, hsh⟩ := axis_facts hs hk
  have hu0 := R.u_nonneg
  have hbu := hf.bins R hs hm
  have hbn : ((p.bins.toNat : ℕ) : ℚ) = p.bins := by
    have : ((p.bins.toNat : ℕ) : ℤ) = p.bins := Int.toNat_of_nonneg hp.1.le
    exact_mod_cast this
  have hb1 : (1 : ℚ) ≤ p.bins := by exact_mod_cast hp.1
  have hshape : s.cfg.map (fun p => p.bins.toNat) = s.data.shape := by
    have := congrArg (List.map Int.toNat) hs.shape
    simp only [List.map_map] at this
    rw [show (Int.toNat ∘ SPar.bins) = fun p : SPar => p.bins.toNat from rfl] at this
    rw [← this]
    simp [Function.comp_def]
  set W : ℕ → ℕ → ℚ := fun i j => weight (pt i j) (R.binMean p i) (sigma (R.binMean p i)) with hW
  have hτ0 : 0 ≤ (2 * (p.bins : ℚ) + 2) * R.u := mul_nonneg (by linarith) hu0
  unfold weightedSmear
  simp only [bind, Except.bind, throw, throwThe, MonadExceptOf.throw, hg, hidx]
  rw [if_neg, if_neg, hshape]
  · obtain ⟨d, h1, h2, h3⟩ := R.cells_loop_near (s := s) (L := allIdx s.data.shape)
      (step := R.smearCell tot sigma weight ns s k p) (τ := (2 * (p.bins : ℚ) + 2) * R.u)
      (acc := { s with name := s.name ++ suffix, data := .zeros s.data.shape })
      (f := fun idx out => ∑ q ∈ range (b (idx.getD k 0) - a (idx.getD k 0)),
        if out = idx.set k (a (idx.getD k 0) + q) then s.data.get idx *
          shareAt W a b (idx.getD k 0) (a (idx.getD k 0) + q) else 0)
      (n := fun idx out => if out.set k (idx.getD k 0) = idx then 1 else 0)
      (X := fun _ => 0) (N := fun _ => 0)
      rfl rfl (fun idx out => by split <;> norm_num) (fun _ => le_rfl)
      (fun out => by simpa [NdArray.zeros] using NearF.zero) (by
        intro idx hidx acc X N hc hsh' hN hX
        rw [mem_allIdx] at hidx
        have hkl : k < idx.length := by
          rw [hidx.length_eq]; exact (List.getElem?_eq_some_iff.1 hsh).1
        have hil : ((idx.getD k 0 : ℕ) : ℤ) < p.bins := by
          obtain ⟨i, hi, hlt⟩ := inB_getElem? hidx hsh
          rw [List.getD_eq_getElem?_getD, hi]
          simp only [Option.getD_some]
          omega
        obtain ⟨w1, w2, w3⟩ := hw _ hil
        obtain ⟨i, hgd⟩ : ∃ i, idx.getD k 0 = i := ⟨_, rfl⟩
        rw [hgd] at hil w1 w2 w3 ⊢
        unfold smearCell
        rw [hgd]
        dsimp only
        by_cases he : s.data.get idx = 0
        · rw [if_pos he]
          refine ⟨acc.data, rfl, rfl, fun out => ?_⟩
          simp only [he, zero_mul, ite_self, sum_const_zero, add_zero]
          refine (hX out).mono ?_
          have : 0 ≤ (if out.set k i = idx then (1 : ℚ) else 0) * R.u :=
            mul_nonneg (by split <;> norm_num) hu0
          linarith
        · rw [if_neg he, w1, List.map_map]
          have he0 : 0 ≤ s.data.get idx := hnn idx hidx
          by_cases hab : b i - a i = 0
          · rw [hab]
            simp only [List.range_zero, List.map_nil, ne_eq, not_true_eq_false, false_and, if_false,
              List.foldlM_nil, Finset.range_zero, sum_empty, add_zero]
            refine ⟨acc.data, rfl, rfl, fun out => ?_⟩
            refine (hX out).mono ?_
            have : 0 ≤ (if out.set k i = idx then (1 : ℚ) else 0) * R.u :=
              mul_nonneg (by split <;> norm_num) hu0
            linarith
          · obtain ⟨hT0, hT⟩ := R.weights_near ht (w := W i) (a := a i) (m := b i - a i)
              (n := p.bins.toNat) (by omega) (by omega) (fun j => hpos _ _ _)
              (by rw [hbn]; linarith)
            have hfun : ((fun x => weight x (R.binMean p i) (sigma (R.binMean p i))) ∘
              fun q => pt i (a i + q)) = fun q => W i (a i + q) := rfl
            rw [hfun]
            have hS : ∑ j' ∈ Ico (a i) (b i), W i j' = ∑ q ∈ range (b i - a i), W i (a i + q) := by
              rw [Finset.sum_Ico_eq_sum_range]
            generalize tot ((List.range (b i - a i)).map fun q => W i (a i + q)) = T at *
            rw [if_neg (fun h => hT0.ne' h.2)]
            have hSp : 0 < ∑ q ∈ range (b i - a i), W i (a i + q) :=
              Finset.sum_pos (fun q _ => hpos _ _ _) (by simpa using hab)
            obtain ⟨d, h1, h2, h3⟩ := R.smear_points hs hf hc hsh' hk hidx (a := a i) (pt := pt i)
              (G := fun j => s.data.get idx * shareAt W a b i j)
              (h := fun x => R.div (R.mul (s.data.get idx)
                (weight x (R.binMean p i) (sigma (R.binMean p i)))) T) hτ0 hN hX (b i - a i)
              (fun q hq => ⟨by omega, w3 _ (by omega) (by omega), by
                unfold shareAt
                rw [if_pos ⟨by omega, by omega⟩, hS, ← mul_div_assoc]
                exact R.share_near he0 (hpos _ _ _).le hT hT0 hSp hbn⟩)
            refine ⟨d, h1, h2, fun out => (h3 out).mono ?_⟩
            have := mul_le_mul_of_nonneg_right (count_le (out := out) (a := a i) (m := b i - a i) hkl)
              hu0
            rw [hgd] at this
            linarith)
    refine ⟨_, h1, ⟨rfl, rfl, rfl, rfl⟩, rfl, h2, ?_⟩
    intro out j ho hoj
    have h3 := h3 out
    simp only at h3 ⊢
    rw [sum_allIdx, sum_allIdx, zero_add, zero_add] at h3
    have hkl' : k < out.length := (List.getElem?_eq_some_iff.1 hoj).1
    have hgd : ∀ i : ℕ, (out.set k i).getD k 0 = i := fun i => by
      simp [List.getD_eq_getElem?_getD, hkl']
    have hcount := sumIdx_along hsh ho (fun _ => (1 : ℚ))
    rw [hcount] at h3
    have hal := sumIdx_along hsh ho (fun idx => s.data.get idx * shareAt W a b (idx.getD k 0) j)
    simp only [hgd] at hal
    rw [← hal]
    have hsum : sumIdx s.data.shape (fun idx => ∑ q ∈ range (b (idx.getD k 0) - a (idx.getD k 0)),
        if out = idx.set k (a (idx.getD k 0) + q) then s.data.get idx *
          shareAt W a b (idx.getD k 0) (a (idx.getD k 0) + q) else 0) =
        sumIdx s.data.shape (fun idx => if out.set k (idx.getD k 0) = idx then
          s.data.get idx * shareAt W a b (idx.getD k 0) j else 0) := by
      refine sumIdx_congr fun idx hidx => ?_
      have hkl : k < idx.length := by
        rw [hidx.length_eq]; exact (List.getElem?_eq_some_iff.1 hsh).1
      simp only [eq_set_iff hoj hkl]
      generalize idx.getD k 0 = i
      by_cases hcond : out.set k i = idx
      · simp only [hcond, true_and, if_true]
        by_cases hc : a i ≤ j ∧ j < b i
        · rw [Finset.sum_eq_single (j - a i)]
          · rw [if_pos (by omega), show a i + (j - a i) = j by omega]
          · intro q _ hne
            rw [if_neg (by omega)]
          · intro hne
            exact absurd (Finset.mem_range.2 (by omega)) hne
        · rw [show shareAt W a b i j = 0 from if_neg hc, mul_zero]
          apply Finset.sum_eq_zero
          intro q hq
          rw [Finset.mem_range] at hq
          rw [if_neg (by omega)]
      · simp only [hcond, false_and, if_false, sum_const_zero]
    rw [hsum] at h3
    refine h3.mono ?_
    rw [sum_const, card_range, nsmul_eq_mul, hbn]
    linarith
  · simp only [List.any_eq_true, decide_eq_true_eq, not_exists, not_and]
    intro q hq
    have := (hs.axes q hq).1
    omega
  · rw [not_not]; exact List.mem_map.2 ⟨p, hm, rfl⟩

end Rounding

/-- The shares of a bin add up to one. -/
theorem shareAt_sum {w : ℕ → ℕ → ℚ} (hw : ∀ i j, 0 < w i j) {a b : ℕ → ℕ} {i n : ℕ} (h : a i < b i)
    (hb : b i ≤ n) : ∑ j ∈ range n, Rounding.shareAt w a b i j = 1 := by
  have hS : 0 < ∑ j' ∈ Ico (a i) (b i), w i j' :=
    Finset.sum_pos (fun q _ => hw _ _) ⟨a i, Finset.mem_Ico.2 ⟨le_rfl, h⟩⟩
  unfold Rounding.shareAt
  rw [← Finset.sum_filter]
  have : (range n).filter (fun j => a i ≤ j ∧ j < b i) = Ico (a i) (b i) := by
    ext j
    simp only [Finset.mem_filter, Finset.mem_range, Finset.mem_Ico]
    omega
  rw [this]
  simp only [div_eq_mul_inv]
  rw [← Finset.sum_mul, mul_inv_cancel₀ hS.ne']

theorem NearF.sumIdx {θ : ℚ} {shape : List ℕ} {f g : List ℕ → ℚ}
    (h : ∀ idx, InB shape idx → NearF θ (f idx) (g idx)) :
    NearF θ (Verif.sumIdx shape f) (Verif.sumIdx shape g) := by
  refine ⟨sumIdx_nonneg fun i hi => (h i hi).left, sumIdx_nonneg fun i hi => (h i hi).right, ?_, ?_⟩
  · rw [mul_comm, ← sumIdx_mul]
    exact sumIdx_le fun i hi => by rw [mul_comm]; exact (h i hi).lower
  · rw [mul_comm, ← sumIdx_mul]
    exact sumIdx_le fun i hi => by rw [mul_comm]; exact (h i hi).upper

end Verif
