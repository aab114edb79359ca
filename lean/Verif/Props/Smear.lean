import Verif.Lemmas.Smear
import Verif.Props.Shift

/-!
# C32, C34: weighted and random smearing
-/

namespace Verif

open Finset

theorem binMean_eq_centre (p : SPar) (i : ℕ) : binMean p i = p.centre i := (centre_eq p i).symm

theorem binOf_binMean {p : SPar} (hp : p.WF) {i : ℕ} (hi : (i : ℤ) < p.bins) :
    binOf p (binMean p i) = i := by
  have hc := binMean_inCell hp hi
  have hw := hp.width_pos
  have h1 : p.low ≤ binMean p i := by
    unfold binMean
    have : (0 : ℚ) ≤ (i : ℚ) * p.width := by positivity
    linarith
  have h2 : binMean p i < p.high := by
    rw [hp.high_eq]
    unfold binMean
    have : ((i : ℚ) + 1) ≤ p.bins := by exact_mod_cast hi
    nlinarith
  exact inCell_unique hp (binOf_inCell hp h1 h2) hc

theorem sum_map_range (n : ℕ) (f : ℕ → ℚ) : ((List.range n).map f).sum = ∑ q ∈ range n, f q := by
  induction n with
  | zero => simp
  | succ n ih => simp [List.range_succ, Finset.sum_range_succ, ih]

/-- **C32, cell by cell.** On an axis aligned with zero, weighted smearing distributes the
contents of every cell over cells that differ only along the smeared axis, in proportion to
the weights at their centres, over a range of bins that contains every bin but the last
whose centre is within the window and no bin more than half a bin outside it. Everything
but the name and the contents is unchanged. -/
theorem c32_smear_cells (s : Spectrum) (hs : s.WF) (k : ℕ) (p : SPar) (hk : s.cfg[k]? = some p)
    (ha : p.Aligned) (suffix : PyStr) (sigma : ℚ → ℚ) (weight : ℚ → ℚ → ℚ → ℚ) (ns : ℚ)
    (hpos : ∀ x m g, 0 < weight x m g) :
    ∃ (t : Spectrum) (a b : ℕ → ℕ), s.weightedSmear suffix sigma weight ns p.name = .ok t ∧
      SameButNameData s t ∧ t.name = s.name ++ suffix ∧ t.data.shape = s.data.shape ∧
      (∀ i, b i < p.bins.toNat ∧ ∀ j,
        (a i ≤ j → j < b i → |p.centre j - p.centre i| ≤
          ns * sigma (p.centre i) + (p.high - p.low) / p.bins / 2) ∧
        (j + 1 < p.bins.toNat → |p.centre j - p.centre i| ≤ ns * sigma (p.centre i) →
          a i ≤ j ∧ j < b i)) ∧
      ∀ out j, InB s.data.shape out → out[k]? = some j → t.data.get out =
        ∑ i ∈ range p.bins.toNat, s.data.get (out.set k i) * (if a i ≤ j ∧ j < b i then
          weight (p.centre j) (p.centre i) (sigma (p.centre i)) /
            ∑ j' ∈ Ico (a i) (b i), weight (p.centre j') (p.centre i) (sigma (p.centre i))
          else 0) := by
  obtain ⟨-, hp, -, -, -⟩ := axis_facts hs hk
  obtain ⟨t, h1, h2, h3, h4, h5⟩ := smear_core hs hk suffix sigma ns hpos
  choose a b hw hb hin hout using fun i =>
    window_aligned hp ha (ns := ns) (sg := sigma (binMean p i)) i
  refine ⟨t, a, b, h1, h2, h3, h4, ?_, ?_⟩
  · intro i
    refine ⟨by have := hb i; omega, fun j => ⟨?_, ?_⟩⟩
    · intro g1 g2
      have := hout i j g1 g2
      simp only [binMean_eq_centre] at this; exact this
    · intro g1 g2
      apply hin i j g1
      simpa only [binMean_eq_centre] using g2
  · intro out j ho hj
    rw [h5 out j ho hj]
    refine Finset.sum_congr rfl fun i _ => ?_
    congr 1
    unfold share
    dsimp only
    rw [hw i, List.map_map, List.map_map, sum_map_range, sum_map_range]
    simp only [Function.comp_apply, ← binMean_eq_centre]
    set T := ∑ q ∈ range (b i - a i),
      weight (binMean p (a i + q)) (binMean p i) (sigma (binMean p i)) with hT
    have hT' : ∑ j' ∈ Ico (a i) (b i), weight (binMean p j') (binMean p i) (sigma (binMean p i)) =
        T := by rw [Finset.sum_Ico_eq_sum_range]
    rw [hT']
    have hbn := hb i
    have hbo : ∀ q ∈ range (b i - a i), binOf p (binMean p (a i + q)) = a i + q := by
      intro q hq
      rw [Finset.mem_range] at hq
      exact binOf_binMean hp (by omega)
    rw [Finset.sum_congr rfl fun q hq => by rw [hbo q hq]]
    by_cases hc : a i ≤ j ∧ j < b i
    · rw [if_pos hc]
      rw [Finset.sum_eq_single (j - a i)]
      · rw [if_pos (by omega), show a i + (j - a i) = j by omega]
      · intro q _ hne
        rw [if_neg (by omega)]
      · intro hne
        exact absurd (Finset.mem_range.2 (by omega)) hne
    · rw [if_neg hc]
      apply Finset.sum_eq_zero
      intro q hq
      rw [Finset.mem_range] at hq
      rw [if_neg (by omega)]

/-- **C32, conservation.** The full claim is that the sum along the smeared axis is conserved
for every choice of the other indices, and with it the total. It holds when the smeared
axis has at least two bins, the window is not negative, and either the window at the last
bin is more than half a bin or the last bin is empty. Missing: one-bin axes and narrow
windows at the last bin, where contents are lost (`c32_conserved_negation`). -/
theorem c32_conserved_partial (s : Spectrum) (hs : s.WF) (k : ℕ) (p : SPar)
    (hk : s.cfg[k]? = some p) (suffix : PyStr) (sigma : ℚ → ℚ) (weight : ℚ → ℚ → ℚ → ℚ) (ns : ℚ)
    (hpos : ∀ x m g, 0 < weight x m g) (h2 : 2 ≤ p.bins)
    (hR : ∀ i < p.bins.toNat, 0 ≤ ns * sigma (p.centre i))
    (hlast : (p.high - p.low) / p.bins / 2 < ns * sigma (p.centre (p.bins.toNat - 1)) ∨
      ∀ idx, InB s.data.shape idx → idx[k]? = some (p.bins.toNat - 1) → s.data.get idx = 0) :
    ∃ t, s.weightedSmear suffix sigma weight ns p.name = .ok t ∧ SameButNameData s t ∧
      (∀ idx, InB s.data.shape idx →
        ∑ j ∈ range p.bins.toNat, t.data.get (idx.set k j) =
          ∑ j ∈ range p.bins.toNat, s.data.get (idx.set k j)) ∧
      t.sum = s.sum ∧ (NonNeg s.data → NonNeg t.data) := by
  obtain ⟨-, hp, -, -, hsh⟩ := axis_facts hs hk
  obtain ⟨t, h1, hsame, -, h4, h5⟩ := smear_core hs hk suffix sigma ns hpos
  have hslice : ∀ idx, InB s.data.shape idx →
        ∑ j ∈ range p.bins.toNat, t.data.get (idx.set k j) =
          ∑ j ∈ range p.bins.toNat, s.data.get (idx.set k j) := by
    intro idx hidx
    have hkl : k < idx.length := by
      rw [hidx.length_eq]; exact (List.getElem?_eq_some_iff.1 hsh).1
    have e1 : ∀ j ∈ range p.bins.toNat, t.data.get (idx.set k j) =
        ∑ i ∈ range p.bins.toNat, s.data.get (idx.set k i) * share sigma weight ns p i j := by
      intro j hj
      rw [h5 (idx.set k j) j (inB_set hidx hsh (Finset.mem_range.1 hj)) (by simp [hkl])]
      simp only [List.set_set]
    rw [Finset.sum_congr rfl e1, Finset.sum_comm]
    refine Finset.sum_congr rfl fun i hi => ?_
    rw [Finset.mem_range] at hi
    rw [← Finset.mul_sum]
    by_cases hi' : i + 1 < p.bins.toNat
    · rw [share_sum hp hpos, mul_one]
      refine smearPoints_ne_nil hp h2 ?_ (by omega) (Or.inl (by omega))
      rw [binMean_eq_centre]; exact hR i hi
    · have hil : i = p.bins.toNat - 1 := by omega
      rcases hlast with h | h
      · rw [share_sum hp hpos, mul_one]
        refine smearPoints_ne_nil hp h2 ?_ (by omega) (Or.inr ?_)
        · rw [binMean_eq_centre]; exact hR i hi
        · rw [binMean_eq_centre, hil]; exact h
      · rw [h (idx.set k i) (inB_set hidx hsh hi) (by simp [hkl, hil]), zero_mul]
  refine ⟨t, h1, hsame, hslice, ?_, ?_⟩
  · have hsht : t.data.shape[k]? = some p.bins.toNat := by rw [h4]; exact hsh
    unfold Spectrum.sum NdArray.sum
    rw [← sumIdx_eraseIdx hsh, ← sumIdx_eraseIdx hsht, h4]
    refine sumIdx_congr fun rest hr => ?_
    have hrl := length_of_erase hsh hr
    have := hslice (rest.insertIdx k 0) (inB_insertIdx hsh hr (by omega))
    simpa only [insertIdx_set hrl] using this
  · intro hn out ho
    rw [h4] at ho
    obtain ⟨j, hj, hjn⟩ := inB_getElem? ho hsh
    rw [h5 out j ho hj]
    refine Finset.sum_nonneg fun i hi => mul_nonneg ?_ (share_nonneg hpos i j)
    exact hn _ (inB_set ho hsh (Finset.mem_range.1 hi))

/-- **C32, the last bin.** On an axis aligned with zero, the last bin along the smeared axis is
empty after every weighted smearing. -/
theorem c32_last_bin_empty (s t : Spectrum) (hs : s.WF) (k : ℕ) (p : SPar)
    (hk : s.cfg[k]? = some p) (ha : p.Aligned) (suffix : PyStr) (sigma : ℚ → ℚ)
    (weight : ℚ → ℚ → ℚ → ℚ) (ns : ℚ) (hpos : ∀ x m g, 0 < weight x m g)
    (ht : s.weightedSmear suffix sigma weight ns p.name = .ok t) (out : List ℕ)
    (ho : InB s.data.shape out) (hl : out[k]? = some (p.bins.toNat - 1)) : t.data.get out = 0 := by
  obtain ⟨t', a, b, h1, -, -, -, h5, h6⟩ :=
    c32_smear_cells s hs k p hk ha suffix sigma weight ns hpos
  rw [ht] at h1
  injection h1 with h1
  subst h1
  rw [h6 out _ ho hl]
  apply Finset.sum_eq_zero
  intro i _
  rw [if_neg, mul_zero]
  have := (h5 i).1
  omega

/-- **C32, lost contents.** On an axis aligned with zero, if the window at the last bin is
less than half a bin, whatever is in the last bin is lost. -/
theorem c32_last_bin_lost (s t : Spectrum) (hs : s.WF) (k : ℕ) (p : SPar)
    (hk : s.cfg[k]? = some p) (ha : p.Aligned) (suffix : PyStr) (sigma : ℚ → ℚ)
    (weight : ℚ → ℚ → ℚ → ℚ) (ns : ℚ) (hpos : ∀ x m g, 0 < weight x m g)
    (hR : ns * sigma (p.centre (p.bins.toNat - 1)) < (p.high - p.low) / p.bins / 2)
    (honly : ∀ idx i, InB s.data.shape idx → idx[k]? = some i → i + 1 < p.bins.toNat →
      s.data.get idx = 0)
    (ht : s.weightedSmear suffix sigma weight ns p.name = .ok t) : t.sum = 0 := by
  obtain ⟨-, hp, -, -, hsh⟩ := axis_facts hs hk
  have hw := hp.width_pos
  obtain ⟨t', a, b, h1, -, -, h4, h5, h6⟩ :=
    c32_smear_cells s hs k p hk ha suffix sigma weight ns hpos
  rw [ht] at h1
  injection h1 with h1
  subst h1
  have h0 : ∀ out, InB t.data.shape out → t.data.get out = 0 := by
    intro out ho
    rw [h4] at ho
    obtain ⟨j, hj, hjn⟩ := inB_getElem? ho hsh
    rw [h6 out j ho hj]
    apply Finset.sum_eq_zero
    intro i hi
    rw [Finset.mem_range] at hi
    have hkl : k < out.length := (List.getElem?_eq_some_iff.1 hj).1
    by_cases hil : i + 1 < p.bins.toNat
    · rw [honly (out.set k i) i (inB_set ho hsh hi) (by simp [hkl]) hil, zero_mul]
    · have hie : i = p.bins.toNat - 1 := by omega
      rw [if_neg, mul_zero]
      rintro ⟨c1, c2⟩
      have c3 := (h5 i).1
      have c4 := ((h5 i).2 j).1 c1 c2
      rw [hie] at c4
      simp only [← binMean_eq_centre] at c4 hR
      have e : binMean p j - binMean p (p.bins.toNat - 1) =
          ((j : ℚ) - ((p.bins.toNat - 1 : ℕ) : ℚ)) * p.width := by unfold binMean; ring
      rw [e] at c4
      have e2 : (j : ℚ) + 1 ≤ ((p.bins.toNat - 1 : ℕ) : ℚ) := by
        exact_mod_cast (by omega : j + 1 ≤ p.bins.toNat - 1)
      have e3 := (abs_le.1 c4).1
      change ns * sigma (binMean p (p.bins.toNat - 1)) < p.width / 2 at hR
      change -(_ + p.width / 2) ≤ _ at e3
      nlinarith
  unfold Spectrum.sum NdArray.sum
  rw [sumIdx_congr h0, sumIdx_zero]

/-- One event in the last of the ten energy bins. -/
def lastBin : Spectrum where
  name := lit "last"
  cfg := [Ex.energy]
  data := ⟨[10], fun idx => if idx = [9] then 1 else 0⟩
  numDecays := 1
  rawEvents := 1
  rois := []

theorem lastBin_wf : lastBin.WF where
  axes := by simpa [lastBin] using Ex.energy_wf
  names := by decide
  shape := by decide

/-- **C32, negation.** Conservation fails: a weighted smearing with a narrow window loses the
contents of the last bin. -/
theorem c32_conserved_negation : ¬ ∀ (s : Spectrum), s.WF → ∀ (k : ℕ) (p : SPar),
    s.cfg[k]? = some p → ∀ (suffix : PyStr) (sigma : ℚ → ℚ) (weight : ℚ → ℚ → ℚ → ℚ) (ns : ℚ),
    (∀ x, 0 < sigma x) → 0 < ns → (∀ x m g, 0 < weight x m g) →
    ∀ t, s.weightedSmear suffix sigma weight ns p.name = .ok t → t.sum = s.sum := by
  intro h
  have ha : Ex.energy.Aligned := ⟨0, by norm_num [Ex.energy]⟩
  obtain ⟨t, h1, -⟩ := smear_core lastBin_wf (k := 0) (p := Ex.energy) rfl []
    (fun _ => 1 / 100) (weight := fun _ _ _ => 1) 5 (by intros; norm_num)
  have h2 := h lastBin lastBin_wf 0 Ex.energy rfl [] (fun _ => 1 / 100) (fun _ _ _ => 1) 5
    (by intros; norm_num) (by norm_num) (by intros; norm_num) t h1
  have h3 := c32_last_bin_lost lastBin t lastBin_wf 0 Ex.energy rfl ha []
    (fun _ => 1 / 100) (fun _ _ _ => 1) 5 (by intros; norm_num) (by norm_num [Ex.energy])
    (by
      intro idx i hi hk hlt
      simp only [lastBin]
      rw [if_neg]
      rintro rfl
      have : i = 9 := by simpa using hk.symm
      subst this
      simp [Ex.energy] at hlt) h1
  rw [h3] at h2
  have h4 : lastBin.sum = 1 := by
    simp [Spectrum.sum, NdArray.sum, lastBin, sumIdx]
  rw [h4] at h2
  norm_num at h2

/-- **C32, unknown parameter.** Smearing along a parameter that is not an axis raises an
`IndexError`. -/
theorem c32_unknown_parameter (s : Spectrum) (par suffix : PyStr) (hpar : ∀ p ∈ s.cfg, p.name ≠ par)
    (sigma : ℚ → ℚ) (weight : ℚ → ℚ → ℚ → ℚ) (ns : ℚ) (draws : List ℕ → ℕ → ℚ) :
    s.weightedSmear suffix sigma weight ns par = .error .indexError ∧
    s.randomSmear suffix draws par = .error .indexError ∧
    s.randomSmearRadial suffix par = .error .indexError := by
  have hn : par ∉ s.pars := by
    unfold Spectrum.pars
    intro h
    obtain ⟨p, hp, he⟩ := List.mem_map.1 h
    exact hpar p hp he
  refine ⟨?_, ?_, ?_⟩
  · unfold Spectrum.weightedSmear; rw [if_pos hn]; rfl
  · unfold Spectrum.randomSmear; rw [if_pos hn]; rfl
  · unfold Spectrum.randomSmearRadial; rw [if_pos hn]; rfl

/-- The hypotheses of C32 are met by the two-dimensional example smeared in energy with a
window of 0.5 and a positive weight that decreases with the distance. -/
example : Ex.spec.WF ∧ Ex.spec.cfg[0]? = some Ex.energy ∧ Ex.energy.Aligned ∧
    (∀ x m g : ℚ, 0 < 1 / (1 + (x - m) ^ 2 + g ^ 2)) ∧ 2 ≤ Ex.energy.bins ∧
    (Ex.energy.high - Ex.energy.low) / Ex.energy.bins / 2 < 5 * (1 / 10) :=
  ⟨Ex.spec_wf, rfl, ⟨0, by norm_num [Ex.energy]⟩, fun x m g => by positivity, by decide,
    by norm_num [Ex.energy]⟩

/-- and those about the last bin by a single event in the last bin and a window of 0.05. -/
example : lastBin.WF ∧ lastBin.sum = 1 ∧
    5 * (1 / 100) < (Ex.energy.high - Ex.energy.low) / Ex.energy.bins / 2 ∧
    ∃ t, lastBin.weightedSmear [] (fun _ => 1 / 100) (fun _ _ _ => 1) 5 Ex.energy.name = .ok t := by
  refine ⟨lastBin_wf, ?_, by norm_num [Ex.energy], ?_⟩
  · simp [Spectrum.sum, NdArray.sum, lastBin, sumIdx]
  · obtain ⟨t, h1, -⟩ := smear_core lastBin_wf (k := 0) (p := Ex.energy) rfl []
      (fun _ => 1 / 100) (weight := fun _ _ _ => 1) 5 (by intros; norm_num)
    exact ⟨t, h1⟩

/-! ### random smearing -/

open Classical in
theorem random_inner {s : Spectrum} (hs : s.WF) {k : ℕ} {p : SPar} (hk : s.cfg[k]? = some p)
    {idx : List ℕ} (hi : InB s.data.shape idx) (d : ℕ → ℚ) (L : List ℕ) (acc : Spectrum)
    (hc : acc.cfg = s.cfg) (hsh : acc.data.shape = s.data.shape) :
    ∃ e : NdArray ℚ, L.foldlM (fun acc i => fillOrSkip acc (smearKw s.cfg k idx |d i|)) acc =
        .ok { acc with data := e } ∧ e.shape = acc.data.shape ∧
      ∀ out, e.get out = acc.data.get out +
        (L.map (fun i => if ∃ j, InCell p |d i| j ∧ out = idx.set k j then (1 : ℚ) else 0)).sum := by
  have hp := (axis_facts hs hk).2.1
  induction L generalizing acc with
  | nil => exact ⟨acc.data, rfl, rfl, by simp⟩
  | cons i L ih =>
    by_cases hx : p.low ≤ |d i| ∧ |d i| < p.high
    · have hcell := binOf_inCell hp hx.1 hx.2
      have hf := smear_fill hs hc hsh hk hi hcell 1
      have hfr : fillOrSkip acc (smearKw s.cfg k idx |d i|) =
          .ok { acc with data := acc.data.addAt (idx.set k (binOf p |d i|)) 1 } := by
        unfold fillOrSkip; rw [hf]; rfl
      obtain ⟨e, h1, h2, h3⟩ := ih
        { acc with data := acc.data.addAt (idx.set k (binOf p |d i|)) 1 } hc hsh
      refine ⟨e, ?_, h2, ?_⟩
      · rw [List.foldlM_cons, hfr]; exact h1
      · intro out
        rw [h3 out, List.map_cons, List.sum_cons, ← add_assoc]
        congr 1
        simp only [NdArray.addAt]
        have hiff : (∃ j, InCell p |d i| j ∧ out = idx.set k j) ↔
            out = idx.set k (binOf p |d i|) := by
          constructor
          · rintro ⟨j, hj, rfl⟩
            rw [inCell_unique hp hj hcell]
          · intro h
            exact ⟨_, hcell, h⟩
        by_cases ho : out = idx.set k (binOf p |d i|)
        · rw [if_pos ho, if_pos (hiff.2 ho)]
        · rw [if_neg ho, if_neg (fun h => ho (hiff.1 h)), add_zero]
    · have hx' : |d i| < p.low ∨ p.high ≤ |d i| := by
        by_contra hc
        rw [not_or, not_lt, not_le] at hc
        exact hx hc
      have hf := smear_fill_outside hs hc hk hi hx' 1
      have hfr : fillOrSkip acc (smearKw s.cfg k idx |d i|) = .ok acc := by
        unfold fillOrSkip; rw [hf]; rfl
      obtain ⟨e, h1, h2, h3⟩ := ih acc hc hsh
      refine ⟨e, ?_, h2, ?_⟩
      · rw [List.foldlM_cons, hfr]; exact h1
      · intro out
        rw [h3 out, List.map_cons, List.sum_cons, if_neg, zero_add]
        rintro ⟨j, hj, -⟩
        apply hx
        exact inCell_range hp hj

open Classical in
/-- **C34, cell by cell.** After a random smearing each cell holds the number of events of the
cells that differ only along the smeared axis whose drawn value (its absolute value) falls
into the cell's bin; each cell contributes as many events as the whole part of its contents. -/
theorem c34_counts (s : Spectrum) (hs : s.WF) (k : ℕ) (p : SPar) (hk : s.cfg[k]? = some p)
    (suffix : PyStr) (draws : List ℕ → ℕ → ℚ) :
    ∃ t, s.randomSmear suffix draws p.name = .ok t ∧ SameButNameData s t ∧
      t.name = s.name ++ suffix ∧ t.data.shape = s.data.shape ∧
      ∀ out j, InB s.data.shape out → out[k]? = some j → t.data.get out =
        ∑ i ∈ range p.bins.toNat,
          (((range (pyInt (s.data.get (out.set k i))).toNat).filter
            (fun q => InCell p |draws (out.set k i) q| j)).card : ℚ) := by
  obtain ⟨hm, hp, hg, hidx, hsh⟩ := axis_facts hs hk
  have hshape : s.cfg.map (fun p => p.bins.toNat) = s.data.shape := by
    have := congrArg (List.map Int.toNat) hs.shape
    simp only [List.map_map] at this
    rw [show (Int.toNat ∘ SPar.bins) = fun p : SPar => p.bins.toNat from rfl] at this
    rw [← this]
    simp [Function.comp_def]
  unfold Spectrum.randomSmear
  simp only [bind, Except.bind, throw, throwThe, MonadExceptOf.throw, hidx]
  rw [if_neg, if_neg, hshape]
  · obtain ⟨d, h1, h2, h3⟩ := cells_loop (s := s) (L := allIdx s.data.shape)
      (step := fun acc idx => (List.range (pyInt (s.data.get idx)).toNat).foldlM (fun acc i =>
        fillOrSkip acc (smearKw s.cfg k idx |draws idx i|)) acc)
      (acc := { s with name := s.name ++ suffix, data := .zeros s.data.shape })
      (f := fun idx out => ((List.range (pyInt (s.data.get idx)).toNat).map (fun i =>
        if ∃ j, InCell p |draws idx i| j ∧ out = idx.set k j then (1 : ℚ) else 0)).sum)
      rfl rfl (by
        intro idx hidx acc hc hsh'
        rw [mem_allIdx] at hidx
        exact random_inner hs hk hidx _ _ _ hc hsh')
    refine ⟨_, h1, ⟨rfl, rfl, rfl, rfl⟩, rfl, h2, ?_⟩
    intro out j ho hoj
    simp only at h3 ⊢
    rw [h3 out, sum_allIdx]
    simp only [NdArray.zeros, zero_add]
    rw [← sumIdx_along hsh ho (fun idx => ((((range (pyInt (s.data.get idx)).toNat).filter
            (fun q => InCell p |draws idx q| j)).card : ℕ) : ℚ))]
    refine sumIdx_congr fun idx hidx => ?_
    have hkl : k < idx.length := by
      rw [hidx.length_eq]; exact (List.getElem?_eq_some_iff.1 hsh).1
    simp only [eq_set_iff hoj hkl]
    rw [sum_map_range]
    by_cases hcond : out.set k (idx.getD k 0) = idx
    · simp only [hcond, true_and, if_true, exists_eq_right]
      rw [Finset.sum_boole]
    · simp only [hcond, false_and, and_false, exists_false, if_false]
      simp
  · simp only [List.any_eq_true, decide_eq_true_eq, not_exists, not_and]
    intro q hq
    have := (hs.axes q hq).1
    omega
  · rw [not_not]; exact List.mem_map.2 ⟨p, hm, rfl⟩

open Classical in
theorem card_inCell {p : SPar} (hp : p.WF) (N : ℕ) (d : ℕ → ℚ) :
    ∑ j ∈ range p.bins.toNat, (((range N).filter (fun q => InCell p (d q) j)).card : ℚ) =
      ((range N).filter (fun q => p.low ≤ d q ∧ d q < p.high)).card := by
  simp only [← Finset.sum_boole]
  rw [Finset.sum_comm]
  refine Finset.sum_congr rfl fun q _ => ?_
  by_cases h : p.low ≤ d q ∧ d q < p.high
  · rw [if_pos h, Finset.sum_eq_single (binOf p (d q))]
    · rw [if_pos (binOf_inCell hp h.1 h.2)]
    · intro j _ hne
      rw [if_neg]
      intro hc
      exact hne (inCell_unique hp hc (binOf_inCell hp h.1 h.2))
    · intro hne
      have := (binOf_inCell hp h.1 h.2).1
      exact absurd (Finset.mem_range.2 (by omega)) hne
  · rw [if_neg h]
    apply Finset.sum_eq_zero
    intro j _
    rw [if_neg]
    intro hc
    exact h (inCell_range hp hc)

open Classical in
/-- **C34.** For every outcome of the draws: along the smeared axis, the events of each slice of
the other axes are exactly those drawn in range; so the total is at most the sum of the
whole parts of the cells, with equality when every drawn value is in range. -/
theorem c34_total (s : Spectrum) (hs : s.WF) (k : ℕ) (p : SPar) (hk : s.cfg[k]? = some p)
    (suffix : PyStr) (draws : List ℕ → ℕ → ℚ) :
    ∃ t, s.randomSmear suffix draws p.name = .ok t ∧
      (∀ idx, InB s.data.shape idx → ∑ j ∈ range p.bins.toNat, t.data.get (idx.set k j) =
        ∑ i ∈ range p.bins.toNat, (((range (pyInt (s.data.get (idx.set k i))).toNat).filter
          (fun q => p.low ≤ |draws (idx.set k i) q| ∧ |draws (idx.set k i) q| < p.high)).card : ℚ)) ∧
      t.sum ≤ sumIdx s.data.shape (fun idx => ((pyInt (s.data.get idx)).toNat : ℚ)) ∧
      ((∀ idx q, InB s.data.shape idx → q < (pyInt (s.data.get idx)).toNat →
          p.low ≤ |draws idx q| ∧ |draws idx q| < p.high) →
        t.sum = sumIdx s.data.shape (fun idx => ((pyInt (s.data.get idx)).toNat : ℚ))) := by
  obtain ⟨-, hp, -, -, hsh⟩ := axis_facts hs hk
  have hb := hp.1
  obtain ⟨t, h1, -, -, h4, h5⟩ := c34_counts s hs k p hk suffix draws
  have hslice : ∀ idx, InB s.data.shape idx → ∑ j ∈ range p.bins.toNat, t.data.get (idx.set k j) =
        ∑ i ∈ range p.bins.toNat, (((range (pyInt (s.data.get (idx.set k i))).toNat).filter
          (fun q => p.low ≤ |draws (idx.set k i) q| ∧ |draws (idx.set k i) q| < p.high)).card : ℚ) := by
    intro idx hidx
    have hkl : k < idx.length := by
      rw [hidx.length_eq]; exact (List.getElem?_eq_some_iff.1 hsh).1
    have e1 : ∀ j ∈ range p.bins.toNat, t.data.get (idx.set k j) =
        ∑ i ∈ range p.bins.toNat, (((range (pyInt (s.data.get (idx.set k i))).toNat).filter
            (fun q => InCell p |draws (idx.set k i) q| j)).card : ℚ) := by
      intro j hj
      rw [h5 (idx.set k j) j (inB_set hidx hsh (Finset.mem_range.1 hj)) (by simp [hkl])]
      simp only [List.set_set]
    rw [Finset.sum_congr rfl e1, Finset.sum_comm]
    exact Finset.sum_congr rfl fun i _ => card_inCell hp _ _
  have htot : t.sum = sumIdx s.data.shape (fun idx =>
      (((range (pyInt (s.data.get idx)).toNat).filter
        (fun q => p.low ≤ |draws idx q| ∧ |draws idx q| < p.high)).card : ℚ)) := by
    have hsht : t.data.shape[k]? = some p.bins.toNat := by rw [h4]; exact hsh
    unfold Spectrum.sum NdArray.sum
    rw [← sumIdx_eraseIdx hsh, ← sumIdx_eraseIdx hsht, h4]
    refine sumIdx_congr fun rest hr => ?_
    have hrl := length_of_erase hsh hr
    have := hslice (rest.insertIdx k 0) (inB_insertIdx hsh hr (by omega))
    simpa only [insertIdx_set hrl] using this
  refine ⟨t, h1, hslice, ?_, ?_⟩
  · rw [htot]
    refine sumIdx_le fun idx _ => ?_
    have := Finset.card_filter_le (range (pyInt (s.data.get idx)).toNat)
      (fun q => p.low ≤ |draws idx q| ∧ |draws idx q| < p.high)
    rw [Finset.card_range] at this
    exact_mod_cast this
  · intro hall
    rw [htot]
    refine sumIdx_congr fun idx hidx => ?_
    rw [Finset.filter_true_of_mem, Finset.card_range]
    intro q hq
    exact hall idx q hidx (Finset.mem_range.1 hq)

/-- **C34, radius.** The random smearing of the radius class, which does not convert the number
of entries to an integer, raises a `TypeError` for every spectrum that is not empty and
returns an empty spectrum for an empty one: it never smears anything. -/
theorem c34_radial_raises (s : Spectrum) (hs : s.WF) (p : SPar) (hp : p ∈ s.cfg)
    (suffix : PyStr) :
    ((∃ idx, InB s.data.shape idx ∧ s.data.get idx ≠ 0) →
      s.randomSmearRadial suffix p.name = .error .typeError) ∧
    ∀ t, s.randomSmearRadial suffix p.name = .ok t → t.sum = 0 ∧ s.sum = 0 := by
  have hshape : s.cfg.map (fun p => p.bins.toNat) = s.data.shape := by
    have := congrArg (List.map Int.toNat) hs.shape
    simp only [List.map_map] at this
    rw [show (Int.toNat ∘ SPar.bins) = fun p : SPar => p.bins.toNat from rfl] at this
    rw [← this]
    simp [Function.comp_def]
  have key : ∀ (L : List (List ℕ)) (acc : Spectrum),
      L.foldlM (fun acc idx => if s.data.get idx = 0 then Except.ok acc else
        Except.error PyErr.typeError) acc =
      if ∀ idx ∈ L, s.data.get idx = 0 then Except.ok acc else .error .typeError := by
    intro L
    induction L with
    | nil => intro acc; simp; rfl
    | cons a L ih =>
      intro acc
      rw [List.foldlM_cons]
      by_cases h : s.data.get a = 0
      · rw [if_pos h]
        change List.foldlM _ acc L = _
        rw [ih]
        simp [h]
      · rw [if_neg h, if_neg]
        · rfl
        · intro hc
          exact h (hc a (by simp))
  have hun : s.randomSmearRadial suffix p.name =
      if ∀ idx ∈ allIdx s.data.shape, s.data.get idx = 0 then
        .ok { s with name := s.name ++ suffix, data := .zeros s.data.shape }
      else .error .typeError := by
    unfold Spectrum.randomSmearRadial
    simp only [bind, Except.bind, throw, throwThe, MonadExceptOf.throw]
    rw [if_neg, if_neg, hshape, key]
    · simp only [List.any_eq_true, decide_eq_true_eq, not_exists, not_and]
      intro q hq
      have := (hs.axes q hq).1
      omega
    · rw [not_not]; exact List.mem_map.2 ⟨p, hp, rfl⟩
  constructor
  · rintro ⟨idx, hi, hne⟩
    rw [hun, if_neg]
    intro hc
    exact hne (hc idx (mem_allIdx.2 hi))
  · intro t ht
    rw [hun] at ht
    split at ht
    · rename_i hz
      injection ht with ht
      subst ht
      constructor
      · simp [Spectrum.sum, NdArray.sum, NdArray.zeros]
      · unfold Spectrum.sum NdArray.sum
        rw [sumIdx_congr (g := fun _ => 0) fun idx hi => hz idx (mem_allIdx.2 hi), sumIdx_zero]
    · exact absurd ht (by simp)

/-- The hypotheses of C34 are met by the two-dimensional example, with some draws in range and
some not. -/
example : Ex.spec.WF ∧ Ex.spec.cfg[0]? = some Ex.energy ∧ 0 < (pyInt (Ex.spec.data.get [3, 1])).toNat ∧
    (Ex.energy.low ≤ |(-2 : ℚ)| ∧ |(-2 : ℚ)| < Ex.energy.high) ∧ ¬ |(7 : ℚ)| < Ex.energy.high ∧
    (∃ idx, InB Ex.spec.data.shape idx ∧ Ex.spec.data.get idx ≠ 0) := by
  refine ⟨Ex.spec_wf, rfl, ?_, ?_, ?_, [0, 0], ?_, ?_⟩
  · norm_num [Ex.spec, pyInt]
  · norm_num [Ex.energy]
  · norm_num [Ex.energy]
  · simp [Ex.spec, InB]
  · norm_num [Ex.spec]

end Verif
