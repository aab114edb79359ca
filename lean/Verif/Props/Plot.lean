import Verif.Lemmas.Plot
import Verif.Spec.Examples

/-! # C101–C103: plots of projections -/

namespace Verif

/-! ## C101: one spectrum, drawn with matplotlib -/

/-- **C101, axis.** The points of the axis are the centres of the bins of the dimension, one for
each bin, and the boundaries are the edges of the bins, one more. -/
theorem c101_axis (s : Spectrum) (hs : s.WF) (p : SPar) (hp : p ∈ s.cfg) :
    ∃ x b, produceAxis s p.name = .ok x ∧ produceBins s p.name = .ok b ∧
      (x.length : ℤ) = p.bins ∧ b.length = x.length + 1 ∧
      ∀ i < x.length, b[i]? = some (p.edge i) ∧ b[i + 1]? = some (p.edge (i + 1)) ∧
        x[i]? = some ((p.edge i + p.edge (i + 1)) / 2) := by
  refine ⟨_, _, produceAxis_ok hs hp, produceBins_ok hs hp, ?_, by simp, ?_⟩
  · simpa using (hs.axes p hp).1.le
  · intro i hi
    simp only [List.length_map, List.length_range] at hi
    refine ⟨?_, ?_, ?_⟩
    · rw [List.getElem?_map, List.getElem?_range (by omega)]; rfl
    · rw [List.getElem?_map, List.getElem?_range (by omega)]; rfl
    · rw [List.getElem?_map, List.getElem?_range (by omega)]; rfl

/-- **C101.** The histogram drawn for a dimension has the bins of the dimension, the height of
each bin is the contents of the spectrum in that bin, and the heights add up to the sum of the
spectrum. -/
theorem c101_plot_projection (s : Spectrum) (hs : s.WF) (p : SPar) (hp : p ∈ s.cfg) :
    ∃ h, plotProjection s p.name = .ok h ∧
      h.Shows p (fun i => contentsAt s [(p.name, i)]) ∧ h.heights.sum = s.sum := by
  obtain ⟨b, hb, hshape, hsum, hravel, hget⟩ := project_ravel hs hp
  have hw := hs.axes p hp
  refine ⟨⟨(List.range (p.bins.toNat + 1)).map (fun i : ℕ => p.edge i),
    (List.range p.bins.toNat).map (fun i => contentsAt s [(p.name, i)])⟩, ?_, ⟨rfl, rfl⟩, ?_⟩
  · unfold plotProjection
    rw [getPar_of_mem hs hp, produceAxis_ok hs hp, produceBins_ok hs hp, hb]
    simp only [bind, Except.bind]
    rw [if_neg (by have := hw.1; omega)]
    simp only [hravel]
    exact mplHist_centres hw _
  · rw [list_sum_range_map, ← hsum]
    unfold NdArray.sum
    rw [hshape]
    simp only [sumIdx_cons, sumIdx_nil]
    exact Finset.sum_congr rfl fun i hi => (hget i (Finset.mem_range.1 hi)).symm

/-- **C101, unknown dimension.** Nothing is drawn. -/
theorem c101_unknown (s : Spectrum) (d : PyStr) (hd : ∀ p ∈ s.cfg, p.name ≠ d) :
    plotProjection s d = .error .keyError := by
  have : s.cfg.find? (fun q => decide (q.name = d)) = none := by
    rw [List.find?_eq_none]
    intro q hq
    simpa using hd q hq
  have h : s.getPar d = .error .keyError := by unfold Spectrum.getPar; rw [this]
  unfold plotProjection
  rw [h]
  rfl

example : Ex.spec.WF ∧ Ex.radial ∈ Ex.spec.cfg ∧
    plotProjection Ex.spec (lit "radial_mc") =
      .ok ⟨[0, 1500, 3000, 4500, 6000], [55, 75, 95, 115]⟩ :=
  ⟨Ex.spec_wf, by simp [Ex.spec], by decide +kernel⟩

/-! ## C103: one spectrum, drawn with ROOT -/

theorem setBinContent_frame (h : TH1) (k : ℕ) (v : ℚ) :
    (h.setBinContent k v).bins = h.bins ∧ (h.setBinContent k v).low = h.low ∧
    (h.setBinContent k v).high = h.high := by
  unfold TH1.setBinContent
  split <;> exact ⟨rfl, rfl, rfl⟩

theorem rootLoop (f : ℕ → ℚ) (n m : ℕ) (h : TH1) (hm : m + n ≤ h.bins) :
    let h' := (((List.range n).map (fun i => f (m + i))).zipIdx m).foldl
      (fun h e => h.setBinContent (e.2 + 1) e.1) h
    h'.bins = h.bins ∧ h'.low = h.low ∧ h'.high = h.high ∧
    ∀ k, h'.content k = if m + 1 ≤ k ∧ k ≤ m + n then f (k - 1) else h.content k := by
  induction n generalizing m h with
  | zero =>
    refine ⟨rfl, rfl, rfl, fun k => ?_⟩
    rw [if_neg (by omega)]
    rfl
  | succ n ih =>
    intro h'
    obtain ⟨f1, f2, f3⟩ := setBinContent_frame h (m + 1) (f m)
    have hrange : (List.range (n + 1)).map (fun i => f (m + i)) =
        f m :: (List.range n).map (fun i => f (m + 1 + i)) := by
      rw [List.range_succ_eq_map, List.map_cons, List.map_map]
      congr 1
      refine List.map_congr_left fun i _ => ?_
      simp only [Function.comp]
      congr 1
      omega
    have e : h' = (((List.range n).map (fun i => f (m + 1 + i))).zipIdx (m + 1)).foldl
        (fun h e => h.setBinContent (e.2 + 1) e.1) (h.setBinContent (m + 1) (f m)) := by
      change List.foldl _ _ _ = _
      rw [hrange, List.zipIdx_cons, List.foldl_cons]
    obtain ⟨i1, i2, i3, i4⟩ := ih (m + 1) (h.setBinContent (m + 1) (f m)) (by rw [f1]; omega)
    rw [← e] at i1 i2 i3 i4
    refine ⟨i1.trans f1, i2.trans f2, i3.trans f3, fun k => ?_⟩
    rw [i4 k]
    by_cases c : k = m + 1
    · subst c
      rw [if_neg (by omega), if_pos (by omega)]
      unfold TH1.setBinContent
      rw [if_pos (by omega)]
      simp
    · by_cases c' : m + 1 + 1 ≤ k ∧ k ≤ m + 1 + n
      · rw [if_pos c', if_pos (by omega)]
      · rw [if_neg c', if_neg (by omega)]
        unfold TH1.setBinContent
        rw [if_pos (by omega)]
        simp [c]

/-- **C103.** The histogram has the bins and the range of the dimension. The cell that ROOT finds
for a value holds the contents of the spectrum in the bin of that value; underflow and overflow
are empty, and the cells add up to the sum of the spectrum. -/
theorem c103_root_projection (s : Spectrum) (hs : s.WF) (p : SPar) (hp : p ∈ s.cfg) :
    ∃ h, rootProjection s p.name = .ok h ∧ (h.bins : ℤ) = p.bins ∧ h.low = p.low ∧
      h.high = p.high ∧
      (∀ x i, InCell p x i →
        h.content (rootFindBin h.bins h.low h.high x) = contentsAt s [(p.name, i)]) ∧
      h.content 0 = 0 ∧ h.content (h.bins + 1) = 0 ∧
      ∑ k ∈ Finset.range (h.bins + 2), h.content k = s.sum := by
  obtain ⟨b, hb, hshape, hsum, hravel, hget⟩ := project_ravel hs hp
  have hw := hs.axes p hp
  have hn := toNat_bins hw
  obtain ⟨r1, r2, r3, r4⟩ := rootLoop (fun i => contentsAt s [(p.name, i)]) p.bins.toNat 0
    ⟨p.bins.toNat, p.low, p.high, fun _ => 0⟩ (by simp)
  simp only [zero_add] at r1 r2 r3 r4
  have hok : rootProjection s p.name =
      .ok (((List.range p.bins.toNat).map (fun i => contentsAt s [(p.name, i)])).zipIdx.foldl
        (fun h e => h.setBinContent (e.2 + 1) e.1)
        ⟨p.bins.toNat, p.low, p.high, fun _ => 0⟩) := by
    unfold rootProjection
    rw [getPar_of_mem hs hp, hb]
    simp only [bind, Except.bind, hravel]
  refine ⟨_, hok, ?_, r2, r3, ?_, ?_, ?_, ?_⟩
  · rw [r1]; exact hn
  · intro x i hx
    have hpos := hw.width_pos
    obtain ⟨x1, x2⟩ := inCell_range hw hx
    obtain ⟨c1, c2⟩ := floor_inCell hw x1 x2
    have hfl := inCell_unique hw c2 hx
    rw [r1, r2, r3]
    have hbin : rootFindBin p.bins.toNat p.low p.high x = i + 1 := by
      unfold rootFindBin
      rw [if_neg (not_lt.2 x1), if_neg (not_not.2 x2)]
      have hd : ((p.bins.toNat : ℕ) : ℚ) * (x - p.low) / (p.high - p.low) =
          (x - p.low) / p.width := by
        have h1 : ((p.bins.toNat : ℕ) : ℚ) = p.bins := by
          exact_mod_cast congrArg (Int.cast : ℤ → ℚ) hn
        have h2 := hw.bins_mul_width
        have h3 : (p.high - p.low) ≠ 0 := by have := hw.2; linarith
        rw [h1, div_eq_div_iff h3 hpos.ne', ← h2]
        ring
      rw [hd, pyInt_of_nonneg (div_nonneg (by linarith) hpos.le)]
      omega
    rw [hbin, r4]
    have := hx.1
    rw [if_pos (by omega)]
    simp
  · rw [r4, if_neg (by omega)]
  · rw [r4, r1, if_neg (by simp)]
  · rw [r1, Finset.sum_range_succ, Finset.sum_range_succ', r4 0, if_neg (by omega),
      r4 (p.bins.toNat + 1), if_neg (by omega), add_zero, add_zero, ← hsum]
    unfold NdArray.sum
    rw [hshape]
    simp only [sumIdx_cons, sumIdx_nil]
    refine Finset.sum_congr rfl fun i hi => ?_
    rw [Finset.mem_range] at hi
    rw [r4, if_pos (by omega), hget i hi]
    simp

example : Ex.spec.WF ∧ Ex.energy ∈ Ex.spec.cfg ∧ InCell Ex.energy (5 / 4) 2 :=
  ⟨Ex.spec_wf, by simp [Ex.spec], by norm_num [InCell, Ex.energy, SPar.edge]⟩

end Verif
