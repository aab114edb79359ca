import Verif.Props.Plot
import Verif.Props.Project

/-! # C104, C105: plots of two dimensions -/

namespace Verif

/-! ## C104: ROOT -/

/-- Same bins and ranges. -/
def TH2.SameAxes (h h' : TH2) : Prop :=
  h'.xBins = h.xBins ∧ h'.xLow = h.xLow ∧ h'.xHigh = h.xHigh ∧ h'.yBins = h.yBins ∧
  h'.yLow = h.yLow ∧ h'.yHigh = h.yHigh

theorem TH2.SameAxes.trans {a b c : TH2} (h : a.SameAxes b) (h' : b.SameAxes c) :
    a.SameAxes c := by
  obtain ⟨h1, h2, h3, h4, h5, h6⟩ := h
  obtain ⟨g1, g2, g3, g4, g5, g6⟩ := h'
  exact ⟨g1.trans h1, g2.trans h2, g3.trans h3, g4.trans h4, g5.trans h5, g6.trans h6⟩

theorem TH2.setBinContent_axes (h : TH2) (i j : ℕ) (v : ℚ) :
    h.SameAxes (h.setBinContent i j v) := by
  unfold TH2.setBinContent
  split <;> exact ⟨rfl, rfl, rfl, rfl, rfl, rfl⟩

theorem TH2.setBinContent_content (h : TH2) (i j : ℕ) (v : ℚ) (a b : ℕ) :
    (h.setBinContent i j v).content a b =
      if i ≤ h.xBins + 1 ∧ j ≤ h.yBins + 1 ∧ a = i ∧ b = j then v else h.content a b := by
  unfold TH2.setBinContent
  by_cases c : i ≤ h.xBins + 1 ∧ j ≤ h.yBins + 1
  · rw [if_pos c]
    dsimp only
    by_cases c' : a = i ∧ b = j
    · rw [if_pos c', if_pos ⟨c.1, c.2, c'⟩]
    · rw [if_neg c', if_neg (fun h => c' h.2.2)]
  · rw [if_neg c, if_neg (fun h => c ⟨h.1, h.2.1⟩)]

theorem fillRow_spec (f : ℕ → ℚ) (r m : ℕ) (h : TH2) :
    let h' := (List.range m).foldl (fun h j => h.setBinContent (r + 1) (j + 1) (f j)) h
    h.SameAxes h' ∧ ∀ a b, h'.content a b =
      if a = r + 1 ∧ 1 ≤ b ∧ b ≤ m ∧ a ≤ h.xBins + 1 ∧ b ≤ h.yBins + 1 then f (b - 1)
      else h.content a b := by
  induction m with
  | zero =>
    refine ⟨⟨rfl, rfl, rfl, rfl, rfl, rfl⟩, fun a b => ?_⟩
    rw [if_neg (by omega)]
    rfl
  | succ m ih =>
    intro h'
    obtain ⟨i1, i2⟩ := ih
    have e : h' = ((List.range m).foldl (fun h j => h.setBinContent (r + 1) (j + 1) (f j))
        h).setBinContent (r + 1) (m + 1) (f m) := by
      change List.foldl _ _ _ = _
      rw [List.range_succ, List.foldl_append]
      rfl
    refine ⟨by rw [e]; exact i1.trans (TH2.setBinContent_axes _ _ _ _), fun a b => ?_⟩
    rw [e, TH2.setBinContent_content, i1.1, i1.2.2.2.1, i2]
    by_cases c : r + 1 ≤ h.xBins + 1 ∧ m + 1 ≤ h.yBins + 1 ∧ a = r + 1 ∧ b = m + 1
    · rw [if_pos c, if_pos (by omega)]
      congr 1
      omega
    · rw [if_neg c]
      by_cases c'' : a = r + 1 ∧ 1 ≤ b ∧ b ≤ m ∧ a ≤ h.xBins + 1 ∧ b ≤ h.yBins + 1
      · rw [if_pos c'', if_pos (by omega)]
      · rw [if_neg c'', if_neg (by omega)]

theorem fillRows_spec (f : ℕ → ℕ → ℚ) (n m : ℕ) (h : TH2) :
    let h' := (List.range n).foldl (fun h i =>
      (List.range m).foldl (fun h j => h.setBinContent (i + 1) (j + 1) (f i j)) h) h
    h.SameAxes h' ∧ ∀ a b, h'.content a b =
      if 1 ≤ a ∧ a ≤ n ∧ 1 ≤ b ∧ b ≤ m ∧ a ≤ h.xBins + 1 ∧ b ≤ h.yBins + 1 then f (a - 1) (b - 1)
      else h.content a b := by
  induction n with
  | zero =>
    refine ⟨⟨rfl, rfl, rfl, rfl, rfl, rfl⟩, fun a b => ?_⟩
    rw [if_neg (by omega)]
    rfl
  | succ n ih =>
    intro h'
    obtain ⟨i1, i2⟩ := ih
    obtain ⟨j1, j2⟩ := fillRow_spec (f n) n m ((List.range n).foldl (fun h i =>
      (List.range m).foldl (fun h j => h.setBinContent (i + 1) (j + 1) (f i j)) h) h)
    have e : h' = (List.range m).foldl (fun h j => h.setBinContent (n + 1) (j + 1) (f n j))
        ((List.range n).foldl (fun h i =>
          (List.range m).foldl (fun h j => h.setBinContent (i + 1) (j + 1) (f i j)) h) h) := by
      change List.foldl _ _ _ = _
      rw [List.range_succ, List.foldl_append]
      rfl
    rw [← e] at j1 j2
    refine ⟨i1.trans j1, fun a b => ?_⟩
    rw [j2, i2, i1.1, i1.2.2.2.1]
    by_cases c : a = n + 1 ∧ 1 ≤ b ∧ b ≤ m ∧ a ≤ h.xBins + 1 ∧ b ≤ h.yBins + 1
    · rw [if_pos c, if_pos (by omega)]
      congr 1
      omega
    · rw [if_neg c]
      by_cases c' : 1 ≤ a ∧ a ≤ n ∧ 1 ≤ b ∧ b ≤ m ∧ a ≤ h.xBins + 1 ∧ b ≤ h.yBins + 1
      · rw [if_pos c', if_pos (by omega)]
      · rw [if_neg c', if_neg (by omega)]

theorem rootFindBin_inCell {p : SPar} (hw : p.WF) {x : ℚ} {i : ℕ} (hx : InCell p x i) :
    rootFindBin p.bins.toNat p.low p.high x = i + 1 := by
  have hpos := hw.width_pos
  have hn := toNat_bins hw
  obtain ⟨x1, x2⟩ := inCell_range hw hx
  obtain ⟨c1, c2⟩ := floor_inCell hw x1 x2
  have hfl := inCell_unique hw c2 hx
  unfold rootFindBin
  rw [if_neg (not_lt.2 x1), if_neg (not_not.2 x2)]
  have hd : ((p.bins.toNat : ℕ) : ℚ) * (x - p.low) / (p.high - p.low) =
      (x - p.low) / p.width := by
    have h1 : ((p.bins.toNat : ℕ) : ℚ) = p.bins := by
      exact_mod_cast congrArg (Int.cast : ℤ → ℚ) hn
    have h2 := hw.bins_mul_width
    have h3 : (p.high - p.low) ≠ 0 := by have := hw.2; linarith
    rw [h1, div_eq_div_iff h3 hpos.ne', ← h2]
    ring
  rw [hd, pyInt_of_nonneg (div_nonneg (by linarith) hpos.le)]
  omega

/-- What `rootSurface` does with an array of the shape of the two axes in configuration order. -/
theorem rootSurface_run {s : Spectrum} (hs : s.WF) (hl : s.cfg.length ≤ 3) {p1 p2 : SPar}
    (h1 : p1 ∈ s.cfg) (h2 : p2 ∈ s.cfg) (hne : p1.name ≠ p2.name) :
    ∃ (b : NdArray ℚ) (n m : ℕ) (h : TH2), IsProjection s [p1.name, p2.name] b ∧
      b.shape = [n, m] ∧ rootSurface s p1.name p2.name = .ok h ∧
      h.xBins = p1.bins.toNat ∧ h.xLow = p1.low ∧ h.xHigh = p1.high ∧
      h.yBins = p2.bins.toNat ∧ h.yLow = p2.low ∧ h.yHigh = p2.high ∧
      ∀ a c, h.content a c =
        if 1 ≤ a ∧ a ≤ n ∧ 1 ≤ c ∧ c ≤ m ∧ a ≤ p1.bins.toNat + 1 ∧ c ≤ p2.bins.toNat + 1
        then b.get [a - 1, c - 1] else 0 := by
  obtain ⟨b, hb, hproj, -⟩ := c12_surface_partial s hs hl p1.name p2.name hne ⟨p1, h1, rfl⟩
    ⟨p2, h2, rfl⟩
  obtain ⟨k1, n1, e1⟩ := exists_index h1
  obtain ⟨k2, n2, e2⟩ := exists_index h2
  have hk : k1 ≠ k2 := by
    rintro rfl
    rw [n1] at n2
    exact hne (Option.some.inj n2)
  obtain ⟨n, m, hshape⟩ : ∃ n m, b.shape = [n, m] := by
    rcases lt_or_gt_of_ne hk with h | h
    · exact ⟨_, _, surface_shape hs e1 e2 h (Or.inl hproj)⟩
    · exact ⟨_, _, surface_shape hs e2 e1 h (Or.inr hproj)⟩
  obtain ⟨⟨r1, r2, r3, r4, r5, r6⟩, r7⟩ := fillRows_spec (fun i j => b.get [i, j]) n m
    ⟨p1.bins.toNat, p1.low, p1.high, p2.bins.toNat, p2.low, p2.high, fun _ _ => 0⟩
  refine ⟨b, n, m, _, hproj, hshape, ?_, r1, r2, r3, r4, r5, r6, r7⟩
  unfold rootSurface
  rw [getPar_of_mem hs h1, getPar_of_mem hs h2, hb]
  simp only [bind, Except.bind]
  unfold fillSurface
  rw [hshape]

/-- **C104, partial.** When the first dimension comes before the second one in the configuration of
the spectrum, the histogram has the bins and limits of the first dimension on its x axis and those of
the second one on its y axis, and the cell that ROOT finds for a pair of values holds the contents of the spectrum in
the bins of these values. Missing: the other order, for which the claim is false, and spectra with
more than three dimensions, for which `surface` fails. -/
theorem c104_root_surface_partial (s : Spectrum) (hs : s.WF) (hl : s.cfg.length ≤ 3)
    (pre mid post : List SPar) (p1 p2 : SPar) (hc : s.cfg = pre ++ p1 :: mid ++ p2 :: post) :
    ∃ h, rootSurface s p1.name p2.name = .ok h ∧ (h.xBins : ℤ) = p1.bins ∧
      h.xLow = p1.low ∧ h.xHigh = p1.high ∧ (h.yBins : ℤ) = p2.bins ∧ h.yLow = p2.low ∧
      h.yHigh = p2.high ∧
      ∀ x i y j, InCell p1 x i → InCell p2 y j →
      h.content (rootFindBin h.xBins h.xLow h.xHigh x) (rootFindBin h.yBins h.yLow h.yHigh y) =
        contentsAt s [(p1.name, i), (p2.name, j)] := by
  have h1 : p1 ∈ s.cfg := by simp [hc]
  have h2 : p2 ∈ s.cfg := by simp [hc]
  have e1 : s.cfg[pre.length]? = some p1 := by
    rw [hc, List.append_assoc, List.getElem?_append_right (by omega)]; simp
  have e2 : s.cfg[(pre ++ p1 :: mid).length]? = some p2 := by
    rw [hc, List.getElem?_append_right (by omega)]; simp
  have n1 : (s.cfg.map SPar.name)[pre.length]? = some p1.name := by
    rw [List.getElem?_map, e1]; rfl
  have n2 : (s.cfg.map SPar.name)[(pre ++ p1 :: mid).length]? = some p2.name := by
    rw [List.getElem?_map, e2]; rfl
  have hk : pre.length < (pre ++ p1 :: mid).length := by simp
  have hne : p1.name ≠ p2.name := by
    intro h
    obtain ⟨a1, a2⟩ := List.getElem?_eq_some_iff.1 n1
    obtain ⟨b1, b2⟩ := List.getElem?_eq_some_iff.1 n2
    have := (hs.names.getElem_inj_iff (hi := a1) (hj := b1)).1 (a2.trans (h.trans b2.symm))
    omega
  obtain ⟨b, n, m, h, hproj, hshape, hok, r1, r2, r3, r4, r5, r6, r7⟩ :=
    rootSurface_run hs hl h1 h2 hne
  refine ⟨h, hok, by rw [r1]; exact toNat_bins (hs.axes p1 h1), r2, r3,
    by rw [r4]; exact toNat_bins (hs.axes p2 h2), r5, r6, fun x i y j hx hy => ?_⟩
  have hs' := surface_shape hs e1 e2 hk (Or.inl hproj)
  rw [hshape] at hs'
  simp only [List.cons.injEq, and_true] at hs'
  obtain ⟨hn, hm⟩ := hs'
  have w1 := hs.axes p1 h1
  have w2 := hs.axes p2 h2
  have t1 := toNat_bins w1
  have t2 := toNat_bins w2
  have x1 := hx.1
  have y1 := hy.1
  rw [r1, r2, r3, r4, r5, r6, rootFindBin_inCell w1 hx, rootFindBin_inCell w2 hy, r7,
    if_pos (by omega)]
  exact surface_contents hs n1 n2 hk (Or.inl hproj) (by rw [hshape]; simp; omega)

example : Ex.spec.WF ∧ Ex.spec.cfg.length ≤ 3 ∧
    Ex.spec.cfg = [] ++ Ex.energy :: [] ++ Ex.radial :: [] :=
  ⟨Ex.spec_wf, by simp [Ex.spec], rfl⟩

/-- **C104, the other order.** When the first dimension comes after the second one, the histogram is
transposed: the cell at bin `a` of the first dimension and bin `c` of the second one holds the
contents for bin `c` of the first and bin `a` of the second dimension. -/
theorem c104_root_surface_transposed (s : Spectrum) (hs : s.WF) (hl : s.cfg.length ≤ 3)
    (pre mid post : List SPar) (p1 p2 : SPar) (hc : s.cfg = pre ++ p2 :: mid ++ p1 :: post) :
    ∃ h, rootSurface s p1.name p2.name = .ok h ∧ (h.xBins : ℤ) = p1.bins ∧
      h.xLow = p1.low ∧ h.xHigh = p1.high ∧ (h.yBins : ℤ) = p2.bins ∧ h.yLow = p2.low ∧
      h.yHigh = p2.high ∧
      ∀ a c : ℕ, a < p1.bins.toNat →
      c < p2.bins.toNat → h.content (a + 1) (c + 1) =
        if a < p2.bins.toNat ∧ c < p1.bins.toNat then contentsAt s [(p1.name, c), (p2.name, a)]
        else 0 := by
  have h1 : p1 ∈ s.cfg := by simp [hc]
  have h2 : p2 ∈ s.cfg := by simp [hc]
  have e2 : s.cfg[pre.length]? = some p2 := by
    rw [hc, List.append_assoc, List.getElem?_append_right (by omega)]; simp
  have e1 : s.cfg[(pre ++ p2 :: mid).length]? = some p1 := by
    rw [hc, List.getElem?_append_right (by omega)]; simp
  have n2 : (s.cfg.map SPar.name)[pre.length]? = some p2.name := by
    rw [List.getElem?_map, e2]; rfl
  have n1 : (s.cfg.map SPar.name)[(pre ++ p2 :: mid).length]? = some p1.name := by
    rw [List.getElem?_map, e1]; rfl
  have hk : pre.length < (pre ++ p2 :: mid).length := by simp
  have hne : p1.name ≠ p2.name := by
    intro h
    obtain ⟨a1, a2⟩ := List.getElem?_eq_some_iff.1 n1
    obtain ⟨b1, b2⟩ := List.getElem?_eq_some_iff.1 n2
    have := (hs.names.getElem_inj_iff (hi := a1) (hj := b1)).1 (a2.trans (h.trans b2.symm))
    omega
  obtain ⟨b, n, m, h, hproj, hshape, hok, r1, r2, r3, r4, r5, r6, r7⟩ :=
    rootSurface_run hs hl h1 h2 hne
  refine ⟨h, hok, by rw [r1]; exact toNat_bins (hs.axes p1 h1), r2, r3,
    by rw [r4]; exact toNat_bins (hs.axes p2 h2), r5, r6, fun a c ha hc' => ?_⟩
  have hs' := surface_shape hs e2 e1 hk (Or.inr hproj)
  rw [hshape] at hs'
  simp only [List.cons.injEq, and_true] at hs'
  obtain ⟨hn, hm⟩ := hs'
  rw [r7]
  by_cases c' : a < p2.bins.toNat ∧ c < p1.bins.toNat
  · rw [if_pos c', if_pos (by omega)]
    have := surface_contents hs n2 n1 hk (Or.inr hproj) (i := a) (j := c)
      (by rw [hshape]; simp; omega)
    simp only [Nat.add_sub_cancel]
    rw [this]
    unfold contentsAt
    refine sumIdx_congr fun full _ => ?_
    simp only [List.mem_cons, List.not_mem_nil, or_false, forall_eq_or_imp, forall_eq]
    congr 1
    rw [and_comm]
  · rw [if_neg c', if_neg (by omega)]

/-- **C104, negation.** -/
theorem c104_root_surface_negation :
    ¬ ∀ (s : Spectrum) (p1 p2 : SPar), s.WF → s.cfg.length ≤ 3 → p1 ∈ s.cfg → p2 ∈ s.cfg →
      p1.name ≠ p2.name →
      ∃ h, rootSurface s p1.name p2.name = .ok h ∧ ∀ x i y j, InCell p1 x i → InCell p2 y j →
        h.content (rootFindBin h.xBins h.xLow h.xHigh x) (rootFindBin h.yBins h.yLow h.yHigh y) =
          contentsAt s [(p1.name, i), (p2.name, j)] := by
  intro h
  obtain ⟨h, h1, h2⟩ := h Ex.spec Ex.radial Ex.energy Ex.spec_wf (by simp [Ex.spec])
    (by simp [Ex.spec]) (by simp [Ex.spec]) (by simp [Ex.radial, Ex.energy])
  have h3 := h2 0 0 1 2 (by norm_num [InCell, Ex.radial, SPar.edge])
    (by norm_num [InCell, Ex.energy, SPar.edge])
  have key : (match rootSurface Ex.spec Ex.radial.name Ex.energy.name with
      | .ok h => decide (h.content (rootFindBin h.xBins h.xLow h.xHigh 0)
          (rootFindBin h.yBins h.yLow h.yHigh 1) =
        contentsAt Ex.spec [(Ex.radial.name, 0), (Ex.energy.name, 2)])
      | .error _ => true) = false := by decide +kernel
  rw [h1] at key
  simp only [decide_eq_false_iff_not] at key
  exact key h3

/-! ## C105: matplotlib -/

/-- **C105.** Of two dimensions of a spectrum, one becomes the x axis and the other one the y axis;
the points on the axes are the bin centres, and the colour for a pair of points is the contents of
the spectrum in the bins of these points. -/
theorem c105_surface_mesh (s : Spectrum) (hs : s.WF) (hl : s.cfg.length ≤ 3) (p1 p2 : SPar)
    (h1 : p1 ∈ s.cfg) (h2 : p2 ∈ s.cfg) (hne : p1.name ≠ p2.name) :
    ∃ m px py, plotSurface s p1.name p2.name = .ok m ∧
      ((px = p1 ∧ py = p2) ∨ (px = p2 ∧ py = p1)) ∧ m.xDim = px.name ∧ m.yDim = py.name ∧
      m.x = (List.range px.bins.toNat).map px.centre ∧
      m.y = (List.range py.bins.toNat).map py.centre ∧
      m.data.shape = [m.y.length, m.x.length] ∧
      ∀ i j, i < m.y.length → j < m.x.length →
        m.data.get [i, j] = contentsAt s [(m.yDim, i), (m.xDim, j)] := by
  obtain ⟨b, hb, hproj, -⟩ := c12_surface_partial s hs hl p1.name p2.name hne ⟨p1, h1, rfl⟩
    ⟨p2, h2, rfl⟩
  obtain ⟨k1, n1, e1⟩ := exists_index h1
  obtain ⟨k2, n2, e2⟩ := exists_index h2
  have hk : k1 ≠ k2 := by
    rintro rfl
    rw [n1] at n2
    exact hne (Option.some.inj n2)
  rcases lt_or_gt_of_ne hk with h | h
  · refine ⟨⟨p2.name, p1.name, _, _, b⟩, p2, p1, ?_, Or.inr ⟨rfl, rfl⟩, rfl, rfl, rfl, rfl, ?_, ?_⟩
    · unfold plotSurface
      simp only [getIndex_ok hs.names n1, getIndex_ok hs.names n2, bind, Except.bind, if_pos h,
        produceAxis_ok hs h1, produceAxis_ok hs h2, hb]
    · simpa using surface_shape hs e1 e2 h (Or.inl hproj)
    · intro i j hi hj
      simp only [List.length_map, List.length_range] at hi hj
      exact surface_contents hs n1 n2 h (Or.inl hproj)
        (by rw [surface_shape hs e1 e2 h (Or.inl hproj)]; simp; omega)
  · refine ⟨⟨p1.name, p2.name, _, _, b⟩, p1, p2, ?_, Or.inl ⟨rfl, rfl⟩, rfl, rfl, rfl, rfl, ?_, ?_⟩
    · unfold plotSurface
      simp only [getIndex_ok hs.names n1, getIndex_ok hs.names n2, bind, Except.bind,
        if_neg (not_lt.2 h.le), produceAxis_ok hs h1, produceAxis_ok hs h2, hb]
    · simpa using surface_shape hs e2 e1 h (Or.inr hproj)
    · intro i j hi hj
      simp only [List.length_map, List.length_range] at hi hj
      exact surface_contents hs n2 n1 h (Or.inr hproj)
        (by rw [surface_shape hs e2 e1 h (Or.inr hproj)]; simp; omega)

/-- **C105, partial.** The rectangles drawn: the one from the centre of a bin to the centre of the
next bin on both axes gets the contents of the spectrum in that bin, and there are no others.
Missing: the rectangles do not cover their bins, and the last bins are not drawn at all. -/
theorem c105_surface_quads_partial (s : Spectrum) (hs : s.WF) (hl : s.cfg.length ≤ 3)
    (p1 p2 : SPar) (h1 : p1 ∈ s.cfg) (h2 : p2 ∈ s.cfg) (hne : p1.name ≠ p2.name) :
    ∃ m px py qs, plotSurface s p1.name p2.name = .ok m ∧
      ((px = p1 ∧ py = p2) ∨ (px = p2 ∧ py = p1)) ∧ m.xDim = px.name ∧ m.yDim = py.name ∧
      m.quads = .ok qs ∧
      ∀ q, q ∈ qs ↔ ∃ i j : ℕ, i + 1 < py.bins.toNat ∧ j + 1 < px.bins.toNat ∧
        q = ⟨px.centre j, px.centre (j + 1), py.centre i, py.centre (i + 1),
          contentsAt s [(py.name, i), (px.name, j)]⟩ := by
  obtain ⟨m, px, py, hm, hxy, hx, hy, ex, ey, hsh, hd⟩ :=
    c105_surface_mesh s hs hl p1 p2 h1 h2 hne
  refine ⟨m, px, py, _, hm, hxy, hx, hy, by unfold Mesh.quads; rw [if_pos (Or.inl hsh)], fun q => ?_⟩
  have gx : ∀ j, j < px.bins.toNat → m.x.getD j 0 = px.centre j := by
    intro j hj
    rw [ex, List.getD_eq_getElem?_getD, List.getElem?_map, List.getElem?_range hj]
    rfl
  have gy : ∀ j, j < py.bins.toNat → m.y.getD j 0 = py.centre j := by
    intro j hj
    rw [ey, List.getD_eq_getElem?_getD, List.getElem?_map, List.getElem?_range hj]
    rfl
  have lx : m.x.length = px.bins.toNat := by rw [ex]; simp
  have ly : m.y.length = py.bins.toNat := by rw [ey]; simp
  simp only [List.mem_flatMap, List.mem_map, List.mem_range]
  constructor
  · rintro ⟨i, hi, j, hj, rfl⟩
    refine ⟨i, j, by omega, by omega, ?_⟩
    rw [gx j (by omega), gx (j + 1) (by omega), gy i (by omega), gy (i + 1) (by omega),
      hd i j (by omega) (by omega), hx, hy]
  · rintro ⟨i, j, hi, hj, rfl⟩
    refine ⟨i, by omega, j, by omega, ?_⟩
    rw [gx j (by omega), gx (j + 1) (by omega), gy i (by omega), gy (i + 1) (by omega),
      hd i j (by omega) (by omega), hx, hy]

/-- **C105, negation.** There are bins that are not drawn: no rectangle contains the upper half of
the last bins. -/
theorem c105_surface_quads_negation :
    ¬ ∀ (s : Spectrum) (p1 p2 : SPar), s.WF → s.cfg.length ≤ 3 → p1 ∈ s.cfg → p2 ∈ s.cfg →
      p1.name ≠ p2.name → ∃ m qs, plotSurface s p1.name p2.name = .ok m ∧ m.quads = .ok qs ∧
      ∀ x y i j, InCell p1 x i → InCell p2 y j → ∃ q ∈ qs,
        (m.xDim = p1.name → q.xLow ≤ x ∧ x ≤ q.xHigh ∧ q.yLow ≤ y ∧ y ≤ q.yHigh) ∧
        (m.xDim = p2.name → q.xLow ≤ y ∧ y ≤ q.xHigh ∧ q.yLow ≤ x ∧ x ≤ q.yHigh) := by
  intro h
  have hne : Ex.radial.name ≠ Ex.energy.name := by simp [Ex.radial, Ex.energy]
  have m1 : Ex.radial ∈ Ex.spec.cfg := by simp [Ex.spec]
  have m2 : Ex.energy ∈ Ex.spec.cfg := by simp [Ex.spec]
  obtain ⟨m, qs, h1, h2, h3⟩ := h Ex.spec Ex.radial Ex.energy Ex.spec_wf (by simp [Ex.spec])
    m1 m2 hne
  obtain ⟨m', px, py, qs', g1, g2, g3, g4, g5, g6⟩ := c105_surface_quads_partial Ex.spec Ex.spec_wf
    (by simp [Ex.spec]) Ex.radial Ex.energy m1 m2 hne
  rw [h1] at g1
  cases g1
  rw [h2] at g5
  cases g5
  obtain ⟨q, hq, q1, q2⟩ := h3 5900 (49 / 10) 3 9 (by norm_num [InCell, Ex.radial, SPar.edge])
    (by norm_num [InCell, Ex.energy, SPar.edge])
  obtain ⟨i, j, hi, hj, rfl⟩ := (g6 q).1 hq
  rcases g2 with ⟨rfl, rfl⟩ | ⟨rfl, rfl⟩
  · have := (q1 g3).2.1
    have hj' : j + 1 ≤ 3 := by norm_num [Ex.radial] at hj; omega
    have hj'' : ((j + 1 : ℕ) : ℚ) ≤ 3 := by exact_mod_cast hj'
    norm_num [SPar.centre, SPar.edge, Ex.radial] at this hj''
    linarith
  · have := (q2 g3).2.1
    have hj' : j + 1 ≤ 9 := by norm_num [Ex.energy] at hj; omega
    have hj'' : ((j + 1 : ℕ) : ℚ) ≤ 9 := by exact_mod_cast hj'
    norm_num [SPar.centre, SPar.edge, Ex.energy] at this hj''
    linarith

example : Ex.spec.WF ∧ Ex.spec.cfg.length ≤ 3 ∧ Ex.energy ∈ Ex.spec.cfg ∧
    Ex.radial ∈ Ex.spec.cfg ∧ Ex.energy.name ≠ Ex.radial.name :=
  ⟨Ex.spec_wf, by simp [Ex.spec], by simp [Ex.spec], by simp [Ex.spec],
    by simp [Ex.radial, Ex.energy]⟩

end Verif
