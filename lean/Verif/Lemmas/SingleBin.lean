import Verif.Spec.SingleBin
import Verif.Lemmas.Outside
import Verif.Props.Rebin
import Mathlib.Algebra.BigOperators.Intervals

/-! Helper lemmas: numbers of events in a region. -/

namespace Verif

open Session

theorem sum_between (n a b : ℕ) (hb : b ≤ n) (g : ℕ → ℚ) :
    ∑ i ∈ Finset.range (b - a), g (a + i) =
      ∑ i ∈ Finset.range n, if a ≤ i ∧ i < b then g i else 0 := by
  rw [← Finset.sum_Ico_eq_sum_range, ← Finset.sum_filter]
  refine Finset.sum_congr (Finset.ext fun i => ?_) fun _ _ => rfl
  simp only [Finset.mem_Ico, Finset.mem_filter, Finset.mem_range]
  omega

open Classical in
theorem slice_total {rs : List (ℕ × ℕ)} {shape : List ℕ}
    (h : List.Forall₂ (fun (r : ℕ × ℕ) (n : ℕ) => r.2 ≤ n) rs shape) (f : List ℕ → ℚ) :
    sumIdx (rs.map (fun r => r.2 - r.1)) (fun idx => f (List.zipWith (fun r i => r.1 + i) rs idx)) =
      sumIdx shape (fun idx => if List.Forall₂ (fun (r : ℕ × ℕ) i => r.1 ≤ i ∧ i < r.2) rs idx
        then f idx else 0) := by
  induction h generalizing f with
  | nil => simp
  | @cons r n rs shape h1 _ ih =>
    simp only [List.map_cons, sumIdx_cons, List.zipWith_cons_cons, List.forall₂_cons]
    rw [Finset.sum_congr rfl fun i _ => ih fun idx => f ((r.1 + i) :: idx)]
    refine (sum_between n r.1 r.2 h1 fun x => sumIdx shape (fun idx =>
      if List.Forall₂ (fun (r : ℕ × ℕ) i => r.1 ≤ i ∧ i < r.2) rs idx then f (x :: idx) else 0)).trans ?_
    refine Finset.sum_congr rfl fun i _ => ?_
    by_cases hi : r.1 ≤ i ∧ i < r.2
    · simp only [hi, true_and, if_true]
    · simp only [hi, false_and, if_false]
      exact (sumIdx_zero _).symm

theorem inRegion_slice {roi : Dict (ℚ × ℚ)} {cfg : List SPar} {rs : List (ℕ × ℕ)} {shape idx : List ℕ}
    (hwf : ∀ p ∈ cfg, p.WF)
    (h : List.Forall₂ (fun (p : SPar) (r : ℕ × ℕ) => r.1 < r.2 ∧ (r.2 : ℤ) ≤ p.bins ∧
      (∀ e ∈ roi, OfDim p.name e.1 → p.edge r.1 = e.2.1 ∧ p.edge r.2 = e.2.2) ∧
      ((∀ e ∈ roi, ¬ OfDim p.name e.1) → r.1 = 0 ∧ (r.2 : ℤ) = p.bins)) cfg rs)
    (hs : List.Forall₂ (fun (p : SPar) (n : ℕ) => (n : ℤ) = p.bins) cfg shape) (hi : InB shape idx) :
    InRegion roi cfg idx ↔ List.Forall₂ (fun (r : ℕ × ℕ) i => r.1 ≤ i ∧ i < r.2) rs idx := by
  unfold InRegion
  induction h generalizing shape idx with
  | nil =>
    cases hs
    cases idx with
    | nil => simp
    | cons => simp at hi
  | @cons p r cfg rs h1 h2 ih =>
    obtain ⟨n, shape, hn, hs', rfl⟩ := List.forall₂_cons_left_iff.1 hs
    cases idx with
    | nil => simp at hi
    | cons i idx =>
      simp only [inB_cons_cons] at hi
      rw [List.forall₂_cons, List.forall₂_cons, ih (fun p hp => hwf p (by simp [hp])) hs' hi.2]
      refine and_congr_left fun _ => ?_
      have hp := hwf p (by simp)
      obtain ⟨-, b2, b3, b4⟩ := h1
      constructor
      · intro hx
        by_cases he : ∃ e ∈ roi, OfDim p.name e.1
        · obtain ⟨e, he, hd⟩ := he
          obtain ⟨c1, c2⟩ := hx e he hd
          obtain ⟨d1, d2⟩ := b3 e he hd
          rw [← d1] at c1
          rw [← d2] at c2
          have := le_of_edge_le hp c1
          have := le_of_edge_le hp c2
          omega
        · push Not at he
          obtain ⟨d1, d2⟩ := b4 he
          have := hi.1
          omega
      · rintro ⟨c1, c2⟩ e he hd
        obtain ⟨d1, d2⟩ := b3 e he hd
        rw [← d1, ← d2]
        exact ⟨edge_le hp (by omega), edge_le hp (by omega)⟩

/-- The contents of the region sum up to its number of events. -/
theorem regionContents_total {roi : Dict (ℚ × ℚ)} (hr : IsDict roi) {s : Spectrum}
    (hs : CanShrink roi s) {ns : List PyStr} {c : NdArray ℚ} (h : RegionContents roi ns s c) :
    c.sum = regionTotal roi s := by
  obtain ⟨t, ⟨kw, hk, -, he⟩, hp⟩ := h
  obtain ⟨rs, a1, a2, -, a4⟩ := hs.shrunk hr hk
  have a4 := isSub_eqv a4 he
  have hF := asked_outer hs.wf hs.dims hk a1 a2
  rw [isProjection_sum hp]
  show sumIdx t.data.shape t.data.get = _
  have hshape : List.Forall₂ (fun (p : SPar) (n : ℕ) => (n : ℤ) = p.bins) s.cfg s.data.shape := by
    have := hs.wf.shape
    refine List.forall₂_iff_get.2 ⟨by simpa using (congrArg List.length this).symm, fun i i1 i2 => ?_⟩
    have := congrArg (fun l => l[i]?) this
    simpa only [List.get_eq_getElem, List.getElem?_map, List.getElem?_eq_getElem i2, List.getElem?_eq_getElem i1,
      Option.map_some, Option.some.injEq] using this
  have hrs : List.Forall₂ (fun (r : ℕ × ℕ) (n : ℕ) => r.2 ≤ n) rs s.data.shape := by
    refine List.forall₂_iff_get.2 ⟨hF.length_eq.symm.trans hshape.length_eq, fun i h1 h2 => ?_⟩
    have g1 := (List.forall₂_iff_get.1 hF).2 i (by rw [hF.length_eq]; exact h1) h1
    have g2 := (List.forall₂_iff_get.1 hshape).2 i (by rw [hF.length_eq]; exact h1) h2
    have := g1.2.2.1
    omega
  rw [sumIdx_congr a4.1.2, a4.1.1, slice_total hrs]
  refine sumIdx_congr fun idx hi => ?_
  have := inRegion_slice (roi := roi) hs.wf.axes (hF.imp fun _ _ h => h.2) hshape hi
  simp only [this]

theorem rebin_region {roi : Dict (ℚ × ℚ)} {cfg : List SPar} {L : List (ℕ × ℕ)} {full : List ℕ}
    (hwf : ∀ p ∈ cfg, p.WF)
    (hL : List.Forall₂ (fun (p : SPar) (l : ℕ × ℕ) => p.bins = l.1 * l.2 ∧ 0 < l.1) cfg L)
    (he : RoiOnEdges roi (List.zipWith (fun (p : SPar) (n : ℕ) => { p with bins := (n : ℤ) }) cfg
      (L.map Prod.fst)))
    (hi : InB (L.map (fun p => p.1 * p.2)) full) :
    InRegion roi (List.zipWith (fun (p : SPar) (n : ℕ) => { p with bins := (n : ℤ) }) cfg
      (L.map Prod.fst)) (List.zipWith (· / ·) full (L.map Prod.snd)) ↔ InRegion roi cfg full := by
  unfold InRegion
  induction hL generalizing full with
  | nil =>
    cases full with
    | nil => simp
    | cons => simp at hi
  | @cons p l cfg L h1 _ ih =>
    cases full with
    | nil => simp at hi
    | cons x full =>
      simp only [List.map_cons, inB_cons_cons] at hi
      simp only [List.map_cons, List.zipWith_cons_cons] at he ⊢
      rw [List.forall₂_cons, List.forall₂_cons, ih (fun p hp => hwf p (by simp [hp]))
        (fun e hx q hq => he e hx q (List.mem_cons_of_mem _ hq)) hi.2]
      refine and_congr_left fun _ => ?_
      have hp := hwf p (by simp)
      obtain ⟨hb, hpos⟩ := h1
      have hk : 0 < l.2 := by
        rcases Nat.eq_zero_or_pos l.2 with h0 | h0
        · have := hp.1
          rw [hb, h0] at this
          simp at this
        · exact h0
      have hedge : ∀ j : ℤ, ({ p with bins := (l.1 : ℤ) } : SPar).edge j = p.edge (j * l.2) := by
        intro j
        rw [SPar.edge_eq, SPar.edge_eq]
        unfold SPar.width
        show p.low + j * ((p.high - p.low) / ((l.1 : ℤ) : ℚ)) = _
        rw [hb]
        have h1 : (l.1 : ℚ) ≠ 0 := by exact_mod_cast hpos.ne'
        have h2 : (l.2 : ℚ) ≠ 0 := by exact_mod_cast hk.ne'
        push_cast
        field_simp
      refine forall_congr' fun e => forall_congr' fun hx => forall_congr' fun hd => ?_
      obtain ⟨i, j, hij, hj, e1, e2⟩ := he e hx { p with bins := (l.1 : ℤ) } (by simp) hd
      rw [e1, e2, hedge, hedge, hedge, hedge]
      have hdm := Nat.div_add_mod' x l.2
      have hlt := Nat.mod_lt x hk
      constructor
      · rintro ⟨c1, c2⟩
        have c1 := le_of_edge_le hp c1
        have c2 := le_of_edge_le hp c2
        have c1 : i * l.2 ≤ x / l.2 * l.2 := by exact_mod_cast c1
        have c2 : (x / l.2 + 1) * l.2 ≤ j * l.2 := by exact_mod_cast c2
        rw [Nat.add_mul, Nat.one_mul] at c2
        exact ⟨edge_le hp (by exact_mod_cast (show i * l.2 ≤ x by omega)),
          edge_le hp (by exact_mod_cast (show x + 1 ≤ j * l.2 by omega))⟩
      · rintro ⟨c1, c2⟩
        have c1 := le_of_edge_le hp c1
        have c2 := le_of_edge_le hp c2
        have c1 : i * l.2 ≤ x := by exact_mod_cast c1
        have c2 : x + 1 ≤ j * l.2 := by exact_mod_cast c2
        have g1 : i ≤ x / l.2 := (Nat.le_div_iff_mul_le hk).2 c1
        have g2 : x / l.2 + 1 ≤ j := (Nat.div_lt_iff_lt_mul hk).2 (by omega)
        exact ⟨edge_le hp (by exact_mod_cast Nat.mul_le_mul_right _ g1),
          edge_le hp (by exact_mod_cast Nat.mul_le_mul_right _ g2)⟩

/-- Rebinning keeps the number of events in a region, if its bounds are still bin edges. -/
theorem rebin_total {roi : Dict (ℚ × ℚ)} {s : Spectrum} (hs : s.WF) {ns : List ℕ}
    (herr : (s.rebin ns).err = none) (he : RoiOnEdges roi (s.rebin ns).st.cfg) :
    regionTotal roi (s.rebin ns).st = regionTotal roi s := by
  obtain ⟨h1, h2, -⟩ := (c13_rebin s hs ns).2 herr
  have hd := (rebin_err_none_iff hs).1 herr
  obtain ⟨L, rfl, hL, hLpos⟩ := pairs_exist (fun p hp => (hs.axes p hp).1) hs.shape hd
  have hP : List.Forall₂ (fun (p : SPar) (l : ℕ × ℕ) => p.bins = l.1 * l.2 ∧ 0 < l.1) s.cfg L := by
    have hsh := hs.shape
    rw [hL] at hsh
    refine List.forall₂_iff_get.2 ⟨by simpa using (congrArg List.length hsh).symm, fun i i1 i2 => ?_⟩
    have := congrArg (fun l => l[i]?) hsh
    simp only [List.getElem?_map, List.getElem?_eq_getElem i2, List.getElem?_eq_getElem i1,
      Option.map_some, Option.some.injEq] at this
    refine ⟨?_, hLpos _ (List.get_mem _ _)⟩
    simp only [List.get_eq_getElem]
    rw [← Nat.cast_mul, ← this]
  rw [h2] at he
  unfold regionTotal
  rw [h1.1, h2]
  classical
  have e1 : ∀ idx, InB (L.map Prod.fst) idx → ∀ P : Prop,
      (if P then (s.rebin (L.map Prod.fst)).st.data.get idx else 0) =
      sumIdx s.data.shape (fun full => if List.zipWith (· / ·) full (L.map Prod.snd) = idx
        then (if P then s.data.get full else 0) else 0) := by
    intro idx hi P
    by_cases hP : P
    · simp only [if_pos hP]
      rw [h1.2 idx hi, hL, zipWith_div_pairs hLpos]
    · simp only [if_neg hP, ite_self]
      exact (sumIdx_zero _).symm
  refine Eq.trans (sumIdx_congr fun idx hi => ?_) ((sumIdx_comm _ _ (fun idx full =>
    if List.zipWith (· / ·) full (L.map Prod.snd) = idx then
      (if InRegion roi (List.zipWith (fun (p : SPar) (n : ℕ) => { p with bins := (n : ℤ) }) s.cfg
        (L.map Prod.fst)) idx then s.data.get full else 0) else 0)).trans
    (sumIdx_congr fun full hf => ?_))
  · rw [← e1 idx hi]
  · rw [hL] at hf
    have e2 := sumIdx_ite (inB_div hf) (fun idx => if InRegion roi (List.zipWith
      (fun (p : SPar) (n : ℕ) => { p with bins := (n : ℤ) }) s.cfg (L.map Prod.fst)) idx then
        s.data.get full else 0)
    simp only [rebin_region hs.axes hP he hf] at e2
    refine Eq.trans (sumIdx_congr fun idx _ => ?_) e2
    by_cases hx : List.zipWith (· / ·) full (L.map Prod.snd) = idx
    · rw [if_pos hx, if_pos hx.symm]
    · rw [if_neg hx, if_neg (Ne.symm hx)]

theorem rebin_names {s : Spectrum} (hs : s.WF) {ns : List ℕ} (herr : (s.rebin ns).err = none) :
    (s.rebin ns).st.cfg.map SPar.name = s.cfg.map SPar.name := by
  obtain ⟨-, h2, -⟩ := (c13_rebin s hs ns).2 herr
  have hl := ((rebin_err_none_iff hs).1 herr).length_eq
  rw [h2]
  clear * - hl
  generalize s.cfg = cfg at hl ⊢
  induction cfg generalizing ns with
  | nil => rfl
  | cons p cfg ih =>
    cases ns with
    | nil => simp at hl
    | cons n ns => simp only [List.zipWith_cons_cons, List.map_cons]; rw [ih (by simpa using hl)]

theorem regionTotal_eqv {roi : Dict (ℚ × ℚ)} {s t : Spectrum} (h : s.Eqv t) :
    regionTotal roi t = regionTotal roi s := by
  unfold regionTotal
  rw [h.1.2.1, h.2.1]
  refine sumIdx_congr fun idx hi => ?_
  rw [h.2.2 idx (h.2.1 ▸ hi)]

/-- Rebinning all spectra keeps the numbers of events in the region. -/
theorem sameTotals_rebin {roi : Dict (ℚ × ℚ)} {qs : List ℕ} {st : FitState} {d : ℕ}
    (hc : ∀ q ∈ qs, CanShrink roi (st.view q)) (hd : d ∈ qs)
    (hax : ∀ q ∈ qs, (st.view q).cfg = (st.view d).cfg) {ns : List ℕ}
    (herr : ((st.view d).rebin ns).err = none) (hcan : CanShrink roi ((st.view d).rebin ns).st)
    {l : List ℕ} (hl : l.Perm qs) (hn : (qs.map (fun q => (st.objs q).cfg)).Nodup) :
    SameTotals roi qs st (st.afterRebinning ns l) ∧
      ∀ q ∈ qs, ((st.afterRebinning ns l).view q).numDecays = (st.view q).numDecays := by
  have herrq : ∀ q ∈ qs, ((st.view q).rebin ns).err = none := fun q hq => by
    rw [rebin_err_none_iff (hc q hq).wf, hax q hq]
    exact (rebin_err_none_iff (hc d hd).wf).1 herr
  obtain ⟨⟨i1, i2, i3⟩, i4, i5, -⟩ := afterAll_all (f := fun s => s.rebin ns) (st := st) (l := l)
    ((hl.map _).nodup_iff.2 hn) fun q hq => herrq q (hl.mem_iff.1 hq)
  have i5 : ∀ q ∈ qs, ((st.view q).rebin ns).st.Eqv ((st.afterRebinning ns l).view q) :=
    fun q hq => i5 q (hl.mem_iff.2 hq)
  have hR : ∀ q ∈ qs, ((st.view q).rebin ns).st.cfg = ((st.view d).rebin ns).st.cfg ∧
      ((st.view q).rebin ns).st.data.shape = ((st.view d).rebin ns).st.data.shape := fun q hq => by
    obtain ⟨a1, a2, -⟩ := (c13_rebin _ (hc q hq).wf ns).2 (herrq q hq)
    obtain ⟨b1, b2, -⟩ := (c13_rebin _ (hc d hd).wf ns).2 herr
    rw [a2, b2, a1.1, b1.1, hax q hq]
    exact ⟨rfl, rfl⟩
  have hcfg : ∀ q ∈ qs, ((st.afterRebinning ns l).view q).cfg = ((st.view d).rebin ns).st.cfg :=
    fun q hq => (i5 q hq).1.2.1.trans (hR q hq).1
  refine ⟨⟨⟨i1, i2, i3, fun q _ => i4 q, fun q hq => ?_, fun q hq => ?_, fun q hq q' hq' _ => ?_⟩,
    fun q hq => ?_⟩, fun q hq => ?_⟩
  · exact hcan.congr (hcfg q hq) ((i5 q hq).2.1.symm.trans (hR q hq).2)
  · rw [(i5 q hq).1.2.1, rebin_names (hc q hq).wf (herrq q hq)]
  · rw [hcfg q hq, hcfg q' hq']
  · rw [regionTotal_eqv (i5 q hq), rebin_total (hc q hq).wf (herrq q hq)]
    rw [(hR q hq).1]
    exact hcan.edges
  · obtain ⟨-, -, -, h, -⟩ := (c13_rebin _ (hc q hq).wf ns).2 (herrq q hq)
    exact ((i5 q hq).1.2.2.1).trans h

theorem sumIdx_mapped {α : Type} (l : List α) (shape : List ℕ) (k : α → ℚ) (f : α → List ℕ → ℚ) :
    sumIdx shape (fun idx => (l.map (fun e => k e * f e idx)).sum) =
      (l.map (fun e => k e * sumIdx shape (f e))).sum := by
  induction l with
  | nil => simp
  | cons e l ih =>
    simp only [List.map_cons, List.sum_cons]
    rw [sumIdx_add, ih]
    congr 1
    rw [mul_comm, ← sumIdx_mul]
    exact sumIdx_congr fun idx _ => mul_comm _ _

theorem sumIdx_zipped {α : Type} (l : List α) (us : List ℚ) (shape : List ℕ) (k : α → ℚ → ℚ)
    (f : α → List ℕ → ℚ) :
    sumIdx shape (fun idx => (List.zipWith (fun e v => k e v * f e idx) l us).sum) =
      (List.zipWith (fun e v => k e v * sumIdx shape (f e)) l us).sum := by
  induction l generalizing us with
  | nil => simp
  | cons e l ih =>
    cases us with
    | nil => simp
    | cons v us =>
      simp only [List.zipWith_cons_cons, List.sum_cons]
      rw [sumIdx_add, ih]
      congr 1
      rw [mul_comm, ← sumIdx_mul]
      exact sumIdx_congr fun idx _ => mul_comm _ _

variable {a : FitArgs} {st st' : FitState}

/-- The number of events expected in the region, from those of the spectra. -/
theorem sumAt_total {c : ℕ → NdArray ℚ} {shape : List ℕ}
    (hs : ∀ q ∈ a.signal.toList ++ a.floating ++ a.fixed.map Prod.fst, (c q).shape = shape)
    (u : List ℚ) : (a.backgroundAt st c shape u).sum =
      (a.fixed.map (fun e => e.2 / (st.view e.1).numDecays * (c e.1).sum)).sum +
      (List.zipWith (fun r v => v / (st.view r).numDecays * (c r).sum) a.floating u).sum +
      (a.signal.toList.map (fun r => (c r).sum)).sum := by
  show sumIdx shape (a.sumAt st u c) = _
  unfold FitArgs.sumAt
  rw [sumIdx_add, sumIdx_add, sumIdx_mapped a.fixed shape (fun e => e.2 / (st.view e.1).numDecays)
    (fun e idx => (c e.1).get idx), sumIdx_zipped a.floating u shape
    (fun r v => v / (st.view r).numDecays) (fun r idx => (c r).get idx)]
  have h1 : (a.fixed.map (fun e => e.2 / (st.view e.1).numDecays * sumIdx shape (c e.1).get)) =
      a.fixed.map (fun e => e.2 / (st.view e.1).numDecays * (c e.1).sum) :=
    List.map_congr_left fun e he => by
      unfold NdArray.sum
      rw [hs e.1 (List.mem_append_right _ (List.mem_map_of_mem he))]
  have h2 : List.zipWith (fun r v => v / (st.view r).numDecays * sumIdx shape (c r).get) a.floating u =
      List.zipWith (fun r v => v / (st.view r).numDecays * (c r).sum) a.floating u := by
    have h : ∀ q ∈ a.floating, (c q).shape = shape := fun q hq => hs q (by simp [hq])
    clear * - h
    generalize a.floating = l at h
    induction l generalizing u with
    | nil => simp
    | cons q l ih =>
      cases u with
      | nil => simp
      | cons v u =>
        simp only [List.zipWith_cons_cons]
        rw [ih u fun q hq => h q (by simp [hq])]
        unfold NdArray.sum
        rw [h q (by simp)]
  have h3 : sumIdx shape (fun idx => (a.signal.toList.map (fun r => (c r).get idx)).sum) =
      (a.signal.toList.map (fun r => (c r).sum)).sum := by
    have := sumIdx_mapped a.signal.toList shape (fun _ => 1) (fun r idx => (c r).get idx)
    simp only [one_mul] at this
    rw [this, List.map_congr_left fun r hr => ?_]
    unfold NdArray.sum
    rw [hs r (by simp only [List.mem_append]; tauto)]
  exact congrArg₂ _ (congrArg₂ _ (congrArg _ h1) (congrArg _ h2)) h3

end Verif
