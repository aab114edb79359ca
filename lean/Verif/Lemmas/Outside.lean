import Verif.Spec.Outside
import Verif.Lemmas.Normalise
import Verif.Lemmas.Recover

/-! Helper lemmas: spectra with the same contents of a region. -/

namespace Verif

open Session

theorem edge_le {p : SPar} (hp : p.WF) {i j : ℤ} (h : i ≤ j) : p.edge i ≤ p.edge j := by
  have hw := hp.width_pos
  rw [SPar.edge_eq, SPar.edge_eq]
  have : (i : ℚ) ≤ j := by exact_mod_cast h
  nlinarith

theorem le_of_edge_le {p : SPar} (hp : p.WF) {i j : ℤ} (h : p.edge i ≤ p.edge j) : i ≤ j := by
  have hw := hp.width_pos
  by_contra hc
  have hc : (j : ℚ) < i := by exact_mod_cast not_le.1 hc
  rw [SPar.edge_eq, SPar.edge_eq] at h
  nlinarith

theorem edge_injective {p : SPar} (hp : p.WF) {i j : ℤ} (h : p.edge i = p.edge j) : i = j :=
  le_antisymm (le_of_edge_le hp h.le) (le_of_edge_le hp h.ge)

section

variable {roi : Dict (ℚ × ℚ)} {s : Spectrum} {kw : List (PyStr × ℚ)} {rs : List (ℕ × ℕ)}

/-- The bounds a shrink to a region asks for are those of the region. -/
theorem asked_region (hd : DistinctDims s.cfg) (hk : AsksRoi s.cfg roi kw)
    (h : AsksEdges s kw rs) : List.Forall₂ (fun (p : SPar) (r : ℕ × ℕ) => r.1 ≤ r.2 ∧
      (r.2 : ℤ) ≤ p.bins ∧ ∀ e ∈ roi, OfDim p.name e.1 → p.edge r.1 = e.2.1 ∧ p.edge r.2 = e.2.2)
      s.cfg rs := by
  have hkd := h.1
  refine List.forall₂_iff_get.2 ⟨h.2.2.length_eq, fun i h1 h2 => ?_⟩
  obtain ⟨a1, a2, a3, a4⟩ := (List.forall₂_iff_get.1 h.2.2).2 i h1 h2
  refine ⟨a1, a2, fun e he hpd => ?_⟩
  obtain ⟨b1, b2⟩ := asksRoi_asked hd hk he (List.get_mem _ _) hpd
  constructor
  · rcases a3 with hx | ⟨hx, -⟩
    · exact dict_unique hkd hx b1
    · exact absurd b1 (hx _)
  · rcases a4 with hx | ⟨hx, -⟩
    · exact dict_unique hkd hx b2
    · exact absurd b2 (hx _)

theorem slice_inRegion (hs : s.WF) (hd : DistinctDims s.cfg)
    (hk : AsksRoi s.cfg roi kw) (h : AsksEdges s kw rs) {full : List ℕ}
    (hf : InB (rs.map (fun r => r.2 - r.1)) full) :
    InRegion roi s.cfg (List.zipWith (fun r i => r.1 + i) rs full) := by
  have h1 := asked_region hd hk h
  have hax := hs.axes
  unfold InRegion
  clear * - h1 hax hf
  generalize s.cfg = cfg at h1 hax ⊢
  induction h1 generalizing full with
  | nil => cases hf; exact .nil
  | @cons p r cfg rs h1 _ ih =>
    simp only [List.map_cons] at hf
    obtain ⟨i, full, hi, hf', rfl⟩ := List.forall₂_cons_right_iff.1 hf
    refine .cons (fun e he hpd => ?_) (ih hf' fun q hq => hax q (by simp [hq]))
    obtain ⟨b1, b2⟩ := h1.2.2 e he hpd
    have hp := hax p (by simp)
    have hi : i < r.2 - r.1 := hi
    rw [← b1, ← b2]
    exact ⟨edge_le hp (by push_cast; omega), edge_le hp (by push_cast; omega)⟩

/-- Contents outside the region do not matter. -/
theorem RegionContents.inside (hr : IsDict roi) {s' : Spectrum} (hs : CanShrink roi s)
    (hcfg : s'.cfg = s.cfg) (hsh : s'.data.shape = s.data.shape)
    (hcells : ∀ idx, InB s.data.shape idx → InRegion roi s.cfg idx →
      s'.data.get idx = s.data.get idx) {ns : List PyStr} {c : NdArray ℚ}
    (h : RegionContents roi ns s c) : RegionContents roi ns s' c := by
  have hs' := hs.congr hcfg hsh
  obtain ⟨t, ⟨kw, hk, -, he⟩, p1, p2⟩ := h
  obtain ⟨rs, a1, -, -, a4⟩ := hs.shrunk hr hk
  have a4 := isSub_eqv a4 he
  have a1' : AsksEdges s' kw rs := by
    unfold AsksEdges BoundKeys at a1 ⊢
    rw [hcfg]; exact a1
  obtain ⟨b3, b4⟩ := c16_shrink_edges s' hs'.wf hs'.aligned kw rs a1'
  have ecfg : (s'.shrink kw).st.cfg = t.cfg := by rw [b4.2.1, a4.2.1, hcfg]
  have esh : (s'.shrink kw).st.data.shape = t.data.shape := by rw [b4.1.1, a4.1.1]
  refine ⟨(s'.shrink kw).st, ⟨kw, by rw [hcfg]; exact hk, b3, ⟨⟨rfl, rfl, rfl, rfl, rfl⟩, rfl,
    fun _ _ => rfl⟩⟩, by rw [ecfg, esh]; exact p1, fun idx hi => ?_⟩
  rw [p2 idx hi, ecfg, esh]
  refine sumIdx_congr fun full hf => ?_
  have hf' : InB (rs.map (fun r => r.2 - r.1)) full := by rw [← a4.1.1]; exact hf
  rw [b4.1.2 full (by rw [esh]; exact hf), a4.1.2 full hf,
    hcells _ (slice_inB hs.wf a1 a4.1 hf) (slice_inRegion hs.wf hs.dims hk a1 hf')]

/-- The bounds a shrink to a larger range asks for. -/
theorem asked_outer {outer : Dict (ℚ × ℚ)} (hs : s.WF) (hd : DistinctDims s.cfg)
    (hk : AsksRoi s.cfg outer kw) (h : AsksEdges s kw rs) (hlt : ∀ r ∈ rs, r.1 < r.2) :
    List.Forall₂ (fun (p : SPar) (r : ℕ × ℕ) => p ∈ s.cfg ∧ r.1 < r.2 ∧ (r.2 : ℤ) ≤ p.bins ∧
      (∀ e ∈ outer, OfDim p.name e.1 → p.edge r.1 = e.2.1 ∧ p.edge r.2 = e.2.2) ∧
      ((∀ e ∈ outer, ¬ OfDim p.name e.1) → r.1 = 0 ∧ (r.2 : ℤ) = p.bins)) s.cfg rs := by
  have h1 := asked_region hd hk h
  refine List.forall₂_iff_get.2 ⟨h.2.2.length_eq, fun i hi hj => ?_⟩
  obtain ⟨-, a2, a3⟩ := (List.forall₂_iff_get.1 h1).2 i hi hj
  obtain ⟨-, -, b3, b4⟩ := (List.forall₂_iff_get.1 h.2.2).2 i hi hj
  refine ⟨List.get_mem _ _, hlt _ (List.get_mem _ _), a2, a3, fun hno => ?_⟩
  have hp := hs.axes _ (List.get_mem s.cfg ⟨i, hi⟩)
  generalize s.cfg.get ⟨i, hi⟩ = p at *
  generalize rs.get ⟨i, hj⟩ = r at *
  constructor
  · rcases b3 with hx | ⟨-, hx⟩
    · obtain ⟨e, he, q, hq, hqd, hkey⟩ := asksRoi_mem hk hx
      rcases hkey with hkey | hkey
      · simp only [Prod.mk.injEq] at hkey
        rw [← List.append_cancel_right hkey.1] at hqd
        exact absurd hqd (hno e he)
      · simp only [Prod.mk.injEq] at hkey
        exact absurd hkey.1 low_ne_high
    · rw [← edge_zero] at hx
      exact_mod_cast edge_injective hp hx
  · rcases b4 with hx | ⟨-, hx⟩
    · obtain ⟨e, he, q, hq, hqd, hkey⟩ := asksRoi_mem hk hx
      rcases hkey with hkey | hkey
      · simp only [Prod.mk.injEq] at hkey
        exact absurd hkey.1.symm low_ne_high
      · simp only [Prod.mk.injEq] at hkey
        rw [← List.append_cancel_right hkey.1] at hqd
        exact absurd hqd (hno e he)
    · rw [← edge_bins hp] at hx
      exact edge_injective hp hx

theorem mem_zipWith_pair {α β γ : Type} {R : α → β → Prop} {f : α → β → γ} {l : List α} {l' : List β}
    (h : List.Forall₂ R l l') {x : γ} (hx : x ∈ List.zipWith f l l') : ∃ a b, R a b ∧ x = f a b := by
  induction h with
  | nil => cases hx
  | cons hab _ ih =>
    rcases List.mem_cons.1 hx with rfl | hx
    · exact ⟨_, _, hab, rfl⟩
    · exact ih hx

/-- A spectrum that has been cut to a larger range can be cut to the region, with the same contents. -/
theorem cut_before {outer : Dict (ℚ × ℚ)} (hO : IsDict outer) (hr : IsDict roi)
    (hs : CanShrink outer s) (hs' : CanShrink roi s) (hin : Contains outer roi)
    (hk : AsksRoi s.cfg outer kw) {t : Spectrum} (ht : (s.shrink kw).st.Eqv t) :
    CanShrink roi t ∧ ∀ ns c, RegionContents roi ns s c → RegionContents roi ns t c := by
  obtain ⟨rs, a1, a2, a3, a4⟩ := hs.shrunk hO hk
  have a4 := isSub_eqv a4 ht
  have hF := asked_outer hs.wf hs.dims hk a1 a2
  have hn : t.cfg.map SPar.name = s.cfg.map SPar.name := shrunkTo_cfg ⟨kw, hk, a3, ht⟩
  have hlen := a1.2.2.length_eq
  have hct : CanShrink roi t := by
    refine ⟨isSub_wf hs.wf a4 a2 hlen.symm, isSub_aligned hs.aligned a4 a2,
      distinctDims_names hs.dims hn hs.wf.names, ?_, ?_⟩
    · intro e he p' hp' hpd
      rw [a4.2.1] at hp'
      obtain ⟨p, r, ⟨h1, h2, h3, h4, h5⟩, rfl⟩ := mem_zipWith_pair hF hp'
      have hpd : OfDim p.name e.1 := hpd
      have hp := hs.wf.axes p h1
      obtain ⟨i, j, hij, hj, e1, e2⟩ := hs'.edges e he p h1 hpd
      have key : r.1 ≤ i ∧ j ≤ r.2 := by
        by_cases hx : ∃ x ∈ outer, OfDim p.name x.1
        · obtain ⟨x, hx, hxd⟩ := hx
          obtain ⟨b1, b2⟩ := h4 x hx hxd
          obtain ⟨e', he', hd', c1, c2⟩ := hin x hx
          obtain rfl : e' = e := List.inj_on_of_nodup_map hr he' he
            (hd'.trans (ofDim_unique hxd hpd))
          rw [← b1, e1] at c1
          rw [← b2, e2] at c2
          have g1 := le_of_edge_le hp c1
          have g2 := le_of_edge_le hp c2
          omega
        · push Not at hx
          have := h5 hx
          omega
      refine ⟨i - r.1, j - r.1, by omega, ?_, ?_, ?_⟩
      · show ((j - r.1 : ℕ) : ℤ) ≤ (r.2 : ℤ) - r.1
        omega
      · rw [subAxis_edge h2, e1]
        congr 1
        omega
      · rw [subAxis_edge h2, e2]
        congr 1
        omega
    · intro e he
      obtain ⟨p, hp, hpd⟩ := hs'.has e he
      have : p.name ∈ t.cfg.map SPar.name := by rw [hn]; exact List.mem_map_of_mem hp
      obtain ⟨q, hq, hqn⟩ := List.mem_map.1 this
      exact ⟨q, hq, hqn ▸ hpd⟩
  refine ⟨hct, fun ns c hc => ?_⟩
  obtain ⟨u, ⟨kw', hk', -, hu⟩, p1, p2⟩ := hc
  have hkt : AsksRoi t.cfg roi kw' := asksRoi_names hn hk'
  obtain ⟨ds, d1, -, -, d4⟩ := hs'.shrunk hr hk'
  have d4 := isSub_eqv d4 hu
  obtain ⟨qs, q1, q2, q3, q4⟩ := hct.shrunk hr hkt
  have hq := q1.2.2
  rw [a4.2.1] at hq
  have hlq := hq.length_eq
  rw [List.length_zipWith, ← hlen, Nat.min_self] at hlq
  have hdl := d1.2.2.length_eq
  have hds : List.zipWith compRange rs qs = ds := by
    refine List.ext_getElem (by rw [List.length_zipWith]; omega) fun i hi hi' => ?_
    have i1 : i < s.cfg.length := by omega
    have i2 : i < rs.length := by omega
    have i3 : i < qs.length := by omega
    have g1 := (List.forall₂_iff_get.1 hF).2 i i1 i2
    have g2 := (List.forall₂_iff_get.1 hq).2 i (by rw [List.length_zipWith]; omega) i3
    have g3 := (List.forall₂_iff_get.1 d1.2.2).2 i i1 hi'
    simp only [List.get_eq_getElem, List.getElem_zipWith] at g1 g2 g3 ⊢
    generalize s.cfg[i] = p at *
    generalize rs[i] = r at *
    generalize qs[i] = q at *
    generalize ds[i] = d at *
    obtain ⟨h1, h2, h3, h4, h5⟩ := g1
    obtain ⟨-, -, y1, y2⟩ := g2
    obtain ⟨-, -, z1, z2⟩ := g3
    have hp := hs.wf.axes p h1
    rw [subAxis_edge h2] at y1 y2
    have habs : (∀ e ∈ roi, ¬ OfDim p.name e.1) → r.1 = 0 ∧ (r.2 : ℤ) = p.bins := fun hno =>
      h5 fun x hx hxd => by
        obtain ⟨e', he', hd', -⟩ := hin x hx
        exact hno e' he' (hd' ▸ hxd)
    have k1 : p.edge (r.1 + q.1) = p.edge d.1 := by
      rcases y1 with y1 | ⟨y0, y1⟩
      · rcases z1 with z1 | ⟨z0, -⟩
        · exact dict_unique d1.1 y1 z1
        · exact absurd y1 (z0 _)
      · rcases z1 with z1 | ⟨-, z1⟩
        · exact absurd z1 (y0 _)
        · rw [y1, z1]
          have := (habs fun e he hpd => y0 _ (asksRoi_asked hs'.dims hk' he h1 hpd).1).1
          show p.edge r.1 = p.low
          rw [this]; exact edge_zero p
    have k2 : p.edge (r.1 + q.2) = p.edge d.2 := by
      rcases y2 with y2 | ⟨y0, y2⟩
      · rcases z2 with z2 | ⟨z0, -⟩
        · exact dict_unique d1.1 y2 z2
        · exact absurd y2 (z0 _)
      · rcases z2 with z2 | ⟨-, z2⟩
        · exact absurd z2 (y0 _)
        · rw [y2, z2]
          have := (habs fun e he hpd => y0 _ (asksRoi_asked hs'.dims hk' he h1 hpd).2).2
          show p.edge r.2 = p.high
          rw [this]; exact edge_bins hp
    have k1 := edge_injective hp k1
    have k2 := edge_injective hp k2
    ext <;> simp only [compRange] <;> omega
  have hle : List.Forall₂ (fun (r q : ℕ × ℕ) => q.1 ≤ q.2 ∧ q.2 ≤ r.2 - r.1) rs qs := by
    refine List.forall₂_iff_get.2 ⟨by omega, fun i i2 i3 => ?_⟩
    have g1 := (List.forall₂_iff_get.1 hF).2 i (by omega) i2
    have g2 := (List.forall₂_iff_get.1 hq).2 i (by rw [List.length_zipWith]; omega) i3
    simp only [List.get_eq_getElem, List.getElem_zipWith] at g1 g2 ⊢
    refine ⟨g2.1, ?_⟩
    have : (qs[i].2 : ℤ) ≤ (rs[i].2 : ℤ) - rs[i].1 := g2.2.1
    have := g1.2.1
    omega
  have hcomp := isSub_comp a4 q4 a2 hlen.symm hle
  rw [hds] at hcomp
  have hequ := isSub_unique hcomp d4
  exact ⟨u, ⟨kw', hkt, q3, hequ⟩, p1, p2⟩

end

/-- Two sets of objects with the same contents of the region in the spectra `qs`. -/
structure SameRegion (roi : Dict (ℚ × ℚ)) (qs : List ℕ) (st st' : FitState) : Prop extends
    SameObjects roi qs st st' where
  contents : ∀ q ∈ qs, ∀ ns c, RegionContents roi ns (st.view q) c → RegionContents roi ns (st'.view q) c

theorem AgreeInside.same {roi : Dict (ℚ × ℚ)} (hr : IsDict roi) {qs : List ℕ} {st st' : FitState}
    (h : AgreeInside roi qs st st') (hc : ∀ q ∈ qs, CanShrink roi (st.view q)) :
    SameRegion roi qs st st' where
  next := h.next
  params := h.params
  cache := h.cache
  rest := h.rest
  can q hq := (hc q hq).congr (h.axes q hq) (h.shape q hq)
  names q hq := by rw [h.axes q hq]
  axes q hq q' hq' he := by rw [h.axes q hq, h.axes q' hq', he]
  contents q hq _ _ hx := hx.inside hr (hc q hq) (h.axes q hq) (h.shape q hq) (h.cells q hq)

/-- The objects after a method of every spectrum of the list has been called. -/
def FitState.afterAll (st : FitState) (f : Spectrum → Outcome) (l : List ℕ) : FitState :=
  l.foldl (fun st q => (FitM.call q f st).1) st

/-- The objects after a method of every spectrum of the list has been called. -/
theorem afterAll_all {f : Spectrum → Outcome} {l : List ℕ} {st : FitState}
    (hn : (l.map (fun q => (st.objs q).cfg)).Nodup)
    (he : ∀ q ∈ l, (f (st.view q)).err = none) :
    ((st.afterAll f l).next = st.next ∧ (st.afterAll f l).params = st.params ∧
      (st.afterAll f l).cache = st.cache) ∧
    (∀ q, ((st.afterAll f l).objs q).background = (st.objs q).background ∧
      ((st.afterAll f l).objs q).cfg = (st.objs q).cfg ∧
      ((st.afterAll f l).objs q).fit = (st.objs q).fit) ∧
    (∀ q ∈ l, (f (st.view q)).st.Eqv ((st.afterAll f l).view q)) ∧
    ∀ q, (st.objs q).cfg ∉ l.map (fun q => (st.objs q).cfg) →
      (st.afterAll f l).view q = st.view q := by
  induction l generalizing st with
  | nil => exact ⟨⟨rfl, rfl, rfl⟩, fun _ => ⟨rfl, rfl, rfl⟩, by simp, fun _ _ => rfl⟩
  | cons r l ih =>
    have e0 : st.afterAll f (r :: l) =
        (st.write r (f (st.view r)).st).afterAll f l := by
      show l.foldl _ (FitM.call r f st).1 = _
      rw [FitM.call_run (he r (by simp))]
      rfl
    rw [List.map_cons, List.nodup_cons] at hn
    have hobj : ∀ q, ((st.write r (f (st.view r)).st).objs q).background =
        (st.objs q).background ∧ ((st.write r (f (st.view r)).st).objs q).fit =
        (st.objs q).fit := fun q => by
      by_cases hq : q = r
      · subst hq; simp only [FitState.write, Function.update_self]; exact ⟨trivial, trivial⟩
      · rw [FitState.objs_write_old _ _ _ hq]; exact ⟨rfl, rfl⟩
    have hcfg := FitState.cfg_write st r (f (st.view r)).st
    have hview : ∀ q, (st.objs q).cfg ≠ (st.objs r).cfg →
        (st.write r (f (st.view r)).st).view q = st.view q := fun q hq =>
      FitState.view_write_old _ _ _ (fun h => hq (by rw [h])) hq
    have hmap : l.map (fun q => ((st.write r (f (st.view r)).st).objs q).cfg) =
        l.map (fun q => (st.objs q).cfg) := List.map_congr_left fun q _ => hcfg q
    have hne : ∀ q ∈ l, (st.objs q).cfg ≠ (st.objs r).cfg := fun q hq h =>
      hn.1 (h ▸ List.mem_map_of_mem hq)
    obtain ⟨⟨i1, i2, i3⟩, i4, i5, i6⟩ := ih (st := st.write r (f (st.view r)).st)
      (by rw [hmap]; exact hn.2) fun q hq => by rw [hview q (hne q hq)]; exact he q (by simp [hq])
    rw [e0]
    refine ⟨⟨i1, i2, i3⟩, fun q => ?_, fun q hq => ?_, fun q hq => ?_⟩
    · obtain ⟨j1, j2, j3⟩ := i4 q
      exact ⟨j1.trans (hobj q).1, j2.trans (hcfg q), j3.trans (hobj q).2⟩
    · rcases List.mem_cons.1 hq with rfl | hq
      · rw [i6 q (by rw [hmap, hcfg]; exact hn.1), FitState.view_write_self]
        exact ⟨⟨rfl, rfl, rfl, rfl, rfl⟩, rfl, fun idx hi => (NdArray.norm_get hi).symm⟩
      · have := i5 q hq
        rw [hview q (hne q hq)] at this
        exact this
    · rw [List.map_cons, List.mem_cons, not_or] at hq
      rw [i6 q (by rw [hmap, hcfg]; exact hq.2)]
      exact hview q hq.1

/-- The objects after all spectra of the list have been shrunk. -/
theorem afterShrinking_all {kw : List (PyStr × ℚ)} {l : List ℕ} {st : FitState}
    (hn : (l.map (fun q => (st.objs q).cfg)).Nodup)
    (he : ∀ q ∈ l, ((st.view q).shrink kw).err = none) :
    ((st.afterShrinking kw l).next = st.next ∧ (st.afterShrinking kw l).params = st.params ∧
      (st.afterShrinking kw l).cache = st.cache) ∧
    (∀ q, ((st.afterShrinking kw l).objs q).background = (st.objs q).background ∧
      ((st.afterShrinking kw l).objs q).cfg = (st.objs q).cfg ∧
      ((st.afterShrinking kw l).objs q).fit = (st.objs q).fit) ∧
    (∀ q ∈ l, ((st.view q).shrink kw).st.Eqv ((st.afterShrinking kw l).view q)) ∧
    ∀ q, (st.objs q).cfg ∉ l.map (fun q => (st.objs q).cfg) →
      (st.afterShrinking kw l).view q = st.view q :=
  afterAll_all (f := fun s => s.shrink kw) hn he

/-- Cutting all spectra to a larger range changes nothing in the region. -/
theorem sameRegion_cut {outer roi : Dict (ℚ × ℚ)} (hO : IsDict outer) (hr : IsDict roi)
    {qs : List ℕ} {st : FitState} (hc : ∀ q ∈ qs, CanShrink roi (st.view q))
    (hin : Contains outer roi) {d : ℕ} (hax : ∀ q ∈ qs, (st.view q).cfg = (st.view d).cfg)
    (hedges : RoiOnEdges outer (st.view d).cfg) {kw : List (PyStr × ℚ)}
    (hk : AsksRoi (st.view d).cfg outer kw) {l : List ℕ} (hl : l.Perm qs)
    (hn : (qs.map (fun q => (st.objs q).cfg)).Nodup) :
    SameRegion roi qs st (st.afterShrinking kw l) ∧
      ∀ q ∈ qs, ((st.afterShrinking kw l).view q).numDecays = (st.view q).numDecays := by
  have hout : ∀ q ∈ qs, CanShrink outer (st.view q) := fun q hq => by
    obtain ⟨h1, h2, h3, h4, h5⟩ := hc q hq
    refine ⟨h1, h2, h3, by rw [hax q hq]; exact hedges, fun e he => ?_⟩
    obtain ⟨e', he', hd', -⟩ := hin e he
    obtain ⟨p, hp, hpd⟩ := h5 e' he'
    exact ⟨p, hp, hd' ▸ hpd⟩
  have hkq : ∀ q ∈ qs, AsksRoi (st.view q).cfg outer kw := fun q hq => by rw [hax q hq]; exact hk
  have herr : ∀ q ∈ qs, ((st.view q).shrink kw).err = none := fun q hq => by
    obtain ⟨_, _, _, h, _⟩ := (hout q hq).shrunk hO (hkq q hq)
    exact h
  obtain ⟨⟨i1, i2, i3⟩, i4, i5, -⟩ := afterShrinking_all (st := st) (kw := kw) (l := l)
    ((hl.map _).nodup_iff.2 hn) fun q hq => herr q (hl.mem_iff.1 hq)
  have i5 : ∀ q ∈ qs, ((st.view q).shrink kw).st.Eqv ((st.afterShrinking kw l).view q) :=
    fun q hq => i5 q (hl.mem_iff.2 hq)
  have hS : ∀ q ∈ qs, ShrunkTo outer (st.view q) ((st.afterShrinking kw l).view q) := fun q hq =>
    ⟨kw, hkq q hq, herr q hq, i5 q hq⟩
  refine ⟨⟨⟨i1, i2, i3, fun q _ => i4 q, fun q hq => ?_, fun q hq => shrunkTo_cfg (hS q hq),
    fun q hq q' hq' h => ?_⟩, fun q hq => ?_⟩, fun q hq => ?_⟩
  · exact (cut_before hO hr (hout q hq) (hc q hq) hin (hkq q hq) (i5 q hq)).1
  · exact (shrunkTo_same_axes hO (hout q' hq') (hout q hq) h (hS q' hq') (hS q hq)).1
  · exact (cut_before hO hr (hout q hq) (hc q hq) hin (hkq q hq) (i5 q hq)).2
  · exact (shrunkTo_same_axes hO (hout q hq) (hout q hq) rfl (hS q hq) (hS q hq)).2.2

theorem exists_shrunkScaled {roi : Dict (ℚ × ℚ)} (hr : IsDict roi) {s : Spectrum} (h : CanShrink roi s)
    (hd : s.numDecays ≠ 0) (n : ℚ) : ∃ u t, ShrunkTo roi s u ∧ ShrunkScaled roi s n t ∧ t.cfg = u.cfg ∧
      t.data.shape = u.data.shape := by
  obtain ⟨kw, hk⟩ := h.asks
  obtain ⟨rs, -, -, h3, -⟩ := h.shrunk hr hk
  have hS : ShrunkTo roi s (s.shrink kw).st :=
    ⟨kw, hk, h3, ⟨⟨rfl, rfl, rfl, rfl, rfl⟩, rfl, fun _ _ => rfl⟩⟩
  have hd' : (s.shrink kw).st.numDecays ≠ 0 := by
    rw [(shrunkTo_same_axes hr h h rfl hS hS).2.2]; exact hd
  obtain ⟨e1, e2⟩ := scale_axes (s.shrink kw).st n
  exact ⟨_, _, hS, ⟨kw, hk, h3, rfl, ((c09_scale _ n).1 hd').1⟩, e1, e2⟩

namespace SameObjects

variable {a : FitArgs} {st st' : FitState}

theorem given (h : SameObjects (inOrder a.roi) (a.kept ++ a.fixed.map Prod.fst) st st')
    {ts : List Spectrum} (hg : a.Given ts st)
    (hdec : ∀ q ∈ a.fixed.map Prod.fst, (st'.view q).numDecays = (st.view q).numDecays) {d : ℕ}
    (hd : d ∈ a.kept) (hax : ∀ q ∈ a.fixed.map Prod.fst, (st.view q).cfg = (st.view d).cfg) :
    ∃ ts', a.Given ts' st' := by
  have hreg := inOrder_isDict hg.region
  have hmem : ∀ e ∈ a.fixed, e.1 ∈ a.kept ++ a.fixed.map Prod.fst := fun e he =>
    List.mem_append_right _ (List.mem_map_of_mem he)
  have hdm : d ∈ a.kept ++ a.fixed.map Prod.fst := List.mem_append_left _ hd
  have hT : ∀ e ∈ a.fixed, ∃ t, ShrunkScaled (inOrder a.roi) (st'.view e.1) e.2 t ∧
      ∀ u, ShrunkTo (inOrder a.roi) (st'.view d) u → t.cfg = u.cfg ∧ t.data.shape = u.data.shape := by
    intro e he
    obtain ⟨t, -, ht⟩ := forall₂_mem_left hg.fixed.shrunk he
    have h0 := ht.decays hreg (hg.able _ (hmem e he))
    have he' : e.1 ∈ a.fixed.map Prod.fst := List.mem_map_of_mem he
    rw [← hdec _ he'] at h0
    obtain ⟨v, t', h1, h2, h3, h4⟩ := exists_shrunkScaled hreg (h.can _ (hmem e he)) h0 e.2
    refine ⟨t', h2, fun u hu => ?_⟩
    obtain ⟨g1, g2, -⟩ := shrunkTo_same_axes hreg (h.can d hdm) (h.can _ (hmem e he))
      (h.axes _ (hmem e he) d hdm (hax _ he')) hu h1
    exact ⟨h3.trans g1, h4.trans g2⟩
  obtain ⟨kw, hk⟩ := (h.can d hdm).asks
  obtain ⟨rs, -, -, hk3, -⟩ := (h.can d hdm).shrunk hreg hk
  have hu : ShrunkTo (inOrder a.roi) (st'.view d) ((st'.view d).shrink kw).st :=
    ⟨kw, hk, hk3, ⟨⟨rfl, rfl, rfl, rfl, rfl⟩, rfl, fun _ _ => rfl⟩⟩
  obtain ⟨ts', hF, hX⟩ : ∃ ts', List.Forall₂ (fun e t => ShrunkScaled (inOrder a.roi) (st'.view e.1) e.2 t)
      a.fixed ts' ∧ ∀ t ∈ ts', t.cfg = ((st'.view d).shrink kw).st.cfg ∧
        t.data.shape = ((st'.view d).shrink kw).st.data.shape := by
    clear * - hT hu
    generalize a.fixed = l at hT
    induction l with
    | nil => exact ⟨[], .nil, by simp⟩
    | cons e l ih =>
      obtain ⟨ts', h1, h2⟩ := ih fun e he => hT e (by simp [he])
      obtain ⟨t, h3, h4⟩ := hT e (by simp)
      refine ⟨t :: ts', .cons h3 h1, fun x hx => ?_⟩
      rcases List.mem_cons.1 hx with rfl | hx
      · exact h4 _ hu
      · exact h2 x hx
  have hcr : ∀ q ∈ a.kept ++ a.fixed.map Prod.fst, (st'.objs q).cfg = (st.objs q).cfg :=
    fun q hq => (h.rest q hq).2.1
  refine ⟨ts', hg.region, hg.some, fun q hq => h.next ▸ hg.alloc q hq, ?_, h.can, ?_⟩
  · rw [List.map_congr_left hcr]; exact hg.own
  · refine ⟨fun q hq => h.next ▸ hg.fixed.alloc q hq, ?_, hreg, fun e he => (h.can _ (hmem e he)).dims,
      fun e he => (h.can _ (hmem e he)).wf.names, hF, fun t ht t' ht' => ?_⟩
    · rw [List.map_congr_left (f := fun e : ℕ × ℚ => (st'.objs e.1).cfg)
        (g := fun e => (st.objs e.1).cfg) fun e he => hcr _ (hmem e he)]
      exact hg.fixed.own
    · exact ⟨(hX t' ht').1.trans (hX t ht).1.symm, (hX t' ht').2.trans (hX t ht).2.symm⟩

section

variable {roi : Dict (ℚ × ℚ)} {qs : List ℕ} (h : SameObjects roi qs st st')
  (hf : ∀ q ∈ a.floating, q ∈ qs)

include h

theorem length {q : ℕ} (hq : q ∈ qs) : (st'.view q).cfg.length = (st.view q).cfg.length := by
  have := congrArg List.length (h.names q hq)
  simpa using this

theorem roiNames {q : ℕ} (hq : q ∈ qs) {r : Dict (ℚ × ℚ)} {ns : List PyStr}
    (hn : RoiNames (st.view q).cfg r ns) : RoiNames (st'.view q).cfg r ns := by
  refine List.Forall₂.imp (fun e n he => ?_) hn
  obtain ⟨h1, p, hp, rfl⟩ := he
  have : p.name ∈ (st'.view q).cfg.map SPar.name := by
    rw [h.names q hq]; exact List.mem_map_of_mem hp
  obtain ⟨p', hp', he⟩ := List.mem_map.1 this
  exact ⟨h1, p', hp', he⟩

include hf

theorem settings (hs : a.Settings st) : a.Settings st' := by
  refine ⟨fun hfl => ?_, hs.fixed, by rw [h.params]; exact hs.dimension, hs.perBin⟩
  rcases hs.floating hfl with h1 | ⟨r, hr, h2⟩
  · exact .inl h1
  · exact .inr ⟨r, hr, by rw [(h.rest r (hf r hr)).2.2]; exact h2⟩

theorem ownPars : a.ownPars st' = a.ownPars st := by
  unfold FitArgs.ownPars
  rw [List.flatMap_def, List.flatMap_def, List.map_congr_left fun r hr => by
    rw [(h.rest r (hf r hr)).2.2]]

theorem parameters : a.parameters st' = a.parameters st := by
  unfold FitArgs.parameters
  rw [h.ownPars hf]

theorem penaltyAt (u : List ℝ) : a.penaltyAt st' u = a.penaltyAt st u := by
  unfold FitArgs.penaltyAt
  rw [h.parameters hf, h.params]

theorem ownRates (ho : a.OwnRates st) : a.OwnRates st' := by
  refine ⟨ho.floating, ho.config, fun r hr => ?_, ?_, ho.statPerBin, ho.perBin⟩
  · rw [(h.rest r (hf r hr)).2.2]; exact ho.one r hr
  · rw [h.parameters hf, h.params]; exact ho.sigmas

end

theorem evaluable (h : SameObjects (inOrder a.roi) (a.kept ++ a.fixed.map Prod.fst) st st')
    {env : FitEnv} {keyOf : ℕ → PyStr} {d : ℕ}
    (hdec : ∀ q ∈ a.floating ++ a.signal.toList, (st'.view q).numDecays = (st.view q).numDecays)
    (he : a.Evaluable env keyOf d st) : a.Evaluable env keyOf d st' := by
  have hf : ∀ q ∈ a.floating, q ∈ a.kept ++ a.fixed.map Prod.fst := fun q hq => by
    simp [FitArgs.kept, hq]
  have hfs : ∀ q ∈ a.floating ++ a.signal.toList, q ∈ a.kept ++ a.fixed.map Prod.fst := fun q hq => by
    rcases List.mem_append.1 hq with hq | hq <;> simp only [FitArgs.kept, List.mem_append] <;> tauto
  have hd : d ∈ a.kept ++ a.fixed.map Prod.fst := by simp [FitArgs.kept, he.data]
  refine ⟨he.data, he.str, h.cache.trans he.cache, ?_, fun r hr => ?_, fun p hp => ?_,
    fun r hr => by rw [hdec r hr]; exact he.decays r hr, ?_, ?_, ?_, ?_⟩
  · rw [List.map_congr_left fun q hq => (h.rest q (hfs q hq)).1]; exact he.backgrounds
  · refine h.axes r ?_ d hd (he.axes r hr)
    rcases List.mem_append.1 hr with hr | hr
    · exact hfs r hr
    · exact List.mem_append_right _ hr
  · have : p.name ∈ (st.view d).cfg.map SPar.name := by
      rw [← h.names d hd]; exact List.mem_map_of_mem hp
    obtain ⟨p', hp', hn⟩ := List.mem_map.1 this
    obtain ⟨dim, hdim⟩ := he.dims p' hp'
    exact ⟨dim, hn ▸ hdim⟩
  · rw [h.ownPars hf]; exact he.names
  · rw [h.parameters hf]; exact he.pars
  · rw [h.params]; exact he.globals
  · rw [h.ownPars hf, h.params]; exact he.rates

theorem limitOn {r d : ℕ}
    (h : SameObjects (inOrder a.roi) ((a.withSignal r).kept ++ a.fixed.map Prod.fst) st st')
    (hdec : ∀ q ∈ r :: (a.floating ++ a.fixed.map Prod.fst),
      (st'.view q).numDecays = (st.view q).numDecays) {ts : List Spectrum}
    (hl : a.LimitOn r d ts st) : ∃ ts', a.LimitOn r d ts' st' := by
  have hd : d ∈ (a.withSignal r).kept := by simp [FitArgs.kept, hl.data]
  have hdm := List.mem_append_left (a.fixed.map Prod.fst) hd
  have hrm : r ∈ (a.withSignal r).kept ++ a.fixed.map Prod.fst := by simp [FitArgs.kept]
  obtain ⟨ts', hg⟩ := SameObjects.given (a := a.withSignal r) h hl.given
    (fun q hq => hdec q (List.mem_cons_of_mem _ (List.mem_append_right _ hq))) hd
    fun q hq => hl.axes q (List.mem_append_right _ hq)
  refine ⟨ts', hg, h.settings (fun q hq => by simp [FitArgs.kept, hq]) hl.settings, hl.signal, hl.data,
    fun q hq => h.axes q hq d hdm (hl.axes q hq), by rw [(h.rest r hrm).2.2]; exact hl.fit,
    by rw [hdec r (by simp)]; exact hl.decays, by rw [h.length hdm]; exact hl.region⟩

end SameObjects

end Verif
