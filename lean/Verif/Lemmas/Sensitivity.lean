import Verif.Model.Sensitivity
import Verif.Lemmas.LimitWhole

/-! Helper lemmas: sensitivity studies. -/

namespace Verif

open Session

/-- Only contents, decays and counts of spectra change. -/
structure Refilled (s s' : FitState) : Prop where
  cfgs : s'.cfgs = s.cfgs
  cfg : ∀ q, (s'.objs q).cfg = (s.objs q).cfg
  shape : ∀ q, (s'.objs q).data.shape = (s.objs q).data.shape
  next : s'.next = s.next
  params : s'.params = s.params
  cache : s'.cache = s.cache
  fit : ∀ q, (s'.objs q).fit = (s.objs q).fit
  background : ∀ q, (s'.objs q).background = (s.objs q).background

theorem Refilled.refl (s : FitState) : Refilled s s :=
  ⟨rfl, fun _ => rfl, fun _ => rfl, rfl, rfl, rfl, fun _ => rfl, fun _ => rfl⟩

theorem Refilled.trans {s t u : FitState} (h : Refilled s t) (h' : Refilled t u) : Refilled s u :=
  ⟨h'.cfgs.trans h.cfgs, fun q => (h'.cfg q).trans (h.cfg q), fun q => (h'.shape q).trans (h.shape q),
    h'.next.trans h.next, h'.params.trans h.params, h'.cache.trans h.cache,
    fun q => (h'.fit q).trans (h.fit q), fun q => (h'.background q).trans (h.background q)⟩

theorem Refilled.view_cfg {s t : FitState} (h : Refilled s t) (q : ℕ) :
    (t.view q).cfg = (s.view q).cfg := by
  show t.cfgs (t.objs q).cfg = s.cfgs (s.objs q).cfg
  rw [h.cfgs, h.cfg]

theorem Refilled.view_shape {s t : FitState} (h : Refilled s t) (q : ℕ) :
    (t.view q).data.shape = (s.view q).data.shape := h.shape q

/-- Writing a spectrum with the same axes. -/
theorem refilled_write {s : FitState} {r : ℕ} {x : Spectrum} (hc : x.cfg = (s.view r).cfg)
    (hs : x.data.shape = (s.view r).data.shape) : Refilled s (s.write r x) := by
  refine ⟨FitState.write_cfgs_same _ _ _ hc, FitState.cfg_write _ _ _, ?_, rfl, rfl, rfl, ?_, ?_⟩
  all_goals
    intro q
    by_cases h : q = r
    · subst h
      simp only [FitState.write, Function.update_self]
      try exact hs
    · rw [FitState.objs_write_old _ _ _ h]

/-- Adding a spectrum with the same axes. -/
theorem addTo_run {s : FitState} {d r : ℕ} (hw : ((s.view d).cfg.map SPar.name).Nodup)
    (hc : (s.view r).cfg = (s.view d).cfg)
    (hs : (s.view r).data.shape = (s.view d).data.shape) :
    ∃ s', addTo d r s = (s', .ok ()) ∧ Refilled s s' ∧ (∀ q, q ≠ d → s'.view q = s.view q) ∧
      (s'.view d).numDecays = (s.view d).numDecays + (s.view r).numDecays ∧
      ∀ idx, InB (s.view d).data.shape idx →
        (s'.view d).data.get idx = (s.view d).data.get idx + (s.view r).data.get idx := by
  have hadd : ((s.view d).add (s.view r)).err = none := by
    rw [add_err_none]
    exact addCheck_same hw hc hs
  obtain ⟨a1, -, a3, -, a5, a6, a7, -⟩ := (c05_add _ _).1 hadd
  refine ⟨s.write d ((s.view d).add (s.view r)).st, ?_, refilled_write a7 a1, fun q hq => ?_, ?_,
    fun idx hi => ?_⟩
  · unfold addTo
    rw [FitM.read_bind]
    exact FitM.call_run (f := fun t => t.add (s.view r)) hadd
  · exact FitState.view_write_other _ _ _ a7 hq
  · rw [FitState.view_write_self]
    first | exact a5 | exact a6
  · rw [FitState.view_write_self]
    show NdArray.get _ idx = _
    rw [NdArray.norm_get (by rw [a1]; exact hi), a3]

/-- One background. -/
theorem studyRound_run {rnd : ℝ → ℚ} {rateOf : ℕ → Option ℕ} {s : FitState} {d r p : ℕ}
    (hp : rateOf r = some p) (hrd : r ≠ d) (hn : (s.view r).numDecays ≠ 0)
    (hw : ((s.view d).cfg.map SPar.name).Nodup) (hc : (s.view r).cfg = (s.view d).cfg)
    (hs : (s.view r).data.shape = (s.view d).data.shape) :
    ∃ s', studyRound rnd rateOf d r s = (s', .ok ()) ∧ Refilled s s' ∧
      (∀ q, q ≠ d → q ≠ r → s'.view q = s.view q) ∧
      s'.view r = { (s.view r).scale (rnd (s.params p).prior) |>.st with
        data := ((s.view r).scale (rnd (s.params p).prior)).st.data.norm } ∧
      ∀ idx, InB (s.view d).data.shape idx → (s'.view d).data.get idx = (s.view d).data.get idx +
        rnd (s.params p).prior / (s.view r).numDecays * (s.view r).data.get idx := by
  obtain ⟨c1, c2, -, -, c5, c6, -⟩ := (c09_scale (s.view r) (rnd (s.params p).prior)).1 hn
  have h1 := FitM.call_run (f := fun t => t.scale (rnd (s.params p).prior)) c1
  generalize hx : ((s.view r).scale (rnd (s.params p).prior)).st = x at *
  have hr1 : Refilled s (s.write r x) := refilled_write c6 c5
  have hv : ∀ q, q ≠ r → (s.write r x).view q = s.view q := fun q hq =>
    FitState.view_write_other _ _ _ c6 hq
  have hvr := FitState.view_write_self s r x
  obtain ⟨s', k1, k2, k3, -, k5⟩ := addTo_run (s := s.write r x) (d := d) (r := r)
    (by rw [hr1.view_cfg]; exact hw) (by rw [hr1.view_cfg, hr1.view_cfg]; exact hc)
    (by rw [hr1.view_shape, hr1.view_shape]; exact hs)
  refine ⟨s', ?_, hr1.trans k2, fun q h1 h2 => (k3 q h1).trans (hv q h2), (k3 r hrd).trans hvr,
    fun idx hi => ?_⟩
  · unfold studyRound
    rw [hp]
    dsimp only
    rw [FitM.read_bind, FitM.bind_ok h1]
    exact k1
  · rw [k5 idx (by rw [hr1.view_shape]; exact hi), hv d hrd.symm, hvr]
    congr 1
    show NdArray.get _ idx = _
    rw [NdArray.norm_get (by rw [c5, hs]; exact hi), c2]
    ring

/-- All backgrounds. -/
theorem study_loop {rnd : ℝ → ℚ} {rateOf : ℕ → Option ℕ} {d : ℕ} {P : ℕ → Param} (par : ℕ → ℕ)
    {l : List ℕ} {s : FitState} (hP : s.params = P) (hp : ∀ r ∈ l, rateOf r = some (par r))
    (hl : l.Nodup) (hd : d ∉ l)
    (hn : ∀ r ∈ l, (s.view r).numDecays ≠ 0) (hw : ((s.view d).cfg.map SPar.name).Nodup)
    (hc : ∀ r ∈ l, (s.view r).cfg = (s.view d).cfg)
    (hs : ∀ r ∈ l, (s.view r).data.shape = (s.view d).data.shape) :
    ∃ s', l.forM (studyRound rnd rateOf d) s = (s', .ok ()) ∧ Refilled s s' ∧
      (∀ q, q ≠ d → q ∉ l → s'.view q = s.view q) ∧
      (∀ r ∈ l, s'.view r = { (s.view r).scale (rnd (P (par r)).prior) |>.st with
        data := ((s.view r).scale (rnd (P (par r)).prior)).st.data.norm }) ∧
      ∀ idx, InB (s.view d).data.shape idx → (s'.view d).data.get idx = (s.view d).data.get idx +
        (l.map (fun r => rnd (P (par r)).prior / (s.view r).numDecays *
          (s.view r).data.get idx)).sum := by
  induction l generalizing s with
  | nil =>
    exact ⟨s, rfl, .refl s, fun _ _ _ => rfl, by simp, fun idx _ => by simp⟩
  | cons r l ih =>
    rw [List.nodup_cons] at hl
    have hrd : r ≠ d := fun h => hd (by simp [h])
    obtain ⟨s1, h1, h2, h3, h4, h5⟩ := studyRound_run (rnd := rnd) (hp r (by simp)) hrd (hn r (by simp)) hw
      (hc r (by simp)) (hs r (by simp))
    have hv : ∀ q ∈ l, s1.view q = s.view q := fun q hq =>
      h3 q (fun h => hd (by simp [← h, hq])) (fun h => hl.1 (h ▸ hq))
    obtain ⟨s2, k1, k2, k3, k4, k5⟩ := ih (s := s1) (by rw [h2.params, hP])
      (fun q hq => hp q (List.mem_cons_of_mem _ hq)) hl.2 (fun h => hd (List.mem_cons_of_mem _ h))
      (fun q hq => by rw [hv q hq]; exact hn q (List.mem_cons_of_mem _ hq))
      (by rw [h2.view_cfg]; exact hw)
      (fun q hq => by rw [h2.view_cfg, h2.view_cfg]; exact hc q (List.mem_cons_of_mem _ hq))
      (fun q hq => by rw [h2.view_shape, h2.view_shape]; exact hs q (List.mem_cons_of_mem _ hq))
    rw [hP] at h4 h5
    refine ⟨s2, ?_, h2.trans k2, ?_, ?_, ?_⟩
    · rw [forM_cons_run, h1]
      exact k1
    · intro q hq hm
      rw [k3 q hq (fun h => hm (List.mem_cons_of_mem _ h)), h3 q hq (fun h => hm (by simp [h]))]
    · intro q hq
      rcases List.mem_cons.1 hq with rfl | hq
      · rw [k3 q hrd hl.1, h4]
      · rw [k4 q hq, hv q hq]
    · intro idx hi
      rw [k5 idx (by rw [h2.view_shape]; exact hi), h5 idx hi, List.map_cons, List.sum_cons, add_assoc]
      congr 3
      exact List.map_congr_left fun q hq => by rw [hv q hq]

/-- Shrinking to the region a spectrum that has exactly this region changes nothing. -/
theorem shrink_has_region {roi : Dict (ℚ × ℚ)} (hr : IsDict roi) {s : Spectrum} (h : CanShrink roi s)
    (hreg : HasRegion s.cfg roi) {kw : List (PyStr × ℚ)} (hk : AsksRoi s.cfg roi kw) :
    (s.shrink kw).err = none ∧ (s.shrink kw).st.Eqv s := by
  obtain ⟨rs, ⟨a1, a2, a3⟩, -⟩ := h.shrunk hr hk
  have hbin : ∀ p ∈ s.cfg, ((p.bins.toNat : ℕ) : ℤ) = p.bins := fun p hp => by
    have := (h.wf.axes p hp).1
    omega
  have hlow : ∀ p : SPar, p.edge 0 = p.low := fun p => by simp [SPar.edge_eq]
  have hhigh : ∀ p ∈ s.cfg, p.edge ((p.bins.toNat : ℕ) : ℤ) = p.high := fun p hp => by
    rw [hbin p hp, SPar.edge_eq, ← (h.wf.axes p hp).high_eq]
  have hrs : AsksEdges s kw (s.cfg.map (fun p => (0, p.bins.toNat))) := by
    refine ⟨a1, a2, ?_⟩
    rw [List.forall₂_map_right_iff, List.forall₂_same]
    intro p hp
    have key : Asked kw (p.name ++ lit "_low") p.low p.low ∧
        Asked kw (p.name ++ lit "_high") p.high p.high := by
      by_cases hx : ∃ e ∈ roi, OfDim p.name e.1
      · obtain ⟨e, her, hpd⟩ := hx
        obtain ⟨q, hq, hqd, e1, e2⟩ := hreg e her
        obtain rfl : p = q := h.dims p hp q hq e.1 (.inl hpd) (.inl hqd)
        obtain ⟨b1, b2⟩ := asksRoi_asked h.dims hk her hp hpd
        exact ⟨.inl (e1 ▸ b1), .inl (e2 ▸ b2)⟩
      · refine ⟨.inr ⟨fun v hv => ?_, rfl⟩, .inr ⟨fun v hv => ?_, rfl⟩⟩
        all_goals
          obtain ⟨e, her, q, hq, hqd, hk⟩ := asksRoi_mem hk hv
          rcases hk with hk | hk
          all_goals
            simp only [Prod.mk.injEq] at hk
            first
            | exact low_ne_high hk.1
            | exact low_ne_high hk.1.symm
            | rw [← List.append_cancel_right hk.1] at hqd
              exact hx ⟨e, her, hqd⟩
    refine ⟨Nat.zero_le _, (hbin p hp).le, ?_, ?_⟩
    · show Asked kw _ _ (p.edge 0)
      rw [hlow]; exact key.1
    · show Asked kw _ _ (p.edge ((p.bins.toNat : ℕ) : ℤ))
      rw [hhigh p hp]; exact key.2
  obtain ⟨h3, h4⟩ := c16_shrink_edges s h.wf h.aligned kw _ hrs
  refine ⟨h3, isSub_unique h4 ⟨⟨?_, ?_⟩, ?_, rfl, rfl, rfl, rfl⟩⟩
  · have := congrArg (List.map Int.toNat) h.wf.shape
    rw [List.map_map, List.map_map] at this
    rw [List.map_map]
    refine Eq.trans ?_ (this.trans rfl)
    conv_lhs => rw [← List.map_id s.data.shape]
    exact List.map_congr_left fun n _ => by simp
  · intro idx hi
    congr 1
    have hl : idx.length = s.cfg.length := by
      rw [hi.length_eq, shape_length h.wf]
    clear * - hl
    generalize s.cfg = l at hl
    induction l generalizing idx with
    | nil => rw [List.length_eq_zero_iff.1 hl]; rfl
    | cons p l ih =>
      cases idx with
      | nil => simp at hl
      | cons i idx =>
        rw [List.map_cons, List.zipWith_cons_cons, ← ih idx (by simpa using hl), Nat.zero_add]
  · rw [List.zipWith_map_right, List.zipWith_self]
    conv_lhs => rw [← List.map_id s.cfg]
    refine List.map_congr_left fun p hp => ?_
    have e1 := hlow p
    have e2 := hhigh p hp
    have e3 := hbin p hp
    simp only [subAxis, id, Nat.cast_zero, e1, sub_zero]
    rw [e2, e3]

/-- Setting data that have exactly the region. -/
theorem setData_has_region {ses : Session} {s : FitState} {d : ℕ} (hr : IsDict ses.roi)
    (h : CanShrink ses.roi (s.view d)) (hreg : HasRegion (s.view d).cfg ses.roi) :
    ∃ s' ps, ses.setData s d = (({ ses with data := some d, dataPars := some ps }, s'), .ok ()) ∧
      RoiNames (s.view d).cfg ses.roi ps ∧ Refilled s s' ∧ (∀ q, q ≠ d → s'.view q = s.view q) ∧
      (s.view d).Eqv (s'.view d) := by
  obtain ⟨kw, hk⟩ := h.asks
  obtain ⟨h1, h2⟩ := shrink_has_region hr h hreg hk
  obtain ⟨⟨b1, b2, b3, b4, b5⟩, c1, c2⟩ := h2
  obtain ⟨s', ps, k1, k2, k3, -, -⟩ := shrink_setter hr h
  have hkw : roiKw (s.view d).pars ses.roi = .ok kw := roiKw_of_asks h.dims hk hr
  have k1' := k1
  rw [shrinkSpectra_run, hkw] at k1'
  dsimp only at k1'
  rw [FitM.call_run (f := fun t => t.shrink kw) h1] at k1'
  obtain rfl : s.write d ((s.view d).shrink kw).st = s' := (Prod.mk.inj k1').1
  have hF : Refilled s (s.write d ((s.view d).shrink kw).st) := refilled_write b2.symm c1
  refine ⟨_, ps, ?_, ?_, hF, fun q hq => FitState.view_write_other _ _ _ b2.symm hq, ?_⟩
  · unfold setData
    have : shrinkOrCheck ses.roi true d s = shrinkSpectra ses.roi d s := rfl
    rw [this, k1]
    dsimp only
    rw [k2]
  · rw [hF.view_cfg] at k3; exact k3
  · rw [FitState.view_write_self]
    refine ⟨⟨b1.symm, b2.symm, b3.symm, b4.symm, b5.symm⟩, c1.symm, fun idx hi => ?_⟩
    show _ = NdArray.get _ idx
    rw [NdArray.norm_get (by rw [c1]; exact hi), c2 idx (by rw [c1]; exact hi)]

end Verif
