import Verif.Spec.FitSession
import Verif.Props.FitFixed
import Verif.Props.Shrink

/-! Helper lemmas: shrinking to a region of interest. -/

namespace Verif

theorem asksRoi_exists {axes : List SPar} {roi : Dict (ℚ × ℚ)}
    (h : ∀ e ∈ roi, ∃ p ∈ axes, OfDim p.name e.1) : ∃ kw, AsksRoi axes roi kw := by
  induction roi with
  | nil => exact ⟨[], .nil⟩
  | cons e roi ih =>
    obtain ⟨kw, hkw⟩ := ih fun e he => h e (List.mem_cons_of_mem _ he)
    obtain ⟨p, hp, hd⟩ := h e List.mem_cons_self
    obtain ⟨dim, low, high⟩ := e
    exact ⟨_, .cons p dim low high roi kw hp hd hkw⟩

theorem asksRoi_mem {axes : List SPar} {roi : Dict (ℚ × ℚ)} {kw : List (PyStr × ℚ)}
    (h : AsksRoi axes roi kw) {k : PyStr × ℚ} (hk : k ∈ kw) :
    ∃ e ∈ roi, ∃ p ∈ axes, OfDim p.name e.1 ∧
      (k = (p.name ++ lit "_low", e.2.1) ∨ k = (p.name ++ lit "_high", e.2.2)) := by
  induction h with
  | nil => cases hk
  | cons p dim low high roi kw hp hd _ ih =>
    rcases List.mem_cons.1 hk with rfl | hk
    · exact ⟨_, List.mem_cons_self, p, hp, hd, .inl rfl⟩
    · rcases List.mem_cons.1 hk with rfl | hk
      · exact ⟨_, List.mem_cons_self, p, hp, hd, .inr rfl⟩
      · obtain ⟨e, he, h⟩ := ih hk
        exact ⟨e, List.mem_cons_of_mem _ he, h⟩

theorem asksRoi_asked {axes : List SPar} (hd : DistinctDims axes) {roi : Dict (ℚ × ℚ)}
    {kw : List (PyStr × ℚ)} (h : AsksRoi axes roi kw) {e : PyStr × (ℚ × ℚ)} (he : e ∈ roi)
    {p : SPar} (hp : p ∈ axes) (hpd : OfDim p.name e.1) :
    (p.name ++ lit "_low", e.2.1) ∈ kw ∧ (p.name ++ lit "_high", e.2.2) ∈ kw := by
  induction h with
  | nil => cases he
  | cons q dim low high roi kw hq hqd _ ih =>
    rcases List.mem_cons.1 he with rfl | he
    · obtain rfl : p = q := hd p hp q hq dim (.inl hpd) (.inl hqd)
      simp
    · have := ih he
      exact ⟨by simp [this.1], by simp [this.2]⟩

theorem dict_unique {kw : List (PyStr × ℚ)} (h : IsDict kw) {k : PyStr} {v w : ℚ}
    (hv : (k, v) ∈ kw) (hw : (k, w) ∈ kw) : v = w := by
  have := List.inj_on_of_nodup_map h hv hw rfl
  exact (Prod.mk.injEq _ _ _ _ ▸ this).2

theorem ofDim_unique {n d d' : PyStr} (h : OfDim n d) (h' : OfDim n d') : d = d' := by
  obtain ⟨t, ht, rfl⟩ := h
  obtain ⟨t', ht', h⟩ := h'
  have h1 := getDim_append ht (d := d)
  have h2 := getDim_append ht' (d := d')
  rw [h, h2] at h1
  exact h1.symm

theorem asksRoi_isDict {axes : List SPar} {roi : Dict (ℚ × ℚ)} (hr : IsDict roi)
    {kw : List (PyStr × ℚ)} (h : AsksRoi axes roi kw) : IsDict kw := by
  unfold IsDict at hr ⊢
  induction h with
  | nil => simp
  | cons p dim low high roi kw hp hd h ih =>
    rw [List.map_cons, List.nodup_cons] at hr
    have key : ∀ k ∈ kw, k.1 ≠ p.name ++ lit "_low" ∧ k.1 ≠ p.name ++ lit "_high" := by
      intro k hk
      obtain ⟨e, he, q, hq, hqd, hk⟩ := asksRoi_mem h hk
      have hne : q.name ≠ p.name := by
        intro hqp
        rw [hqp] at hqd
        have := ofDim_unique hd hqd
        exact hr.1 (List.mem_map.2 ⟨e, he, this.symm⟩)
      rcases hk with rfl | rfl
      · exact ⟨fun h => hne (List.append_cancel_right h), low_ne_high⟩
      · exact ⟨fun h => low_ne_high h.symm, fun h => hne (List.append_cancel_right h)⟩
    simp only [List.map_cons, List.nodup_cons, List.mem_cons, List.mem_map, not_or]
    refine ⟨⟨low_ne_high, ?_⟩, ?_, ih hr.2⟩
    · rintro ⟨k, hk, h⟩; exact (key k hk).1 h
    · rintro ⟨k, hk, h⟩; exact (key k hk).2 h

open Classical in
/-- Asking for a region on bin edges asks for bin edges on every axis. -/
theorem asksEdges_of_roi {s : Spectrum} (hs : s.WF) (hd : DistinctDims s.cfg)
    {roi : Dict (ℚ × ℚ)} (hr : IsDict roi) (he : RoiOnEdges roi s.cfg) {kw : List (PyStr × ℚ)}
    (h : AsksRoi s.cfg roi kw) :
    ∃ rs, AsksEdges s kw rs ∧ ∀ r ∈ rs, r.1 < r.2 := by
  have hax : ∀ p ∈ s.cfg, ∃ r : ℕ × ℕ, r.1 < r.2 ∧ (r.2 : ℤ) ≤ p.bins ∧
      Asked kw (p.name ++ lit "_low") p.low (p.edge r.1) ∧
      Asked kw (p.name ++ lit "_high") p.high (p.edge r.2) := by
    intro p hp
    by_cases hx : ∃ e ∈ roi, OfDim p.name e.1
    · obtain ⟨e, her, hpd⟩ := hx
      obtain ⟨i, j, hij, hj, h1, h2⟩ := he e her p hp hpd
      obtain ⟨a, b⟩ := asksRoi_asked hd h her hp hpd
      exact ⟨(i, j), hij, hj, .inl (h1 ▸ a), .inl (h2 ▸ b)⟩
    · have hb := hs.axes p hp
      have hpos := hb.1
      refine ⟨(0, p.bins.toNat), by simp; omega, by simp; omega, .inr ⟨?_, ?_⟩, .inr ⟨?_, ?_⟩⟩
      · intro v hv
        obtain ⟨e, her, q, hq, hqd, hk⟩ := asksRoi_mem h hv
        rcases hk with hk | hk
        · simp only [Prod.mk.injEq] at hk
          rw [← List.append_cancel_right hk.1] at hqd
          exact hx ⟨e, her, hqd⟩
        · simp only [Prod.mk.injEq] at hk
          exact low_ne_high hk.1
      · simp [SPar.edge_eq]
      · intro v hv
        obtain ⟨e, her, q, hq, hqd, hk⟩ := asksRoi_mem h hv
        rcases hk with hk | hk
        · simp only [Prod.mk.injEq] at hk
          exact low_ne_high hk.1.symm
        · simp only [Prod.mk.injEq] at hk
          rw [← List.append_cancel_right hk.1] at hqd
          exact hx ⟨e, her, hqd⟩
      · have hh := hb.high_eq
        have hbn : ((p.bins.toNat : ℕ) : ℤ) = p.bins := by omega
        show p.edge ((p.bins.toNat : ℕ) : ℤ) = _
        rw [hbn, SPar.edge_eq, hh]
  have hk : BoundKeys s kw := by
    intro k hk
    obtain ⟨e, -, p, hp, -, hk⟩ := asksRoi_mem h hk
    exact ⟨p, hp, hk.imp (fun h => by rw [h]) (fun h => by rw [h])⟩
  have : ∀ axes : List SPar, (∀ p ∈ axes, p ∈ s.cfg) →
      ∃ rs : List (ℕ × ℕ), List.Forall₂ (fun (p : SPar) (r : ℕ × ℕ) => r.1 ≤ r.2 ∧ (r.2 : ℤ) ≤ p.bins ∧
        Asked kw (p.name ++ lit "_low") p.low (p.edge r.1) ∧
        Asked kw (p.name ++ lit "_high") p.high (p.edge r.2)) axes rs ∧ ∀ r ∈ rs, r.1 < r.2 := by
    intro axes
    induction axes with
    | nil => intro _; exact ⟨[], .nil, by simp⟩
    | cons p axes ih =>
      intro hsub
      obtain ⟨rs, h1, h2⟩ := ih fun q hq => hsub q (List.mem_cons_of_mem _ hq)
      obtain ⟨r, hlt, hr⟩ := hax p (hsub p List.mem_cons_self)
      refine ⟨r :: rs, .cons ⟨hlt.le, hr⟩ h1, ?_⟩
      intro r' hr'
      rcases List.mem_cons.1 hr' with rfl | hr'
      · exact hlt
      · exact h2 r' hr'
  obtain ⟨rs, h1, h2⟩ := this s.cfg fun _ h => h
  exact ⟨rs, ⟨asksRoi_isDict hr h, hk, h1⟩, h2⟩

/-- A shrink to a region on bin edges gives axes with the range of the region. -/
theorem shrink_region {s : Spectrum} (h : s.WF) (ha : ∀ p ∈ s.cfg, p.Aligned)
    (hd : DistinctDims s.cfg) {roi : Dict (ℚ × ℚ)} (hr : IsDict roi) (he : RoiOnEdges roi s.cfg)
    {kw : List (PyStr × ℚ)} (hk : AsksRoi s.cfg roi kw) :
    (s.shrink kw).err = none ∧ HasRegion (s.shrink kw).st.cfg roi ∧ (s.shrink kw).st.WF := by
  obtain ⟨rs, h1, h2⟩ := asksEdges_of_roi h hd hr he hk
  obtain ⟨h3, h4⟩ := c16_shrink_edges s h ha kw rs h1
  refine ⟨h3, ?_, isSub_wf h h4 h2 h1.2.2.length_eq.symm⟩
  intro e her
  obtain ⟨p, hp, hpd⟩ := asksRoi_dims hk e her
  obtain ⟨a, b⟩ := asksRoi_asked hd hk her hp hpd
  have hkd := h1.1
  rw [h4.2.1]
  have hF := h1.2.2
  have : ∀ (axes : List SPar) (rs : List (ℕ × ℕ)), List.Forall₂ (fun (p : SPar) (r : ℕ × ℕ) =>
      r.1 ≤ r.2 ∧ (r.2 : ℤ) ≤ p.bins ∧ Asked kw (p.name ++ lit "_low") p.low (p.edge r.1) ∧
        Asked kw (p.name ++ lit "_high") p.high (p.edge r.2)) axes rs → p ∈ axes →
      ∃ q ∈ List.zipWith subAxis axes rs, OfDim q.name e.1 ∧ q.low = e.2.1 ∧ q.high = e.2.2 := by
    intro axes rs hF hp
    induction hF with
    | nil => cases hp
    | cons h _ ih =>
      rcases List.mem_cons.1 hp with rfl | hp
      · refine ⟨_, List.mem_cons_self, hpd, ?_, ?_⟩
        · rcases h.2.2.1 with hx | ⟨hx, -⟩
          · exact dict_unique hkd hx a
          · exact absurd a (hx _)
        · rcases h.2.2.2 with hx | ⟨hx, -⟩
          · exact dict_unique hkd hx b
          · exact absurd b (hx _)
      · obtain ⟨q, hq, h⟩ := ih hp
        exact ⟨q, List.mem_cons_of_mem _ hq, h⟩
  exact this _ _ hF hp

end Verif
