import Verif.Spec.FitInit
import Verif.Props.FitSession
import Verif.Lemmas.FitFrame

/-! Helper lemmas: the constructor of fits. -/

namespace Verif

open Session

/-! ### shrinking once and twice -/

theorem distinctDims_names {axes axes' : List SPar} (hd : DistinctDims axes)
    (hn : axes'.map SPar.name = axes.map SPar.name) (hnd : (axes.map SPar.name).Nodup) :
    DistinctDims axes' := by
  intro p hp q hq d h1 h2
  have key : ∀ x ∈ axes', ∃ y ∈ axes, y.name = x.name := by
    intro x hx
    have : x.name ∈ axes.map SPar.name := by rw [← hn]; exact List.mem_map_of_mem hx
    obtain ⟨y, hy, h⟩ := List.mem_map.1 this
    exact ⟨y, hy, h⟩
  obtain ⟨p', hp', e1⟩ := key p hp
  obtain ⟨q', hq', e2⟩ := key q hq
  have := hd p' hp' q' hq' d (e1 ▸ h1) (e2 ▸ h2)
  refine List.inj_on_of_nodup_map (hn ▸ hnd) hp hq ?_
  rw [← e1, ← e2, this]

theorem asksRoi_names {axes axes' : List SPar} (hn : axes'.map SPar.name = axes.map SPar.name)
    {roi : Dict (ℚ × ℚ)} {kw : List (PyStr × ℚ)} (h : AsksRoi axes roi kw) :
    AsksRoi axes' roi kw := by
  induction h with
  | nil => exact .nil
  | cons p dim low high roi kw hp hd _ ih =>
    have : p.name ∈ axes'.map SPar.name := by rw [hn]; exact List.mem_map_of_mem hp
    obtain ⟨q, hq, h⟩ := List.mem_map.1 this
    rw [← h]
    exact .cons q dim low high roi kw hq (h ▸ hd) ih

/-- Axes with exactly the region can be shrunk to it. -/
theorem canShrink_of_region {roi : Dict (ℚ × ℚ)} {s : Spectrum} (hs : s.WF)
    (ha : ∀ p ∈ s.cfg, p.Aligned) (hd : DistinctDims s.cfg) (h : HasRegion s.cfg roi) :
    CanShrink roi s where
  wf := hs
  aligned := ha
  dims := hd
  edges := by
    intro e he p hp hpd
    obtain ⟨q, hq, hqd, h1, h2⟩ := h e he
    obtain rfl : p = q := hd p hp q hq e.1 (.inl hpd) (.inl hqd)
    have hb := hs.axes p hp
    have h0 := hb.1
    have hbn : ((p.bins.toNat : ℕ) : ℤ) = p.bins := by omega
    refine ⟨0, p.bins.toNat, by omega, by omega, ?_, ?_⟩
    · rw [← h1]; simp [SPar.edge_eq]
    · rw [← h2, hbn, SPar.edge_eq, ← hb.high_eq]
  has := by
    intro e he
    obtain ⟨q, hq, hqd, -⟩ := h e he
    exact ⟨q, hq, hqd⟩

theorem CanShrink.congr {roi : Dict (ℚ × ℚ)} {s t : Spectrum} (h : CanShrink roi s)
    (hc : t.cfg = s.cfg) (hsh : t.data.shape = s.data.shape) : CanShrink roi t := by
  obtain ⟨⟨h1, h2, h3⟩, h4, h5, h6, h7⟩ := h
  exact ⟨⟨hc ▸ h1, hc ▸ h2, by rw [hc, hsh]; exact h3⟩, hc ▸ h4, hc ▸ h5, hc ▸ h6, hc ▸ h7⟩

theorem isSub_eqv {s t t' : Spectrum} {rs : List (ℕ × ℕ)} (h : IsSub s rs t) (he : t.Eqv t') :
    IsSub s rs t' := by
  obtain ⟨⟨a1, a2⟩, a3, a4, a5, a6, a7⟩ := h
  obtain ⟨⟨b1, b2, b3, b4, b5⟩, c1, c2⟩ := he
  refine ⟨⟨c1 ▸ a1, fun idx hi => ?_⟩, b2.trans a3, b1.trans a4, b3.trans a5, b4.trans a6, b5.trans a7⟩
  rw [← c2 idx (by rw [c1]; exact hi)]
  exact a2 idx (by rw [c1]; exact hi)

/-- What a shrink to the region does. -/
theorem CanShrink.shrunk {roi : Dict (ℚ × ℚ)} (hr : IsDict roi) {s : Spectrum} (h : CanShrink roi s)
    {kw : List (PyStr × ℚ)} (hk : AsksRoi s.cfg roi kw) :
    ∃ rs, AsksEdges s kw rs ∧ (∀ r ∈ rs, r.1 < r.2) ∧ (s.shrink kw).err = none ∧
      IsSub s rs (s.shrink kw).st := by
  obtain ⟨rs, h1, h2⟩ := asksEdges_of_roi h.wf h.dims hr h.edges hk
  obtain ⟨h3, h4⟩ := c16_shrink_edges s h.wf h.aligned kw rs h1
  exact ⟨rs, h1, h2, h3, h4⟩

theorem CanShrink.asks {roi : Dict (ℚ × ℚ)} {s : Spectrum} (h : CanShrink roi s) :
    ∃ kw, AsksRoi s.cfg roi kw := asksRoi_exists h.has

theorem shrunkTo_cfg {roi : Dict (ℚ × ℚ)} {s t : Spectrum} (h : ShrunkTo roi s t) :
    t.cfg.map SPar.name = s.cfg.map SPar.name := by
  obtain ⟨kw, -, -, he⟩ := h
  rw [he.1.2.1, shrink_names]

theorem ShrunkTo.region {roi : Dict (ℚ × ℚ)} (hr : IsDict roi) {s t : Spectrum} (hs : CanShrink roi s)
    (h : ShrunkTo roi s t) : HasRegion t.cfg roi ∧ CanShrink roi t := by
  have hn := shrunkTo_cfg h
  obtain ⟨kw, hk, -, he⟩ := h
  obtain ⟨rs, h1, h2, h3, h4⟩ := hs.shrunk hr hk
  obtain ⟨-, h5, h6⟩ := shrink_region hs.wf hs.aligned hs.dims hr hs.edges hk
  have h7 : HasRegion t.cfg roi := by rw [he.1.2.1]; exact h5
  have h8 := isSub_eqv h4 he
  exact ⟨h7, canShrink_of_region (isSub_wf hs.wf h8 h2 h1.2.2.length_eq.symm)
    (isSub_aligned hs.aligned h8 h2) (distinctDims_names hs.dims hn hs.wf.names) h7⟩

/-- Two shrinks are one. -/
theorem ShrunkTo.trans {roi : Dict (ℚ × ℚ)} (hr : IsDict roi) {s t u : Spectrum} (hs : CanShrink roi s)
    (h : ShrunkTo roi s t) (h' : ShrunkTo roi t u) : ShrunkTo roi s u := by
  have hn := shrunkTo_cfg h
  obtain ⟨-, hct⟩ := h.region hr hs
  obtain ⟨kw, hk, herr, he⟩ := h
  obtain ⟨kw', hk', herr', he'⟩ := h'
  obtain rfl : kw' = kw := by
    have e1 := roiKw_of_asks hct.dims hk' hr
    have e2 := roiKw_of_asks hct.dims (asksRoi_names hn hk) hr
    rw [e1] at e2
    cases e2; rfl
  refine ⟨kw', hk, herr, ?_⟩
  obtain ⟨rs, h1, h2, h3, h4⟩ := hs.shrunk hr hk
  have h8 := isSub_eqv h4 he
  -- the second shrink keeps everything
  have hag := asks_again hs.wf hs.aligned h1 h2
  have hag' : AsksEdges t kw' (rs.map (fun r => (0, r.2 - r.1))) := by
    unfold AsksEdges BoundKeys at hag ⊢
    rw [he.1.2.1]; exact hag
  obtain ⟨-, h9⟩ := c16_shrink_edges t hct.wf hct.aligned kw' _ hag'
  have h10 := isSub_comp h8 (isSub_eqv h9 he') h2 h1.2.2.length_eq.symm (by
    rw [List.forall₂_map_right_iff, List.forall₂_same]
    intro r _
    exact ⟨Nat.zero_le _, le_rfl⟩)
  have hz : List.zipWith compRange rs (rs.map (fun r => (0, r.2 - r.1))) = rs := by
    rw [List.zipWith_map_right, List.zipWith_self]
    conv_rhs => rw [← List.map_id rs]
    refine List.map_congr_left fun r hr => ?_
    have := h2 r hr
    ext <;> simp [compRange]; omega
  rw [hz] at h10
  exact isSub_unique h4 h10

/-- Nothing but the shrunk spectrum has changed. -/
structure ShrunkAt (roi : Dict (ℚ × ℚ)) (rs : List ℕ) (st st' : FitState) : Prop where
  next : st'.next = st.next
  refs : ∀ q, (st'.objs q).cfg = (st.objs q).cfg
  fit : ∀ q, (st'.objs q).fit = (st.objs q).fit
  shrunk : ∀ r ∈ rs, ShrunkTo roi (st.view r) (st'.view r)
  other : ∀ q, (∀ r ∈ rs, (st.objs q).cfg ≠ (st.objs r).cfg) → st'.view q = st.view q

theorem shrinkSpectra_canShrink {roi : Dict (ℚ × ℚ)} (hr : IsDict roi) {r : ℕ} {st : FitState}
    (h : CanShrink roi (st.view r)) :
    ∃ st', shrinkSpectra roi r st = (st', .ok ()) ∧ ShrunkAt roi [r] st st' ∧
      st'.params = st.params := by
  obtain ⟨kw, hk⟩ := h.asks
  obtain ⟨rs, h1, h2, h3, h4⟩ := h.shrunk hr hk
  rw [shrinkSpectra_run]
  have hkw : roiKw (st.view r).pars roi = .ok kw := roiKw_of_asks h.dims hk hr
  rw [hkw]
  refine ⟨_, FitM.call_run h3, ⟨rfl, FitState.cfg_write _ _ _, ?_, ?_, ?_⟩, rfl⟩
  · intro q
    by_cases hq : q = r
    · subst hq; simp only [FitState.write, Function.update_self]
    · rw [FitState.objs_write_old _ _ _ hq]
  · intro r' hr'
    rw [List.mem_singleton.1 hr']
    refine ⟨kw, hk, h3, ?_⟩
    rw [FitState.view_write_self]
    exact ⟨⟨rfl, rfl, rfl, rfl, rfl⟩, rfl, fun idx hi => (NdArray.norm_get hi).symm⟩
  · intro q hq
    have := hq r (by simp)
    exact FitState.view_write_old _ _ _ (fun h => this (by rw [h])) this

theorem ShrunkAt.refl (roi : Dict (ℚ × ℚ)) (st : FitState) : ShrunkAt roi [] st st :=
  ⟨rfl, fun _ => rfl, fun _ => rfl, by simp, fun _ _ => rfl⟩

theorem ShrunkAt.cons {roi : Dict (ℚ × ℚ)} {r : ℕ} {rs : List ℕ} {st st' st'' : FitState}
    (h : ShrunkAt roi [r] st st') (h' : ShrunkAt roi rs st' st'')
    (hn : ∀ r' ∈ rs, (st.objs r').cfg ≠ (st.objs r).cfg) : ShrunkAt roi (r :: rs) st st'' where
  next := h'.next.trans h.next
  refs q := (h'.refs q).trans (h.refs q)
  fit q := (h'.fit q).trans (h.fit q)
  shrunk := by
    intro r' hr'
    rcases List.mem_cons.1 hr' with rfl | hr'
    · rw [h'.other]
      · exact h.shrunk _ (by simp)
      · intro q hq
        rw [h.refs, h.refs]
        exact (hn q hq).symm
    · rw [← h.other r']
      · exact h'.shrunk r' hr'
      · intro q hq
        rw [List.mem_singleton.1 hq]
        exact hn r' hr'
  other := by
    intro q hq
    rw [h'.other, h.other]
    · intro r' hr'
      rw [List.mem_singleton.1 hr']
      exact hq r (by simp)
    · intro r' hr'
      rw [h.refs, h.refs]
      exact hq r' (List.mem_cons_of_mem _ hr')

theorem shrinkList_canShrink {roi : Dict (ℚ × ℚ)} (hr : IsDict roi) {rs : List ℕ} {st : FitState}
    (hn : (rs.map (fun r => (st.objs r).cfg)).Nodup) (h : ∀ r ∈ rs, CanShrink roi (st.view r)) :
    ∃ st', shrinkList roi rs st = (st', .ok ()) ∧ ShrunkAt roi rs st st' ∧
      st'.params = st.params := by
  unfold shrinkList
  induction rs generalizing st with
  | nil => exact ⟨st, rfl, .refl roi st, rfl⟩
  | cons r rs ih =>
    rw [List.map_cons, List.nodup_cons] at hn
    obtain ⟨st1, h1, h2, h3⟩ := shrinkSpectra_canShrink hr (h r (by simp))
    have hne : ∀ r' ∈ rs, (st.objs r').cfg ≠ (st.objs r).cfg := by
      intro r' hr' he
      exact hn.1 (List.mem_map.2 ⟨r', hr', he⟩)
    obtain ⟨st2, h4, h5, h6⟩ := ih (st := st1) (by
        have : rs.map (fun r => (st1.objs r).cfg) = rs.map (fun r => (st.objs r).cfg) :=
          List.map_congr_left fun r _ => h2.refs r
        rw [this]; exact hn.2)
      (by
        intro r' hr'
        rw [h2.other r']
        · exact h r' (List.mem_cons_of_mem _ hr')
        · intro q hq
          rw [List.mem_singleton.1 hq]
          exact hne r' hr')
    refine ⟨st2, ?_, h2.cons h5 hne, h6.trans h3⟩
    rw [forM_cons_run, h1]
    exact h4

/-! ### the setters -/

theorem roiPars_length {roi : Dict (ℚ × ℚ)} {s : Spectrum} {ps : List PyStr}
    (h : RoiNames s.cfg roi ps) : ps.length = roi.length := h.length_eq.symm

/-- Shrinking in a setter, and the names it notes. -/
theorem shrink_setter {roi : Dict (ℚ × ℚ)} (hr : IsDict roi) {r : ℕ} {st : FitState}
    (h : CanShrink roi (st.view r)) :
    ∃ st' ps, shrinkSpectra roi r st = (st', .ok ()) ∧ roiPars roi (st'.view r) = .ok ps ∧
      RoiNames (st'.view r).cfg roi ps ∧ ShrunkAt roi [r] st st' ∧ st'.params = st.params := by
  obtain ⟨st', h1, h2, h3⟩ := shrinkSpectra_canShrink hr h
  have h4 := h2.shrunk r (by simp)
  obtain ⟨ps, h5, h6⟩ := roiPars_shrunk h.dims (shrunkTo_cfg h4) (h4.region hr h).1
  exact ⟨st', ps, h1, h5, h6, h2, h3⟩

theorem mem_dictSet_imp {α : Type} {d : Dict α} {k : PyStr} {v : α} {e : PyStr × α}
    (h : e ∈ dictSet d k v) : e ∈ d ∨ e = (k, v) := by
  induction d with
  | nil => exact .inr (by simpa [dictSet] using h)
  | cons x d ih =>
    rw [dictSet] at h
    split at h
    · rcases List.mem_cons.1 h with h | h
      · exact .inr h
      · exact .inl (List.mem_cons_of_mem _ h)
    · rcases List.mem_cons.1 h with h | h
      · exact .inl (h ▸ List.mem_cons_self)
      · exact (ih h).imp_left (List.mem_cons_of_mem _)

theorem dictSet_ne_nil {α : Type} (d : Dict α) (k : PyStr) (v : α) : dictSet d k v ≠ [] := by
  cases d with
  | nil => simp [dictSet]
  | cons x d =>
    rw [dictSet]
    split <;> simp

theorem addConfig_params (keyOf : ℕ → PyStr) (config : Dict (ℕ × Bool)) (st : FitState) (r : ℕ) :
    (∃ P, (addConfig keyOf config st r).2 = { st with params := P } ∧
      ∀ p, (P p).dimension = (st.params p).dimension) ∧
    (∀ e ∈ (addConfig keyOf config st r).1, e.2.2 = true → e ∈ config) ∧
    (config ≠ [] ∨ (st.objs r).fit.getD [] ≠ [] → (addConfig keyOf config st r).1 ≠ []) := by
  unfold addConfig
  generalize (st.objs r).fit.getD [] = ps
  have key : ∀ (ps : List ℕ) (c : Dict (ℕ × Bool) × FitState),
      (∃ P, c.2 = { st with params := P } ∧ ∀ p, (P p).dimension = (st.params p).dimension) →
      (∀ e ∈ c.1, e.2.2 = true → e ∈ config) →
      let c' := ps.foldl (fun c p => (dictSet c.1 (keyOf p) (p, false),
        { c.2 with params := Function.update c.2.params p { c.2.params p with name := keyOf p } })) c
      (∃ P, c'.2 = { st with params := P } ∧ ∀ p, (P p).dimension = (st.params p).dimension) ∧
      (∀ e ∈ c'.1, e.2.2 = true → e ∈ config) ∧ (c.1 ≠ [] ∨ ps ≠ [] → c'.1 ≠ []) := by
    intro ps
    induction ps with
    | nil => exact fun c h1 h2 => ⟨h1, h2, by simp⟩
    | cons p ps ih =>
      rintro c ⟨P, hP, hd⟩ h2
      have hm : ∀ e ∈ dictSet c.1 (keyOf p) (p, false), e ∈ c.1 ∨ e = (keyOf p, (p, false)) :=
        fun e he => mem_dictSet_imp he
      obtain ⟨a, b, d⟩ := ih (dictSet c.1 (keyOf p) (p, false),
        { c.2 with params := Function.update c.2.params p { c.2.params p with name := keyOf p } }) (by
          refine ⟨Function.update P p { P p with name := keyOf p }, by simp only [hP], fun q => ?_⟩
          by_cases hq : q = p
          · subst hq; rw [Function.update_self]; exact hd q
          · rw [Function.update_of_ne hq]; exact hd q)
        (by
          intro e he ht
          rcases hm e he with h | h
          · exact h2 e h ht
          · rw [h] at ht; cases ht)
      refine ⟨a, b, fun _ => d (.inl (dictSet_ne_nil _ _ _))⟩
  exact key ps (config, st) ⟨st.params, rfl, fun _ => rfl⟩ (fun e he _ => he)

theorem shrunkAt_params {roi : Dict (ℚ × ℚ)} {rs : List ℕ} {st st' : FitState} {P : ℕ → Param}
    (h : ShrunkAt roi rs { st with params := P } st') : ShrunkAt roi rs st st' :=
  ⟨h.next, h.refs, h.fit, h.shrunk, h.other⟩

/-- The fit configuration after the parameters of the backgrounds have been entered. -/
def entered (keyOf : ℕ → PyStr) (config : Dict (ℕ × Bool)) (ps : List ℕ) : Dict (ℕ × Bool) :=
  ps.foldl (fun c p => dictSet c (keyOf p) (p, false)) config

theorem addConfig_entered (keyOf : ℕ → PyStr) (config : Dict (ℕ × Bool)) (st : FitState) (r : ℕ) :
    (addConfig keyOf config st r).1 = entered keyOf config ((st.objs r).fit.getD []) := by
  unfold addConfig entered
  generalize (st.objs r).fit.getD [] = ps
  induction ps generalizing config st with
  | nil => rfl
  | cons p ps ih => exact ih _ _

theorem roiNames_congr {a b : List SPar} {roi : Dict (ℚ × ℚ)} {ps : List PyStr}
    (h : a.map SPar.name = b.map SPar.name) (hn : RoiNames a roi ps) : RoiNames b roi ps := by
  refine List.Forall₂.imp (fun e n hen => ⟨hen.1, ?_⟩) hn
  obtain ⟨p, hp, hpn⟩ := hen.2
  have : p.name ∈ b.map SPar.name := by rw [← h]; exact List.mem_map_of_mem hp
  obtain ⟨q, hq, hqn⟩ := List.mem_map.1 this
  exact ⟨q, hq, hqn.trans hpn⟩

theorem floatingLoop_canShrink {keyOf : ℕ → PyStr} {roi : Dict (ℚ × ℚ)} (hr : IsDict roi)
    {rs : List ℕ} {config : Dict (ℕ × Bool)} {st : FitState}
    (hn : (rs.map (fun r => (st.objs r).cfg)).Nodup) (h : ∀ r ∈ rs, CanShrink roi (st.view r)) :
    ∃ config' st' pss, floatingLoop keyOf roi true config st rs = (config', st', .ok pss) ∧
      ShrunkAt roi rs st st' ∧ (∀ p, (st'.params p).dimension = (st.params p).dimension) ∧
      pss.length = rs.length ∧ (∀ e ∈ config', e.2.2 = true → e ∈ config) ∧
      (config ≠ [] ∨ (∃ r ∈ rs, (st.objs r).fit.getD [] ≠ []) → config' ≠ []) ∧
      config' = entered keyOf config (rs.flatMap (fun r => (st.objs r).fit.getD [])) ∧
      List.Forall₂ (fun r ps => RoiNames (st.view r).cfg roi ps) rs pss := by
  induction rs generalizing config st with
  | nil =>
    exact ⟨config, st, [], rfl, .refl roi st, fun _ => rfl, rfl, fun e he _ => he, by simp, rfl, .nil⟩
  | cons r rs ih =>
    rw [List.map_cons, List.nodup_cons] at hn
    obtain ⟨⟨P, hP, hPd⟩, hc1, hc2⟩ := addConfig_params keyOf config st r
    obtain ⟨st1, ps, h1, h2, h3, h4, h5⟩ := shrink_setter hr (r := r) (st := { st with params := P })
      (h r (by simp))
    have h4' := shrunkAt_params h4
    have hne : ∀ r' ∈ rs, (st.objs r').cfg ≠ (st.objs r).cfg := by
      intro r' hr' he
      exact hn.1 (List.mem_map.2 ⟨r', hr', he⟩)
    obtain ⟨config', st2, pss, e1, e2, e3, e4, e5, e6, e7, e8⟩ := ih
      (config := (addConfig keyOf config st r).1) (st := st1) (by
        have : rs.map (fun r => (st1.objs r).cfg) = rs.map (fun r => (st.objs r).cfg) :=
          List.map_congr_left fun r _ => h4'.refs r
        rw [this]; exact hn.2)
      (by
        intro r' hr'
        rw [h4'.other r']
        · exact h r' (List.mem_cons_of_mem _ hr')
        · intro q hq
          rw [List.mem_singleton.1 hq]
          exact hne r' hr')
    refine ⟨config', st2, ps :: pss, ?_, h4'.cons e2 hne, ?_, by simp [e4], ?_, ?_, ?_, ?_⟩
    · rw [floatingLoop]
      simp only [hP, shrinkOrCheck_true, h1, h2, e1]
    · intro p
      rw [e3, h5]; exact hPd p
    · exact fun e he ht => hc1 e (e5 e he ht) ht
    · intro hx
      apply e6
      rcases hx with hx | ⟨r', hr', hx⟩
      · exact .inl (hc2 (.inl hx))
      · rcases List.mem_cons.1 hr' with rfl | hr'
        · exact .inl (hc2 (.inr hx))
        · exact .inr ⟨r', hr', by rw [h4'.fit]; exact hx⟩
    · rw [e7, addConfig_entered, List.flatMap_cons]
      have : rs.flatMap (fun r => (st1.objs r).fit.getD []) =
          rs.flatMap (fun r => (st.objs r).fit.getD []) := by
        unfold List.flatMap
        exact congrArg List.flatten (List.map_congr_left fun r _ => by rw [h4'.fit])
      rw [this]
      simp only [entered, List.foldl_append]
    · refine .cons (roiNames_congr (shrunkTo_cfg (h4'.shrunk r (by simp))) h3) ?_
      refine List.Forall₂.imp (fun r ps hps => ?_) (List.forall₂_and_left _ _ |>.2 ⟨fun r hr => hr, e8⟩)
      rw [h4'.other r] at hps
      · exact hps.2
      · intro q hq
        rw [List.mem_singleton.1 hq]
        exact hne r hps.1

theorem makeFixedBackground_params {roi : Dict (ℚ × ℚ)} (d : List (ℕ × ℚ)) (st : FitState) :
    (makeFixedBackground roi true d st).1.params = st.params := by
  have hs : ∀ c, FitM.KeepsParams (shrinkIf roi true c) := fun c st => by
    rw [shrinkIf_true, shrinkSpectra_run]
    cases roiKw (st.view c).pars roi <;> rfl
  have hprep : ∀ e : ℕ × ℚ, FitM.KeepsParams (prepareFixed roi true e) := fun e =>
    .bind (.copy _) fun c => .bind (hs c) fun _ => .bind (.call _ _) fun _ => .pure _
  have hforM : ∀ (f : ℕ × ℚ → FitM Unit), (∀ e, FitM.KeepsParams (f e)) →
      ∀ l : List (ℕ × ℚ), FitM.KeepsParams (l.forM f) := by
    intro f hf l
    induction l with
    | nil => exact .pure ()
    | cons a l ih => exact FitM.KeepsParams.bind (hf a) fun _ => ih
  have hmake : FitM.KeepsParams (makeFixed roi true d) := by
    cases d with
    | nil => exact fun _ => rfl
    | cons e d =>
      refine .bind (hprep e) fun total => .bind (.change fun _ => rfl) fun _ =>
        .bind (hforM _ (fun e => .bind (hprep e) fun c => .bind (.read _) fun s => .call _ _) d)
          fun _ => .pure _
  exact (FitM.KeepsParams.bind hmake fun _ => .bind (.read _) fun _ => .bind (.lift _) fun _ =>
    .bind (.lift _) fun _ => .pure _) st

end Verif
