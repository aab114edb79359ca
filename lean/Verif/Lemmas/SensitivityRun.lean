import Verif.Lemmas.Sensitivity
import Verif.Lemmas.FitLimit
import Verif.Props.FitWhole

/-! Helper lemmas: the sensitivity study of a constructed fit. -/

namespace Verif

open Session

variable {env : FitEnv} {keyOf : ℕ → PyStr} {a : FitArgs} {ts : List Spectrum} {d : ℕ} {st : FitState}
  {rnd : ℝ → ℚ} {rateOf : ℕ → Option ℕ} {par : ℕ → ℕ}

/-- The fixed background has the axes of the data. -/
theorem total_axes (hg : a.Given ts st) (he : a.Evaluable env keyOf d st) {b : Option ℕ}
    {st' : FitState} (hf : Final a ts st b st') (hne : a.fixed ≠ []) {s : Spectrum}
    (h : IsTotal ts s) :
    s.cfg = (st'.view d).cfg ∧ s.data.shape = (st'.view d).data.shape := by
  have hr := inOrder_isDict hg.region
  have hdk : d ∈ a.kept := by simp [FitArgs.kept, he.data]
  have hF := hg.fixed.shrunk
  obtain ⟨e, l, hl⟩ := List.exists_cons_of_ne_nil hne
  have hme : e.1 ∈ a.fixed.map Prod.fst := by simp [hl]
  have hable := hg.able e.1 (List.mem_append_right _ hme)
  rw [hl] at hF
  cases hF with
  | @cons _ t _ ts' h1 _ =>
  obtain ⟨kw, hk, herr, ht, -⟩ := h1
  have hst : ShrunkTo (inOrder a.roi) (st.view e.1) ((st.view e.1).shrink kw).st :=
    ⟨kw, hk, herr, ⟨⟨rfl, rfl, rfl, rfl, rfl⟩, rfl, fun _ _ => rfl⟩⟩
  obtain ⟨k1, k2, -⟩ := shrunkTo_same_axes hr (hg.able d (List.mem_append_left _ hdk)) hable
    (he.axes e.1 (List.mem_append_right _ hme)) (hf.shrunk d hdk) hst
  obtain ⟨c1, c2⟩ := h.axes t List.mem_cons_self
  have d1 : t.cfg = ((st.view e.1).shrink kw).st.cfg := by rw [ht]; exact scale_cfg _ _
  have d2 : t.data.shape = ((st.view e.1).shrink kw).st.data.shape := by
    rw [ht]; unfold Spectrum.scale; split <;> rfl
  exact ⟨c1.trans (d1.trans k1), c2.trans (d2.trans k2)⟩

/-- The study of a constructed fit, and what is used about it. -/
theorem study_run (hg : a.Given ts st) (he : a.Evaluable env keyOf d st) (hfl : a.floating ≠ [])
    (hfx : a.fixed ≠ []) (hrate : ∀ r ∈ a.floating, rateOf r = some (par r)) {ses : Session}
    {st' : FitState} {b : Option ℕ} {ns : List PyStr} (h2 : Final a ts st b st') (h3 : MadeFrom st st')
    (h4 : RoiNames (st.view d).cfg (inOrder a.roi) ns) (h5 : ses.toFit = a.read st d b ns)
    (h7 : ses.fixed = b) (h8 : Constructed a ts st ses st') :
    ∃ t u, ses.fixed = some t ∧ ses.study rnd rateOf st' = ((ses, u), .ok ()) ∧ Refilled st' u ∧
      (∀ q, q ≠ d → q ∉ a.floating → u.view q = st'.view q) ∧
      (∀ r ∈ a.floating, (((st'.view r).scale (rnd (st.params (par r)).prior)).st).Eqv (u.view r)) ∧
      ∀ idx, InB (st'.view d).data.shape idx → (u.view d).data.get idx =
        (st'.view d).data.get idx + (st'.view t).data.get idx +
        (a.floating.map (fun r => rnd (st.params (par r)).prior / (st'.view r).numDecays *
          (st'.view r).data.get idx)).sum := by
  have hreg := inOrder_isDict hg.region
  have hdk : d ∈ a.kept := by simp [FitArgs.kept, he.data]
  have hmk : ∀ r ∈ a.floating, r ∈ a.kept := fun r hr => by
    simp only [FitArgs.kept, List.mem_append] at hr ⊢; tauto
  have hD := hg.able d (List.mem_append_left _ hdk)
  obtain ⟨gD, cD⟩ := (h2.shrunk d hdk).region hreg hD
  have hready := read_ready (ns := ns) hg he h2 h3
  have hdn : d ∉ a.floating := by
    have := hready.apart.1
    rwa [read_floatingRefs] at this
  have hfn : a.floating.Nodup := by
    have := hready.backgrounds
    rw [read_moving] at this
    exact ((List.nodup_append.1 this.of_map).1)
  obtain ⟨t, ht, htot, -⟩ := h8.fixed hfx
  have hbt : b = some t := h7.symm.trans ht
  have hmt : st.next ≤ t := (h2.made t hbt).1
  have hltk : ∀ r ∈ a.kept, r < st.next := hg.alloc
  have htd : t ≠ d := fun h => absurd (hltk d hdk) (not_lt.2 (h ▸ hmt))
  have htn : t ∉ a.floating := fun h => absurd (hltk t (hmk t h)) (not_lt.2 hmt)
  -- axes of the fixed background
  obtain ⟨htc, hts⟩ := total_axes hg he h2 hfx htot
  -- axes of the floating backgrounds
  have hax : ∀ r ∈ a.floating, (st'.view r).cfg = (st'.view d).cfg ∧
      (st'.view r).data.shape = (st'.view d).data.shape ∧ (st'.view r).numDecays ≠ 0 := fun r hr => by
    obtain ⟨k1, k2, k3, -⟩ := final_axes hg he h2 (List.mem_append_left _ hr)
    exact ⟨k1, k2, by rw [k3]; exact he.decays r (List.mem_append_left _ hr)⟩
  obtain ⟨s1, a1, a2, a3, -, a5⟩ := addTo_run (s := st') (d := d) (r := t) cD.wf.names htc hts
  have hv : ∀ q ∈ a.floating, s1.view q = st'.view q := fun q hq =>
    a3 q (fun h => hdn (h ▸ hq))
  obtain ⟨s2, b1, b2, b3, b4, b5⟩ := study_loop (rnd := rnd) (rateOf := rateOf) (d := d)
    (P := st'.params) par (s := s1) a2.params hrate hfn hdn
    (fun r hr => by rw [hv r hr]; exact (hax r hr).2.2) (by rw [a2.view_cfg]; exact cD.wf.names)
    (fun r hr => by rw [a2.view_cfg, a2.view_cfg]; exact (hax r hr).1)
    (fun r hr => by rw [a2.view_shape, a2.view_shape]; exact (hax r hr).2.1)
  have c1 := a2.trans b2
  have hroi : ses.roi = inOrder a.roi := h8.roi
  have hcan : CanShrink ses.roi (s2.view d) := by
    rw [hroi]
    exact cD.congr (c1.view_cfg d) (c1.view_shape d)
  obtain ⟨u, ps, d1, d2, d3, d4, d5⟩ := setData_has_region (ses := ses) (s := s2) (d := d)
    (by rw [hroi]; exact hreg) hcan (by rw [hroi, c1.view_cfg]; exact gD)
  have hps : ps = ns := by
    refine roiNames_unique hD.dims h4 ?_
    rw [hroi, c1.view_cfg] at d2
    exact roiNames_congr (shrunkTo_cfg (h2.shrunk d hdk)) d2
  subst hps
  have hsd : ses.data = some d := h8.data.trans he.data
  have hpn : some ps = ses.dataPars := by
    have h := congrArg Fit.dataPars h5
    have hne : ps ≠ [] := fun h => by
      have := h4.length_eq
      rw [h] at this
      exact inOrder_ne_nil hg.some (List.length_eq_zero_iff.1 this)
    change ses.dataPars.getD [] = ps at h
    cases hq : ses.dataPars with
    | none => rw [hq] at h; exact absurd h.symm hne
    | some q => rw [hq] at h; exact congrArg some h.symm
  have hpr : ∀ p, (st'.params p).prior = (st.params p).prior := fun p => by rw [h3.params]
  refine ⟨t, u, ht, ?_, c1.trans d3, ?_, ?_, ?_⟩
  · unfold Session.study
    have : ses.studyData rnd rateOf st' = (s2, .ok d) := by
      unfold studyData
      rw [hsd, ht]
      dsimp only
      rw [FitM.bind_ok a1, h8.floating, if_neg hfl]
      dsimp only
      rw [FitM.bind_ok b1]
      rfl
    rw [this]
    refine d1.trans ?_
    rw [hpn, ← hsd]
  · intro q hq hm
    rw [d4 q hq, b3 q hq hm, a3 q hq]
  · intro r hr
    rw [d4 r (fun h => hdn (h ▸ hr)), b4 r hr, hv r hr, hpr]
    exact ⟨⟨rfl, rfl, rfl, rfl, rfl⟩, rfl, fun idx hi => (NdArray.norm_get hi).symm⟩
  · intro idx hi
    have hi1 : InB (s1.view d).data.shape idx := by rw [a2.view_shape]; exact hi
    rw [← d5.2.2 idx (by rw [b2.view_shape]; exact hi1), b5 idx hi1, a5 idx hi]
    congr 2
    exact List.map_congr_left fun r hr => by rw [hv r hr, hpr]

/-- Refilled spectra with decays are as ready as before. -/
theorem Refilled.ready {s u : FitState} (h : Refilled s u) {f : Fit} (hr : FitReady env f s)
    (hd : ∀ r ∈ f.moving, (u.view r).numDecays ≠ 0) : FitReady env f u := by
  refine ⟨hr.str, h.cache.trans hr.cache, ?_, hr.apart, ?_, ?_, hd, hr.pars, ?_, ?_⟩
  · obtain ⟨h1, h2, h3⟩ := hr.alloc
    refine ⟨by rw [h.next]; exact h1, fun b hb => by rw [h.next]; exact h2 b hb, fun r hm => ?_⟩
    rw [h.next]; exact h3 r hm
  · have : (fun r => (u.objs r).background) = fun r => (s.objs r).background := funext h.background
    rw [this]; exact hr.backgrounds
  · intro r hm
    obtain ⟨h1, h2, h3, h4, h5⟩ := hr.axes r hm
    refine ⟨⟨?_, ?_, ?_⟩, ?_, ?_, ?_, ?_⟩
    · rw [h.view_cfg]; exact h1.axes
    · rw [h.view_cfg]; exact h1.names
    · rw [h.view_cfg, h.view_shape]; exact h1.shape
    · rw [h.view_cfg]; exact h2
    · rw [h.view_cfg]; exact h3
    · rw [h.view_cfg, h.view_cfg]; exact h4
    · rw [h.view_shape, h.view_shape]; exact h5
  · intro p hp
    rw [h.params]; exact hr.globals p hp
  · intro r hm p hp
    rw [h.fit] at hp
    rw [h.params]; exact hr.rates r hm p hp

theorem read_congr {u : FitState} (h : ∀ r ∈ a.floating, (u.objs r).fit = (st.objs r).fit)
    (b : Option ℕ) (ns : List PyStr) : a.read u d b ns = a.read st d b ns := by
  have : a.parameters u = a.parameters st := by
    unfold FitArgs.parameters FitArgs.ownPars
    congr 1
    clear * - h
    generalize a.floating = l at h
    induction l with
    | nil => rfl
    | cons r l ih =>
      rw [List.flatMap_cons, List.flatMap_cons, h r (by simp), ih fun q hq => h q (by simp [hq])]
  unfold FitArgs.read
  rw [this]

/-- Projections of sums are sums of projections. -/
theorem projection_linear {ns : List PyStr} {s : Spectrum} {c : NdArray ℚ} (hc : IsProjection s ns c)
    {α : Type} {l : List α} {k : α → ℚ} {x : α → Spectrum} {p : α → NdArray ℚ}
    (hx : ∀ e ∈ l, IsProjection (x e) ns (p e) ∧ (x e).cfg = s.cfg ∧
      (x e).data.shape = s.data.shape)
    (h : ∀ full, InB s.data.shape full → s.data.get full =
      (l.map (fun e => k e * (x e).data.get full)).sum) {idx : List ℕ} (hi : InB c.shape idx) :
    c.get idx = (l.map (fun e => k e * (p e).get idx)).sum := by
  rw [hc.2 idx hi]
  rw [sumIdx_congr (g := fun full => if pick ns (s.cfg.map SPar.name) full = idx then
    (l.map (fun e => k e * (x e).data.get full)).sum else 0) fun full hf => by rw [h full hf],
    sumIdx_ite_list]
  congr 1
  refine List.map_congr_left fun e he => ?_
  obtain ⟨h1, h2, h3⟩ := hx e he
  rw [h1.2 idx (by rw [h1.1, h2, h3, ← hc.1]; exact hi), h2, h3, mul_comm, ← sumIdx_mul]
  refine sumIdx_congr fun full _ => ?_
  rw [ite_mul, zero_mul, mul_comm]

/-- The projections after the study. -/
theorem study_projections (hg : a.Given ts st) (he : a.Evaluable env keyOf d st)
    (hfl : a.floating ≠ []) (hfx : a.fixed ≠ [])
    (hl : (st.view d).cfg.length ≤ a.roi.length + 1)
    (hrate : ∀ r ∈ a.floating, (st.objs r).fit = some [par r] ∧ rateOf r = some (par r)) :
    ∃ ses st' u t ns, init keyOf a st = (st', .ok ses) ∧
      ses.study rnd rateOf st' = ((ses, u), .ok ()) ∧
      Refilled st' u ∧ MadeFrom st st' ∧ Final a ts st (some t) st' ∧
      RoiNames (st.view d).cfg (inOrder a.roi) ns ∧ ses.toFit = a.read st d (some t) ns ∧
      ses.fixed = some t ∧
      (∀ q, q ≠ d → q ∉ a.floating → u.view q = st'.view q) ∧
      ∃ (c x : ℕ → NdArray ℚ) (p : NdArray ℚ), (∀ r ∈ a.kept ++ a.fixed.map Prod.fst,
        RegionContents (inOrder a.roi) ns (st.view r) (c r) ∧
        (r ∈ a.kept → (st'.view r).ndProject ns = .ok (c r)) ∧ (c r).shape = (c d).shape) ∧
      (u.view t).ndProject ns = .ok p ∧ p.shape = (c d).shape ∧ (∀ idx, InB (c d).shape idx →
        p.get idx = (a.fixed.map (fun x => x.2 / (st.view x.1).numDecays * (c x.1).get idx)).sum) ∧
      (∀ r ∈ a.kept, (u.view r).ndProject ns = .ok (x r) ∧ (x r).shape = (c d).shape) ∧
      (∀ idx, InB (c d).shape idx → (x d).get idx = (c d).get idx +
          (a.fixed.map (fun x => x.2 / (st.view x.1).numDecays * (c x.1).get idx)).sum +
          (a.floating.map (fun r => rnd (st.params (par r)).prior / (st.view r).numDecays *
            (c r).get idx)).sum) ∧
      ∀ r ∈ a.floating, (u.view r).numDecays = rnd (st.params (par r)).prior ∧
        ∀ idx, InB (c d).shape idx → (x r).get idx =
          rnd (st.params (par r)).prior / (st.view r).numDecays * (c r).get idx := by
  obtain ⟨ses, st', b, ns, h1, h2, h3, h4, h5, h6, h7, h8⟩ := whole_run hg he hfl
  obtain ⟨t, u, k1, k2, k4, k5, k6, k7⟩ := study_run (rnd := rnd) hg he hfl hfx
    (fun r hr => (hrate r hr).2) h2 h3 h4 h5 h7 h8
  have hbt : b = some t := h7.symm.trans k1
  subst hbt
  have hready := read_ready (b := some t) (ns := ns) hg he h2 h3
  have hreg := inOrder_isDict hg.region
  have hdk : d ∈ a.kept := by simp [FitArgs.kept, he.data]
  have hmk : ∀ r ∈ a.floating ++ a.signal.toList, r ∈ a.kept := fun r hr => by
    simp only [FitArgs.kept, List.mem_append] at hr ⊢; tauto
  have hmf : ∀ r ∈ a.floating, r ∈ a.kept := fun r hr => hmk r (List.mem_append_left _ hr)
  have hlt : ∀ r ∈ a.kept, r < st.next := hg.alloc
  have hcfg : ∀ r ∈ a.kept ++ a.fixed.map Prod.fst, (st.view r).cfg = (st.view d).cfg := by
    intro r hr
    by_cases hrd : r = d
    · rw [hrd]
    · refine he.axes r ?_
      simp only [FitArgs.kept, he.data, List.mem_append, Option.toList_some, List.mem_singleton] at hr ⊢
      tauto
  obtain ⟨c, hc⟩ := region_run hg he.data hcfg h2 h4 hl
  have hshape : ∀ r ∈ a.kept ++ a.fixed.map Prod.fst, (c r).shape = (c d).shape := fun r hr =>
    (hc r hr).2.2
  obtain ⟨htc, hts⟩ := total_axes hg he h2 hfx (h2.total t rfl)
  have hdn : d ∉ a.floating := by
    have := hready.apart.1
    rwa [read_floatingRefs] at this
  have hmt : st.next ≤ t := (h2.made t rfl).1
  have htd : t ≠ d := fun h => absurd (hlt d hdk) (not_lt.2 (h ▸ hmt))
  have htn : t ∉ a.floating := fun h => absurd (hlt t (hmf t h)) (not_lt.2 hmt)
  -- names of the axes after the constructor
  have hcan : ∀ r ∈ a.kept, CanShrink (inOrder a.roi) (st'.view r) := fun r hr =>
    ((h2.shrunk r hr).region hreg (hg.able r (List.mem_append_left _ hr))).2
  have hnames : ∀ r ∈ a.kept, (st'.view r).cfg.map SPar.name = (st.view d).cfg.map SPar.name :=
    fun r hr => by
      rw [shrunkTo_cfg (h2.shrunk r hr), hcfg r (List.mem_append_left _ hr)]
  have hproj : ∀ r ∈ a.kept, IsProjection (st'.view r) ns (c r) := fun r hr => by
    obtain ⟨x, x1, x2⟩ := region_project hg h4 hl (hcan r hr).wf (hnames r hr)
    rw [(hc r (List.mem_append_left _ hr)).2.1 hr] at x1
    cases x1
    exact x2
  -- the fixed background
  obtain ⟨p, f1, f2, f3⟩ := fixed_run hg hfx hcfg h4 hl (h2.total t rfl) hc
  have hpproj : IsProjection (st'.view t) ns p := by
    obtain ⟨x, x1, x2⟩ := region_project hg h4 hl (total_region hg (h2.total t rfl) hfx).2.wf
      (by rw [htc]; exact hnames d hdk)
    rw [f1] at x1
    cases x1
    exact x2
  -- projections after the study
  have hufull : ∀ r ∈ a.kept, ∃ x, (u.view r).ndProject ns = .ok x ∧ IsProjection (u.view r) ns x := by
    intro r hr
    refine region_project hg h4 hl ?_ (by rw [k4.view_cfg]; exact hnames r hr)
    have := (hcan r hr).wf
    refine ⟨?_, ?_, ?_⟩
    · rw [k4.view_cfg]; exact this.axes
    · rw [k4.view_cfg]; exact this.names
    · rw [k4.view_cfg, k4.view_shape]; exact this.shape
  have hux : ∀ r, ∃ x, r ∈ a.kept →
      (u.view r).ndProject ns = .ok x ∧ IsProjection (u.view r) ns x := fun r => by
    by_cases hr : r ∈ a.kept
    · obtain ⟨x, hx⟩ := hufull r hr
      exact ⟨x, fun _ => hx⟩
    · exact ⟨⟨[], fun _ => 0⟩, fun h => absurd h hr⟩
  choose x hx using hux
  have hxs : ∀ r ∈ a.kept, (x r).shape = (c r).shape := fun r hr => by
    rw [(hx r hr).2.1, (hproj r hr).1, k4.view_cfg, k4.view_shape]
  have hxd : (x d).shape = (c d).shape := hxs d hdk
  have hdec : ∀ r ∈ a.floating, (st'.view r).numDecays = (st.view r).numDecays := fun r hr =>
    (final_axes hg he h2 (List.mem_append_left _ hr)).2.2.1
  have hn0 : ∀ r ∈ a.floating, (st.view r).numDecays ≠ 0 := fun r hr =>
    he.decays r (List.mem_append_left _ hr)
  have hscale : ∀ r ∈ a.floating, (u.view r).numDecays = rnd (st.params (par r)).prior ∧
      ∀ idx, InB (st'.view r).data.shape idx → (u.view r).data.get idx =
        rnd (st.params (par r)).prior / (st.view r).numDecays * (st'.view r).data.get idx := by
    intro r hr
    have hne : (st'.view r).numDecays ≠ 0 := by rw [hdec r hr]; exact hn0 r hr
    have h := k6 r hr
    rw [scale_run _ hne] at h
    obtain ⟨⟨-, -, e3, -, -⟩, -, e5⟩ := h
    refine ⟨e3, fun idx hi => ?_⟩
    rw [← e5 idx hi, ← hdec r hr]
    exact mul_comm _ _
  have hxr : ∀ r ∈ a.floating, ∀ idx, InB (c d).shape idx → (x r).get idx =
      rnd (st.params (par r)).prior / (st.view r).numDecays * (c r).get idx := by
    intro r hr idx hi
    have hk := hmf r hr
    have := projection_linear (l := [r]) (hx r hk).2
      (k := fun r => rnd (st.params (par r)).prior / (st.view r).numDecays) (x := st'.view) (p := c)
      (fun e hm => by
        obtain rfl := List.mem_singleton.1 hm
        exact ⟨hproj e hk, (k4.view_cfg e).symm, (k4.view_shape e).symm⟩)
      (fun full hf => by
        rw [(hscale r hr).2 full (by rw [← k4.view_shape]; exact hf)]
        simp) (idx := idx) (by rw [hxs r hk, hshape r (List.mem_append_left _ hk)]; exact hi)
    simpa using this
  have hxdv : ∀ idx, InB (c d).shape idx → (x d).get idx = (c d).get idx +
          (a.fixed.map (fun x => x.2 / (st.view x.1).numDecays * (c x.1).get idx)).sum +
          (a.floating.map (fun r => rnd (st.params (par r)).prior / (st.view r).numDecays *
            (c r).get idx)).sum := by
    intro idx hi
    have := projection_linear (l := (1, d, c d) :: (1, t, p) :: a.floating.map (fun r =>
        (rnd (st.params (par r)).prior / (st.view r).numDecays, r, c r))) (hx d hdk).2
      (k := fun e => e.1) (x := fun e => st'.view e.2.1) (p := fun e => e.2.2)
      (fun e hm => by
        rw [k4.view_cfg, k4.view_shape]
        rcases List.mem_cons.1 hm with rfl | hm
        · exact ⟨hproj d hdk, rfl, rfl⟩
        rcases List.mem_cons.1 hm with rfl | hm
        · exact ⟨hpproj, htc, hts⟩
        obtain ⟨r, hr, rfl⟩ := List.mem_map.1 hm
        obtain ⟨g1, g2, -⟩ := final_axes hg he h2 (List.mem_append_left _ hr)
        exact ⟨hproj r (hmf r hr), g1, g2⟩)
      (fun full hf => by
        rw [k7 full (by rw [← k4.view_shape]; exact hf)]
        simp only [List.map_cons, List.sum_cons, List.map_map, one_mul, ← add_assoc]
        congr 2
        exact List.map_congr_left fun r hr => by
          rw [hdec r hr]; rfl) (idx := idx) (by rw [hxd]; exact hi)
    rw [this]
    simp only [List.map_cons, List.sum_cons, List.map_map, one_mul, ← add_assoc, f3 idx hi]
    rfl
  exact ⟨ses, st', u, t, ns, h1, k2, k4, h3, h2, h4, h5, k1, k5, c, x, p, hc,
    by rw [k5 t htd htn]; exact f1, f2, f3,
    fun r hr => ⟨(hx r hr).1, (hxs r hr).trans (hshape r (List.mem_append_left _ hr))⟩, hxdv,
    fun r hr => ⟨(hscale r hr).1, hxr r hr⟩⟩

/-- The evaluations after the study. -/
theorem study_evaluated (hg : a.Given ts st) (he : a.Evaluable env keyOf d st)
    (hfl : a.floating ≠ []) (hfx : a.fixed ≠ []) (hglob : ∀ e ∈ a.config, e.2.2 = false)
    (hl : (st.view d).cfg.length ≤ a.roi.length + 1)
    (hrate : ∀ r ∈ a.floating, (st.objs r).fit = some [par r] ∧ rateOf r = some (par r))
    (hpr : ∀ r ∈ a.floating, rnd (st.params (par r)).prior ≠ 0) :
    ∃ ses st' u b ns, init keyOf a st = (st', .ok ses) ∧
      ses.study rnd rateOf st' = ((ses, u), .ok ()) ∧
      Refilled st' u ∧ MadeFrom st st' ∧
      RoiNames (st.view d).cfg (inOrder a.roi) ns ∧ ses.toFit = a.read st d b ns ∧
      FitReady env (a.read st d b ns) u ∧
      ∃ (c : ℕ → NdArray ℚ) (o : NdArray ℚ), (∀ r ∈ a.kept ++ a.fixed.map Prod.fst,
        RegionContents (inOrder a.roi) ns (st.view r) (c r) ∧ (c r).shape = (c d).shape) ∧
      o.shape = (c d).shape ∧ (∀ idx, InB (c d).shape idx → o.get idx = (c d).get idx +
          (a.fixed.map (fun x => x.2 / (st.view x.1).numDecays * (c x.1).get idx)).sum +
          (a.floating.map (fun r => rnd (st.params (par r)).prior / (st.view r).numDecays *
            (c r).get idx)).sum) ∧
      ∀ (hist : List (List ℚ)), (∀ x ∈ hist, a.Values st x) → ∀ (args : List ℚ),
        args.length = (a.parameters st).length → ∀ (rate : ℕ → ℚ),
        (∀ r ∈ a.floating, (par r, rate r) ∈ (a.parameters st).zip args) →
        ∃ e, evaluatedContents env (a.read st d b ns) args
            (afterEvaluations env (a.read st d b ns) hist u) =
            .ok (o, some e) ∧ e.shape = (c d).shape ∧ ∀ idx, InB (c d).shape idx →
          e.get idx =
            (a.fixed.map (fun x => x.2 / (st.view x.1).numDecays * (c x.1).get idx)).sum +
            (a.floating.map (fun r => rate r / (st.view r).numDecays * (c r).get idx)).sum +
            (a.signal.toList.map (fun r => (c r).get idx)).sum := by
  obtain ⟨ses, st', u, t, ns, h1, k2, k4, h3, h2, h4, h5, -, k5, c, x, p, hc, f1, f2, f3, hx, hxdv, hscale⟩ :=
    study_projections (rnd := rnd) hg he hfl hfx hl hrate
  have hready := read_ready (b := some t) (ns := ns) hg he h2 h3
  have hdk : d ∈ a.kept := by simp [FitArgs.kept, he.data]
  have hmk : ∀ r ∈ a.floating ++ a.signal.toList, r ∈ a.kept := fun r hr => by
    simp only [FitArgs.kept, List.mem_append] at hr ⊢; tauto
  have hmf : ∀ r ∈ a.floating, r ∈ a.kept := fun r hr => hmk r (List.mem_append_left _ hr)
  have hlt : ∀ r ∈ a.kept, r < st.next := hg.alloc
  have hshape : ∀ r ∈ a.kept ++ a.fixed.map Prod.fst, (c r).shape = (c d).shape := fun r hr =>
    (hc r hr).2.2
  have hxd : (x d).shape = (c d).shape := (hx d hdk).2
  have hn0 : ∀ r ∈ a.floating, (st.view r).numDecays ≠ 0 := fun r hr =>
    he.decays r (List.mem_append_left _ hr)
  have hgl : a.globalPars = [] := by
    unfold FitArgs.globalPars
    rw [List.filter_eq_nil_iff.2 fun e he => by simp [hglob e he]]
    rfl
  have hsn : ∀ r ∈ a.signal.toList, u.view r = st'.view r := fun r hr => by
    have h := hg.kept_nodup.of_map
    have hs : r ∈ a.signal := by simpa using hr
    unfold FitArgs.kept at h
    rw [he.data, show a.signal = some r from hs] at h
    have h : (d :: r :: a.floating).Nodup := h
    rw [List.nodup_cons, List.nodup_cons] at h
    exact k5 r (fun e => h.1 (by simp [e])) h.2.1
  have hur : FitReady env (a.read st d (some t) ns) u := k4.ready hready (fun r hr => by
    rw [read_moving] at hr
    rcases List.mem_append.1 hr with hr | hr
    · rw [(hscale r hr).1]; exact hpr r hr
    · rw [hsn r hr, (final_axes hg he h2 (List.mem_append_right _ hr)).2.2.1]
      exact he.decays r (List.mem_append_right _ hr))
  have hfit : ∀ r ∈ a.floating, (u.objs r).fit = (st.objs r).fit := fun r hr => by
    rw [k4.fit, h3.fit r (hlt r (hmf r hr))]
  have hrc : a.read u d (some t) ns = a.read st d (some t) ns := read_congr hfit _ _
  have hpc : a.parameters u = a.parameters st := congrArg Fit.pars hrc
  refine ⟨ses, st', u, some t, ns, h1, k2, k4, h3, h4, h5, hur, c, x d,
    fun r hr => ⟨(hc r hr).1, hshape r hr⟩, hxd, hxdv, ?_⟩
  intro hist hhist args hargs rate hr
  have hval : ∀ x, a.Values st x → FullArgs (a.read st d (some t) ns) x ∧
      NonzeroRates (a.read st d (some t) ns) u x := by
    intro x hx
    refine ⟨hx.1, fun e he hk => hx.2 e he ?_⟩
    rw [k4.params, h3.params] at hk
    exact hk
  obtain ⟨e, e1, e2, e3⟩ := evaluated_run (st := u) (s := u) (b := some t) (c := x)
    (signal := a.signal.toList.map c) (fixed := [p]) (by rw [hrc]; exact hur) hfl hgl (hx d hdk).1
    (fun r hr => ⟨(hx r (hmf r hr)).1, by rw [(hx r (hmf r hr)).2, hxd], rfl, rfl⟩)
    (.cons ⟨f1, by rw [f2, hxd]⟩ .nil)
    (by
      rw [List.forall₂_map_right_iff, List.forall₂_same]
      intro r hr
      have hk := hmk r (List.mem_append_right _ hr)
      have hm : r ∈ a.kept ++ a.fixed.map Prod.fst := List.mem_append_left _ hk
      exact ⟨by rw [hsn r hr]; exact (hc r hm).2.1 hk, by rw [hshape r hm, hxd]⟩) hist
    (fun x hx => by rw [hrc]; exact hval x (hhist x hx)) args (by rw [hpc]; exact hargs) rate
    (fun r hm => ⟨par r, by rw [hfit r hm]; exact (hrate r hm).1, by rw [hpc]; exact hr r hm⟩)
  rw [hrc] at e1
  refine ⟨e, e1, e2.trans hxd, fun idx hi => ?_⟩
  rw [e3 idx (by rw [hxd]; exact hi), List.map_map]
  simp only [List.map_cons, List.map_nil, List.sum_cons, List.sum_nil, add_zero, f3 idx hi]
  congr 2
  refine congrArg List.sum (List.map_congr_left fun r hr => ?_)
  rw [(hscale r hr).1, (hscale r hr).2 idx hi]
  have h1 := hpr r hr
  have h2 := hn0 r hr
  field_simp

theorem fit_checked {ρ : Type} {mini : Fit → FitM ρ} {ses : Session} {s : FitState}
    {x : StatValue ⊕ ρ} (h : (ses.fit mini s).2 = .ok x) :
    ses.checked = true ∨ (ses.checkFitter s).2 = .ok () := by
  by_cases hc : ses.checked = true
  · exact .inl hc
  · right
    unfold Session.fit at h
    rw [if_neg hc] at h
    rcases hk : ses.checkFitter s with ⟨w, e | y⟩
    · rw [hk] at h
      cases h
    · rfl

/-- After the study the fit is accepted as before. -/
theorem study_fit (hg : a.Given ts st) (he : a.Evaluable env keyOf d st) (hfl : a.floating ≠ [])
    (hs : a.Settings st) {ses : Session} {st' u : FitState} {b : Option ℕ} {ns : List PyStr}
    (h1 : init keyOf a st = (st', .ok ses)) (h2 : Refilled st' u) (h3 : ses.toFit = a.read st d b ns) {ρ : Type} (mini : Fit → FitM ρ) :
    ses.fit mini u = (({ ses with checked := true }, (mini (a.read st d b ns) u).1),
      (mini (a.read st d b ns) u).2.map .inr) := by
  obtain ⟨s1, t1, m, i1, -, i3⟩ := c137_fit_partial hg he hfl hs
  obtain ⟨s2, t2, j1, j2, -, -, -, j6, -⟩ := c99_ready_partial keyOf a ts st hg
    (by rw [he.data]; simp) (.inr hfl) hs
  rw [h1] at i1 j1
  cases i1
  cases j1
  have hc := fit_checked (mini := fun _ => (pure () : FitM Unit)) (x := .inr ()) (ses := ses) (s := st')
    (by rw [i3]; rfl)
  have hc' : ses.checked = true ∨ (ses.checkFitter u).2 = .ok () := by
    rcases hc with hc | hc
    · exact .inl hc
    · right
      rw [checkFitter_same (st := st') (fun q _ => h2.view_cfg q) (fun q => by rw [h2.params])]
      exact hc
  rw [fit_passes mini hc']
  have hf : ¬ (ses.floating.getD [] = []) := by
    rw [j2.floating, if_neg hfl]; exact hfl
  have hm : ses.minimiser ≠ none := by
    rw [j6]; simp
  have hrun : runFit mini ses u =
      ((mini (a.read st d b ns) u).1, (mini (a.read st d b ns) u).2.map .inr) := by
    unfold runFit
    rw [if_neg hf, if_neg hm, h3]
    rcases mini (a.read st d b ns) u with ⟨s, e | x⟩ <;> rfl
  rw [hrun]

theorem withValues_value {pars : List ℕ} {args : List ℚ} {P : ℕ → Param} (hn : pars.Nodup)
    (hl : args.length = pars.length) {p : ℕ} (hp : p ∈ pars) :
    ∃ v, (withValues pars args P p).value = some v := by
  have h := List.mem_map_of_mem (f := withValues pars args P) hp
  rw [withValues_map hn hl, ← List.map_uncurry_zip_eq_zipWith, List.mem_map] at h
  obtain ⟨⟨q, v⟩, -, h⟩ := h
  exact ⟨v, by rw [← h]; rfl⟩

/-- A floating background without decays cannot be scaled to its rate. -/
theorem contents_zero {f : Fit} {s : FitState} (hgl : f.globals = []) {r p : ℕ} {ns : List PyStr}
    {fl : List (ℕ × List PyStr)} (hfit : (s.objs r).fit = some [p])
    (hn : f.pars.Nodup) (hp : p ∈ f.pars) (hk : (s.params p).kind = .rate)
    (hz : (s.view r).numDecays = 0) {o : NdArray ℚ} (ho : (s.view f.data).ndProject f.dataPars = .ok o)
    {x : Option (NdArray ℚ)} (hx : ∀ P, fixedContents f { s with params := P } = ({ s with params := P }, .ok x))
    {args : List ℚ} (ha : args.length = f.pars.length) :
    ∃ u, (do setValues f.pars args; contents env f ((r, ns) :: fl)) s = (u, .error .zeroDivision) := by
  rw [FitM.bind_ok (setValues_ok _ _ ha.le s)]
  set w : FitState := { s with params := withValues f.pars args s.params } with hw
  obtain ⟨v, hv⟩ := withValues_value (P := s.params) hn ha hp
  have hk' : (withValues f.pars args s.params p).kind = .rate := by
    have := congrArg Param.kind (withValues_static f.pars args s.params p)
    exact this.trans hk
  have hcall : FitM.call r (fun s => s.scale v) w = (w.write r (w.view r), .error .zeroDivision) := by
    have h0 : (w.view r).scale v = .fail (w.view r) .zeroDivision := by
      unfold Spectrum.scale
      rw [if_pos (show (w.view r).numDecays = 0 from hz)]
    unfold FitM.call
    dsimp only
    rw [h0]
    rfl
  have happ : floatingSpectrum env f r w = (w.write r (w.view r), .error .zeroDivision) := by
    unfold floatingSpectrum withGlobals
    rw [if_pos hgl, FitM.bind_ok (show (pure r : FitM ℕ) w = (w, .ok r) from rfl), FitM.read_bind]
    rw [show (w.objs r).fit = some [p] from hfit]
    refine FitM.bind_error ?_
    show applyAll env [p] r w = _
    unfold applyAll
    rw [List.foldlM_cons]
    refine FitM.bind_error ?_
    rw [FitM.read_bind]
    show applyTo env (withValues f.pars args s.params p) r w = _
    unfold applyTo
    rw [hv]
    dsimp only
    rw [if_pos hk']
    exact FitM.bind_error hcall
  refine ⟨w.write r (w.view r), ?_⟩
  unfold contents
  rw [FitM.read_bind, show (w.view f.data).ndProject f.dataPars = .ok o from ho, FitM.lift_bind]
  dsimp only
  rw [FitM.bind_ok (hx _), List.foldlM_cons]
  refine FitM.bind_error (FitM.bind_error ?_)
  unfold floatingRound
  exact FitM.bind_error happ

end Verif
