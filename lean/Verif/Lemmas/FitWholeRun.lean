import Verif.Lemmas.FitWhole
import Verif.Lemmas.Events
import Verif.Props.FitExpected
import Verif.Props.FitFixedOnly

/-! Helper lemmas: what fits made by the constructor evaluate. -/

namespace Verif

open Session

theorem roiNames_unique {axes : List SPar} (hd : DistinctDims axes) {roi : Dict (ℚ × ℚ)}
    {ns ns' : List PyStr} (h : RoiNames axes roi ns) (h' : RoiNames axes roi ns') : ns' = ns := by
  induction h generalizing ns' with
  | nil => cases h'; rfl
  | cons h1 _ ih =>
    cases h' with
    | cons h2 h3 =>
      rw [ih h3]
      congr 1
      obtain ⟨o1, p, hp, rfl⟩ := h1
      obtain ⟨o2, q, hq, rfl⟩ := h2
      rw [hd p hp q hq _ (.inl o1) (.inl o2)]

theorem roiNames_nodup {axes : List SPar} {roi : Dict (ℚ × ℚ)} (hr : IsDict roi) {ns : List PyStr}
    (h : RoiNames axes roi ns) : ns.Nodup := by
  unfold IsDict at hr
  induction h with
  | nil => exact .nil
  | @cons e n roi ns h1 h2 ih =>
    rw [List.map_cons, List.nodup_cons] at hr
    refine List.nodup_cons.2 ⟨fun hm => hr.1 ?_, ih hr.2⟩
    obtain ⟨e', he', o2, -⟩ := forall₂_mem_left h2.flip hm
    rw [ofDim_unique h1.1 o2]
    exact List.mem_map_of_mem he'

section

variable {env : FitEnv} {keyOf : ℕ → PyStr} {a : FitArgs} {ts : List Spectrum} {d : ℕ} {st : FitState}

theorem zip_same {α β : Type} {l : List α} {m : List β} {b : β} (hl : m.length = l.length)
    (h : ∀ x ∈ m, x = b) : l.zip m = l.map (fun x => (x, b)) := by
  induction l generalizing m with
  | nil => rfl
  | cons x l ih =>
    cases m with
    | nil => simp at hl
    | cons y m =>
      rw [List.zip_cons_cons, List.map_cons, h y (by simp),
        ih (by simpa using hl) fun z hz => h z (List.mem_cons_of_mem _ hz)]

/-- The parameters of the region are the same for all spectra. -/
theorem names_run (hg : a.Given ts st) (hd : a.data = some d)
    (haxes : ∀ r ∈ a.floating ++ a.signal.toList ++ a.fixed.map Prod.fst,
      (st.view r).cfg = (st.view d).cfg) {b : Option ℕ} {ses : Session}
    (h2 : SesOf keyOf a ts st b ses) :
    ∃ ns, RoiNames (st.view d).cfg (inOrder a.roi) ns ∧ ses.dataPars = some ns ∧
      (a.fixed ≠ [] → ses.fixedPars = some ns) ∧ (∀ r, a.signal = some r → ses.signalPars = some ns) ∧
      ∀ r ∈ a.floating ++ a.signal.toList ++ a.fixed.map Prod.fst, ∀ ps,
        RoiNames (st.view r).cfg (inOrder a.roi) ps → ps = ns := by
  obtain ⟨ns, n1, n2⟩ := h2.dataNames d hd
  have hdk : d ∈ a.kept := by simp [FitArgs.kept, hd]
  have hdd := (hg.able d (List.mem_append_left _ hdk)).dims
  have huniq : ∀ r ∈ a.floating ++ a.signal.toList ++ a.fixed.map Prod.fst, ∀ ps,
      RoiNames (st.view r).cfg (inOrder a.roi) ps → ps = ns := fun r hr ps hps =>
    roiNames_unique hdd n2 (haxes r hr ▸ hps)
  refine ⟨ns, n2, n1, fun hne => ?_, fun r hr => ?_, huniq⟩
  · obtain ⟨ps, q1, q2⟩ := h2.fixedNames hne
    have hs := hg.fixed.shrunk
    obtain ⟨e, l, hl⟩ := List.exists_cons_of_ne_nil hne
    rw [hl] at hs
    cases hs with
    | @cons _ u _ us k1 _ =>
      obtain ⟨kw, -, -, k2, -⟩ := k1
      have hn : u.cfg.map SPar.name = (st.view e.1).cfg.map SPar.name := by
        rw [k2, scale_cfg, shrink_names]
      have := huniq e.1 (List.mem_append_right _ (by simp [hl])) ps
        (roiNames_congr hn (q2 u List.mem_cons_self))
      rw [q1, this]
  · obtain ⟨ps, q1, q2⟩ := h2.signalNames r hr
    rw [q1, huniq r (by simp [hr]) ps q2]

/-- What the fit evaluates. -/
theorem toFit_run (hg : a.Given ts st) (he : a.Evaluable env keyOf d st) (hfl : a.floating ≠ [])
    {b : Option ℕ} {ses : Session} (h2 : SesOf keyOf a ts st b ses) (m : Option Bool) :
    ∃ ns, RoiNames (st.view d).cfg (inOrder a.roi) ns ∧
      ({ ses with perBin := a.perBin, singleBin := a.singleBin, minimiser := m } : Session).toFit =
        a.read st d b ns := by
  obtain ⟨ns, n2, n1, n3, n4, huniq⟩ := names_run hg he.data he.axes h2
  obtain ⟨pss, p1, p2⟩ := h2.floatingNames hfl
  have hconf : ses.config = a.config ++ (a.ownPars st).map (fun p => (keyOf p, (p, false))) :=
    h2.entered.trans (entered_new he.names)
  refine ⟨ns, n2, ?_⟩
  have hfx : ses.fixed.map (fun r => (r, ses.fixedPars.getD [])) = b.map (fun r => (r, ns)) := by
    rw [h2.fixed]
    cases hb : b with
    | none => rfl
    | some t =>
      have hne : a.fixed ≠ [] := fun hn => by rw [h2.nofixed.2 hn] at hb; cases hb
      rw [n3 hne]; rfl
  have hsg : ses.signal.map (fun r => (r, ses.signalPars.getD [])) = a.signal.map (fun r => (r, ns)) := by
    rw [h2.signal]
    cases hb : a.signal with
    | none => rfl
    | some r => rw [n4 r hb]; rfl
  have hflo : ses.floating.map (fun rs => rs.zip (ses.floatingPars.getD [])) =
      some (a.floating.map (fun r => (r, ns))) := by
    rw [h2.floating, nonEmpty, if_neg hfl, p1]
    show some (a.floating.zip pss) = _
    rw [zip_same p2.length_eq.symm]
    intro ps hps
    obtain ⟨r, hr, k⟩ := forall₂_mem_left p2.flip hps
    exact huniq r (by simp [hr]) ps k
  unfold toFit FitArgs.read
  simp only [h2.data, he.data, n1, hfx, hsg, hflo, h2.stat, h2.statPerBin, Option.getD_some]
  congr 1
  · rw [hconf]
    simp only [List.map_append, List.map_map, FitArgs.parameters]
    congr 1
    conv_rhs => rw [← List.map_id (a.ownPars st)]
    rfl
  · show (ses.config.filter (fun e => e.2.2 == true)).map (fun e => e.2.1) = _
    rw [hconf]
    simp [FitArgs.globalPars, List.filter_append, List.filter_map, Function.comp_def]

theorem whole_run (hg : a.Given ts st) (he : a.Evaluable env keyOf d st) (hfl : a.floating ≠ []) :
    ∃ ses st' b ns, init keyOf a st = (st', .ok ses) ∧ Final a ts st b st' ∧ MadeFrom st st' ∧
      RoiNames (st.view d).cfg (inOrder a.roi) ns ∧ ses.toFit = a.read st d b ns ∧
      (b = none ↔ a.fixed = []) ∧ ses.fixed = b ∧ Constructed a ts st ses st' := by
  obtain ⟨_, ses, st', b, h1, h2, h3, rfl⟩ := init_run hg keyOf
  have hF := made_init keyOf a st
  rw [h1] at hF
  have h6 : SesOf keyOf a ts st b { ses with
      perBin := a.perBin, singleBin := a.singleBin,
      minimiser := if a.data ≠ none ∧ (a.fixed ≠ [] ∨ a.floating ≠ []) then
        some (a.minimiser.getD a.perBin) else none } :=
    ⟨h2.roi, h2.checked, h2.data, h2.dataPars, h2.fixed, h2.fixedPars, h2.nofixed, h2.floating,
      h2.floatingPars, h2.signal, h2.signalPars, h2.globals, h2.given, h2.config, h2.statPerBin,
      h2.stat, h2.entered, h2.dataNames, h2.fixedNames, h2.floatingNames, h2.signalNames⟩
  obtain ⟨ns, n2, n3⟩ := toFit_run hg he hfl h2 _
  exact ⟨_, st', b, ns, h1, h3, hF, n2, n3, h2.nofixed, h2.fixed, final_constructed hg h6 h3⟩

theorem read_floatingRefs (b : Option ℕ) (ns : List PyStr) :
    (a.read st d b ns).floatingRefs = a.floating := by
  simp [Fit.floatingRefs, FitArgs.read, Function.comp_def]

theorem read_moving (b : Option ℕ) (ns : List PyStr) :
    (a.read st d b ns).moving = a.floating ++ a.signal.toList := by
  rw [Fit.moving, read_floatingRefs]
  cases h : a.signal <;> simp [FitArgs.read, h]

theorem final_axes (hg : a.Given ts st) (he : a.Evaluable env keyOf d st) {b : Option ℕ}
    {st' : FitState} (hf : Final a ts st b st') {r : ℕ} (hr : r ∈ a.floating ++ a.signal.toList) :
    (st'.view r).cfg = (st'.view d).cfg ∧ (st'.view r).data.shape = (st'.view d).data.shape ∧
      (st'.view r).numDecays = (st.view r).numDecays ∧ (st'.view d).cfg.map SPar.name =
        (st.view d).cfg.map SPar.name := by
  have hdk : d ∈ a.kept := by simp [FitArgs.kept, he.data]
  have hrk : r ∈ a.kept := by
    simp only [FitArgs.kept, List.mem_append] at hr ⊢; tauto
  have hD := hg.able d (List.mem_append_left _ hdk)
  have hR := hg.able r (List.mem_append_left _ hrk)
  have hc := he.axes r (List.mem_append_left _ hr)
  have hreg := inOrder_isDict hg.region
  obtain ⟨h1, h2, -⟩ := shrunkTo_same_axes hreg hD hR hc (hf.shrunk d hdk) (hf.shrunk r hrk)
  obtain ⟨-, -, h3⟩ := shrunkTo_same_axes hreg hR hD hc.symm (hf.shrunk r hrk) (hf.shrunk d hdk)
  exact ⟨h1, h2, h3, shrunkTo_cfg (hf.shrunk d hdk)⟩

theorem read_ready (hg : a.Given ts st) (he : a.Evaluable env keyOf d st) {b : Option ℕ}
    {ns : List PyStr} {st' : FitState} (hf : Final a ts st b st') (hF : MadeFrom st st') :
    FitReady env (a.read st d b ns) st' := by
  have hlt : ∀ r ∈ a.kept, r < st.next := hg.alloc
  have hreg := inOrder_isDict hg.region
  have hdk : d ∈ a.kept := by simp [FitArgs.kept, he.data]
  have hmk : ∀ r ∈ a.floating ++ a.signal.toList, r ∈ a.kept := fun r hr => by
    simp only [FitArgs.kept, List.mem_append] at hr ⊢; tauto
  have hnd : d ∉ a.floating := by
    have := hg.kept_nodup
    unfold FitArgs.kept at this
    rw [he.data, List.map_append, List.nodup_append] at this
    intro hd
    exact this.2.2 _ (List.mem_map.2 ⟨d, by simp, rfl⟩) _ (List.mem_map.2 ⟨d, hd, rfl⟩) rfl
  refine ⟨he.str, hF.cache.trans he.cache, ⟨(hlt d hdk).trans_le hF.next, ?_, ?_⟩, ⟨?_, ?_⟩, ?_, ?_,
    ?_, he.pars, ?_, ?_⟩
  · intro x hx
    obtain ⟨t, ht, rfl⟩ := Option.map_eq_some_iff.1 (show b.map (fun r => (r, ns)) = some x from hx)
    exact (hf.made t ht).2
  · intro r hr
    rw [read_moving] at hr
    exact (hlt r (hmk r hr)).trans_le hF.next
  · rw [read_floatingRefs]; exact hnd
  · intro x hx
    obtain ⟨t, ht, rfl⟩ := Option.map_eq_some_iff.1 (show b.map (fun r => (r, ns)) = some x from hx)
    rw [read_floatingRefs]
    intro hm
    exact absurd (hlt t (hmk t (List.mem_append_left _ hm))) (not_lt.2 (hf.made t ht).1)
  · rw [read_moving]
    have : (a.floating ++ a.signal.toList).map (fun r => (st'.objs r).background) =
        (a.floating ++ a.signal.toList).map (fun r => (st.objs r).background) :=
      List.map_congr_left fun r hr => hF.background r (hlt r (hmk r hr))
    rw [this]; exact he.backgrounds
  · intro r hr
    rw [read_moving] at hr
    obtain ⟨h1, h2, -, h4⟩ := final_axes hg he hf hr
    have hc := ((hf.shrunk r (hmk r hr)).region hreg
      (hg.able r (List.mem_append_left _ (hmk r hr)))).2
    refine ⟨hc.wf, hc.aligned, hc.dims, ?_, h2⟩
    show List.Forall₂ _ (st'.view d).cfg (st'.view r).cfg
    rw [h1, List.forall₂_same]
    intro p hp
    refine ⟨?_, rfl, rfl, rfl⟩
    have : p.name ∈ (st.view d).cfg.map SPar.name := by rw [← h4]; exact List.mem_map_of_mem hp
    obtain ⟨q, hq, hqn⟩ := List.mem_map.1 this
    obtain ⟨dim, hdim⟩ := he.dims q hq
    exact ⟨dim, hqn ▸ hdim, hqn ▸ hdim⟩
  · intro r hr
    rw [read_moving] at hr
    rw [(final_axes hg he hf hr).2.2.1]
    exact he.decays r hr
  · intro p hp
    obtain ⟨e, hm, rfl⟩ := List.mem_map.1 (show p ∈ a.globalPars from hp)
    obtain ⟨hm, ht⟩ := List.mem_filter.1 hm
    refine ⟨List.mem_append_left _ (List.mem_map.2 ⟨e, hm, rfl⟩), ?_⟩
    rw [hF.params]
    exact he.globals e hm ht
  · intro r hr p hp
    rw [read_floatingRefs] at hr
    rw [hF.fit r (hlt r (hmk r (List.mem_append_left _ hr)))] at hp
    have hm : p ∈ a.ownPars st := List.mem_flatMap.2 ⟨r, hr, hp⟩
    refine ⟨List.mem_append_right _ hm, ?_⟩
    rw [hF.params]
    exact he.rates p hm

theorem sumIdx_ite_list {α : Type} (l : List α) (shape : List ℕ) (f : α → List ℕ → ℚ)
    (P : List ℕ → Prop) [DecidablePred P] :
    sumIdx shape (fun j => if P j then (l.map (fun e => f e j)).sum else 0) =
      (l.map (fun e => sumIdx shape (fun j => if P j then f e j else 0))).sum := by
  rw [← sumIdx_history]
  refine sumIdx_congr fun j _ => ?_
  by_cases h : P j <;> simp [h]

/-- What is projected of a spectrum that has been shrunk to the region. -/
theorem region_project (hg : a.Given ts st) {ns : List PyStr}
    (hns : RoiNames (st.view d).cfg (inOrder a.roi) ns)
    (hl : (st.view d).cfg.length ≤ a.roi.length + 1) {t : Spectrum} (hw : t.WF)
    (hn : t.cfg.map SPar.name = (st.view d).cfg.map SPar.name) :
    ∃ c, t.ndProject ns = .ok c ∧ IsProjection t ns c := by
  have hnn := roiNames_nodup (inOrder_isDict hg.region) hns
  obtain ⟨c, h1, h2, -⟩ := c11_nd_project_partial t hw ns hnn (by
      intro n hm
      obtain ⟨e, -, -, p, hp, rfl⟩ := forall₂_mem_left hns.flip hm
      have : p.name ∈ t.cfg.map SPar.name := by rw [hn]; exact List.mem_map_of_mem hp
      obtain ⟨q, hq, h⟩ := List.mem_map.1 this
      exact ⟨q, hq, h⟩) (by
      have e1 : t.cfg.length = (st.view d).cfg.length := by simpa using congrArg List.length hn
      have e2 : ns.length = a.roi.length := by
        rw [← hns.length_eq]; simp [inOrder]
      rw [e1, e2]; exact hl)
  exact ⟨c, h1, h2⟩

/-- Spectra shrunk to the region are determined. -/
theorem shrunkTo_unique {roi : Dict (ℚ × ℚ)} (hr : IsDict roi) {s t t' : Spectrum}
    (hs : CanShrink roi s) (h : ShrunkTo roi s t) (h' : ShrunkTo roi s t') : t.Eqv t' := by
  obtain ⟨kw, hk, -, he⟩ := h
  obtain ⟨kw', hk', -, he'⟩ := h'
  obtain rfl : kw' = kw := by
    have e1 := roiKw_of_asks hs.dims hk hr
    have e2 := roiKw_of_asks hs.dims hk' hr
    rw [e1] at e2
    cases e2; rfl
  obtain ⟨rs, h1, -, -, h4⟩ := hs.shrunk hr hk
  exact isSub_unique (isSub_eqv h4 he) (isSub_eqv h4 he')

/-- What one fixed background adds. -/
theorem fixed_projection {roi : Dict (ℚ × ℚ)} (hr : IsDict roi) {s t : Spectrum} {n : ℚ}
    {ns : List PyStr} {c : NdArray ℚ} (hs : CanShrink roi s) (h : ShrunkScaled roi s n t)
    (hc : RegionContents roi ns s c) :
    c.shape = pick ns (t.cfg.map SPar.name) t.data.shape ∧ ∀ idx, InB c.shape idx →
      sumIdx t.data.shape (fun full => if pick ns (t.cfg.map SPar.name) full = idx then
        t.data.get full else 0) = n / s.numDecays * c.get idx := by
  obtain ⟨kw, hk, herr, rfl, hsc⟩ := h
  obtain ⟨u, hu, hp⟩ := hc
  have h0 : ShrunkTo roi s (s.shrink kw).st :=
    ⟨kw, hk, herr, ⟨⟨rfl, rfl, rfl, rfl, rfl⟩, rfl, fun _ _ => rfl⟩⟩
  obtain ⟨⟨-, e2, e3, -, -⟩, e6, e7⟩ := shrunkTo_unique hr hs h0 hu
  obtain ⟨-, -, e8⟩ := shrunkTo_same_axes hr hs hs rfl h0 h0
  have hcf := scale_cfg (s.shrink kw).st n
  have hsh : ((s.shrink kw).st.scale n).st.data.shape = (s.shrink kw).st.data.shape := by
    unfold Spectrum.scale; split <;> rfl
  have hget : ∀ full, ((s.shrink kw).st.scale n).st.data.get full =
      (s.shrink kw).st.data.get full * (n / s.numDecays) := by
    intro full
    unfold Spectrum.scale at hsc ⊢
    split
    · next hz => rw [if_pos hz] at hsc; cases hsc
    · rw [← e8]; rfl
  rw [hcf, hsh]
  refine ⟨by rw [hp.1, e2, e6], fun idx hi => ?_⟩
  rw [hp.2 idx hi, mul_comm, ← sumIdx_mul, ← e6]
  refine sumIdx_congr fun full hf => ?_
  rw [e2, ite_mul, zero_mul, hget, e7 full hf]

/-- The contents of the region of all spectra. -/
theorem region_run (hg : a.Given ts st) (hd : a.data = some d)
    (hcfg : ∀ r ∈ a.kept ++ a.fixed.map Prod.fst, (st.view r).cfg = (st.view d).cfg) {b : Option ℕ}
    {st' : FitState} (h2 : Final a ts st b st') {ns : List PyStr}
    (h4 : RoiNames (st.view d).cfg (inOrder a.roi) ns)
    (hl : (st.view d).cfg.length ≤ a.roi.length + 1) :
    ∃ c : ℕ → NdArray ℚ, ∀ r ∈ a.kept ++ a.fixed.map Prod.fst,
      RegionContents (inOrder a.roi) ns (st.view r) (c r) ∧
        (r ∈ a.kept → (st'.view r).ndProject ns = .ok (c r)) ∧ (c r).shape = (c d).shape := by
  have hreg := inOrder_isDict hg.region
  have hdk : d ∈ a.kept := by simp [FitArgs.kept, hd]
  have hex : ∀ r, ∃ c, r ∈ a.kept ++ a.fixed.map Prod.fst →
      RegionContents (inOrder a.roi) ns (st.view r) c ∧
        (r ∈ a.kept → (st'.view r).ndProject ns = .ok c) ∧
        c.shape = pick ns ((st.view d).cfg.map SPar.name) (st'.view d).data.shape := by
    intro r
    by_cases hr : r ∈ a.kept ++ a.fixed.map Prod.fst
    swap
    · exact ⟨⟨[], fun _ => 0⟩, fun h => absurd h hr⟩
    have hc := hcfg r hr
    have hD := hg.able d (List.mem_append_left _ hdk)
    by_cases hrk : r ∈ a.kept
    · have hs := h2.shrunk r hrk
      have hn : (st'.view r).cfg.map SPar.name = (st.view d).cfg.map SPar.name := by
        rw [shrunkTo_cfg hs, hc]
      obtain ⟨c, k1, k2⟩ := region_project hg h4 hl (hs.region hreg (hg.able r hr)).2.wf hn
      refine ⟨c, fun _ => ⟨⟨_, hs, k2⟩, fun _ => k1, ?_⟩⟩
      rw [k2.1, hn, (shrunkTo_same_axes hreg hD (hg.able r hr) hc (h2.shrunk d hdk) hs).2.1]
    · obtain ⟨kw, hk⟩ := (hg.able r hr).asks
      obtain ⟨rs, -, -, g3, -⟩ := (hg.able r hr).shrunk hreg hk
      have hs : ShrunkTo (inOrder a.roi) (st.view r) ((st.view r).shrink kw).st :=
        ⟨kw, hk, g3, ⟨⟨rfl, rfl, rfl, rfl, rfl⟩, rfl, fun _ _ => rfl⟩⟩
      have hn := (shrunkTo_cfg hs).trans (by rw [hc] :
        (st.view r).cfg.map SPar.name = (st.view d).cfg.map SPar.name)
      obtain ⟨c, k1, k2⟩ := region_project hg h4 hl (hs.region hreg (hg.able r hr)).2.wf hn
      refine ⟨c, fun _ => ⟨⟨_, hs, k2⟩, fun h => absurd h hrk, ?_⟩⟩
      rw [k2.1, hn, (shrunkTo_same_axes hreg hD (hg.able r hr) hc (h2.shrunk d hdk) hs).2.1]
  choose c hc using hex
  have hcd := hc d (List.mem_append_left _ hdk)
  exact ⟨c, fun r hr => ⟨(hc r hr).1, (hc r hr).2.1, by rw [(hc r hr).2.2, hcd.2.2]⟩⟩

/-- The contents of the fixed background. -/
theorem fixed_run (hg : a.Given ts st) (hne : a.fixed ≠ [])
    (hcfg : ∀ r ∈ a.kept ++ a.fixed.map Prod.fst, (st.view r).cfg = (st.view d).cfg)
    {ns : List PyStr} (h4 : RoiNames (st.view d).cfg (inOrder a.roi) ns)
    (hl : (st.view d).cfg.length ≤ a.roi.length + 1) {s : Spectrum} (htot : IsTotal ts s)
    {c : ℕ → NdArray ℚ} {P : ℕ → Prop} (hc : ∀ r ∈ a.kept ++ a.fixed.map Prod.fst,
      RegionContents (inOrder a.roi) ns (st.view r) (c r) ∧ P r ∧ (c r).shape = (c d).shape) :
    ∃ p, s.ndProject ns = .ok p ∧ p.shape = (c d).shape ∧ ∀ idx, InB (c d).shape idx →
      p.get idx = (a.fixed.map (fun x => x.2 / (st.view x.1).numDecays * (c x.1).get idx)).sum := by
  have hreg := inOrder_isDict hg.region
  have hshape : ∀ r ∈ a.kept ++ a.fixed.map Prod.fst, (c r).shape = (c d).shape := fun r hr =>
    (hc r hr).2.2
  have hF := hg.fixed.shrunk
  have hwf := (total_region hg htot hne).2.wf
  have hall : List.Forall₂ (fun e t => (c e.1).shape = pick ns (t.cfg.map SPar.name) t.data.shape ∧
      t.cfg.map SPar.name = (st.view d).cfg.map SPar.name ∧
      ∀ idx, InB (c e.1).shape idx → sumIdx t.data.shape (fun full =>
        if pick ns (t.cfg.map SPar.name) full = idx then t.data.get full else 0) =
        e.2 / (st.view e.1).numDecays * (c e.1).get idx) a.fixed ts := by
    refine List.Forall₂.imp (fun e t ht => ?_)
      (List.forall₂_and_left _ _ |>.2 ⟨fun e he => he, hF⟩)
    have hm : e.1 ∈ a.kept ++ a.fixed.map Prod.fst :=
      List.mem_append_right _ (List.mem_map_of_mem ht.1)
    obtain ⟨g1, g2⟩ := fixed_projection hreg (hg.able _ hm) ht.2 (hc _ hm).1
    refine ⟨g1, ?_, g2⟩
    obtain ⟨kw, -, -, k2, -⟩ := ht.2
    rw [k2, scale_cfg, shrink_names, hcfg _ hm]
  have hts : ts ≠ [] := fun hn => by
    rw [hn] at hF
    exact hne (List.forall₂_nil_right_iff.1 hF)
  obtain ⟨u, hu⟩ := List.exists_mem_of_ne_nil ts hts
  obtain ⟨x, hx, q1, q2, -⟩ := forall₂_mem_left hall.flip hu
  have hn : s.cfg.map SPar.name = (st.view d).cfg.map SPar.name := by
    rw [(htot.axes u hu).1, q2]
  obtain ⟨p, k1, k2⟩ := region_project hg h4 hl hwf hn
  have hps : p.shape = (c d).shape := by
    rw [k2.1, (htot.axes u hu).1, (htot.axes u hu).2, ← q1]
    exact hshape x.1 (List.mem_append_right _ (List.mem_map_of_mem hx))
  refine ⟨p, k1, hps, fun idx hi => ?_⟩
  rw [k2.2 idx (hps ▸ hi)]
  have e1 : sumIdx s.data.shape (fun full =>
      if pick ns (s.cfg.map SPar.name) full = idx then s.data.get full
      else 0) = sumIdx s.data.shape (fun full =>
      if pick ns (s.cfg.map SPar.name) full = idx then
        (ts.map (fun t => t.data.get full)).sum else 0) :=
    sumIdx_congr fun full hf => by rw [htot.cells full hf]
  rw [e1, sumIdx_ite_list]
  have haxes := htot.axes
  have hshx : ∀ x ∈ a.fixed, (c x.1).shape = (c d).shape := fun x hx =>
    hshape x.1 (List.mem_append_right _ (List.mem_map_of_mem hx))
  clear * - hall haxes hshx hi
  revert hall hshx
  generalize a.fixed = l
  intro hall hshx
  induction hall with
  | nil => rfl
  | @cons e t' l ts' g _ ih =>
    rw [List.map_cons, List.map_cons, List.sum_cons, List.sum_cons,
      ih (fun t ht => haxes t (List.mem_cons_of_mem _ ht))
        (fun x hx => hshx x (List.mem_cons_of_mem _ hx))]
    obtain ⟨a1, a2⟩ := haxes t' List.mem_cons_self
    rw [a1, a2, g.2.2 idx (by rw [hshx e List.mem_cons_self]; exact hi)]

/-- What is evaluated without global parameters, from the projections of the spectra. -/
theorem evaluated_run {b : Option ℕ} {ns : List PyStr} {s : FitState}
    (hr : FitReady env (a.read st d b ns) s) (hfl : a.floating ≠ []) (hgl : a.globalPars = [])
    {c : ℕ → NdArray ℚ} (hobs : (s.view d).ndProject ns = .ok (c d))
    (hflo : ∀ r ∈ a.floating, (s.view r).ndProject ns = .ok (c r) ∧ (c r).shape = (c d).shape ∧
      (s.objs r).fit = (st.objs r).fit ∧ (s.view r).numDecays = (st.view r).numDecays)
    {fixed : List (NdArray ℚ)}
    (hfix : List.Forall₂ (fun t p => (s.view t).ndProject ns = .ok p ∧ p.shape = (c d).shape)
      b.toList fixed) {signal : List (NdArray ℚ)}
    (hsig : List.Forall₂ (fun t p => (s.view t).ndProject ns = .ok p ∧ p.shape = (c d).shape)
      a.signal.toList signal) (hist : List (List ℚ))
    (hh : ∀ x ∈ hist, FullArgs (a.read st d b ns) x ∧ NonzeroRates (a.read st d b ns) s x)
    (args : List ℚ) (hargs : args.length = (a.parameters st).length) (rate : ℕ → ℚ)
    (hrate : ∀ r ∈ a.floating, ∃ p, (st.objs r).fit = some [p] ∧
      (p, rate r) ∈ (a.parameters st).zip args) :
    ∃ e, evaluatedContents env (a.read st d b ns) args
          (afterEvaluations env (a.read st d b ns) hist s) = .ok (c d, some e) ∧
      e.shape = (c d).shape ∧ ∀ idx, InB (c d).shape idx → e.get idx =
        (fixed.map (fun p => p.get idx)).sum +
        (a.floating.map (fun r => rate r / (st.view r).numDecays * (c r).get idx)).sum +
        (signal.map (fun p => p.get idx)).sum := by
  have f1 : List.Forall₂ (fun b p => (s.view b.1).ndProject b.2 = .ok p)
      (a.read st d b ns).fixed.toList fixed := by
    show List.Forall₂ _ (b.map (fun r => (r, ns))).toList _
    cases b with
    | none => cases hfix; exact .nil
    | some t =>
      cases hfix with
      | cons h1 h2 => cases h2; exact .cons h1.1 .nil
  let xs := a.floating.map (fun r => (⟨s.view r, rate r, c r⟩ : BgTerm))
  have hx : List.Forall₂ (IsBgTerm env (a.read st d b ns) s args)
      (a.floating.map (fun r => (r, ns))) xs := by
    rw [List.forall₂_map_left_iff, List.forall₂_map_right_iff, List.forall₂_same]
    intro r hm
    refine ⟨?_, ?_, (hflo r hm).1⟩
    · show Convolved env s _ a.globalPars _ _
      rw [hgl]; exact .nil _
    · obtain ⟨p, p1, p2⟩ := hrate r hm
      exact ⟨p, (hflo r hm).2.2.1.trans p1, p2⟩
  have hs : List.Forall₂ (IsSignalTerm env (a.read st d b ns) s args)
      (a.read st d b ns).signal.toList signal := by
    show List.Forall₂ _ (a.signal.map (fun r => (r, ns))).toList _
    cases hs : a.signal with
    | none => rw [hs] at hsig; cases hsig; exact .nil
    | some r =>
      rw [hs] at hsig
      cases hsig with
      | cons h1 h2 => cases h2; exact .cons ⟨s.view r, .inl ⟨hgl, rfl⟩, h1.1⟩ .nil
  obtain ⟨e, e1, e2, e3⟩ := c91_expected_partial env (a.read st d b ns) s hr hist hh args hargs rfl hobs
    f1 hx hs (sh := (c d).shape) (by
      intro p hp
      rcases List.mem_append.1 hp with hp | hp
      · rcases List.mem_append.1 hp with hp | hp
        · obtain ⟨t, -, h⟩ := forall₂_mem_left hfix.flip hp
          exact h.2
        · obtain ⟨x, hx, rfl⟩ := List.mem_map.1 hp
          obtain ⟨r, hr, rfl⟩ := List.mem_map.1 hx
          exact (hflo r hr).2.1
      · obtain ⟨t, -, h⟩ := forall₂_mem_left hsig.flip hp
        exact h.2)
    (.inr (by simpa using hfl))
  refine ⟨e, e1, e2, fun idx hi => ?_⟩
  rw [e3 idx hi]
  congr 2
  rw [List.zipWith_map_left, List.zipWith_map_right, List.zipWith_self]
  congr 1
  refine List.map_congr_left fun r hr => ?_
  rw [(hflo r hr).2.2.2]

end

end Verif
