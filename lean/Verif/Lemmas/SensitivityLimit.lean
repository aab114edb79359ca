import Verif.Spec.Sensitivity
import Verif.Lemmas.SensitivityRun
import Verif.Lemmas.LimitFloating

/-! Helper lemmas: limits set after a sensitivity study. -/

namespace Verif

open Session

variable {env : FitEnv} {keyOf : ℕ → PyStr} {a : FitArgs} {ts : List Spectrum} {r d : ℕ}
  {st : FitState} {rnd : ℝ → ℚ} {rateOf : ℕ → Option ℕ} {par : ℕ → ℕ}

/-- Shrinking a spectrum that has not been refilled. -/
theorem Refilled.shrink {s u s' : FitState} (h : Refilled s u) (hv : u.view r = s.view r)
    {roi : Dict (ℚ × ℚ)} (hs : shrinkSpectra roi r s = (s', .ok ())) :
    ∃ u', shrinkSpectra roi r u = (u', .ok ()) ∧ Refilled s' u' ∧ u'.view r = s'.view r ∧
      ∀ q, q ≠ r → u'.view q = { u.view q with cfg := (s'.view q).cfg } := by
  rw [shrinkSpectra_run] at hs ⊢
  rw [hv]
  cases hk : roiKw (s.view r).pars roi with
  | error e => rw [hk] at hs; cases hs
  | ok kw =>
    rw [hk] at hs
    dsimp only at hs ⊢
    unfold FitM.call at hs ⊢
    dsimp only at hs ⊢
    rw [hv]
    have e1 := (Prod.mk.inj hs).1
    have e2 := (Prod.mk.inj hs).2
    subst e1
    refine ⟨_, Prod.ext rfl e2, ?_, ?_, ?_⟩
    · refine ⟨?_, fun q => ?_, fun q => ?_, h.next, h.params, h.cache, fun q => ?_, fun q => ?_⟩
      · simp only [FitState.write, h.cfgs, h.cfg]
      all_goals
        by_cases hq : q = r
        · subst hq
          simp only [FitState.write, Function.update_self, h.cfg, h.fit, h.background]
        · simp only [FitState.write, Function.update_of_ne hq, h.cfg, h.shape, h.fit, h.background]
    · simp only [FitState.view, FitState.write, Function.update_self, h.cfg]
    · intro q hq
      simp only [FitState.view, FitState.write, Function.update_of_ne hq, h.cfgs, h.cfg]

/-- What the constructor of a limit has done. -/
theorem limitInit_parts {ses ses'' : Session} {s s'' : FitState} {search : GridSearch}
    (h : Fitter.limitInit ⟨ses, s, search⟩ r true = (⟨ses'', s'', search⟩, .ok ())) :
    (s.objs r).fit ≠ none ∧ shrinkSpectra ses.roi r s = (s'', .ok ()) ∧
      ∃ ps, roiPars ses.roi (s''.view r) = .ok ps ∧
        ses'' = { ses with signal := some r, signalPars := some ps } ∧
        dumpConfig ses'' s'' = .ok () := by
  unfold Fitter.limitInit at h
  by_cases hf : (s.objs r).fit = none
  · rw [if_pos hf] at h
    cases h
  rw [if_neg hf] at h
  refine ⟨hf, ?_⟩
  unfold setSignal at h
  rw [shrinkIf_true] at h
  dsimp only at h
  rcases hk : shrinkSpectra ses.roi r s with ⟨s1, e | x⟩
  · rw [hk] at h
    cases h
  rw [hk] at h
  dsimp only at h
  cases hp : roiPars ses.roi (s1.view r) with
  | error e => rw [hp] at h; cases h
  | ok ps =>
    rw [hp] at h
    dsimp only at h
    obtain ⟨h1, h2⟩ := Prod.mk.inj h
    obtain ⟨rfl, rfl, -⟩ := Fitter.mk.inj h1
    exact ⟨rfl, ps, hp, rfl, h2⟩

theorem limitInit_of {ses : Session} {s s'' : FitState} {search : GridSearch} {ps : List PyStr}
    (h1 : (s.objs r).fit ≠ none) (h2 : shrinkSpectra ses.roi r s = (s'', .ok ()))
    (h3 : roiPars ses.roi (s''.view r) = .ok ps)
    (h4 : dumpConfig { ses with signal := some r, signalPars := some ps } s'' = .ok ()) :
    Fitter.limitInit ⟨ses, s, search⟩ r true =
      (⟨{ ses with signal := some r, signalPars := some ps }, s'', search⟩, .ok ()) := by
  unfold Fitter.limitInit
  rw [if_neg h1]
  unfold setSignal
  rw [shrinkIf_true]
  dsimp only
  rw [h2]
  dsimp only
  rw [h3]
  dsimp only
  rw [h4]

/-- A fit with a signal can be evaluated without it. -/
theorem FitArgs.Evaluable.without (h : (a.withSignal r).Evaluable env keyOf d st)
    (hs : a.signal = none) : a.Evaluable env keyOf d st := by
  refine ⟨h.data, h.str, h.cache, ?_, ?_, h.dims, ?_, h.names, h.pars, h.globals, h.rates⟩
  · have := h.backgrounds
    rw [List.map_append, List.nodup_append] at this
    rw [hs]
    simpa using this.1
  · intro q hq
    refine h.axes q ?_
    rw [hs] at hq
    simp only [Option.toList_none, List.append_nil, List.mem_append] at hq ⊢
    exact hq.elim (fun h => .inl (.inl h)) .inr
  · intro q hq
    refine h.decays q ?_
    rw [hs] at hq
    simp only [Option.toList_none, List.append_nil, List.mem_append] at hq ⊢
    exact .inl hq

/-- The limit after the study: what is evaluated. -/
theorem study_limit (h : a.LimitOn r d ts st) (he : (a.withSignal r).Evaluable env keyOf d st)
    (ho : a.OwnRates st) (hfx : a.fixed ≠ [])
    (hrate : ∀ q ∈ a.floating, (st.objs q).fit = some [par q] ∧ rateOf q = some (par q))
    (hpr : ∀ q ∈ a.floating, rnd (st.params (par q)).prior ≠ 0)
    {ns : List PyStr} (hns : RoiNames (st.view d).cfg (inOrder a.roi) ns)
    {c : ℕ → NdArray ℚ} (hc : ∀ q ∈ (a.withSignal r).kept ++ a.fixed.map Prod.fst,
      RegionContents (inOrder a.roi) ns (st.view q) (c q)) (search : GridSearch) :
    ∃ ses st' u w, init keyOf a st = (st', .ok ses) ∧
      ses.study rnd rateOf st' = ((ses, u), .ok ()) ∧
      Fitter.limitInit ⟨ses, u, search⟩ r true = (w, .ok ()) ∧ w.search = search ∧
      LimitSignal r w ∧ w.ses.floating.getD [] ≠ [] ∧ w.ses.minimiser ≠ none ∧
      w.ses.parsOf true = [] ∧ (∀ p, w.st.params p = { st.params p with name := (w.st.params p).name }) ∧
      ∃ f, (w.with r).ses.toFit = f ∧ FitReady env f w.st ∧ f.pars = a.parameters st ∧
      f.stat = a.stat ∧ f.statPerBin = a.statPerBin ∧ f.perBin = a.perBin ∧ f.singleBin = a.singleBin ∧
      (∀ args, args.length = (a.parameters st).length →
        ∃ obs e, evaluatedContents env f.off args w.st = .ok (obs, some e) ∧ e.shape = obs.shape ∧
          comparedContents a.singleBin obs = comparedContents a.singleBin
            (a.filledUp st c d (a.floating.map (fun q => rnd (st.params (par q)).prior))) ∧
          comparedContents a.singleBin e =
            comparedContents a.singleBin (a.backgroundAt st c (c d).shape args)) ∧
      ∀ n, n ≠ 0 → ∀ args, args.length = (a.parameters st).length →
        ∃ obs e, evaluatedContents env f args (w.st.scaled r n) = .ok (obs, some e) ∧
          e.shape = obs.shape ∧
          comparedContents a.singleBin obs = comparedContents a.singleBin
            (a.filledUp st c d (a.floating.map (fun q => rnd (st.params (par q)).prior))) ∧
          comparedContents a.singleBin e = expectedAt
            (comparedContents a.singleBin (a.backgroundAt st c (c d).shape args))
            (comparedContents a.singleBin (c r)) ((n : ℝ) / ((st.view r).numDecays : ℝ)) := by
  have hg := h.given
  have hg0 := hg.without h.signal
  have he0 := he.without h.signal
  have hreg := inOrder_isDict hg.region
  have hfl := ho.floating
  have hdk : d ∈ (a.withSignal r).kept := by simp [FitArgs.kept, h.data]
  have hrk : r ∈ (a.withSignal r).kept := by simp [FitArgs.kept]
  have hfk : ∀ q ∈ a.floating, q ∈ (a.withSignal r).kept := fun q hq => by
    simp [FitArgs.kept, hq]
  have hdk0 : d ∈ a.kept := by simp [FitArgs.kept, h.data]
  have hfk0 : ∀ q ∈ a.floating, q ∈ a.kept := fun q hq => by
    simp [FitArgs.kept, hq]
  have hlt : ∀ q ∈ (a.withSignal r).kept, q < st.next := hg.alloc
  have hkn := hg.kept_nodup
  have hdr : d ≠ r := by
    rintro rfl
    unfold FitArgs.kept at hkn
    simp [h.data] at hkn
  have hfr : ∀ q ∈ a.floating, q ≠ r := by
    rintro q hq rfl
    unfold FitArgs.kept at hkn
    rw [List.map_append, List.nodup_append] at hkn
    exact hkn.2.2 _ (List.mem_map.2 ⟨q, by simp, rfl⟩) _ (List.mem_map.2 ⟨q, hq, rfl⟩) rfl
  obtain ⟨ses, ses', ses'', st', st'', h1, h2, h3, h4, h5, h6, h7⟩ := limit_run hg h.signal keyOf
    (by rw [h.data]; simp) (.inr hfl) h.settings h.fit search
  have hls := limit_signal hg h.data (.inr hfl) h.settings h.decays h3 h4 h6 h7 search
  obtain ⟨ses0, st0, u, t, ns0, i1, k2, k4, i3, i2, i4, i5, i6, k5, c', x, p, hc', f1, f2, f3, hx, hxd, hxf⟩ :=
    study_projections (rnd := rnd) hg0 he0 hfl hfx h.region hrate
  rw [h1] at i1
  cases i1
  obtain rfl : ns0 = ns := roiNames_unique (hg.able d (List.mem_append_left _ hdk)).dims hns i4
  obtain ⟨p1, p2, ps, p3, p4, p5⟩ := limitInit_parts h2
  have hrv : u.view r = st'.view r := k5 r hdr.symm fun hm => hfr r hm rfl
  obtain ⟨v, v1, v2, v3, v4⟩ := k4.shrink hrv p2
  have hinit : Fitter.limitInit ⟨ses, u, search⟩ r true = (⟨ses'', v, search⟩, .ok ()) := by
    rw [p4]
    refine limitInit_of (by rw [k4.fit]; exact p1) v1 (by rw [v3]; exact p3) ?_
    rw [dumpConfig_iff]
    have := dumpConfig_iff.1 p5
    rw [p4] at this
    intro e he hgl
    rw [v2.params]
    exact this e he hgl
  have hb : ses''.fixed = some t := by rw [p4]; exact i6
  obtain ⟨ns', n1, n2⟩ := toFit_run hg he hfl h3 (some (a.minimiser.getD a.perBin))
  obtain rfl : ns' = ns0 := roiNames_unique (hg.able d (List.mem_append_left _ hdk)).dims hns n1
  have n2 : ses''.toFit = (a.withSignal r).read st d (some t) ns' := by rw [← hb, ← n2, h6]
  rw [hb] at h3 h4
  have hready := read_ready (b := some t) (ns := ns') hg he h4 h5
  have hmt : st.next ≤ t := (i2.made t rfl).1
  have htr : t ≠ r := fun e => absurd (hlt r hrk) (not_lt.2 (e ▸ hmt))
  -- the spectra that are not the signal
  have hsame : ∀ q, q ≠ r → (st''.view q).cfg = (st'.view q).cfg → v.view q = u.view q := by
    intro q hq hcfg
    rw [v4 q hq, hcfg, ← k4.view_cfg]
  have hax : ∀ q ∈ (a.withSignal r).kept, q ∈ a.kept → (st''.view q).cfg = (st'.view q).cfg :=
    fun q hq hq0 => by
      have hR := hg.able q (List.mem_append_left _ hq)
      exact (shrunkTo_same_axes hreg hR hR rfl (i2.shrunk q hq0) (h4.shrunk q hq)).1
  have hvd : v.view d = u.view d := hsame d hdr (hax d hdk hdk0)
  have hvf : ∀ q ∈ a.floating, v.view q = u.view q := fun q hq =>
    hsame q (hfr q hq) (hax q (hfk q hq) (hfk0 q hq))
  have hvt : v.view t = u.view t := by
    refine hsame t htr ?_
    have hF := hg.fixed.shrunk
    obtain ⟨e, l, hl⟩ := List.exists_cons_of_ne_nil hfx
    rw [show (a.withSignal r).fixed = a.fixed from rfl, hl] at hF
    cases hF with
    | @cons _ t' _ ts' _ _ =>
      rw [((h4.total t rfl).axes t' List.mem_cons_self).1, ((i2.total t rfl).axes t' List.mem_cons_self).1]
  have hvs : ∀ q, (v.view q).cfg = (st''.view q).cfg := v2.view_cfg
  -- the signal
  have hdec : (st''.view r).numDecays = (st.view r).numDecays := by
    have hR := hg.able r (List.mem_append_left _ hrk)
    exact (shrunkTo_same_axes hreg hR hR rfl (h4.shrunk r hrk) (h4.shrunk r hrk)).2.2
  have hdecv : (v.view r).numDecays = (st.view r).numDecays := by rw [v3]; exact hdec
  have hdec0 : (v.view r).numDecays ≠ 0 := by rw [hdecv]; exact h.decays
  have hpass : ∀ s : Session, (s.checked = true ∨ (s.checkFitter st'').2 = .ok ()) →
      s.checked = true ∨ (s.checkFitter v).2 = .ok () := by
    intro s hs
    rcases hs with hs | hs
    · exact .inl hs
    · right
      rw [checkFitter_same (st := st'') (fun q _ => hvs q) (fun q => by rw [v2.params])]
      exact hs
  have hlsv : LimitSignal r ⟨ses'', v, search⟩ := by
    refine ⟨hls.set, ?_, hdec0, hls.apart, hpass _ hls.passes.1, hpass _ hls.passes.2⟩
    obtain ⟨qs, q1, q2⟩ := hls.pars
    refine ⟨qs, q1, ?_⟩
    show roiPars ses''.roi (v.view r) = _
    rw [v3]; exact q2
  have hur : FitReady env ((a.withSignal r).read st d (some t) ns') v := v2.ready hready (fun q hq => by
    rw [read_moving] at hq
    rcases List.mem_append.1 hq with hq | hq
    · rw [hvf q hq, (hxf q hq).1]; exact hpr q hq
    · have : q = r := by simpa [FitArgs.withSignal] using hq
      subst this
      exact hdec0)
  have hoff : ((a.withSignal r).read st d (some t) ns').off = a.read st d (some t) ns' := by
    unfold Fit.off FitArgs.read
    rw [h.signal]
    rfl
  have hsig : ses''.signal = some r := by rw [p4]
  have hgl : a.globalPars = [] := by
    unfold FitArgs.globalPars
    rw [ho.config]
    rfl
  obtain ⟨cs, m1⟩ := region_run hg h.data h.axes h4 n1 h.region
  have hsub : ∀ q ∈ a.kept ++ a.fixed.map Prod.fst, q ∈ (a.withSignal r).kept ++ a.fixed.map Prod.fst := by
    intro q hq
    unfold FitArgs.kept at hq ⊢
    rw [h.signal] at hq
    simp only [Option.toList_none, List.append_nil, List.mem_append] at hq ⊢
    tauto
  have hcc : ∀ q ∈ a.kept ++ a.fixed.map Prod.fst, (c' q).shape = (c q).shape ∧
      ∀ idx, InB (c q).shape idx → (c' q).get idx = (c q).get idx := fun q hm =>
    regionContents_unique hreg (hg.able q (hsub q hm)) (hc q (hsub q hm)) (hc' q hm).1
  have hcs : ∀ q ∈ (a.withSignal r).kept ++ a.fixed.map Prod.fst, (cs q).shape = (c q).shape ∧
      ∀ idx, InB (c q).shape idx → (cs q).get idx = (c q).get idx := fun q hm =>
    regionContents_unique hreg (hg.able q hm) (hc q hm) (m1 q hm).1
  have hcd := hcc d (List.mem_append_left _ hdk0)
  have hcr := hcs r (List.mem_append_left _ hrk)
  have hshape : ∀ q ∈ (a.withSignal r).kept ++ a.fixed.map Prod.fst, (c q).shape = (c d).shape :=
    fun q hm => by rw [← (hcs q hm).1, (m1 q hm).2.2, (hcs d (List.mem_append_left _ hdk)).1]
  have hget : ∀ q ∈ a.kept ++ a.fixed.map Prod.fst, ∀ idx, InB (c d).shape idx →
      (c' q).get idx = (c q).get idx := fun q hm idx hi =>
    (hcc q hm).2 idx (by rw [hshape q (hsub q hm)]; exact hi)
  have hxs : (x d).shape = (c d).shape := (hx d hdk0).2.trans hcd.1
  have hfix : ∀ idx, InB (c d).shape idx →
      (a.fixed.map (fun x => x.2 / (st.view x.1).numDecays * (c' x.1).get idx)).sum =
      (a.fixed.map (fun x => x.2 / (st.view x.1).numDecays * (c x.1).get idx)).sum := fun idx hi => by
    congr 1
    refine List.map_congr_left fun x hx => ?_
    rw [hget _ (List.mem_append_right _ (List.mem_map_of_mem hx)) idx hi]
  have hfil : comparedContents a.singleBin (x d) = comparedContents a.singleBin
      (a.filledUp st c d (a.floating.map (fun q => rnd (st.params (par q)).prior))) := by
    refine compared_congr _ hxs fun idx hi => ?_
    have hi : InB (c d).shape idx := hi
    rw [hxd idx (by rw [hcd.1]; exact hi), hfix idx hi, hcd.2 idx hi]
    unfold FitArgs.filledUp FitArgs.sumAt
    dsimp only
    rw [h.signal, List.zipWith_map_right, List.zipWith_self]
    simp only [Option.toList_none, List.map_nil, List.sum_nil, add_zero, ← add_assoc]
    congr 2
    refine List.map_congr_left fun q hm => ?_
    rw [hget _ (List.mem_append_left _ (hfk0 q hm)) idx hi]
  -- one rate each
  have hpars := ratesOnly_parameters ho (par := par) (fun q hq => (hrate q hq).1)
  have hfn : a.floating.Nodup := by
    have := he.pars
    rw [show (a.withSignal r).parameters st = a.parameters st from rfl, hpars] at this
    exact this.of_map _
  have hfit : ∀ q ∈ a.floating, (v.objs q).fit = (st.objs q).fit := fun q hq => by
    rw [v2.fit, h5.fit q (hlt q (hfk q hq))]
  have hrc : a.read v d (some t) ns' = a.read st d (some t) ns' := read_congr hfit _ _
  have hrc' : (a.withSignal r).read v d (some t) ns' = (a.withSignal r).read st d (some t) ns' :=
    read_congr (a := a.withSignal r) hfit _ _
  have hpc : a.parameters v = a.parameters st := congrArg Fit.pars hrc
  have hrates : ∀ args, args.length = (a.parameters st).length → ∃ rate : ℕ → ℚ,
      a.floating.map rate = args ∧ ∀ q ∈ a.floating, ∃ p, (v.objs q).fit = some [p] ∧
        (p, rate q) ∈ (a.parameters v).zip args := by
    intro args hargs
    obtain ⟨rate, hr⟩ := exists_map_eq hfn (by rw [hargs, hpars, List.length_map])
    refine ⟨rate, hr, fun q hm => ⟨par q, by rw [hfit q hm]; exact (hrate q hm).1, ?_⟩⟩
    rw [hpc, hpars, ← hr, List.zip_map', List.mem_map]
    exact ⟨q, hm, rfl⟩
  have hsum : ∀ (rate : ℕ → ℚ) idx, InB (c d).shape idx → p.get idx +
      (a.floating.map (fun q => rate q / (v.view q).numDecays * (x q).get idx)).sum =
      a.sumAt st (a.floating.map rate) c idx := by
    intro rate idx hi
    have hi' : InB (c' d).shape idx := by rw [hcd.1]; exact hi
    unfold FitArgs.sumAt
    rw [f3 idx hi', hfix idx hi, h.signal, List.zipWith_map_right, List.zipWith_self]
    simp only [Option.toList_none, List.map_nil, List.sum_nil, add_zero]
    congr 2
    refine List.map_congr_left fun q hm => ?_
    rw [hvf q hm, (hxf q hm).1, (hxf q hm).2 idx hi',
      hget _ (List.mem_append_left _ (hfk0 q hm)) idx hi]
    have g1 := hpr q hm
    have g2 := he0.decays q (List.mem_append_left _ hm)
    field_simp
  have hfloat : ∀ q ∈ a.floating, (v.view q).ndProject ns' = .ok (x q) ∧
      (x q).shape = (x d).shape := fun q hm =>
    ⟨by rw [hvf q hm]; exact (hx q (hfk0 q hm)).1, (hx q (hfk0 q hm)).2.trans (hx d hdk0).2.symm⟩
  have hps : p.shape = (x d).shape := f2.trans (hx d hdk0).2.symm
  refine ⟨ses, st', u, ⟨ses'', v, search⟩, h1, k2, hinit, rfl, hlsv, ?_, ?_, ?_,
    fun p => by rw [v2.params]; exact h5.params p,
    (a.withSignal r).read st d (some t) ns', ?_, hur, rfl, rfl, rfl, rfl, rfl, ?_, ?_⟩
  · show ses''.floating.getD [] ≠ []
    rw [h6]
    show ses'.floating.getD [] ≠ []
    rw [h3.floating]
    show (nonEmpty a.floating).getD [] ≠ []
    rw [nonEmpty, if_neg hfl]
    exact hfl
  · show ses''.minimiser ≠ none
    rw [h6]
    simp
  · have := congrArg Fit.globals n2
    exact this.trans hgl
  · show ({ ses'' with signal := some r } : Session).toFit = _
    rw [← n2, ← hsig]
  · intro args hargs
    obtain ⟨rate, r1, r2⟩ := hrates args hargs
    rw [hoff, ← hrc]
    obtain ⟨e, e1, e2, e3⟩ := evaluated_run (st := v) (s := v) (b := some t) (ns := ns') (c := x)
      (fixed := [p]) (signal := []) (by rw [hrc]; exact hoff ▸ hur.off) hfl hgl
      (by rw [hvd]; exact (hx d hdk0).1)
      (fun q hm => ⟨(hfloat q hm).1, (hfloat q hm).2, rfl, rfl⟩)
      (.cons ⟨by rw [hvt]; exact f1, hps⟩ .nil) (by rw [h.signal]; exact .nil) [] (by simp)
      args (by rw [hpc]; exact hargs) rate r2
    refine ⟨x d, e, e1, e2, hfil, compared_congr _ (e2.trans hxs) fun idx hi => ?_⟩
    have hi : InB (c d).shape idx := hi
    rw [e3 idx (by rw [hxs]; exact hi), List.map_nil, List.sum_nil, add_zero, List.map_singleton,
      List.sum_singleton, hsum rate idx hi, r1]
    rfl
  · intro n hn args hargs
    obtain ⟨rate, r1, r2⟩ := hrates args hargs
    have hv : ∀ q, q ≠ r → (v.scaled r n).view q = v.view q := fun q hq =>
      scaled_view hdec0 n hq
    have hview : ((v.scaled r n).view r).cfg = (v.view r).cfg ∧
        IsTimes (n / (v.view r).numDecays) (v.view r).data ((v.scaled r n).view r).data := by
      refine ⟨scaled_cfg hdec0 _ _, ?_⟩
      simp only [FitState.view, scaled_self hdec0, (scaled_rest hdec0 _).1]
      refine ⟨rfl, fun idx hi => ?_⟩
      simp only [NdArray.norm, NdArray.smul]
      have hi' : InB (v.objs r).data.shape idx := hi
      rw [if_pos hi']
      refine Eq.trans (if_pos hi') ?_
      ring
    obtain ⟨q, t1, t2⟩ := ndProject_times hview.1 hview.2
      (p := cs r) (dims := ns') (by rw [v3]; exact (m1 r (List.mem_append_left _ hrk)).2.1 hrk)
    have hts : q.shape = (x d).shape := by
      rw [t2.1, (hcs r (List.mem_append_left _ hrk)).1, hshape r (List.mem_append_left _ hrk), hxs]
    rw [← hrc']
    obtain ⟨e, e1, e2, e3⟩ := evaluated_run (a := a.withSignal r) (st := v) (s := v.scaled r n)
      (b := some t) (ns := ns') (c := x) (fixed := [p]) (signal := [q])
      (by rw [hrc']; exact hur.scaled (n := n) hdec0 hdr hn) hfl hgl
      (by rw [hv d hdr, hvd]; exact (hx d hdk0).1)
      (fun q hm => by
        have hq := hfr q hm
        exact ⟨by rw [hv q hq]; exact (hfloat q hm).1, (hfloat q hm).2,
          by rw [scaled_objs hdec0 n hq], by rw [hv q hq]⟩)
      (.cons ⟨by rw [hv t htr, hvt]; exact f1, hps⟩ .nil)
      (.cons ⟨t1, hts⟩ .nil) [] (by simp) args
      (by rw [show (a.withSignal r).parameters v = a.parameters v from rfl, hpc]; exact hargs) rate r2
    refine ⟨x d, e, e1, e2, hfil, ?_⟩
    have hcast : ((n : ℝ) / ((st.view r).numDecays : ℝ)) =
        ((n / (st.view r).numDecays : ℚ) : ℝ) := by push_cast; rfl
    rw [hcast, ← compared_add (b := a.backgroundAt st c (c d).shape args)
      (t := ⟨(c r).shape, fun idx => n / (st.view r).numDecays * (c r).get idx⟩)
      (hshape r (List.mem_append_left _ hrk)) ⟨rfl, fun _ _ => rfl⟩]
    refine compared_congr _ (e2.trans hxs) fun idx hi => ?_
    have hi : InB (c d).shape idx := hi
    have hir : InB (c r).shape idx := by rw [hshape r (List.mem_append_left _ hrk)]; exact hi
    have ht := t2.2 idx (by rw [hcr.1]; exact hir)
    have hq := hsum rate idx hi
    rw [r1] at hq
    rw [e3 idx (by rw [hxs]; exact hi), List.map_singleton, List.sum_singleton, List.map_singleton,
      List.sum_singleton, ht, hdecv, hcr.2 idx hir]
    show p.get idx + (a.floating.map (fun q => rate q / (v.view q).numDecays * (x q).get idx)).sum + _ =
      a.sumAt st args c idx + n / (st.view r).numDecays * (c r).get idx
    rw [hq]

end Verif
