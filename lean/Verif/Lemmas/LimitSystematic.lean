import Verif.Lemmas.FitSystematic

/-! Helper lemmas: limits with systematic parameters. -/

namespace Verif

open Session

variable {env : FitEnv} {keyOf : ℕ → PyStr} {a : FitArgs} {ts : List Spectrum} {r d : ℕ} {st : FitState}
  {rnd : ℝ → ℚ} {vss : List (List ℝ)}

theorem Convolved.rescaled {vals : List (ℕ × ℚ)} {ps : List ℕ} {s t : Spectrum}
    (h : Convolved env st vals ps s t) (hs : SplineHom env.spline) (hn : s.data.norm = s.data) {m : ℚ}
    (hk : 0 < m / s.numDecays) : Convolved env st vals ps (s.rescaled m) (t.rescaled m) := by
  induction h with
  | nil s => exact .nil _
  | cons p v ps s t u hv hc h ih =>
    have ha := appliedTo_iff.1 hc
    have hal := convolve_alike ha
    have key := convP_rescaled hs { st.params p with value := some v } hn hk
    unfold convP at key
    dsimp only at key
    rw [ha] at key
    cases hc' : convolve env (st.params p).kind (st.params p).dimension v (s.rescaled m) with
    | error e => rw [hc'] at key; cases key
    | ok t' =>
      rw [hc'] at key
      have e : t'.norm = t.norm.rescaled m := Except.ok.inj key
      refine .cons p v ps _ t' _ hv (appliedTo_iff.2 hc') ?_
      rw [show ({ t' with data := t'.data.norm } : Spectrum) = t'.norm from rfl, e]
      exact ih (NdArray.norm_norm _) (by
        show 0 < m / t.numDecays
        rw [hal.numDecays]; exact hk)

theorem LastConvolved.rescaled {vals : List (ℕ × ℚ)} {ps : List ℕ} {s t : Spectrum}
    (h : LastConvolved env st vals ps s t) {m : ℚ} (hp : ps ≠ [] → SplineHom env.spline ∧
      0 < m / s.numDecays) (hn : s.data.norm = s.data) :
    LastConvolved env st vals ps (s.rescaled m) (t.rescaled m) := by
  rcases h with ⟨h, rfl⟩ | ⟨i, l, h1, h2, h3⟩
  · exact .inl ⟨h, rfl⟩
  · obtain ⟨hs, hk⟩ := hp (by rw [h1]; simp)
    refine .inr ⟨i, l, h1, fun p hm => ?_, h3.rescaled hs hn hk⟩
    obtain ⟨u, hu⟩ := h2 p hm
    exact ⟨_, hu.rescaled hs hn hk⟩

/-- The fit and the limit with systematic parameters: what is evaluated. -/
theorem limit_systematic_evaluated (h : a.LimitOn r d ts st)
    (he : (a.withSignal r).Evaluable env keyOf d st) (hy : a.Systematic st) {ns : List PyStr}
    (hns : RoiNames (st.view d).cfg (inOrder a.roi) ns) {c : ℕ → NdArray ℚ}
    (hc : ∀ q ∈ d :: a.fixed.map Prod.fst, RegionContents (inOrder a.roi) ns (st.view q) (c q))
    (search : GridSearch) :
    ∃ ses st' w, init keyOf a st = (st', .ok ses) ∧
      Fitter.limitInit ⟨ses, st', search⟩ r true = (w, .ok ()) ∧ w.search = search ∧
      LimitSignal r w ∧ w.ses.floating.getD [] ≠ [] ∧ w.ses.minimiser ≠ none ∧
      w.ses.parsOf true = a.globalPars ∧
      (∀ p, w.st.params p = { st.params p with name := (w.st.params p).name }) ∧
      (w.st.view r).numDecays = (st.view r).numDecays ∧
      ∃ f, (w.with r).ses.toFit = f ∧ FitReady env f w.st ∧ f.pars = a.parameters st ∧
      f.stat = a.stat ∧ f.statPerBin = a.statPerBin ∧ f.perBin = a.perBin ∧ f.singleBin = a.singleBin ∧
      ∀ args, args.length = (a.parameters st).length → ∀ x : ℕ → NdArray ℚ,
        (∀ q ∈ a.floating, SystematicContents env st (inOrder a.roi) ns a.globalPars
          (a.globalPars.zip args) (st.view q) (x q)) →
        LastContents env st (inOrder a.roi) ns a.globalPars (a.globalPars.zip args)
          (st.view r) (x r) →
        (∃ obs e, evaluatedContents env f.off args w.st = .ok (obs, some e) ∧ e.shape = obs.shape ∧
          comparedContents a.singleBin obs = comparedContents a.singleBin (c d) ∧
          comparedContents a.singleBin e = comparedContents a.singleBin
            (a.systematicAt st c x (c d).shape (args.drop a.globalPars.length))) ∧
        ∀ n, n ≠ 0 → (a.globalPars ≠ [] → SplineHom env.spline ∧ 0 < n / (st.view r).numDecays) →
          ∃ obs e, evaluatedContents env f args (w.st.scaled r n) = .ok (obs, some e) ∧
            e.shape = obs.shape ∧
            comparedContents a.singleBin obs = comparedContents a.singleBin (c d) ∧
            comparedContents a.singleBin e = expectedAt
              (comparedContents a.singleBin
                (a.systematicAt st c x (c d).shape (args.drop a.globalPars.length)))
              (comparedContents a.singleBin (x r)) ((n : ℝ) / ((st.view r).numDecays : ℝ)) := by
  have hg := h.given
  have hreg := inOrder_isDict hg.region
  have hfl := hy.floating
  have hdk : d ∈ (a.withSignal r).kept := by simp [FitArgs.kept, h.data]
  have hrk : r ∈ (a.withSignal r).kept := by simp [FitArgs.kept]
  have hfk : ∀ q ∈ a.floating, q ∈ (a.withSignal r).kept := fun q hq => by
    simp [FitArgs.kept, hq]
  have hlt : ∀ q ∈ (a.withSignal r).kept, q < st.next := hg.alloc
  have hkn := hg.kept_nodup
  have hdr : d ≠ r := by
    rintro rfl
    unfold FitArgs.kept at hkn
    simp [h.data] at hkn
  have hfr : ∀ q ∈ a.floating, q ≠ r := by
    rintro q hq rfl
    unfold FitArgs.kept at hkn
    rw [List.map_append, List.nodup_append] at hkn
    exact hkn.2.2 _ (List.mem_map.2 ⟨q, by simp, rfl⟩) _ (List.mem_map.2 ⟨q, hq, rfl⟩) rfl
  obtain ⟨ses, ses', ses'', st', st'', h1, h2, h3, h4, h5, h6, h7⟩ := limit_run hg h.signal keyOf
    (by rw [h.data]; simp) (.inr hfl) h.settings h.fit search
  have hls := limit_signal hg h.data (.inr hfl) h.settings h.decays h3 h4 h6 h7 search
  obtain ⟨ns', n1, n2⟩ := toFit_run hg he hfl h3 (some (a.minimiser.getD a.perBin))
  obtain rfl : ns' = ns := roiNames_unique (hg.able d (List.mem_append_left _ hdk)).dims hns n1
  have n2 : ses''.toFit = (a.withSignal r).read st d ses''.fixed ns' := by rw [← n2, h6]
  have hready := read_ready (b := ses''.fixed) (ns := ns') hg he h4 h5
  have hoff : ((a.withSignal r).read st d ses''.fixed ns').off = a.read st d ses''.fixed ns' := by
    unfold Fit.off FitArgs.read
    rw [h.signal]
    rfl
  have hsig : ses''.signal = some r := by rw [h6]; exact h3.signal
  have hdec : (st''.view r).numDecays = (st.view r).numDecays := by
    have hR := hg.able r (List.mem_append_left _ hrk)
    exact (shrunkTo_same_axes hreg hR hR rfl (h4.shrunk r hrk) (h4.shrunk r hrk)).2.2
  have hdec0 : (st''.view r).numDecays ≠ 0 := by rw [hdec]; exact h.decays
  obtain ⟨c', k1⟩ := region_run hg h.data h.axes h4 n1 h.region
  have hcc : ∀ q ∈ d :: a.fixed.map Prod.fst, (c' q).shape = (c q).shape ∧
      ∀ idx, InB (c q).shape idx → (c' q).get idx = (c q).get idx := fun q hm => by
    have hm' : q ∈ (a.withSignal r).kept ++ a.fixed.map Prod.fst := by
      rcases List.mem_cons.1 hm with rfl | hm
      · exact List.mem_append_left _ hdk
      · exact List.mem_append_right _ hm
    exact regionContents_unique hreg (hg.able q hm') (hc q hm) (k1 q hm').1
  have hcd := hcc d List.mem_cons_self
  have hcdc := (k1 d (List.mem_append_left _ hdk)).1
  -- the fixed background
  obtain ⟨fixed, f1, f2⟩ : ∃ fixed : List (NdArray ℚ),
      List.Forall₂ (fun t p => t ≠ r ∧ (st''.view t).ndProject ns' = .ok p ∧ p.shape = (c' d).shape)
        ses''.fixed.toList fixed ∧
      ∀ idx, InB (c d).shape idx → (fixed.map (fun p => p.get idx)).sum =
        (a.fixed.map (fun x => x.2 / (st.view x.1).numDecays * (c x.1).get idx)).sum := by
    cases hb : ses''.fixed with
    | none =>
      have hb' := hb ▸ h3.nofixed
      refine ⟨[], .nil, fun idx _ => ?_⟩
      rw [show a.fixed = [] from hb'.1 rfl]; rfl
    | some t =>
      have hne : (a.withSignal r).fixed ≠ [] := fun hn => by
        have := h3.nofixed.2 hn
        rw [hb] at this
        cases this
      obtain ⟨p, q1, q2, q3⟩ := fixed_run hg hne h.axes n1 h.region (h4.total t hb) k1
      refine ⟨[p], .cons ⟨?_, q1, q2⟩ .nil, fun idx hi => ?_⟩
      · have := (h4.made t hb).1
        have := hlt r hrk
        omega
      rw [List.map_singleton, List.sum_singleton, q3 idx (by rw [hcd.1]; exact hi)]
      congr 1
      refine List.map_congr_left fun y hy => ?_
      have hm := List.mem_map_of_mem (f := Prod.fst) hy
      have hs := (k1 y.1 (List.mem_append_right _ hm)).2.2
      have k := hcc y.1 (List.mem_cons_of_mem _ hm)
      rw [k.2 idx (by rw [← k.1, hs, hcd.1]; exact hi)]
  -- one rate each
  have hone : ∀ q, ∃ p, q ∈ a.floating → (st.objs q).fit = some [p] := fun q => by
    by_cases hm : q ∈ a.floating
    · obtain ⟨p, hp⟩ := hy.one q hm
      exact ⟨p, fun _ => hp⟩
    · exact ⟨0, fun h => absurd h hm⟩
  choose par hp using hone
  have hpars := hy.parameters hp
  have hfn : a.floating.Nodup := by
    have := he.pars
    rw [show (a.withSignal r).parameters st = a.parameters st from rfl, hpars] at this
    exact (this.of_append_right).of_map _
  refine ⟨ses, st', ⟨ses'', st'', search⟩, h1, h2, rfl, hls, ?_, ?_, ?_, h5.params, hdec,
    (a.withSignal r).read st d ses''.fixed ns', ?_, hready, rfl, rfl, rfl, rfl, rfl, ?_⟩
  · show ses''.floating.getD [] ≠ []
    rw [h6]
    show ses'.floating.getD [] ≠ []
    rw [h3.floating]
    show (nonEmpty a.floating).getD [] ≠ []
    rw [nonEmpty, if_neg hfl]
    exact hfl
  · show ses''.minimiser ≠ none
    rw [h6]
    simp
  · exact congrArg Fit.globals n2
  · show ({ ses'' with signal := some r } : Session).toFit = _
    rw [← n2, ← hsig]
  intro args hargs x hx hxr
  have hgl : a.globalPars.length ≤ args.length := by
    rw [hargs, hpars, List.length_append]; omega
  have hsub : ∀ e ∈ a.globalPars.zip args, e ∈ (a.parameters st).zip args := fun e hm => by
    rw [hpars, zip_append_drop _ _ _ hgl]; exact List.mem_append_left _ hm
  obtain ⟨rate, hrate⟩ := exists_map_eq (l := a.floating) (m := args.drop a.globalPars.length) hfn (by
    rw [List.length_drop, hargs, hpars, List.length_append, List.length_map]; omega)
  have hrates : ∀ q ∈ a.floating, ∃ p, (st.objs q).fit = some [p] ∧
      (p, rate q) ∈ (a.parameters st).zip args := fun q hm => by
    refine ⟨par q, hp q hm, ?_⟩
    rw [hpars, zip_append_drop _ _ _ hgl, ← hrate, List.zip_map']
    exact List.mem_append_right _ (List.mem_map.2 ⟨q, hm, rfl⟩)
  -- floating backgrounds and signal
  have hmove : ∀ q, ∃ u p, q ∈ a.floating → Convolved env st (a.globalPars.zip args) a.globalPars
      (st''.view q) u ∧ u.ndProject ns' = .ok p ∧ p.shape = (c' d).shape ∧
      ∀ idx, InB (c' d).shape idx → p.get idx = (x q).get idx := by
    intro q
    by_cases hq : q ∈ a.floating
    swap
    · exact ⟨st.view q, ⟨[], fun _ => 0⟩, fun h => absurd h hq⟩
    obtain ⟨t, u, t1, t2, t3, t4⟩ := hx q hq
    obtain ⟨rfl, -, p, p1, p2, p3⟩ := moved_project hg he h4 n1 h.region (q := q)
      (List.mem_append_left _ hq) t1 t2 t3.alike t4 hcdc
    exact ⟨u, p, fun _ => ⟨t3, p1, p2, p3⟩⟩
  choose w z hz using hmove
  obtain ⟨t, v, t1, t2, t3, t4⟩ := hxr
  obtain ⟨rfl, y0, y, y1, y2, y3⟩ := moved_project hg he h4 n1 h.region (q := r)
    (List.mem_append_right _ (by simp)) t1 t2 t3.alike t4 hcdc
  have hfloat : ∀ q ∈ a.floating, (st''.objs q).fit = (st.objs q).fit ∧
      (st''.view q).numDecays = (st.view q).numDecays := fun q hm =>
    ⟨h5.fit q (hlt q (hfk q hm)), (final_axes hg he h4 (List.mem_append_left _ hm)).2.2.1⟩
  have hsum : ∀ idx, InB (c d).shape idx → (fixed.map (fun p => p.get idx)).sum +
      (a.floating.map (fun q => rate q / (st.view q).numDecays * (z q).get idx)).sum =
      (a.systematicAt st c x (c d).shape (args.drop a.globalPars.length)).get idx := by
    intro idx hi
    unfold FitArgs.systematicAt
    dsimp only
    rw [f2 idx hi, h.signal, ← hrate, List.zipWith_map_right, List.zipWith_self]
    simp only [Option.toList_none, List.map_nil, List.sum_nil, add_zero]
    congr 2
    refine List.map_congr_left fun q hm => ?_
    rw [(hz q hm).2.2.2 idx (by rw [hcd.1]; exact hi)]
  constructor
  · rw [hoff]
    obtain ⟨e, e1, e2, e3⟩ := systematic_run (signal := []) (z := z) (hoff ▸ hready.off) hfl
      ((k1 d (List.mem_append_left _ hdk)).2.1 hdk) hargs
      (fun q hm => ⟨⟨w q, (hz q hm).1.transfer hsub h5.params, (hz q hm).2.1⟩, (hz q hm).2.2.1,
        hfloat q hm⟩)
      (f1.imp fun _ _ h => h.2) (by rw [h.signal]; exact .nil) rate hrates
    refine ⟨c' d, e, e1, e2, compared_congr _ hcd.1 hcd.2,
      compared_congr _ (e2.trans hcd.1) fun idx hi => ?_⟩
    have hi : InB (c d).shape idx := hi
    rw [e3 idx (by rw [hcd.1]; exact hi), List.map_nil, List.sum_nil, add_zero, hsum idx hi]
  · intro n hn hpos
    have hv : ∀ q, q ≠ r → (st''.scaled r n).view q = st''.view q := fun q hq =>
      scaled_view hdec0 n hq
    have hpar : ∀ p, (st''.scaled r n).params p =
        { st.params p with name := ((st''.scaled r n).params p).name } := by
      rw [(scaled_rest hdec0 n).2.2.1]
      exact h5.params
    have hview : (st''.scaled r n).view r = (st''.view r).rescaled n := by
      simp only [FitState.view, Spectrum.rescaled, scaled_self hdec0, (scaled_rest hdec0 n).1]
    have t3' := (t3.transfer hsub hpar).rescaled (m := n) (fun hne => by
      obtain ⟨p1, p2⟩ := hpos hne
      exact ⟨p1, by rw [hdec]; exact p2⟩) t2
    obtain ⟨g, g1, g2⟩ := ndProject_times (rescaled_alike_cfg v n) (rescaled_times v n) y1
    have hvd : v.numDecays = (st.view r).numDecays := by rw [t3.alike.numDecays, hdec]
    have hgs : g.shape = (c' d).shape := g2.1.trans y2
    obtain ⟨e, e1, e2, e3⟩ := systematic_run (a := a.withSignal r) (signal := [g]) (z := z)
      (fixed := fixed)
      (hready.scaled (n := n) hdec0 hdr hn) hfl
      (by rw [hv d hdr]; exact (k1 d (List.mem_append_left _ hdk)).2.1 hdk) hargs
      (fun q hm => by
        have hq := hfr q hm
        refine ⟨⟨w q, ?_, (hz q hm).2.1⟩, (hz q hm).2.2.1, ?_, ?_⟩
        · rw [hv q hq]
          exact (hz q hm).1.transfer hsub hpar
        · rw [scaled_objs hdec0 n hq]; exact (hfloat q hm).1
        · rw [hv q hq]; exact (hfloat q hm).2)
      (f1.imp fun t p hp => by rw [hv t hp.1]; exact hp.2)
      (.cons ⟨⟨_, by rw [hview]; exact t3', g1⟩, hgs⟩ .nil) rate hrates
    refine ⟨c' d, e, e1, e2, compared_congr _ hcd.1 hcd.2, ?_⟩
    have hcast : ((n : ℝ) / ((st.view r).numDecays : ℝ)) =
        ((n / (st.view r).numDecays : ℚ) : ℝ) := by push_cast; rfl
    have hxs : (x r).shape = (c d).shape := y0.trans hcd.1
    rw [hcast, ← compared_add
      (b := a.systematicAt st c x (c d).shape (args.drop a.globalPars.length))
      (t := ⟨(x r).shape, fun idx => n / (st.view r).numDecays * (x r).get idx⟩)
      hxs ⟨rfl, fun _ _ => rfl⟩]
    refine compared_congr _ (e2.trans hcd.1) fun idx hi => ?_
    have hi : InB (c d).shape idx := hi
    have hi' : InB (c' d).shape idx := by rw [hcd.1]; exact hi
    have ht := g2.2 idx (by rw [y2]; exact hi')
    rw [e3 idx hi', List.map_singleton, List.sum_singleton, ht, hvd, y3 idx hi']
    show _ = (a.systematicAt st c x (c d).shape (args.drop a.globalPars.length)).get idx +
      n / (st.view r).numDecays * (x r).get idx
    rw [← hsum idx hi]

end Verif
