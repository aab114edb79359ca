import Verif.Props.FitNumbers
import Verif.Props.LimitWhole

/-! Helper lemmas: limits set with a fit by grid search that is made from its arguments. -/

namespace Verif

open Session

variable {env : FitEnv} {rnd : ℝ → ℚ} {vss : List (List ℝ)}

theorem total_unique {s : Stat} {o e : List ℝ} {v v' : ℝ} (h : s.Total o e v) (h' : s.Total o e v') :
    v = v' := by
  obtain ⟨_, _, h⟩ := h
  obtain ⟨_, _, h'⟩ := h'
  rw [h] at h'
  cases h'
  rfl

/-- The penalty of a parameter with the given prior and sigma. -/
noncomputable def penaltyTerm (s : Stat) (p : Param) (x : ℝ) : ℝ :=
  match p.sigma with
  | none => 0
  | some sigma => pull s x p.prior sigma

theorem penaltiesAre_sum {s : Stat} {ps : List Param} {qs : List FitPar} {u ts : List ℝ}
    (hs : List.Forall₂ (fun (p : Param) (q : FitPar) => q.prior = p.prior ∧ q.sigma = p.sigma) ps qs)
    (h0 : ∀ p ∈ ps, p.sigma ≠ some 0) (hu : u.length = qs.length) (h : PenaltiesAre s qs u ts) :
    ts.sum = (List.zipWith (penaltyTerm s) ps u).sum := by
  induction hs generalizing u ts with
  | nil =>
    have := h.1
    rw [List.length_nil, List.length_eq_zero_iff] at this
    rw [this]; rfl
  | @cons p q ps qs hpq _ ih =>
    obtain ⟨hl, hi⟩ := h
    match u, ts, hu, hl with
    | x :: u, t :: ts, hu, hl =>
      rw [List.sum_cons, List.zipWith_cons_cons, List.sum_cons,
        ih (fun p hp => h0 p (List.mem_cons_of_mem _ hp)) (by simpa using hu)
          ⟨by simpa using hl, fun i p' x' t' a b c => hi (i + 1) p' x' t' (by simpa using a)
            (by simpa using b) (by simpa using c)⟩]
      congr 1
      obtain ⟨h1, h2⟩ := hi 0 q x t rfl rfl rfl
      unfold penaltyTerm
      cases hsig : p.sigma with
      | none => exact h1 (hpq.2.trans hsig)
      | some σ =>
        have hne : σ ≠ 0 := by
          rintro rfl
          exact h0 p List.mem_cons_self hsig
        have := h2 σ (hpq.2.trans hsig)
        rw [penalty_eq_pull hne, hpq.1] at this
        cases this
        rfl

/-- A fit by grid search, with the statistics `G` on the grid. -/
theorem grid_fit {w : Fitter} {f : Fit} (hf : w.ses.toFit = f) (hfl : w.ses.floating.getD [] ≠ [])
    (hmin : w.ses.minimiser ≠ none) (hp : w.Passes) (hr : FitReady env f w.st)
    (hready : w.search.Ready) (hnodup : ∀ vs ∈ vss, vs.Nodup)
    (hFS : FitSearch env f w.st rnd w.search vss) (hb : f.statPerBin = false) (hpb : f.perBin = false)
    (hsig : ∀ p ∈ f.pars, (w.st.params p).sigma ≠ some 0)
    (hsame : List.Forall₂ (fun p (q : FitPar) => q.prior = (w.st.params p).prior ∧
      q.sigma = (w.st.params p).sigma) f.pars w.search.pars)
    (hex : ∀ vs ∈ vss, ∀ x ∈ vs, ((rnd x : ℚ) : ℝ) = x) {G : List ℝ → ℝ}
    (hG : ∀ u, Combination vss u → ∃ obs e, evaluatedContents env f (u.map rnd) w.st = .ok (obs, some e) ∧
      e.shape = obs.shape ∧
      f.stat.Total (comparedContents f.singleBin obs) (comparedContents f.singleBin e) (G u)) :
    (∃ F P, FitGridSetup env f w.st rnd w.search vss F P) ∧
    ∃ u pens, FirstBest vss (fun u => G u +
        (List.zipWith (penaltyTerm f.stat) (f.pars.map w.st.params) u).sum) u ∧
      (w.fit env rnd).2 = .ok ⟨[G u], pens⟩ ∧
      pens.sum = (List.zipWith (penaltyTerm f.stat) (f.pars.map w.st.params) u).sum := by
  obtain ⟨fl, hflo⟩ : ∃ fl, f.floating = some fl := by
    rw [← hf]
    unfold Session.toFit
    cases h : w.ses.floating with
    | none => rw [h] at hfl; exact absurd rfl hfl
    | some l => exact ⟨_, rfl⟩
  have hstat : w.ses.stat = f.stat := by rw [← hf]; rfl
  have len : ∀ u, Combination vss u → (u.map rnd).length = f.pars.length := fun u hu => by
    rw [List.length_map, hu.length_eq, hFS.number]
  have hval : ∀ u, Combination vss u → ∀ x ∈ u, ((rnd x : ℚ) : ℝ) = x := fun u hu x hx => by
    obtain ⟨vs, hvs, hm⟩ := forall₂_mem_left hu hx
    exact hex vs hvs x hm
  have hpen : ∀ u, Combination vss u → (List.zipWith (penaltyOf f.stat) (f.pars.map w.st.params)
      (u.map rnd)).sum = (List.zipWith (penaltyTerm f.stat) (f.pars.map w.st.params) u).sum := by
    intro u hu
    have hv := hval u hu
    clear * - hv
    generalize f.pars.map w.st.params = ps
    induction u generalizing ps with
    | nil => simp
    | cons x u ih =>
      cases ps with
      | nil => rfl
      | cons p ps =>
        rw [List.map_cons, List.zipWith_cons_cons, List.zipWith_cons_cons, List.sum_cons, List.sum_cons,
          ih (fun y hy => hv y (List.mem_cons_of_mem _ hy))]
        congr 1
        unfold penaltyOf penaltyTerm
        rw [hv x List.mem_cons_self]
        cases p.sigma <;> rfl
  -- every evaluation
  have hok : ∀ u, Combination vss u → ∃ o, (funct env f (u.map rnd) w.st).2 =
      .ok ((.total (G u), o), (List.zipWith (penaltyTerm f.stat) (f.pars.map w.st.params) u).sum) := by
    intro u hu
    obtain ⟨obs, e, e1, e2, e3⟩ := hG u hu
    obtain ⟨v, hv⟩ := funct_total (shape := obs.shape) hflo (len u hu) hr.pars hb hpb hsig (by
      rw [e1]
      show some (obs.shape, some e.shape) = _
      rw [e2])
    obtain ⟨obs', e', v', k1, -, k3, k4, k5⟩ := funct_parts hr.pars (len u hu) hb hv
    rw [e1] at k1
    cases k1
    obtain rfl : v = v' := by
      simp only [toFitVal, FitVal.scalar.injEq] at k4
      exact k4
    obtain rfl := total_unique e3 k3
    refine ⟨none, ?_⟩
    rw [hv, k5, hpen u hu]
  refine ⟨hFS.setup fun u hu => ?_, ?_⟩
  · obtain ⟨o, ho⟩ := hok u hu
    exact ⟨_, ho⟩
  subst hf
  obtain ⟨h1, h2⟩ := c100_fit_partial hfl hmin hp hr hready hFS hnodup
  obtain ⟨o, ho⟩ := h1.2 fun u hu => by
    obtain ⟨o, ho⟩ := hok u hu
    exact ⟨_, ho⟩
  obtain ⟨u, s, p, ⟨idx, b1, ⟨o', b2⟩, b3⟩, k2, k3⟩ := h2 o ho
  obtain ⟨o'', h3⟩ := hok u b1.comb
  rw [h3] at b2
  cases b2
  refine ⟨u, o.pens, ⟨idx, b1, fun idx' u' hu' => ?_⟩, ?_, ?_⟩
  · obtain ⟨s', o₁, p', g1, g2, g3⟩ := b3 idx' u' hu'
    obtain ⟨o₂, g4⟩ := hok u' hu'.comb
    rw [g4] at g1
    cases g1
    exact ⟨g2, g3⟩
  · rw [ho]
    have : o.stat = [G u] := k2
    rw [← this]
  · refine penaltiesAre_sum (List.forall₂_map_left_iff.2 hsame) ?_ ?_ (by rw [← hstat]; exact k3)
    · intro p hp
      obtain ⟨q, hq, rfl⟩ := List.mem_map.1 hp
      exact hsig q hq
    · rw [b1.comb.length_eq, hFS.counts.length_eq]

section

variable {keyOf : ℕ → PyStr} {a : FitArgs} {ts : List Spectrum} {r d : ℕ} {st : FitState}

/-- The fit and the limit with floating backgrounds: what is evaluated. -/
theorem limit_evaluated (h : a.LimitOn r d ts st) (he : (a.withSignal r).Evaluable env keyOf d st)
    (ho : a.OwnRates st) {ns : List PyStr} (hns : RoiNames (st.view d).cfg (inOrder a.roi) ns)
    {c : ℕ → NdArray ℚ} (hc : ∀ q ∈ (a.withSignal r).kept ++ a.fixed.map Prod.fst,
      RegionContents (inOrder a.roi) ns (st.view q) (c q)) (search : GridSearch) :
    ∃ ses st' w, init keyOf a st = (st', .ok ses) ∧
      Fitter.limitInit ⟨ses, st', search⟩ r true = (w, .ok ()) ∧ w.search = search ∧
      LimitSignal r w ∧ w.ses.floating.getD [] ≠ [] ∧ w.ses.minimiser ≠ none ∧
      w.ses.parsOf true = [] ∧ (∀ p, w.st.params p = { st.params p with name := (w.st.params p).name }) ∧
      (w.st.view r).numDecays = (st.view r).numDecays ∧
      ∃ f, (w.with r).ses.toFit = f ∧ FitReady env f w.st ∧ f.pars = a.parameters st ∧
      f.stat = a.stat ∧ f.statPerBin = a.statPerBin ∧ f.perBin = a.perBin ∧ f.singleBin = a.singleBin ∧
      (∀ args, args.length = (a.parameters st).length →
        ∃ obs e, evaluatedContents env f.off args w.st = .ok (obs, some e) ∧ e.shape = obs.shape ∧
          comparedContents a.singleBin obs = comparedContents a.singleBin (c d) ∧
          comparedContents a.singleBin e =
            comparedContents a.singleBin (a.backgroundAt st c (c d).shape args)) ∧
      ∀ n, n ≠ 0 → ∀ args, args.length = (a.parameters st).length →
        ∃ obs e, evaluatedContents env f args (w.st.scaled r n) = .ok (obs, some e) ∧
          e.shape = obs.shape ∧
          comparedContents a.singleBin obs = comparedContents a.singleBin (c d) ∧
          comparedContents a.singleBin e = expectedAt
            (comparedContents a.singleBin (a.backgroundAt st c (c d).shape args))
            (comparedContents a.singleBin (c r)) ((n : ℝ) / ((st.view r).numDecays : ℝ)) := by
  have hg := h.given
  have hreg := inOrder_isDict hg.region
  have hfl := ho.floating
  have hdk : d ∈ (a.withSignal r).kept := by simp [FitArgs.kept, h.data]
  have hrk : r ∈ (a.withSignal r).kept := by simp [FitArgs.kept]
  have hfk : ∀ q ∈ a.floating, q ∈ (a.withSignal r).kept := fun q hq => by
    simp [FitArgs.kept, hq]
  have hlt : ∀ q ∈ (a.withSignal r).kept, q < st.next := hg.alloc
  have hkn := hg.kept_nodup
  have hdr : d ≠ r := by
    rintro rfl
    unfold FitArgs.kept at hkn
    simp [h.data] at hkn
  have hfr : ∀ q ∈ a.floating, q ≠ r := by
    rintro q hq rfl
    unfold FitArgs.kept at hkn
    rw [List.map_append, List.nodup_append] at hkn
    exact hkn.2.2 _ (List.mem_map.2 ⟨q, by simp, rfl⟩) _ (List.mem_map.2 ⟨q, hq, rfl⟩) rfl
  obtain ⟨ses, ses', ses'', st', st'', h1, h2, h3, h4, h5, h6, h7⟩ := limit_run hg h.signal keyOf
    (by rw [h.data]; simp) (.inr hfl) h.settings h.fit search
  have hls := limit_signal hg h.data (.inr hfl) h.settings h.decays h3 h4 h6 h7 search
  obtain ⟨ns', n1, n2⟩ := toFit_run hg he hfl h3 (some (a.minimiser.getD a.perBin))
  obtain rfl : ns' = ns := roiNames_unique (hg.able d (List.mem_append_left _ hdk)).dims hns n1
  have n2 : ses''.toFit = (a.withSignal r).read st d ses''.fixed ns' := by rw [← n2, h6]
  have hready := read_ready (b := ses''.fixed) (ns := ns') hg he h4 h5
  have hoff : ((a.withSignal r).read st d ses''.fixed ns').off = a.read st d ses''.fixed ns' := by
    unfold Fit.off FitArgs.read
    rw [h.signal]
    rfl
  have hsig : ses''.signal = some r := by rw [h6]; exact h3.signal
  have hgl : a.globalPars = [] := by
    unfold FitArgs.globalPars
    rw [ho.config]
    rfl
  have hdec : (st''.view r).numDecays = (st.view r).numDecays := by
    have hR := hg.able r (List.mem_append_left _ hrk)
    exact (shrunkTo_same_axes hreg hR hR rfl (h4.shrunk r hrk) (h4.shrunk r hrk)).2.2
  have hdec0 : (st''.view r).numDecays ≠ 0 := by rw [hdec]; exact h.decays
  obtain ⟨c', k1⟩ := region_run hg h.data h.axes h4 n1 h.region
  have hcc : ∀ q ∈ (a.withSignal r).kept ++ a.fixed.map Prod.fst, (c' q).shape = (c q).shape ∧
      ∀ idx, InB (c q).shape idx → (c' q).get idx = (c q).get idx := fun q hm =>
    regionContents_unique hreg (hg.able q hm) (hc q hm) (k1 q hm).1
  have hcd := hcc d (List.mem_append_left _ hdk)
  have hcr := hcc r (List.mem_append_left _ hrk)
  have hshape : ∀ q ∈ (a.withSignal r).kept ++ a.fixed.map Prod.fst, (c q).shape = (c d).shape :=
    fun q hm => by rw [← (hcc q hm).1, (k1 q hm).2.2, hcd.1]
  have hget : ∀ q ∈ (a.withSignal r).kept ++ a.fixed.map Prod.fst, ∀ idx, InB (c d).shape idx →
      (c' q).get idx = (c q).get idx := fun q hm idx hi =>
    (hcc q hm).2 idx (by rw [hshape q hm]; exact hi)
  -- the fixed background
  obtain ⟨fixed, f1, f2⟩ : ∃ fixed : List (NdArray ℚ),
      List.Forall₂ (fun t p => t ≠ r ∧ (st''.view t).ndProject ns' = .ok p ∧ p.shape = (c' d).shape)
        ses''.fixed.toList fixed ∧
      ∀ idx, InB (c d).shape idx → (fixed.map (fun p => p.get idx)).sum =
        (a.fixed.map (fun x => x.2 / (st.view x.1).numDecays * (c x.1).get idx)).sum := by
    cases hb : ses''.fixed with
    | none =>
      have hb' := hb ▸ h3.nofixed
      refine ⟨[], .nil, fun idx _ => ?_⟩
      rw [show a.fixed = [] from hb'.1 rfl]; rfl
    | some t =>
      have hne : (a.withSignal r).fixed ≠ [] := fun hn => by
        have := h3.nofixed.2 hn
        rw [hb] at this
        cases this
      obtain ⟨p, q1, q2, q3⟩ := fixed_run hg hne h.axes n1 h.region (h4.total t hb) k1
      refine ⟨[p], .cons ⟨?_, q1, q2⟩ .nil, fun idx hi => ?_⟩
      · have := (h4.made t hb).1
        have := hlt r hrk
        omega
      rw [List.map_singleton, List.sum_singleton, q3 idx (by rw [hcd.1]; exact hi)]
      congr 1
      refine List.map_congr_left fun x hx => ?_
      rw [hget _ (List.mem_append_right _ (List.mem_map_of_mem hx)) idx hi]
  -- one rate each
  have hone : ∀ q, ∃ p, q ∈ a.floating → (st.objs q).fit = some [p] := fun q => by
    by_cases hm : q ∈ a.floating
    · obtain ⟨p, hp⟩ := ho.one q hm
      exact ⟨p, fun _ => hp⟩
    · exact ⟨0, fun h => absurd h hm⟩
  choose par hp using hone
  have hpars := ratesOnly_parameters ho hp
  have hfn : a.floating.Nodup := by
    have := he.pars
    rw [show (a.withSignal r).parameters st = a.parameters st from rfl, hpars] at this
    exact this.of_map _
  have hrates : ∀ args, args.length = (a.parameters st).length → ∃ rate : ℕ → ℚ,
      a.floating.map rate = args ∧ ∀ q ∈ a.floating, ∃ p, (st.objs q).fit = some [p] ∧
        (p, rate q) ∈ (a.parameters st).zip args := by
    intro args hargs
    obtain ⟨rate, hrate⟩ := exists_map_eq hfn (by rw [hargs, hpars, List.length_map])
    refine ⟨rate, hrate, fun q hm => ⟨par q, hp q hm, ?_⟩⟩
    rw [hpars, ← hrate, List.zip_map', List.mem_map]
    exact ⟨q, hm, rfl⟩
  have hsum : ∀ (rate : ℕ → ℚ) idx, InB (c d).shape idx → (fixed.map (fun p => p.get idx)).sum +
      (a.floating.map (fun q => rate q / (st.view q).numDecays * (c' q).get idx)).sum =
      a.sumAt st (a.floating.map rate) c idx := by
    intro rate idx hi
    unfold FitArgs.sumAt
    rw [f2 idx hi, h.signal, List.zipWith_map_right, List.zipWith_self]
    simp only [Option.toList_none, List.map_nil, List.sum_nil, add_zero]
    congr 2
    refine List.map_congr_left fun q hm => ?_
    rw [hget _ (List.mem_append_left _ (hfk q hm)) idx hi]
  have hfloat : ∀ q ∈ a.floating, (st''.view q).ndProject ns' = .ok (c' q) ∧
      (c' q).shape = (c' d).shape ∧ (st''.objs q).fit = (st.objs q).fit ∧
      (st''.view q).numDecays = (st.view q).numDecays := fun q hm =>
    ⟨(k1 q (List.mem_append_left _ (hfk q hm))).2.1 (hfk q hm),
      (k1 q (List.mem_append_left _ (hfk q hm))).2.2, h5.fit q (hlt q (hfk q hm)),
      (final_axes hg he h4 (List.mem_append_left _ hm)).2.2.1⟩
  refine ⟨ses, st', ⟨ses'', st'', search⟩, h1, h2, rfl, hls, ?_, ?_, ?_, h5.params, hdec,
    (a.withSignal r).read st d ses''.fixed ns', ?_, hready, rfl, rfl, rfl, rfl, rfl, ?_, ?_⟩
  · show ses''.floating.getD [] ≠ []
    rw [h6]
    show ses'.floating.getD [] ≠ []
    rw [h3.floating]
    show (nonEmpty a.floating).getD [] ≠ []
    rw [nonEmpty, if_neg hfl]
    exact hfl
  · show ses''.minimiser ≠ none
    rw [h6]
    simp
  · have := congrArg Fit.globals n2
    exact this.trans hgl
  · show ({ ses'' with signal := some r } : Session).toFit = _
    rw [← n2, ← hsig]
  · intro args hargs
    obtain ⟨rate, r1, r2⟩ := hrates args hargs
    rw [hoff]
    obtain ⟨e, e1, e2, e3⟩ := evaluated_run (signal := []) (hoff ▸ hready.off) hfl hgl
      ((k1 d (List.mem_append_left _ hdk)).2.1 hdk) hfloat (f1.imp fun _ _ h => h.2) (by rw [h.signal]; exact .nil) [] (by simp)
      args hargs rate r2
    refine ⟨c' d, e, e1, e2, compared_congr _ hcd.1 hcd.2,
      compared_congr _ (e2.trans hcd.1) fun idx hi => ?_⟩
    have hi : InB (c d).shape idx := hi
    rw [e3 idx (by rw [hcd.1]; exact hi), List.map_nil, List.sum_nil, add_zero, hsum rate idx hi, r1]
    rfl
  · intro n hn args hargs
    obtain ⟨rate, r1, r2⟩ := hrates args hargs
    have hv : ∀ q, q ≠ r → (st''.scaled r n).view q = st''.view q := fun q hq =>
      scaled_view hdec0 n hq
    have hview : ((st''.scaled r n).view r).cfg = (st''.view r).cfg ∧
        IsTimes (n / (st''.view r).numDecays) (st''.view r).data ((st''.scaled r n).view r).data := by
      refine ⟨scaled_cfg hdec0 _ _, ?_⟩
      simp only [FitState.view, scaled_self hdec0, (scaled_rest hdec0 _).1]
      refine ⟨rfl, fun idx hi => ?_⟩
      simp only [NdArray.norm, NdArray.smul]
      have hi' : InB (st''.objs r).data.shape idx := hi
      rw [if_pos hi']
      refine Eq.trans (if_pos hi') ?_
      ring
    obtain ⟨t, t1, t2⟩ := ndProject_times hview.1 hview.2
      ((k1 r (List.mem_append_left _ hrk)).2.1 hrk)
    have hts : t.shape = (c' d).shape := t2.1.trans (k1 r (List.mem_append_left _ hrk)).2.2
    obtain ⟨e, e1, e2, e3⟩ := evaluated_run (a := a.withSignal r) (c := c') (fixed := fixed) (signal := [t])
      (hready.scaled (n := n) hdec0 hdr hn) hfl hgl
      (by rw [hv d hdr]; exact (k1 d (List.mem_append_left _ hdk)).2.1 hdk)
      (fun q hm => by
        obtain ⟨m1, m2, m3, m4⟩ := hfloat q hm
        have hq := hfr q hm
        exact ⟨by rw [hv q hq]; exact m1, m2, by rw [scaled_objs hdec0 n hq]; exact m3,
          by rw [hv q hq]; exact m4⟩)
      (f1.imp fun t p hp => by rw [hv t hp.1]; exact hp.2)
      (.cons ⟨t1, hts⟩ .nil) [] (by simp) args hargs rate r2
    refine ⟨c' d, e, e1, e2, compared_congr _ hcd.1 hcd.2, ?_⟩
    have hcast : ((n : ℝ) / ((st.view r).numDecays : ℝ)) =
        ((n / (st.view r).numDecays : ℚ) : ℝ) := by push_cast; rfl
    rw [hcast, ← compared_add (b := a.backgroundAt st c (c d).shape args)
      (t := ⟨(c r).shape, fun idx => n / (st.view r).numDecays * (c r).get idx⟩)
      (hshape r (List.mem_append_left _ hrk)) ⟨rfl, fun _ _ => rfl⟩]
    refine compared_congr _ (e2.trans hcd.1) fun idx hi => ?_
    have hi : InB (c d).shape idx := hi
    have ht := t2.2 idx (by rw [hcr.1, hshape r (List.mem_append_left _ hrk)]; exact hi)
    rw [e3 idx (by rw [hcd.1]; exact hi), List.map_singleton, List.sum_singleton, ht, hdec,
      hget r (List.mem_append_left _ hrk) idx hi]
    have := hsum rate idx hi
    rw [r1] at this
    show _ = a.sumAt st args c idx + n / (st.view r).numDecays * (c r).get idx
    rw [← this]

/-- The limit of a fit by grid search, from what is evaluated: `o` are the data in the region, `B` the
backgrounds at the given values, and `T` is the signal there, with `n` decays. -/
theorem limit_searched {search : GridSearch} (hpne : a.parameters st ≠ [])
    (hsigs : ∀ p ∈ a.parameters st, (st.params p).sigma ≠ some 0) (hspb : a.statPerBin = false)
    (hapb : a.perBin = false) (hready : search.Ready) (hform : search.perBin = false)
    (hvals : HasValues search.pars vss)
    (hcounts : List.Forall₂ (fun (p : FitPar) (vs : List ℝ) => vs.length = p.bins ∧ vs ≠ []) search.pars vss)
    (hnum : vss.length = (a.parameters st).length) (hnodup : ∀ vs ∈ vss, vs.Nodup)
    (hsigmas : ∀ p ∈ search.pars, p.sigma ≠ some 0)
    (hrates : ∀ u, Combination vss u → ∀ e ∈ (a.parameters st).zip (u.map rnd),
      (st.params e.1).kind = .rate → e.2 ≠ 0)
    (hsame : List.Forall₂ (fun p (q : FitPar) => q.prior = (st.params p).prior ∧
      q.sigma = (st.params p).sigma) (a.parameters st) search.pars)
    (hex : ∀ vs ∈ vss, ∀ x ∈ vs, ((rnd x : ℚ) : ℝ) = x) {w : Fitter} (h3 : w.search = search)
    (h4 : LimitSignal r w) (h5 : w.ses.floating.getD [] ≠ []) (h6 : w.ses.minimiser ≠ none)
    (h8 : ∀ p, w.st.params p = { st.params p with name := (w.st.params p).name }) {f : Fit}
    (f1 : (w.with r).ses.toFit = f) (f2 : FitReady env f w.st) (f3 : f.pars = a.parameters st)
    (f4 : f.stat = a.stat) (f5 : f.statPerBin = a.statPerBin) (f6 : f.perBin = a.perBin)
    (f7 : f.singleBin = a.singleBin) {o : NdArray ℚ} {B T : List ℝ → NdArray ℚ} {n : ℝ}
    (hoff : ∀ u, Combination vss u →
        ∃ obs e, evaluatedContents env f.off (u.map rnd) w.st = .ok (obs, some e) ∧ e.shape = obs.shape ∧
          comparedContents a.singleBin obs = comparedContents a.singleBin o ∧
          comparedContents a.singleBin e = comparedContents a.singleBin (B u))
    (hon : ∀ m, m ≠ 0 → (w.ses.parsOf true ≠ [] → 0 < m) → ∀ u, Combination vss u →
        ∃ obs e, evaluatedContents env f (u.map rnd) (w.st.scaled r m) = .ok (obs, some e) ∧
          e.shape = obs.shape ∧
          comparedContents a.singleBin obs = comparedContents a.singleBin o ∧
          comparedContents a.singleBin e = expectedAt (comparedContents a.singleBin (B u))
            (comparedContents a.singleBin (T u)) ((m : ℝ) / n)) :
    ∀ (calls : List LimitCall) (scales : List ℝ), Testable rnd (allScales calls ++ scales) →
      (w.ses.parsOf true ≠ [] → SplineHom env.spline ∧ 0 < (w.st.view r).numDecays ∧
        ∀ x ∈ allScales calls ++ scales, ¬ npCloseReal x 0 → 0 < rnd x) →
      scales ≠ [] → scales.Pairwise (· < ·) → ∀ (G₀ : List ℝ → ℝ) (G : ℝ → List ℝ → ℝ),
      (∀ u, Combination vss u → a.stat.Total (comparedContents a.singleBin o)
        (comparedContents a.singleBin (B u)) (G₀ u)) →
      (∀ x ∈ allScales calls ++ scales, ∀ u, Combination vss u → (npCloseReal x 0 → G x u = G₀ u) ∧
        (¬ npCloseReal x 0 → a.stat.Total (comparedContents a.singleBin o)
          (expectedAt (comparedContents a.singleBin (B u))
            (comparedContents a.singleBin (T u)) ((rnd x : ℝ) / n)) (G x u))) →
      ∀ (sigmas : List (Option ℝ)), (∀ s ∈ sigmas, s ≠ none) → ∀ (limit : ℝ),
      ∃ (best₀ : List ℝ) (best : ℝ → List ℝ),
        FirstBest vss (fun u => G₀ u + a.penaltyAt st u) best₀ ∧
        (∀ x ∈ scales, FirstBest vss (fun u => G x u + a.penaltyAt st u) (best x)) ∧
        ∃ b, BestScale scales (fun x => G x (best x)) b ∧
          (∀ x, ((w.afterCalls env rnd r calls).limitOf env rnd r scales sigmas none limit).2 = .ok x ↔
            FirstCrossing scales (fun y => G y (best y) - G₀ best₀ + a.penaltyAt st (best y))
              b limit x) ∧
          (((w.afterCalls env rnd r calls).limitOf env rnd r scales sigmas none limit).2 =
              .error .limitError ↔
            ∀ y ∈ scales, b ≤ y → G y (best y) - G₀ best₀ + a.penaltyAt st (best y) ≤ limit) := by
  intro calls scales ht hpos hne hs G₀ G hG₀ hG sigmas hsig limit
  have hparam : ∀ p, (w.st.params p).prior = (st.params p).prior ∧
      (w.st.params p).sigma = (st.params p).sigma := fun p => by
    rw [h8 p]; exact ⟨rfl, rfl⟩
  have hsig0 : ∀ p ∈ f.pars, (w.st.params p).sigma ≠ some 0 := by
    rw [f3]
    intro p hp
    rw [(hparam p).2]
    exact hsigs p hp
  have hsm : List.Forall₂ (fun p (q : FitPar) => q.prior = (w.st.params p).prior ∧
      q.sigma = (w.st.params p).sigma) f.pars w.search.pars := by
    rw [h3, f3]
    exact hsame.imp fun p q hq => by rw [(hparam p).1, (hparam p).2]; exact hq
  have hpen : ∀ u, (List.zipWith (penaltyTerm f.stat) (f.pars.map w.st.params) u).sum =
      a.penaltyAt st u := by
    intro u
    unfold FitArgs.penaltyAt
    rw [f3, f4, List.zipWith_map_left]
    congr 2
    funext p x
    unfold penaltyTerm
    rw [(hparam p).1, (hparam p).2]
    cases (st.params p).sigma <;> rfl
  have hwo : w.without.ses.toFit = f.off := by
    rw [← f1]; rfl
  have hflo : f.floating ≠ none := by
    rw [← f1]
    show (w.ses.floating.map _) ≠ none
    intro h
    rw [Option.map_eq_none_iff.1 h] at h5
    exact h5 rfl
  have hpk : ∀ p, (w.st.params p).kind = (st.params p).kind := fun p => by rw [h8 p]
  have hFS : ∀ (f' : Fit) (s : FitState), f'.pars = f.pars → f'.floating = f.floating →
      f'.statPerBin = f.statPerBin → f'.perBin = f.perBin → s.params = w.st.params →
      FitSearch env f' s rnd w.search vss := fun f' s k1 k2 k3 k4 k5 =>
    { values := by rw [h3]; exact hvals
      counts := by rw [h3]; exact hcounts
      number := by rw [hnum, k1, f3]
      floating := by rw [k2]; exact hflo
      form := fun u q _ h => form_total (by rw [h3]; exact hform) (k3.trans (f5.trans hspb))
        (k4.trans (f6.trans hapb)) h
      rates := fun u hu e hm hk => by
        rw [k1, f3] at hm
        rw [k5, hpk] at hk
        exact hrates u hu e hm hk
      sigmas := by rw [h3]; exact hsigmas
      nonempty := .inr fun h0 => by
        have := hcounts.length_eq
        rw [← h3, h0, hnum] at this
        exact hpne (List.length_eq_zero_iff.1 this.symm) }
  -- without signal
  obtain ⟨s0, u₀, pens₀, b0, b1, b2⟩ := grid_fit (env := env) (rnd := rnd) (w := w.without) hwo h5 h6
    h4.passes.1 f2.off (by rw [← h3] at hready; exact hready) hnodup (hFS f.off w.st rfl rfl rfl rfl rfl)
    (f5.trans hspb) (f6.trans hapb) hsig0 hsm hex
    (G := G₀) (fun u hu => by
      obtain ⟨obs, e, e1, e2, e3, e4⟩ := hoff u hu
      refine ⟨obs, e, e1, e2, ?_⟩
      show f.stat.Total (comparedContents f.singleBin obs) (comparedContents f.singleBin e) _
      rw [f4, f7, e3, e4]
      exact hG₀ u hu)
  have b0 : FirstBest vss (fun u => G₀ u + a.penaltyAt st u) u₀ := by
    have e : (fun u => G₀ u + a.penaltyAt st u) = fun u => G₀ u +
        (List.zipWith (penaltyTerm f.stat) (f.pars.map w.st.params) u).sum := by
      funext u; rw [hpen]
    rw [e]; exact b0
  have b2 : pens₀.sum = a.penaltyAt st u₀ := b2.trans (hpen u₀)
  -- with the signal
  have hscaled : ∀ x ∈ allScales calls ++ scales, ¬ npCloseReal x 0 →
      (∃ F P, FitGridSetup env f (w.st.scaled r (rnd x)) rnd w.search vss F P) ∧
      ∃ u pens, FirstBest vss (fun u => G x u + a.penaltyAt st u) u ∧
        w.fresh env rnd r (some x) = .ok ⟨[G x u], pens⟩ ∧ pens.sum = a.penaltyAt st u := by
    intro x hx hcl
    have hn := ht x hx hcl
    have hpar : (w.st.scaled r (rnd x)).params = w.st.params := (scaled_rest h4.decays _).2.2.1
    obtain ⟨d', hd', hdr⟩ := h4.apart.1
    have hdd : f.data ≠ r := by
      rw [← f1]
      show (w.ses.data.getD 0) ≠ r
      rw [hd']; exact hdr
    obtain ⟨s1, u, pens, g0, g1, g2⟩ := grid_fit (env := env) (rnd := rnd) (w := w.withScaled r (rnd x))
      (f := f) f1 h5 h6 (by
        rcases h4.passes.2 with hp | hp
        · exact .inl hp
        · refine .inr ?_
          rw [← hp]
          exact congrArg Prod.snd (checkFitter_same (fun q _ => scaled_cfg h4.decays _ q)
            (fun q => by rw [show (w.withScaled r (rnd x)).st = w.st.scaled r (rnd x) from rfl, hpar]; rfl)))
      (f2.scaled h4.decays hdd hn) (by rw [← h3] at hready; exact hready) hnodup
      (hFS f _ rfl rfl rfl rfl hpar) (f5.trans hspb) (f6.trans hapb)
      (by rw [show (w.withScaled r (rnd x)).st = w.st.scaled r (rnd x) from rfl, hpar]; exact hsig0)
      (by rw [show (w.withScaled r (rnd x)).st = w.st.scaled r (rnd x) from rfl, hpar]; exact hsm) hex
      (G := G x) (fun u hu => by
        obtain ⟨obs, e, e1, e2, e3, e4⟩ := hon (rnd x) hn (fun hgl => (hpos hgl).2.2 x hx hcl) u hu
        refine ⟨obs, e, e1, e2, ?_⟩
        rw [f4, f7, e3, e4]
        exact (hG x hx u hu).2 hcl)
    rw [show (w.withScaled r (rnd x)).st = w.st.scaled r (rnd x) from rfl, hpar] at g0 g2
    refine ⟨s1, u, pens, ?_, g1, g2.trans (hpen u)⟩
    have e : (fun u => G x u + a.penaltyAt st u) = fun u => G x u +
        (List.zipWith (penaltyTerm f.stat) (f.pars.map w.st.params) u).sum := by
      funext u; rw [hpen]
    rw [e]; exact g0
  have hall : ∀ x, ∃ u pens, x ∈ scales → FirstBest vss (fun u => G x u + a.penaltyAt st u) u ∧
      pens.sum = a.penaltyAt st u ∧
      (npCloseReal x 0 → w.fresh env rnd r none = .ok ⟨[G x u], pens⟩) ∧
      (¬ npCloseReal x 0 → w.fresh env rnd r (some x) = .ok ⟨[G x u], pens⟩) := by
    intro x
    by_cases hx : x ∈ scales
    · have hx' := List.mem_append_right (allScales calls) hx
      by_cases hcl : npCloseReal x 0
      · have hGx : ∀ u, Combination vss u → G x u = G₀ u := fun u hu => (hG x hx' u hu).1 hcl
        obtain ⟨idx, i1, i2⟩ := b0
        refine ⟨u₀, pens₀, fun _ => ⟨⟨idx, i1, fun idx' u' hu' => ?_⟩, b2, fun _ => ?_,
          fun h => absurd hcl h⟩⟩
        · dsimp only
          rw [hGx _ i1.comb, hGx _ hu'.comb]
          exact i2 idx' u' hu'
        · rw [hGx _ i1.comb]; exact b1
      · obtain ⟨-, u, pens, g0, g1, g2⟩ := hscaled x hx' hcl
        exact ⟨u, pens, fun _ => ⟨g0, g2, fun h => absurd h hcl, fun _ => g1⟩⟩
    · exact ⟨[], [], fun h => absurd h hx⟩
  choose best pens hb using hall
  refine ⟨u₀, best, b0, fun x hx => (hb x hx).1, ?_⟩
  have hgrid : GridLimit env rnd r w vss (allScales calls ++ scales) :=
    { floating := h5
      minimiser := h6
      ready := by rw [f1]; exact f2
      globals := hpos
      search := by rw [h3]; exact hready
      nodup := hnodup
      off := by rw [hwo]; exact s0
      on := fun x hx hcl => by rw [f1]; exact (hscaled x hx hcl).1 }
  obtain ⟨b, c1, c2, c3⟩ := c100_crossing_partial h4 calls scales (env := env) (.inr ⟨vss, hgrid⟩) ht
    (st := fun x => G x (best x)) (m := G₀ u₀) (pens := pens) (sigmas := sigmas) (minStat := none) limit
    (fun x hx => ⟨(hb x hx).2.2.1, (hb x hx).2.2.2⟩) (.inr ⟨.inl rfl, pens₀, b1⟩) hne hs hsig
  have hF : ∀ y ∈ scales, G y (best y) - G₀ u₀ + (pens y).sum =
      G y (best y) - G₀ u₀ + a.penaltyAt st (best y) := fun y hy => by rw [(hb y hy).2.1]
  refine ⟨b, c1, fun x => ?_, ?_⟩
  · rw [c2 x]
    unfold FirstCrossing
    dsimp only
    refine and_congr_right fun hx => and_congr_right fun _ => ?_
    rw [hF x hx]
    refine and_congr_right fun _ => forall_congr' fun y => forall_congr' fun hy => ?_
    rw [hF y hy]
  · rw [c3]
    refine forall_congr' fun y => forall_congr' fun hy => ?_
    rw [hF y hy]

/-- The limit of a fit with floating backgrounds, from what is evaluated: `o` are the data in the
region, `B` the backgrounds at the given rates, and `t` is the signal, with `n` decays. -/
theorem limit_found (ho : a.OwnRates st) {search : GridSearch}
    (hsearch : RateSearch rnd search vss a.floating.length)
    (hsame : List.Forall₂ (fun p (q : FitPar) => q.prior = (st.params p).prior ∧
      q.sigma = (st.params p).sigma) (a.parameters st) search.pars)
    (hex : ∀ vs ∈ vss, ∀ x ∈ vs, ((rnd x : ℚ) : ℝ) = x) {w : Fitter} (h3 : w.search = search)
    (h4 : LimitSignal r w) (h5 : w.ses.floating.getD [] ≠ []) (h6 : w.ses.minimiser ≠ none)
    (h7 : w.ses.parsOf true = [])
    (h8 : ∀ p, w.st.params p = { st.params p with name := (w.st.params p).name }) {f : Fit}
    (f1 : (w.with r).ses.toFit = f) (f2 : FitReady env f w.st) (f3 : f.pars = a.parameters st)
    (f4 : f.stat = a.stat) (f5 : f.statPerBin = a.statPerBin) (f6 : f.perBin = a.perBin)
    (f7 : f.singleBin = a.singleBin) {o t : NdArray ℚ} {B : List ℚ → NdArray ℚ} {n : ℝ}
    (hoff : ∀ args, args.length = (a.parameters st).length →
        ∃ obs e, evaluatedContents env f.off args w.st = .ok (obs, some e) ∧ e.shape = obs.shape ∧
          comparedContents a.singleBin obs = comparedContents a.singleBin o ∧
          comparedContents a.singleBin e = comparedContents a.singleBin (B args))
    (hon : ∀ m, m ≠ 0 → ∀ args, args.length = (a.parameters st).length →
        ∃ obs e, evaluatedContents env f args (w.st.scaled r m) = .ok (obs, some e) ∧
          e.shape = obs.shape ∧
          comparedContents a.singleBin obs = comparedContents a.singleBin o ∧
          comparedContents a.singleBin e = expectedAt (comparedContents a.singleBin (B args))
            (comparedContents a.singleBin t) ((m : ℝ) / n)) :
    ∀ (calls : List LimitCall) (scales : List ℝ), Testable rnd (allScales calls ++ scales) →
      scales ≠ [] → scales.Pairwise (· < ·) → ∀ (G₀ : List ℝ → ℝ) (G : ℝ → List ℝ → ℝ),
      (∀ u, Combination vss u → a.stat.Total (comparedContents a.singleBin o)
        (comparedContents a.singleBin (B (u.map rnd))) (G₀ u)) →
      (∀ x ∈ allScales calls ++ scales, ∀ u, Combination vss u → (npCloseReal x 0 → G x u = G₀ u) ∧
        (¬ npCloseReal x 0 → a.stat.Total (comparedContents a.singleBin o)
          (expectedAt (comparedContents a.singleBin (B (u.map rnd)))
            (comparedContents a.singleBin t) ((rnd x : ℝ) / n)) (G x u))) →
      ∀ (sigmas : List (Option ℝ)), (∀ s ∈ sigmas, s ≠ none) → ∀ (limit : ℝ),
      ∃ (best₀ : List ℝ) (best : ℝ → List ℝ),
        FirstBest vss (fun u => G₀ u + a.penaltyAt st u) best₀ ∧
        (∀ x ∈ scales, FirstBest vss (fun u => G x u + a.penaltyAt st u) (best x)) ∧
        ∃ b, BestScale scales (fun x => G x (best x)) b ∧
          (∀ x, ((w.afterCalls env rnd r calls).limitOf env rnd r scales sigmas none limit).2 = .ok x ↔
            FirstCrossing scales (fun y => G y (best y) - G₀ best₀ + a.penaltyAt st (best y))
              b limit x) ∧
          (((w.afterCalls env rnd r calls).limitOf env rnd r scales sigmas none limit).2 =
              .error .limitError ↔
            ∀ y ∈ scales, b ≤ y → G y (best y) - G₀ best₀ + a.penaltyAt st (best y) ≤ limit) := by
  intro calls scales ht
  have hnum : (a.parameters st).length = a.floating.length := by
    have hone : ∀ q, ∃ p, q ∈ a.floating → (st.objs q).fit = some [p] := fun q => by
      by_cases hm : q ∈ a.floating
      · obtain ⟨p, hp⟩ := ho.one q hm
        exact ⟨p, fun _ => hp⟩
      · exact ⟨0, fun h => absurd h hm⟩
    choose par hp using hone
    rw [ratesOnly_parameters ho hp, List.length_map]
  have hlen : ∀ u, Combination vss u → (u.map rnd).length = (a.parameters st).length := fun u hu => by
    rw [List.length_map, hu.length_eq, hsearch.number, hnum]
  exact limit_searched (B := fun u => B (u.map rnd)) (T := fun _ => t)
    (fun h0 => ho.floating (List.length_eq_zero_iff.1 (by rw [← hnum, h0]; rfl)))
    ho.sigmas ho.statPerBin ho.perBin hsearch.ready hsearch.form hsearch.values hsearch.counts
    (hsearch.number.trans hnum.symm) hsearch.nodup hsearch.sigmas
    (fun u hu e hm _ => hsearch.nonzero_comb hu _ (List.of_mem_zip hm).2) hsame hex h3 h4 h5 h6 h8
    f1 f2 f3 f4 f5 f6 f7 (fun u hu => hoff _ (hlen u hu)) (fun m hm _ u hu => hon m hm _ (hlen u hu))
    calls scales ht (fun hgl => absurd h7 hgl)

end

end Verif
