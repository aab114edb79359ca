import Verif.Lemmas.SensitivityRun
import Verif.Lemmas.RecoverCore
import Verif.Props.Recover

/-! # C151: data made from the backgrounds of the fit -/

namespace Verif

open Session

variable {env : FitEnv} {keyOf : ℕ → PyStr} {a : FitArgs} {ts : List Spectrum} {d : ℕ} {st : FitState}
  {rnd : ℝ → ℚ} {rateOf : ℕ → Option ℕ} {par : ℕ → ℕ} {g : GridSearch} {vss : List (List ℝ)}

/-- **C151, data.** A fit is made from data, fixed backgrounds and floating backgrounds, each of which
has a parameter called rate. Then the sensitivity study succeeds: to the data it adds, in every bin,
the fixed background and every floating background scaled from its decays to the prior of its rate.
The floating backgrounds are left scaled to these priors; all other spectra, the axes, and the
attributes of the fit are as before. (Partial: the suppositions of C62 and C99.) -/
theorem c151_data_partial (hg : a.Given ts st) (he : a.Evaluable env keyOf d st)
    (hfl : a.floating ≠ []) (hfx : a.fixed ≠ [])
    (hrate : ∀ r ∈ a.floating, rateOf r = some (par r)) :
    ∃ ses st' b u, init keyOf a st = (st', .ok ses) ∧ ses.fixed = some b ∧
      ses.study rnd rateOf st' = ((ses, u), .ok ()) ∧
      (u.view d).cfg = (st'.view d).cfg ∧ (u.view d).data.shape = (st'.view d).data.shape ∧
      (∀ idx, InB (st'.view d).data.shape idx → (u.view d).data.get idx =
        (st'.view d).data.get idx + (st'.view b).data.get idx +
        (a.floating.map (fun r => rnd (st.params (par r)).prior / (st.view r).numDecays *
          (st'.view r).data.get idx)).sum) ∧
      (∀ r ∈ a.floating, (((st'.view r).scale (rnd (st.params (par r)).prior)).st).Eqv (u.view r)) ∧
      (∀ q, q ≠ d → q ∉ a.floating → u.view q = st'.view q) := by
  obtain ⟨ses, st', b, ns, h1, h2, h3, h4, h5, h6, h7, h8⟩ := whole_run hg he hfl
  obtain ⟨t, u, k1, k2, k4, k5, k6, k7⟩ := study_run (rnd := rnd) hg he hfl hfx hrate h2 h3 h4 h5 h7 h8
  refine ⟨ses, st', t, u, h1, k1, k2, k4.view_cfg d, k4.view_shape d, ?_, k6, k5⟩
  intro idx hi
  rw [k7 idx hi]
  congr 2
  exact List.map_congr_left fun r hr => by
    rw [(final_axes hg he h2 (List.mem_append_left _ hr)).2.2.1]

/-- **C151, expected.** The same fit, without global parameters, and with no prior that is zero. Whatever
is evaluated after the study, the evaluation compares, in the region, the given data plus the fixed
and floating backgrounds at their priors with the backgrounds at the present rates (and the signal as
it is): rates still are numbers of decays of the spectra as they were given. (Partial: the suppositions
of C62 and C99; at most one axis is projected out, see C11.) -/
theorem c151_contents_partial (hg : a.Given ts st) (he : a.Evaluable env keyOf d st)
    (hfl : a.floating ≠ []) (hfx : a.fixed ≠ []) (hglob : ∀ e ∈ a.config, e.2.2 = false)
    (hl : (st.view d).cfg.length ≤ a.roi.length + 1)
    (hrate : ∀ r ∈ a.floating, (st.objs r).fit = some [par r] ∧ rateOf r = some (par r))
    (hpr : ∀ r ∈ a.floating, rnd (st.params (par r)).prior ≠ 0) :
    ∃ ses st' u ns, init keyOf a st = (st', .ok ses) ∧
      ses.study rnd rateOf st' = ((ses, u), .ok ()) ∧
      RoiNames (st.view d).cfg (inOrder a.roi) ns ∧ ∃ c : ℕ → NdArray ℚ,
      (∀ r ∈ a.kept ++ a.fixed.map Prod.fst,
        RegionContents (inOrder a.roi) ns (st.view r) (c r) ∧ (c r).shape = (c d).shape) ∧
      ∀ (hist : List (List ℚ)), (∀ x ∈ hist, a.Values st x) → ∀ (args : List ℚ),
        args.length = (a.parameters st).length → ∀ (rate : ℕ → ℚ),
        (∀ r ∈ a.floating, (par r, rate r) ∈ (a.parameters st).zip args) →
        ∃ o e, evaluatedContents env ses.toFit args (afterEvaluations env ses.toFit hist u) =
            .ok (o, some e) ∧ o.shape = (c d).shape ∧ e.shape = (c d).shape ∧
          ∀ idx, InB (c d).shape idx →
            o.get idx = (c d).get idx +
              (a.fixed.map (fun x => x.2 / (st.view x.1).numDecays * (c x.1).get idx)).sum +
              (a.floating.map (fun r => rnd (st.params (par r)).prior / (st.view r).numDecays *
                (c r).get idx)).sum ∧
            e.get idx =
              (a.fixed.map (fun x => x.2 / (st.view x.1).numDecays * (c x.1).get idx)).sum +
              (a.floating.map (fun r => rate r / (st.view r).numDecays * (c r).get idx)).sum +
              (a.signal.toList.map (fun r => (c r).get idx)).sum := by
  obtain ⟨ses, st', u, b, ns, h1, h2, -, -, h6, h7, -, c, o, h8, h9, h10, h11⟩ :=
    study_evaluated (rnd := rnd) hg he hfl hfx hglob hl hrate hpr
  refine ⟨ses, st', u, ns, h1, h2, h6, c, h8, fun hist hh args ha rate hr => ?_⟩
  obtain ⟨e, e1, e2, e3⟩ := h11 hist hh args ha rate hr
  rw [h7]
  exact ⟨o, e, e1, h9, e2, fun idx hi => ⟨h10 idx hi, e3 idx hi⟩⟩

/-- **C151, the fit.** A fit without signal is made from data that hold nothing in the region, fixed
backgrounds and floating backgrounds with one rate each. The priors of the rates are values of the grid;
the expected contents are at or above the threshold on the whole grid; and in the region the floating
backgrounds are linearly independent. Then constructor and study succeed, and the following `fit()` finds
exactly the priors, with statistic zero (except the extended likelihood) and penalty zero. (Partial: the
suppositions of C62 and C99; at most one axis is projected out, see C11.) -/
theorem c151_finds_partial (hg : a.Given ts st) (he : a.Evaluable env keyOf d st)
    (hs : a.Settings st) (hr : a.RatesOnly st) (hsearch : RateSearch rnd g vss a.floating.length)
    (hfx : a.fixed ≠ []) (hsig : a.signal = none)
    (hl : (st.view d).cfg.length ≤ a.roi.length + 1) {ns : List PyStr}
    (hns : RoiNames (st.view d).cfg (inOrder a.roi) ns) {c : ℕ → NdArray ℚ}
    (hc : ∀ r ∈ a.kept ++ a.fixed.map Prod.fst, RegionContents (inOrder a.roi) ns (st.view r) (c r))
    (hblank : ∀ idx, InB (c d).shape idx → (c d).get idx = 0)
    (hrate : ∀ r ∈ a.floating, (st.objs r).fit = some [par r] ∧ rateOf r = some (par r))
    (hprior : Combination vss (a.floating.map (fun r => (st.params (par r)).prior)))
    (hexact : ∀ r ∈ a.floating, ((rnd (st.params (par r)).prior : ℚ) : ℝ) = (st.params (par r)).prior)
    (hcount : ∀ w, Combination vss w → ∀ idx, InB (c d).shape idx →
      zeroThreshold ≤ ((a.sumAt st (w.map rnd) c idx : ℚ) : ℝ))
    (hind : Independent (c d).shape (a.floating.map c)) :
    ∃ ses st' u result, init keyOf a st = (st', .ok ses) ∧
      ses.study rnd rateOf st' = ((ses, u), .ok ()) ∧
      (ses.fit (fun f => fitGrid env f rnd g) u).2 = .ok (.inr result) ∧
      FoundExactly a.stat (a.floating.map (fun r => (st.params (par r)).prior)) result := by
  have hreg := inOrder_isDict hg.region
  have hdk : d ∈ a.kept := by simp [FitArgs.kept, he.data]
  have hpr : ∀ r ∈ a.floating, rnd (st.params (par r)).prior ≠ 0 := fun r hm =>
    hsearch.nonzero_comb hprior _ (List.mem_map.2 ⟨_, List.mem_map.2 ⟨r, hm, rfl⟩, rfl⟩)
  obtain ⟨ses, st', u, b, n1, h1, h2, h4, h5, h6, h7, h8, c', o, k1, k2, k3, k4⟩ :=
    study_evaluated (rnd := rnd) hg he hr.floating hfx (by rw [hr.config]; simp) hl hrate hpr
  have hdims := (hg.able d (List.mem_append_left _ hdk)).dims
  obtain rfl : n1 = ns := roiNames_unique hdims hns h6
  have hcc : ∀ r ∈ a.kept ++ a.fixed.map Prod.fst, (c' r).shape = (c r).shape ∧
      ∀ idx, InB (c r).shape idx → (c' r).get idx = (c r).get idx := fun r hm =>
    regionContents_unique hreg (hg.able r hm) (hc r hm) (k1 r hm).1
  have hcd := hcc d (List.mem_append_left _ hdk)
  have hshape : ∀ r ∈ a.kept ++ a.fixed.map Prod.fst, (c r).shape = (c d).shape := fun r hm => by
    rw [← (hcc r hm).1, (k1 r hm).2, hcd.1]
  have hget : ∀ r ∈ a.kept ++ a.fixed.map Prod.fst, ∀ idx, InB (c d).shape idx →
      (c' r).get idx = (c r).get idx := fun r hm idx hi =>
    (hcc r hm).2 idx (by rw [hshape r hm]; exact hi)
  have hpars := ratesOnly_parameters hr.toOwnRates (fun r hm => (hrate r hm).1)
  have hfn : a.floating.Nodup := by
    have := he.pars
    rw [hpars] at this
    exact this.of_map _
  have len : ∀ w, Combination vss w → (w.map rnd).length = a.floating.length := fun w hw => by
    rw [List.length_map, hw.length_eq, hsearch.number]
  have len' : ∀ w, Combination vss w → (w.map rnd).length = (a.parameters st).length := fun w hw => by
    rw [len w hw, hpars, List.length_map]
  have hpu : ∀ p, u.params p = { st.params p with name := (st'.params p).name } := fun p => by
    rw [h4.params]; exact h5.params p
  have hfixsum : ∀ idx, InB (c d).shape idx →
      (a.fixed.map (fun x => x.2 / (st.view x.1).numDecays * (c' x.1).get idx)).sum =
      (a.fixed.map (fun x => x.2 / (st.view x.1).numDecays * (c x.1).get idx)).sum := fun idx hi => by
    congr 1
    refine List.map_congr_left fun x hx => ?_
    rw [hget _ (List.mem_append_right _ (List.mem_map_of_mem hx)) idx hi]
  have hflosum : ∀ (v : ℕ → ℚ) idx, InB (c d).shape idx →
      (a.floating.map (fun r => v r / (st.view r).numDecays * (c' r).get idx)).sum =
      (a.floating.map (fun r => v r / (st.view r).numDecays * (c r).get idx)).sum := fun v idx hi => by
    congr 1
    refine List.map_congr_left fun r hm => ?_
    rw [hget _ (by simp only [FitArgs.kept, List.mem_append]; tauto) idx hi]
  obtain ⟨result, r1, r2⟩ := recovers_core (f := a.read st d b n1) (fl := a.floating)
    (n := fun r => (st.view r).numDecays) (cc := c) (sh := (c d).shape) (obs := o)
    (base := fun idx => (a.fixed.map (fun e => e.2 / (st.view e.1).numDecays * (c e.1).get idx)).sum)
    h8 hsearch hr.floating (by show (a.parameters st).length = _; rw [hpars, List.length_map])
    hr.statPerBin hr.perBin hr.singleBin rfl hr.stat
    (fun p hm => by rw [hpu]; exact hr.sigmas p hm) (k2.trans hcd.1)
    (fun w hw => by
      obtain ⟨rate, hrt⟩ := exists_map_eq hfn (len w hw)
      obtain ⟨e, e1, e2, e3⟩ := k4 [] (by simp) (w.map rnd) (len' w hw) rate fun r hm => by
        rw [hpars, ← hrt, List.zip_map', List.mem_map]
        exact ⟨r, hm, rfl⟩
      refine ⟨e, e1, e2.trans hcd.1, fun idx hi => ?_⟩
      rw [e3 idx (by rw [hcd.1]; exact hi), hsig, hfixsum idx hi, hflosum rate idx hi, ← hrt,
        List.zipWith_map_right, List.zipWith_self]
      simp)
    _ hprior
    (fun idx hi => by
      rw [k3 idx (by rw [hcd.1]; exact hi), hfixsum idx hi, hflosum _ idx hi,
        hget d (List.mem_append_left _ hdk) idx hi, hblank idx hi, List.map_map,
        List.zipWith_map_right, List.zipWith_self, zero_add]
      rfl)
    (fun w hw idx hi => by
      have := hcount w hw idx hi
      rw [sumAt_base, hsig] at this
      simpa using this)
    (by
      show List.Forall₂ _ (a.parameters st) _
      rw [hpars, List.map_map, List.forall₂_map_left_iff, List.forall₂_map_right_iff, List.forall₂_same]
      intro r hm _
      rw [hpu]
      exact hexact r hm)
    (fun r hm => he.decays r (List.mem_append_left _ hm)) hind
  refine ⟨ses, st', u, result, h1, h2, ?_, r2⟩
  rw [study_fit hg he hr.floating hs h1 h4 h7]
  rw [show (fitGrid env (a.read st d b n1) rnd g u).2 = .ok result from r1]
  rfl

/-- **C151, no fixed background.** For a fit made without fixed backgrounds the study fails, and changes
nothing. -/
theorem c151_no_fixed_negation (hg : a.Given ts st) (hfx : a.fixed = []) :
    ∃ ses st', init keyOf a st = (st', .ok ses) ∧
      ses.study rnd rateOf st' = ((ses, st'), .error .attributeError) := by
  obtain ⟨_, ses, st', b, h1, h2, -, rfl⟩ := init_run hg keyOf
  refine ⟨_, st', h1, ?_⟩
  unfold study studyData
  have : ses.fixed = none := h2.fixed.trans (h2.nofixed.2 hfx)
  dsimp only
  rw [this]
  cases ses.data <;> rfl

/-- **C151, a prior of zero.** If the prior of the rate of the first floating background is zero, the study
leaves this background without decays, and every later evaluation of the fit raises
`ZeroDivisionError`, whatever the rates. -/
theorem c151_zero_prior_negation (hg : a.Given ts st) (he : a.Evaluable env keyOf d st)
    {r : ℕ} {l : List ℕ} (hfl : a.floating = r :: l) (hfx : a.fixed ≠ [])
    (hglob : ∀ e ∈ a.config, e.2.2 = false) (hl : (st.view d).cfg.length ≤ a.roi.length + 1)
    (hrate : ∀ r ∈ a.floating, rateOf r = some (par r)) (hone : (st.objs r).fit = some [par r])
    (hz : rnd (st.params (par r)).prior = 0) :
    ∃ ses st' u, init keyOf a st = (st', .ok ses) ∧ ses.study rnd rateOf st' = ((ses, u), .ok ()) ∧
      (u.view r).numDecays = 0 ∧ ∀ args : List ℚ, args.length = (a.parameters st).length →
        (funct env ses.toFit args u).2 = .error .zeroDivision := by
  have hne : a.floating ≠ [] := by rw [hfl]; simp
  obtain ⟨ses, st', b, ns, h1, h2, h3, h4, h5, h6, h7, h8⟩ := whole_run hg he hne
  obtain ⟨t, u, k1, k2, k4, k5, k6, k7⟩ := study_run (rnd := rnd) hg he hne hfx hrate h2 h3 h4 h5 h7 h8
  have hbt : b = some t := h7.symm.trans k1
  subst hbt
  have hr : r ∈ a.floating := by simp [hfl]
  have hreg := inOrder_isDict hg.region
  have hdk : d ∈ a.kept := by simp [FitArgs.kept, he.data]
  have hmf : ∀ r ∈ a.floating, r ∈ a.kept := fun r hr => by
    simp only [FitArgs.kept, List.mem_append] at hr ⊢; tauto
  have hlt : ∀ r ∈ a.kept, r < st.next := hg.alloc
  have hmt : st.next ≤ t := (h2.made t rfl).1
  have htd : t ≠ d := fun h => absurd (hlt d hdk) (not_lt.2 (h ▸ hmt))
  have htn : t ∉ a.floating := fun h => absurd (hlt t (hmf t h)) (not_lt.2 hmt)
  have hdec : (u.view r).numDecays = 0 := by
    have hnz : (st'.view r).numDecays ≠ 0 := by
      rw [(final_axes hg he h2 (List.mem_append_left _ hr)).2.2.1]
      exact he.decays r (List.mem_append_left _ hr)
    have h := k6 r hr
    rw [scale_run _ hnz] at h
    exact h.1.2.2.1.trans hz
  have hnames : (st'.view d).cfg.map SPar.name = (st.view d).cfg.map SPar.name :=
    shrunkTo_cfg (h2.shrunk d hdk)
  have hw := ((h2.shrunk d hdk).region hreg (hg.able d (List.mem_append_left _ hdk))).2.wf
  obtain ⟨o, o1, -⟩ := region_project hg h4 hl (t := u.view d) (by
      refine ⟨?_, ?_, ?_⟩
      · rw [k4.view_cfg]; exact hw.axes
      · rw [k4.view_cfg]; exact hw.names
      · rw [k4.view_cfg, k4.view_shape]; exact hw.shape) (by rw [k4.view_cfg]; exact hnames)
  obtain ⟨htc, -⟩ := total_axes hg he h2 hfx (h2.total t rfl)
  obtain ⟨p, p1, -⟩ := region_project hg h4 hl (t := u.view t)
    (by rw [k5 t htd htn]; exact (total_region hg (h2.total t rfl) hfx).2.wf)
    (by rw [k5 t htd htn, htc]; exact hnames)
  have hgl : a.globalPars = [] := by
    unfold FitArgs.globalPars
    rw [List.filter_eq_nil_iff.2 fun e he => by simp [hglob e he]]
    rfl
  have hmem : par r ∈ a.ownPars st := List.mem_flatMap.2 ⟨r, hr, by rw [hone]; simp⟩
  refine ⟨ses, st', u, h1, k2, hdec, fun args ha => ?_⟩
  rw [h5]
  obtain ⟨v, hv⟩ := contents_zero (env := env) (f := a.read st d (some t) ns) (s := u) (r := r) (p := par r)
    (ns := ns) (fl := l.map (fun r => (r, ns))) hgl
    (by rw [k4.fit, h3.fit r (hlt r (hmf r hr))]; exact hone) he.pars (List.mem_append_right _ hmem)
    (by rw [k4.params, h3.params]; exact he.rates _ hmem) hdec o1 (x := some p)
    (fun P => by
      show (do
        let s ← FitM.read (fun st => st.view t)
        let e ← FitM.lift (s.ndProject ns)
        pure (some e) : FitM (Option (NdArray ℚ))) _ = _
      rw [FitM.read_bind, show FitState.view { u with params := P } t = u.view t from rfl, p1]
      rfl) ha
  unfold funct
  have : (a.read st d (some t) ns).floating = some ((r, ns) :: l.map (fun r => (r, ns))) := by
    show some (a.floating.map _) = _
    rw [hfl]; rfl
  rw [this]
  dsimp only
  have e1 : (do
      setValues (a.read st d (some t) ns).pars args
      let c ← contents env (a.read st d (some t) ns) ((r, ns) :: l.map (fun r => (r, ns)))
      let ps ← FitM.read (fun st_1 => (a.read st d (some t) ns).pars.map st_1.params)
      let d_1 ← FitM.read (fun st_1 => st_1.view (a.read st d (some t) ns).data)
      FitM.lift (evaluate (a.read st d (some t) ns) ps d_1.data.shape c)) u =
      (do
      let c ← (do
        setValues (a.read st d (some t) ns).pars args
        contents env (a.read st d (some t) ns) ((r, ns) :: l.map (fun r => (r, ns))))
      let ps ← FitM.read (fun st_1 => (a.read st d (some t) ns).pars.map st_1.params)
      let d_1 ← FitM.read (fun st_1 => st_1.view (a.read st d (some t) ns).data)
      FitM.lift (evaluate (a.read st d (some t) ns) ps d_1.data.shape c)) u := by
    simp only [FitM.bind_run]
    rcases setValues (a.read st d (some t) ns).pars args u with ⟨w, e | y⟩ <;> rfl
  rw [e1, FitM.bind_error hv]

/-! ### cases that meet the hypotheses -/

namespace Ex

/-- The state of the examples with empty data, and with the priors `x` and 5 of the rates. -/
noncomputable def studyState (x : ℝ) : FitState := { fitState with
  objs := fun r => if r = 0 then ⟨lit "data", lit "data", 0, four 0 0 0 0, 0, 0, [], none⟩ else fitObj r
  params := fun p => match p with
    | 0 => ⟨.rate, lit "rate", none, x, some 2, none⟩
    | 1 => ⟨.rate, lit "rate", none, 5, none, none⟩
    | _ => fitParam .resolution p }

/-- The parameters called rate. -/
def studyRate : ℕ → Option ℕ
  | 2 => some 0
  | 3 => some 1
  | _ => none

end Ex

/-- Data, a fixed background and two floating ones. -/
def exStudy : FitArgs := { exWhole with signal := none }

theorem study_given (x : ℝ) : exStudy.Given
    [((((Ex.studyState x).view 1).shrink exFitKw).st.scale 20).st] (Ex.studyState x) where
  region := (exWhole_given []).region
  some := by simp [exStudy, exWhole]
  alloc := by
    intro r hr
    have : r = 0 ∨ r = 2 ∨ r = 3 := by simpa [FitArgs.kept, exStudy, exWhole] using hr
    show r < 5
    omega
  own := by
    show [0, 2, 3, 1].Nodup
    decide
  able := by
    intro r hr
    have : r = 0 ∨ r = 2 ∨ r = 3 ∨ r = 1 := by simpa [FitArgs.kept, exStudy, exWhole] using hr
    have h := (exWhole_given []).able r (by
      rcases this with rfl | rfl | rfl | rfl <;> simp [FitArgs.kept, exWhole])
    rcases this with rfl | rfl | rfl | rfl
    all_goals exact ⟨⟨h.wf.axes, h.wf.names, h.wf.shape⟩, h.aligned, h.dims, h.edges, h.has⟩
  fixed := by
    have h := (exWhole_given []).fixed
    refine ⟨h.alloc, h.own, h.region, h.dims, h.names, ?_, h.axes⟩
    refine .cons ⟨exFitKw, ?_, ?_, rfl, ?_⟩ .nil
    · show AsksRoi [Ex.fitAxis] (inOrder [(lit "energy", ((2 : ℚ), (1 : ℚ)))]) exFitKw
      rw [exInit_roi]
      exact exFit_asks
    · show ((Ex.fitState.view 1).shrink exFitKw).err = none
      decide +kernel
    · show (((Ex.fitState.view 1).shrink exFitKw).st.scale 20).err = none
      decide +kernel

theorem study_evaluable (x : ℝ) : exStudy.Evaluable Ex.fitEnv Ex.keyOf 0 (Ex.studyState x) := by
  have h := exWhole_evaluable (config := []) (.inl rfl)
  refine ⟨rfl, h.str, rfl, ?_, fun _ _ => rfl, h.dims, ?_, h.names, h.pars, (fun e he => by cases he), ?_⟩
  · show ([2, 3].map (fun r => (Ex.fitObj r).background)).Nodup
    decide
  · intro r hr
    have : r = 2 ∨ r = 3 := by simpa [exStudy, exWhole] using hr
    rcases this with rfl | rfl <;> simp [FitState.view, Ex.studyState, Ex.fitObj]
  · intro p hp
    have : p ∈ [0, 1] := hp
    have : p = 0 ∨ p = 1 := by simpa using this
    rcases this with rfl | rfl <;> rfl

theorem study_rates (x : ℝ) : ∀ r ∈ exStudy.floating,
    ((Ex.studyState x).objs r).fit = some [r - 2] ∧ Ex.studyRate r = some (r - 2) := by
  intro r hr
  have : r = 2 ∨ r = 3 := by simpa [exStudy, exWhole] using hr
  rcases this with rfl | rfl <;> exact ⟨rfl, rfl⟩

/-- The data of the study. -/
example : ∃ ses st' b u, init Ex.keyOf exStudy (Ex.studyState 10) = (st', .ok ses) ∧
    ses.fixed = some b ∧ ses.study Ex.toInt Ex.studyRate st' = ((ses, u), .ok ()) ∧
    (u.view 0).data.shape = (st'.view 0).data.shape := by
  obtain ⟨ses, st', b, u, h1, h2, h3, -, h4, -⟩ := c151_data_partial (rnd := Ex.toInt) (study_given 10)
    (study_evaluable 10) (by simp [exStudy, exWhole]) (by simp [exStudy, exWhole])
    (fun r hr => (study_rates 10 r hr).2)
  exact ⟨ses, st', b, u, h1, h2, h3, h4⟩

theorem study_contents : ∀ r ∈ exStudy.kept ++ exStudy.fixed.map Prod.fst,
    RegionContents (inOrder exStudy.roi) [lit "energy_mc"] ((Ex.studyState 10).view r)
      (if r = 0 then ⟨[2], fun _ => 0⟩ else Ex.madeContents r) := by
  intro r hr
  have hr : r = 0 ∨ r = 2 ∨ r = 3 ∨ r = 1 := by simpa [FitArgs.kept, exStudy, exWhole] using hr
  by_cases h0 : r = 0
  · subst h0
    have key : (((Ex.studyState 10).view 0).shrink exFitKw).err = none ∧
        pick [lit "energy_mc"] ((((Ex.studyState 10).view 0).shrink exFitKw).st.cfg.map SPar.name)
          (((Ex.studyState 10).view 0).shrink exFitKw).st.data.shape = [2] ∧
        ∀ idx ∈ allIdx [2], 0 =
          sumIdx (((Ex.studyState 10).view 0).shrink exFitKw).st.data.shape (fun full =>
            if pick [lit "energy_mc"] ((((Ex.studyState 10).view 0).shrink exFitKw).st.cfg.map SPar.name)
              full = idx then (((Ex.studyState 10).view 0).shrink exFitKw).st.data.get full else 0) := by
      decide +kernel
    obtain ⟨k1, k2, k3⟩ := key
    refine ⟨(((Ex.studyState 10).view 0).shrink exFitKw).st, ⟨exFitKw, ?_, k1,
      ⟨⟨rfl, rfl, rfl, rfl, rfl⟩, rfl, fun _ _ => rfl⟩⟩, k2.symm, fun idx hi => ?_⟩
    · show AsksRoi [Ex.fitAxis] (inOrder [(lit "energy", ((2 : ℚ), (1 : ℚ)))]) exFitKw
      rw [exInit_roi]
      exact exFit_asks
    · exact k3 idx (mem_allIdx.2 hi)
  · rw [if_neg h0]
    have h := made_contents r (by
      rcases hr with rfl | rfl | rfl | rfl <;> simp [FitArgs.kept, exWhole])
    have : (Ex.studyState 10).view r = Ex.madeState.view r := by
      rcases hr with rfl | rfl | rfl | rfl
      · exact absurd rfl h0
      all_goals rfl
    rw [this]
    exact h

/-- The fit after the study finds the priors 10 and 5. -/
example : ∃ ses st' u result, init Ex.keyOf exStudy (Ex.studyState 10) = (st', .ok ses) ∧
    ses.study Ex.toInt Ex.studyRate st' = ((ses, u), .ok ()) ∧
    (ses.fit (fun f => fitGrid Ex.fitEnv f Ex.toInt Ex.closedSearch) u).2 = .ok (.inr result) ∧
    FoundExactly .bcChi [10, 5] result := by
  refine c151_finds_partial (par := fun r => r - 2) (study_given 10) (study_evaluable 10)
    { floating := fun _ => .inr ⟨2, by simp [exStudy, exWhole], by simp [Ex.studyState, Ex.fitObj]⟩
      fixed := (fun h => by cases h)
      dimension := by simp [exStudy, exWhole]
      perBin := by simp [exStudy, exWhole] } ?_ made_search (by simp [exStudy, exWhole]) rfl
    (by simp [FitState.view, Ex.studyState, Ex.fitState, exStudy, exWhole])
    (ns := [lit "energy_mc"]) (c := fun r => if r = 0 then ⟨[2], fun _ => 0⟩ else Ex.madeContents r)
    ?_ study_contents (fun idx _ => by simp) (study_rates 10)
    (.cons (by simp [Ex.studyState]) (.cons (by simp [Ex.studyState]) .nil)) ?_ ?_ ?_
  · exact { floating := by simp [exStudy, exWhole]
            config := rfl
            one := fun r hr => ⟨r - 2, (study_rates 10 r hr).1⟩
            sigmas := by
              intro p hp
              have : p ∈ [0, 1] := hp
              have : p = 0 ∨ p = 1 := by simpa using this
              rcases this with rfl | rfl <;> simp [Ex.studyState]
            statPerBin := rfl
            perBin := rfl
            singleBin := rfl
            stat := by simp [exStudy, exWhole] }
  · exact .cons ⟨⟨lit "mc", by decide, rfl⟩, Ex.fitAxis, by simp [FitState.view, Ex.studyState, Ex.fitState],
      rfl⟩ .nil
  · intro r hr
    have : r = 2 ∨ r = 3 := by simpa [exStudy, exWhole] using hr
    rcases this with rfl | rfl <;> simp [Ex.studyState, Ex.toInt]
  · have : ∀ a ∈ [(8 : ℚ), 10], ∀ b ∈ [(7 : ℚ), 5, 3], ∀ idx ∈ allIdx [2],
        1 ≤ exStudy.sumAt (Ex.studyState 10) [a, b]
          (fun r => if r = 0 then ⟨[2], fun _ => 0⟩ else Ex.madeContents r) idx := by decide +kernel
    intro w hw idx hi
    obtain ⟨a, ha, b, hb, -, e⟩ := closed_combination hw
    rw [e]
    have h1 : zeroThreshold ≤ 1 := by unfold zeroThreshold; norm_num
    exact h1.trans (by exact_mod_cast this a ha b hb idx (mem_allIdx.2 hi))
  · intro c hc h x hx
    match c, hc with
    | [a, b], _ =>
      have h0 := h [0] (by decide)
      have h1 := h [1] (by decide)
      simp only [exStudy, exWhole, List.map_cons, List.map_nil, List.zipWith_cons_cons,
        List.zipWith_nil_right, List.sum_cons, List.sum_nil, Ex.madeContents] at h0 h1
      norm_num at h0 h1
      have : x = a ∨ x = b := by simpa using hx
      rcases this with rfl | rfl <;> linarith

/-- Contents after the study. -/
example : ∃ ses st' u ns, init Ex.keyOf exStudy (Ex.studyState 10) = (st', .ok ses) ∧
    ses.study Ex.toInt Ex.studyRate st' = ((ses, u), .ok ()) ∧
    RoiNames ((Ex.studyState 10).view 0).cfg (inOrder exStudy.roi) ns ∧
    ∃ o e, evaluatedContents Ex.fitEnv ses.toFit [8, 7] u = .ok (o, some e) ∧ o.shape = e.shape := by
  obtain ⟨ses, st', u, ns, h1, h2, h3, c, -, h5⟩ := c151_contents_partial (par := fun r => r - 2)
    (rnd := Ex.toInt) (study_given 10) (study_evaluable 10) (by simp [exStudy, exWhole])
    (by simp [exStudy, exWhole]) (by simp [exStudy, exWhole])
    (by simp [FitState.view, Ex.studyState, Ex.fitState, exStudy, exWhole]) (study_rates 10) (by
      intro r hr
      have : r = 2 ∨ r = 3 := by simpa [exStudy, exWhole] using hr
      rcases this with rfl | rfl <;> simp [Ex.studyState, Ex.toInt])
  refine ⟨ses, st', u, ns, h1, h2, h3, ?_⟩
  obtain ⟨o, e, k1, k2, k3, -⟩ := h5 [] (by simp) [8, 7] rfl (fun r => if r = 2 then 8 else 7) (by
    intro r hr
    have : r = 2 ∨ r = 3 := by simpa [exStudy, exWhole] using hr
    show _ ∈ [0, 1].zip [(8 : ℚ), 7]
    rcases this with rfl | rfl <;> simp)
  exact ⟨o, e, k1, k2.trans k3.symm⟩

/-- Without fixed background. -/
example : ∃ ses st', init Ex.keyOf { exStudy with fixed := [] } (Ex.studyState 10) = (st', .ok ses) ∧
    ses.study Ex.toInt Ex.studyRate st' = ((ses, st'), .error .attributeError) := by
  have h := study_given 10
  refine c151_no_fixed_negation (ts := []) ⟨h.region, h.some, h.alloc, ?_, fun r hr => h.able r ?_, ?_⟩ rfl
  · show (([0, 2, 3] ++ []).map (fun r => ((Ex.studyState 10).objs r).cfg)).Nodup
    decide
  · simp only [List.map_nil, List.append_nil] at hr
    exact List.mem_append_left _ hr
  · exact ⟨(fun r hr => by cases hr), .nil, h.fixed.region, (fun e he => by cases he),
      (fun e he => by cases he), .nil, (fun t ht => by cases ht)⟩

/-- With a prior of zero. -/
example : ∃ ses st' u, init Ex.keyOf exStudy (Ex.studyState 0) = (st', .ok ses) ∧
    ses.study Ex.toInt Ex.studyRate st' = ((ses, u), .ok ()) ∧
    (funct Ex.fitEnv ses.toFit [10, 5] u).2 = .error .zeroDivision := by
  obtain ⟨ses, st', u, h1, h2, -, h3⟩ := c151_zero_prior_negation (par := fun r => r - 2) (rnd := Ex.toInt)
    (study_given 0) (study_evaluable 0) (r := 2) (l := [3]) rfl (by simp [exStudy, exWhole])
    (by simp [exStudy, exWhole]) (by simp [FitState.view, Ex.studyState, Ex.fitState, exStudy, exWhole])
    (fun r hr => (study_rates 0 r hr).2) rfl (by simp [Ex.studyState, Ex.toInt])
  exact ⟨ses, st', u, h1, h2, h3 [10, 5] rfl⟩

end Verif
