import Verif.Lemmas.StoreResults

/-! # C87 and C88: saving and loading results of fits and limits -/

namespace Verif

/-! ## C87: results of fits -/

/-- **C87, round trip.** A named grid search whose arrays have the shapes of its
configurations, and whose fit configuration has the order of the file and a spectral
parameter, is saved and loaded without loss: name, spectral configuration, `per_bin`,
statistics, penalty terms, resets, and the fit parameters in order with settings, current
values and best fits. Other groups of the file are kept with `append`.
Missing: configurations in another order, without spectral parameters or without a name, see
the negations; the name of the fit configuration, see C81. -/
theorem c87_round_trip_partial (file : Option H5) (append : Bool) (r : FullSearch) (n : PyStr)
    (hn : r.name = some n) (hr : Consistent r) (hc : ConfigOk r.spectraConfig)
    (hl : Loadable r.fitConfig) (ho : FileOrder r.fitConfig)
    (hs : ∃ e ∈ r.fitConfig.pars, e.2.isGlobal = false)
    (hf : (H5.opened file append).fitResults = none) :
    ∃ f r', dumpFitResults file r append = (f, none) ∧
      f.spectrum = (H5.opened file append).spectrum ∧
      f.limitResults = (H5.opened file append).limitResults ∧
      loadFitResults f = .ok r' ∧
      r'.name = some n ∧ r'.spectraConfig = r.spectraConfig ∧ r'.perBin = r.perBin ∧
      r'.stats = r.stats ∧ r'.penaltyTerms = r.penaltyTerms ∧ r'.resets = r.resets ∧
      SamePars r.fitConfig r'.fitConfig ∧ SameBest r.fitConfig r'.fitConfig := by
  obtain ⟨dg, ds, g', h1, h2, h3, h4⟩ := reload_with_spectral hl ho hs r.fitConfig.name
  obtain ⟨d, hd, hld⟩ := c54_round_trip r.spectraConfig r.spectraConfig.name hc.axes hc.distinct
    hc.names
  have hshape := samePars_shape h3
  have hne : r.fitConfig.shape ≠ [] := by
    obtain ⟨e, he, -⟩ := hs
    intro h
    rw [GlobalFitConfig.shape, List.map_eq_nil_iff] at h
    rw [h] at he
    cases he
  have hpne : r.penaltyTerms.shape ≠ [] := by rw [hr.penalties]; exact hne
  have hsne : r.stats.shape ≠ [] := by
    intro h
    have := hr.stats
    rw [h, List.map_nil] at this
    have := (List.append_eq_nil_iff.1 this.symm).1
    exact hne (List.map_eq_nil_iff.1 this)
  have hpb : perBinOf r.stats.shape r.fitConfig.shape r.spectraConfig.shape = .ok r.perBin := by
    have hst := hr.stats
    unfold perBinOf
    cases hb : r.perBin with
    | false =>
      rw [hb] at hst
      simp only [Bool.false_eq_true, if_false, List.append_nil] at hst
      rw [if_pos]
      exact List.map_injective_iff.2 Nat.cast_injective hst
    | true =>
      rw [hb, if_pos rfl] at hst
      rw [if_neg, if_pos hst]
      intro h
      rw [h] at hst
      have := congrArg List.length hst
      rw [List.length_append] at this
      have h0 : r.spectraConfig.shape = [] := List.length_eq_zero_iff.1 (by omega)
      rw [SpectraConfig.shape, List.map_eq_nil_iff] at h0
      exact hc.axes h0
  refine ⟨{ H5.opened file append with fitResults := some (some
      { name := n, spectraConfig := d, spectraConfigName := r.spectraConfig.name
        fitConfig := (dg, ds), fitConfigName := r.fitConfig.name
        penaltyTerms := r.penaltyTerms, stats := r.stats, resets := r.resets }) },
    ⟨some n, g', r.spectraConfig, r.perBin, r.stats, r.penaltyTerms, r.resets⟩,
    ?_, rfl, rfl, ?_, rfl, rfl, rfl, rfl, rfl, rfl, h3, h4⟩
  · unfold dumpFitResults
    simp only [hf, Option.isSome_none, Bool.false_eq_true, if_false, hn, hd, h1,
      if_neg (not_or.2 ⟨hpne, hsne⟩)]
  · unfold loadFitResults
    simp only [hld, h2, bind, Except.bind, hshape, hpb]
    rw [if_neg (not_not.2 hr.penalties)]

theorem exGlobal_order : FileOrder exGlobal := by
  refine ⟨exGlobal.pars.take 3, exGlobal.pars.drop 3, (List.take_append_drop 3 _).symm, ?_, ?_, ?_⟩
  · intro e he
    simp only [exGlobal, List.take_succ_cons, List.take_zero, List.mem_cons, List.not_mem_nil,
      or_false] at he
    rcases he with rfl | rfl | rfl <;> rfl
  · intro e he
    simp only [exGlobal, List.drop_succ_cons, List.drop_zero, List.mem_cons, List.not_mem_nil,
      or_false] at he
    rcases he with rfl; rfl
  · intro l1 a l2 b l3 h hab c hc
    simp only [exGlobal, List.take_succ_cons, List.take_zero] at h
    match l1, l2, h with
    | [], [], _ => cases hc
    | [], [x], h =>
      simp only [List.nil_append, List.singleton_append, List.cons.injEq] at h
      obtain ⟨rfl, rfl, rfl, -⟩ := h
      exact absurd hab (by decide)
    | [], _ :: _ :: l2, h => simp at h
    | [_], [], _ => cases hc
    | [_], _ :: l2, h => simp at h
    | _ :: _ :: [], [], _ => cases hc
    | _ :: _ :: [], _ :: l2, h => simp at h
    | _ :: _ :: _ :: l1, l2, h => simp at h

/-- A search over the parameters of `exGlobal`, per bin of one axis with three bins. -/
def Ex.search : FullSearch :=
  { name := some (lit "search"), fitConfig := exGlobal
    spectraConfig := ⟨lit "axes", [(lit "energy_reco", ⟨lit "energy_reco", 0, 3, 3⟩)]⟩
    perBin := true, stats := .zeros [5, 5, 5, 5, 3], penaltyTerms := .zeros [5, 5, 5, 5]
    resets := 2 }

theorem Ex.search_ok : Consistent Ex.search ∧ ConfigOk Ex.search.spectraConfig := by
  refine ⟨⟨by rfl, by decide +kernel⟩, by simp [Ex.search], by decide +kernel, ?_⟩
  intro e he
  simp only [Ex.search, List.mem_singleton] at he
  rw [he]

example : ∃ f r', dumpFitResults none Ex.search = (f, none) ∧ loadFitResults f = .ok r' ∧
    r'.perBin = true ∧ r'.resets = 2 ∧ SamePars exGlobal r'.fitConfig := by
  obtain ⟨f, r', h1, -, -, h2, -, -, h3, -, -, h4, h5, -⟩ := c87_round_trip_partial none false
    Ex.search (lit "search") rfl Ex.search_ok.1 Ex.search_ok.2 exGlobal_loadable exGlobal_order
    ⟨_, List.mem_of_getElem (i := 3) (h := by decide) rfl, rfl⟩ rfl
  exact ⟨f, r', h1, h2, h3, h4, h5⟩

/-- **C87 fails for fit configurations without spectral parameters**: they are saved, but
loading raises a `KeyError`. -/
theorem c87_no_spectral_negation (file : Option H5) (append : Bool) (r : FullSearch) (n : PyStr)
    (hn : r.name = some n) (hr : Consistent r) (hc : ConfigOk r.spectraConfig)
    (hl : Loadable r.fitConfig) (hne : r.fitConfig.pars ≠ [])
    (hs : ∀ e ∈ r.fitConfig.pars, e.2.isGlobal = true)
    (hf : (H5.opened file append).fitResults = none) :
    ∃ f, dumpFitResults file r append = (f, none) ∧ loadFitResults f = .error .keyError := by
  obtain ⟨dg, ds, h1, h2⟩ := c55_no_spectral_negation r.fitConfig hl hs false r.fitConfig.name
  obtain ⟨d, hd, hld⟩ := c54_round_trip r.spectraConfig r.spectraConfig.name hc.axes hc.distinct
    hc.names
  have hne' : r.fitConfig.shape ≠ [] := fun h => hne (List.map_eq_nil_iff.1 h)
  have hpne : r.penaltyTerms.shape ≠ [] := by rw [hr.penalties]; exact hne'
  have hsne : r.stats.shape ≠ [] := by
    intro h
    have := hr.stats
    rw [h, List.map_nil] at this
    have := (List.append_eq_nil_iff.1 this.symm).1
    exact hne' (List.map_eq_nil_iff.1 this)
  refine ⟨{ H5.opened file append with fitResults := some (some
      { name := n, spectraConfig := d, spectraConfigName := r.spectraConfig.name
        fitConfig := (dg, ds), fitConfigName := r.fitConfig.name
        penaltyTerms := r.penaltyTerms, stats := r.stats, resets := r.resets }) }, ?_, ?_⟩
  · unfold dumpFitResults
    simp only [hf, Option.isSome_none, Bool.false_eq_true, if_false, hn, hd, h1,
      if_neg (not_or.2 ⟨hpne, hsne⟩)]
  · unfold loadFitResults
    simp only [hld, h2, bind, Except.bind]

example : Loadable ⟨lit "mine", exGlobal.pars.take 3⟩ ∧ (exGlobal.pars.take 3) ≠ [] ∧
    ∀ e ∈ exGlobal.pars.take 3, e.2.isGlobal = true := by
  refine ⟨exGlobalOnly_loadable, by simp [exGlobal], ?_⟩
  intro e he
  simp only [exGlobal, List.take_succ_cons, List.take_zero, List.mem_cons, List.not_mem_nil,
    or_false] at he
  rcases he with rfl | rfl | rfl <;> rfl

/-- **C87 fails without a name**, which a grid search does not have by default: saving raises
a `TypeError`, and the group it leaves behind cannot be loaded. -/
theorem c87_unnamed_negation (file : Option H5) (append : Bool) (r : FullSearch)
    (hn : r.name = none) (hf : (H5.opened file append).fitResults = none) :
    (dumpFitResults file r append).2 = some .typeError ∧
    loadFitResults (dumpFitResults file r append).1 = .error .keyError := by
  unfold dumpFitResults
  simp only [hf, Option.isSome_none, Bool.false_eq_true, if_false, hn]
  exact ⟨trivial, rfl⟩

example : ({ Ex.search with name := none } : FullSearch).name = none := rfl

/-- **C87 fails for interleaved dimensions**: the search is saved and loaded with the same
statistics, but the second axis, scanned over the radial scale, is now said to be that of the
energy shift. -/
theorem c87_axes_negation :
    ∃ r : FullSearch, Consistent r ∧ Loadable r.fitConfig ∧ r.fitConfig = exMixed ∧
      ∃ f r', dumpFitResults none r = (f, none) ∧ loadFitResults f = .ok r' ∧
        r'.stats = r.stats ∧
        (r.fitConfig.pars.map Prod.fst)[1]? = some (lit "radial_scale") ∧
        (r'.fitConfig.pars.map Prod.fst)[1]? = some (lit "energy_shift") := by
  obtain ⟨dg, ds, g', h1, h2, h3, h4⟩ := c55_global_round_trip_partial exMixed exMixed_loadable
    ⟨_, List.mem_of_getElem (i := 3) (h := by decide) rfl, rfl⟩ false (lit "mine")
  have h5 : g'.pars.map Prod.fst =
      [lit "energy_scale", lit "energy_shift", lit "radial_scale", lit "Te130_rate"] := h3
  have hshape : g'.shape = [5, 5, 5, 5] := by
    have hall : ∀ e ∈ g'.pars, e.2.par.bins = 5 := by
      intro e he
      have hk : e.1 ∈ g'.pars.map Prod.fst := List.mem_map_of_mem he
      have hnd : (g'.pars.map Prod.fst).Nodup := by rw [h5]; decide +kernel
      have ha := assoc_of_mem hnd he
      rw [h5] at hk
      simp only [List.mem_cons, List.not_mem_nil, or_false] at hk
      have : ∃ q, assoc exMixed.pars e.1 = some q ∧ q.par.bins = 5 := by
        rcases hk with hk | hk | hk | hk <;> rw [hk] <;> exact ⟨_, rfl, rfl⟩
      obtain ⟨q, hq, hb⟩ := this
      obtain ⟨e', he', -, -, hset, -⟩ := h4 _ _ hq
      rw [ha] at he'
      cases he'
      rw [← hset.bins, hb]
    have hlen : g'.pars.length = 4 := by
      have := congrArg List.length h5
      simpa using this
    unfold GlobalFitConfig.shape
    refine (List.eq_replicate_iff (n := 4)).2 ⟨by rw [List.length_map, hlen], ?_⟩
    intro b hb
    obtain ⟨e, he, rfl⟩ := List.mem_map.1 hb
    exact hall e he
  have hc := Ex.search_ok.2
  obtain ⟨d, hd, hld⟩ := c54_round_trip Ex.search.spectraConfig Ex.search.spectraConfig.name
    hc.axes hc.distinct hc.names
  refine ⟨{ Ex.search with
      fitConfig := exMixed, perBin := false, stats := .zeros [5, 5, 5, 5] },
    ⟨by rfl, by decide +kernel⟩, exMixed_loadable, rfl,
    { ({} : H5) with fitResults := some (some
      { name := lit "search", spectraConfig := d
        spectraConfigName := Ex.search.spectraConfig.name
        fitConfig := (dg, ds), fitConfigName := lit "mine"
        penaltyTerms := .zeros [5, 5, 5, 5], stats := .zeros [5, 5, 5, 5], resets := 2 }) },
    ⟨some (lit "search"), g', Ex.search.spectraConfig, false, .zeros [5, 5, 5, 5],
      .zeros [5, 5, 5, 5], 2⟩, ?_, ?_, rfl, rfl, ?_⟩
  · unfold dumpFitResults
    simp only [H5.opened, Option.isSome_none, Bool.false_eq_true, if_false, Ex.search] at hd ⊢
    simp only [hd, h1, NdArray.zeros]
    exact if_neg (by simp)
  · unfold loadFitResults
    simp only [hld, h2, bind, Except.bind, hshape, NdArray.zeros, perBinOf, if_true, ne_eq,
      not_true_eq_false, if_false]
  · rw [h5]
    rfl

/-! ## C88: results of limits -/

theorem stored_or_zero {a : NdArray ℝ} {s : List ℕ} (h : a.shape = s) (o : Option (NdArray ℝ))
    (ho : (o = some a) ∨ (o = none ∧ ¬ a.AnyNonzero)) :
    (o.getD (.zeros s)).Eqv a := by
  rcases ho with rfl | ⟨rfl, hz⟩
  · exact ⟨rfl, fun _ _ => rfl⟩
  · refine ⟨h.symm, fun idx hidx => ?_⟩
    by_contra hne
    refine hz ⟨idx, ?_, fun h0 => hne ?_⟩
    · rw [h]; exact hidx
    · rw [h0]; rfl

/-- **C88, round trip.** Limit results with a table row per scaling and a column per fit
parameter are saved and loaded: name, spectral configuration, limit configuration, fit
parameters in order with settings and current values, statistics, penalty terms and best
fits; and the result of the fit for every scaling that has one, with its statistics, penalty
terms and resets, and the best fits of its scaling. Without such results the best fits of
the fit parameters are kept too.
Missing: name, `per_bin` and own configurations of the single fit results, and otherwise the
best fits of the fit parameters, see the negation. -/
theorem c88_round_trip_partial (file : Option H5) (append : Bool) (r : FullLimit) (n : ℕ)
    (hr : LimitOk r n) (hc : ConfigOk r.spectraConfig)
    (hl : Loadable r.fitConfig) (ho : FileOrder r.fitConfig)
    (hlim : RateConfig r.limitConfig.spectraName r.limitConfig)
    (hf : (H5.opened file append).limitResults = none) :
    ∃ f r', dumpLimitResults file r append = (f, none) ∧
      f.spectrum = (H5.opened file append).spectrum ∧
      f.fitResults = (H5.opened file append).fitResults ∧
      loadLimitResults f = .ok r' ∧
      r'.name = r.name ∧ r'.spectraConfig = r.spectraConfig ∧
      SameFit (some r.limitConfig) (some r'.limitConfig) ∧
      SamePars r.fitConfig r'.fitConfig ∧
      r'.stats = r.stats ∧ r'.penaltyTerms.Eqv r.penaltyTerms ∧ r'.bestFits.Eqv r.bestFits ∧
      List.Forall₂ (fun s s' => SameResult r s.2 s.1 s') r.fitResults.zipIdx r'.fitResults ∧
      ((∀ s ∈ r.fitResults, s = none) → SameBest r.fitConfig r'.fitConfig) := by
  classical
  obtain ⟨d, hd, hld⟩ := c54_round_trip r.spectraConfig r.spectraConfig.name hc.axes hc.distinct
    hc.names
  obtain ⟨fd, g', hfd, hsame, hbest, hload⟩ := reload_limit hl ho
  obtain ⟨ld, lc', hld1, hld2, hld3⟩ := reload_rate hlim
  obtain ⟨p, hp, hpn⟩ := hr.rate
  obtain ⟨p', hp', hset, -⟩ := hld3.2.2.2 _ _ hp
  have hbins : p'.bins = n := by rw [← hset.bins, hpn]
  have hlen : g'.pars.length = r.fitConfig.pars.length := samePars_length hsame
  obtain ⟨srest, hst⟩ := hr.stats
  let G : LimitGroup :=
    { name := r.name, spectraConfig := d, spectraConfigName := r.spectraConfig.name
      fitConfig := fd, fitConfigName := r.fitConfig.name, limitConfig := ld
      limitConfigName := r.limitConfig.config.name
      limitConfigSpectraName := r.limitConfig.spectraName
      penaltyTerms := if r.penaltyTerms.AnyNonzero then some r.penaltyTerms else none
      bestFits := if r.bestFits.AnyNonzero then some r.bestFits else none
      stats := r.stats, fitsExist := r.fitResults.any Option.isSome
      subs := if r.fitResults.any Option.isSome then r.fitResults.map (Option.map
          (fun s => ⟨s.penaltyTerms, s.stats, s.resets⟩)) else [] }
  have hdump : dumpLimitResults file r append =
      ({ H5.opened file append with limitResults := some (some G) }, none) := by
    unfold dumpLimitResults
    simp only [hf, Option.isSome_none, Bool.false_eq_true, if_false, hd, hfd, hld1]
    rfl
  have hpen : (G.penaltyTerms.getD (.zeros [n, g'.pars.length])).Eqv r.penaltyTerms := by
    refine stored_or_zero (by rw [hr.penalties, hlen]) _ ?_
    by_cases h : r.penaltyTerms.AnyNonzero
    · exact .inl (if_pos h)
    · exact .inr ⟨if_neg h, h⟩
  have hbf : (G.bestFits.getD (.zeros [n, g'.pars.length])).Eqv r.bestFits := by
    refine stored_or_zero (by rw [hr.bestFits, hlen]) _ ?_
    by_cases h : r.bestFits.AnyNonzero
    · exact .inl (if_pos h)
    · exact .inr ⟨if_neg h, h⟩
  cases hex : r.fitResults.any Option.isSome with
  | false =>
    have hnone : ∀ s ∈ r.fitResults, s = none := by
      intro s hs
      have := List.any_eq_false.1 hex s hs
      cases s with
      | none => rfl
      | some s => exact absurd rfl this
    have hrep : r.fitResults = List.replicate n none :=
      List.eq_replicate_iff.2 ⟨hr.fits, hnone⟩
    refine ⟨_, ⟨r.name, r.spectraConfig, g', lc', G.penaltyTerms.getD (.zeros [n, g'.pars.length]),
      G.bestFits.getD (.zeros [n, g'.pars.length]), r.stats, List.replicate n none⟩, hdump, rfl,
      rfl, ?_, rfl, rfl, hld3, hsame, rfl, hpen, hbf, ?_, fun _ => hbest⟩
    · unfold loadLimitResults
      have hG : G.fitsExist = false := hex
      simp only [bind, Except.bind]
      rw [show SpectraConfig.load G.spectraConfig G.spectraConfigName = _ from hld, hload G rfl rfl]
      dsimp only
      rw [show SpectraFitConfig.load G.limitConfig G.limitConfigSpectraName G.limitConfigName = _
        from hld2]
      dsimp only
      rw [hp']
      simp only [hG, Bool.false_eq_true, if_false, hbins]
      rfl
    · rw [List.forall₂_iff_get]
      refine ⟨by simp [hr.fits], fun i hi hi' => ?_⟩
      have : r.fitResults[i]'(by simpa using hi) = none := hnone _ (List.getElem_mem _)
      simp only [List.get_eq_getElem, List.getElem_zipIdx, this, List.getElem_replicate]
      trivial
  | true =>
    have hsubs : G.subs = r.fitResults.map (Option.map
        (fun s => (⟨s.penaltyTerms, s.stats, s.resets⟩ : SubGroup))) := if_pos hex
    obtain ⟨st, hs1, hs2, hs3, hs4, -⟩ := loadSubs_ok hr hsame hsubs n le_rfl
      (best := G.bestFits.getD (.zeros [n, g'.pars.length]))
      (by rw [hbf.1, hr.bestFits]) hbf.2
    refine ⟨_, ⟨r.name, r.spectraConfig, st.1, lc',
      G.penaltyTerms.getD (.zeros [n, g'.pars.length]),
      G.bestFits.getD (.zeros [n, g'.pars.length]), r.stats, st.2⟩, hdump, rfl, rfl, ?_, rfl, rfl,
      hld3, hs2, rfl, hpen, hbf, ?_, ?_⟩
    · unfold loadLimitResults
      have hG : G.fitsExist = true := hex
      have hGs : G.stats.shape = n :: srest := hst
      simp only [bind, Except.bind]
      rw [show SpectraConfig.load G.spectraConfig G.spectraConfigName = _ from hld, hload G rfl rfl]
      dsimp only
      rw [show SpectraFitConfig.load G.limitConfig G.limitConfigSpectraName G.limitConfigName = _
        from hld2]
      dsimp only
      rw [hp']
      simp only [hG, if_true, hGs, hbins, hs1]
      rfl
    · rw [List.forall₂_iff_get]
      refine ⟨by simp [hr.fits, hs3], fun i hi hi' => ?_⟩
      have hi1 : i < r.fitResults.length := by simpa using hi
      have hin : i < n := by rw [← hr.fits]; exact hi1
      obtain ⟨s', hs', hsr⟩ := hs4 i _ hin (List.getElem?_eq_getElem hi1)
      have hi2 : i < st.2.length := by rw [hs3]; exact hin
      rw [List.getElem?_eq_getElem hi2] at hs'
      cases hs'
      simpa using hsr
    · intro hnone
      obtain ⟨s, hs, hsome⟩ := List.any_eq_true.1 hex
      rw [hnone s hs] at hsome
      cases hsome

/-- Limit results for two scalings, the first with the result of its fit. -/
def Ex.limit : FullLimit :=
  { name := lit "limit", spectraConfig := Ex.search.spectraConfig, fitConfig := exGlobal
    limitConfig := ⟨⟨lit "l", [(lit "rate", { exPar (lit "rate") none with bins := 2 })]⟩,
      lit "Te130_0n2b"⟩
    penaltyTerms := .zeros [2, 4], bestFits := ⟨[2, 4], fun _ => 1⟩, stats := .zeros [2]
    fitResults := [some Ex.search, none] }

theorem Ex.limit_ok : LimitOk Ex.limit 2 :=
  ⟨⟨_, rfl, rfl⟩, rfl, rfl, ⟨[], rfl⟩, rfl⟩

theorem Ex.limit_rate : RateConfig Ex.limit.limitConfig.spectraName Ex.limit.limitConfig := by
  refine ⟨rfl, by simp [Ex.limit], by decide +kernel, ?_, ?_⟩
  · intro e he
    simp only [Ex.limit, List.mem_singleton] at he
    subst he
    exact ⟨rfl, rfl, Or.inl ⟨rfl, rfl, Or.inl rfl⟩⟩
  · intro e he
    simp only [Ex.limit, List.mem_singleton] at he
    subst he
    exact List.infix_refl _

/-- **C88 fails for the single fit results**: a fit result loaded with limit results is never
per bin and has the name of the fit configuration, whatever was saved. -/
theorem c88_single_results_negation :
    (∀ f g r', f.limitResults = some (some g) → loadLimitResults f = .ok r' →
      ∀ s, some s ∈ r'.fitResults → s.perBin = false ∧ s.name = some g.fitConfigName) ∧
    ∃ (r : FullLimit) (s s' : FullSearch) (f : H5) (r' : FullLimit),
      dumpLimitResults none r = (f, none) ∧ loadLimitResults f = .ok r' ∧
      r.fitResults[0]? = some (some s) ∧ r'.fitResults[0]? = some (some s') ∧
      s.perBin = true ∧ s'.perBin = false := by
  have hfold : ∀ (g : LimitGroup) (sc : SpectraConfig) (best : NdArray ℝ) (k : ℕ) (l : List ℕ)
      (st st' : GlobalFitConfig × List (Option FullSearch)),
      (∀ s, some s ∈ st.2 → s.perBin = false ∧ s.name = some g.fitConfigName) →
      l.foldlM (loadSub g sc best k) st = .ok st' →
      ∀ s, some s ∈ st'.2 → s.perBin = false ∧ s.name = some g.fitConfigName := by
    intro g sc best k l
    induction l with
    | nil =>
      intro st st' h hst
      cases hst
      exact h
    | cons i l ih =>
      intro st st' h hst
      rw [List.foldlM_cons] at hst
      cases h1 : loadSub g sc best k st i with
      | error e => rw [h1] at hst; cases hst
      | ok st1 =>
        rw [h1] at hst
        refine ih st1 st' ?_ hst
        unfold loadSub at h1
        split at h1
        · cases h1
        · cases h1
          exact h
        · rename_i sub hsub
          split at h1
          · cases h1
          · rename_i fc hfc
            split at h1
            · cases h1
              intro s hs
              rcases List.mem_or_eq_of_mem_set hs with hs | hs
              · exact h s hs
              · cases hs
                exact ⟨rfl, rfl⟩
            · cases h1
  have hall : ∀ f g r', f.limitResults = some (some g) → loadLimitResults f = .ok r' →
      ∀ s, some s ∈ r'.fitResults → s.perBin = false ∧ s.name = some g.fitConfigName := by
    intro f g r' hg hload
    have hrep : ∀ k s, some s ∈ List.replicate k (none : Option FullSearch) →
        s.perBin = false ∧ s.name = some g.fitConfigName := by
      intro k s hs
      have := List.eq_of_mem_replicate hs
      cases this
    unfold loadLimitResults at hload
    rw [hg] at hload
    simp only [bind, Except.bind] at hload
    split at hload
    · cases hload
    · rename_i sc hsc
      split at hload
      · cases hload
      · rename_i fc hfc
        split at hload
        · cases hload
        · rename_i lc hlc
          split at hload
          · cases hload
          · rename_i rate hrate
            split at hload
            · cases hload
            · rename_i st hst
              cases hload
              split at hst
              · split at hst
                · cases hst
                · exact hfold _ _ _ _ _ _ _ (hrep _) hst
              · cases hst
                exact hrep _
  refine ⟨hall, ?_⟩
  obtain ⟨f, r', h1, -, -, h2, -, -, -, -, -, -, -, h3, -⟩ := c88_round_trip_partial none false
    Ex.limit 2 Ex.limit_ok Ex.search_ok.2 exGlobal_loadable exGlobal_order Ex.limit_rate rfl
  have hlen := h3.length_eq
  have hlen' : r'.fitResults.length = 2 := by rw [← hlen]; rfl
  have h0 := (List.forall₂_iff_get.1 h3).2 0 (by decide) (by rw [hlen']; decide)
  cases hr' : r'.fitResults with
  | nil => rw [hr'] at hlen'; cases hlen'
  | cons s' l =>
    simp only [hr', List.get_eq_getElem, List.getElem_cons_zero] at h0
    cases s' with
    | none => exact h0.elim
    | some s' =>
      have hg : ∃ g, f.limitResults = some (some g) := by
        unfold loadLimitResults at h2
        split at h2
        · rename_i g hg
          exact ⟨g, hg⟩
        · cases h2
      obtain ⟨g, hg⟩ := hg
      refine ⟨Ex.limit, Ex.search, s', f, r', h1, h2, rfl, by rw [hr']; rfl, rfl, ?_⟩
      exact (hall f g r' hg h2 s' (by rw [hr']; exact List.mem_cons_self)).1

end Verif
