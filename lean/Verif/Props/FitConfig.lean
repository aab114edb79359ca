import Verif.Lemmas.ConfigLoad
import Mathlib.Tactic.NormNum

/-!
# Properties of fit configurations: C55, C57, C81, C82
-/

namespace Verif

/-! ## C55: round trip of fit configurations -/

/-- C55: every parameter made by the constructor has the form `Built`. -/
theorem c55_constructor_built (name : PyStr) (prior low high b : ℝ) (sigma : Option ℝ) (bins : ℕ)
    (dim : Option PyStr) (v : Option (List ℝ)) (c pt bf : Option ℝ) (ls ld : Option Bool) :
    Built (FitPar.new name prior sigma low high bins dim v c pt bf ls (some b) ld) := by
  unfold Built FitPar.new
  by_cases h : ls = some true
  · right; simp [h]
  · left
    by_cases h' : ld = some true <;> simp [h, h']

/-- C55, spectral fit configurations: the same parameters in the same order with
the same settings. The penalty term is missing (see `c55_penalty_negation`). -/
theorem c55_spectral_round_trip_partial (c : SpectraFitConfig) (basic : Bool) (sn name : PyStr)
    (hne : c.config.pars ≠ []) (hnd : c.config.getPars.Nodup)
    (hname : ∀ e ∈ c.config.pars, e.2.name = e.1 ∧ e.2.dimension = none ∧ Built e.2)
    (hrate : ∀ e ∈ c.config.pars, lit "rate" <:+: e.1) :
    ∃ d c', c.dump basic = .ok d ∧ SpectraFitConfig.load d sn name = .ok c' ∧
      c'.spectraName = sn ∧ c'.config.name = name ∧ SameKeys c'.config.pars c.config.pars ∧
      ∀ n p, c.config.getPar n = .ok p → ∃ p', c'.config.getPar n = .ok p' ∧
        SameSettings p p' ∧
        (basic = false → p'.current = p.current ∧ p'.bestFit = p.bestFit) := by
  have hdump : c.dump basic = .ok [(lit "spectral_fit_parameters",
      c.config.pars.map (fun e => (e.1, e.2.toDict basic)))] := by
    unfold SpectraFitConfig.dump
    rw [foldlM_getPar hnd]
    rfl
  have hfold : (c.config.pars.map (fun e => (e.1, e.2.toDict basic))).foldlM
      SpectraFitConfig.loadPar [] =
      .ok (c.config.pars.map (fun e => (e.1, reload basic e.2))) := by
    rw [List.foldlM_map]
    rw [foldlM_dictSet_fresh Prod.fst (fun e => reload basic e.2)]
    · rfl
    · intro d e he
      obtain ⟨h1, h2, h3⟩ := hname e he
      have hc : pyContains (lit "rate") e.1 = true := by
        rw [pyContains, decide_eq_true_eq]; exact hrate e he
      have := ofDict_toDict h3 basic
      rw [h1, h2] at this
      simp only [SpectraFitConfig.loadPar, hc, if_true, this, bind, Except.bind, pure, Except.pure]
    · exact hnd
    · simp
  refine ⟨_, ⟨⟨name, c.config.pars.map (fun e => (e.1, reload basic e.2))⟩, sn⟩, hdump, ?_,
    rfl, rfl, ?_, ?_⟩
  · unfold SpectraFitConfig.load
    rw [assoc_cons, if_pos rfl]
    cases hp : c.config.pars.map (fun e => (e.1, e.2.toDict basic)) with
    | nil => exact absurd (List.map_eq_nil_iff.1 hp) hne
    | cons e l =>
      rw [hp] at hfold
      dsimp only
      rw [hfold]
      rfl
  · unfold SameKeys
    rw [List.map_map]
    rfl
  · intro n p hp
    have hm : (n, p) ∈ c.config.pars := by
      unfold Config.getPar at hp
      cases ha : assoc c.config.pars n with
      | none => rw [ha] at hp; cases hp
      | some q =>
        rw [ha] at hp
        cases hp
        exact assoc_mem ha
    refine ⟨reload basic p, ?_, sameSettings_reload _ _, ?_⟩
    · unfold Config.getPar
      rw [assoc_of_mem (v := reload basic p)]
      · rw [List.map_map]; exact hnd
      · exact List.mem_map.2 ⟨_, hm, rfl⟩
    · rintro rfl
      exact ⟨rfl, rfl⟩

/-- C55, global fit configurations with spectral parameters: every parameter is
there again under its name with its class, type and settings; the global ones
come first, put together by dimension. Missing: the penalty term, the order and
the name of the configuration in general (see the negations below). -/
theorem c55_global_round_trip_partial (g : GlobalFitConfig) (h : Loadable g)
    (hs : ∃ e ∈ g.pars, e.2.isGlobal = false) (basic : Bool) (nm : PyStr) :
    ∃ dg ds g', g.dump basic = .ok (dg, ds) ∧
      GlobalFitConfig.load dg (some ds) nm = .ok g' ∧
      g'.pars.map Prod.fst = (groupBy dimOf (g.pars.filter (fun e => e.2.isGlobal))).map Prod.fst ++
        (g.pars.filter (fun e => !e.2.isGlobal)).map Prod.fst ∧
      ∀ k e, assoc g.pars k = some e → ∃ e', assoc g'.pars k = some e' ∧ e'.kind = e.kind ∧
        e'.isGlobal = e.isGlobal ∧ SameSettings e.par e'.par ∧
        (basic = false → e'.par.current = e.par.current ∧ e'.par.bestFit = e.par.bestFit) := by
  obtain ⟨dg, ds, G, hG, hback, hd, h1, h2, h3, h4⟩ := global_reload g h basic nm
  have hSn : (g.pars.filter (fun e => !e.2.isGlobal)).map (fun e => e.2.par.name) =
      (g.pars.filter (fun e => !e.2.isGlobal)).map Prod.fst :=
    List.map_congr_left (fun e he => by
      rw [List.mem_filter, Bool.not_eq_true'] at he
      exact (h.spectral e he.1 he.2).1)
  have hkeys := items_grouped hG hback
  have hkeys' : ((groupBy Item.dim G).map
      (fun it => ((it.par.name, ⟨it.kind, reload basic it.par, true⟩) : PyStr × GEntry)) ++
      (g.pars.filter (fun e => !e.2.isGlobal)).map
      (fun e => ((e.2.par.name, ⟨.rate, reload basic e.2.par, false⟩) : PyStr × GEntry))).map
        Prod.fst = (groupBy dimOf (g.pars.filter (fun e => e.2.isGlobal))).map Prod.fst ++
        (g.pars.filter (fun e => !e.2.isGlobal)).map Prod.fst := by
    rw [List.map_append, List.map_map, List.map_map, ← hkeys, ← hSn]
    rfl
  have hnd : ((groupBy dimOf (g.pars.filter (fun e => e.2.isGlobal))).map Prod.fst ++
      (g.pars.filter (fun e => !e.2.isGlobal)).map Prod.fst).Nodup := by
    have hp : List.Perm (groupBy dimOf (g.pars.filter (fun e => e.2.isGlobal)) ++
        g.pars.filter (fun e => !e.2.isGlobal)) g.pars :=
      ((groupBy_perm dimOf ((List.Nodup.of_map _ h.distinct).filter _)).append_right _).trans
        (List.filter_append_perm _ _)
    rw [← List.map_append]
    exact (hp.map Prod.fst).nodup_iff.2 h.distinct
  refine ⟨dg, ds, ⟨((groupBy Item.dim G).map (fun it => it.par.name)).getLastD nm, _⟩, hd, ?_,
    hkeys', ?_⟩
  · unfold GlobalFitConfig.load
    rw [h1]
    simp only [h3, h2, bind, Except.bind, pure, Except.pure]
    cases hp : (g.pars.filter (fun e => !e.2.isGlobal)).map
        (fun e => (e.2.par.name, e.2.par.toDict basic)) with
    | nil =>
      obtain ⟨e, he, hg⟩ := hs
      have : e ∈ g.pars.filter (fun e => !e.2.isGlobal) := List.mem_filter.2 ⟨he, by simp [hg]⟩
      rw [List.map_eq_nil_iff] at hp
      rw [hp] at this
      cases this
    | cons e l =>
      rw [hp] at h4
      simp only [h4]
  · intro k e he
    refine ⟨_, assoc_reload (basic := basic) h hback (by rw [hkeys']; exact hnd) ?_ ?_ he, rfl, rfl,
      sameSettings_reload _ _, by rintro rfl; exact ⟨rfl, rfl⟩⟩
    · intro it hit
      exact List.mem_append_left _ (List.mem_map.2 ⟨it, hit, rfl⟩)
    · intro e he
      exact List.mem_append_right _ (List.mem_map.2 ⟨e, he, rfl⟩)

/-- C55, global fit configurations without spectral parameters: loading the
global dictionary alone gives every parameter back. -/
theorem c55_global_only_partial (g : GlobalFitConfig) (h : Loadable g)
    (hs : ∀ e ∈ g.pars, e.2.isGlobal = true) (basic : Bool) (nm : PyStr) :
    ∃ dg ds g', g.dump basic = .ok (dg, ds) ∧
      GlobalFitConfig.load dg none nm = .ok g' ∧
      g'.pars.map Prod.fst = (groupBy dimOf g.pars).map Prod.fst ∧
      ∀ k e, assoc g.pars k = some e → ∃ e', assoc g'.pars k = some e' ∧ e'.kind = e.kind ∧
        e'.isGlobal = e.isGlobal ∧ SameSettings e.par e'.par ∧
        (basic = false → e'.par.current = e.par.current ∧ e'.par.bestFit = e.par.bestFit) := by
  obtain ⟨dg, ds, G, hG, hback, hd, h1, h2, h3, h4⟩ := global_reload g h basic nm
  have hfilt : g.pars.filter (fun e => e.2.isGlobal) = g.pars := by
    rw [List.filter_eq_self]; exact hs
  have hempty : g.pars.filter (fun e => !e.2.isGlobal) = [] := by
    rw [List.filter_eq_nil_iff]; intro e he; simp [hs e he]
  have hkeys := items_grouped hG hback
  rw [hfilt] at hkeys
  have hkeys' : ((groupBy Item.dim G).map
      (fun it => ((it.par.name, ⟨it.kind, reload basic it.par, true⟩) : PyStr × GEntry))).map
        Prod.fst = (groupBy dimOf g.pars).map Prod.fst := by
    rw [List.map_map, ← hkeys]
    rfl
  have hnd : ((groupBy dimOf g.pars).map Prod.fst).Nodup :=
    ((groupBy_perm dimOf (List.Nodup.of_map _ h.distinct)).map Prod.fst).nodup_iff.2 h.distinct
  refine ⟨dg, ds, ⟨((groupBy Item.dim G).map (fun it => it.par.name)).getLastD nm, _⟩, hd, ?_,
    hkeys', ?_⟩
  · unfold GlobalFitConfig.load
    rw [h1]
    simp only [h3, bind, Except.bind, pure, Except.pure]
  · intro k e he
    refine ⟨_, assoc_reload (basic := basic) h hback (by rw [hkeys']; exact hnd) ?_ ?_ he, rfl, rfl,
      sameSettings_reload _ _, by rintro rfl; exact ⟨rfl, rfl⟩⟩
    · intro it hit
      exact List.mem_map.2 ⟨it, hit, rfl⟩
    · intro e he
      rw [hempty] at he
      cases he

/-- C55: the order is kept too when the global parameters come first and those of
one dimension stand together. -/
theorem c55_order (g : GlobalFitConfig) (h : Loadable g) (glob spec : Dict GEntry)
    (hg : ∀ e ∈ glob, e.2.isGlobal = true) (hsp : ∀ e ∈ spec, e.2.isGlobal = false)
    (hpars : g.pars = glob ++ spec) (hs : spec ≠ []) (hc : Contiguous dimOf glob)
    (basic : Bool) (nm : PyStr) :
    ∃ dg ds g', g.dump basic = .ok (dg, ds) ∧
      GlobalFitConfig.load dg (some ds) nm = .ok g' ∧ SameKeys g'.pars g.pars := by
  obtain ⟨e, l, rfl⟩ := List.exists_cons_of_ne_nil hs
  obtain ⟨dg, ds, g', h1, h2, h3, -⟩ := c55_global_round_trip_partial g h
    ⟨e, by rw [hpars]; simp, hsp e (by simp)⟩ basic nm
  refine ⟨dg, ds, g', h1, h2, ?_⟩
  have hf1 : g.pars.filter (fun e => e.2.isGlobal) = glob := by
    rw [hpars, List.filter_append, List.filter_eq_self.2 hg, List.filter_eq_nil_iff.2,
      List.append_nil]
    intro x hx
    simp [hsp x hx]
  have hf2 : g.pars.filter (fun e => !e.2.isGlobal) = e :: l := by
    rw [hpars, List.filter_append, List.filter_eq_nil_iff.2, List.filter_eq_self.2,
      List.nil_append]
    · intro x hx; simp [hsp x hx]
    · intro x hx; simp [hg x hx]
  rw [SameKeys, h3, hf1, hf2, groupBy_contiguous hc, hpars, List.map_append]

/-! Example: energy scale and shift, radial scale, two rates. -/

/-- A parameter with simple settings. -/
def exPar (name : PyStr) (dim : Option PyStr) : FitPar :=
  { name := name, prior := 1, sigma := none, low := 0, high := 2, bins := 5, dimension := dim }

/-- Global parameters first, then rates. -/
def exGlobal : GlobalFitConfig :=
  ⟨lit "mine",
    [(lit "energy_scale", ⟨.scale, exPar (lit "energy_scale") (some (lit "energy")), true⟩),
     (lit "energy_shift", ⟨.shift, exPar (lit "energy_shift") (some (lit "energy")), true⟩),
     (lit "radial_scale", ⟨.scale, exPar (lit "radial_scale") (some (lit "radial")), true⟩),
     (lit "Te130_rate", ⟨.rate, exPar (lit "Te130_rate") none, false⟩)]⟩

/-- The same with the dimensions interleaved. -/
def exMixed : GlobalFitConfig :=
  ⟨lit "mine",
    [(lit "energy_scale", ⟨.scale, exPar (lit "energy_scale") (some (lit "energy")), true⟩),
     (lit "radial_scale", ⟨.scale, exPar (lit "radial_scale") (some (lit "radial")), true⟩),
     (lit "energy_shift", ⟨.shift, exPar (lit "energy_shift") (some (lit "energy")), true⟩),
     (lit "Te130_rate", ⟨.rate, exPar (lit "Te130_rate") none, false⟩)]⟩

theorem exPar_built (n : PyStr) (d : Option PyStr) : Built (exPar n d) :=
  Or.inl ⟨rfl, rfl, Or.inl rfl⟩

theorem exNamed (dim syst name : PyStr) (kind : ParKind) (hs : Systematic syst kind)
    (hn : name = dim ++ '_' :: syst) (hl : syst ≠ lit "resolution_ly") :
    GlobalNamed (name, ⟨kind, exPar name (some dim), true⟩) ∧
      ¬ Ambiguous (name, ⟨kind, exPar name (some dim), true⟩) := by
  refine ⟨⟨rfl, dim, syst, rfl, hn, hs⟩, ?_⟩
  rintro ⟨d, hd, he, -⟩
  obtain rfl : dim = d := Option.some.inj hd
  have : dim ++ '_' :: syst = dim ++ lit "_resolution_ly" := hn ▸ he
  have := List.append_cancel_left this
  rw [List.cons.injEq] at this
  exact hl this.2

theorem exMixed_loadable : Loadable exMixed := by
  refine ⟨by decide +kernel, ?_, ?_, ?_⟩
  · intro e he hg
    simp only [exMixed, List.mem_cons, List.not_mem_nil, or_false] at he
    rcases he with rfl | rfl | rfl | rfl
    · exact exNamed (lit "energy") (lit "scale") _ _ .scale rfl (by decide)
    · exact exNamed (lit "radial") (lit "scale") _ _ .scale rfl (by decide)
    · exact exNamed (lit "energy") (lit "shift") _ _ .shift rfl (by decide)
    · cases hg
  · intro e he hg
    simp only [exMixed, List.mem_cons, List.not_mem_nil, or_false] at he
    rcases he with rfl | rfl | rfl | rfl
    · cases hg
    · cases hg
    · cases hg
    · exact ⟨rfl, rfl, by decide, rfl⟩
  · intro e he
    simp only [exMixed, List.mem_cons, List.not_mem_nil, or_false] at he
    rcases he with rfl | rfl | rfl | rfl <;> exact exPar_built _ _

theorem exGlobal_loadable : Loadable exGlobal := by
  have hm : ∀ e ∈ exGlobal.pars, e ∈ exMixed.pars := by
    intro e he
    simp only [exGlobal, List.mem_cons, List.not_mem_nil, or_false] at he
    simp only [exMixed, List.mem_cons, List.not_mem_nil, or_false]
    tauto
  exact ⟨by decide +kernel, fun e he => exMixed_loadable.globals e (hm e he),
    fun e he => exMixed_loadable.spectral e (hm e he),
    fun e he => exMixed_loadable.built e (hm e he)⟩

example : ∃ dg ds g', exGlobal.dump true = .ok (dg, ds) ∧
    GlobalFitConfig.load dg (some ds) (lit "x") = .ok g' ∧ SameKeys g'.pars exGlobal.pars := by
  refine c55_order exGlobal exGlobal_loadable (exGlobal.pars.take 3) (exGlobal.pars.drop 3)
    ?_ ?_ rfl (by simp [exGlobal]) ?_ true _
  · intro e he
    simp only [exGlobal, List.take_succ_cons, List.take_zero, List.mem_cons, List.not_mem_nil,
      or_false] at he
    rcases he with rfl | rfl | rfl <;> rfl
  · intro e he
    simp only [exGlobal, List.drop_succ_cons, List.drop_zero, List.mem_cons, List.not_mem_nil,
      or_false] at he
    rcases he with rfl; rfl
  · intro l1 a l2 b l3 h hab c hc
    simp only [exGlobal, List.take_succ_cons, List.take_zero] at h
    match l1, l2, h with
    | [], [], _ => cases hc
    | [], [x], h =>
      simp only [List.nil_append, List.singleton_append, List.cons.injEq] at h
      obtain ⟨rfl, rfl, rfl, -⟩ := h
      exact absurd hab (by decide)
    | [], _ :: _ :: l2, h => simp at h
    | [_], [], _ => cases hc
    | [_], _ :: l2, h => simp at h
    | _ :: _ :: [], [], _ => cases hc
    | _ :: _ :: [], _ :: l2, h => simp at h
    | _ :: _ :: _ :: l1, l2, h => simp at h

/-- The global parameters of the example alone. -/
theorem exGlobalOnly_loadable : Loadable ⟨lit "mine", exGlobal.pars.take 3⟩ := by
  have hm : ∀ e ∈ exGlobal.pars.take 3, e ∈ exGlobal.pars := fun e he => List.mem_of_mem_take he
  exact ⟨by decide +kernel, fun e he => exGlobal_loadable.globals e (hm e he),
    fun e he => exGlobal_loadable.spectral e (hm e he),
    fun e he => exGlobal_loadable.built e (hm e he)⟩

example : ∀ e ∈ exGlobal.pars.take 3, e.2.isGlobal = true := by
  intro e he
  simp only [exGlobal, List.take_succ_cons, List.take_zero, List.mem_cons, List.not_mem_nil,
    or_false] at he
  rcases he with rfl | rfl | rfl <;> rfl

example : ∃ d c', (⟨⟨lit "c", [(lit "rate", exPar (lit "rate") none)]⟩, lit "B8"⟩ :
      SpectraFitConfig).dump = .ok d ∧
    SpectraFitConfig.load d (lit "B8") (lit "again") = .ok c' ∧ c'.config.name = lit "again" := by
  obtain ⟨d, c', h1, h2, -, h3, -⟩ := c55_spectral_round_trip_partial
    ⟨⟨lit "c", [(lit "rate", exPar (lit "rate") none)]⟩, lit "B8"⟩ false (lit "B8") (lit "again")
    (by simp) (by decide +kernel)
    (by
      intro e he
      rw [List.mem_singleton] at he
      subst he
      exact ⟨rfl, rfl, exPar_built _ _⟩)
    (by
      intro e he
      rw [List.mem_singleton] at he
      subst he
      decide)
  exact ⟨d, c', h1, h2, h3⟩

/-- C55 fails for the order: interleaved dimensions come back sorted into groups. -/
theorem c55_order_negation :
    Loadable exMixed ∧ ∃ dg ds g', exMixed.dump = .ok (dg, ds) ∧
      GlobalFitConfig.load dg (some ds) (lit "x") = .ok g' ∧
      g'.pars.map Prod.fst =
        [lit "energy_scale", lit "energy_shift", lit "radial_scale", lit "Te130_rate"] ∧
      ¬ SameKeys g'.pars exMixed.pars := by
  obtain ⟨dg, ds, g', h1, h2, h3, -⟩ := c55_global_round_trip_partial exMixed exMixed_loadable
    ⟨_, List.mem_of_getElem (i := 3) (h := by decide) rfl, rfl⟩ false (lit "x")
  have h4 : g'.pars.map Prod.fst =
      [lit "energy_scale", lit "energy_shift", lit "radial_scale", lit "Te130_rate"] := h3
  refine ⟨exMixed_loadable, dg, ds, g', h1, h2, h4, ?_⟩
  rw [SameKeys, h4]
  decide +kernel

/-- C55 fails for the penalty term: after a full dump it is the best fit, so any
parameter whose penalty term differs from its best fit comes back changed. -/
theorem c55_penalty_negation (name : PyStr) (dim : Option PyStr) (p : FitPar) (h : Built p)
    (hp : p.penaltyTerm ≠ p.bestFit) :
    ∃ q, FitPar.ofDict name dim (p.toDict false) = .ok q ∧ q.penaltyTerm = p.bestFit ∧
      q.penaltyTerm ≠ p.penaltyTerm := by
  have := ofDict_toDict (p := { p with name := name, dimension := dim }) h false
  exact ⟨_, this, rfl, fun h => hp h.symm⟩

example : Built { exPar (lit "rate") none with penaltyTerm := some 1, bestFit := some 2 } ∧
    (some 1 : Option ℝ) ≠ some 2 := ⟨Or.inl ⟨rfl, rfl, Or.inl rfl⟩, by norm_num⟩

/-- C55 fails without spectral parameters: the pair of dictionaries that such a
configuration dumps cannot be loaded. -/
theorem c55_no_spectral_negation (g : GlobalFitConfig) (h : Loadable g)
    (hs : ∀ e ∈ g.pars, e.2.isGlobal = true) (basic : Bool) (nm : PyStr) :
    ∃ dg ds, g.dump basic = .ok (dg, ds) ∧
      GlobalFitConfig.load dg (some ds) nm = .error .keyError := by
  obtain ⟨dg, ds, G, hG, hback, hd, h1, h2, h3, h4⟩ := global_reload g h basic nm
  have hempty : g.pars.filter (fun e => !e.2.isGlobal) = [] := by
    rw [List.filter_eq_nil_iff]; intro e he; simp [hs e he]
  rw [hempty, List.map_nil] at h2
  refine ⟨dg, ds, hd, ?_⟩
  unfold GlobalFitConfig.load
  rw [h1]
  simp only [h3, h2, bind, Except.bind]

/-- C55 fails for the ambiguous names: `resolution_ly` of a dimension that is an
ending of `resolution` is dumped under a name that cannot be loaded. -/
theorem c55_ambiguous_negation :
    ∃ dg ds, GlobalFitConfig.dump ⟨lit "mine", [(lit "n_resolution_ly",
        ⟨.resolution, exPar (lit "n_resolution_ly") (some (lit "n")), true⟩)]⟩ = .ok (dg, ds) ∧
      GlobalFitConfig.load dg none (lit "x") = .error .indexError := by
  have hr : pyRemove (lit "n_") (lit "n_resolution_ly") = lit "resolutioly" := by
    decide +kernel
  refine ⟨[(lit "global_fit_parameters", [(lit "n", [(lit "resolutioly",
    (exPar (lit "n_resolution_ly") (some (lit "n"))).toDict false)])])],
    [(lit "spectral_fit_parameters", [])], ?_, rfl⟩
  have hd : GlobalFitConfig.dumpPar false [] (exPar (lit "n_resolution_ly") (some (lit "n"))) =
      .ok [(lit "n", [(lit "resolutioly",
        (exPar (lit "n_resolution_ly") (some (lit "n"))).toDict false)])] := by
    have hc : pyContains (lit "n") (lit "n_resolution_ly") = true := by decide +kernel
    simp only [GlobalFitConfig.dumpPar, exPar, hc, if_true, List.cons_append, List.nil_append, hr]
    rfl
  simp only [GlobalFitConfig.dump, GlobalFitConfig.globalPars, GlobalFitConfig.spectraPars,
    List.filter_cons, List.filter_nil, if_true, List.map_cons, List.map_nil, List.foldlM_cons,
    List.foldlM_nil, hd, bind, Except.bind, pure, Except.pure]
  rfl

/-- C55 fails for a global parameter without a dimension: the dump raises
`TypeError`. -/
theorem c55_no_dimension_negation (g : GlobalFitConfig) (basic : Bool) (k : PyStr) (e : GEntry)
    (rest : Dict GEntry) (hg : g.pars = (k, e) :: rest) (hglob : e.isGlobal = true)
    (hd : e.par.dimension = none) : g.dump basic = .error .typeError := by
  have h : g.globalPars = (e.kind, e.par) ::
      (rest.filter (fun e => e.2.isGlobal)).map (fun e => (e.2.kind, e.2.par)) := by
    unfold GlobalFitConfig.globalPars
    rw [hg, List.filter_cons, if_pos hglob]
    rfl
  unfold GlobalFitConfig.dump
  rw [h, List.map_cons, List.foldlM_cons]
  simp only [GlobalFitConfig.dumpPar, hd, bind, Except.bind]

example : GlobalFitConfig.dump ⟨lit "mine", [(lit "x_scale",
    ⟨.scale, exPar (lit "x_scale") none, true⟩)]⟩ = .error .typeError :=
  c55_no_dimension_negation _ false _ _ [] rfl rfl rfl

/-! ## C57: adding spectral configurations -/

/-- C57, what a lookup finds in general: the parameter added last under that name,
renamed; otherwise what was there before. -/
theorem c57_lookup (g : GlobalFitConfig) (cs : List SpectraFitConfig) (n : PyStr) :
    (g.addAll cs).getPar n =
      match (allJoined cs).reverse.find? (fun e => e.1 = n) with
      | some e => .ok { e.2 with name := n }
      | none => g.getPar n := by
  rw [addAll_pars]
  unfold GlobalFitConfig.getPar
  dsimp only
  rw [assoc_foldl_dictSet Prod.fst rateEntry]
  cases h : (allJoined cs).reverse.find? (fun e => e.1 = n) with
  | none => rfl
  | some e =>
    have he : e.1 = n := by simpa using List.find?_some h
    simp only [rateEntry, he]

/-- C57 when no two joined names coincide and none coincides with a name already
there: every parameter of every spectrum is found under spectrum and parameter
name with its settings, the global parameters are the old ones, and the
spectral ones are the old ones followed by the new ones in order. Missing: names
that coincide (see `c57_collision_negation`). -/
theorem c57_kept_apart_partial (g : GlobalFitConfig) (cs : List SpectraFitConfig)
    (hnd : ((allJoined cs).map Prod.fst).Nodup)
    (hfresh : ∀ n ∈ (allJoined cs).map Prod.fst, n ∉ g.pars.map Prod.fst) :
    (∀ c ∈ cs, ∀ e ∈ c.config.pars,
      (g.addAll cs).getPar (joined c.spectraName e.1) =
        .ok { e.2 with name := joined c.spectraName e.1 }) ∧
    (∀ n p, g.getPar n = .ok p → (g.addAll cs).getPar n = .ok p) ∧
    (g.addAll cs).globalPars = g.globalPars ∧
    (g.addAll cs).spectraPars = g.spectraPars ++
      (allJoined cs).map (fun e => (.rate, { e.2 with name := e.1 })) := by
  have hp : (g.addAll cs).pars = g.pars ++ (allJoined cs).map (fun e => (e.1, rateEntry e)) := by
    rw [addAll_pars]
    exact foldl_dictSet_fresh Prod.fst rateEntry _ _ hnd hfresh
  have hold : ∀ n p, g.getPar n = .ok p → (g.addAll cs).getPar n = .ok p := by
    intro n p h
    have hn : n ∈ g.pars.map Prod.fst := by
      by_contra hn
      unfold GlobalFitConfig.getPar at h
      rw [assoc_eq_none.2 hn] at h
      cases h
    rw [c57_lookup, ← h]
    cases hf : (allJoined cs).reverse.find? (fun e => e.1 = n) with
    | none => rfl
    | some e =>
      have he : e.1 = n := by simpa using List.find?_some hf
      have hm : e ∈ allJoined cs := List.mem_reverse.1 (List.mem_of_find?_eq_some hf)
      exact absurd hn (hfresh n (he ▸ List.mem_map_of_mem hm))
  refine ⟨?_, hold, ?_, ?_⟩
  · intro c hc e he
    have hm : (joined c.spectraName e.1, e.2) ∈ allJoined cs :=
      List.mem_flatMap.2 ⟨c, hc, List.mem_map.2 ⟨e, he, rfl⟩⟩
    rw [c57_lookup]
    cases hf : (allJoined cs).reverse.find? (fun x => x.1 = joined c.spectraName e.1) with
    | none =>
      exact absurd (List.find?_eq_none.1 hf _ (List.mem_reverse.2 hm)) (by simp)
    | some x =>
      have hx : x.1 = joined c.spectraName e.1 := by simpa using List.find?_some hf
      have hxm : x ∈ allJoined cs := List.mem_reverse.1 (List.mem_of_find?_eq_some hf)
      have : x = (joined c.spectraName e.1, e.2) := List.inj_on_of_nodup_map hnd hxm hm hx
      rw [this]
  · unfold GlobalFitConfig.globalPars
    rw [hp, List.filter_append, (List.filter_eq_nil_iff (l := List.map _ (allJoined cs))).2,
      List.append_nil]
    intro x hx
    obtain ⟨e, -, rfl⟩ := List.mem_map.1 hx
    simp [rateEntry]
  · unfold GlobalFitConfig.spectraPars
    rw [hp, List.filter_append, (List.filter_eq_self (l := List.map _ (allJoined cs))).2,
      List.map_append, List.map_map]
    · rfl
    · intro x hx
      obtain ⟨e, -, rfl⟩ := List.mem_map.1 hx
      simp [rateEntry]

/-- C57: names cannot coincide when the spectra have different names and the
parameter names (like `rate`) have no underscore. -/
theorem c57_plain_parameters (cs : List SpectraFitConfig) (hs : (cs.map (·.spectraName)).Nodup)
    (hk : ∀ c ∈ cs, c.config.getPars.Nodup)
    (hp : ∀ c ∈ cs, ∀ k ∈ c.config.getPars, '_' ∉ k) : ((allJoined cs).map Prod.fst).Nodup :=
  nodup_allJoined hs hk (fun c hc c' hc' k hkm k' hkm' h =>
    joined_inj_par (hp c hc k hkm) (hp c' hc' k' hkm') h)

/-- C57: nor when the spectra have different names without underscore. -/
theorem c57_plain_spectra (cs : List SpectraFitConfig) (hs : (cs.map (·.spectraName)).Nodup)
    (hk : ∀ c ∈ cs, c.config.getPars.Nodup)
    (hp : ∀ c ∈ cs, '_' ∉ c.spectraName) : ((allJoined cs).map Prod.fst).Nodup :=
  nodup_allJoined hs hk (fun c hc c' hc' _ _ _ _ h =>
    joined_inj_spectrum (hp c hc) (hp c' hc') h)

/-- Two spectra with one rate each. -/
def exSpectra : List SpectraFitConfig :=
  [⟨⟨lit "c", [(lit "rate", exPar (lit "rate") none)]⟩, lit "Te130_2n"⟩,
   ⟨⟨lit "c", [(lit "rate", exPar (lit "rate") none)]⟩, lit "B8_Solar"⟩]

example : ((allJoined exSpectra).map Prod.fst).Nodup ∧
    ∀ n ∈ (allJoined exSpectra).map Prod.fst, n ∉ exGlobal.pars.map Prod.fst := by
  refine ⟨c57_plain_parameters exSpectra (by decide +kernel) ?_ ?_, by decide +kernel⟩
  · intro c hc
    simp only [exSpectra, List.mem_cons, List.not_mem_nil, or_false] at hc
    rcases hc with rfl | rfl <;> decide +kernel
  · intro c hc
    simp only [exSpectra, List.mem_cons, List.not_mem_nil, or_false] at hc
    rcases hc with rfl | rfl <;> decide +kernel

/-- C57 fails when joined names coincide: spectrum `a` with `b_rate` and spectrum
`a_b` with `rate` share one name; only the second parameter is left. A spectrum
`energy` with a parameter `scale` replaces the global energy scale. -/
theorem c57_collision_negation (p q : FitPar) :
    (GlobalFitConfig.addAll ⟨[], []⟩ [⟨⟨[], [(lit "b_rate", p)]⟩, lit "a"⟩,
      ⟨⟨[], [(lit "rate", q)]⟩, lit "a_b"⟩]).pars =
      [(lit "a_b_rate", ⟨.rate, { q with name := lit "a_b_rate" }, false⟩)] ∧
    (exGlobal.addAll [⟨⟨[], [(lit "scale", p)]⟩, lit "energy"⟩]).globalPars =
      exGlobal.globalPars.drop 1 := by
  constructor <;> rfl

/-- C57: the parameter objects are shared, so adding a configuration renames the
parameters inside it as well; it still lists them under the old names. Loading
what it dumps afterwards gives back the old names: that round trip (C55) does
not preserve the parameter names. -/
theorem c57_source_renamed (g : GlobalFitConfig) (c : SpectraFitConfig) :
    SameKeys (g.addSpectra c).2.config.pars c.config.pars ∧
    (g.addSpectra c).2.spectraName = c.spectraName ∧
    ∀ n p, c.config.getPar n = .ok p →
      (g.addSpectra c).2.config.getPar n = .ok { p with name := joined c.spectraName n } := by
  refine ⟨?_, rfl, ?_⟩
  · simp [SameKeys, GlobalFitConfig.addSpectra, List.map_map, Function.comp_def]
  · intro n p h
    unfold Config.getPar at h ⊢
    simp only [GlobalFitConfig.addSpectra]
    generalize c.config.pars = l at h
    induction l with
    | nil => cases h
    | cons e l ih =>
      rw [List.map_cons, assoc_cons]
      rw [assoc_cons] at h
      by_cases he : e.1 = n
      · rw [if_pos he] at h ⊢
        cases h
        simp [joined, he]
      · rw [if_neg he] at h ⊢
        exact ih h

/-- C57: adding the same configuration again changes nothing: the names are made
from the keys, not from the renamed parameters. -/
theorem c57_add_twice (g : GlobalFitConfig) (c : SpectraFitConfig)
    (hnd : c.config.getPars.Nodup) :
    ((g.addSpectra c).1.addSpectra (g.addSpectra c).2).1 = (g.addSpectra c).1 := by
  have hset : ∀ (l : Dict FitPar) (d : Dict GEntry),
      (∀ e ∈ l, assoc d e.1 = some (rateEntry e)) →
      l.foldl (fun d e => dictSet d e.1 (rateEntry e)) d = d := by
    intro l d h
    induction l with
    | nil => rfl
    | cons e l ih =>
      have : dictSet d e.1 (rateEntry e) = d := by
        have h1 := h e (by simp)
        clear h ih
        induction d with
        | nil => cases h1
        | cons x d ih =>
          rw [assoc_cons] at h1
          rw [dictSet]
          by_cases hx : x.1 = e.1
          · rw [if_pos hx] at h1 ⊢
            rw [← hx, ← Option.some.inj h1]
          · rw [if_neg hx] at h1 ⊢
            rw [ih h1]
      rw [List.foldl_cons, this]
      exact ih (fun x hx => h x (List.mem_cons_of_mem _ hx))
  have hsrc : (g.addSpectra c).2.config.pars.map
      (fun e => (joined (g.addSpectra c).2.spectraName e.1, e.2)) =
      c.config.pars.map (fun e => (joined c.spectraName e.1,
        { e.2 with name := joined c.spectraName e.1 })) := by
    simp only [GlobalFitConfig.addSpectra, List.map_map]
    rfl
  rw [addSpectra_pars _ (g.addSpectra c).2, hsrc, addSpectra_pars g c]
  dsimp only
  congr 1
  refine hset _ _ ?_
  intro x hx
  obtain ⟨e, he, rfl⟩ := List.mem_map.1 hx
  have hnd' : ((c.config.pars.map (fun e => (joined c.spectraName e.1, e.2))).map
      Prod.fst).Nodup := by
    rw [List.map_map]
    have : c.config.pars.map (Prod.fst ∘ fun e => (joined c.spectraName e.1, e.2)) =
        c.config.getPars.map (joined c.spectraName) := by
      rw [Config.getPars, List.map_map]; rfl
    rw [this]
    refine List.Nodup.map ?_ hnd
    intro a b hab
    have := List.append_cancel_left hab
    rw [List.cons.injEq] at this
    exact this.2
  rw [assoc_foldl_dictSet Prod.fst rateEntry]
  cases hf : ((c.config.pars.map (fun e => (joined c.spectraName e.1, e.2))).reverse).find?
      (fun x => x.1 = joined c.spectraName e.1) with
  | none =>
    have hm : (joined c.spectraName e.1, e.2) ∈
        c.config.pars.map (fun e => (joined c.spectraName e.1, e.2)) :=
      List.mem_map.2 ⟨e, he, rfl⟩
    exact absurd (List.find?_eq_none.1 hf _ (List.mem_reverse.2 hm)) (by simp)
  | some y =>
    have hy : y.1 = joined c.spectraName e.1 := by simpa using List.find?_some hf
    have hym := List.mem_reverse.1 (List.mem_of_find?_eq_some hf)
    have : y = (joined c.spectraName e.1, e.2) :=
      List.inj_on_of_nodup_map hnd' hym (List.mem_map.2 ⟨e, he, rfl⟩) hy
    rw [this]
    rfl

/-- C57: a type of parameter other than `global` and `spectra` is refused. -/
theorem c57_type (g : GlobalFitConfig) (k : ParKind) (p : FitPar) (t : PyStr) :
    (g.addPar k p t = .error .indexError ↔ t ≠ lit "global" ∧ t ≠ lit "spectra") ∧
    (∀ g', g.addPar k p t = .ok g' → g'.getPar p.name = .ok p ∧
      ∀ n, n ≠ p.name → g'.getPar n = g.getPar n) := by
  unfold GlobalFitConfig.addPar
  by_cases h : t ≠ lit "global" ∧ t ≠ lit "spectra"
  · simp [h]
  · rw [if_neg h]
    refine ⟨⟨fun h' => (by cases h'), fun h' => absurd h' h⟩, ?_⟩
    intro g' hg
    cases hg
    unfold GlobalFitConfig.getPar
    dsimp only
    refine ⟨by rw [assoc_dictSet, if_pos rfl], fun n hn => ?_⟩
    rw [assoc_dictSet, if_neg (fun h => hn h.symm)]

/-- C57: a parameter with a new name is listed last among the parameters of the type it is added
as, and not among those of the other type. -/
theorem c57_add_par (g : GlobalFitConfig) (k : ParKind) (p : FitPar)
    (hf : p.name ∉ g.pars.map Prod.fst) :
    (∃ g', g.addPar k p (lit "global") = .ok g' ∧ g'.name = g.name ∧
      g'.globalPars = g.globalPars ++ [(k, p)] ∧ g'.spectraPars = g.spectraPars) ∧
    (∃ g', g.addPar k p (lit "spectra") = .ok g' ∧ g'.name = g.name ∧
      g'.globalPars = g.globalPars ∧ g'.spectraPars = g.spectraPars ++ [(k, p)]) := by
  have hd : lit "spectra" ≠ lit "global" := by decide +kernel
  constructor
  · refine ⟨{ g with pars := dictSet g.pars p.name ⟨k, p, true⟩ },
      by unfold GlobalFitConfig.addPar; rw [if_neg (by simp), decide_eq_true rfl], rfl, ?_, ?_⟩
    · simp [GlobalFitConfig.globalPars, dictSet_fresh hf, List.filter_append]
    · simp [GlobalFitConfig.spectraPars, dictSet_fresh hf, List.filter_append]
  · refine ⟨{ g with pars := dictSet g.pars p.name ⟨k, p, false⟩ },
      by unfold GlobalFitConfig.addPar; rw [if_neg (by simp), decide_eq_false hd], rfl, ?_, ?_⟩
    · simp [GlobalFitConfig.globalPars, dictSet_fresh hf, List.filter_append]
    · simp [GlobalFitConfig.spectraPars, dictSet_fresh hf, List.filter_append]

example : lit "energy_other" ∉ exGlobal.pars.map Prod.fst := by decide +kernel

/-- C57: adding a global configuration with other names appends its parameters to those of the same
type. -/
theorem c57_add_global (g c : GlobalFitConfig)
    (hnd : ((c.globalPars ++ c.spectraPars).map (fun e => e.2.name)).Nodup)
    (hf : ∀ n ∈ (c.globalPars ++ c.spectraPars).map (fun e => e.2.name),
      n ∉ g.pars.map Prod.fst) :
    (g.addGlobal c).globalPars = g.globalPars ++ c.globalPars ∧
    (g.addGlobal c).spectraPars = g.spectraPars ++ c.spectraPars ∧
    (g.addGlobal c).name = g.name ∧
    (∀ n p, g.getPar n = .ok p → (g.addGlobal c).getPar n = .ok p) ∧
    ∀ e ∈ c.globalPars ++ c.spectraPars, (g.addGlobal c).getPar e.2.name = .ok e.2 := by
  have hrec : ∀ (b : Bool) (l : List (ParKind × FitPar)) (g : GlobalFitConfig),
      l.foldl (fun (g : GlobalFitConfig) e =>
        { g with pars := dictSet g.pars e.2.name ⟨e.1, e.2, b⟩ }) g =
      { g with pars := l.foldl (fun d e => dictSet d e.2.name ⟨e.1, e.2, b⟩) g.pars } := by
    intro b l
    induction l with
    | nil => intro g; rfl
    | cons e l ih => intro g; rw [List.foldl_cons, ih, List.foldl_cons]
  rw [List.map_append, List.nodup_append] at hnd
  obtain ⟨n1, n2, n3⟩ := hnd
  have hp : g.addGlobal c = ⟨g.name, g.pars ++
      c.globalPars.map (fun e => (e.2.name, (⟨e.1, e.2, true⟩ : GEntry))) ++
      c.spectraPars.map (fun e => (e.2.name, (⟨e.1, e.2, false⟩ : GEntry)))⟩ := by
    unfold GlobalFitConfig.addGlobal
    rw [hrec, hrec]
    dsimp only
    congr 1
    rw [foldl_dictSet_fresh (fun e : ParKind × FitPar => e.2.name)
        (fun e => (⟨e.1, e.2, true⟩ : GEntry)) _ _ n1
        (fun k hk => hf k (by rw [List.map_append]; exact List.mem_append_left _ hk)),
      foldl_dictSet_fresh (fun e : ParKind × FitPar => e.2.name)
        (fun e => (⟨e.1, e.2, false⟩ : GEntry)) _ _ n2]
    intro k hk
    rw [List.map_append, List.mem_append, not_or]
    refine ⟨hf k (by rw [List.map_append]; exact List.mem_append_right _ hk), fun h => ?_⟩
    rw [List.map_map] at h
    exact n3 k h k hk rfl
  have ht : ∀ l : List (ParKind × FitPar), ∀ b : Bool,
      (l.map (fun e => ((e.2.name, (⟨e.1, e.2, b⟩ : GEntry)) : PyStr × GEntry))).filter
        (fun e => e.2.isGlobal) = if b then
          l.map (fun e => ((e.2.name, (⟨e.1, e.2, b⟩ : GEntry)) : PyStr × GEntry)) else [] := by
    intro l b
    induction l with
    | nil => cases b <;> rfl
    | cons e l ih =>
      rw [List.map_cons, List.filter_cons, ih]
      cases b <;> rfl
  have ht' : ∀ l : List (ParKind × FitPar), ∀ b : Bool,
      (l.map (fun e => ((e.2.name, (⟨e.1, e.2, b⟩ : GEntry)) : PyStr × GEntry))).filter
        (fun e => !e.2.isGlobal) = if b then [] else
          l.map (fun e => ((e.2.name, (⟨e.1, e.2, b⟩ : GEntry)) : PyStr × GEntry)) := by
    intro l b
    induction l with
    | nil => cases b <;> rfl
    | cons e l ih =>
      rw [List.map_cons, List.filter_cons, ih]
      cases b <;> rfl
  refine ⟨?_, ?_, by rw [hp], ?_, ?_⟩
  · rw [hp]
    unfold GlobalFitConfig.globalPars
    dsimp only
    rw [List.filter_append, List.filter_append, List.map_append, List.map_append]
    rw [ht, ht]
    simp [List.map_map, Function.comp_def]
  · rw [hp]
    unfold GlobalFitConfig.spectraPars
    dsimp only
    rw [List.filter_append, List.filter_append, List.map_append, List.map_append, ht', ht']
    simp [List.map_map, Function.comp_def]
  · intro n p h
    rw [hp]
    unfold GlobalFitConfig.getPar at h ⊢
    dsimp only
    rw [List.append_assoc]
    cases ha : assoc g.pars n with
    | none => rw [ha] at h; cases h
    | some e =>
      rw [ha] at h
      have : assoc (g.pars ++ (c.globalPars.map (fun e => (e.2.name, (⟨e.1, e.2, true⟩ : GEntry))) ++
          c.spectraPars.map (fun e => (e.2.name, (⟨e.1, e.2, false⟩ : GEntry))))) n = some e := by
        unfold assoc at ha ⊢
        rw [List.find?_append]
        cases hf' : g.pars.find? (fun e => e.1 = n) with
        | none => rw [hf'] at ha; cases ha
        | some x => rw [hf'] at ha; exact ha
      rw [this]
      exact h
  · intro e he
    rw [hp]
    unfold GlobalFitConfig.getPar
    dsimp only
    have hn := hf e.2.name (List.mem_map.2 ⟨e, he, rfl⟩)
    have hmem : ∃ b, (e.2.name, (⟨e.1, e.2, b⟩ : GEntry)) ∈
        c.globalPars.map (fun e => (e.2.name, (⟨e.1, e.2, true⟩ : GEntry))) ++
        c.spectraPars.map (fun e => (e.2.name, (⟨e.1, e.2, false⟩ : GEntry))) := by
      rcases List.mem_append.1 he with h | h
      · exact ⟨true, List.mem_append_left _ (List.mem_map.2 ⟨e, h, rfl⟩)⟩
      · exact ⟨false, List.mem_append_right _ (List.mem_map.2 ⟨e, h, rfl⟩)⟩
    obtain ⟨b, hb⟩ := hmem
    have hnd' : ((c.globalPars.map (fun e => (e.2.name, (⟨e.1, e.2, true⟩ : GEntry))) ++
        c.spectraPars.map (fun e => (e.2.name, (⟨e.1, e.2, false⟩ : GEntry)))).map
        Prod.fst).Nodup := by
      rw [List.map_append, List.map_map, List.map_map]
      exact List.nodup_append.2 ⟨n1, n2, n3⟩
    have hv := assoc_of_mem hnd' hb
    have h0 := assoc_eq_none.2 hn
    rw [List.append_assoc]
    unfold assoc at hv h0 ⊢
    rw [List.find?_append]
    cases hg : g.pars.find? (fun x => x.1 = e.2.name) with
    | some x => rw [hg] at h0; cases h0
    | none => rw [Option.none_or, hv]

example : let c : GlobalFitConfig := ⟨lit "other", [(lit "b", ⟨.rate, exPar (lit "b") none, false⟩)]⟩
    ((c.globalPars ++ c.spectraPars).map (fun e => e.2.name)).Nodup ∧
    ∀ n ∈ (c.globalPars ++ c.spectraPars).map (fun e => e.2.name),
      n ∉ exGlobal.pars.map Prod.fst := by
  decide +kernel

/-! ## C81: names of loaded configurations -/

/-- C81: spectral and spectral fit configurations get the name asked for. -/
theorem c81_spectral_name (d : Dict (Dict AxisDict)) (d' : Dict (Dict ParDict)) (sn name : PyStr) :
    (∀ c, SpectraConfig.load d name = .ok c → c.name = name) ∧
    (∀ c, SpectraFitConfig.load d' sn name = .ok c →
      c.config.name = name ∧ c.spectraName = sn) := by
  constructor
  · intro c h
    unfold SpectraConfig.load at h
    split at h
    · cases h
    · cases h
    · cases h; rfl
  · intro c h
    unfold SpectraFitConfig.load at h
    split at h
    · cases h
    · cases h
    · next l _ hl =>
      simp only [bind, Except.bind, pure, Except.pure] at h
      cases hf : l.foldlM SpectraFitConfig.loadPar [] with
      | error e => rw [hf] at h; cases h
      | ok ps => rw [hf] at h; cases h; exact ⟨rfl, rfl⟩

/-- C81: a global fit configuration gets the name asked for if it has no global
parameters. Missing: the usual case (see `c81_global_name_negation`). -/
theorem c81_global_name_partial (ds : Option (Dict (Dict ParDict))) (name : PyStr)
    (g : GlobalFitConfig)
    (h : GlobalFitConfig.load [(lit "global_fit_parameters", [])] ds name = .ok g) :
    g.name = name := by
  unfold GlobalFitConfig.load at h
  rw [assoc_cons, if_pos rfl] at h
  simp only [List.foldlM_nil, bind, Except.bind, pure, Except.pure] at h
  cases ds with
  | none => cases h; rfl
  | some sc =>
    dsimp only at h
    split at h
    · cases h
    · cases h
    · next l _ hl =>
      cases hf : l.foldlM GlobalFitConfig.loadRate [] with
      | error e => rw [hf] at h; cases h
      | ok ps => rw [hf] at h; cases h; rfl

/-- C81 fails for global fit configurations: with any global parameter the name
asked for is lost, the configuration is called like its last global parameter
(in the order of the dumped file). -/
theorem c81_global_name_negation (g : GlobalFitConfig) (h : Loadable g)
    (hg : ∃ e ∈ g.pars, e.2.isGlobal = true) (basic : Bool) (nm : PyStr) :
    ∃ dg ds g', g.dump basic = .ok (dg, ds) ∧ GlobalFitConfig.load dg none nm = .ok g' ∧
      ∃ e ∈ g.pars, e.2.isGlobal = true ∧ g'.name = e.1 ∧
        (groupBy dimOf (g.pars.filter (fun e => e.2.isGlobal))).getLast? = some e := by
  obtain ⟨dg, ds, G, hG, hback, hd, h1, h2, h3, h4⟩ := global_reload g h basic nm
  rw [items_grouped hG hback] at h3
  refine ⟨dg, ds, ⟨((groupBy dimOf (g.pars.filter (fun e => e.2.isGlobal))).map Prod.fst).getLastD nm,
      (groupBy Item.dim G).map
        (fun it => (it.par.name, ⟨it.kind, reload basic it.par, true⟩))⟩, hd, ?_, ?_⟩
  · unfold GlobalFitConfig.load
    rw [h1]
    simp only [h3, bind, Except.bind, pure, Except.pure]
  · obtain ⟨e, he, heg⟩ := hg
    have hne : groupBy dimOf (g.pars.filter (fun e => e.2.isGlobal)) ≠ [] := by
      intro hn
      have hm : e ∈ groupBy dimOf (g.pars.filter (fun e => e.2.isGlobal)) :=
        (mem_groupBy dimOf).2 (List.mem_filter.2 ⟨he, heg⟩)
      rw [hn] at hm
      cases hm
    have hl := List.getLast?_eq_some_getLast hne
    have hm := (mem_groupBy dimOf).1 (List.getLast_mem hne)
    refine ⟨_, (List.mem_filter.1 hm).1, (List.mem_filter.1 hm).2, ?_, hl⟩
    dsimp only
    rw [List.getLastD_eq_getLast?, List.getLast?_map, hl]
    rfl

example : ∃ e ∈ exGlobal.pars, e.2.isGlobal = true ∧ e.1 ≠ lit "x" :=
  ⟨_, List.mem_cons_self, rfl, by decide +kernel⟩

/-- C81: a non-blank name given to `load_from_file` is used; without one the
default is. Missing: the blank name. -/
theorem c81_file_name_partial (filename n : PyStr) (h : n ≠ []) :
    loadName filename (some n) = some n ∧ loadName filename none = none := by
  simp [loadName, h]

/-- C81 fails for the blank name: the documented file name is never used. -/
theorem c81_blank_name_negation (filename : PyStr) : loadName filename (some []) = none := by
  simp [loadName]

/-! ## C82: files of dumped configurations -/

section c82
variable {Doc : Type} (encG : Dict (Dict (Dict ParDict)) → Doc) (encS : Dict (Dict ParDict) → Doc)

/-- C82: with different file names for the two parts, both dictionaries can be read
back and all other files are untouched. Missing: equal names. -/
theorem c82_files_partial (g : GlobalFitConfig) (fs fs' : Dict Doc) (path : PyStr)
    (gf sf : Option PyStr) (basic : Bool)
    (hne : dumpName (lit "global_fit_config") g.name gf ≠
      dumpName (lit "spectral_fit_config") g.name sf)
    (h : g.dumpToFile encG encS fs path gf sf basic = .ok fs') :
    ∃ dg ds, g.dump basic = .ok (dg, ds) ∧
      assoc fs' (path ++ dumpName (lit "global_fit_config") g.name gf) = some (encG dg) ∧
      assoc fs' (path ++ dumpName (lit "spectral_fit_config") g.name sf) = some (encS ds) ∧
      ∀ f, f ≠ path ++ dumpName (lit "global_fit_config") g.name gf →
        f ≠ path ++ dumpName (lit "spectral_fit_config") g.name sf → assoc fs' f = assoc fs f := by
  unfold GlobalFitConfig.dumpToFile at h
  cases hd : g.dump basic with
  | error e => rw [hd] at h; cases h
  | ok d =>
    rw [hd] at h
    cases h
    refine ⟨d.1, d.2, rfl, ?_, ?_, ?_⟩
    · rw [assoc_dictSet, if_neg (fun he => hne (List.append_cancel_left he).symm), assoc_dictSet,
        if_pos rfl]
    · rw [assoc_dictSet, if_pos rfl]
    · intro f h1 h2
      rw [assoc_dictSet, if_neg (fun he => h2 he.symm), assoc_dictSet,
        if_neg (fun he => h1 he.symm)]

/-- C82: the default names differ. -/
theorem c82_default_names (n : PyStr) :
    dumpName (lit "global_fit_config") n none = lit "global_fit_config.yml" ∧
    dumpName (lit "spectral_fit_config") n none = lit "spectral_fit_config.yml" := by
  have h1 : pyContains (lit ".yml") (lit "global_fit_config") = false := by decide +kernel
  have h2 : pyContains (lit ".yml") (lit "spectral_fit_config") = false := by decide +kernel
  constructor
  · simp only [dumpName, h1, Bool.false_eq_true, if_false]; rfl
  · simp only [dumpName, h2, Bool.false_eq_true, if_false]; rfl

/-- C82: a name that is given with the extension is used as it is, without extension it is
appended; a blank name stands for the name of the configuration. -/
theorem c82_given_names (d n f : PyStr) (hf : f ≠ []) :
    (lit ".yml" <:+: f → dumpName d n (some f) = f ∧ dumpName d f (some []) = f) ∧
    (¬ lit ".yml" <:+: f → dumpName d n (some f) = f ++ lit ".yml" ∧
      dumpName d f (some []) = f ++ lit ".yml") := by
  constructor
  · intro h
    have hc : pyContains (lit ".yml") f = true := by rw [pyContains, decide_eq_true_eq]; exact h
    simp only [dumpName, if_neg hf, hc, if_true, and_self]
  · intro h
    have hc : pyContains (lit ".yml") f = false := by rw [pyContains, decide_eq_false_iff_not]; exact h
    simp only [dumpName, if_neg hf, hc, if_true, Bool.false_eq_true, if_false, and_self]

example : lit ".yml" <:+: lit "mine.yml" ∧ ¬ lit ".yml" <:+: lit "mine" := by decide +kernel

/-- C82 fails for two blank names: contrary to the documentation there is no
suffix, both parts go to one file, and only the spectral part is left. -/
theorem c82_blank_negation (g : GlobalFitConfig) (fs fs' : Dict Doc) (path : PyStr) (basic : Bool)
    (h : g.dumpToFile encG encS fs path (some []) (some []) basic = .ok fs') :
    ∃ dg ds, g.dump basic = .ok (dg, ds) ∧
      dumpName (lit "global_fit_config") g.name (some []) =
        dumpName (lit "spectral_fit_config") g.name (some []) ∧
      assoc fs' (path ++ dumpName (lit "global_fit_config") g.name (some [])) = some (encS ds) ∧
      ∀ f, f ≠ path ++ dumpName (lit "global_fit_config") g.name (some []) →
        assoc fs' f = assoc fs f := by
  unfold GlobalFitConfig.dumpToFile at h
  cases hd : g.dump basic with
  | error e => rw [hd] at h; cases h
  | ok d =>
    rw [hd] at h
    cases h
    refine ⟨d.1, d.2, rfl, rfl, ?_, ?_⟩
    · rw [assoc_dictSet]; exact if_pos rfl
    · intro f h1
      have h2 : path ++ dumpName (lit "global_fit_config") g.name (some []) ≠ f := fun he => h1 he.symm
      rw [assoc_dictSet, assoc_dictSet, if_neg h2]
      exact if_neg h2

end c82

example : dumpName (lit "global_fit_config") (lit "mine") (some (lit "a")) ≠
    dumpName (lit "spectral_fit_config") (lit "mine") (some (lit "b.yml")) := by decide +kernel

end Verif
