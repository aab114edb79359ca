import Verif.Props.Store

/-! Lemmas on saving and loading results. -/

namespace Verif

theorem forall₂_of_lookup {α : Type} {R : PyStr × α → PyStr × α → Prop} {d d' : Dict α}
    (hk : SameKeys d' d) (hnd : (d.map Prod.fst).Nodup)
    (h : ∀ k e, assoc d k = some e → ∃ e', assoc d' k = some e' ∧ R (k, e) (k, e')) :
    List.Forall₂ R d d' := by
  have hl : d'.length = d.length := by
    have := congrArg List.length hk
    simpa using this
  rw [List.forall₂_iff_get]
  refine ⟨hl.symm, fun i hi hi' => ?_⟩
  have hki : (d'[i]).1 = (d[i]).1 := by
    have h1 : (d'.map Prod.fst)[i]? = (d.map Prod.fst)[i]? := by rw [hk]
    rw [List.getElem?_map, List.getElem?_map, List.getElem?_eq_getElem hi,
      List.getElem?_eq_getElem hi'] at h1
    simpa using h1
  have ha : assoc d (d[i]).1 = some (d[i]).2 := assoc_of_mem hnd (List.getElem_mem hi)
  have hnd' : (d'.map Prod.fst).Nodup := by rw [hk]; exact hnd
  have ha' : assoc d' (d'[i]).1 = some (d'[i]).2 := assoc_of_mem hnd' (List.getElem_mem hi')
  obtain ⟨e', he', hR⟩ := h _ _ ha
  rw [← hki, ha'] at he'
  cases he'
  show R d[i] d'[i]
  have e1 : d[i] = ((d[i]).1, (d[i]).2) := rfl
  have e2 : d'[i] = ((d[i]).1, (d'[i]).2) := by rw [← hki]
  rw [e1, e2]
  exact hR

theorem samePars_shape {g g' : GlobalFitConfig} (h : SamePars g g') : g'.shape = g.shape := by
  unfold SamePars at h
  unfold GlobalFitConfig.shape
  generalize g.pars = l at h ⊢
  generalize g'.pars = l' at h ⊢
  induction h with
  | nil => rfl
  | cons h _ ih =>
    rw [List.map_cons, List.map_cons, ih, h.2.2.2.1.bins]

theorem samePars_length {g g' : GlobalFitConfig} (h : SamePars g g') :
    g'.pars.length = g.pars.length := (List.Forall₂.length_eq h).symm

theorem sameBest_of_forall₂ {g g' : GlobalFitConfig}
    (h : List.Forall₂ (fun e e' : PyStr × GEntry => e'.2.par.bestFit = e.2.par.bestFit)
      g.pars g'.pars) : SameBest g g' := by
  unfold SameBest
  generalize g.pars = l at h ⊢
  generalize g'.pars = l' at h ⊢
  induction h with
  | nil => rfl
  | cons h _ ih => rw [List.map_cons, List.map_cons, h, ih]

theorem groupBy_fileOrder {g : GlobalFitConfig} {glob spec : Dict GEntry}
    (hpars : g.pars = glob ++ spec) (hg : ∀ e ∈ glob, e.2.isGlobal = true)
    (hsp : ∀ e ∈ spec, e.2.isGlobal = false) (hc : Contiguous dimOf glob) :
    (groupBy dimOf (g.pars.filter (fun e => e.2.isGlobal))).map Prod.fst ++
      (g.pars.filter (fun e => !e.2.isGlobal)).map Prod.fst = g.pars.map Prod.fst := by
  have hf1 : g.pars.filter (fun e => e.2.isGlobal) = glob := by
    rw [hpars, List.filter_append, List.filter_eq_self.2 hg, List.filter_eq_nil_iff.2,
      List.append_nil]
    intro x hx
    simp [hsp x hx]
  have hf2 : g.pars.filter (fun e => !e.2.isGlobal) = spec := by
    rw [hpars, List.filter_append, List.filter_eq_nil_iff.2, List.filter_eq_self.2,
      List.nil_append]
    · intro x hx; simp [hsp x hx]
    · intro x hx; simp [hg x hx]
  rw [hf1, hf2, groupBy_contiguous hc, hpars, List.map_append]

/-- A configuration in file order, with spectral parameters. -/
theorem reload_with_spectral {g : GlobalFitConfig} (h : Loadable g) (ho : FileOrder g)
    (hs : ∃ e ∈ g.pars, e.2.isGlobal = false) (nm : PyStr) :
    ∃ dg ds g', g.dump = .ok (dg, ds) ∧ GlobalFitConfig.load dg (some ds) nm = .ok g' ∧
      SamePars g g' ∧ SameBest g g' := by
  obtain ⟨glob, spec, hpars, hg, hsp, hc⟩ := ho
  obtain ⟨dg, ds, g', h1, h2, h3, h4⟩ := c55_global_round_trip_partial g h hs false nm
  rw [groupBy_fileOrder hpars hg hsp hc] at h3
  refine ⟨dg, ds, g', h1, h2, ?_, sameBest_of_forall₂ ?_⟩
  · refine forall₂_of_lookup h3 h.distinct (fun k e he => ?_)
    obtain ⟨e', he', a, b, c, d⟩ := h4 k e he
    exact ⟨e', he', rfl, a, b, c, (d rfl).1⟩
  · refine forall₂_of_lookup h3 h.distinct (fun k e he => ?_)
    obtain ⟨e', he', a, b, c, d⟩ := h4 k e he
    exact ⟨e', he', (d rfl).2⟩

/-- A configuration in file order, without spectral parameters. -/
theorem reload_without_spectral {g : GlobalFitConfig} (h : Loadable g) (ho : FileOrder g)
    (hs : ∀ e ∈ g.pars, e.2.isGlobal = true) (nm : PyStr) :
    ∃ dg ds g', g.dump = .ok (dg, ds) ∧ GlobalFitConfig.load dg none nm = .ok g' ∧
      SamePars g g' ∧ SameBest g g' := by
  obtain ⟨glob, spec, hpars, hg, hsp, hc⟩ := ho
  have hspec : spec = [] := by
    cases spec with
    | nil => rfl
    | cons e l =>
      have h1 := hs e (by rw [hpars]; simp)
      rw [hsp e List.mem_cons_self] at h1
      cases h1
  rw [hspec, List.append_nil] at hpars
  obtain ⟨dg, ds, g', h1, h2, h3, h4⟩ := c55_global_only_partial g h hs false nm
  rw [hpars, groupBy_contiguous hc, ← hpars] at h3
  refine ⟨dg, ds, g', h1, h2, ?_, sameBest_of_forall₂ ?_⟩
  · refine forall₂_of_lookup h3 h.distinct (fun k e he => ?_)
    obtain ⟨e', he', a, b, c, d⟩ := h4 k e he
    exact ⟨e', he', rfl, a, b, c, (d rfl).1⟩
  · refine forall₂_of_lookup h3 h.distinct (fun k e he => ?_)
    obtain ⟨e', he', a, b, c, d⟩ := h4 k e he
    exact ⟨e', he', (d rfl).2⟩

theorem dump_spectral_nil {g : GlobalFitConfig} (hs : ∀ e ∈ g.pars, e.2.isGlobal = true)
    {basic : Bool} {dg : Dict (Dict (Dict ParDict))} {ds : Dict (Dict ParDict)}
    (h : g.dump basic = .ok (dg, ds)) : ds = [(lit "spectral_fit_parameters", [])] := by
  have hempty : g.spectraPars = [] := by
    unfold GlobalFitConfig.spectraPars
    rw [List.filter_eq_nil_iff.2, List.map_nil]
    intro e he
    simp [hs e he]
  unfold GlobalFitConfig.dump at h
  rw [hempty] at h
  cases hf : (g.globalPars.map Prod.snd).foldlM (GlobalFitConfig.dumpPar basic) [] with
  | error e => rw [hf] at h; cases h
  | ok glob =>
    rw [hf] at h
    cases h
    rfl

/-- The fit configuration of limit results. -/
theorem reload_limit {g : GlobalFitConfig} (h : Loadable g) (ho : FileOrder g) :
    ∃ d g', g.dump = .ok d ∧ SamePars g g' ∧ SameBest g g' ∧
      ∀ l : LimitGroup, l.fitConfig = d → l.fitConfigName = g.name →
        loadLimitFitConfig l = .ok g' := by
  by_cases hs : ∃ e ∈ g.pars, e.2.isGlobal = false
  · obtain ⟨dg, ds, g', h1, h2, h3, h4⟩ := reload_with_spectral h ho hs g.name
    refine ⟨(dg, ds), g', h1, h3, h4, fun l hl hn => ?_⟩
    unfold loadLimitFitConfig
    rw [hl, hn]
    dsimp only
    have h2' := h2
    unfold GlobalFitConfig.load at h2'
    split at h2'
    · cases h2'
    · rename_i d hd
      cases hst : d.foldlM GlobalFitConfig.loadDim (g.name, []) with
      | error e =>
        rw [hst] at h2'
        cases h2'
      | ok st =>
        rw [hst] at h2'
        cases hds : assoc ds (lit "spectral_fit_parameters") with
        | none =>
          simp only [hds, bind, Except.bind] at h2'
          cases h2'
        | some l' =>
          cases l' with
          | nil =>
            simp only [hds, bind, Except.bind] at h2'
            cases h2'
          | cons a l' => exact h2
  · have hs' : ∀ e ∈ g.pars, e.2.isGlobal = true := by
      intro e he
      cases hb : e.2.isGlobal with
      | true => rfl
      | false => exact absurd ⟨e, he, hb⟩ hs
    obtain ⟨dg, ds, g', h1, h2, h3, h4⟩ := reload_without_spectral h ho hs' g.name
    refine ⟨(dg, ds), g', h1, h3, h4, fun l hl hn => ?_⟩
    unfold loadLimitFitConfig
    rw [hl, hn]
    dsimp only
    rw [dump_spectral_nil hs' h1, assoc_cons, if_pos rfl]
    exact h2

/-- Reloading a fit configuration with the name of its spectrum. -/
theorem reload_rate {c : SpectraFitConfig} (h : RateConfig c.spectraName c) :
    ∃ d c', c.dump = .ok d ∧ SpectraFitConfig.load d c.spectraName c.config.name = .ok c' ∧
      SameFit (some c) (some c') := by
  obtain ⟨d, c', hd, hl, e1, e2, e3, e4⟩ := c55_spectral_round_trip_partial c false c.spectraName
    c.config.name h.filled h.distinct h.names h.rates
  refine ⟨d, c', hd, hl, e1, e2, e3, fun n p hp => ?_⟩
  obtain ⟨p', hp', hset, hcur⟩ := e4 n p hp
  exact ⟨p', hp', hset, hcur rfl⟩

/-! ### the loop over the fit results -/

theorem setBestFits_ok {best : NdArray ℝ} {n i : ℕ} {g orig : GlobalFitConfig}
    (hb : best.shape = [n, orig.pars.length]) (hi : i < n) (h : SamePars orig g) :
    ∃ g', setBestFits best i g = .ok g' ∧ SamePars orig g' ∧
      ∀ j e, g'.pars[j]? = some e → e.2.par.bestFit = some (best.get [i, j]) := by
  have hlen := samePars_length h
  have hin : ∀ j < g.pars.length, InB best.shape [i, j] := by
    intro j hj
    rw [hb]
    exact .cons hi (.cons (by omega) .nil)
  refine ⟨{ g with pars := g.pars.mapIdx (fun j e =>
      (e.1, { e.2 with par := { e.2.par with bestFit := some (best.get [i, j]) } })) }, ?_, ?_, ?_⟩
  · unfold setBestFits
    rw [if_pos hin]
  · unfold SamePars at h ⊢
    rw [List.forall₂_iff_get] at h ⊢
    refine ⟨by simpa using h.1, fun j hj hj' => ?_⟩
    obtain ⟨a, b, c, d, e⟩ := h.2 j hj (by simpa using hj')
    simp only [List.get_eq_getElem, List.getElem_mapIdx] at a b c d e ⊢
    exact ⟨a, b, c, ⟨d.name, d.prior, d.sigma, d.low, d.high, d.bins, d.dimension, d.logscale,
      d.base, d.logDev⟩, e⟩
  · intro j e he
    dsimp only at he
    rw [List.getElem?_mapIdx] at he
    cases hg : g.pars[j]? with
    | none => rw [hg] at he; cases he
    | some e' =>
      rw [hg] at he
      cases he
      rfl

theorem loadSubs_ok {g : LimitGroup} {r : FullLimit} {n : ℕ} (hr : LimitOk r n)
    {fc : GlobalFitConfig} (hfc : SamePars r.fitConfig fc)
    (hsubs : g.subs = r.fitResults.map (Option.map
      (fun s => (⟨s.penaltyTerms, s.stats, s.resets⟩ : SubGroup)))) (m : ℕ) (hm : m ≤ n)
    {best : NdArray ℝ} (hbs : best.shape = [n, r.fitConfig.pars.length])
    (hbv : ∀ idx, InB best.shape idx → best.get idx = r.bestFits.get idx) :
    ∃ st, (List.range m).foldlM (loadSub g r.spectraConfig best n)
        (fc, List.replicate n none) = .ok st ∧ SamePars r.fitConfig st.1 ∧ st.2.length = n ∧
      (∀ i s, i < m → r.fitResults[i]? = some s → ∃ s', st.2[i]? = some s' ∧ SameResult r i s s') ∧
      (∀ i, m ≤ i → i < n → st.2[i]? = some none) := by
  induction m with
  | zero =>
    refine ⟨_, rfl, hfc, by simp, by simp, fun i _ hi => ?_⟩
    simp [hi]
  | succ m ih =>
    obtain ⟨st, h1, h2, h3, h4, h5⟩ := ih (by omega)
    have hlen := hr.fits
    have hmn : m < n := hm
    obtain ⟨s, hs⟩ : ∃ s, r.fitResults[m]? = some s := ⟨_, List.getElem?_eq_getElem (by omega)⟩
    have hsub : g.subs[m]? = some (s.map
        (fun s => (⟨s.penaltyTerms, s.stats, s.resets⟩ : SubGroup))) := by
      rw [hsubs, List.getElem?_map, hs]
      rfl
    rw [List.range_succ, List.foldlM_append, h1]
    simp only [bind, Except.bind, List.foldlM_cons, List.foldlM_nil]
    cases s with
    | none =>
      refine ⟨st, ?_, h2, h3, ?_, fun i hi hin => h5 i (by omega) hin⟩
      · unfold loadSub
        rw [hsub]
        rfl
      · intro i s hi hs'
        by_cases him : i = m
        · subst him
          rw [hs] at hs'
          cases hs'
          exact ⟨none, h5 i le_rfl hmn, trivial⟩
        · exact h4 i s (by omega) hs'
    | some s =>
      obtain ⟨fc', hf1, hf2, hf3⟩ := setBestFits_ok hbs hmn h2
      refine ⟨(fc', st.2.set m (some
          { name := some g.fitConfigName, fitConfig := fc', spectraConfig := r.spectraConfig
            perBin := false, stats := s.stats, penaltyTerms := s.penaltyTerms
            resets := s.resets })), ?_, hf2, by simpa using h3, ?_, ?_⟩
      · unfold loadSub
        rw [hsub]
        simp only [Option.map_some, hf1, if_pos hmn]
        rfl
      · intro i s' hi hs'
        by_cases him : i = m
        · subst him
          rw [hs] at hs'
          cases hs'
          refine ⟨_, List.getElem?_set_self (by omega), rfl, rfl, rfl, rfl, hf2, fun j e he => ?_⟩
          rw [hf3 j e he, hbv]
          have hj : j < fc'.pars.length := by
            by_contra hc
            rw [List.getElem?_eq_none (by dsimp only; omega)] at he
            cases he
          rw [samePars_length hf2] at hj
          rw [hbs]
          exact .cons hmn (.cons hj .nil)
        · obtain ⟨t, ht, hst⟩ := h4 i s' (by omega) hs'
          refine ⟨t, ?_, hst⟩
          rw [List.getElem?_set_ne (fun h => him h.symm)]
          exact ht
      · intro i hi hin
        rw [List.getElem?_set_ne (by omega)]
        exact h5 i (by omega) hin

end Verif
