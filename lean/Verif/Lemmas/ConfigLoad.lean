import Verif.Lemmas.Config

/-! Helper lemmas: dumping and loading fit configurations. -/

namespace Verif

/-- What `load` makes of a dumped parameter. -/
def reload (basic : Bool) (p : FitPar) : FitPar :=
  { p with
    values := none
    current := if basic then none else p.current
    bestFit := if basic then none else p.bestFit
    penaltyTerm := if basic then none else p.bestFit }

theorem ofDict_toDict {p : FitPar} (h : Built p) (basic : Bool) :
    FitPar.ofDict p.name p.dimension (p.toDict basic) = .ok (reload basic p) := by
  unfold FitPar.ofDict
  rcases h with ⟨h1, h2, h3⟩ | ⟨h1, ⟨b, h2⟩, h3⟩
  · rw [if_neg (by simp [FitPar.toDict, h1])]
    rcases h3 with h3 | h3 <;> simp [FitPar.new, FitPar.toDict, reload, h1, h2, h3]
  · rw [if_neg (by simp [FitPar.toDict, h2])]
    simp [FitPar.new, FitPar.toDict, reload, h1, h2, h3]

theorem sameSettings_reload (basic : Bool) (p : FitPar) : SameSettings p (reload basic p) :=
  ⟨rfl, rfl, rfl, rfl, rfl, rfl, rfl, rfl, rfl, rfl⟩

/-- A global parameter taken apart. -/
structure Item where
  dim : PyStr
  syst : PyStr
  kind : ParKind
  par : FitPar

structure Item.Good (it : Item) : Prop where
  dimension : it.par.dimension = some it.dim
  name : it.par.name = it.dim ++ '_' :: it.syst
  systematic : Systematic it.syst it.kind
  clear : ¬ (it.dim ++ ['_']) <:+: it.syst
  built : Built it.par

def Item.back (it : Item) : PyStr × GEntry := (it.par.name, ⟨it.kind, it.par, true⟩)

theorem good_of_named {e : PyStr × GEntry} (hg : e.2.isGlobal = true) (hn : GlobalNamed e)
    (ha : ¬ Ambiguous e) (hb : Built e.2.par) : ∃ it : Item, it.Good ∧ it.back = e := by
  obtain ⟨k, kind, par, isg⟩ := e
  obtain ⟨h1, dim, syst, h2, h3, h4⟩ := hn
  dsimp only at h1 h2 h3 h4 hg hb
  refine ⟨⟨dim, syst, kind, par⟩, ⟨h2, h1.trans h3, h4, ?_, hb⟩, ?_⟩
  · intro hi
    dsimp only at hi
    cases h4 with
    | resolution => exact not_infix_resolution hi
    | resolutionLy => exact ha ⟨dim, h2, h3, infix_ly.1 hi⟩
    | shift => exact not_infix_shift hi
    | scale => exact not_infix_scale hi
  · simp only [Item.back, h1, hg]

theorem exists_items (l : List (PyStr × GEntry))
    (h : ∀ e ∈ l, e.2.isGlobal = true ∧ GlobalNamed e ∧ ¬ Ambiguous e ∧ Built e.2.par) :
    ∃ G : List Item, (∀ it ∈ G, it.Good) ∧ G.map Item.back = l := by
  induction l with
  | nil => exact ⟨[], by simp, rfl⟩
  | cons e l ih =>
    obtain ⟨G, hG, rfl⟩ := ih (fun e he => h e (List.mem_cons_of_mem _ he))
    obtain ⟨h1, h2, h3, h4⟩ := h e (by simp)
    obtain ⟨it, hit, rfl⟩ := good_of_named h1 h2 h3 h4
    refine ⟨it :: G, ?_, rfl⟩
    intro x hx
    rcases List.mem_cons.1 hx with rfl | hx
    · exact hit
    · exact hG x hx

theorem dumpPar_good {it : Item} (h : it.Good) (basic : Bool) (d : Dict (Dict ParDict)) :
    GlobalFitConfig.dumpPar basic d it.par =
      .ok (dictSet d it.dim
        (dictSet ((assoc d it.dim).getD []) it.syst (it.par.toDict basic))) := by
  unfold GlobalFitConfig.dumpPar
  rw [h.dimension]
  have hc : pyContains it.dim it.par.name = true := by
    rw [pyContains, decide_eq_true_eq, h.name]
    exact (List.prefix_append _ _).isInfix
  have hr : pyRemove (it.dim ++ ['_']) it.par.name = it.syst := by
    rw [h.name, show it.dim ++ '_' :: it.syst = (it.dim ++ ['_']) ++ it.syst by simp,
      pyRemove_prefix (by simp), pyRemove_of_not_infix h.clear]
  simp only [hc, if_true, hr]

/-- The dumped dictionary of global parameters. -/
def docOf (basic : Bool) (G : List Item) : Dict (Dict ParDict) :=
  (firstSeen (G.map Item.dim)).map (fun dm =>
    (dm, (G.filter (fun it => it.dim = dm)).map (fun it => (it.syst, it.par.toDict basic))))

theorem keys_docOf (basic : Bool) (G : List Item) :
    (docOf basic G).map Prod.fst = firstSeen (G.map Item.dim) := by
  simp [docOf, List.map_map, Function.comp_def]

theorem dictSet_map_mem {α : Type} {ks : List PyStr} (hnd : ks.Nodup) (f : PyStr → α) {k : PyStr}
    (hk : k ∈ ks) (v : α) :
    dictSet (ks.map (fun k' => (k', f k'))) k v =
      ks.map (fun k' => (k', if k' = k then v else f k')) := by
  induction ks with
  | nil => cases hk
  | cons a ks ih =>
    rw [List.nodup_cons] at hnd
    rw [List.map_cons, dictSet, List.map_cons]
    by_cases ha : a = k
    · subst ha
      simp only [if_true]
      congr 1
      refine List.map_congr_left (fun b hb => ?_)
      have : b ≠ a := by rintro rfl; exact hnd.1 hb
      simp [this]
    · simp only [ha, if_false]
      rw [ih hnd.2 ((List.mem_cons.1 hk).resolve_left (fun h => ha h.symm))]

theorem assoc_docOf_mem (basic : Bool) {G : List Item} {dm : PyStr} (h : dm ∈ G.map Item.dim) :
    assoc (docOf basic G) dm =
      some ((G.filter (fun it => it.dim = dm)).map (fun it => (it.syst, it.par.toDict basic))) := by
  refine assoc_of_mem ?_ ?_
  · rw [keys_docOf]; exact nodup_firstSeen _
  · exact List.mem_map.2 ⟨dm, mem_firstSeen.2 h, rfl⟩

theorem docOf_concat (basic : Bool) (G : List Item) (it : Item)
    (hfresh : ∀ x ∈ G, x.dim = it.dim → x.syst ≠ it.syst) :
    dictSet (docOf basic G) it.dim
        (dictSet ((assoc (docOf basic G) it.dim).getD []) it.syst (it.par.toDict basic)) =
      docOf basic (G ++ [it]) := by
  by_cases h : it.dim ∈ G.map Item.dim
  · have hin : it.syst ∉ ((G.filter (fun x => x.dim = it.dim)).map
        (fun x => (x.syst, x.par.toDict basic))).map Prod.fst := by
      rw [List.map_map, List.mem_map]
      rintro ⟨x, hx, hs⟩
      rw [List.mem_filter, decide_eq_true_eq] at hx
      exact hfresh x hx.1 hx.2 hs
    rw [assoc_docOf_mem basic h, Option.getD_some, dictSet_fresh hin]
    rw [docOf, dictSet_map_mem (nodup_firstSeen _) _ (mem_firstSeen.2 h)]
    rw [docOf, List.map_append, List.map_singleton, firstSeen_concat, if_pos h]
    refine List.map_congr_left (fun dm _ => ?_)
    by_cases hd : dm = it.dim
    · subst hd
      simp
    · have : it.dim ≠ dm := fun h => hd h.symm
      simp [hd, this]
  · have hn : assoc (docOf basic G) it.dim = none := by
      rw [assoc_eq_none, keys_docOf, mem_firstSeen]; exact h
    rw [hn, Option.getD_none, dictSet, dictSet_fresh (by rw [keys_docOf, mem_firstSeen]; exact h)]
    conv_rhs => rw [docOf, List.map_append, List.map_singleton, firstSeen_concat, if_neg h]
    rw [List.map_append, docOf]
    congr 1
    · refine List.map_congr_left (fun dm hdm => ?_)
      have : it.dim ≠ dm := by
        rintro rfl
        exact h (mem_firstSeen.1 hdm)
      simp [this]
    · have : G.filter (fun x => x.dim = it.dim) = [] := by
        rw [List.filter_eq_nil_iff]
        intro x hx
        rw [decide_eq_true_eq]
        intro hd
        exact h (List.mem_map.2 ⟨x, hx, hd⟩)
      simp [this]

theorem dump_items (basic : Bool) (G : List Item) (hG : ∀ it ∈ G, it.Good)
    (hnd : (G.map (fun it => it.par.name)).Nodup) :
    (G.map Item.par).foldlM (GlobalFitConfig.dumpPar basic) [] = .ok (docOf basic G) := by
  induction G using List.reverseRecOn with
  | nil => rfl
  | append_singleton G it ih =>
    rw [List.map_append, List.nodup_append] at hnd
    rw [List.map_append, List.foldlM_append, ih (fun x hx => hG x (by simp [hx])) hnd.1]
    have hit : it.Good := hG it (by simp)
    simp only [bind, Except.bind, List.map_cons, List.map_nil, List.foldlM_cons, List.foldlM_nil,
      pure, Except.pure]
    rw [dumpPar_good hit]
    dsimp only
    rw [docOf_concat]
    intro x hx hd hs
    refine hnd.2.2 x.par.name (List.mem_map.2 ⟨x, hx, rfl⟩) it.par.name (by simp) ?_
    rw [(hG x (by simp [hx])).name, hit.name, hd, hs]

/-! ### loading -/

theorem kindOf_systematic {syst : PyStr} {kind : ParKind} (h : Systematic syst kind) :
    GlobalFitConfig.kindOf syst = .ok kind := by
  cases h <;> rfl

/-- One systematic loaded. -/
def loadItem (basic : Bool) (st : PyStr × Dict GEntry) (it : Item) : PyStr × Dict GEntry :=
  (it.par.name, dictSet st.2 it.par.name ⟨it.kind, reload basic it.par, true⟩)

theorem loadSyst_good {it : Item} (h : it.Good) (basic : Bool) (st : PyStr × Dict GEntry) :
    GlobalFitConfig.loadSyst it.dim st (it.syst, it.par.toDict basic) =
      .ok (loadItem basic st it) := by
  have hn : it.dim ++ (lit "_" ++ it.syst) = it.par.name := by rw [h.name]; rfl
  simp only [GlobalFitConfig.loadSyst, hn, kindOf_systematic h.systematic, ← h.dimension,
    ofDict_toDict h.built, bind, Except.bind, pure, Except.pure, loadItem]

theorem loadDim_items (basic : Bool) (dm : PyStr) (G : List Item) (hG : ∀ it ∈ G, it.Good)
    (hd : ∀ it ∈ G, it.dim = dm) (st : PyStr × Dict GEntry) :
    GlobalFitConfig.loadDim st (dm, G.map (fun it => (it.syst, it.par.toDict basic))) =
      .ok (G.foldl (loadItem basic) st) := by
  unfold GlobalFitConfig.loadDim
  dsimp only
  induction G generalizing st with
  | nil => rfl
  | cons it G ih =>
    rw [List.map_cons, List.foldlM_cons, ← hd it (by simp), loadSyst_good (hG it (by simp)),
      List.foldl_cons]
    rw [hd it (by simp)]
    exact ih (fun x hx => hG x (List.mem_cons_of_mem _ hx))
      (fun x hx => hd x (List.mem_cons_of_mem _ hx)) _

theorem load_docOf (basic : Bool) (G : List Item) (hG : ∀ it ∈ G, it.Good)
    (st : PyStr × Dict GEntry) :
    (docOf basic G).foldlM GlobalFitConfig.loadDim st =
      .ok ((groupBy Item.dim G).foldl (loadItem basic) st) := by
  unfold docOf groupBy
  generalize firstSeen (G.map Item.dim) = ds
  induction ds generalizing st with
  | nil => rfl
  | cons d ds ih =>
    rw [List.map_cons, List.foldlM_cons, loadDim_items basic d _
      (fun it hit => hG it (List.mem_filter.1 hit).1)
      (fun it hit => by simpa using (List.mem_filter.1 hit).2), List.flatMap_cons,
      List.foldl_append]
    exact ih _

theorem foldl_loadItem_snd (basic : Bool) (l : List Item) (st : PyStr × Dict GEntry) :
    (l.foldl (loadItem basic) st).2 =
      l.foldl (fun d it => dictSet d it.par.name ⟨it.kind, reload basic it.par, true⟩) st.2 := by
  induction l generalizing st with
  | nil => rfl
  | cons it l ih => rw [List.foldl_cons, ih]; rfl

theorem foldl_loadItem_fst (basic : Bool) (l : List Item) (st : PyStr × Dict GEntry) :
    (l.foldl (loadItem basic) st).1 = (l.map (fun it => it.par.name)).getLastD st.1 := by
  induction l generalizing st with
  | nil => rfl
  | cons it l ih => rw [List.foldl_cons, ih]; cases l <;> rfl

theorem loadRate_good {e : PyStr × GEntry} (h : RateNamed e) (hb : Built e.2.par) (basic : Bool)
    (d : Dict GEntry) :
    GlobalFitConfig.loadRate d (e.2.par.name, e.2.par.toDict basic) =
      .ok (dictSet d e.2.par.name ⟨.rate, reload basic e.2.par, false⟩) := by
  obtain ⟨h1, h2, h3, h4⟩ := h
  have hc : pyContains (lit "rate") e.2.par.name = true := by
    rw [pyContains, decide_eq_true_eq, h1]; exact h3
  have := ofDict_toDict hb basic
  rw [h2] at this
  simp only [GlobalFitConfig.loadRate, hc, if_true, this, bind, Except.bind, pure, Except.pure]

theorem groupBy_map {α β : Type} (label : β → PyStr) (f : α → β) (l : List α) :
    groupBy label (l.map f) = (groupBy (label ∘ f) l).map f := by
  unfold groupBy
  rw [List.map_map, List.map_flatMap]
  refine List.flatMap_congr (fun d _ => ?_)
  rw [List.filter_map]
  rfl

theorem groupBy_congr {α : Type} {l1 l2 : α → PyStr} {l : List α} (h : ∀ a ∈ l, l1 a = l2 a) :
    groupBy l1 l = groupBy l2 l := by
  unfold groupBy
  rw [List.map_congr_left h]
  refine List.flatMap_congr (fun d _ => ?_)
  refine List.filter_congr (fun a ha => ?_)
  rw [h a ha]

section c56
variable {α : Type}

theorem findIdx_eq_some {l : List PyStr} (hnd : l.Nodup) (n : PyStr) (i : ℕ) :
    l.findIdx? (fun p => p = n) = some i ↔ l[i]? = some n := by
  induction l generalizing i with
  | nil => simp
  | cons a l ih =>
    rw [List.nodup_cons] at hnd
    rw [List.findIdx?_cons]
    by_cases h : a = n
    · subst h
      cases i with
      | zero => simp
      | succ i =>
        simp only [decide_true, if_true, Option.some.injEq, List.getElem?_cons_succ]
        constructor
        · intro h; omega
        · intro h; exact absurd (List.mem_of_getElem? h) hnd.1
    · cases i with
      | zero => simp [h]
      | succ i =>
        have := ih hnd.2 i
        simp only [h, decide_false, Bool.false_eq_true, if_false, List.getElem?_cons_succ]
        rw [← this, Option.map_eq_some_iff]
        constructor
        · rintro ⟨j, hj, hji⟩
          rw [hj]
          congr 1
          omega
        · intro hj
          exact ⟨i, hj, rfl⟩

theorem config_getIndex_ok {c : Config α} (hnd : c.getPars.Nodup) (n : PyStr) (i : ℕ) :
    c.getIndex n = .ok i ↔ c.getPars[i]? = some n := by
  rw [← findIdx_eq_some hnd, Config.getIndex]
  cases c.getPars.findIdx? (fun p => p = n) <;> simp

end c56

theorem foldlM_getPar {α β : Type} {c : Config α} (hnd : c.getPars.Nodup) (f : α → β) :
    c.getPars.foldlM (fun d parameter => do
        let par ← c.getPar parameter
        pure (dictSet d parameter (f par))) ([] : Dict β) =
      .ok (c.pars.map (fun e => (e.1, f e.2))) := by
  have key : ∀ l : Dict α, (l.map Prod.fst).Nodup → (∀ e ∈ l, e ∈ c.pars) → ∀ d : Dict β,
      (∀ k ∈ l.map Prod.fst, k ∉ d.map Prod.fst) →
      (l.map Prod.fst).foldlM (fun d parameter => do
        let par ← c.getPar parameter
        pure (dictSet d parameter (f par))) d =
      .ok (d ++ l.map (fun e => (e.1, f e.2))) := by
    intro l hl hin d hd
    rw [List.foldlM_map]
    refine foldlM_dictSet_fresh Prod.fst (fun e => f e.2) _ l d ?_ hl hd
    intro d e he
    have : c.getPar e.1 = .ok e.2 := by
      unfold Config.getPar
      rw [assoc_of_mem hnd (hin e he)]
    simp only [this, bind, Except.bind, pure, Except.pure]
  exact key c.pars hnd (fun e he => he) [] (by simp)

/-- The two loads of a dumped global configuration. -/
theorem global_reload (g : GlobalFitConfig) (h : Loadable g) (basic : Bool) (nm : PyStr) :
    ∃ dg ds, ∃ G : List Item, (∀ it ∈ G, it.Good) ∧
      G.map Item.back = g.pars.filter (fun e => e.2.isGlobal) ∧
      g.dump basic = .ok (dg, ds) ∧
      assoc dg (lit "global_fit_parameters") = some (docOf basic G) ∧
      assoc ds (lit "spectral_fit_parameters") = some ((g.pars.filter (fun e => !e.2.isGlobal)).map
        (fun e => (e.2.par.name, e.2.par.toDict basic))) ∧
      (docOf basic G).foldlM GlobalFitConfig.loadDim (nm, []) =
        .ok (((groupBy Item.dim G).map (fun it => it.par.name)).getLastD nm,
          (groupBy Item.dim G).map
            (fun it => (it.par.name, ⟨it.kind, reload basic it.par, true⟩))) ∧
      ((g.pars.filter (fun e => !e.2.isGlobal)).map
        (fun e => (e.2.par.name, e.2.par.toDict basic))).foldlM GlobalFitConfig.loadRate
          ((groupBy Item.dim G).map
            (fun it => (it.par.name, ⟨it.kind, reload basic it.par, true⟩))) =
        .ok ((groupBy Item.dim G).map
            (fun it => (it.par.name, ⟨it.kind, reload basic it.par, true⟩)) ++
          (g.pars.filter (fun e => !e.2.isGlobal)).map
            (fun e => (e.2.par.name, ⟨.rate, reload basic e.2.par, false⟩))) := by
  obtain ⟨G, hG, hback⟩ := exists_items (g.pars.filter (fun e => e.2.isGlobal)) (by
    intro e he
    rw [List.mem_filter] at he
    obtain ⟨h1, h2⟩ := h.globals e he.1 he.2
    exact ⟨he.2, h1, h2, h.built e he.1⟩)
  have hS : ∀ e ∈ g.pars.filter (fun e => !e.2.isGlobal), RateNamed e ∧ Built e.2.par := by
    intro e he
    rw [List.mem_filter, Bool.not_eq_true'] at he
    exact ⟨h.spectral e he.1 he.2, h.built e he.1⟩
  have hnames : G.map (fun it => it.par.name) =
      (g.pars.filter (fun e => e.2.isGlobal)).map Prod.fst := by
    rw [← hback, List.map_map]; rfl
  have hndG : (G.map (fun it => it.par.name)).Nodup := by
    rw [hnames]
    exact (List.Sublist.map _ List.filter_sublist).nodup h.distinct
  have hndS : ((g.pars.filter (fun e => !e.2.isGlobal)).map (fun e => e.2.par.name)).Nodup := by
    have : (g.pars.filter (fun e => !e.2.isGlobal)).map (fun e => e.2.par.name) =
        (g.pars.filter (fun e => !e.2.isGlobal)).map Prod.fst :=
      List.map_congr_left (fun e he => (hS e he).1.1)
    rw [this]
    exact (List.Sublist.map _ List.filter_sublist).nodup h.distinct
  have hGnd : G.Nodup := List.Nodup.of_map _ hndG
  have hgrp : ((groupBy Item.dim G).map (fun it => it.par.name)).Nodup :=
    ((groupBy_perm Item.dim hGnd).map _).nodup_iff.2 hndG
  have hdumpG : (g.globalPars.map Prod.snd).foldlM (GlobalFitConfig.dumpPar basic) [] =
      .ok (docOf basic G) := by
    rw [← dump_items basic G hG hndG]
    congr 1
    unfold GlobalFitConfig.globalPars
    rw [← hback, List.map_map, List.map_map]
    rfl
  have hdumpS : (g.spectraPars.map Prod.snd).foldl
      (fun d par => dictSet d par.name (par.toDict basic)) ([] : Dict ParDict) =
      (g.pars.filter (fun e => !e.2.isGlobal)).map
        (fun e => (e.2.par.name, e.2.par.toDict basic)) := by
    unfold GlobalFitConfig.spectraPars
    rw [List.map_map, List.foldl_map]
    exact foldl_dictSet_fresh (fun e : PyStr × GEntry => e.2.par.name)
      (fun e => e.2.par.toDict basic) _ _ hndS (by simp)
  refine ⟨[(lit "global_fit_parameters", docOf basic G)],
    [(lit "spectral_fit_parameters", (g.pars.filter (fun e => !e.2.isGlobal)).map
      (fun e => (e.2.par.name, e.2.par.toDict basic)))], G, hG, hback, ?_,
    by rw [assoc_cons, if_pos rfl], by rw [assoc_cons, if_pos rfl], ?_, ?_⟩
  · unfold GlobalFitConfig.dump
    rw [hdumpG, hdumpS]
    rfl
  · rw [load_docOf basic G hG]
    congr 1
    refine Prod.ext (foldl_loadItem_fst _ _ _) ?_
    rw [foldl_loadItem_snd]
    rw [foldl_dictSet_fresh (fun it : Item => it.par.name)
      (fun it => (⟨it.kind, reload basic it.par, true⟩ : GEntry)) _ _ hgrp (by simp)]
    rfl
  · rw [List.foldlM_map]
    refine foldlM_dictSet_fresh (fun e : PyStr × GEntry => e.2.par.name)
      (fun e => (⟨.rate, reload basic e.2.par, false⟩ : GEntry)) _ _ _ ?_ hndS ?_
    · intro d e he
      exact loadRate_good (hS e he).1 (hS e he).2 basic d
    · intro k hk hk'
      rw [List.map_map] at hk'
      obtain ⟨it, hit, hitk⟩ := List.mem_map.1 hk'
      rw [mem_groupBy] at hit
      obtain ⟨e, he, hek⟩ := List.mem_map.1 hk
      have h1 : it.back ∈ g.pars.filter (fun e => e.2.isGlobal) :=
        hback ▸ List.mem_map_of_mem hit
      have hkk : it.back.1 = e.1 := by
        rw [← (hS e he).1.1]
        exact hitk.trans hek.symm
      have he' := List.mem_filter.1 he
      have h1' := List.mem_filter.1 h1
      have : it.back = e := List.inj_on_of_nodup_map h.distinct h1'.1 he'.1 hkk
      rw [← this] at he'
      simp [Item.back] at he'

theorem items_grouped {G : List Item} (hG : ∀ it ∈ G, it.Good) {l : List (PyStr × GEntry)}
    (h : G.map Item.back = l) :
    (groupBy Item.dim G).map (fun it => it.par.name) = (groupBy dimOf l).map Prod.fst := by
  subst h
  rw [groupBy_map, List.map_map]
  rw [groupBy_congr (l1 := Item.dim) (l2 := dimOf ∘ Item.back)]
  · rfl
  · intro it hit
    simp [dimOf, Item.back, (hG it hit).dimension]

theorem assoc_reload {g : GlobalFitConfig} (h : Loadable g) {basic : Bool} {G : List Item}
    (hback : G.map Item.back = g.pars.filter (fun e => e.2.isGlobal)) {l : Dict GEntry}
    (hl : (l.map Prod.fst).Nodup)
    (h1 : ∀ it ∈ groupBy Item.dim G,
      ((it.par.name, ⟨it.kind, reload basic it.par, true⟩) : PyStr × GEntry) ∈ l)
    (h2 : ∀ e ∈ g.pars.filter (fun e => !e.2.isGlobal),
      ((e.2.par.name, ⟨.rate, reload basic e.2.par, false⟩) : PyStr × GEntry) ∈ l)
    {k : PyStr} {e : GEntry} (he : assoc g.pars k = some e) :
    assoc l k = some ⟨e.kind, reload basic e.par, e.isGlobal⟩ := by
  have hm := assoc_mem he
  cases hg : e.isGlobal with
  | true =>
    have : (k, e) ∈ g.pars.filter (fun e => e.2.isGlobal) := List.mem_filter.2 ⟨hm, hg⟩
    rw [← hback] at this
    obtain ⟨it, hit, hite⟩ := List.mem_map.1 this
    have hk : it.par.name = k := congrArg Prod.fst hite
    have he2 : (⟨it.kind, it.par, true⟩ : GEntry) = e := congrArg Prod.snd hite
    subst he2
    exact assoc_of_mem hl (hk ▸ h1 it ((mem_groupBy _).2 hit))
  | false =>
    have : (k, e) ∈ g.pars.filter (fun e => !e.2.isGlobal) :=
      List.mem_filter.2 ⟨hm, by simp [hg]⟩
    obtain ⟨ha, -, -, hb⟩ := h.spectral _ hm hg
    have h3 := h2 _ this
    dsimp only at h3 ha hb
    rw [ha] at h3
    rw [hb]
    exact assoc_of_mem hl h3

theorem groupBy_cons_of_not_mem {α : Type} (label : α → PyStr) (a : α) (l : List α)
    (h : label a ∉ l.map label) : groupBy label (a :: l) = a :: groupBy label l := by
  unfold groupBy
  rw [List.map_cons, firstSeen, List.flatMap_cons]
  have h1 : l.filter (fun x => label x = label a) = [] := by
    rw [List.filter_eq_nil_iff]
    intro x hx
    rw [decide_eq_true_eq]
    intro hxa
    exact h (List.mem_map.2 ⟨x, hx, hxa⟩)
  have h2 : (firstSeen (l.map label)).filter (fun m => m ≠ label a) = firstSeen (l.map label) := by
    rw [List.filter_eq_self]
    intro m hm
    have : m ≠ label a := by rintro rfl; exact h (mem_firstSeen.1 hm)
    simpa using this
  rw [h2, List.filter_cons, if_pos (by simp), h1, List.singleton_append]
  congr 1
  refine List.flatMap_congr (fun d hd => ?_)
  have : label a ≠ d := by rintro rfl; exact h (mem_firstSeen.1 hd)
  rw [List.filter_cons, if_neg (by simpa using this)]

theorem groupBy_cons_of_eq {α : Type} (label : α → PyStr) (a b : α) (l : List α)
    (h : label b = label a) : groupBy label (a :: b :: l) = a :: groupBy label (b :: l) := by
  unfold groupBy
  rw [List.map_cons, List.map_cons, h, firstSeen, firstSeen, List.flatMap_cons, List.flatMap_cons]
  rw [List.filter_cons, if_pos (by simp), List.cons_append]
  congr 2
  rw [List.filter_cons, if_neg (by simp), List.filter_filter]
  simp only [Bool.and_self]
  refine List.flatMap_congr (fun d hd => ?_)
  have : label a ≠ d := by
    rintro rfl
    simpa using (List.mem_filter.1 hd).2
  rw [List.filter_cons, if_neg (by simpa using this)]

theorem groupBy_contiguous {α : Type} {label : α → PyStr} {l : List α} (h : Contiguous label l) :
    groupBy label l = l := by
  induction l with
  | nil => rfl
  | cons a l ih =>
    have hl : Contiguous label l := fun l1 x l2 y l3 he hxy =>
      h (a :: l1) x l2 y l3 (by rw [he, List.cons_append]) hxy
    by_cases ha : label a ∈ l.map label
    · obtain ⟨y, hy, hya⟩ := List.mem_map.1 ha
      obtain ⟨l2, l3, rfl⟩ := List.append_of_mem hy
      cases l2 with
      | nil =>
        rw [List.nil_append] at ih hl ⊢
        rw [groupBy_cons_of_eq label a y l3 hya, ih hl]
      | cons b l2 =>
        have hb := h [] a (b :: l2) y l3 rfl hya.symm b (by simp)
        rw [List.cons_append] at ih hl ⊢
        rw [groupBy_cons_of_eq label a b _ hb, ih hl]
    · rw [groupBy_cons_of_not_mem label a l ha, ih hl]

/-! ### adding configurations -/

/-- The entry made of a joined parameter. -/
def rateEntry (e : PyStr × FitPar) : GEntry := ⟨.rate, { e.2 with name := e.1 }, false⟩

theorem addSpectra_pars (g : GlobalFitConfig) (c : SpectraFitConfig) :
    (g.addSpectra c).1 = ⟨g.name, (c.config.pars.map (fun e => (joined c.spectraName e.1, e.2))).foldl
      (fun d e => dictSet d e.1 (rateEntry e)) g.pars⟩ := by
  unfold GlobalFitConfig.addSpectra
  dsimp only
  rw [List.foldl_map]
  generalize c.config.pars = l
  induction l generalizing g with
  | nil => rfl
  | cons e l ih => rw [List.foldl_cons, ih, List.foldl_cons]; rfl

theorem addAll_pars (g : GlobalFitConfig) (cs : List SpectraFitConfig) :
    g.addAll cs = ⟨g.name, (allJoined cs).foldl
      (fun d e => dictSet d e.1 (rateEntry e)) g.pars⟩ := by
  unfold GlobalFitConfig.addAll allJoined
  induction cs generalizing g with
  | nil => rfl
  | cons c cs ih =>
    rw [List.foldl_cons, ih, addSpectra_pars, List.flatMap_cons, List.foldl_append]

theorem assoc_foldl_dictSet {α γ : Type} (key : γ → PyStr) (val : γ → α) (l : List γ) (d : Dict α)
    (n : PyStr) :
    assoc (l.foldl (fun d e => dictSet d (key e) (val e)) d) n =
      match l.reverse.find? (fun e => key e = n) with
      | some e => some (val e)
      | none => assoc d n := by
  induction l using List.reverseRecOn with
  | nil => rfl
  | append_singleton l e ih =>
    rw [List.foldl_append, List.foldl_cons, List.foldl_nil, assoc_dictSet, List.reverse_append,
      List.reverse_singleton, List.singleton_append, List.find?_cons]
    by_cases h : key e = n
    · simp [h]
    · simp only [h, if_false, decide_false]
      exact ih

theorem joined_inj_par {s s' p p' : PyStr} (hp : '_' ∉ p) (hp' : '_' ∉ p')
    (h : joined s p = joined s' p') : s = s' ∧ p = p' := by
  unfold joined at h
  have h1 := congrArg getDim h
  have h2 := congrArg lastPart h
  rw [getDim_append hp, getDim_append hp'] at h1
  rw [lastPart_append hp, lastPart_append hp'] at h2
  exact ⟨h1, h2⟩

theorem joined_inj_spectrum {s s' p p' : PyStr} (hs : '_' ∉ s) (hs' : '_' ∉ s')
    (h : joined s p = joined s' p') : s = s' ∧ p = p' := by
  unfold joined at h
  induction s generalizing s' with
  | nil =>
    cases s' with
    | nil => exact ⟨rfl, by simpa using h⟩
    | cons c s' =>
      rw [List.nil_append, List.cons_append, List.cons.injEq] at h
      exact absurd h.1 (fun hc => hs' (by simp [← hc]))
  | cons c s ih =>
    cases s' with
    | nil =>
      rw [List.nil_append, List.cons_append, List.cons.injEq] at h
      exact absurd h.1 (fun hc => hs (by simp [hc]))
    | cons c' s' =>
      rw [List.cons_append, List.cons_append, List.cons.injEq] at h
      obtain ⟨h1, h2⟩ := ih (fun hm => hs (List.mem_cons_of_mem _ hm))
        (fun hm => hs' (List.mem_cons_of_mem _ hm)) h.2
      exact ⟨by rw [h.1, h1], h2⟩

/-- Joined names are distinct when joining is injective on the names used. -/
theorem nodup_allJoined {cs : List SpectraFitConfig} (hs : (cs.map (·.spectraName)).Nodup)
    (hk : ∀ c ∈ cs, c.config.getPars.Nodup)
    (hinj : ∀ c ∈ cs, ∀ c' ∈ cs, ∀ k ∈ c.config.getPars, ∀ k' ∈ c'.config.getPars,
      joined c.spectraName k = joined c'.spectraName k' → c.spectraName = c'.spectraName ∧ k = k') :
    ((allJoined cs).map Prod.fst).Nodup := by
  unfold allJoined
  rw [List.map_flatMap, List.nodup_flatMap]
  constructor
  · intro c hc
    rw [List.map_map]
    have : c.config.pars.map (Prod.fst ∘ fun e => (joined c.spectraName e.1, e.2)) =
        c.config.getPars.map (joined c.spectraName) := by
      rw [Config.getPars, List.map_map]; rfl
    rw [this]
    exact List.Nodup.map_on (fun k hkm k' hkm' h => (hinj c hc c hc k hkm k' hkm' h).2) (hk c hc)
  · have hs' : cs.Pairwise (fun c c' => c.spectraName ≠ c'.spectraName) :=
      List.pairwise_map.1 hs
    refine List.Pairwise.imp_of_mem ?_ hs'
    intro c c' hc hc' hne n hn hn'
    dsimp only at hn hn'
    rw [List.map_map, List.mem_map] at hn hn'
    obtain ⟨e, he, rfl⟩ := hn
    obtain ⟨e', he', h⟩ := hn'
    exact hne (hinj c hc c' hc' e.1 (List.mem_map_of_mem he) e'.1 (List.mem_map_of_mem he')
      h.symm).1

end Verif
