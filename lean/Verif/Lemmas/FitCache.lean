import Verif.Lemmas.FitRun

/-! Helper lemmas: the invariant that evaluations of a fit keep. -/

namespace Verif

open Spectrum

/-! ### the key of the cache -/

theorem curVal_eq (str : ℚ → PyStr) (ps : List Param) :
    curVal str ps = ps.flatMap (fun p => p.name ++ (strValue str p.value ++ ['_'])) := by
  have key : ∀ (ps : List Param) (acc : PyStr),
      ps.foldl (fun cur p => cur ++ (p.name ++ (strValue str p.value ++ ['_']))) acc =
        acc ++ ps.flatMap (fun p => p.name ++ (strValue str p.value ++ ['_'])) := by
    intro ps
    induction ps with
    | nil => intro acc; simp
    | cons p ps ih => intro acc; rw [List.foldl_cons, ih, List.flatMap_cons, List.append_assoc]
  exact key ps []

theorem split_at_sep {a b x y : PyStr} (ha : '_' ∉ a) (hb : '_' ∉ b)
    (h : a ++ '_' :: x = b ++ '_' :: y) : a = b ∧ x = y := by
  induction a generalizing b with
  | nil =>
    cases b with
    | nil => simpa using h
    | cons c b => simp at h; simp [← h.1] at hb
  | cons c a ih =>
    cases b with
    | nil => simp at h; simp [h.1] at ha
    | cons d b =>
      simp only [List.cons_append, List.cons.injEq] at h
      obtain ⟨h1, h2⟩ := ih (fun hm => ha (by simp [hm])) (fun hm => hb (by simp [hm])) h.2
      exact ⟨by rw [h.1, h1], h2⟩

/-- The parameter objects with values given, everything else as in `S`. -/
def Valued (S P : ℕ → Param) (ps : List ℕ) : Prop :=
  ∀ p ∈ ps, ∃ v, P p = { S p with value := some v }

theorem key_inj {str : ℚ → PyStr} (hs : Function.Injective str) (hu : ∀ v, '_' ∉ str v)
    {S P Q : ℕ → Param} (ps : List ℕ) (hP : Valued S P ps) (hQ : Valued S Q ps)
    (h : curVal str (ps.map P) = curVal str (ps.map Q)) : ps.map P = ps.map Q := by
  rw [curVal_eq, curVal_eq] at h
  induction ps with
  | nil => rfl
  | cons p ps ih =>
    obtain ⟨v, hv⟩ := hP p (by simp)
    obtain ⟨w, hw⟩ := hQ p (by simp)
    simp only [List.map_cons, List.flatMap_cons, hv, hw, strValue, List.append_assoc] at h
    have h := List.append_cancel_left h
    simp only [List.cons_append, List.nil_append] at h
    obtain ⟨h1, h2⟩ := split_at_sep (hu v) (hu w) h
    simp only [List.map_cons]
    rw [ih (fun q hq => hP q (by simp [hq])) (fun q hq => hQ q (by simp [hq])) h2, hv, hw, hs h1]

/-! ### the invariant -/

/-- The spectrum with this reference is a background, not the signal. -/
def isBg (f : Fit) (r : ℕ) : Bool := decide (f.signal.map Prod.fst ≠ some r)

/-- The spectrum `r` with the global parameters applied, computed anew from the state `st0`. -/
def convFrom (env : FitEnv) (f : Fit) (st0 : FitState) (r : ℕ) (P : ℕ → Param) :
    Except PyErr Spectrum :=
  convFold env (isBg f r) (st0.view r) (f.globals.map P) (st0.view r)

/-- The spectrum is scaled again whenever it is used: a background with rates, or the signal. -/
def Scaling (f : Fit) (st0 : FitState) (r : ℕ) : Prop :=
  isBg f r = true → (st0.objs r).fit.getD [] ≠ []

/-- `u` is `t`, up to the number of decays it is scaled to. -/
def Resc (scaling : Prop) (t u : Spectrum) : Prop :=
  u = t ∨ (scaling ∧ ∃ m, u = t.rescaled m)

/-- What an object made from the original `r` is, when it was made as `t`. -/
structure Made (f : Fit) (st0 : FitState) (D : ℕ → Prop) (st : FitState) (r : ℕ) (t : Spectrum)
    (c : ℕ) : Prop where
  cfg : (st.objs c).cfg = (st0.objs r).cfg
  fit : (st.objs c).fit = (st0.objs r).fit
  resc : Resc (Scaling f st0 r) t (st.view c)
  alive : ¬ D r → (st.view c).numDecays ≠ 0

/-- What an entry of the cache is. -/
structure Entry (env : FitEnv) (f : Fit) (st0 : FitState) (D : ℕ → Prop) (st : FitState)
    (e : (PyStr × PyStr) × ℕ) (r : ℕ) (P : ℕ → Param) (t : Spectrum) : Prop where
  mem : r ∈ f.moving
  bg : e.1.1 = (st0.objs r).background
  vals : Valued st0.params P f.globals
  key : e.1.2 = curVal env.str (f.globals.map P)
  conv : convFrom env f st0 r P = .ok t
  new : st0.next ≤ e.2
  old : e.2 < st.next
  made : Made f st0 D st r t e.2

/-- The invariant. `D` are the spectra that may have been scaled to zero. -/
structure Inv (env : FitEnv) (f : Fit) (st0 : FitState) (D : ℕ → Prop) (st : FitState) : Prop where
  cfgs : st.cfgs = st0.cfgs
  next : st0.next ≤ st.next
  params : ∀ q, { st.params q with value := none } = { st0.params q with value := none }
  old : ∀ q, q < st0.next → (f.globals ≠ [] ∨ q ∉ f.floatingRefs) → st.objs q = st0.objs q
  orig : f.globals = [] → ∀ q ∈ f.floatingRefs, Made f st0 D st q (st0.view q) q
  empty : f.globals = [] → st.cache = []
  entries : ∀ e ∈ st.cache, ∃ r P t, Entry env f st0 D st e r P t
  distinct : (st.cache.map Prod.snd).Nodup

/-- `c` is the object for the spectrum `r`, made as `t`. -/
def Handle (env : FitEnv) (f : Fit) (st0 : FitState) (D : ℕ → Prop) (st : FitState) (r : ℕ)
    (t : Spectrum) (c : ℕ) : Prop :=
  (f.globals = [] ∧ c = r ∧ t = st0.view r ∧ r ∈ f.floatingRefs) ∨
  (f.globals ≠ [] ∧ ∃ k P, (k, c) ∈ st.cache ∧ Entry env f st0 D st (k, c) r P t)

variable {env : FitEnv} {f : Fit} {st0 st st' : FitState} {D D' : ℕ → Prop}

theorem Made.mono {r : ℕ} {t : Spectrum} {c : ℕ} (h : Made f st0 D st r t c)
    (hD : ∀ q, D q → D' q) : Made f st0 D' st r t c :=
  ⟨h.cfg, h.fit, h.resc, fun hn => h.alive fun hd => hn (hD r hd)⟩

theorem Entry.mono {e : (PyStr × PyStr) × ℕ} {r : ℕ} {P : ℕ → Param} {t : Spectrum}
    (h : Entry env f st0 D st e r P t) (hD : ∀ q, D q → D' q) : Entry env f st0 D' st e r P t :=
  ⟨h.mem, h.bg, h.vals, h.key, h.conv, h.new, h.old, h.made.mono hD⟩

theorem Inv.mono (h : Inv env f st0 D st) (hD : ∀ q, D q → D' q) : Inv env f st0 D' st where
  cfgs := h.cfgs
  next := h.next
  params := h.params
  old := h.old
  orig hg q hq := (h.orig hg q hq).mono hD
  empty := h.empty
  entries e he := by
    obtain ⟨r, P, t, hE⟩ := h.entries e he
    exact ⟨r, P, t, hE.mono hD⟩
  distinct := h.distinct

theorem Made.same {r : ℕ} {t : Spectrum} {c : ℕ} (h : Made f st0 D st r t c)
    (hc : st'.cfgs = st.cfgs) (ho : st'.objs c = st.objs c) : Made f st0 D st' r t c := by
  have hv : st'.view c = st.view c := by simp only [FitState.view, hc, ho]
  exact ⟨by rw [ho]; exact h.cfg, by rw [ho]; exact h.fit, by rw [hv]; exact h.resc,
    by rw [hv]; exact h.alive⟩

theorem Entry.same {e : (PyStr × PyStr) × ℕ} {r : ℕ} {P : ℕ → Param} {t : Spectrum}
    (h : Entry env f st0 D st e r P t) (hc : st'.cfgs = st.cfgs) (hn : st.next ≤ st'.next)
    (ho : st'.objs e.2 = st.objs e.2) : Entry env f st0 D st' e r P t :=
  ⟨h.mem, h.bg, h.vals, h.key, h.conv, h.new, h.old.trans_le hn, h.made.same hc ho⟩

/-- Adding objects keeps the invariant. -/
theorem Inv.frame (hr : FitReady env f st0) (h : Inv env f st0 D st) (hf : Frame st st') :
    Inv env f st0 D st' where
  cfgs := hf.cfgs.trans h.cfgs
  next := h.next.trans hf.next
  params q := by rw [hf.params]; exact h.params q
  old q hq hg := (hf.objs q (hq.trans_le h.next)).trans (h.old q hq hg)
  orig hg q hq := (h.orig hg q hq).same hf.cfgs
    (hf.objs q ((hr.alloc.2.2 q (by simp [Fit.moving, hq])).trans_le h.next))
  empty hg := hf.cache.trans (h.empty hg)
  entries e he := by
    rw [hf.cache] at he
    obtain ⟨r, P, t, hE⟩ := h.entries e he
    exact ⟨r, P, t, hE.same hf.cfgs hf.next (hf.objs _ hE.old)⟩
  distinct := by rw [hf.cache]; exact h.distinct

/-- Setting values keeps the invariant. -/
theorem Inv.setParams (h : Inv env f st0 D st) {P : ℕ → Param}
    (hP : ∀ q, { P q with value := none } = { st.params q with value := none }) :
    Inv env f st0 D { st with params := P } where
  cfgs := h.cfgs
  next := h.next
  params q := (hP q).trans (h.params q)
  old := h.old
  orig hg q hq := (h.orig hg q hq).same rfl rfl
  empty := h.empty
  entries e he := by
    obtain ⟨r, P, t, hE⟩ := h.entries e he
    exact ⟨r, P, t, hE.same rfl le_rfl rfl⟩
  distinct := h.distinct

/-- An object that is not floating is seen as at the start. -/
theorem Inv.view_old (h : Inv env f st0 D st) {q : ℕ} (hq : q < st0.next)
    (hf : f.globals ≠ [] ∨ q ∉ f.floatingRefs) : st.view q = st0.view q := by
  simp only [FitState.view, h.old q hq hf, h.cfgs]

theorem Handle.made (h : Inv env f st0 D st) {r : ℕ} {t : Spectrum} {c : ℕ}
    (hh : Handle env f st0 D st r t c) : Made f st0 D st r t c := by
  rcases hh with ⟨h1, rfl, rfl, h2⟩ | ⟨-, k, P, -, hE⟩
  · exact h.orig h1 _ h2
  · exact hE.made

theorem Handle.mono {r : ℕ} {t : Spectrum} {c : ℕ} (hh : Handle env f st0 D st r t c)
    (hD : ∀ q, D q → D' q) : Handle env f st0 D' st r t c := by
  rcases hh with h | ⟨h1, k, P, h2, h3⟩
  · exact .inl h
  · exact .inr ⟨h1, k, P, h2, h3.mono hD⟩

/-- Scaling the object for a spectrum keeps the invariant. -/
theorem Inv.scaled (h : Inv env f st0 D st) {r : ℕ} {t : Spectrum} {c : ℕ}
    (hh : Handle env f st0 D st r t c) (hf : FrameAt c st st')
    (hresc : Resc (Scaling f st0 r) t (st'.view c))
    (halive : ¬ D r → (st'.view c).numDecays ≠ 0) :
    Inv env f st0 D st' ∧ Handle env f st0 D st' r t c := by
  have hm := Handle.made h hh
  have hm' : Made f st0 D st' r t c :=
    ⟨hf.cfg.trans hm.cfg, hf.fit.trans hm.fit, hresc, halive⟩
  rcases hh with ⟨h1, rfl, rfl, h2⟩ | ⟨h1, k, P, h2, h3⟩
  · refine ⟨⟨hf.cfgs.trans h.cfgs, by rw [hf.next]; exact h.next,
      fun q => by rw [hf.params]; exact h.params q, ?_, ?_,
      fun hg => hf.cache.trans (h.empty hg), ?_, by rw [hf.cache]; exact h.distinct⟩,
      .inl ⟨h1, rfl, rfl, h2⟩⟩
    · intro q hq hg
      rcases hg with hg | hg
      · exact absurd h1 hg
      · rw [hf.objs q (fun he => hg (he ▸ h2))]
        exact h.old q hq (.inr hg)
    · intro hg q hq
      by_cases he : q = c
      · subst he; exact hm'
      · exact (h.orig hg q hq).same hf.cfgs (hf.objs q he)
    · intro e he
      rw [hf.cache, h.empty h1] at he
      cases he
  · have hE' : Entry env f st0 D st' (k, c) r P t :=
      ⟨h3.mem, h3.bg, h3.vals, h3.key, h3.conv, h3.new, by rw [hf.next]; exact h3.old, hm'⟩
    refine ⟨⟨hf.cfgs.trans h.cfgs, by rw [hf.next]; exact h.next,
      fun q => by rw [hf.params]; exact h.params q, ?_, fun hg => absurd hg h1,
      fun hg => absurd hg h1, ?_, by rw [hf.cache]; exact h.distinct⟩,
      .inr ⟨h1, k, P, by rw [hf.cache]; exact h2, hE'⟩⟩
    · intro q hq hg
      rw [hf.objs q (fun he => absurd h3.new (by simp only; omega))]
      exact h.old q hq hg
    · intro e he
      rw [hf.cache] at he
      by_cases hc : e.2 = c
      · have : e = (k, c) := List.inj_on_of_nodup_map h.distinct he h2 hc
        subst this
        exact ⟨r, P, t, hE'⟩
      · obtain ⟨r', P', t', hE⟩ := h.entries e he
        exact ⟨r', P', t', hE.same hf.cfgs (by rw [hf.next]) (hf.objs _ hc)⟩

theorem inv_start (hr : FitReady env f st0) : Inv env f st0 (fun _ => False) st0 where
  cfgs := rfl
  next := le_rfl
  params _ := rfl
  old _ _ _ := rfl
  orig _ q hq := ⟨rfl, rfl, .inl rfl, fun _ => hr.decays q (by simp [Fit.moving, hq])⟩
  empty _ := hr.cache
  entries e he := by rw [hr.cache] at he; cases he
  distinct := by rw [hr.cache]; exact List.nodup_nil

/-! ### the global parameters -/

theorem moving_nodup (hr : FitReady env f st0) : f.moving.Nodup :=
  List.Nodup.of_map _ hr.backgrounds

theorem moving_lt (hr : FitReady env f st0) {r : ℕ} (h : r ∈ f.moving) : r < st0.next :=
  hr.alloc.2.2 r h

theorem isBg_floating (hr : FitReady env f st0) {r : ℕ} (h : r ∈ f.floatingRefs) :
    isBg f r = true := by
  unfold isBg
  simp only [decide_eq_true_eq]
  intro he
  have := (List.nodup_append.1 (moving_nodup hr)).2.2 r h r (by
    cases hs : f.signal with
    | none => rw [hs] at he; cases he
    | some b =>
      rw [hs] at he
      simp only [Option.map_some, Option.some.injEq] at he
      simp [he])
  exact this rfl

theorem cached_hit {bg key : PyStr} {fc : Option (List ℕ)} {make : FitM ℕ} {st : FitState} {c : ℕ}
    (h : assoc st.cache (bg, key) = some c) : cached bg key fc make st = (st, .ok c) := by
  unfold cached
  rw [FitM.read_bind, h]
  rfl

theorem cached_miss_ok {bg key : PyStr} {fc : Option (List ℕ)} {make : FitM ℕ}
    {st st' : FitState} {c : ℕ} (h : assoc st.cache (bg, key) = none)
    (hm : make st = (st', .ok c)) : cached bg key fc make st =
      ({ st' with
        objs := Function.update st'.objs c { st'.objs c with fit := fc }
        cache := ((bg, key), c) :: st'.cache }, .ok c) := by
  unfold cached
  rw [FitM.read_bind, h]
  simp only
  rw [FitM.bind_ok hm]
  rfl

theorem cached_miss_error {bg key : PyStr} {fc : Option (List ℕ)} {make : FitM ℕ}
    {st st' : FitState} {e : PyErr} (h : assoc st.cache (bg, key) = none)
    (hm : make st = (st', .error e)) : cached bg key fc make st = (st', .error e) := by
  unfold cached
  rw [FitM.read_bind, h]
  simp only
  rw [FitM.bind_error hm]

theorem cached_run (hr : FitReady env f st0) (h : Inv env f st0 D st) (hg : f.globals ≠ [])
    {r : ℕ} (hm : r ∈ f.moving) (hv : Valued st0.params st.params f.globals) :
    ∃ st', st'.params = st.params ∧ Inv env f st0 D st' ∧
      match convFrom env f st0 r st.params with
      | .ok t => ∃ c, cached (st.objs r).background (curVal env.str (f.globals.map st.params))
          (st.objs r).fit (makeFold env (isBg f r) r f.globals r) st = (st', .ok c) ∧
          Handle env f st0 D st' r t c
      | .error e => cached (st.objs r).background (curVal env.str (f.globals.map st.params))
          (st.objs r).fit (makeFold env (isBg f r) r f.globals r) st = (st', .error e) := by
  have hlt := moving_lt hr hm
  have hobj := h.old r hlt (.inl hg)
  have hview := h.view_old hlt (.inl hg)
  rw [hobj]
  cases ha : assoc st.cache ((st0.objs r).background, curVal env.str (f.globals.map st.params)) with
  | some c =>
    refine ⟨st, rfl, h, ?_⟩
    have hmem : (((st0.objs r).background, curVal env.str (f.globals.map st.params)), c) ∈
        st.cache := by
      unfold assoc at ha
      obtain ⟨e, he, rfl⟩ := Option.map_eq_some_iff.1 ha
      have h1 := List.mem_of_find?_eq_some he
      have h2 := List.find?_some he
      simp only [decide_eq_true_eq] at h2
      rw [← h2]; exact h1
    obtain ⟨r', P, t, hE⟩ := h.entries _ hmem
    have hrr : r = r' := List.inj_on_of_nodup_map hr.backgrounds hm hE.mem hE.bg
    subst hrr
    have hP : f.globals.map st.params = f.globals.map P :=
      key_inj hr.str.1 hr.str.2 _ hv hE.vals hE.key
    have hconv : convFrom env f st0 r st.params = .ok t := by
      unfold convFrom; rw [hP]; exact hE.conv
    rw [hconv]
    exact ⟨c, cached_hit ha, .inr ⟨hg, _, P, hmem, hE⟩⟩
  | none =>
    obtain ⟨st1, e1, e2⟩ := makeFold_run (env := env) (chain := isBg f r) (r := r) f.globals r st
      (hlt.trans_le h.next) (hlt.trans_le h.next)
      (fun p hp => by
        obtain ⟨v, hv⟩ := hv p hp
        rw [hv]; exact (hr.globals p hp).2) rfl
    have hinv1 := h.frame hr e1
    rw [hview] at e2
    change match convFrom env f st0 r st.params with | .ok t => _ | .error e => _ at e2
    cases hc : convFrom env f st0 r st.params with
    | error e =>
      rw [hc] at e2
      exact ⟨st1, e1.params, hinv1, cached_miss_error ha e2⟩
    | ok t =>
      rw [hc] at e2
      obtain ⟨c, g1, g2, g3, g4, g5⟩ := e2
      have hcn : st.next ≤ c := g4.resolve_left fun hx => hg hx.2
      obtain ⟨hal, hnorm⟩ := convFold_alike hc (.refl _) (FitState.view_data_norm _ _)
      generalize hst2 : ({ st1 with
        objs := Function.update st1.objs c { st1.objs c with fit := (st0.objs r).fit }
        cache := (((st0.objs r).background, curVal env.str (f.globals.map st.params)), c) ::
          st1.cache } : FitState) = st2
      have ho : ∀ q, q ≠ c → st2.objs q = st1.objs q := by
        intro q hq; rw [← hst2]; simp only [Function.update_of_ne hq]
      have hoc : st2.objs c = { st1.objs c with fit := (st0.objs r).fit } := by
        rw [← hst2]; simp only [Function.update_self]
      have hcfgs : st2.cfgs = st1.cfgs := by rw [← hst2]
      have hnext : st2.next = st1.next := by rw [← hst2]
      have hvc : st2.view c = t := by
        rw [← g2]; simp only [FitState.view, hcfgs, hoc]
      have hcache : st2.cache =
          (((st0.objs r).background, curVal env.str (f.globals.map st.params)), c) ::
            st1.cache := by rw [← hst2]
      have hE : Entry env f st0 D st2
          (((st0.objs r).background, curVal env.str (f.globals.map st.params)), c) r st.params t :=
        ⟨hm, rfl, hv, rfl, hc, h.next.trans hcn, by rw [hnext]; exact g3,
          ⟨by rw [hoc]; simp only [g5, hobj], by rw [hoc], .inl hvc,
            fun _ => by rw [hvc, hal.numDecays]; exact hr.decays r hm⟩⟩
      refine ⟨st2, by rw [← hst2]; exact e1.params, ⟨?_, ?_, ?_, ?_, fun hx => absurd hx hg,
        fun hx => absurd hx hg, ?_, ?_⟩, c, ?_, .inr ⟨hg, _, st.params, ?_, hE⟩⟩
      · rw [hcfgs]; exact hinv1.cfgs
      · rw [hnext]; exact hinv1.next
      · intro q; rw [← hst2]; exact hinv1.params q
      · intro q hq hx
        rw [ho q (by have := h.next; omega)]
        exact hinv1.old q hq hx
      · intro e he
        rw [hcache] at he
        rcases List.mem_cons.1 he with rfl | he
        · exact ⟨r, st.params, t, hE⟩
        · rw [e1.cache] at he
          obtain ⟨r', P, t', hE'⟩ := h.entries e he
          refine ⟨r', P, t', (hE'.same e1.cfgs e1.next (e1.objs _ hE'.old)).same hcfgs
            (by rw [hnext]) (ho _ ?_)⟩
          have := hE'.old
          omega
      · rw [hcache, List.map_cons, List.nodup_cons, e1.cache]
        refine ⟨?_, h.distinct⟩
        intro hx
        obtain ⟨e, he, hec⟩ := List.mem_map.1 hx
        obtain ⟨_, _, _, hE'⟩ := h.entries e he
        have := hE'.old
        simp only at hec
        omega
      · rw [cached_miss_ok ha g1, hst2]
      · rw [hcache]; exact List.mem_cons_self
end Verif
