import Verif.Lemmas.FitRegion

/-! Helper lemmas: fits over time. -/

namespace Verif

open Session

/-! ### comparing with the region -/

theorem getDimType_mem {names : List PyStr} {d ty : PyStr} (h : getDimType names d = .ok ty) :
    ∃ n ∈ names, HasDim n d := by
  unfold getDimType at h
  cases hf : (sortedNames names).find? (fun par => getDim par = d) with
  | none => rw [hf] at h; cases h
  | some n =>
    refine ⟨n, ?_, hasDim_iff.2 (by simpa using List.find?_some hf)⟩
    have := List.mem_of_find?_eq_some hf
    simpa only [sortedNames, List.mem_insertionSort] using this

theorem fitsRoi_of_check {s : Spectrum} {roi : Dict (ℚ × ℚ)} (h : checkSpectra roi s = .ok ()) :
    FitsRoi s.cfg roi := by
  unfold checkSpectra at h
  rw [forM_except_ok] at h
  intro e he
  have h1 := h e he
  unfold checkSpectraDim at h1
  cases hty : getDimType s.pars e.1 with
  | error x => rw [hty] at h1; cases h1
  | ok ty =>
    rw [hty] at h1
    simp only [bind, Except.bind] at h1
    cases hp : s.getPar (e.1 ++ '_' :: ty) with
    | error x => rw [hp] at h1; cases h1
    | ok p =>
      rw [hp] at h1
      obtain ⟨hm, hn⟩ := getPar_ok hp
      simp only at h1
      by_cases h2 : npClose e.2.1 p.low
      · rw [if_neg (not_not.2 h2)] at h1
        by_cases h3 : npClose e.2.2 p.high
        · exact ⟨p, hm, ⟨ty, getDimType_no_sep hty, hn⟩, h2, h3⟩
        · rw [if_pos h3] at h1; cases h1
      · rw [if_pos h2] at h1; cases h1

theorem roiPars_of_check {s : Spectrum} {roi : Dict (ℚ × ℚ)} (h : checkSpectra roi s = .ok ()) :
    ∃ ps, roiPars roi s = .ok ps ∧ ps.length = roi.length := by
  unfold checkSpectra at h
  rw [forM_except_ok] at h
  unfold roiPars
  induction roi with
  | nil => exact ⟨[], rfl, rfl⟩
  | cons e roi ih =>
    obtain ⟨ps, h1, h2⟩ := ih fun x hx => h x (List.mem_cons_of_mem _ hx)
    have h3 := h e List.mem_cons_self
    unfold checkSpectraDim at h3
    cases hty : getDimType s.pars e.1 with
    | error x => rw [hty] at h3; cases h3
    | ok ty =>
      refine ⟨(e.1 ++ '_' :: ty) :: ps, ?_, by simp [h2]⟩
      rw [List.mapM_cons, hty]
      simp only [bind, Except.bind, pure, Except.pure] at h1 ⊢
      rw [h1]

theorem checkSpectra_iff {s : Spectrum} (hd : DistinctDims s.cfg)
    (hn : (s.cfg.map SPar.name).Nodup) {roi : Dict (ℚ × ℚ)} :
    checkSpectra roi s = .ok () ↔ FitsRoi s.cfg roi :=
  ⟨fitsRoi_of_check, checkSpectra_ok hd hn⟩

theorem HasRegion.fits {axes : List SPar} {roi : Dict (ℚ × ℚ)} (h : HasRegion axes roi) :
    FitsRoi axes roi := by
  intro e he
  obtain ⟨p, hp, hd, h1, h2⟩ := h e he
  refine ⟨p, hp, hd, ?_, ?_⟩
  · rw [h1, sub_self, abs_zero]; positivity
  · rw [h2, sub_self, abs_zero]; positivity

/-! ### shrinking -/

theorem roiKw_dims {axes : List SPar} (hn : ∀ p ∈ axes, ∃ dim, OfDim p.name dim)
    {roi : Dict (ℚ × ℚ)} {kw : List (PyStr × ℚ)} (h : roiKw (axes.map SPar.name) roi = .ok kw) :
    ∀ e ∈ roi, ∃ p ∈ axes, OfDim p.name e.1 := by
  rw [roiKw_eq] at h
  generalize ([] : List (PyStr × ℚ)) = acc at h
  induction roi generalizing acc with
  | nil => intro e he; cases he
  | cons e roi ih =>
    rw [List.foldlM_cons] at h
    cases hs : roiKwStep (axes.map SPar.name) acc e with
    | error x => rw [hs] at h; cases h
    | ok acc' =>
      rw [hs] at h
      intro x hx
      rcases List.mem_cons.1 hx with rfl | hx
      · unfold roiKwStep at hs
        cases hty : getDimType (axes.map SPar.name) x.1 with
        | error y => rw [hty] at hs; cases hs
        | ok ty =>
          obtain ⟨n, hm, hdim⟩ := getDimType_mem hty
          obtain ⟨p, hp, rfl⟩ := List.mem_map.1 hm
          obtain ⟨dim, hpd⟩ := hn p hp
          have : dim = x.1 := (ofDim_getDim hpd).symm.trans (hasDim_iff.1 hdim)
          exact ⟨p, hp, this ▸ hpd⟩
      · exact ih acc' h x hx

/-- The state moves towards the region: objects keep their configurations, and configurations
stay or get the region. -/
structure Moves (roi : Dict (ℚ × ℚ)) (st st' : FitState) : Prop where
  next : st.next ≤ st'.next
  objs : ∀ q, q < st.next → (st'.objs q).cfg = (st.objs q).cfg
  cfgs : ∀ c, st'.cfgs c = st.cfgs c ∨ HasRegion (st'.cfgs c) roi

theorem Moves.refl (roi : Dict (ℚ × ℚ)) (st : FitState) : Moves roi st st :=
  ⟨le_rfl, fun _ _ => rfl, fun _ => .inl rfl⟩

theorem Moves.trans {roi : Dict (ℚ × ℚ)} {st st' st'' : FitState} (h : Moves roi st st')
    (h' : Moves roi st' st'') : Moves roi st st'' where
  next := h.next.trans h'.next
  objs q hq := by rw [h'.objs q (hq.trans_le h.next), h.objs q hq]
  cfgs c := by
    rcases h'.cfgs c with h1 | h1
    · rw [h1]; exact h.cfgs c
    · exact .inr h1

theorem Moves.fits {roi : Dict (ℚ × ℚ)} {st st' : FitState} (h : Moves roi st st') {q : ℕ}
    (hq : q < st.next) (hf : FitsRoi (st.view q).cfg roi) : FitsRoi (st'.view q).cfg roi := by
  show FitsRoi (st'.cfgs (st'.objs q).cfg) roi
  rw [h.objs q hq]
  rcases h.cfgs (st.objs q).cfg with h1 | h1
  · rw [h1]; exact hf
  · exact h1.fits

/-- Nothing seen through the references of these objects changes. -/
structure SameViews (st st' : FitState) : Prop where
  next : st'.next = st.next
  cfgs : st'.cfgs = st.cfgs
  refs : ∀ q, (st'.objs q).cfg = (st.objs q).cfg
  fit : ∀ q, (st'.objs q).fit = (st.objs q).fit
  params : st'.params = st.params
  cache : st'.cache = st.cache
  view : ∀ q, st'.view q = st.view q

theorem SameViews.refl (st : FitState) : SameViews st st :=
  ⟨rfl, rfl, fun _ => rfl, fun _ => rfl, rfl, rfl, fun _ => rfl⟩

theorem SameViews.moves {st st' : FitState} (h : SameViews st st') (roi : Dict (ℚ × ℚ)) :
    Moves roi st st' :=
  ⟨h.next.ge, fun q _ => h.refs q, fun c => .inl (by rw [h.cfgs])⟩

theorem write_view (st : FitState) (r : ℕ) : SameViews st (st.write r (st.view r)) where
  next := rfl
  cfgs := FitState.write_cfgs_same _ _ _ rfl
  refs := FitState.cfg_write st r _
  fit q := by
    by_cases hq : q = r
    · subst hq; simp only [FitState.write, Function.update_self]
    · rw [FitState.objs_write_old _ _ _ hq]
  params := rfl
  cache := rfl
  view q := by
    by_cases hq : q = r
    · subst hq; rw [FitState.view_write_self, FitState.view_data_norm]
    · exact FitState.view_write_other _ _ _ rfl hq

theorem shrinkSpectra_run (roi : Dict (ℚ × ℚ)) (r : ℕ) (st : FitState) :
    shrinkSpectra roi r st = match roiKw (st.view r).pars roi with
      | .error e => (st, .error e)
      | .ok kw => FitM.call r (fun s => s.shrink kw) st := by
  unfold shrinkSpectra
  rw [FitM.read_bind, FitM.lift_bind]
  cases roiKw (st.view r).pars roi <;> rfl

/-- Shrinking a spectrum that can be shrunk: it gets the region, or it is refused and nothing
changes. -/
theorem shrinkSpectra_shrinkable {roi : Dict (ℚ × ℚ)} (hr : IsDict roi) {r : ℕ} {st : FitState}
    (h : Shrinkable roi (st.view r)) :
    (∃ st', shrinkSpectra roi r st = (st', .ok ()) ∧ Moves roi st st' ∧
      HasRegion (st'.view r).cfg roi ∧ st'.params = st.params ∧ st'.next = st.next ∧
      (∀ q, (st'.objs q).cfg = (st.objs q).cfg) ∧
      (∀ q, (st.objs q).cfg ≠ (st.objs r).cfg → st'.view q = st.view q) ∧
      (st'.view r).cfg.map SPar.name = (st.view r).cfg.map SPar.name) ∨
    (∃ st' e, shrinkSpectra roi r st = (st', .error e) ∧ SameViews st st') := by
  rw [shrinkSpectra_run]
  cases hk : roiKw (st.view r).pars roi with
  | error e => exact .inr ⟨st, e, rfl, .refl st⟩
  | ok kw =>
    obtain ⟨kw', hask⟩ := asksRoi_exists (roiKw_dims h.named hk)
    obtain rfl : kw' = kw := by
      have := roiKw_of_asks h.dims hask hr
      rw [Spectrum.pars, this] at hk
      cases hk; rfl
    rcases h.edges with he | he
    · obtain ⟨h1, h2, h3⟩ := shrink_region h.wf h.aligned h.dims hr he hask
      refine .inl ⟨_, FitM.call_run h1, ⟨le_rfl, fun q _ => FitState.cfg_write _ _ _ _, ?_⟩, ?_, rfl,
        rfl, FitState.cfg_write _ _ _, ?_, ?_⟩
      · intro c
        by_cases hc : c = (st.objs r).cfg
        · right
          simp only [FitState.write, hc, Function.update_self]
          exact h2
        · left
          simp only [FitState.write, Function.update_of_ne hc]
      · rw [FitState.view_write_self]; exact h2
      · intro q hq
        exact FitState.view_write_old _ _ _ (fun h => hq (by rw [h])) hq
      · rw [FitState.view_write_self]; exact shrink_names _ _
    · have h1 := he kw' hask
      cases hx : ((st.view r).shrink kw').err with
      | none => exact absurd hx h1
      | some e =>
        refine .inr ⟨st.write r (st.view r), e, ?_, write_view st r⟩
        unfold FitM.call
        simp only [hx, c20_rejected_shrink_unchanged _ h.wf _ h1]

theorem shrinkSpectra_moves {roi : Dict (ℚ × ℚ)} (hr : IsDict roi) {r : ℕ} {st : FitState}
    (h : Shrinkable roi (st.view r)) : Moves roi st (shrinkSpectra roi r st).1 := by
  rcases shrinkSpectra_shrinkable hr h with ⟨st', h1, h2, -⟩ | ⟨st', e, h1, h2⟩
  · rw [h1]; exact h2
  · rw [h1]; exact h2.moves roi

theorem forM_nil_run {α : Type} (f : α → FitM Unit) (st : FitState) :
    ([] : List α).forM f st = (st, .ok ()) := rfl

theorem forM_cons_run {α : Type} (f : α → FitM Unit) (a : α) (l : List α) (st : FitState) :
    (a :: l).forM f st = match f a st with
      | (st', .ok _) => l.forM f st'
      | (st', .error e) => (st', .error e) := by
  show (f a >>= fun _ => l.forM f) st = _
  rw [FitM.bind_run]
  obtain ⟨st', res⟩ := f a st
  cases res <;> rfl

theorem shrinkList_moves {roi : Dict (ℚ × ℚ)} (hr : IsDict roi) {rs : List ℕ} {st : FitState}
    (h : ShrinkableAll roi rs st) : Moves roi st (shrinkList roi rs st).1 := by
  unfold shrinkList
  induction rs generalizing st with
  | nil => exact .refl _ _
  | cons r rs ih =>
    obtain ⟨h1, h2⟩ := h
    have hm := shrinkSpectra_moves hr h1
    rw [forM_cons_run]
    cases hx : shrinkSpectra roi r st with
    | mk st' res =>
      rw [hx] at hm h2
      cases res with
      | error e => exact hm
      | ok u => exact hm.trans (ih h2)

/-! ### making a fixed background -/

/-- Whatever the method does to the state is in the relation. -/
def Within {α : Type} (R : FitState → FitState → Prop) (m : FitM α) : Prop := ∀ st, R st (m st).1

theorem Within.bind {α β : Type} {R : FitState → FitState → Prop}
    (ht : ∀ a b c, R a b → R b c → R a c) {m : FitM α} {f : α → FitM β} (hm : Within R m)
    (hf : ∀ a, Within R (f a)) : Within R (m >>= f) := by
  intro st
  have h1 := hm st
  cases hx : m st with
  | mk st' res =>
    rw [hx] at h1
    cases res with
    | error e => rw [FitM.bind_error hx]; exact h1
    | ok a => rw [FitM.bind_ok hx]; exact ht _ _ _ h1 (hf a st')

theorem Within.forM {α : Type} {R : FitState → FitState → Prop} (hr : ∀ a, R a a)
    (ht : ∀ a b c, R a b → R b c → R a c) {f : α → FitM Unit} (hf : ∀ a, Within R (f a)) :
    ∀ l : List α, Within R (l.forM f)
  | [] => fun st => hr st
  | a :: l => Within.bind ht (hf a) fun _ => Within.forM hr ht hf l

/-- No configuration changes. -/
structure Keeps (st st' : FitState) : Prop where
  next : st.next ≤ st'.next
  objs : ∀ q, q < st.next → (st'.objs q).cfg = (st.objs q).cfg
  cfgs : st'.cfgs = st.cfgs

theorem Keeps.refl (st : FitState) : Keeps st st := ⟨le_rfl, fun _ _ => rfl, rfl⟩

theorem Keeps.trans {a b c : FitState} (h : Keeps a b) (h' : Keeps b c) : Keeps a c :=
  ⟨h.next.trans h'.next, fun q hq => by rw [h'.objs q (hq.trans_le h.next), h.objs q hq],
    h'.cfgs.trans h.cfgs⟩

theorem Keeps.moves {a b : FitState} (h : Keeps a b) (roi : Dict (ℚ × ℚ)) : Moves roi a b :=
  ⟨h.next, h.objs, fun c => .inl (by rw [h.cfgs])⟩

theorem keeps_call {r : ℕ} {f : Spectrum → Outcome} (hf : ∀ s, (f s).st.cfg = s.cfg) :
    Within Keeps (FitM.call r f) := fun _ =>
  ⟨le_rfl, fun _ _ => FitState.cfg_write _ _ _ _, FitState.write_cfgs_same _ _ _ (hf _)⟩

theorem keeps_copy (r : ℕ) : Within Keeps (FitM.copy r) := fun st =>
  ⟨Nat.le_succ _, fun q hq => by
    show ((st.copy r).objs q).cfg = _
    rw [FitState.objs_copy_old st r hq.ne], rfl⟩

theorem add_cfg (s t : Spectrum) : (s.add t).st.cfg = s.cfg := by
  unfold Spectrum.add
  cases Spectrum.addCheck s t <;> rfl

theorem scale_cfg (s : Spectrum) (n : ℚ) : (s.scale n).st.cfg = s.cfg := by
  unfold Spectrum.scale
  split <;> rfl

theorem makeFixed_within {R : FitState → FitState → Prop} (hr : ∀ a, R a a)
    (ht : ∀ a b c, R a b → R b c → R a c) (hk : ∀ a b, Keeps a b → R a b)
    {roi : Dict (ℚ × ℚ)} {shrink : Bool} (hs : ∀ c, Within R (shrinkIf roi shrink c))
    (d : List (ℕ × ℚ)) : Within R (makeFixed roi shrink d) := by
  have hprep : ∀ e : ℕ × ℚ, Within R (prepareFixed roi shrink e) := fun e =>
    Within.bind ht (fun st => hk _ _ (keeps_copy e.1 st)) fun c =>
      Within.bind ht (hs c) fun _ =>
        Within.bind ht (fun st => hk _ _ (keeps_call (fun s => scale_cfg s e.2) st)) fun _ st => hr st
  cases d with
  | nil => exact fun st => hr st
  | cons e d =>
    refine Within.bind ht (hprep e) fun total => Within.bind ht ?_ fun _ =>
      Within.bind ht (Within.forM hr ht (fun e => Within.bind ht (hprep e) fun c =>
        Within.bind ht (fun st => hr st) fun s st => hk _ _ (keeps_call (fun t => add_cfg t s) st)) d)
        fun _ st => hr st
    intro st
    refine hk _ _ ⟨le_rfl, fun q _ => ?_, rfl⟩
    show (Function.update st.objs total _ q).cfg = _
    by_cases hq : q = total
    · subst hq; rw [Function.update_self]
    · rw [Function.update_of_ne hq]

theorem makeFixedBackground_within {R : FitState → FitState → Prop} (hr : ∀ a, R a a)
    (ht : ∀ a b c, R a b → R b c → R a c) (hk : ∀ a b, Keeps a b → R a b)
    {roi : Dict (ℚ × ℚ)} {shrink : Bool} (hs : ∀ c, Within R (shrinkIf roi shrink c))
    (d : List (ℕ × ℚ)) : Within R (makeFixedBackground roi shrink d) :=
  Within.bind ht (makeFixed_within hr ht hk hs d) fun _ =>
    Within.bind ht (fun st => hr st) fun _ => Within.bind ht (fun st => hr st) fun _ =>
      Within.bind ht (fun st => hr st) fun _ st => hr st

theorem makeFixedBackground_keeps {roi : Dict (ℚ × ℚ)} (d : List (ℕ × ℚ)) :
    Within Keeps (makeFixedBackground roi false d) :=
  makeFixedBackground_within (roi := roi) (shrink := false) Keeps.refl (fun _ _ _ => Keeps.trans) (fun _ _ => id)
    (fun _ st => Keeps.refl st) d

/-- References are only added. -/
def Grows (st st' : FitState) : Prop := st.next ≤ st'.next

theorem grows_trans (a b c : FitState) (h : Grows a b) (h' : Grows b c) : Grows a c := le_trans h h'

theorem grows_shrinkIf (roi : Dict (ℚ × ℚ)) (shrink : Bool) (c : ℕ) :
    Within Grows (shrinkIf roi shrink c) := by
  cases shrink with
  | false => exact fun st => le_rfl
  | true =>
    intro st
    show st.next ≤ (shrinkSpectra roi c st).1.next
    rw [shrinkSpectra_run]
    cases roiKw (st.view c).pars roi <;> exact le_rfl

/-- The fixed background exists afterwards. -/
theorem makeFixed_new {roi : Dict (ℚ × ℚ)} {shrink : Bool} {d : List (ℕ × ℚ)} {st st' : FitState}
    {r : ℕ} (h : makeFixed roi shrink d st = (st', .ok r)) : r < st'.next := by
  cases d with
  | nil => cases h
  | cons e d =>
    have hprep : ∀ e : ℕ × ℚ, ∀ (st st' : FitState) r, prepareFixed roi shrink e st = (st', .ok r) →
        r < st'.next := by
      intro e st st' r h
      unfold prepareFixed at h
      rw [FitM.copy_bind] at h
      have h1 := grows_shrinkIf roi shrink st.next (st.copy e.1)
      cases hs : shrinkIf roi shrink st.next (st.copy e.1) with
      | mk st1 res =>
        rw [hs] at h1
        cases res with
        | error x => rw [FitM.bind_error hs] at h; cases h
        | ok u =>
          rw [FitM.bind_ok hs] at h
          cases hc : FitM.call st.next (fun s => s.scale e.2) st1 with
          | mk st2 res =>
            have h2 := (keeps_call (r := st.next) (fun s => scale_cfg s e.2) st1).next
            rw [hc] at h2
            cases res with
            | error x => rw [FitM.bind_error hc] at h; cases h
            | ok u =>
              rw [FitM.bind_ok hc] at h
              cases h
              have h3 : st.next + 1 ≤ st1.next := h1
              exact lt_of_lt_of_le (Nat.lt_succ_self _) (h3.trans h2)
    change (prepareFixed roi shrink e >>= _) st = _ at h
    cases hp : prepareFixed roi shrink e st with
    | mk st1 res =>
      cases res with
      | error x => rw [FitM.bind_error hp] at h; cases h
      | ok total =>
        rw [FitM.bind_ok hp, FitM.change_bind] at h
        have hlt := hprep e st st1 total hp
        set st2 : FitState := { st1 with
          objs := Function.update st1.objs total { st1.objs total with name := lit "Fixed Background" } }
        have hg : Within Grows (appendFixed roi shrink total d) := by
          refine Within.forM (fun a => Nat.le_refl a.next) grows_trans (fun e => ?_) d
          refine Within.bind grows_trans ?_ fun c => ?_
          · exact Within.bind grows_trans (fun st => (keeps_copy e.1 st).next) fun c =>
              Within.bind grows_trans (grows_shrinkIf roi shrink c) fun _ =>
                Within.bind grows_trans (fun st => (keeps_call (fun s => scale_cfg s e.2) st).next)
                  fun _ st => le_rfl
          · exact Within.bind grows_trans (fun st => le_rfl) fun s st =>
              (keeps_call (fun t => add_cfg t s) st).next
        have hg2 := hg st2
        cases ha : appendFixed roi shrink total d st2 with
        | mk st3 res =>
          rw [ha] at hg2
          cases res with
          | error x => rw [FitM.bind_error ha] at h; cases h
          | ok u =>
            rw [FitM.bind_ok ha] at h
            cases h
            exact hlt.trans_le hg2

/-- A fixed background that is set exists; without shrinking it has been compared with the
region. -/
theorem makeFixedBackground_new {roi : Dict (ℚ × ℚ)} {shrink : Bool} {d : List (ℕ × ℚ)}
    {st st' : FitState} {r : ℕ} {ps : List PyStr}
    (h : makeFixedBackground roi shrink d st = (st', .ok (r, ps))) :
    r < st'.next ∧ (shrink = false → FitsRoi (st'.view r).cfg roi) := by
  unfold makeFixedBackground at h
  cases hm : makeFixed roi shrink d st with
  | mk st1 res =>
    cases res with
    | error x => rw [FitM.bind_error hm] at h; cases h
    | ok total =>
      rw [FitM.bind_ok hm, FitM.read_bind, FitM.lift_bind] at h
      have hlt := makeFixed_new hm
      cases shrink with
      | true =>
        simp only [if_true] at h
        rw [FitM.lift_bind] at h
        cases hp : roiPars roi (st1.view total) with
        | error x => rw [hp] at h; cases h
        | ok ps => rw [hp] at h; cases h; exact ⟨hlt, by simp⟩
      | false =>
        simp only [Bool.false_eq_true, if_false] at h
        cases hc : checkSpectra roi (st1.view total) with
        | error x => rw [hc] at h; cases h
        | ok u =>
          rw [hc] at h
          simp only at h
          rw [FitM.lift_bind] at h
          cases hp : roiPars roi (st1.view total) with
          | error x => rw [hp] at h; cases h
          | ok ps => rw [hp] at h; cases h; exact ⟨hlt, fun _ => fitsRoi_of_check hc⟩

/-! ### floating backgrounds -/

theorem addConfig_state (keyOf : ℕ → PyStr) (config : Dict (ℕ × Bool)) (st : FitState) (r : ℕ) :
    ∃ P, (addConfig keyOf config st r).2 = { st with params := P } := by
  unfold addConfig
  generalize (st.objs r).fit.getD [] = ps
  have : ∀ (ps : List ℕ) (c : Dict (ℕ × Bool) × FitState), (∃ P, c.2 = { st with params := P }) →
      ∃ P, (ps.foldl (fun c p => (dictSet c.1 (keyOf p) (p, false),
        { c.2 with params := Function.update c.2.params p { c.2.params p with name := keyOf p } }))
        c).2 = { st with params := P } := by
    intro ps
    induction ps with
    | nil => exact fun c h => h
    | cons p ps ih =>
      rintro c ⟨P, hP⟩
      rw [List.foldl_cons]
      refine ih _ ?_
      simp only [hP]
      exact ⟨_, rfl⟩
  exact this ps (config, st) ⟨st.params, rfl⟩

theorem shrinkSpectra_params (roi : Dict (ℚ × ℚ)) (r : ℕ) (st : FitState) (P : ℕ → Param) :
    shrinkSpectra roi r { st with params := P } =
      ({ (shrinkSpectra roi r st).1 with params := P }, (shrinkSpectra roi r st).2) := by
  rw [shrinkSpectra_run, shrinkSpectra_run]
  show (match roiKw (st.view r).pars roi with
    | .error e => _
    | .ok kw => _) = _
  cases roiKw (st.view r).pars roi <;> rfl

theorem ShrinkableAll.params {roi : Dict (ℚ × ℚ)} {rs : List ℕ} {st : FitState}
    (h : ShrinkableAll roi rs st) (P : ℕ → Param) : ShrinkableAll roi rs { st with params := P } := by
  induction rs generalizing st with
  | nil => trivial
  | cons r rs ih =>
    refine ⟨h.1, ?_⟩
    rw [shrinkSpectra_params]
    exact ih h.2

theorem moves_params (roi : Dict (ℚ × ℚ)) (st : FitState) (P : ℕ → Param) :
    Moves roi st { st with params := P } := ⟨le_rfl, fun _ _ => rfl, fun _ => .inl rfl⟩

theorem floatingLoop_moves {keyOf : ℕ → PyStr} {roi : Dict (ℚ × ℚ)} (hr : IsDict roi)
    {shrink : Bool} {rs : List ℕ} :
    ∀ {config : Dict (ℕ × Bool)} {st : FitState}, (shrink = true → ShrinkableAll roi rs st) →
    Moves roi st (floatingLoop keyOf roi shrink config st rs).2.1 := by
  induction rs with
  | nil => intro config st _; exact .refl _ _
  | cons r rs ih =>
    intro config st h
    obtain ⟨P, hP⟩ := addConfig_state keyOf config st r
    rw [floatingLoop, hP]
    have hm : Moves roi st (shrinkOrCheck roi shrink r { st with params := P }).1 ∧
        (shrink = true → ShrinkableAll roi rs
          (shrinkOrCheck roi shrink r { st with params := P }).1) := by
      cases shrink with
      | false => exact ⟨moves_params _ _ _, by simp⟩
      | true =>
        obtain ⟨h1, h2⟩ := h rfl
        show Moves roi st (shrinkSpectra roi r { st with params := P }).1 ∧
          (_ → ShrinkableAll roi rs (shrinkSpectra roi r { st with params := P }).1)
        rw [shrinkSpectra_params]
        exact ⟨(shrinkSpectra_moves hr h1).trans (moves_params _ _ _), fun _ => h2.params P⟩
    cases hx : shrinkOrCheck roi shrink r { st with params := P } with
    | mk st1 res =>
      rw [hx] at hm
      cases res with
      | error e => exact hm.1
      | ok u =>
        dsimp only
        cases hp : roiPars roi (st1.view r) with
        | error e => exact hm.1
        | ok ps =>
          dsimp only
          have := hm.1.trans (ih (config := (addConfig keyOf config st r).1) hm.2)
          cases hl : floatingLoop keyOf roi shrink (addConfig keyOf config st r).1 st1 rs with
          | mk c res =>
            obtain ⟨st2, res⟩ := res
            rw [hl] at this
            cases res <;> exact this

/-! ### the invariant of a session -/

/-- The spectra of a fit that are known to have the range of the region once it is checked. -/
def Session.watched (ses : Session) (strict : Bool) : List ℕ :=
  ses.data.toList ++ ses.fixed.toList ++ (if strict = true then ses.signal.toList else [])

/-- The invariant. -/
structure SesInv (strict : Bool) (w : Session × FitState) : Prop where
  dict : IsDict w.1.roi
  alloc : ∀ q ∈ w.1.compared, q < w.2.next
  sets : w.1.checked = true → w.1.data ≠ none ∧ (w.1.fixed ≠ none ∨ w.1.floating ≠ none)
  fits : w.1.checked = true → ∀ q ∈ w.1.watched strict, FitsRoi (w.2.view q).cfg w.1.roi

theorem watched_compared {ses : Session} {strict : Bool} {q : ℕ} (h : q ∈ ses.watched strict) :
    q ∈ ses.compared := by
  unfold Session.watched at h
  unfold Session.compared
  cases strict with
  | true => simpa using h
  | false =>
    simp only [Bool.false_eq_true, if_false, List.append_nil] at h
    exact List.mem_append_left _ h

theorem SesInv.step {strict : Bool} {w w' : Session × FitState} (h : SesInv strict w)
    (hroi : w'.1.roi = w.1.roi) (hck : w'.1.checked = w.1.checked)
    (hm : Moves w.1.roi w.2 w'.2)
    (hd : w.1.data ≠ none → w'.1.data ≠ none)
    (hb : (w.1.fixed ≠ none ∨ w.1.floating ≠ none) → (w'.1.fixed ≠ none ∨ w'.1.floating ≠ none))
    (hnew : ∀ q ∈ w'.1.compared, q ∈ w.1.compared ∨ q < w'.2.next)
    (hfit : ∀ q ∈ w'.1.watched strict, q ∈ w.1.watched strict ∨
      FitsRoi (w'.2.view q).cfg w.1.roi) : SesInv strict w' where
  dict := by rw [hroi]; exact h.dict
  alloc q hq := by
    rcases hnew q hq with h1 | h1
    · exact (h.alloc q h1).trans_le hm.next
    · exact h1
  sets hc := by
    rw [hck] at hc
    exact (h.sets hc).imp hd hb
  fits hc q hq := by
    rw [hroi]
    rcases hfit q hq with h1 | h1
    · rw [hck] at hc
      exact hm.fits (h.alloc q (watched_compared h1)) (h.fits hc q h1)
    · exact h1

/-- A setter's first lines: moves, and a spectrum that is accepted fits. -/
theorem shrinkOrCheck_moves {roi : Dict (ℚ × ℚ)} (hr : IsDict roi) {shrink : Bool} {r : ℕ}
    {st : FitState} (h : shrink = true → Shrinkable roi (st.view r)) :
    Moves roi st (shrinkOrCheck roi shrink r st).1 ∧
      ∀ st' u, shrinkOrCheck roi shrink r st = (st', .ok u) → FitsRoi (st'.view r).cfg roi := by
  cases shrink with
  | false =>
    refine ⟨.refl _ _, fun st' u hx => ?_⟩
    change (st, checkSpectra roi (st.view r)) = (st', .ok u) at hx
    obtain ⟨rfl, hx'⟩ := Prod.mk.inj hx
    exact fitsRoi_of_check hx'
  | true =>
    show Moves roi st (shrinkSpectra roi r st).1 ∧
      ∀ st' u, shrinkSpectra roi r st = (st', .ok u) → _
    refine ⟨shrinkSpectra_moves hr (h rfl), fun st' u hx => ?_⟩
    rcases shrinkSpectra_shrinkable hr (h rfl) with ⟨st1, h1, -, h2, -⟩ | ⟨st1, e, h1, -⟩
    · rw [h1] at hx; cases hx; exact h2.fits
    · rw [h1] at hx; cases hx

theorem checkSet_fits {roi : Dict (ℚ × ℚ)} {st : FitState} {r : ℕ} {pars : Option (List PyStr)}
    (h : checkSet roi st r pars = .ok ()) : FitsRoi (st.view r).cfg roi := by
  unfold checkSet at h
  split at h
  · cases h
  · exact fitsRoi_of_check h

theorem except_seq_ok {x y : Except PyErr Unit} (h : (do x; y) = .ok ()) : x = .ok () ∧ y = .ok () := by
  cases x with
  | error e => cases h
  | ok u => exact ⟨rfl, h⟩

theorem checkAllSpectra_fits {ses : Session} {st : FitState} (h : checkAllSpectra ses st = .ok ()) :
    ses.data ≠ none ∧ (ses.fixed ≠ none ∨ ses.floating ≠ none) ∧
      ∀ q ∈ ses.compared, FitsRoi (st.view q).cfg ses.roi := by
  unfold checkAllSpectra at h
  cases hd : ses.data with
  | none => rw [hd] at h; cases h
  | some d =>
    rw [hd] at h
    obtain ⟨h1, h2⟩ := except_seq_ok h
    split at h2
    · cases h2
    · next hb =>
      obtain ⟨h3, h4⟩ := except_seq_ok h2
      obtain ⟨h4, -⟩ := except_seq_ok h4
      refine ⟨by simp, by rw [not_and_or] at hb; exact hb, ?_⟩
      intro q hq
      unfold Session.compared at hq
      simp only [List.mem_append, Option.mem_toList, hd, Option.some.injEq] at hq
      rcases hq with (rfl | hq) | hq
      · exact checkSet_fits h1
      · unfold checkOptional at h3; rw [hq] at h3; exact checkSet_fits h3
      · unfold checkOptional at h4; rw [hq] at h4; exact checkSet_fits h4

/-- `check_fitter` only marks the fit as checked, and only after comparing. -/
theorem checkFitter_cases (ses : Session) (st : FitState) :
    (∃ e, checkFitter ses st = (ses, .error e)) ∨
    (checkAllSpectra ses st = .ok () ∧ checkSettings ses = .ok () ∧
      checkFitter ses st = ({ ses with checked := true }, dumpConfig ses st)) := by
  unfold checkFitter
  cases h1 : checkAllSpectra ses st with
  | error e => exact .inl ⟨e, rfl⟩
  | ok u =>
    cases h2 : checkSettings ses with
    | error e => exact .inl ⟨e, rfl⟩
    | ok v => exact .inr ⟨rfl, rfl, rfl⟩

theorem SesInv.checkFitter {strict : Bool} {w : Session × FitState} (h : SesInv strict w) :
    SesInv strict ((w.1.checkFitter w.2).1, w.2) := by
  rcases checkFitter_cases w.1 w.2 with ⟨e, he⟩ | ⟨h1, -, h2⟩
  · rw [he]; exact h
  · rw [h2]
    obtain ⟨a, b, c⟩ := checkAllSpectra_fits h1
    exact ⟨h.dict, h.alloc, fun _ => ⟨a, b⟩, fun _ q hq => c q (watched_compared hq)⟩

end Verif
