import Verif.Lemmas.FitSession

/-! Helper lemmas: the calls of a session keep its invariant. -/

namespace Verif

open Session

theorem sesInv_setRoi {strict : Bool} {w : Session × FitState} (h : SesInv strict w)
    {roi : Dict (ℚ × ℚ)} (hr : IsDict roi) : SesInv strict (w.1.setRoi roi, w.2) where
  dict := by
    show IsDict (roi.map _)
    unfold IsDict at hr ⊢
    rw [List.map_map]
    exact hr
  alloc := h.alloc
  sets hc := by cases hc
  fits hc := by cases hc

theorem sesInv_setData {strict : Bool} {w : Session × FitState} (h : SesInv strict w) {r : ℕ}
    {shrink : Bool} (hr : r < w.2.next) (hs : shrink = true → Shrinkable w.1.roi (w.2.view r)) :
    SesInv strict (w.1.setData w.2 r shrink).1 := by
  obtain ⟨hm, hf⟩ := shrinkOrCheck_moves h.dict hs
  unfold setData
  cases hx : shrinkOrCheck w.1.roi shrink r w.2 with
  | mk st' res =>
    rw [hx] at hm
    cases res with
    | error e => exact h.step rfl rfl hm id id (fun q hq => .inl hq) fun q hq => .inl hq
    | ok u =>
      have hf' := hf st' u hx
      have key : ∀ ps, SesInv strict ({ w.1 with data := some r, dataPars := ps }, st') := by
        intro ps
        refine h.step rfl rfl hm (by simp) id ?_ ?_
        · intro q hq
          simp only [Session.compared, List.mem_append, Option.mem_toList, Option.some.injEq] at hq ⊢
          rcases hq with (rfl | hq) | hq
          · exact .inr (hr.trans_le hm.next)
          · exact .inl (.inl (.inr hq))
          · exact .inl (.inr hq)
        · intro q hq
          simp only [Session.watched, List.mem_append, Option.mem_toList, Option.some.injEq] at hq ⊢
          rcases hq with (rfl | hq) | hq
          · exact .inr hf'
          · exact .inl (.inl (.inr hq))
          · exact .inl (.inr hq)
      dsimp only
      cases roiPars w.1.roi (st'.view r) with
      | error e => exact key _
      | ok ps => exact key _

theorem sesInv_withFixed {strict : Bool} {w : Session × FitState} (h : SesInv strict w) {r : ℕ}
    {st' : FitState} (hm : Moves w.1.roi w.2 st') (hr : r < st'.next)
    (hf : FitsRoi (st'.view r).cfg w.1.roi) (ps : Option (List PyStr)) :
    SesInv strict ({ w.1 with fixed := some r, fixedPars := ps }, st') := by
  refine h.step rfl rfl hm id (fun _ => .inl (by simp)) ?_ ?_
  · intro q hq
    simp only [Session.compared, List.mem_append, Option.mem_toList, Option.some.injEq] at hq ⊢
    rcases hq with (hq | rfl) | hq
    · exact .inl (.inl (.inl hq))
    · exact .inr hr
    · exact .inl (.inr hq)
  · intro q hq
    simp only [Session.watched, List.mem_append, Option.mem_toList, Option.some.injEq] at hq ⊢
    rcases hq with (hq | rfl) | hq
    · exact .inl (.inl (.inl hq))
    · exact .inr hf
    · exact .inl (.inr hq)

theorem sesInv_setFixed {strict : Bool} {w : Session × FitState} (h : SesInv strict w) {r : ℕ}
    {shrink : Bool} (hr : r < w.2.next) (hs : shrink = true → Shrinkable w.1.roi (w.2.view r)) :
    SesInv strict (w.1.setFixed w.2 r shrink).1 := by
  obtain ⟨hm, hf⟩ := shrinkOrCheck_moves h.dict hs
  unfold setFixed
  cases hx : shrinkOrCheck w.1.roi shrink r w.2 with
  | mk st' res =>
    rw [hx] at hm
    cases res with
    | error e => exact h.step rfl rfl hm id id (fun q hq => .inl hq) fun q hq => .inl hq
    | ok u =>
      have key := sesInv_withFixed h hm (hr.trans_le hm.next) (hf st' u hx)
      dsimp only
      cases roiPars w.1.roi (st'.view r) with
      | error e => exact key _
      | ok ps => exact key _

theorem hasRegion_of_suppliable {roi : Dict (ℚ × ℚ)} (hr : IsDict roi) {d : List (ℕ × ℚ)}
    {ts : List Spectrum} {st : FitState} (h : Suppliable roi d ts st)
    (hs : ∀ e ∈ d, Shrinkable roi (st.view e.1)) : ∀ t ∈ ts, HasRegion t.cfg roi := by
  have h1 := h.shrunk
  clear h
  induction h1 with
  | nil => intro t ht; cases ht
  | cons hx _ ih =>
    intro t' ht'
    rcases List.mem_cons.1 ht' with rfl | ht'
    · obtain ⟨kw, h2, h3, rfl, -⟩ := hx
      have hsh := hs _ List.mem_cons_self
      rw [scale_cfg]
      rcases hsh.edges with he | he
      · exact (shrink_region hsh.wf hsh.aligned hsh.dims hr he h2).2.1
      · exact absurd h3 (he kw h2)
    · exact ih (fun e he => hs e (List.mem_cons_of_mem _ he)) t' ht'

theorem sesInv_makeFixed {strict : Bool} {w : Session × FitState} (h : SesInv strict w)
    {d : List (ℕ × ℚ)} {shrink : Bool} (hd : d ≠ [])
    (hs : shrink = true → ∃ ts, Suppliable w.1.roi d ts w.2 ∧
      ∀ e ∈ d, Shrinkable w.1.roi (w.2.view e.1)) :
    SesInv strict (w.1.makeFixed w.2 d shrink).1 := by
  unfold Session.makeFixed
  cases shrink with
  | false =>
    have hm := (makeFixedBackground_keeps (roi := w.1.roi) d w.2).moves w.1.roi
    cases hx : makeFixedBackground w.1.roi false d w.2 with
    | mk st' res =>
      rw [hx] at hm
      cases res with
      | error e => exact h.step rfl rfl hm id id (fun q hq => .inl hq) fun q hq => .inl hq
      | ok r =>
        obtain ⟨h1, h2⟩ := makeFixedBackground_new hx
        exact sesInv_withFixed h hm h1 (h2 rfl) _
  | true =>
    obtain ⟨ts, hsup, hsh⟩ := hs rfl
    obtain ⟨st', ps, hx, -, htot, -, hobj, hcfg, hcfg', -⟩ := makeFixedBackground_shrunk hd hsup
    have hreg := hasRegion_of_suppliable h.dict hsup hsh
    obtain ⟨t, ht⟩ : ∃ t, t ∈ ts := by
      have hl := hsup.shrunk.length_eq
      cases ts with
      | nil => exact absurd (List.length_eq_zero_iff.1 hl) hd
      | cons t ts => exact ⟨t, List.mem_cons_self⟩
    have hlt := (makeFixedBackground_new hx).1
    have hm : Moves w.1.roi w.2 st' := by
      refine ⟨by omega, fun q hq => by rw [hobj q hq], fun c => ?_⟩
      by_cases hc : c ∈ d.map (fun e => (w.2.objs e.1).cfg)
      · obtain ⟨e, he, rfl⟩ := List.mem_map.1 hc
        right
        rw [hcfg' e he t ht]
        exact hreg t ht
      · exact .inl (hcfg c hc)
    rw [hx]
    refine sesInv_withFixed h hm hlt ?_ _
    rw [(htot.axes t ht).1]
    exact (hreg t ht).fits

theorem shrinkIf_moves {roi : Dict (ℚ × ℚ)} (hr : IsDict roi) {shrink : Bool} {r : ℕ}
    {st : FitState} (h : shrink = true → Shrinkable roi (st.view r)) :
    Moves roi st (shrinkIf roi shrink r st).1 ∧
      ∀ st' u, shrinkIf roi shrink r st = (st', .ok u) →
        (shrink = true ∨ FitsRoi (st.view r).cfg roi) → FitsRoi (st'.view r).cfg roi := by
  cases shrink with
  | false =>
    refine ⟨.refl _ _, fun st' u hx hf => ?_⟩
    change (st, Except.ok ()) = (st', .ok u) at hx
    obtain ⟨rfl, -⟩ := Prod.mk.inj hx
    simpa using hf
  | true =>
    obtain ⟨h1, h2⟩ := shrinkOrCheck_moves hr h
    exact ⟨h1, fun st' u hx _ => h2 st' u hx⟩

theorem sesInv_setSignal {strict : Bool} {w : Session × FitState} (h : SesInv strict w) {r : ℕ}
    {shrink : Bool} (hr : r < w.2.next) (hs : shrink = true → Shrinkable w.1.roi (w.2.view r))
    (hu : strict = true → shrink = false → FitsRoi (w.2.view r).cfg w.1.roi) :
    SesInv strict (w.1.setSignal w.2 r shrink).1 := by
  obtain ⟨hm, hf⟩ := shrinkIf_moves h.dict hs
  unfold setSignal
  cases hx : shrinkIf w.1.roi shrink r w.2 with
  | mk st' res =>
    rw [hx] at hm
    cases res with
    | error e => exact h.step rfl rfl hm id id (fun q hq => .inl hq) fun q hq => .inl hq
    | ok u =>
      have hf' := hf st' u hx
      have key : ∀ ps, SesInv strict ({ w.1 with signal := some r, signalPars := ps }, st') := by
        intro ps
        refine h.step rfl rfl hm id id ?_ ?_
        · intro q hq
          simp only [Session.compared, List.mem_append, Option.mem_toList, Option.some.injEq] at hq ⊢
          rcases hq with hq | rfl
          · exact .inl (.inl hq)
          · exact .inr (hr.trans_le hm.next)
        · intro q hq
          cases strict with
          | false =>
            simp only [Session.watched, Bool.false_eq_true, if_false] at hq ⊢
            exact .inl hq
          | true =>
            simp only [Session.watched, if_true, List.mem_append, Option.mem_toList,
              Option.some.injEq] at hq ⊢
            rcases hq with hq | rfl
            · exact .inl (.inl hq)
            · refine .inr (hf' ?_)
              cases shrink with
              | true => exact .inl rfl
              | false => exact .inr (hu rfl rfl)
      dsimp only
      cases roiPars w.1.roi (st'.view r) with
      | error e => exact key _
      | ok ps => exact key _

theorem sesInv_removeSignal {strict : Bool} {w : Session × FitState} (h : SesInv strict w) :
    SesInv strict (w.1.removeSignal, w.2) := by
  refine h.step rfl rfl (.refl _ _) id id ?_ ?_
  · intro q hq
    simp only [Session.removeSignal, Session.compared, Option.toList_none, List.append_nil] at hq ⊢
    exact .inl (List.mem_append_left _ hq)
  · intro q hq
    simp only [Session.removeSignal, Session.watched, Option.toList_none, ite_self,
      List.append_nil] at hq ⊢
    exact .inl (List.mem_append_left _ hq)

theorem sesInv_setFloating {strict : Bool} {w : Session × FitState} (h : SesInv strict w)
    {keyOf : ℕ → PyStr} {rs : List ℕ} {shrink : Bool}
    (hs : shrink = true → ShrinkableAll w.1.roi rs w.2) :
    SesInv strict (Session.setFloating keyOf w.1 w.2 rs shrink).1 := by
  have hm := floatingLoop_moves (keyOf := keyOf) (config := w.1.config) h.dict hs
  unfold setFloating
  cases hx : floatingLoop keyOf w.1.roi shrink w.1.config w.2 rs with
  | mk c res =>
    obtain ⟨st', res⟩ := res
    rw [hx] at hm
    cases res with
    | error e => exact h.step rfl rfl hm id id (fun q hq => .inl hq) fun q hq => .inl hq
    | ok pss =>
      exact h.step rfl rfl hm id (fun _ => .inr (by simp)) (fun q hq => .inl hq) fun q hq => .inl hq

theorem fit_state {ρ : Type} (mini : Fit → FitM ρ) (ses : Session) (st : FitState) :
    (runFit mini ses st).1 = st ∨ (runFit mini ses st).1 = (mini ses.toFit st).1 := by
  unfold runFit
  split
  · exact .inl rfl
  · split
    · exact .inl rfl
    · right
      cases hx : mini ses.toFit st with
      | mk st' res => cases res <;> rfl

theorem sesInv_run {ρ : Type} {strict : Bool} {w : Session × FitState} (h : SesInv strict w)
    {mini : Fit → FitM ρ}
    (hk : ∀ q ∈ w.1.compared, w.2.next ≤ (mini w.1.toFit w.2).1.next ∧
      ((mini w.1.toFit w.2).1.view q).cfg = (w.2.view q).cfg) :
    SesInv strict (w.1, (runFit mini w.1 w.2).1) := by
  rcases fit_state mini w.1 w.2 with hx | hx
  · rw [hx]; exact h
  · rw [hx]
    refine ⟨h.dict, fun q hq => (h.alloc q hq).trans_le (hk q hq).1, h.sets, fun hc q hq => ?_⟩
    show FitsRoi ((mini w.1.toFit w.2).1.view q).cfg _
    rw [(hk q (watched_compared hq)).2]
    exact h.fits hc q hq

theorem sesInv_fit {ρ : Type} {strict : Bool} {w : Session × FitState} (h : SesInv strict w)
    {mini : Fit → FitM ρ}
    (hk : ∀ q ∈ w.1.compared, w.2.next ≤ (mini w.1.toFit w.2).1.next ∧
      ((mini w.1.toFit w.2).1.view q).cfg = (w.2.view q).cfg) :
    SesInv strict (w.1.fit mini w.2).1 := by
  unfold Session.fit
  by_cases hc : w.1.checked = true
  · rw [if_pos hc]
    exact sesInv_run h hk
  · rw [if_neg hc]
    have h2 := h.checkFitter
    rcases checkFitter_cases w.1 w.2 with ⟨e, he⟩ | ⟨-, -, he⟩
    · rw [he] at h2 ⊢; exact h2
    · rw [he] at h2 ⊢
      cases dumpConfig w.1 w.2 with
      | error e => exact h2
      | ok u => exact sesInv_run h2 hk

theorem sesInv_call {ρ : Type} {strict : Bool} {keyOf : ℕ → PyStr} {mini : Fit → FitM ρ}
    {w : Session × FitState} (h : SesInv strict w) {c : FitCall} (hc : c.Supposed mini strict w) :
    SesInv strict (c.perform keyOf mini w) := by
  cases c with
  | setRoi roi => exact sesInv_setRoi h hc
  | setData r shrink => exact sesInv_setData h hc.1 hc.2
  | setFixed r shrink => exact sesInv_setFixed h hc.1 hc.2
  | makeFixed d shrink => exact sesInv_makeFixed h hc.1 hc.2.2
  | setSignal r shrink => exact sesInv_setSignal h hc.1 hc.2.1 hc.2.2
  | removeSignal => exact sesInv_removeSignal h
  | setFloating rs shrink => exact sesInv_setFloating h hc
  | shrinkAll =>
    exact h.step rfl rfl (shrinkList_moves h.dict hc) id id (fun q hq => .inl hq)
      fun q hq => .inl hq
  | setMinimiser given =>
    show SesInv strict ((w.1.setMinimiser w.2 given).1, w.2)
    unfold setMinimiser
    cases checkAllSpectra w.1 w.2 with
    | error e => exact h
    | ok u => exact ⟨h.dict, h.alloc, h.sets, h.fits⟩
  | setStat stat perBin => exact ⟨h.dict, h.alloc, h.sets, h.fits⟩
  | checkFitter => exact h.checkFitter
  | fit => exact sesInv_fit h hc

theorem sesInv_calls {ρ : Type} {strict : Bool} {keyOf : ℕ → PyStr} {mini : Fit → FitM ρ}
    {w w' : Session × FitState} (h : SesInv strict w) (hc : AfterCalls keyOf mini strict w w') :
    SesInv strict w' := by
  induction hc with
  | nil => exact h
  | snoc c v _ hc ih => exact sesInv_call ih hc

end Verif
