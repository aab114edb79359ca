import Verif.Lemmas.Fit
import Verif.Lemmas.Add
import Verif.Lemmas.Config
import Verif.Props.Add

/-! Helper lemmas about making the fixed background. -/

namespace Verif

open Spectrum

theorem ofDim_getDim {n d : PyStr} (h : OfDim n d) : getDim n = d := hasDim_iff.1 (.inl h)

theorem getDimType_of {axes : List SPar} (hd : DistinctDims axes) {p : SPar} (hp : p ∈ axes)
    {dim : PyStr} (h : OfDim p.name dim) :
    ∃ ty, getDimType (axes.map SPar.name) dim = .ok ty ∧ p.name = dim ++ '_' :: ty := by
  obtain ⟨t, ht, hn⟩ := h
  refine ⟨t, ?_, hn⟩
  unfold getDimType
  have hex : ((sortedNames (axes.map SPar.name)).find? (fun par => getDim par = dim)).isSome := by
    rw [List.find?_isSome]
    refine ⟨p.name, ?_, by simp [hn, getDim_append ht]⟩
    simp only [sortedNames, List.mem_insertionSort]
    exact List.mem_map_of_mem hp
  obtain ⟨n, hn'⟩ := Option.isSome_iff_exists.1 hex
  have h1 : n ∈ axes.map SPar.name := by
    have := List.mem_of_find?_eq_some hn'
    simpa only [sortedNames, List.mem_insertionSort] using this
  have h2 : getDim n = dim := by simpa using List.find?_some hn'
  obtain ⟨q, hq, rfl⟩ := List.mem_map.1 h1
  have : q = p := hd q hq p hp dim (hasDim_iff.2 h2) (.inl ⟨t, ht, hn⟩)
  subst this
  rw [hn']
  simp only [hn, lastPart_append ht]

theorem append_low_inj {a b : PyStr} : a ++ lit "_low" = b ++ lit "_low" ↔ a = b :=
  ⟨fun h => List.append_cancel_right h, fun h => by rw [h]⟩

theorem append_high_inj {a b : PyStr} : a ++ lit "_high" = b ++ lit "_high" ↔ a = b :=
  ⟨fun h => List.append_cancel_right h, fun h => by rw [h]⟩

theorem low_ne_high {a b : PyStr} : a ++ lit "_low" ≠ b ++ lit "_high" := by
  intro h
  have h1 := congrArg List.getLast? h
  simp at h1

/-- One round of the loop that collects the keyword arguments. -/
def roiKwStep (names : List PyStr) (kw : List (PyStr × ℚ)) (e : PyStr × (ℚ × ℚ)) :
    Except PyErr (List (PyStr × ℚ)) := do
  let ty ← getDimType names e.1
  let par := e.1 ++ '_' :: ty
  pure (dictSet (dictSet kw (par ++ lit "_low") e.2.1) (par ++ lit "_high") e.2.2)

theorem roiKw_eq (names : List PyStr) (roi : Dict (ℚ × ℚ)) :
    roiKw names roi = roi.foldlM (roiKwStep names) [] := rfl

/-- The keyword arguments are those that ask for the region. -/
theorem roiKw_of_asks {axes : List SPar} (hd : DistinctDims axes) {roi : Dict (ℚ × ℚ)}
    {kw : List (PyStr × ℚ)} (h : AsksRoi axes roi kw) (hr : IsDict roi) :
    roiKw (axes.map SPar.name) roi = .ok kw := by
  have key : ∀ acc : List (PyStr × ℚ),
      (∀ e ∈ acc, ∃ n d, OfDim n d ∧ d ∉ roi.map Prod.fst ∧
        (e.1 = n ++ lit "_low" ∨ e.1 = n ++ lit "_high")) →
      roi.foldlM (roiKwStep (axes.map SPar.name)) acc = .ok (acc ++ kw) := by
    induction h with
    | nil => intro acc _; simp; rfl
    | cons p dim low high roi kw hp hpd h ih =>
      intro acc hacc
      rw [IsDict, List.map_cons, List.nodup_cons] at hr
      obtain ⟨ty, h1, h2⟩ := getDimType_of hd hp hpd
      have hfresh : ∀ e ∈ acc, e.1 ≠ p.name ++ lit "_low" ∧ e.1 ≠ p.name ++ lit "_high" := by
        intro e he
        obtain ⟨n, d, hn, hdr, hk⟩ := hacc e he
        have hne : n ≠ p.name := by
          rintro rfl
          have : d = dim := (ofDim_getDim hn).symm.trans (ofDim_getDim hpd)
          exact hdr (by simp [this])
        rcases hk with hk | hk <;> rw [hk]
        · exact ⟨fun h => hne (append_low_inj.1 h), low_ne_high⟩
        · exact ⟨fun h => low_ne_high h.symm, fun h => hne (append_high_inj.1 h)⟩
      have hstep : roiKwStep (axes.map SPar.name) acc (dim, (low, high)) =
          .ok (acc ++ [(p.name ++ lit "_low", low), (p.name ++ lit "_high", high)]) := by
        unfold roiKwStep
        simp only [h1, bind, Except.bind, pure, Except.pure, ← h2]
        rw [dictSet_fresh, dictSet_fresh, List.append_assoc]
        · rfl
        · intro hm
          obtain ⟨e, he, heq⟩ := List.mem_map.1 hm
          exact (hfresh e he).1 heq
        · intro hm
          obtain ⟨e, he, heq⟩ := List.mem_map.1 hm
          rw [dictSet_fresh] at he
          · rcases List.mem_append.1 he with he | he
            · exact (hfresh e he).2 heq
            · rw [List.mem_singleton.1 he] at heq
              exact low_ne_high heq
          · intro hm'
            obtain ⟨e', he', heq'⟩ := List.mem_map.1 hm'
            exact (hfresh e' he').1 heq'
      rw [List.foldlM_cons, hstep]
      simp only [bind, Except.bind]
      rw [ih hr.2, List.append_assoc]
      · rfl
      · intro e he
        rcases List.mem_append.1 he with he | he
        · obtain ⟨n, d, hn, hdr, hk⟩ := hacc e he
          exact ⟨n, d, hn, fun h => hdr (List.mem_cons_of_mem _ h), hk⟩
        · refine ⟨p.name, dim, hpd, hr.1, ?_⟩
          simp only [List.mem_cons, List.not_mem_nil, or_false] at he
          rcases he with rfl | rfl
          exacts [.inl rfl, .inr rfl]
  have := key [] (by simp)
  simpa [roiKw_eq] using this

/-! ### one spectrum -/

/-- What one round prepares: shrunk if asked, then scaled. -/
def Prep (roi : Dict (ℚ × ℚ)) (shrink : Bool) (s : Spectrum) (n : ℚ) (t : Spectrum) : Prop :=
  ∃ u : Spectrum, (if shrink then ∃ kw, roiKw s.pars roi = .ok kw ∧ (s.shrink kw).err = none ∧
      u = (s.shrink kw).st else u = s) ∧ u.numDecays ≠ 0 ∧
    t = { u with data := u.data.smul (n / u.numDecays), numDecays := n }

/-- The state after preparing one spectrum. -/
structure Prepared (st : FitState) (r : ℕ) (t : Spectrum) (st1 : FitState) : Prop where
  next : st1.next = st.next + 1
  objs : ∀ q, q ≠ st.next → st1.objs q = st.objs q
  cfgs : st1.cfgs = Function.update st.cfgs (st.objs r).cfg t.cfg
  view : st1.view st.next = { t with data := t.data.norm }
  cfg : (st1.objs st.next).cfg = (st.objs r).cfg

theorem scale_run {s : Spectrum} (n : ℚ) (h : s.numDecays ≠ 0) :
    s.scale n = .ok { s with data := s.data.smul (n / s.numDecays), numDecays := n } := by
  unfold Spectrum.scale; rw [if_neg h]

theorem prepareFixed_run {roi : Dict (ℚ × ℚ)} {shrink : Bool} {st : FitState} {r : ℕ} {n : ℚ}
    {t : Spectrum} (h : Prep roi shrink (st.view r) n t) :
    ∃ st1, prepareFixed roi shrink (r, n) st = (st1, .ok st.next) ∧ Prepared st r t st1 := by
  obtain ⟨u, hu, hnd, ht⟩ := h
  -- the state after shrinking
  have hshr : ∃ st1, shrinkIf roi shrink st.next (st.copy r) = (st1, .ok ()) ∧
      st1.next = st.next + 1 ∧ (∀ q, q ≠ st.next → st1.objs q = st.objs q) ∧
      st1.cfgs = Function.update st.cfgs (st.objs r).cfg u.cfg ∧
      st1.view st.next = { u with data := u.data.norm } ∧
      (st1.objs st.next).cfg = (st.objs r).cfg := by
    cases shrink with
    | false =>
      simp only [Bool.false_eq_true, if_false] at hu
      subst hu
      refine ⟨st.copy r, rfl, rfl, fun q hq => st.objs_copy_old r hq, ?_, ?_, ?_⟩
      · simp only [FitState.copy_cfgs]
        exact (Function.update_eq_self _ _).symm
      · rw [FitState.view_copy_new, FitState.view_data_norm]
      · rw [FitState.objs_copy_new]
    | true =>
      simp only [if_true] at hu
      obtain ⟨kw, h1, h2, rfl⟩ := hu
      have hv := st.view_copy_new r
      refine ⟨(st.copy r).write st.next ((st.view r).shrink kw).st, ?_, rfl, ?_, ?_, ?_, ?_⟩
      · unfold shrinkIf shrinkSpectra
        rw [if_pos rfl, FitM.read_bind, hv, h1, FitM.lift_bind]
        dsimp only
        rw [FitM.call_run (by rw [hv]; exact h2), hv]
      · intro q hq
        rw [FitState.objs_write_old _ _ _ hq, FitState.objs_copy_old st r hq]
      · simp only [FitState.write, FitState.copy_cfgs, FitState.objs_copy_new]
      · exact FitState.view_write_self _ _ _
      · rw [FitState.cfg_write, FitState.objs_copy_new]
  obtain ⟨st1, e1, e2, e3, e4, e5, e6⟩ := hshr
  have hscale : ((st1.view st.next).scale n).err = none := by
    rw [e5, scale_run]
    · rfl
    · exact hnd
  have hst : ((st1.view st.next).scale n).st =
      { u with data := u.data.norm.smul (n / u.numDecays), numDecays := n } := by
    rw [e5, scale_run]
    · rfl
    · exact hnd
  refine ⟨st1.write st.next ((st1.view st.next).scale n).st, ?_, ?_, ?_, ?_, ?_, ?_⟩
  · unfold prepareFixed
    rw [FitM.copy_bind, FitM.bind_ok e1, FitM.bind_ok (FitM.call_run (f := fun s => s.scale n) hscale)]
    rfl
  · exact e2
  · intro q hq
    rw [FitState.objs_write_old _ _ _ hq, e3 q hq]
  · simp only [FitState.write, e6, hst, ht, e4, Function.update_idem]
  · rw [FitState.view_write_self, hst, ht]
    simp only [NdArray.smul_norm]
  · rw [FitState.cfg_write, e6]

/-! ### the loop -/

theorem appendFixed_run {roi : Dict (ℚ × ℚ)} {shrink : Bool} {total : ℕ} :
    ∀ (d : List (ℕ × ℚ)) (ts : List Spectrum) (st : FitState),
    total < st.next → (∀ e ∈ d, e.1 < st.next ∧ e.1 ≠ total) →
    (shrink = true → ∀ e ∈ d, (st.objs e.1).cfg ≠ (st.objs total).cfg) →
    (shrink = true → (d.map (fun e => (st.objs e.1).cfg)).Nodup) →
    List.Forall₂ (fun e t => Prep roi shrink (st.view e.1) e.2 t) d ts →
    ((st.view total).cfg.map SPar.name).Nodup →
    (∀ t ∈ ts, t.cfg = (st.view total).cfg ∧ t.data.shape = (st.view total).data.shape) →
    ∃ st', appendFixed roi shrink total d st = (st', .ok ()) ∧
      st.next ≤ st'.next ∧
      (∀ q, q < st.next → q ≠ total → st'.objs q = st.objs q) ∧
      (st'.objs total).cfg = (st.objs total).cfg ∧
      (∀ c, c ∉ d.map (fun e => (st.objs e.1).cfg) → st'.cfgs c = st.cfgs c) ∧
      (∀ e ∈ d, st'.cfgs (st.objs e.1).cfg = (st.view total).cfg) ∧
      (st'.view total).name = (st.view total).name ∧
      (st'.view total).cfg = (st.view total).cfg ∧
      (st'.view total).rois = (st.view total).rois ∧
      (st'.view total).data.shape = (st.view total).data.shape ∧
      (∀ idx, InB (st.view total).data.shape idx → (st'.view total).data.get idx =
        (st.view total).data.get idx + (ts.map (fun t => t.data.get idx)).sum) ∧
      (st'.view total).numDecays = (st.view total).numDecays + (ts.map Spectrum.numDecays).sum ∧
      (st'.view total).rawEvents = (st.view total).rawEvents + (ts.map Spectrum.rawEvents).sum := by
  intro d
  induction d with
  | nil =>
    intro ts st _ _ _ _ hF _ _
    cases hF
    refine ⟨st, rfl, le_rfl, fun _ _ _ => rfl, rfl, fun _ _ => rfl, by simp, rfl, rfl, rfl, rfl, ?_,
      ?_, ?_⟩ <;> simp
  | cons e d ih =>
    intro ts st htot hd hcfg hnd hF hnames hax
    cases hF with
    | cons hp hF =>
    rename_i t ts
    obtain ⟨r, n⟩ := e
    obtain ⟨st1, hrun, P⟩ := prepareFixed_run hp
    dsimp only at hp
    have htot1 : total ≠ st.next := htot.ne
    have hr := hd (r, n) List.mem_cons_self
    obtain ⟨htc, hts⟩ := hax t List.mem_cons_self
    -- the total is not touched by preparing
    have hobj1 : st1.objs total = st.objs total := P.objs total htot1
    have hsame : shrink = false → st1.cfgs = st.cfgs := by
      intro h
      rw [P.cfgs]
      obtain ⟨u, hu, -, rfl⟩ := hp
      rw [h] at hu
      simp only [Bool.false_eq_true, if_false] at hu
      subst hu
      exact Function.update_eq_self _ _
    have hview1 : st1.view total = st.view total := by
      cases hsh : shrink with
      | false => simp only [FitState.view, hobj1, hsame hsh]
      | true =>
        have hrc : (st.objs r).cfg ≠ (st.objs total).cfg := hcfg hsh (r, n) List.mem_cons_self
        simp only [FitState.view, hobj1, P.cfgs, Function.update_of_ne hrc.symm]
    -- adding
    have hadd : ((st1.view total).add (st1.view st.next)).err = none := by
      rw [add_err_none, hview1, P.view]
      exact addCheck_same hnames htc hts
    obtain ⟨a1, a2, a3, -, a5, a6, a7, a8, a9⟩ := (c05_add _ _).1 hadd
    let st2 := st1.write total ((st1.view total).add (st1.view st.next)).st
    have hadd_run : addTo total st.next st1 = (st2, .ok ()) := by
      unfold addTo
      rw [FitM.read_bind]
      exact FitM.call_run (f := fun t => t.add (st1.view st.next)) hadd
    have hcfg2 : st2.cfgs = st1.cfgs := FitState.write_cfgs_same _ _ _ a7
    have hobj2 : ∀ q, q ≠ total → st2.objs q = st1.objs q :=
      fun q hq => FitState.objs_write_old _ _ _ hq
    have hcr2 : ∀ q, (st2.objs q).cfg = (st1.objs q).cfg := fun q => FitState.cfg_write _ _ _ q
    have hv2 : st2.view total = { ((st1.view total).add (st1.view st.next)).st with
        data := ((st1.view total).add (st1.view st.next)).st.data.norm } :=
      FitState.view_write_self _ _ _
    have hv2c : (st2.view total).cfg = (st.view total).cfg := by rw [hv2]; exact a7.trans (by rw [hview1])
    have hv2s : (st2.view total).data.shape = (st.view total).data.shape := by
      rw [hv2]; exact a1.trans (by rw [hview1])
    have hcr : ∀ e ∈ d, (st2.objs e.1).cfg = (st.objs e.1).cfg := by
      intro e he
      rw [hcr2, P.objs e.1 (hd e (List.mem_cons_of_mem _ he)).1.ne]
    have hmapc : d.map (fun e => (st2.objs e.1).cfg) = d.map (fun e => (st.objs e.1).cfg) :=
      List.map_congr_left hcr
    have hview2 : ∀ e ∈ d, st2.view e.1 = st.view e.1 ∨ shrink = false := by
      intro e he
      cases hsh : shrink with
      | false => exact .inr rfl
      | true =>
        left
        have h1 := hd e (List.mem_cons_of_mem _ he)
        have hne : (st.objs e.1).cfg ≠ (st.objs r).cfg := by
          have := hnd hsh
          rw [List.map_cons, List.nodup_cons] at this
          intro h
          exact this.1 (List.mem_map.2 ⟨e, he, h⟩)
        simp only [FitState.view, hobj2 e.1 h1.2, P.objs e.1 h1.1.ne, hcfg2, P.cfgs,
          Function.update_of_ne hne]
    have hview2' : ∀ e ∈ d, st2.view e.1 = st.view e.1 := by
      intro e he
      rcases hview2 e he with h | h
      · exact h
      · -- without shrinking no configuration changes
        have h1 := hd e (List.mem_cons_of_mem _ he)
        simp only [FitState.view, hobj2 e.1 h1.2, P.objs e.1 h1.1.ne, hcfg2, hsame h]
    obtain ⟨st', b1, b2, b3, b4, b5, b6, b7, b8, b9, b10, b11, b12, b13⟩ := ih ts st2
      (by show total < st1.next; rw [P.next]; omega)
      (fun e he => ⟨by
        have := (hd e (List.mem_cons_of_mem _ he)).1
        show e.1 < st1.next; rw [P.next]; omega, (hd e (List.mem_cons_of_mem _ he)).2⟩)
      (fun h e he => by
        rw [hcr e he, hcr2, hobj1]; exact hcfg h e (List.mem_cons_of_mem _ he))
      (fun h => by
        rw [hmapc]
        have := hnd h
        rw [List.map_cons, List.nodup_cons] at this
        exact this.2)
      (by
        have : ∀ (l : List (ℕ × ℚ)) (us : List Spectrum), (∀ e ∈ l, st2.view e.1 = st.view e.1) →
            List.Forall₂ (fun e t => Prep roi shrink (st.view e.1) e.2 t) l us →
            List.Forall₂ (fun e t => Prep roi shrink (st2.view e.1) e.2 t) l us := by
          intro l us hl h
          induction h with
          | nil => exact .nil
          | cons h1 _ ih =>
            refine .cons ?_ (ih fun e he => hl e (List.mem_cons_of_mem _ he))
            rw [hl _ List.mem_cons_self]; exact h1
        exact this d ts hview2' hF)
      (by rw [hv2c]; exact hnames)
      (fun t' ht' => by rw [hv2c, hv2s]; exact hax t' (List.mem_cons_of_mem _ ht'))
    have hget2 : ∀ idx, InB (st.view total).data.shape idx → (st2.view total).data.get idx =
        (st.view total).data.get idx + t.data.get idx := by
      intro idx hi
      have hi' : InB ((st1.view total).add (st1.view st.next)).st.data.shape idx := by
        rw [a1, hview1]; exact hi
      rw [hv2]
      show NdArray.get _ idx = _
      rw [NdArray.norm_get hi', a3, hview1, P.view]
      congr 1
      exact NdArray.norm_get (by rw [hts]; exact hi)
    refine ⟨st', ?_, ?_, ?_, ?_, ?_, ?_, ?_, ?_, ?_, ?_, ?_, ?_, ?_⟩
    · unfold appendFixed at b1 ⊢
      rw [List.forM_eq_forM] at b1 ⊢
      rw [List.forM_cons]
      have : (do
          let c ← prepareFixed roi shrink (r, n)
          addTo total c) st = (st2, .ok ()) := by
        rw [FitM.bind_ok hrun]; exact hadd_run
      rw [FitM.bind_ok this]
      exact b1
    · have : st2.next = st.next + 1 := P.next
      omega
    · intro q hq hqt
      have h1 : st2.next = st.next + 1 := P.next
      rw [b3 q (by omega) hqt, hobj2 q hqt, P.objs q hq.ne]
    · rw [b4, hcr2, hobj1]
    · intro c hc
      rw [List.map_cons, List.mem_cons, not_or] at hc
      rw [b5 c (by rw [hmapc]; exact hc.2), hcfg2, P.cfgs, Function.update_of_ne hc.1]
    · intro e he
      by_cases hin : (st.objs e.1).cfg ∈ d.map (fun e => (st.objs e.1).cfg)
      · obtain ⟨e', he', heq⟩ := List.mem_map.1 hin
        have := b6 e' he'
        rw [hcr e' he', heq, hv2c] at this
        exact this
      · rcases List.mem_cons.1 he with rfl | he
        · rw [b5 _ (by rw [hmapc]; exact hin), hcfg2, P.cfgs, Function.update_self, htc]
        · exact absurd (List.mem_map.2 ⟨e, he, rfl⟩) hin
    · rw [b7, hv2]; exact a8.trans (by rw [hview1])
    · rw [b8, hv2c]
    · rw [b9, hv2]; exact a9.trans (by rw [hview1])
    · rw [b10, hv2s]
    · intro idx hi
      rw [b11 idx (by rw [hv2s]; exact hi), hget2 idx hi, List.map_cons, List.sum_cons, add_assoc]
    · rw [b12, hv2]
      show ((st1.view total).add (st1.view st.next)).st.numDecays + _ = _
      rw [a6, hview1, P.view, List.map_cons, List.sum_cons, add_assoc]
    · rw [b13, hv2]
      show ((st1.view total).add (st1.view st.next)).st.rawEvents + _ = _
      rw [a5, hview1, P.view, List.map_cons, List.sum_cons, add_assoc]

end Verif
