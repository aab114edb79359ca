import Verif.Props.FitSession
import Verif.Props.Project
import Verif.Lemmas.Minimise
import Verif.Spec.FitExamples

/-!
# C95: fits without floating backgrounds
-/

namespace Verif

open Session

/-- Arrays that are projections of the same spectrum onto the same parameters are equal. -/
theorem isProjection_eqv {s : Spectrum} {ps : List PyStr} {a b : NdArray ℚ}
    (ha : IsProjection s ps a) (hb : IsProjection s ps b) : a.Eqv b := by
  have hs : a.shape = b.shape := ha.1.trans hb.1.symm
  exact ⟨hs, fun idx hi => by rw [ha.2 idx hi, hb.2 idx (hs ▸ hi)]⟩

theorem SetProjection.project {st : FitState} {o : Option ℕ} {pars : Option (List PyStr)}
    {a : NdArray ℚ} (h : SetProjection st o pars a) :
    ∃ r b, o = some r ∧ (st.view r).ndProject (pars.getD []) = .ok b ∧ a.Eqv b := by
  obtain ⟨r, ps, ho, hp, hwf, hnd, hm, hl, hproj⟩ := h.set
  obtain ⟨b, hb, hproj', -⟩ := c11_nd_project_partial _ hwf ps hnd hm hl
  exact ⟨r, b, ho, by rw [hp]; exact hb, isProjection_eqv hproj hproj'⟩

theorem flatten_contents {sb : Bool} {a b : NdArray ℚ} (h : a.Eqv b) :
    (flatten sb b).vals = comparedContents sb a ∧ (flatten sb b).shape.length = 1 := by
  unfold flatten comparedContents
  have hg : ∀ idx ∈ allIdx a.shape, b.get idx = a.get idx := fun idx hi =>
    (h.2 idx (mem_allIdx.1 hi)).symm
  cases sb with
  | false =>
    simp only [Bool.false_eq_true, if_false, List.length_singleton, and_true]
    rw [← h.1]
    exact List.map_congr_left fun idx hi => by rw [hg idx hi]
  | true =>
    simp only [if_true, List.length_singleton, and_true]
    rw [h.sum_eq]

theorem computeStatistic_congr (s : Stat) (perBin : Bool) {a b a' b' : RArr}
    (ha : a.vals = a'.vals) (hb : b.vals = b'.vals) (h1 : a.shape.length = a'.shape.length)
    (h2 : b.shape.length = b'.shape.length) :
    s.computeStatistic perBin a b = s.computeStatistic perBin a' b' := by
  unfold Stat.computeStatistic
  rw [ha, hb, h1, h2]

/-- **C95, value.** Without floating backgrounds, `fit()` returns the test statistic of the
projection of the data and the bin-by-bin sum of the projections of fixed background and
signal (with `single_bin`, of the sums of all bins). Attributes and objects stay as they are,
so that a repeated fit returns the same. Supposed: at most one axis is projected out (see C11). -/
theorem c95_value_partial {ρ : Type} (mini : Fit → FitM ρ) (ses : Session) (st : FitState)
    (hc : ses.checked = true) (hf : ses.floating = none ∨ ses.floating = some [])
    (a b e : NdArray ℚ) (ha : SetProjection st ses.data ses.dataPars a)
    (hb : SetProjection st ses.fixed ses.fixedPars b) (he : ExpectedSum ses st b e) :
    ses.fit mini st = ((ses, st),
      (ses.stat.computeStatistic ses.statPerBin
        ⟨[(comparedContents ses.singleBin a).length], comparedContents ses.singleBin a⟩
        ⟨[(comparedContents ses.singleBin e).length], comparedContents ses.singleBin e⟩).map
        (fun out => .inl out.value)) := by
  obtain ⟨r, a', h1, h2, h3⟩ := ha.project
  obtain ⟨q, b', h4, h5, h6⟩ := hb.project
  have hfl : ses.floating.getD [] = [] := by rcases hf with h | h <;> rw [h] <;> rfl
  have hexp : ∃ e', fixedOnly ses st = .ok (a', e') ∧ e.Eqv e' := by
    unfold fixedOnly
    rw [h1, h4]
    simp only [fixedOnly.optionOr, bind, Except.bind, h2, h5]
    rcases he with ⟨hs, hbe⟩ | ⟨s, hs, hshape, hes, hget⟩
    · rw [hs]
      refine ⟨b', rfl, hbe.1.symm.trans h6.1, fun idx hi => ?_⟩
      have hi' : InB b.shape idx := hbe.1 ▸ hi
      rw [← hbe.2 idx hi', h6.2 idx hi']
    · obtain ⟨t, s', h7, h8, h9⟩ := hs.project
      rw [h7]
      simp only [h8, addProjection]
      have : b'.shape = s'.shape := by rw [← h6.1, ← h9.1, hshape]
      rw [if_pos this]
      refine ⟨b'.add s', rfl, ?_, fun idx hi => ?_⟩
      · rw [hes, h6.1]; rfl
      · rw [hes] at hi
        rw [hget idx hi]
        show _ = b'.get idx + s'.get idx
        rw [h6.2 idx hi, h9.2 idx (hshape ▸ hi)]
  obtain ⟨e', he1, he2⟩ := hexp
  obtain ⟨f1, f2⟩ := flatten_contents (sb := ses.singleBin) h3
  obtain ⟨f3, f4⟩ := flatten_contents (sb := ses.singleBin) he2
  unfold Session.fit runFit
  rw [if_pos hc, if_pos hfl, he1]
  simp only [bind, Except.bind]
  rw [computeStatistic_congr (a' := ⟨[(comparedContents ses.singleBin a).length],
    comparedContents ses.singleBin a⟩)
    (b' := ⟨[(comparedContents ses.singleBin e).length],
    comparedContents ses.singleBin e⟩) _ _ f1 f3 f2 f4]
  cases ses.stat.computeStatistic ses.statPerBin
        ⟨[(comparedContents ses.singleBin a).length], comparedContents ses.singleBin a⟩
        ⟨[(comparedContents ses.singleBin e).length], comparedContents ses.singleBin e⟩ <;> rfl

/-- **C95 fails when the last two axes are projected out**: for a region that leaves out the last
two axes of the data the checks are passed, and then `fit()` raises. -/
theorem c95_projection_negation {ρ : Type} (mini : Fit → FitM ρ) (ses : Session) (st : FitState)
    (hc : ses.checked = true) (hf : ses.floating = none ∨ ses.floating = some []) (r : ℕ)
    (hd : ses.data = some r) (hw : (st.view r).WF) (n : ℕ) (hn : (st.view r).cfg.length = n + 2)
    (hp : ses.dataPars = some (((st.view r).cfg.map SPar.name).take n)) :
    ses.fit mini st = ((ses, st), .error .axisError) := by
  have hfl : ses.floating.getD [] = [] := by rcases hf with h | h <;> rw [h] <;> rfl
  have h : fixedOnly ses st = .error .axisError := by
    unfold fixedOnly
    rw [hd, hp]
    simp only [fixedOnly.optionOr, bind, Except.bind, Option.getD_some,
      c11_nd_project_last_two_raises _ hw n hn]
  unfold Session.fit runFit
  rw [if_pos hc, if_pos hfl, h]
  rfl

/-- **C95, objects.** Without floating backgrounds no object changes, whatever happens, and the
minimiser has no influence. -/
theorem c95_untouched {ρ : Type} (mini mini' : Fit → FitM ρ) (ses : Session) (st : FitState)
    (hf : ses.floating = none ∨ ses.floating = some []) :
    (ses.fit mini st).1.2 = st ∧ ses.fit mini st = ses.fit mini' st := by
  have hfl : ses.floating.getD [] = [] := by rcases hf with h | h <;> rw [h] <;> rfl
  have hrun : ∀ (ses' : Session) (m m' : Fit → FitM ρ), ses'.floating.getD [] = [] →
      (runFit m ses' st).1 = st ∧ runFit m ses' st = runFit m' ses' st := by
    intro ses' m m' h
    unfold runFit
    rw [if_pos h, if_pos h]
    exact ⟨rfl, rfl⟩
  unfold Session.fit
  by_cases hc : ses.checked = true
  · rw [if_pos hc, if_pos hc]
    obtain ⟨h1, h2⟩ := hrun ses mini mini' hfl
    exact ⟨h1, by rw [h2]⟩
  · rw [if_neg hc, if_neg hc]
    rcases checkFitter_cases ses st with ⟨e, he⟩ | ⟨-, -, he⟩
    · rw [he]; exact ⟨rfl, rfl⟩
    · rw [he]
      cases dumpConfig ses st with
      | error e => exact ⟨rfl, rfl⟩
      | ok u =>
        obtain ⟨h1, h2⟩ := hrun { ses with checked := true } mini mini' hfl
        exact ⟨h1, by simp only [h2]⟩

/-! ### examples -/

/-- Data with three axes and a region for the first one. -/
example : let st : FitState := ⟨fun _ => brick.cfg, fun _ => { Ex.fitObj 0 with data := brick.data }, 1,
      Ex.fitState.params, []⟩
    let ses : Session := { Ex.ses with checked := true, data := some 0, dataPars := some [lit "x_mc"] }
    (st.view 0).WF ∧ (st.view 0).cfg.length = 1 + 2 ∧
      ses.dataPars = some (((st.view 0).cfg.map SPar.name).take 1) :=
  ⟨⟨brick_wf.axes, brick_wf.names, brick_wf.shape⟩, rfl, rfl⟩

theorem ex_proj {s : Spectrum} {ps : List PyStr} {a : NdArray ℚ}
    (h1 : a.shape = pick ps (s.cfg.map SPar.name) s.data.shape)
    (h2 : ∀ idx ∈ allIdx a.shape, a.get idx = sumIdx s.data.shape (fun full =>
      if pick ps (s.cfg.map SPar.name) full = idx then s.data.get full else 0)) :
    IsProjection s ps a := ⟨h1, fun idx hi => h2 idx (mem_allIdx.2 hi)⟩

theorem ex_ses_data : SetProjection Ex.shrunkState (some 0) (some [lit "energy_mc"]) (Ex.two 6 7) where
  set := ⟨0, _, rfl, rfl, ⟨by simp [FitState.view, Ex.shrunkState, Ex.fitObj, Ex.roiAxis, SPar.WF]; norm_num,
    by decide +kernel, by decide +kernel⟩, by decide +kernel,
    by decide +kernel, by decide +kernel, ex_proj (by decide +kernel) (by decide +kernel)⟩

theorem ex_ses_fixed : SetProjection Ex.shrunkState (some 1) (some [lit "energy_mc"]) (Ex.two 1 1) where
  set := ⟨1, _, rfl, rfl, ⟨by simp [FitState.view, Ex.shrunkState, Ex.fitObj, Ex.roiAxis, SPar.WF]; norm_num,
    by decide +kernel, by decide +kernel⟩, by decide +kernel,
    by decide +kernel, by decide +kernel, ex_proj (by decide +kernel) (by decide +kernel)⟩

/-- Data 6, 7; expected 1, 1. -/
example {ρ : Type} (mini : Fit → FitM ρ) :
    ({ Ex.ses with checked := true }).fit mini Ex.shrunkState =
      (({ Ex.ses with checked := true }, Ex.shrunkState),
        (Stat.bcChi.computeStatistic false ⟨[2], [6, 7]⟩ ⟨[2], [1, 1]⟩).map
          (fun out => .inl out.value)) := by
  rw [c95_value_partial mini { Ex.ses with checked := true } Ex.shrunkState rfl (.inl rfl) _ _ _
    ex_ses_data ex_ses_fixed (.inl ⟨rfl, rfl, fun _ _ => rfl⟩)]
  simp [Ex.ses, Ex.sesNew, comparedContents, Ex.two, allIdx, List.range_succ]

theorem ex_fit_proj (r : ℕ) (a : NdArray ℚ) (hs : a.shape = [4])
    (h : a = (Ex.fitObj r).data) :
    SetProjection Ex.fitState (some r) (some [lit "energy_mc"]) a := by
  subst h
  refine ⟨r, _, rfl, rfl, ⟨?_, ?_, ?_⟩, by decide, ?_, ?_, ?_⟩
  · simp [FitState.view, Ex.fitState, Ex.fitAxis, SPar.WF]
  · simp [FitState.view, Ex.fitState]
  · simp [FitState.view, Ex.fitState, NdArray.norm, hs, Ex.fitAxis]
  · simp [FitState.view, Ex.fitState, Ex.fitAxis]
  · simp [FitState.view, Ex.fitState]
  · exact ex_proj (by
      simp only [FitState.view, Ex.fitState, NdArray.norm, hs, Ex.fitAxis]
      decide) (by
      rw [hs]
      intro idx hi
      have hi' : idx ∈ [[0], [1], [2], [3]] := hi
      simp only [List.mem_cons, List.not_mem_nil, or_false] at hi'
      simp only [FitState.view, Ex.fitState, NdArray.norm, hs, Ex.fitAxis]
      rcases hi' with rfl | rfl | rfl | rfl <;>
        simp [sumIdx, pick, InB])

/-- Data 5, 6, 7, 8; fixed background 1, 1, 1, 1; signal 0, 1, 1, 0. -/
example {ρ : Type} (mini : Fit → FitM ρ) :
    ({ Ex.ses with checked := true, signal := some 4, signalPars := some [lit "energy_mc"] }).fit mini
        Ex.fitState =
      (({ Ex.ses with checked := true, signal := some 4, signalPars := some [lit "energy_mc"] },
        Ex.fitState), (Stat.bcChi.computeStatistic false ⟨[4], [5, 6, 7, 8]⟩ ⟨[4], [1, 2, 2, 1]⟩).map
          (fun out => .inl out.value)) := by
  rw [c95_value_partial mini { Ex.ses with checked := true, signal := some 4, signalPars := some _ }
    Ex.fitState rfl (.inl rfl) (Ex.four 5 6 7 8) (Ex.four 1 1 1 1) (Ex.four 1 2 2 1)
    (ex_fit_proj 0 _ rfl rfl) (ex_fit_proj 1 _ rfl rfl)
    (.inr ⟨Ex.four 0 1 1 0, ex_fit_proj 4 _ rfl rfl, rfl, rfl, fun idx hi => by
      have hi' : idx ∈ [[0], [1], [2], [3]] := mem_allIdx.2 hi
      simp only [List.mem_cons, List.not_mem_nil, or_false] at hi'
      rcases hi' with rfl | rfl | rfl | rfl <;> norm_num [Ex.four]⟩)]
  simp [Ex.ses, Ex.sesNew, comparedContents, Ex.four, allIdx, List.range_succ]

example {ρ : Type} (mini mini' : Fit → FitM ρ) :=
  c95_untouched mini mini' Ex.ses Ex.shrunkState (.inl rfl)

theorem exCalls_data (r : ℕ) (a : NdArray ℚ) (hc : (exCalls.2.view r).cfg = [Ex.roiAxis])
    (hs : (exCalls.2.view r).data.shape = [2]) (ha : a.shape = [2])
    (h : ∀ idx ∈ [[0], [1]], a.get idx = (exCalls.2.view r).data.get idx) :
    SetProjection exCalls.2 (some r) (some [lit "energy_mc"]) a := by
  refine ⟨r, _, rfl, rfl, ⟨?_, ?_, ?_⟩, by decide, ?_, ?_, ?_⟩
  · rw [hc]; simp [Ex.roiAxis, SPar.WF]; norm_num
  · rw [hc]; simp
  · rw [hc, hs]; simp [Ex.roiAxis]
  · rw [hc]; simp [Ex.roiAxis]
  · rw [hc]; simp
  · refine ex_proj (by rw [ha, hs, hc]; decide) ?_
    rw [ha, hs, hc]
    intro idx hi
    have hi' : idx ∈ [[0], [1]] := hi
    rw [h idx hi']
    simp only [List.mem_cons, List.not_mem_nil, or_false] at hi'
    rcases hi' with rfl | rfl <;> simp [sumIdx, pick, Ex.roiAxis]

/-- The fit after the calls of `exCalls` (see C97) compares 6, 7 with 1, 1 and returns a value. -/
theorem exCalls_fit {ρ : Type} (mini : Fit → FitM ρ) :
    ∃ v, (exCalls.1.fit mini exCalls.2).2 = .ok v := by
  have hd : exCalls.1.data = some 0 := by decide +kernel
  have hdp : exCalls.1.dataPars = some [lit "energy_mc"] := by decide +kernel
  have hf : exCalls.1.fixed = some 1 := by decide +kernel
  have hfp : exCalls.1.fixedPars = some [lit "energy_mc"] := by decide +kernel
  have h := c95_value_partial mini exCalls.1 exCalls.2 exCalls_checked (.inl (by decide +kernel))
    (Ex.two 6 7) (Ex.two 1 1) (Ex.two 1 1)
    (by rw [hd, hdp]; exact exCalls_data 0 _ (by decide +kernel) (by decide +kernel) rfl (by decide +kernel))
    (by rw [hf, hfp]; exact exCalls_data 1 _ (by decide +kernel) (by decide +kernel) rfl (by decide +kernel))
    (.inl ⟨by decide +kernel, rfl, fun _ _ => rfl⟩)
  rw [h]
  have h1 : exCalls.1.singleBin = false := by decide +kernel
  have h2 : exCalls.1.statPerBin = false := by decide +kernel
  refine ⟨.inl (.total (exCalls.1.stat.compute [6, 7] [1, 1]).value), ?_⟩
  simp [h1, h2, comparedContents, Ex.two, allIdx, List.range_succ, Stat.computeStatistic, Except.map]

/-! ### C96: other regions -/

/-- Data with two axes are set, then the region is replaced by one without the second axis, and a
fixed background with the first axis is set. -/
noncomputable def exStale : Session :=
  let s1 := ({ Ex.sesNew with roi := [(lit "energy", (0, 2)), (lit "radial", (0, 1))] }.setData
    Ex.planeState 0 false).1.1
  let s2 := (s1.setRoi [(lit "energy", (0, 2))]).setFixed Ex.planeState 1 false
  ((s2.1.1.setMinimiser Ex.planeState (some false)).1.checkFitter Ex.planeState).1

/-- **C96 fails** when the region is replaced: the parameters that belong to the old region stay
with the spectra. Data and fixed background have the range of the new region and the fit counts
as checked, but the data are projected onto two axes and the fixed background onto one, and
`fit()` raises a `ValueError`. Data set again have the right parameters. -/
theorem c96_stale_negation : ∃ (ses : Session) (st : FitState), ses.checked = true ∧
    ses.data = some 0 ∧ ses.fixed = some 1 ∧ FitsRoi (st.view 0).cfg ses.roi ∧
    FitsRoi (st.view 1).cfg ses.roi ∧ ses.dataPars = some [lit "energy_mc", lit "radial_mc"] ∧
    ses.fixedPars = some [lit "energy_mc"] ∧
    (ses.setData st 0 false).1.1.dataPars = some [lit "energy_mc"] ∧
    ∀ (ρ : Type) (mini : Fit → FitM ρ), (ses.fit mini st).2 = .error .valueError := by
  have hroi : exStale.roi = [(lit "energy", (0, 2))] := by decide +kernel
  have hfit : ∀ l, FitsRoi (Ex.fitAxis :: l) [(lit "energy", (0, 2))] := by
    intro l e he
    rw [List.mem_singleton.1 he]
    exact ⟨Ex.fitAxis, by simp, ex_energy_mc, by norm_num [Ex.fitAxis], by norm_num [Ex.fitAxis]⟩
  have hd : exStale.data = some 0 := by decide +kernel
  have hdp : exStale.dataPars = some [lit "energy_mc", lit "radial_mc"] := by decide +kernel
  have hf : exStale.fixed = some 1 := by decide +kernel
  have hfp : exStale.fixedPars = some [lit "energy_mc"] := by decide +kernel
  have hc : exStale.checked = true := by decide +kernel
  refine ⟨exStale, Ex.planeState, hc, hd, hf, by rw [hroi]; exact hfit _,
    by rw [hroi]; exact hfit _, hdp, hfp, by decide +kernel, fun ρ mini => ?_⟩
  rw [c95_value_partial mini exStale Ex.planeState hc (.inl (by decide +kernel)) ⟨[4, 2], fun _ => 1⟩
    (Ex.four 1 1 1 1) (Ex.four 1 1 1 1)
    (by
      rw [hd, hdp]
      refine ⟨0, _, rfl, rfl, ⟨?_, ?_, ?_⟩, ?_, ?_, ?_, ex_proj ?_ ?_⟩
      · simp [FitState.view, Ex.planeState, Ex.fitObj, Ex.fitAxis, SPar.WF]
      all_goals decide +kernel)
    (by
      rw [hf, hfp]
      refine ⟨1, _, rfl, rfl, ⟨?_, ?_, ?_⟩, ?_, ?_, ?_, ex_proj ?_ ?_⟩
      · simp [FitState.view, Ex.planeState, Ex.fitObj, Ex.fitAxis, SPar.WF]
      all_goals decide +kernel)
    (.inl ⟨by decide +kernel, rfl, fun _ _ => rfl⟩)]
  have h1 : exStale.singleBin = false := by decide +kernel
  simp [h1, comparedContents, Ex.four, length_allIdx, Stat.computeStatistic, Except.map]

end Verif
