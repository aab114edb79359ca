import Verif.Lemmas.FitInit

/-! Helper lemmas: running the constructor of fits. -/

namespace Verif

open Session

theorem bare_roi (a : FitArgs) : (bare a).roi = inOrder a.roi := by
  unfold bare Session.setRoi inOrder
  refine List.map_congr_left fun e _ => ?_
  by_cases h : e.2.2 < e.2.1
  · rw [if_pos h, min_eq_right h.le, max_eq_left h.le]
  · rw [if_neg h, min_eq_left (not_lt.1 h), max_eq_right (not_lt.1 h)]

theorem inOrder_isDict {roi : Dict (ℚ × ℚ)} (h : IsDict roi) : IsDict (inOrder roi) := by
  unfold IsDict inOrder at *
  rw [List.map_map]; exact h

theorem inOrder_ne_nil {roi : Dict (ℚ × ℚ)} (h : roi ≠ []) : inOrder roi ≠ [] := by
  unfold inOrder; simpa using h

theorem ne_nil_of_length {α β : Type} {l : List α} {l' : List β} (h : l.length = l'.length)
    (h' : l' ≠ []) : l ≠ [] := by
  intro hl; rw [hl] at h; exact h' (List.length_eq_zero_iff.1 h.symm)

/-- How far the constructor is: which spectra have been shrunk, and whether the fixed background
has been made. -/
structure Prog (a : FitArgs) (ts : List Spectrum) (st0 : FitState) (done : List ℕ) (b : Option ℕ)
    (st : FitState) : Prop where
  next : st0.next ≤ st.next
  refs : ∀ q, q < st0.next → (st.objs q).cfg = (st0.objs q).cfg
  fit : ∀ q, q < st0.next → (st.objs q).fit = (st0.objs q).fit
  dimension : ∀ p, (st.params p).dimension = (st0.params p).dimension
  todo : ∀ r ∈ a.kept, r ∉ done → st.view r = st0.view r
  done : ∀ r ∈ a.kept, r ∈ done → ShrunkTo (inOrder a.roi) (st0.view r) (st.view r)
  supplied : b = none → ∀ e ∈ a.fixed, st.view e.1 = st0.view e.1
  total : ∀ t, b = some t → (∃ e ∈ a.fixed, (st.objs t).cfg = (st0.objs e.1).cfg) ∧
    IsTotal ts (st.view t)
  made : ∀ t, b = some t → st0.next ≤ t ∧ t < st.next

theorem Prog.start (a : FitArgs) (ts : List Spectrum) (st : FitState) : Prog a ts st [] none st where
  next := le_rfl
  refs _ _ := rfl
  fit _ _ := rfl
  dimension _ := rfl
  todo _ _ _ := rfl
  done := by simp
  supplied _ _ _ := rfl
  total := by simp
  made := by simp

section
variable {a : FitArgs} {ts : List Spectrum} {st0 : FitState}

theorem FitArgs.Given.kept_inj (hg : a.Given ts st0) {q r : ℕ} (hq : q ∈ a.kept) (hr : r ∈ a.kept)
    (h : (st0.objs q).cfg = (st0.objs r).cfg) : q = r := by
  have := hg.own
  rw [List.map_append, List.nodup_append] at this
  exact List.inj_on_of_nodup_map this.1 hq hr h

theorem FitArgs.Given.apart (hg : a.Given ts st0) {r : ℕ} (hr : r ∈ a.kept) {e : ℕ × ℚ}
    (he : e ∈ a.fixed) : (st0.objs r).cfg ≠ (st0.objs e.1).cfg := by
  have := hg.own
  rw [List.map_append, List.nodup_append] at this
  exact this.2.2 _ (List.mem_map.2 ⟨r, hr, rfl⟩) _
    (List.mem_map.2 ⟨e.1, List.mem_map_of_mem he, rfl⟩)

theorem FitArgs.Given.kept_nodup (hg : a.Given ts st0) :
    (a.kept.map (fun r => (st0.objs r).cfg)).Nodup := by
  have := hg.own
  rw [List.map_append, List.nodup_append] at this
  exact this.1

/-- The next spectra are shrunk. -/
theorem Prog.shrink (hg : a.Given ts st0) {done : List ℕ} {b : Option ℕ} {st st' : FitState}
    (h : Prog a ts st0 done b st) {rs : List ℕ} (hk : ∀ r ∈ rs, r ∈ a.kept)
    (hd : ∀ r ∈ rs, r ∉ done) (hs : ShrunkAt (inOrder a.roi) rs st st')
    (hp : ∀ p, (st'.params p).dimension = (st.params p).dimension) :
    Prog a ts st0 (done ++ rs) b st' := by
  have hlt : ∀ r ∈ a.kept, r < st0.next := hg.alloc
  have hother : ∀ q ∈ a.kept, q ∉ rs → st'.view q = st.view q := by
    intro q hq hqr
    refine hs.other q fun r hr he => ?_
    rw [h.refs q (hlt q hq), h.refs r (hlt r (hk r hr))] at he
    exact hqr (hg.kept_inj hq (hk r hr) he ▸ hr)
  have hfix : ∀ e ∈ a.fixed, e.1 < st0.next :=
    fun e he => hg.fixed.alloc _ (List.mem_map_of_mem he)
  refine ⟨hs.next ▸ h.next, fun q hq => (hs.refs q).trans (h.refs q hq),
    fun q hq => (hs.fit q).trans (h.fit q hq), fun p => (hp p).trans (h.dimension p), ?_, ?_, ?_, ?_,
    fun t ht => hs.next ▸ h.made t ht⟩
  · intro r hr hn
    rw [List.mem_append, not_or] at hn
    rw [hother r hr hn.2]; exact h.todo r hr hn.1
  · intro r hr hn
    by_cases hrs : r ∈ rs
    · rw [← h.todo r hr (hd r hrs)]
      exact hs.shrunk r hrs
    · rw [hother r hr hrs]
      exact h.done r hr ((List.mem_append.1 hn).resolve_right hrs)
  · intro hb e he
    rw [hs.other]
    · exact h.supplied hb e he
    · intro r hr hc
      rw [h.refs _ (hfix e he), h.refs r (hlt r (hk r hr))] at hc
      exact hg.apart (hk r hr) he hc.symm
  · intro t ht
    obtain ⟨⟨e, he, h1⟩, h2⟩ := h.total t ht
    refine ⟨⟨e, he, (hs.refs t).trans h1⟩, ?_⟩
    rw [hs.other]
    · exact h2
    · intro r hr hc
      rw [h1, h.refs r (hlt r (hk r hr))] at hc
      exact hg.apart (hk r hr) he hc.symm

theorem Prog.canShrink (hg : a.Given ts st0) {done : List ℕ} {b : Option ℕ} {st : FitState}
    (h : Prog a ts st0 done b st) {r : ℕ} (hr : r ∈ a.kept) : CanShrink (inOrder a.roi) (st.view r) := by
  have h0 := hg.able r (List.mem_append_left _ hr)
  by_cases hd : r ∈ done
  · exact ((h.done r hr hd).region (inOrder_isDict hg.region) h0).2
  · rw [h.todo r hr hd]; exact h0

/-- The fixed background is made. -/
theorem Prog.fixed (hg : a.Given ts st0) {done : List ℕ} {st : FitState}
    (h : Prog a ts st0 done none st) (hne : a.fixed ≠ []) :
    ∃ st' pars, makeFixedBackground (inOrder a.roi) true a.fixed st = (st', .ok (st.next, pars)) ∧
      pars.length = (inOrder a.roi).length ∧ Prog a ts st0 done (some st.next) st' ∧
      ∀ t ∈ ts, RoiNames t.cfg (inOrder a.roi) pars := by
  have hlt : ∀ r ∈ a.kept, r < st0.next := hg.alloc
  have hfix : ∀ e ∈ a.fixed, e.1 < st0.next :=
    fun e he => hg.fixed.alloc _ (List.mem_map_of_mem he)
  have hv := h.supplied rfl
  have hF := hg.fixed
  have hmap : a.fixed.map (fun e => (st.objs e.1).cfg) = a.fixed.map (fun e => (st0.objs e.1).cfg) :=
    List.map_congr_left fun e he => h.refs e.1 (hfix e he)
  have hsup : Suppliable (inOrder a.roi) a.fixed ts st := by
    refine ⟨fun r hr => (hF.alloc r hr).trans_le h.next, by rw [hmap]; exact hF.own, hF.region,
      fun e he => by rw [hv e he]; exact hF.dims e he, fun e he => by rw [hv e he]; exact hF.names e he,
      ?_, hF.axes⟩
    have := hF.shrunk
    clear * - this hv
    revert hv
    generalize a.fixed = l at this
    intro hv
    induction this with
    | nil => exact .nil
    | cons h1 _ ih =>
      refine .cons ?_ (ih fun e he => hv e (List.mem_cons_of_mem _ he))
      rw [hv _ List.mem_cons_self]; exact h1
  obtain ⟨st', pars, b1, -, b3, b4, b5, b6, -, e, he, b8⟩ := makeFixedBackground_shrunk hne hsup
  have hpar := makeFixedBackground_params (roi := inOrder a.roi) a.fixed st
  have hnew := (makeFixedBackground_new b1).1
  rw [b1] at hpar
  have hobj : ∀ q, q < st0.next → st'.objs q = st.objs q := fun q hq => b5 q (hq.trans_le h.next)
  have hview : ∀ r ∈ a.kept, st'.view r = st.view r := by
    intro r hr
    have hc : st'.cfgs (st.objs r).cfg = st.cfgs (st.objs r).cfg := by
      refine b6 _ ?_
      rw [hmap, h.refs r (hlt r hr)]
      intro hm
      obtain ⟨e, he, hc⟩ := List.mem_map.1 hm
      exact hg.apart hr he hc.symm
    simp only [FitState.view, hobj r (hlt r hr), hc]
  refine ⟨st', pars, b1, roiPars_length b4, ⟨?_, ?_, ?_, ?_, ?_, ?_, by simp, ?_, ?_⟩,
    fun t ht => (b3.axes t ht).1 ▸ b4⟩
  · exact h.next.trans hnew.le
  · intro q hq; rw [hobj q hq]; exact h.refs q hq
  · intro q hq; rw [hobj q hq]; exact h.fit q hq
  · intro p
    rw [show st'.params = st.params from hpar]; exact h.dimension p
  · intro r hr hn; rw [hview r hr]; exact h.todo r hr hn
  · intro r hr hn; rw [hview r hr]; exact h.done r hr hn
  · intro t ht
    cases ht
    exact ⟨⟨e, he, b8.trans (h.refs _ (hfix e he))⟩, b3⟩
  · intro t ht
    cases ht
    exact ⟨h.next, hnew⟩

/-- A list of parameters is noted when there is a spectrum. -/
def Noted {α : Type} (o : Option α) (pars : Option (List PyStr)) : Prop :=
  o ≠ none → ∃ ps, pars = some ps ∧ ps ≠ []

/-- The list has the parameters of the region of the spectrum. -/
def NamesOf (a : FitArgs) (st0 : FitState) (o : Option ℕ) (pars : Option (List PyStr)) : Prop :=
  ∀ r, o = some r → ∃ ps, pars = some ps ∧ RoiNames (st0.view r).cfg (inOrder a.roi) ps

theorem init_data (hg : a.Given ts st0) :
    ∃ st1 dp, setIf (fun ses st r => ses.setData st r) a.data (bare a) st0 =
        (({ bare a with data := a.data, dataPars := dp }, st1), .ok ()) ∧
      Prog a ts st0 a.data.toList none st1 ∧ Noted a.data dp ∧ NamesOf a st0 a.data dp := by
  have hr := inOrder_isDict hg.region
  cases hd : a.data with
  | none => exact ⟨st0, none, rfl, .start a ts st0, fun h => absurd rfl h, by simp [NamesOf]⟩
  | some r =>
    have hk : r ∈ a.kept := by simp [FitArgs.kept, hd]
    have h0 := Prog.start a ts st0
    obtain ⟨st1, ps, h1, h2, h3, h4, h5⟩ := shrink_setter hr (h0.canShrink hg hk)
    refine ⟨st1, some ps, ?_, ?_, fun _ => ⟨ps, rfl, ?_⟩, ?_⟩
    · show (bare a).setData st0 r true = _
      unfold setData
      rw [← bare_roi] at h1 h2
      rw [shrinkOrCheck_true]
      simp only [h1, h2]
    · exact h0.shrink hg (by simpa using hk) (by simp) h4 (fun p => by rw [h5])
    · exact ne_nil_of_length (roiPars_length h3) (inOrder_ne_nil hg.some)
    · intro r' hr'
      cases hr'
      exact ⟨ps, rfl, roiNames_congr (shrunkTo_cfg (h4.shrunk r (by simp))) h3⟩

theorem init_fixed (hg : a.Given ts st0) {done : List ℕ} {st : FitState}
    (h : Prog a ts st0 done none st) (ses : Session) (hr : ses.roi = inOrder a.roi)
    (hb : ses.fixed = none) (hp : ses.fixedPars = none) :
    ∃ st' b fp, setIf (fun ses st d => ses.makeFixed st d) (nonEmpty a.fixed) ses st =
        (({ ses with fixed := b, fixedPars := fp }, st'), .ok ()) ∧
      Prog a ts st0 done b st' ∧ Noted b fp ∧ (b = none ↔ a.fixed = []) ∧
      (a.fixed ≠ [] → ∃ ps, fp = some ps ∧ ∀ t ∈ ts, RoiNames t.cfg (inOrder a.roi) ps) := by
  unfold nonEmpty
  by_cases hn : a.fixed = []
  · rw [if_pos hn]
    exact ⟨st, none, none, by cases ses; cases hb; cases hp; rfl, h,
      fun h => absurd rfl h, by simp [hn], fun h => absurd hn h⟩
  · rw [if_neg hn]
    obtain ⟨st', pars, h1, h2, h3, h4⟩ := h.fixed hg hn
    refine ⟨st', some st.next, some pars, ?_, h3, fun _ => ⟨pars, rfl, ?_⟩, by simp [hn],
      fun _ => ⟨pars, rfl, h4⟩⟩
    · show ses.makeFixed st a.fixed true = _
      unfold Session.makeFixed
      rw [← hr] at h1
      simp only [h1]
    · exact ne_nil_of_length h2 (inOrder_ne_nil hg.some)

theorem init_floating (hg : a.Given ts st0) (keyOf : ℕ → PyStr) {b : Option ℕ} {st : FitState}
    (h : Prog a ts st0 a.data.toList b st) (ses : Session) (hr : ses.roi = inOrder a.roi)
    (hb : ses.floating = none) (hp : ses.floatingPars = none) (hc : ses.config = a.config) :
    ∃ st' config flp, setIf (fun ses st rs => setFloating keyOf ses st rs) (nonEmpty a.floating) ses st =
        (({ ses with config, floating := nonEmpty a.floating, floatingPars := flp }, st'), .ok ()) ∧
      Prog a ts st0 (a.data.toList ++ a.floating) b st' ∧
      (∀ rs, nonEmpty a.floating = some rs → ∃ pss, flp = some pss ∧ pss.length = rs.length) ∧
      (∀ e ∈ config, e.2.2 = true → e ∈ a.config) ∧
      (a.floating = [] → config = a.config) ∧
      (a.config ≠ [] ∨ (∃ r ∈ a.floating, (st0.objs r).fit.getD [] ≠ []) → config ≠ []) ∧
      config = entered keyOf a.config (a.floating.flatMap (fun r => (st0.objs r).fit.getD [])) ∧
      (a.floating ≠ [] → ∃ pss, flp = some pss ∧ List.Forall₂ (fun r ps =>
        RoiNames (st0.view r).cfg (inOrder a.roi) ps) a.floating pss) := by
  unfold nonEmpty
  by_cases hn : a.floating = []
  · rw [if_pos hn]
    refine ⟨st, a.config, none, ?_, by simpa [hn] using h, by simp, fun e he _ => he, fun _ => rfl,
      by simp [hn], by rw [hn]; rfl, fun h => absurd hn h⟩
    conv_rhs => rw [← hc]
    have : ({ ses with config := ses.config, floating := none, floatingPars := none } : Session) = ses := by
      cases ses; cases hb; cases hp; rfl
    rw [this]; rfl
  · rw [if_neg hn]
    have hsub : ∀ r ∈ a.floating, r ∈ a.kept := fun r hr => by simp [FitArgs.kept, hr]
    have hlt : ∀ r ∈ a.kept, r < st0.next := hg.alloc
    have hnd := hg.kept_nodup
    unfold FitArgs.kept at hnd
    rw [List.map_append, List.nodup_append] at hnd
    have hdis : ∀ r ∈ a.floating, r ∉ a.data.toList := by
      intro r hr hd
      exact hnd.2.2 _ (List.mem_map.2 ⟨r, List.mem_append_left _ hd, rfl⟩) _
        (List.mem_map.2 ⟨r, hr, rfl⟩) rfl
    obtain ⟨config, st', pss, h1, h2, h3, h4, h5, h6, h7, h8⟩ := floatingLoop_canShrink (keyOf := keyOf)
      (inOrder_isDict hg.region) (rs := a.floating) (config := a.config) (st := st) (by
        have : a.floating.map (fun r => (st.objs r).cfg) = a.floating.map (fun r => (st0.objs r).cfg) :=
          List.map_congr_left fun r hr => h.refs r (hlt r (hsub r hr))
        rw [this]; exact hnd.2.1)
      (fun r hr => h.canShrink hg (hsub r hr))
    refine ⟨st', config, some pss, ?_, h.shrink hg hsub hdis h2 h3, ?_, h5, fun h => absurd h hn, ?_,
      ?_, fun _ => ⟨pss, rfl, ?_⟩⟩
    · show setFloating keyOf ses st a.floating true = _
      unfold setFloating
      rw [← hr, ← hc] at h1
      simp only [h1]
    · intro rs hrs; cases hrs; exact ⟨pss, rfl, h4⟩
    · intro hx
      apply h6
      rcases hx with hx | ⟨r, hr, hx⟩
      · exact .inl hx
      · exact .inr ⟨r, hr, by rw [h.fit r (hlt r (hsub r hr))]; exact hx⟩
    · rw [h7]
      congr 1
      unfold List.flatMap
      exact congrArg List.flatten
        (List.map_congr_left fun r hr => by rw [h.fit r (hlt r (hsub r hr))])
    · refine List.Forall₂.imp (fun r ps hps => ?_) (List.forall₂_and_left _ _ |>.2 ⟨fun r hr => hr, h8⟩)
      rw [← h.todo r (hsub r hps.1) (hdis r hps.1)]
      exact hps.2

theorem init_signal (hg : a.Given ts st0) {b : Option ℕ} {st : FitState}
    (h : Prog a ts st0 (a.data.toList ++ a.floating) b st) (ses : Session)
    (hr : ses.roi = inOrder a.roi) (hb : ses.signal = none) (hp : ses.signalPars = none) :
    ∃ st' sp, setIf (fun ses st r => ses.setSignal st r) a.signal ses st =
        (({ ses with signal := a.signal, signalPars := sp }, st'), .ok ()) ∧
      Prog a ts st0 (a.data.toList ++ a.floating ++ a.signal.toList) b st' ∧ Noted a.signal sp ∧
      NamesOf a st0 a.signal sp := by
  cases hs : a.signal with
  | none =>
    refine ⟨st, none, ?_, by simpa using h, fun h => absurd rfl h, by simp [NamesOf]⟩
    have : ({ ses with signal := none, signalPars := none } : Session) = ses := by
      cases ses; cases hb; cases hp; rfl
    rw [this]; rfl
  | some r =>
    have hk : r ∈ a.kept := by simp [FitArgs.kept, hs]
    have hnd := hg.kept_nodup
    have hdis : r ∉ a.data.toList ++ a.floating := by
      unfold FitArgs.kept at hnd
      rw [hs, List.map_append, List.map_append, List.nodup_append, List.nodup_append] at hnd
      intro hm
      rcases List.mem_append.1 hm with hm | hm
      · exact hnd.1.2.2 _ (List.mem_map.2 ⟨r, hm, rfl⟩) _ (by simp) rfl
      · exact hnd.2.2 _ (by simp) _ (List.mem_map.2 ⟨r, hm, rfl⟩) rfl
    obtain ⟨st', ps, h1, h2, h3, h4, h5⟩ := shrink_setter (inOrder_isDict hg.region) (h.canShrink hg hk)
    refine ⟨st', some ps, ?_, ?_, fun _ => ⟨ps, rfl, ?_⟩, ?_⟩
    · show ses.setSignal st r true = _
      unfold setSignal
      rw [← hr] at h1 h2
      rw [shrinkIf_true]
      simp only [h1, h2]
    · exact h.shrink hg (by simpa using hk) (by simpa using hdis) h4 (fun p => by rw [h5])
    · exact ne_nil_of_length (roiPars_length h3) (inOrder_ne_nil hg.some)
    · intro r' hr'
      cases hr'
      refine ⟨ps, rfl, ?_⟩
      rw [← h.todo r hk hdis]
      exact roiNames_congr (shrunkTo_cfg (h4.shrunk r (by simp))) h3

/-- The attributes after the setters. -/
structure SesOf (keyOf : ℕ → PyStr) (a : FitArgs) (ts : List Spectrum) (st0 : FitState) (b : Option ℕ)
    (ses : Session) : Prop where
  roi : ses.roi = inOrder a.roi
  checked : ses.checked = false
  data : ses.data = a.data
  dataPars : Noted a.data ses.dataPars
  fixed : ses.fixed = b
  fixedPars : Noted b ses.fixedPars
  nofixed : b = none ↔ a.fixed = []
  floating : ses.floating = nonEmpty a.floating
  floatingPars : ∀ rs, nonEmpty a.floating = some rs →
    ∃ pss, ses.floatingPars = some pss ∧ pss.length = rs.length
  signal : ses.signal = a.signal
  signalPars : Noted a.signal ses.signalPars
  globals : ∀ e ∈ ses.config, e.2.2 = true → e ∈ a.config
  given : a.floating = [] → ses.config = a.config
  config : a.config ≠ [] ∨ (∃ r ∈ a.floating, (st0.objs r).fit.getD [] ≠ []) → ses.config ≠ []
  statPerBin : ses.statPerBin = a.statPerBin
  stat : ses.stat = a.stat
  entered : ses.config = entered keyOf a.config (a.floating.flatMap (fun r => (st0.objs r).fit.getD []))
  dataNames : NamesOf a st0 a.data ses.dataPars
  fixedNames : a.fixed ≠ [] → ∃ ps, ses.fixedPars = some ps ∧
    ∀ t ∈ ts, RoiNames t.cfg (inOrder a.roi) ps
  floatingNames : a.floating ≠ [] → ∃ pss, ses.floatingPars = some pss ∧
    List.Forall₂ (fun r ps => RoiNames (st0.view r).cfg (inOrder a.roi) ps) a.floating pss
  signalNames : NamesOf a st0 a.signal ses.signalPars

theorem initSpectra_run (hg : a.Given ts st0) (keyOf : ℕ → PyStr) :
    ∃ ses st' b, initSpectra keyOf a st0 = ((ses, st'), .ok ()) ∧ SesOf keyOf a ts st0 b ses ∧
      Prog a ts st0 (a.data.toList ++ a.floating ++ a.signal.toList) b st' := by
  unfold initSpectra
  obtain ⟨st1, dp, h1, p1, n1, m1⟩ := init_data hg
  rw [h1]
  obtain ⟨st2, b, fp, h2, p2, n2, n2', m2⟩ := init_fixed hg p1
    { bare a with data := a.data, dataPars := dp } (bare_roi a) rfl rfl
  have e2 : thenDo (({ bare a with data := a.data, dataPars := dp }, st1), .ok ())
      (setIf (fun ses st d => ses.makeFixed st d) (nonEmpty a.fixed)) = _ := h2
  rw [e2]
  obtain ⟨st3, config, flp, h3, p3, n3, n4, n5, n6, m3, m4⟩ := init_floating hg keyOf p2
    { bare a with data := a.data, dataPars := dp, fixed := b, fixedPars := fp } (bare_roi a) rfl rfl rfl
  have e3 : thenDo (({ bare a with data := a.data, dataPars := dp, fixed := b, fixedPars := fp }, st2),
      .ok ()) (setIf (fun ses st rs => setFloating keyOf ses st rs) (nonEmpty a.floating)) = _ := h3
  rw [e3]
  obtain ⟨st4, sp, h4, p4, n7, m5⟩ := init_signal hg p3
    { bare a with
      data := a.data, dataPars := dp, fixed := b, fixedPars := fp, config := config,
      floating := nonEmpty a.floating, floatingPars := flp } (bare_roi a) rfl rfl
  exact ⟨_, st4, b, h4, ⟨bare_roi a, rfl, rfl, n1, rfl, n2, n2', rfl, n3, rfl, n7, n4, n5, n6, rfl,
    rfl, m3, m1, m2, m4, m5⟩, p4⟩

/-- The state when all spectra have been shrunk. -/
structure Final (a : FitArgs) (ts : List Spectrum) (st0 : FitState) (b : Option ℕ) (st : FitState) :
    Prop where
  dimension : ∀ p, (st.params p).dimension = (st0.params p).dimension
  shrunk : ∀ r ∈ a.kept, ShrunkTo (inOrder a.roi) (st0.view r) (st.view r)
  total : ∀ t, b = some t → IsTotal ts (st.view t)
  made : ∀ t, b = some t → st0.next ≤ t ∧ t < st.next

theorem total_region (hg : a.Given ts st0) {s : Spectrum} (h : IsTotal ts s) (hne : a.fixed ≠ []) :
    HasRegion s.cfg (inOrder a.roi) ∧ CanShrink (inOrder a.roi) s := by
  have hr := inOrder_isDict hg.region
  have hF := hg.fixed.shrunk
  obtain ⟨e, l, hl⟩ := List.exists_cons_of_ne_nil hne
  have hable := hg.able e.1 (List.mem_append_right _ (by simp [hl]))
  rw [hl] at hF
  cases hF with
  | @cons _ t _ ts' h1 _ =>
  obtain ⟨kw, hk, herr, ht, -⟩ := h1
  have hst : ShrunkTo (inOrder a.roi) (st0.view e.1) ((st0.view e.1).shrink kw).st :=
    ⟨kw, hk, herr, ⟨⟨rfl, rfl, rfl, rfl, rfl⟩, rfl, fun _ _ => rfl⟩⟩
  obtain ⟨g1, g2⟩ := hst.region hr hable
  obtain ⟨c1, c2⟩ := h.axes t List.mem_cons_self
  have d1 : t.cfg = ((st0.view e.1).shrink kw).st.cfg := by rw [ht]; exact scale_cfg _ _
  have d2 : t.data.shape = ((st0.view e.1).shrink kw).st.data.shape := by
    rw [ht]; unfold Spectrum.scale; split <;> rfl
  exact ⟨by rw [c1, d1]; exact g1, g2.congr (c1.trans d1) (c2.trans d2)⟩

/-- Shrinking to the region a spectrum that has the region changes nothing. -/
theorem shrunkTo_same {roi : Dict (ℚ × ℚ)} {s t : Spectrum} (hr : IsDict roi) (hs : CanShrink roi s)
    (hreg : HasRegion s.cfg roi) (h : ShrunkTo roi s t) : s.Eqv t := by
  obtain ⟨kw, hk, -, he⟩ := h
  have hd := asksRoi_isDict hr hk
  have hax : ∀ p ∈ s.cfg, Asked kw (p.name ++ lit "_low") p.low p.low ∧
      Asked kw (p.name ++ lit "_high") p.high p.high := by
    intro p hp
    by_cases hx : ∃ e ∈ roi, OfDim p.name e.1
    · obtain ⟨e, her, hpd⟩ := hx
      obtain ⟨a, b⟩ := asksRoi_asked hs.dims hk her hp hpd
      obtain ⟨q, hq, hqd, g1, g2⟩ := hreg e her
      obtain rfl : p = q := hs.dims p hp q hq e.1 (.inl hpd) (.inl hqd)
      exact ⟨.inl (g1 ▸ a), .inl (g2 ▸ b)⟩
    · refine ⟨.inr ⟨?_, rfl⟩, .inr ⟨?_, rfl⟩⟩
      · intro v hv
        obtain ⟨e, her, q, hq, hqd, hk'⟩ := asksRoi_mem hk hv
        rcases hk' with hk' | hk'
        · simp only [Prod.mk.injEq] at hk'
          rw [← List.append_cancel_right hk'.1] at hqd
          exact hx ⟨e, her, hqd⟩
        · simp only [Prod.mk.injEq] at hk'
          exact low_ne_high hk'.1
      · intro v hv
        obtain ⟨e, her, q, hq, hqd, hk'⟩ := asksRoi_mem hk hv
        rcases hk' with hk' | hk'
        · simp only [Prod.mk.injEq] at hk'
          exact low_ne_high hk'.1.symm
        · simp only [Prod.mk.injEq] at hk'
          rw [← List.append_cancel_right hk'.1] at hqd
          exact hx ⟨e, her, hqd⟩
  have hedge : ∀ p ∈ s.cfg, p.edge ((p.bins.toNat : ℕ) : ℤ) = p.high ∧ p.edge ((0 : ℕ) : ℤ) = p.low ∧
      ((p.bins.toNat : ℕ) : ℤ) = p.bins := by
    intro p hp
    have hb := hs.wf.axes p hp
    have h0 := hb.1
    have hbn : ((p.bins.toNat : ℕ) : ℤ) = p.bins := by omega
    refine ⟨?_, by simp [SPar.edge_eq], hbn⟩
    rw [hbn, SPar.edge_eq, ← hb.high_eq]
  have hask : AsksEdges s kw (s.cfg.map (fun p => (0, p.bins.toNat))) := by
    refine ⟨hd, ?_, ?_⟩
    · intro k hkk
      obtain ⟨e, -, p, hp, -, h⟩ := asksRoi_mem hk hkk
      exact ⟨p, hp, h.imp (fun h => by rw [h]) (fun h => by rw [h])⟩
    · rw [List.forall₂_map_right_iff, List.forall₂_same]
      intro p hp
      obtain ⟨g1, g2, g3⟩ := hedge p hp
      obtain ⟨a1, a2⟩ := hax p hp
      refine ⟨Nat.zero_le _, g3.le, ?_, ?_⟩
      · rw [g2]; exact a1
      · rw [g1]; exact a2
  obtain ⟨-, h4⟩ := c16_shrink_edges s hs.wf hs.aligned kw _ hask
  refine isSub_unique (rs := s.cfg.map (fun p => (0, p.bins.toNat))) (s := s) ?_ (isSub_eqv h4 he)
  have hshape : s.data.shape = s.cfg.map (fun p => p.bins.toNat) := by
    have := congrArg (List.map Int.toNat) hs.wf.shape
    simpa [List.map_map, Function.comp_def] using this
  refine ⟨⟨?_, ?_⟩, ?_, rfl, rfl, rfl, rfl⟩
  · rw [hshape]; simp
  · intro idx hi
    have hl : idx.length = s.cfg.length := by
      have := hi.length_eq
      rw [this, hshape, List.length_map]
    congr 1
    clear * - hl
    generalize s.cfg = l at hl
    induction l generalizing idx with
    | nil => cases idx with
      | nil => rfl
      | cons _ _ => simp at hl
    | cons p l ih => cases idx with
      | nil => simp at hl
      | cons i idx =>
        simp only [List.map_cons, List.zipWith_cons_cons, zero_add, List.cons.injEq, true_and]
        exact ih idx (by simpa using hl)
  · have : ∀ l : List SPar, (∀ p ∈ l, p ∈ s.cfg) →
        l = List.zipWith subAxis l (l.map (fun p => (0, p.bins.toNat))) := by
      intro l hl
      rw [List.zipWith_map_right, List.zipWith_self]
      conv_lhs => rw [← List.map_id l]
      refine List.map_congr_left fun p hp => ?_
      exact (c16_width_kept p (hs.wf.axes p (hl p hp)) (0, 1) (by simp)).2.2.symm
    exact this s.cfg fun _ h => h

theorem IsTotal.eqv {ts : List Spectrum} {s t : Spectrum} (h : IsTotal ts s) (he : s.Eqv t) :
    IsTotal ts t := by
  obtain ⟨⟨b1, b2, b3, b4, b5⟩, c1, c2⟩ := he
  refine ⟨fun u hu => ?_, fun idx hi => ?_, b3.trans h.numDecays, b4.trans h.rawEvents⟩
  · obtain ⟨d1, d2⟩ := h.axes u hu
    exact ⟨b2.trans d1, c1.symm.trans d2⟩
  · rw [← c2 idx (by rw [c1]; exact hi)]
    exact h.cells idx (by rw [c1]; exact hi)

theorem Prog.final {b : Option ℕ} {st : FitState}
    (h : Prog a ts st0 (a.data.toList ++ a.floating ++ a.signal.toList) b st) :
    Final a ts st0 b st where
  dimension := h.dimension
  shrunk := by
    intro r hr
    refine h.done r hr ?_
    simp only [FitArgs.kept, List.mem_append] at hr ⊢
    tauto
  total t ht := (h.total t ht).2
  made := h.made

theorem shrinkAllIf_run {keyOf : ℕ → PyStr} (hg : a.Given ts st0) {b : Option ℕ} {st : FitState} {ses : Session}
    (h : Prog a ts st0 (a.data.toList ++ a.floating ++ a.signal.toList) b st)
    (hs : SesOf keyOf a ts st0 b ses) :
    ∃ st', shrinkAllIf a.shrink ses st = ((ses, st'), .ok ()) ∧ Final a ts st0 b st' := by
  have hr := inOrder_isDict hg.region
  unfold shrinkAllIf
  by_cases hsh : a.shrink = true
  swap
  · rw [if_neg hsh]; exact ⟨st, rfl, h.final⟩
  rw [if_pos hsh]
  have hfl : (nonEmpty a.floating).getD [] = a.floating := by
    unfold nonEmpty; split
    · next h => rw [h]; rfl
    · rfl
  unfold Session.shrinkAll
  rw [hs.roi, hs.data, hs.fixed, hs.signal, hs.floating, hfl]
  have hlt : ∀ r ∈ a.kept, r < st0.next := hg.alloc
  have hperm : (a.data.toList ++ b.toList ++ a.signal.toList ++ a.floating).Perm (b.toList ++ a.kept) := by
    unfold FitArgs.kept
    simp only [List.append_assoc]
    exact List.perm_append_comm_assoc _ _ _
  have hcan : ∀ r ∈ b.toList ++ a.kept, CanShrink (inOrder a.roi) (st.view r) := by
    intro r hm
    rcases List.mem_append.1 hm with hm | hm
    · have hb : b = some r := by simpa using hm
      obtain ⟨⟨e, he, -⟩, h2⟩ := h.total r hb
      exact (total_region hg h2 (List.ne_nil_of_mem he)).2
    · exact h.canShrink hg hm
  have hkn : (a.kept.map (fun r => (st.objs r).cfg)) = a.kept.map (fun r => (st0.objs r).cfg) :=
    List.map_congr_left fun r hr => h.refs r (hlt r hr)
  have hnd : ((b.toList ++ a.kept).map (fun r => (st.objs r).cfg)).Nodup := by
    rw [List.map_append, List.nodup_append, hkn]
    refine ⟨?_, hg.kept_nodup, ?_⟩
    · cases b <;> simp
    · intro c hc c' hc'
      obtain ⟨r, hr', rfl⟩ := List.mem_map.1 hc
      obtain ⟨q, hq, rfl⟩ := List.mem_map.1 hc'
      have hb : b = some r := by simpa using hr'
      obtain ⟨⟨e, he, h1⟩, -⟩ := h.total r hb
      rw [h1]
      exact (hg.apart hq he).symm
  obtain ⟨st', h1, h2, h3⟩ := shrinkList_canShrink hr
    (((hperm.map (fun r => (st.objs r).cfg)).nodup_iff).2 hnd)
    (fun r hm => hcan r (hperm.mem_iff.1 hm))
  refine ⟨st', by rw [h1], ⟨fun p => by rw [h3]; exact h.dimension p, ?_, ?_,
    fun t ht => h2.next ▸ h.made t ht⟩⟩
  · intro r hm
    have h4 := h.final.shrunk r hm
    refine h4.trans hr (hg.able r (List.mem_append_left _ hm)) ?_
    exact h2.shrunk r (hperm.mem_iff.2 (List.mem_append_right _ hm))
  · intro t ht
    obtain ⟨⟨e, he, -⟩, h5⟩ := h.total t ht
    have h6 := h2.shrunk t (hperm.mem_iff.2 (List.mem_append_left _ (by simp [ht])))
    obtain ⟨g1, g2⟩ := total_region hg h5 (List.ne_nil_of_mem he)
    exact h5.eqv (shrunkTo_same hr g2 g1 h6)

end

end Verif
