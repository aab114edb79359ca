import Verif.Lemmas.FitCalls
import Verif.Props.FitFixed
import Verif.Spec.FitExamples

/-!
# C94, C96, C97: checks, setters and sequences of calls of a fit
-/

namespace Verif

open Session

/-! ### helper lemmas about the checks -/

theorem getD_nil_iff {α : Type} {o : Option (List α)} : o.getD [] = [] ↔ ∀ l, o = some l → l = [] := by
  cases o with
  | none => simp
  | some l => simp

theorem checkSet_iff {roi : Dict (ℚ × ℚ)} {st : FitState} {r : ℕ} {pars : Option (List PyStr)}
    (ha : DistinctDims (st.view r).cfg ∧ ((st.view r).cfg.map SPar.name).Nodup) :
    checkSet roi st r pars = .ok () ↔ ReadyFor roi st r pars := by
  unfold checkSet ReadyFor
  cases pars with
  | none => simp
  | some ps =>
    by_cases hp : ps = []
    · simp [hp]
    · simp only [Option.getD_some, hp, if_false, Option.some.injEq, exists_eq_left', ne_eq,
        not_false_eq_true, true_and]
      exact checkSpectra_iff ha.1 ha.2

theorem checkOptional_iff {roi : Dict (ℚ × ℚ)} {st : FitState} {o : Option ℕ}
    {pars : Option (List PyStr)}
    (ha : ∀ r, o = some r → DistinctDims (st.view r).cfg ∧ ((st.view r).cfg.map SPar.name).Nodup) :
    checkOptional roi st o pars = .ok () ↔ ∀ r, o = some r → ReadyFor roi st r pars := by
  cases o with
  | none => simp [checkOptional]
  | some r =>
    simp only [checkOptional, Option.some.injEq, forall_eq']
    exact checkSet_iff (ha r rfl)

theorem checkFloating_iff {ses : Session} :
    checkFloating ses = .ok () ↔ ∀ rs, ses.floating = some rs → rs ≠ [] →
      ∃ pss, ses.floatingPars = some pss ∧ pss.length = rs.length := by
  unfold checkFloating
  cases ses.floating with
  | none => simp
  | some rs =>
    cases rs with
    | nil => simp
    | cons r rs =>
      simp only [Option.getD_some, reduceCtorEq, if_false, Option.some.injEq, forall_eq', ne_eq,
        not_false_eq_true, forall_const]
      cases ses.floatingPars with
      | none => simp
      | some pss =>
        cases pss with
        | nil => simp
        | cons ps pss => simp

theorem except_seq_iff {x y : Except PyErr Unit} : (do x; y) = .ok () ↔ x = .ok () ∧ y = .ok () := by
  cases x with
  | error e => simp [bind, Except.bind]
  | ok u => simp [bind, Except.bind]

theorem mem_compared {ses : Session} {r : ℕ}
    (h : ses.data = some r ∨ ses.fixed = some r ∨ ses.signal = some r) : r ∈ ses.compared := by
  simp only [Session.compared, List.mem_append, Option.mem_toList]
  tauto

theorem checkAllSpectra_iff {ses : Session} {st : FitState} (ha : Addressable st ses.compared) :
    checkAllSpectra ses st = .ok () ↔ SpectraReady ses st := by
  unfold checkAllSpectra
  cases hd : ses.data with
  | none =>
    refine ⟨fun h => (by cases h), fun h => ?_⟩
    obtain ⟨r, h, -⟩ := h.data
    rw [hd] at h; cases h
  | some d =>
    simp only
    rw [except_seq_iff, checkSet_iff (ha d (mem_compared (.inl hd)))]
    by_cases hb : ses.fixed = none ∧ ses.floating = none
    · rw [if_pos hb]
      refine ⟨fun h => (by cases h.2), fun h => ?_⟩
      rcases h.background with h | h
      · exact absurd hb.1 h
      · exact absurd hb.2 h
    · rw [if_neg hb, except_seq_iff, except_seq_iff, checkFloating_iff,
        checkOptional_iff (fun r hr => ha r (mem_compared (.inr (.inl hr)))),
        checkOptional_iff (fun r hr => ha r (mem_compared (.inr (.inr hr))))]
      constructor
      · rintro ⟨h1, h2, h3, h4⟩
        exact ⟨⟨d, hd, h1⟩, by rw [not_and_or] at hb; exact hb, h2, h3, h4⟩
      · rintro ⟨⟨d', h0, h1⟩, -, h2, h3, h4⟩
        rw [hd] at h0; cases h0
        exact ⟨h1, h2, h3, h4⟩

theorem parsOf_nil {ses : Session} : ses.parsOf false = [] ↔ ∀ e ∈ ses.config, e.2.2 = true := by
  unfold parsOf
  simp only [List.map_eq_nil_iff, List.filter_eq_nil_iff, beq_iff_eq, Bool.not_eq_false]

theorem checkSettings_iff {ses : Session} : checkSettings ses = .ok () ↔ SettingsReady ses := by
  unfold checkSettings
  by_cases h1 : ses.floating.getD [] ≠ [] ∧ ses.config = []
  · rw [if_pos h1]
    refine ⟨fun h => (by cases h), fun h => ?_⟩
    obtain ⟨h2, h3⟩ := h1
    cases hf : ses.floating with
    | none => rw [hf] at h2; exact absurd rfl h2
    | some rs =>
      rw [hf] at h2
      exact absurd h3 (h.floating rs hf h2)
  rw [if_neg h1]
  by_cases h2 : ses.floating.getD [] = [] ∧ ses.parsOf false ≠ []
  · rw [if_pos h2]
    refine ⟨fun h => (by cases h), fun h => ?_⟩
    exact absurd (parsOf_nil.2 (h.fixed (getD_nil_iff.1 h2.1))) h2.2
  rw [if_neg h2]
  have hfl : ∀ rs, ses.floating = some rs → rs ≠ [] → ses.config ≠ [] := by
    intro rs hrs hne hc
    exact h1 ⟨by rw [hrs]; exact hne, hc⟩
  have hfx : (∀ rs, ses.floating = some rs → rs = []) → ∀ e ∈ ses.config, e.2.2 = true := by
    intro h
    rw [← parsOf_nil]
    by_contra hc
    exact h2 ⟨getD_nil_iff.2 h, hc⟩
  cases hm : ses.minimiser with
  | none =>
    refine ⟨fun h => (by cases h), fun h => ?_⟩
    obtain ⟨b, h, -⟩ := h.minimiser
    rw [hm] at h; cases h
  | some b =>
    simp only
    constructor
    · intro h
      refine ⟨hfl, hfx, ⟨b, hm, fun hp => ?_⟩, fun hp => ?_⟩
      · cases b with
        | true => rfl
        | false => rw [if_pos ⟨hp, rfl⟩] at h; cases h
      · split at h
        · cases h
        · split at h
          · cases h
          · next hn =>
            rw [not_and] at hn
            simpa using hn hp
    · intro h
      obtain ⟨b', hb, hb'⟩ := h.minimiser
      rw [hm] at hb; cases hb
      rw [if_neg, if_neg]
      · rintro ⟨hp, hs⟩
        rw [h.stat hp] at hs; cases hs
      · rintro ⟨hp, hs⟩
        rw [hb' hp] at hs; cases hs

/-- No global parameter of the configuration lacks a dimension. -/
def GlobalsHaveDimension (ses : Session) (st : FitState) : Prop :=
  ∀ e ∈ ses.config, e.2.2 = true → (st.params e.2.1).dimension ≠ none

theorem dumpConfig_iff {ses : Session} {st : FitState} :
    dumpConfig ses st = .ok () ↔ GlobalsHaveDimension ses st := by
  unfold dumpConfig GlobalsHaveDimension
  have : (∃ p ∈ ses.parsOf true, (st.params p).dimension = none) ↔
      ∃ e ∈ ses.config, e.2.2 = true ∧ (st.params e.2.1).dimension = none := by
    unfold parsOf
    simp only [List.mem_map, List.mem_filter, beq_iff_eq]
    constructor
    · rintro ⟨p, ⟨e, ⟨he, h1⟩, rfl⟩, h2⟩; exact ⟨e, he, h1, h2⟩
    · rintro ⟨e, he, h1, h2⟩; exact ⟨_, ⟨e, ⟨he, h1⟩, rfl⟩, h2⟩
  split
  · next h =>
    rw [this] at h
    refine ⟨fun h => (by cases h), fun h' => ?_⟩
    obtain ⟨e, he, h1, h2⟩ := h
    exact absurd h2 (h' e he h1)
  · next h =>
    rw [this] at h
    refine ⟨fun _ e he h1 h2 => h ⟨e, he, h1, h2⟩, fun _ => rfl⟩

theorem dumpConfig_cases (ses : Session) (st : FitState) :
    dumpConfig ses st = .ok () ∨ dumpConfig ses st = .error .typeError := by
  unfold dumpConfig
  split
  · exact .inr rfl
  · exact .inl rfl

/-! ### concrete fits -/

theorem ex_single_dims (p : SPar) : DistinctDims [p] := by
  intro a ha b hb d _ _
  rw [List.mem_singleton.1 ha, List.mem_singleton.1 hb]

theorem ex_energy_mc : OfDim (lit "energy_mc") (lit "energy") := ⟨lit "mc", by decide, rfl⟩

theorem ex_addressable (ses : Session) (st : FitState) (p : ℕ → SPar)
    (h : ∀ r, (st.view r).cfg = [p r]) : Addressable st ses.compared := by
  intro r _
  rw [h r]
  exact ⟨ex_single_dims _, by simp⟩

theorem ex_shrunk_cfg (r : ℕ) :
    (Ex.shrunkState.view r).cfg = [if (Ex.shrunkState.objs r).cfg ≤ 1 then Ex.roiAxis else Ex.fitAxis] := by
  show (if (Ex.shrunkState.objs r).cfg ≤ 1 then [Ex.roiAxis] else [Ex.fitAxis]) = _
  split <;> rfl

theorem ex_roi_fits : FitsRoi [Ex.roiAxis] Ex.sesRoi := by
  intro e he
  rw [List.mem_singleton.1 he]
  exact ⟨Ex.roiAxis, by simp, ex_energy_mc, by norm_num [Ex.roiAxis], by norm_num [Ex.roiAxis]⟩

theorem ex_axis_unfit : ¬ FitsRoi [Ex.fitAxis] Ex.sesRoi := by
  intro h
  obtain ⟨p, hp, -, h1, -⟩ := h _ (List.mem_singleton.2 rfl)
  rw [List.mem_singleton.1 hp] at h1
  norm_num [Ex.fitAxis] at h1

theorem ex_spectraReady (ses : Session) (h1 : ses.roi = Ex.sesRoi) (h2 : ses.data = some 0)
    (h3 : ses.dataPars = some [lit "energy_mc"]) (h4 : ses.fixed = some 1)
    (h5 : ses.fixedPars = some [lit "energy_mc"]) (h6 : ses.signal = none)
    (h7 : ∀ rs, ses.floating = some rs → rs ≠ [] →
      ∃ pss, ses.floatingPars = some pss ∧ pss.length = rs.length) :
    SpectraReady ses Ex.shrunkState where
  data := ⟨0, h2, ⟨_, h3, by simp⟩, by rw [h1]; exact ex_roi_fits⟩
  background := .inl (by rw [h4]; simp)
  fixed := by
    intro r hr
    rw [h4] at hr; cases hr
    exact ⟨⟨_, h5, by simp⟩, by rw [h1]; exact ex_roi_fits⟩
  signal := by intro r hr; rw [h6] at hr; cases hr
  floating := h7

theorem ex_ses_ready : SpectraReady Ex.ses Ex.shrunkState ∧ SettingsReady Ex.ses :=
  ⟨ex_spectraReady _ rfl rfl rfl rfl rfl rfl (by rintro rs ⟨⟩),
    ⟨by rintro rs ⟨⟩, by rintro - e ⟨⟩, ⟨false, rfl, by rintro ⟨⟩⟩, by rintro ⟨⟩⟩⟩

theorem ex_floating_ready : SpectraReady Ex.sesFloating Ex.shrunkState ∧ SettingsReady Ex.sesFloating :=
  ⟨ex_spectraReady _ rfl rfl rfl rfl rfl rfl (by rintro rs ⟨⟩ -; exact ⟨_, rfl, rfl⟩),
    ⟨by rintro rs ⟨⟩ -; exact List.cons_ne_nil _ _, fun h => absurd (h _ rfl) (by simp),
      ⟨false, rfl, by rintro ⟨⟩⟩, by rintro ⟨⟩⟩⟩

theorem ex_global_ready : SpectraReady Ex.sesGlobal Ex.shrunkState ∧ SettingsReady Ex.sesGlobal :=
  ⟨ex_spectraReady _ rfl rfl rfl rfl rfl rfl (by rintro rs ⟨⟩ -; exact ⟨_, rfl, rfl⟩),
    ⟨by rintro rs ⟨⟩ -; exact List.cons_ne_nil _ _, fun h => absurd (h _ rfl) (by simp),
      ⟨false, rfl, by rintro ⟨⟩⟩, by rintro ⟨⟩⟩⟩

theorem ex_shrunk_addressable (ses : Session) : Addressable Ex.shrunkState ses.compared :=
  ex_addressable ses _ _ ex_shrunk_cfg

theorem ex_onEdges : RoiOnEdges Ex.sesRoi [Ex.fitAxis] := by
  intro e he p hp _
  rw [List.mem_singleton.1 he, List.mem_singleton.1 hp]
  exact ⟨1, 3, by decide, by norm_num [Ex.fitAxis], by norm_num [SPar.edge, SPar.width, Ex.fitAxis],
    by norm_num [SPar.edge, SPar.width, Ex.fitAxis]⟩

theorem ex_shrinkable (st : FitState) (r : ℕ) (h : (st.view r).cfg = [Ex.fitAxis])
    (hs : (st.view r).data.shape = [4]) : Shrinkable Ex.sesRoi (st.view r) where
  wf := ⟨by rw [h]; simp [SPar.WF, Ex.fitAxis], by rw [h]; simp, by rw [h, hs]; rfl⟩
  aligned := by
    rw [h]
    intro p hp
    rw [List.mem_singleton.1 hp]
    exact ⟨0, by simp [Ex.fitAxis]⟩
  named := by
    rw [h]
    intro p hp
    rw [List.mem_singleton.1 hp]
    exact ⟨_, ex_energy_mc⟩
  dims := by rw [h]; exact ex_single_dims _
  edges := .inl (by rw [h]; exact ex_onEdges)

theorem ex_sesRoi_dim (p : SPar) (h : p.name = lit "energy_mc") :
    ∀ e ∈ Ex.sesRoi, ∃ q ∈ [p], OfDim q.name e.1 := by
  intro e he
  rw [List.mem_singleton.1 he]
  exact ⟨p, by simp, h ▸ ex_energy_mc⟩

/-! ### C94 -/

/-- **C94, accepted.** `fit()` of a fit that has not been checked runs exactly when data, at
least one background, and all lists of parameters are set, data, fixed background and signal have
the range of the region up to the tolerance, and parameters, minimiser and per-bin flags go
together; then it does what the checked fit does. Global parameters are supposed to have a
dimension. -/
theorem c94_accepted_partial {ρ : Type} (mini : Fit → FitM ρ) (ses : Session) (st : FitState)
    (hc : ses.checked = false) (ha : Addressable st ses.compared)
    (hg : ∀ e ∈ ses.config, e.2.2 = true → (st.params e.2.1).dimension ≠ none)
    (hs : SpectraReady ses st) (hp : SettingsReady ses) :
    ses.fit mini st = { ses with checked := true }.fit mini st := by
  have h : checkFitter ses st = ({ ses with checked := true }, .ok ()) := by
    rcases checkFitter_cases ses st with ⟨e, he⟩ | ⟨h1, h2, h3⟩
    · exfalso
      unfold checkFitter at he
      rw [(checkAllSpectra_iff ha).2 hs, checkSettings_iff.2 hp] at he
      simp only [bind, Except.bind] at he
      rw [dumpConfig_iff.2 hg] at he
      cases (Prod.mk.inj he).2
    · rw [h3, dumpConfig_iff.2 hg]
  unfold Session.fit
  simp only [hc, Bool.false_eq_true, if_false, h, if_true]

example {ρ : Type} (mini : Fit → FitM ρ) :=
  c94_accepted_partial mini Ex.sesFloating Ex.shrunkState rfl (ex_shrunk_addressable _)
    (by intro e he h; rw [List.mem_singleton.1 he] at h; cases h)
    ex_floating_ready.1 ex_floating_ready.2

/-- **C94 fails** for floating backgrounds: nobody compares them with the region. Here the
floating background covers twice the region, and the fit is accepted. -/
theorem c94_floating_negation : ∃ (ses : Session) (st : FitState), ses.checked = false ∧
    ses.floating = some [2] ∧ ¬ FitsRoi (st.view 2).cfg ses.roi ∧
    ∀ (ρ : Type) (mini : Fit → FitM ρ), ses.fit mini st = { ses with checked := true }.fit mini st :=
  ⟨Ex.sesFloating, Ex.shrunkState, rfl, rfl, ex_axis_unfit, fun _ mini =>
    c94_accepted_partial mini Ex.sesFloating Ex.shrunkState rfl (ex_shrunk_addressable _)
      (by intro e he h; rw [List.mem_singleton.1 he] at h; cases h)
      ex_floating_ready.1 ex_floating_ready.2⟩

/-- **C94, refused.** Otherwise it raises, and nothing changes: neither the attributes of the fit
nor any object. -/
theorem c94_refused {ρ : Type} (mini : Fit → FitM ρ) (ses : Session) (st : FitState)
    (hc : ses.checked = false) (ha : Addressable st ses.compared)
    (h : ¬ (SpectraReady ses st ∧ SettingsReady ses)) :
    ∃ e, ses.fit mini st = ((ses, st), .error e) := by
  rcases checkFitter_cases ses st with ⟨e, he⟩ | ⟨h1, h2, -⟩
  · refine ⟨e, ?_⟩
    unfold Session.fit
    simp only [hc, Bool.false_eq_true, if_false, he]
  · exact absurd ⟨(checkAllSpectra_iff ha).1 h1, checkSettings_iff.1 h2⟩ h

/-- Data that have not been shrunk. -/
example {ρ : Type} (mini : Fit → FitM ρ) :
    ∃ e, { Ex.ses with data := some 4 }.fit mini Ex.shrunkState =
      (({ Ex.ses with data := some 4 }, Ex.shrunkState), .error e) :=
  c94_refused mini { Ex.ses with data := some 4 } _ rfl (ex_shrunk_addressable _) (fun h => by
    obtain ⟨r, hr, hf⟩ := h.1.data
    cases hr
    exact ex_axis_unfit hf.2)

theorem fit_error_of_check {ρ : Type} (mini : Fit → FitM ρ) {ses : Session} {st : FitState}
    (hc : ses.checked = false) {e : PyErr} (h : checkAllSpectra ses st = .error e) :
    ses.fit mini st = ((ses, st), .error e) := by
  have : checkFitter ses st = (ses, .error e) := by
    unfold checkFitter; rw [h]; rfl
  unfold Session.fit
  simp only [hc, Bool.false_eq_true, if_false, this]

theorem checkSpectra_valueError {s : Spectrum} (hd : DistinctDims s.cfg)
    (hn : (s.cfg.map SPar.name).Nodup) {roi : Dict (ℚ × ℚ)}
    (hdim : ∀ e ∈ roi, ∃ p ∈ s.cfg, OfDim p.name e.1) (h : ¬ FitsRoi s.cfg roi) :
    checkSpectra roi s = .error .valueError := by
  cases hx : checkSpectra roi s with
  | ok u => exact absurd (fitsRoi_of_check hx) h
  | error x =>
    unfold checkSpectra at hx
    obtain ⟨e, he, h1⟩ := forM_except_error hx
    obtain ⟨p, hp, hpd⟩ := hdim e he
    obtain ⟨ty, h3, h4⟩ := getDimType_of hd hp hpd
    unfold checkSpectraDim at h1
    have h3' : getDimType s.pars e.1 = .ok ty := h3
    rw [h3'] at h1
    simp only [bind, Except.bind] at h1
    rw [← h4, getPar_mem hn hp] at h1
    simp only at h1
    split at h1
    · cases h1; rfl
    · split at h1
      · cases h1; rfl
      · cases h1

/-- **C94, exceptions.** Without data, or without any background, it is a `CompatibilityError`;
data with the right dimensions but another range are a `ValueError`. -/
theorem c94_exceptions {ρ : Type} (mini : Fit → FitM ρ) (ses : Session) (st : FitState)
    (hc : ses.checked = false) (ha : Addressable st ses.compared) :
    (ses.data = none → ses.fit mini st = ((ses, st), .error .compatibility)) ∧
    (∀ r, ses.data = some r → ReadyFor ses.roi st r ses.dataPars → ses.fixed = none →
      ses.floating = none → ses.fit mini st = ((ses, st), .error .compatibility)) ∧
    (∀ r ps, ses.data = some r → ses.dataPars = some ps → ps ≠ [] →
      (∀ e ∈ ses.roi, ∃ p ∈ (st.view r).cfg, OfDim p.name e.1) → ¬ FitsRoi (st.view r).cfg ses.roi →
      ses.fit mini st = ((ses, st), .error .valueError)) := by
  refine ⟨fun hd => fit_error_of_check mini hc ?_, fun r hd hr hf hfl => fit_error_of_check mini hc ?_,
    fun r ps hd hps hne hdim hr => fit_error_of_check mini hc ?_⟩
  · unfold checkAllSpectra; rw [hd]
  · unfold checkAllSpectra
    rw [hd]
    simp only
    rw [(checkSet_iff (ha r (mem_compared (.inl hd)))).2 hr, if_pos ⟨hf, hfl⟩]
    rfl
  · unfold checkAllSpectra
    rw [hd]
    simp only
    have hax := ha r (mem_compared (.inl hd))
    have : checkSet ses.roi st r ses.dataPars = .error .valueError := by
      unfold checkSet
      rw [hps, Option.getD_some, if_neg hne]
      exact checkSpectra_valueError hax.1 hax.2 hdim hr
    rw [this]
    rfl

example {ρ : Type} (mini : Fit → FitM ρ) :
    Ex.sesNew.fit mini Ex.fitState = ((Ex.sesNew, Ex.fitState), .error .compatibility) :=
  (c94_exceptions mini Ex.sesNew Ex.fitState rfl (by rintro r ⟨⟩)).1 rfl

example {ρ : Type} (mini : Fit → FitM ρ) :
    { Ex.ses with fixed := none }.fit mini Ex.shrunkState =
      (({ Ex.ses with fixed := none }, Ex.shrunkState), .error .compatibility) :=
  (c94_exceptions mini { Ex.ses with fixed := none } _ rfl (ex_shrunk_addressable _)).2.1 0 rfl
    ⟨⟨_, rfl, by simp⟩, ex_roi_fits⟩ rfl rfl

example {ρ : Type} (mini : Fit → FitM ρ) :
    { Ex.ses with data := some 4 }.fit mini Ex.shrunkState =
      (({ Ex.ses with data := some 4 }, Ex.shrunkState), .error .valueError) :=
  (c94_exceptions mini { Ex.ses with data := some 4 } _ rfl (ex_shrunk_addressable _)).2.2 4 _ rfl rfl
    (by simp) (ex_sesRoi_dim _ rfl) ex_axis_unfit

/-- **C94 fails** for a global parameter without dimension: the first `fit()` raises a
`TypeError` while it logs the parameters, but by then the fit counts as checked, and the second
`fit()` runs. -/
theorem c94_dimension_negation {ρ : Type} (mini : Fit → FitM ρ) (ses : Session) (st : FitState)
    (hc : ses.checked = false) (ha : Addressable st ses.compared) (hs : SpectraReady ses st)
    (hp : SettingsReady ses) (p : PyStr × (ℕ × Bool)) (hpc : p ∈ ses.config) (hpg : p.2.2 = true)
    (hpd : (st.params p.2.1).dimension = none) :
    ses.fit mini st = (({ ses with checked := true }, st), .error .typeError) := by
  have hd : dumpConfig ses st = .error .typeError := by
    rcases dumpConfig_cases ses st with h | h
    · exact absurd hpd (dumpConfig_iff.1 h p hpc hpg)
    · exact h
  have h : checkFitter ses st = ({ ses with checked := true }, .error .typeError) := by
    unfold checkFitter
    rw [(checkAllSpectra_iff ha).2 hs, checkSettings_iff.2 hp]
    simp only [bind, Except.bind, hd]
  unfold Session.fit
  simp only [hc, Bool.false_eq_true, if_false, h]

example {ρ : Type} (mini : Fit → FitM ρ) :=
  c94_dimension_negation mini Ex.sesGlobal Ex.shrunkState rfl (ex_shrunk_addressable _)
    ex_global_ready.1 ex_global_ready.2 (lit "global", (1, true))
    (List.mem_cons_of_mem _ List.mem_cons_self) rfl rfl

/-- **C94 fails** for an empty list of floating backgrounds: it counts as a background in the
checks, and the fit then looks for a fixed background that is not there. -/
theorem c94_no_background_negation {ρ : Type} (mini : Fit → FitM ρ) (ses : Session) (st : FitState)
    (hc : ses.checked = true) (r : ℕ) (ps : List PyStr) (hd : ses.data = some r)
    (hps : ses.dataPars = some ps) (a : NdArray ℚ) (hpr : (st.view r).ndProject ps = .ok a)
    (hf : ses.fixed = none) (hfl : ses.floating = some []) :
    ses.fit mini st = ((ses, st), .error .attributeError) := by
  unfold Session.fit runFit fixedOnly
  simp only [hc, if_true, hfl, Option.getD_some, hd, hps, hf, fixedOnly.optionOr, bind, Except.bind,
    hpr]

example {ρ : Type} (mini : Fit → FitM ρ) :=
  c94_no_background_negation mini
    { Ex.ses with fixed := none, floating := some [], floatingPars := some [], checked := true }
    Ex.shrunkState rfl 0 [lit "energy_mc"] rfl rfl (Ex.shrunkState.view 0).data rfl rfl rfl

/-! ### C96 -/

/-- **C96, the region.** `set_roi` with a dictionary of pairs gives the region with the same
dimensions, each pair in ascending order, whatever region there was; `setRoi` here and the one for
arguments of any type (C64) agree. The checks have to be done again, and nothing else changes. -/
theorem c96_set_roi (ses : Session) (roi : Dict (ℚ × ℚ)) (old : Option (Dict RoiVal)) :
    List.Forall₂ (fun e e' => e'.1 = e.1 ∧ e'.2 = (min e.2.1 e.2.2, max e.2.1 e.2.2)) roi
      (ses.setRoi roi).roi ∧
    Verif.setRoi old (.dict (roi.map fun e => (e.1, .seq [e.2.1, e.2.2]))) =
      (some ((ses.setRoi roi).roi.map fun e => (e.1, .seq [e.2.1, e.2.2])),
        .dict ((ses.setRoi roi).roi.map fun e => (e.1, .seq [e.2.1, e.2.2])), none) ∧
    ses.setRoi roi = { ses with roi := (ses.setRoi roi).roi, checked := false } := by
  have h1 : List.Forall₂ (fun e e' => e'.1 = e.1 ∧ e'.2 = (min e.2.1 e.2.2, max e.2.1 e.2.2)) roi
      (ses.setRoi roi).roi := by
    show List.Forall₂ _ roi (roi.map _)
    induction roi with
    | nil => exact .nil
    | cons e roi ih =>
      rw [List.map_cons]
      refine .cons ⟨rfl, ?_⟩ ih
      dsimp only
      split
      · rename_i h
        rw [min_eq_right h.le, max_eq_left h.le]
      · rename_i h
        rw [min_eq_left (not_lt.1 h), max_eq_right (not_lt.1 h)]
  refine ⟨h1, ?_, rfl⟩
  have hloop : checkRoiLoop old (roi.map fun e => (e.1, .seq [e.2.1, e.2.2])) =
      ((ses.setRoi roi).roi.map fun e => (e.1, .seq [e.2.1, e.2.2]), none) := by
    generalize (ses.setRoi roi).roi = roi' at h1
    induction h1 with
    | nil => rfl
    | @cons e e' l l' he _ ih =>
      have hv : checkRoiVal old e.1 (.seq [e.2.1, e.2.2]) = .ok (.seq [e'.2.1, e'.2.2]) := by
        rw [he.2]
        simp only [checkRoiVal]
        split
        · rename_i h
          rw [min_eq_right h.le, max_eq_left h.le]
        · rename_i h
          rw [min_eq_left (not_lt.1 h), max_eq_right (not_lt.1 h)]
      rw [List.map_cons, List.map_cons, checkRoiLoop, hv]
      simp only [ih, he.1]
  simp only [Verif.setRoi, checkRoi, hloop]

/-- A pair given the wrong way round. -/
example : ({ Ex.ses with checked := true }.setRoi
    [(lit "energy", (5, 3)), (lit "radial", (0, 2))]).roi =
    [(lit "energy", (3, 5)), (lit "radial", (0, 2))] := by decide +kernel


theorem roiPars_shrunk {roi : Dict (ℚ × ℚ)} {axes : List SPar} {s : Spectrum} (hd : DistinctDims axes)
    (hn : s.cfg.map SPar.name = axes.map SPar.name) (h : HasRegion s.cfg roi) :
    ∃ ps, roiPars roi s = .ok ps ∧ RoiNames s.cfg roi ps := by
  refine roiPars_ok hd (fun e he => ?_) hn
  obtain ⟨p, hp, hpd, -⟩ := h e he
  have : p.name ∈ axes.map SPar.name := by rw [← hn]; exact List.mem_map_of_mem hp
  obtain ⟨q, hq, hqn⟩ := List.mem_map.1 this
  exact ⟨q, hq, hqn ▸ hpd⟩

/-- Shrinking a spectrum when it is set. -/
theorem shrink_set {roi : Dict (ℚ × ℚ)} (hr : IsDict roi) {r : ℕ} {st : FitState}
    (h : Shrinkable roi (st.view r)) :
    (∃ st' ps, shrinkSpectra roi r st = (st', .ok ()) ∧ roiPars roi (st'.view r) = .ok ps ∧
      HasRegion (st'.view r).cfg roi ∧ RoiNames (st'.view r).cfg roi ps ∧
      ∀ q, (st.objs q).cfg ≠ (st.objs r).cfg → st'.view q = st.view q) ∨
    (∃ st' e, shrinkSpectra roi r st = (st', .error e) ∧ ∀ q, st'.view q = st.view q) := by
  rcases shrinkSpectra_shrinkable hr h with ⟨st', h1, -, h2, -, -, -, h3, h4⟩ | ⟨st', e, h1, h2⟩
  · obtain ⟨ps, h5, h6⟩ := roiPars_shrunk h.dims h4 h2
    exact .inl ⟨st', ps, h1, h5, h2, h6, h3⟩
  · exact .inr ⟨st', e, h1, h2.view⟩

theorem shrink_accepted {roi : Dict (ℚ × ℚ)} (hr : IsDict roi) {r : ℕ} {st : FitState}
    (h : Shrinkable roi (st.view r)) (he : RoiOnEdges roi (st.view r).cfg)
    (hdim : ∀ e ∈ roi, ∃ p ∈ (st.view r).cfg, OfDim p.name e.1) :
    ∃ st', shrinkSpectra roi r st = (st', .ok ()) := by
  obtain ⟨kw, hkw⟩ := asksRoi_exists hdim
  have h1 := (shrink_region h.wf h.aligned h.dims hr he hkw).1
  rw [shrinkSpectra_run]
  have h2 : roiKw (st.view r).pars roi = .ok kw := roiKw_of_asks h.dims hkw hr
  rw [h2]
  exact ⟨_, FitM.call_run h1⟩

theorem shrinkOrCheck_true (roi : Dict (ℚ × ℚ)) (r : ℕ) (st : FitState) :
    shrinkOrCheck roi true r st = shrinkSpectra roi r st := rfl

theorem shrinkIf_true (roi : Dict (ℚ × ℚ)) (r : ℕ) (st : FitState) :
    shrinkIf roi true r st = shrinkSpectra roi r st := rfl

/-- **C96, shrinking setters.** `set_data`, `set_fixed_background` and `set_signal` with
`shrink=True`, for a region on bin edges: they are accepted; the axes of the spectrum are exactly
the region, the list of its parameters names them, and spectra that do not share its
configuration object stay as they are. -/
theorem c96_shrunk (ses : Session) (hr : IsDict ses.roi) (st : FitState) (r : ℕ)
    (h : Shrinkable ses.roi (st.view r)) (he : RoiOnEdges ses.roi (st.view r).cfg)
    (hdim : ∀ e ∈ ses.roi, ∃ p ∈ (st.view r).cfg, OfDim p.name e.1) :
    ∃ st' ps, HasRegion (st'.view r).cfg ses.roi ∧ RoiNames (st'.view r).cfg ses.roi ps ∧
      (∀ q, (st.objs q).cfg ≠ (st.objs r).cfg → st'.view q = st.view q) ∧
      ses.setData st r true = (({ ses with data := some r, dataPars := some ps }, st'), .ok ()) ∧
      ses.setFixed st r true = (({ ses with fixed := some r, fixedPars := some ps }, st'), .ok ()) ∧
      ses.setSignal st r true =
        (({ ses with signal := some r, signalPars := some ps }, st'), .ok ()) := by
  obtain ⟨st1, hst1⟩ := shrink_accepted hr h he hdim
  rcases shrink_set hr h with ⟨st', ps, h1, h2, h3, h4, h5⟩ | ⟨st', e, h1, -⟩
  · refine ⟨st', ps, h3, h4, h5, ?_, ?_, ?_⟩
    · unfold setData
      simp only [shrinkOrCheck_true, h1, h2]
    · unfold setFixed
      simp only [shrinkOrCheck_true, h1, h2]
    · unfold setSignal
      simp only [shrinkIf_true, h1, h2]
  · rw [hst1] at h1; cases h1

example := c96_shrunk Ex.sesNew (List.nodup_singleton _) Ex.fitState 0 (ex_shrinkable _ _ rfl rfl) ex_onEdges
  (ex_sesRoi_dim _ rfl)

/-- **C96, refused.** When one of them raises, the fit has the attributes it had, and no spectrum
looks different. -/
theorem c96_refused (ses : Session) (hr : IsDict ses.roi) (st : FitState) (r : ℕ)
    (h : Shrinkable ses.roi (st.view r)) :
    ((ses.setData st r true).2 ≠ .ok () → (ses.setData st r true).1.1 = ses ∧
      ∀ q, (ses.setData st r true).1.2.view q = st.view q) ∧
    ((ses.setFixed st r true).2 ≠ .ok () → (ses.setFixed st r true).1.1 = ses ∧
      ∀ q, (ses.setFixed st r true).1.2.view q = st.view q) ∧
    ((ses.setSignal st r true).2 ≠ .ok () → (ses.setSignal st r true).1.1 = ses ∧
      ∀ q, (ses.setSignal st r true).1.2.view q = st.view q) := by
  rcases shrink_set hr h with ⟨st', ps, h1, h2, -⟩ | ⟨st', e, h1, h2⟩
  · unfold setData setFixed setSignal
    simp only [shrinkOrCheck_true, shrinkIf_true, h1, h2]
    exact ⟨fun h => absurd rfl h, fun h => absurd rfl h, fun h => absurd rfl h⟩
  · unfold setData setFixed setSignal
    simp only [shrinkOrCheck_true, shrinkIf_true, h1]
    exact ⟨fun _ => ⟨trivial, h2⟩, fun _ => ⟨trivial, h2⟩, fun _ => ⟨trivial, h2⟩⟩

/-- A region that reaches beyond the axis. -/
example := c96_refused { Ex.sesNew with roi := [(lit "energy", (1, 3))] } (List.nodup_singleton _) Ex.fitState 0
  { ex_shrinkable Ex.fitState 0 rfl rfl with
    edges := .inr (fun kw h => by
      cases h with
      | cons p dim low high roi kw hp hd h =>
        cases h
        rw [List.mem_singleton.1 hp]
        decide +kernel) }

theorem roiNames_of_pars {roi : Dict (ℚ × ℚ)} {s : Spectrum} (hd : DistinctDims s.cfg)
    (h : FitsRoi s.cfg roi) : ∃ ps, roiPars roi s = .ok ps ∧ RoiNames s.cfg roi ps :=
  roiPars_ok hd (fun e he => by
    obtain ⟨p, hp, hpd, -⟩ := h e he
    exact ⟨p, hp, hpd⟩) rfl

/-- **C96, setters without shrinking.** `set_data` and `set_fixed_background` with
`shrink=False` accept exactly the spectra with the range of the region, up to the tolerance. No
object changes in either case, and a refused call leaves the fit as it was. -/
theorem c96_unshrunk (ses : Session) (st : FitState) (r : ℕ)
    (ha : DistinctDims (st.view r).cfg ∧ ((st.view r).cfg.map SPar.name).Nodup) :
    (FitsRoi (st.view r).cfg ses.roi → ∃ ps, RoiNames (st.view r).cfg ses.roi ps ∧
      ses.setData st r false = (({ ses with data := some r, dataPars := some ps }, st), .ok ()) ∧
      ses.setFixed st r false =
        (({ ses with fixed := some r, fixedPars := some ps }, st), .ok ())) ∧
    (¬ FitsRoi (st.view r).cfg ses.roi → ∃ e, ses.setData st r false = ((ses, st), .error e) ∧
      ses.setFixed st r false = ((ses, st), .error e)) := by
  constructor
  · intro h
    obtain ⟨ps, h1, h2⟩ := roiNames_of_pars ha.1 h
    have hc : shrinkOrCheck ses.roi false r st = (st, .ok ()) := by
      show (st, checkSpectra ses.roi (st.view r)) = _
      rw [checkSpectra_ok ha.1 ha.2 h]
    refine ⟨ps, h2, ?_, ?_⟩
    · unfold setData; simp only [hc, h1]
    · unfold setFixed; simp only [hc, h1]
  · intro h
    cases hx : checkSpectra ses.roi (st.view r) with
    | ok u => exact absurd (fitsRoi_of_check hx) h
    | error e =>
      have hc : shrinkOrCheck ses.roi false r st = (st, .error e) := by
        show (st, checkSpectra ses.roi (st.view r)) = _
        rw [hx]
      refine ⟨e, ?_, ?_⟩
      · unfold setData; simp only [hc]
      · unfold setFixed; simp only [hc]

example := (c96_unshrunk Ex.sesNew Ex.shrunkState 0 ⟨ex_single_dims _, by decide⟩).1 ex_roi_fits
example := (c96_unshrunk Ex.sesNew Ex.shrunkState 4 ⟨ex_single_dims _, by decide⟩).2 ex_axis_unfit

/-- **C96 fails** for the signal: with `shrink=False` any range is accepted, as long as the
dimensions are there. -/
theorem c96_signal_negation (ses : Session) (st : FitState) (r : ℕ)
    (hd : DistinctDims (st.view r).cfg)
    (hdim : ∀ e ∈ ses.roi, ∃ p ∈ (st.view r).cfg, OfDim p.name e.1) :
    ∃ ps, ses.setSignal st r false =
      (({ ses with signal := some r, signalPars := some ps }, st), .ok ()) := by
  obtain ⟨ps, h1, -⟩ := roiPars_ok hd hdim (s := st.view r) rfl
  refine ⟨ps, ?_⟩
  unfold setSignal
  have : shrinkIf ses.roi false r st = (st, .ok ()) := rfl
  simp only [this, h1]

example := c96_signal_negation Ex.sesNew Ex.shrunkState 4 (ex_single_dims _) (ex_sesRoi_dim _ rfl)
example : ¬ FitsRoi (Ex.shrunkState.view 4).cfg Ex.sesNew.roi := ex_axis_unfit

/-- **C96 fails** for floating backgrounds: when `set_floating_backgrounds` raises, the
parameters of the backgrounds before and at the one that is refused stay in the
configuration. -/
theorem c96_floating_negation : ∃ (ses : Session) (st : FitState) (rs : List ℕ) (e : PyErr),
    (setFloating Ex.keyOf ses st rs false).2 = .error e ∧ ses.config = [] ∧
    (setFloating Ex.keyOf ses st rs false).1.1.config = [(lit "bkg_rate", (0, false))] ∧
    (setFloating Ex.keyOf ses st rs false).1.1.floating = none :=
  ⟨Ex.sesNew, Ex.fitState, [2, 3], .valueError, by decide +kernel, rfl, by decide +kernel,
    by decide +kernel⟩

/-- **C96, made backgrounds.** `make_fixed_background` gives the fit the sum of the shrunk and
scaled spectra and the parameters of the region of it; a call that raises leaves the attributes of
the fit as they were. (Partial: the suppositions of C63, none for the second part.) -/
theorem c96_make_fixed_partial (ses : Session) (st : FitState) (d : List (ℕ × ℚ)) :
    (∀ ts, d ≠ [] → Suppliable ses.roi d ts st → ∃ st' total ps,
      ses.makeFixed st d true =
        (({ ses with fixed := some total, fixedPars := some ps }, st'), .ok ()) ∧
      IsTotal ts (st'.view total) ∧ RoiNames (st'.view total).cfg ses.roi ps ∧
      ∀ q, q < st.next → st'.objs q = st.objs q) ∧
    ∀ shrink e, (ses.makeFixed st d shrink).2 = .error e → (ses.makeFixed st d shrink).1.1 = ses := by
  constructor
  · intro ts hd h
    obtain ⟨st', total, ps, h1, -, h2, -, -, h3, h4⟩ := c63_sum_partial ses.roi d ts st hd h
    exact ⟨st', total, ps, by unfold Session.makeFixed; rw [h1], h2, h3, h4⟩
  · intro shrink e h
    unfold Session.makeFixed at h ⊢
    split at h
    · rfl
    · cases h

example := (c96_make_fixed_partial { Ex.sesNew with roi := exFitRoi } Ex.fitState
  [(2, 20), (3, 5)]).1 _ (by simp) exFit_suppliable
example := (c96_make_fixed_partial Ex.sesNew Ex.fitState []).2 true .nameError rfl

theorem shrinkOrCheck_fit (roi : Dict (ℚ × ℚ)) (shrink : Bool) (r q : ℕ) (st : FitState) :
    ((shrinkOrCheck roi shrink r st).1.objs q).fit = (st.objs q).fit := by
  cases shrink with
  | false => rfl
  | true =>
    rw [shrinkOrCheck_true, shrinkSpectra_run]
    split
    · rfl
    · rename_i kw _
      change ((st.write r ((st.view r).shrink kw).1).objs q).fit = _
      unfold FitState.write
      dsimp only
      by_cases h : q = r
      · subst h; rw [Function.update_self]
      · rw [Function.update_of_ne h]

theorem addConfig_assoc (keyOf : ℕ → PyStr) (config : Dict (ℕ × Bool)) (st : FitState) (r : ℕ)
    (k : PyStr) :
    ((∀ p ∈ (st.objs r).fit.getD [], keyOf p ≠ k) →
      assoc (addConfig keyOf config st r).1 k = assoc config k) ∧
    ∀ p, p ∈ (st.objs r).fit.getD [] → keyOf p = k →
      (∀ q ∈ (st.objs r).fit.getD [], keyOf q = k → q = p) →
      assoc (addConfig keyOf config st r).1 k = some (p, false) := by
  unfold addConfig
  generalize (st.objs r).fit.getD [] = ps
  generalize hc : ((config, st) : Dict (ℕ × Bool) × FitState) = c
  have hc1 : assoc config k = assoc c.1 k := by rw [← hc]
  rw [hc1]
  clear hc1 hc
  induction ps generalizing c with
  | nil => exact ⟨fun _ => rfl, by simp⟩
  | cons x ps ih =>
    rw [List.foldl_cons]
    have h := ih (dictSet c.1 (keyOf x) (x, false),
      { c.2 with params := Function.update c.2.params x { c.2.params x with name := keyOf x } })
    constructor
    · intro hne
      rw [h.1 fun p hp => hne p (List.mem_cons_of_mem _ hp), assoc_dictSet,
        if_neg (hne x (by simp))]
    · intro p hp hk hu
      by_cases hex : ∃ q ∈ ps, keyOf q = k
      · obtain ⟨q, hq, hqk⟩ := hex
        obtain rfl := hu q (by simp [hq]) hqk
        exact h.2 q hq hqk fun q' hq' => hu q' (by simp [hq'])
      · rw [h.1 fun q hq hqk => hex ⟨q, hq, hqk⟩, assoc_dictSet]
        rcases List.mem_cons.1 hp with rfl | hp
        · rw [if_pos hk]
        · exact absurd ⟨p, hp, hk⟩ hex

/-- **C96, floating backgrounds.** `set_floating_backgrounds` that does not raise gives the fit
these backgrounds, and enters all their parameters into the fit configuration, besides what was
there under other names (parameters have different full names: name of the spectrum, underscore,
name of the parameter). Nothing else of the fit changes. -/
theorem c96_floating (keyOf : ℕ → PyStr) (ses : Session) (st : FitState) (rs : List ℕ)
    (shrink : Bool) (hok : (setFloating keyOf ses st rs shrink).2 = .ok ())
    (hkey : ∀ r ∈ rs, ∀ p ∈ (st.objs r).fit.getD [], ∀ r' ∈ rs, ∀ q ∈ (st.objs r').fit.getD [],
      keyOf p = keyOf q → p = q) :
    ∃ config pss, (setFloating keyOf ses st rs shrink).1.1 =
        { ses with config, floating := some rs, floatingPars := some pss } ∧
      pss.length = rs.length ∧
      (∀ r ∈ rs, ∀ p ∈ (st.objs r).fit.getD [], assoc config (keyOf p) = some (p, false)) ∧
      ∀ k, (∀ r ∈ rs, ∀ p ∈ (st.objs r).fit.getD [], keyOf p ≠ k) →
        assoc config k = assoc ses.config k := by
  have key : ∀ (rs : List ℕ) (config : Dict (ℕ × Bool)) (st : FitState) (config' : Dict (ℕ × Bool))
      (st' : FitState) (pss : List (List PyStr)),
      (∀ r ∈ rs, ∀ p ∈ (st.objs r).fit.getD [], ∀ r' ∈ rs, ∀ q ∈ (st.objs r').fit.getD [],
        keyOf p = keyOf q → p = q) →
      floatingLoop keyOf ses.roi shrink config st rs = (config', st', .ok pss) →
      pss.length = rs.length ∧
      (∀ r ∈ rs, ∀ p ∈ (st.objs r).fit.getD [], assoc config' (keyOf p) = some (p, false)) ∧
      ∀ k, (∀ r ∈ rs, ∀ p ∈ (st.objs r).fit.getD [], keyOf p ≠ k) →
        assoc config' k = assoc config k := by
    intro rs
    induction rs with
    | nil =>
      intro config st config' st' pss _ h
      cases h
      exact ⟨rfl, by simp, fun _ _ => rfl⟩
    | cons r rs ih =>
      intro config st config' st' pss hu h
      obtain ⟨P, hP⟩ := addConfig_state keyOf config st r
      rw [floatingLoop, hP] at h
      have hfit := fun q => shrinkOrCheck_fit ses.roi shrink r q { st with params := P }
      cases hx : shrinkOrCheck ses.roi shrink r { st with params := P } with
      | mk st1 res =>
        rw [hx] at h hfit
        cases res with
        | error e => cases h
        | ok u =>
          dsimp only at h hfit
          cases hrp : roiPars ses.roi (st1.view r) with
          | error e => rw [hrp] at h; cases h
          | ok ps =>
            rw [hrp] at h
            dsimp only at h
            cases hl : floatingLoop keyOf ses.roi shrink (addConfig keyOf config st r).1 st1 rs with
            | mk c res =>
              obtain ⟨st2, res⟩ := res
              rw [hl] at h
              cases res with
              | error e => cases h
              | ok pss1 =>
                cases h
                obtain ⟨i1, i2, i3⟩ := ih _ st1 _ _ _ (by
                  intro r' hr' p hp r'' hr'' q hq
                  rw [hfit] at hp hq
                  exact hu r' (by simp [hr']) p hp r'' (by simp [hr'']) q hq) hl
                have ha := addConfig_assoc keyOf config st r
                refine ⟨by simp [i1], ?_, ?_⟩
                · intro r' hr' p hp
                  by_cases hex : ∃ r'' ∈ rs, ∃ q ∈ (st.objs r'').fit.getD [], keyOf q = keyOf p
                  · obtain ⟨r'', hr'', q, hq, hqk⟩ := hex
                    obtain rfl := hu r'' (by simp [hr'']) q hq r' hr' p hp hqk
                    exact i2 r'' hr'' q (by rw [hfit]; exact hq)
                  · rw [i3 _ fun r'' hr'' q hq hqk => hex ⟨r'', hr'', q, by rw [hfit] at hq; exact hq, hqk⟩]
                    rcases List.mem_cons.1 hr' with rfl | hr'
                    · exact (ha _).2 p hp rfl fun q hq hqk => hu r' (by simp) q hq r' (by simp) p hp hqk
                    · exact absurd ⟨r', hr', p, hp, rfl⟩ hex
                · intro k hk
                  rw [i3 k fun r'' hr'' q hq => hk r'' (by simp [hr'']) q (by rw [hfit] at hq; exact hq)]
                  exact (ha k).1 (hk r (by simp))
  unfold setFloating at hok ⊢
  cases hl : floatingLoop keyOf ses.roi shrink ses.config st rs with
  | mk c res =>
    obtain ⟨st2, res⟩ := res
    rw [hl] at hok
    cases res with
    | error e => cases hok
    | ok pss =>
      obtain ⟨h1, h2, h3⟩ := key rs _ _ _ _ _ hkey hl
      exact ⟨c, pss, rfl, h1, h2, h3⟩

/-- Two backgrounds with a rate each. -/
example := c96_floating Ex.keyOf Ex.sesNew Ex.fitState [2, 3] true (by decide +kernel) (by
  intro r hr p hp r' hr' q hq h
  have hr : r = 2 ∨ r = 3 := by simpa using hr
  have hr' : r' = 2 ∨ r' = 3 := by simpa using hr'
  rcases hr with rfl | rfl <;> rcases hr' with rfl | rfl <;>
    simp [Ex.fitState, Ex.fitObj] at hp hq <;> subst hp <;> subst hq <;> revert h <;> decide)

/-- What shrinking one spectrum does to the axes of all. -/
theorem shrunk_axes {roi : Dict (ℚ × ℚ)} (hr : IsDict roi) {r : ℕ} {st st' : FitState}
    (h : Shrinkable roi (st.view r)) (he : shrinkSpectra roi r st = (st', .ok ())) :
    HasRegion (st'.view r).cfg roi ∧ (∀ q, (st'.objs q).cfg = (st.objs q).cfg) ∧
    (∀ q, (st'.view q).cfg.map SPar.name = (st.view q).cfg.map SPar.name) ∧
    (∀ q, (st.objs q).cfg ≠ (st.objs r).cfg → st'.view q = st.view q) ∧
    ∀ q, HasRegion (st.view q).cfg roi → HasRegion (st'.view q).cfg roi := by
  rcases shrinkSpectra_shrinkable hr h with ⟨s, h1, -, h2, -, -, h3, h4, h5⟩ | ⟨s, e, h1, -⟩
  · rw [he] at h1
    cases h1
    have hcfg : ∀ q, (st.objs q).cfg = (st.objs r).cfg → (st'.view q).cfg = (st'.view r).cfg ∧
        (st.view q).cfg = (st.view r).cfg := by
      intro q hq
      refine ⟨?_, ?_⟩
      · show st'.cfgs _ = st'.cfgs _
        rw [h3 q, h3 r, hq]
      · show st.cfgs _ = st.cfgs _
        rw [hq]
    refine ⟨h2, h3, fun q => ?_, h4, fun q hq => ?_⟩
    · by_cases hc : (st.objs q).cfg = (st.objs r).cfg
      · rw [(hcfg q hc).1, (hcfg q hc).2, h5]
      · rw [h4 q hc]
    · by_cases hc : (st.objs q).cfg = (st.objs r).cfg
      · rw [(hcfg q hc).1]; exact h2
      · rw [h4 q hc]; exact hq
  · rw [he] at h1; cases h1

/-- **C96, shrinking all.** After a `shrink_all` that does not raise, data, fixed background,
signal and all floating backgrounds have exactly the region; spectra that share no configuration
object with them stay as they are. -/
theorem c96_shrink_all (ses : Session) (hr : IsDict ses.roi) (st st' : FitState)
    (h : ShrinkableAll ses.roi (ses.compared ++ ses.floating.getD []) st)
    (hok : ses.shrinkAll st = (st', .ok ())) :
    (∀ r, ses.data = some r ∨ ses.fixed = some r ∨ ses.signal = some r ∨
      r ∈ ses.floating.getD [] → HasRegion (st'.view r).cfg ses.roi) ∧
    ∀ q, (∀ r, ses.data = some r ∨ ses.fixed = some r ∨ ses.signal = some r ∨
      r ∈ ses.floating.getD [] → (st.objs q).cfg ≠ (st.objs r).cfg) → st'.view q = st.view q := by
  have key : ∀ (rs : List ℕ) (st : FitState), ShrinkableAll ses.roi rs st →
      shrinkList ses.roi rs st = (st', .ok ()) →
      (∀ r ∈ rs, HasRegion (st'.view r).cfg ses.roi) ∧
      (∀ q, HasRegion (st.view q).cfg ses.roi → HasRegion (st'.view q).cfg ses.roi) ∧
      ∀ q, (∀ r ∈ rs, (st.objs q).cfg ≠ (st.objs r).cfg) → st'.view q = st.view q := by
    intro rs
    unfold shrinkList
    induction rs with
    | nil =>
      intro st _ he
      cases he
      exact ⟨by simp, fun _ h => h, fun _ _ => rfl⟩
    | cons r rs ih =>
      intro st hs he
      obtain ⟨h1, h2⟩ := hs
      rw [forM_cons_run] at he
      cases hx : shrinkSpectra ses.roi r st with
      | mk st1 res =>
        rw [hx] at he h2
        cases res with
        | error e => cases he
        | ok u =>
          obtain ⟨a1, a2, -, a4, a5⟩ := shrunk_axes hr h1 hx
          obtain ⟨b1, b2, b3⟩ := ih st1 h2 he
          refine ⟨?_, fun q hq => b2 q (a5 q hq), fun q hq => ?_⟩
          · intro q hq
            rcases List.mem_cons.1 hq with rfl | hq
            · exact b2 q a1
            · exact b1 q hq
          · rw [b3 q fun r' hr' => by rw [a2, a2]; exact hq r' (by simp [hr']),
              a4 q (hq r (by simp))]
  obtain ⟨k1, -, k3⟩ := key _ st h hok
  have hmem : ∀ r, r ∈ ses.compared ++ ses.floating.getD [] ↔ (ses.data = some r ∨
      ses.fixed = some r ∨ ses.signal = some r ∨ r ∈ ses.floating.getD []) := by
    intro r
    simp only [Session.compared, List.mem_append, Option.mem_toList]
    tauto
  exact ⟨fun r hr => k1 r ((hmem r).2 hr), fun q hq => k3 q fun r hr => hq r ((hmem r).1 hr)⟩

/-- **C96, axes of floating backgrounds.** After a `set_floating_backgrounds` that does not raise,
every background has the range of the region, exactly if they are shrunk, and the fit keeps, in
the order of the backgrounds, the parameters of the region of each. -/
theorem c96_floating_axes (keyOf : ℕ → PyStr) (ses : Session) (hr : IsDict ses.roi) (st : FitState)
    (rs : List ℕ) (shrink : Bool) (hs : shrink = true → ShrinkableAll ses.roi rs st)
    (hd : ∀ r ∈ rs, DistinctDims (st.view r).cfg)
    (hok : (setFloating keyOf ses st rs shrink).2 = .ok ()) :
    ∃ pss, (setFloating keyOf ses st rs shrink).1.1.floatingPars = some pss ∧
      List.Forall₂ (fun r ps =>
        RoiNames ((setFloating keyOf ses st rs shrink).1.2.view r).cfg ses.roi ps ∧
        FitsRoi ((setFloating keyOf ses st rs shrink).1.2.view r).cfg ses.roi ∧
        (shrink = true →
          HasRegion ((setFloating keyOf ses st rs shrink).1.2.view r).cfg ses.roi)) rs pss := by
  have hnames : ∀ {a b : List SPar} {ps : List PyStr}, a.map SPar.name = b.map SPar.name →
      RoiNames a ses.roi ps → RoiNames b ses.roi ps := by
    intro a b ps hab hn
    refine List.Forall₂.imp (fun e n hen => ⟨hen.1, ?_⟩) hn
    obtain ⟨p, hp, hpn⟩ := hen.2
    have : p.name ∈ b.map SPar.name := by rw [← hab]; exact List.mem_map_of_mem hp
    obtain ⟨q, hq, hqn⟩ := List.mem_map.1 this
    exact ⟨q, hq, hqn.trans hpn⟩
  have hpars : ∀ {s : Spectrum} {axes : List SPar}, DistinctDims axes →
      s.cfg.map SPar.name = axes.map SPar.name → FitsRoi s.cfg ses.roi →
      ∃ ps, roiPars ses.roi s = .ok ps ∧ RoiNames s.cfg ses.roi ps := by
    intro s axes hd hn h
    refine roiPars_ok hd (fun e he => ?_) hn
    obtain ⟨p, hp, hpd, -⟩ := h e he
    have : p.name ∈ axes.map SPar.name := by rw [← hn]; exact List.mem_map_of_mem hp
    obtain ⟨q, hq, hqn⟩ := List.mem_map.1 this
    exact ⟨q, hq, hqn ▸ hpd⟩
  have key : ∀ (rs : List ℕ) (config : Dict (ℕ × Bool)) (st : FitState) (config' : Dict (ℕ × Bool))
      (st' : FitState) (pss : List (List PyStr)), (shrink = true → ShrinkableAll ses.roi rs st) →
      (∀ r ∈ rs, ∃ axes, DistinctDims axes ∧
        (st.view r).cfg.map SPar.name = axes.map SPar.name) →
      floatingLoop keyOf ses.roi shrink config st rs = (config', st', .ok pss) →
      (∀ q, (st'.view q).cfg.map SPar.name = (st.view q).cfg.map SPar.name) ∧
      (∀ q, HasRegion (st.view q).cfg ses.roi → HasRegion (st'.view q).cfg ses.roi) ∧
      (shrink = false → ∀ q, st'.view q = st.view q) ∧
      List.Forall₂ (fun r ps => RoiNames (st'.view r).cfg ses.roi ps ∧
        FitsRoi (st'.view r).cfg ses.roi ∧
        (shrink = true → HasRegion (st'.view r).cfg ses.roi)) rs pss := by
    intro rs
    induction rs with
    | nil =>
      intro config st config' st' pss _ _ h
      cases h
      exact ⟨fun _ => rfl, fun _ h => h, fun _ _ => rfl, .nil⟩
    | cons r rs ih =>
      intro config st config' st' pss hs hd h
      obtain ⟨P, hP⟩ := addConfig_state keyOf config st r
      rw [floatingLoop, hP] at h
      cases hx : shrinkOrCheck ses.roi shrink r { st with params := P } with
      | mk st1 res =>
        rw [hx] at h
        cases res with
        | error e => cases h
        | ok u =>
          dsimp only at h
          have hstep : (∀ q, (st1.view q).cfg.map SPar.name = (st.view q).cfg.map SPar.name) ∧
              (∀ q, HasRegion (st.view q).cfg ses.roi → HasRegion (st1.view q).cfg ses.roi) ∧
              (shrink = false → ∀ q, st1.view q = st.view q) ∧
              FitsRoi (st1.view r).cfg ses.roi ∧
              (shrink = true → HasRegion (st1.view r).cfg ses.roi) ∧
              (shrink = true → ShrinkableAll ses.roi rs st1) := by
            cases shrink with
            | false =>
              have hy : (({ st with params := P } : FitState),
                checkSpectra ses.roi (st.view r)) = (st1, .ok u) := hx
              clear hx
              rw [Prod.mk.injEq] at hy
              obtain ⟨rfl, hx⟩ := hy
              exact ⟨fun _ => rfl, fun _ h => h, fun _ _ => rfl, fitsRoi_of_check hx, by simp,
                by simp⟩
            | true =>
              obtain ⟨s1, s2⟩ := hs rfl
              have hx : shrinkSpectra ses.roi r { st with params := P } = (st1, .ok u) := hx
              obtain ⟨a1, -, a3, -, a5⟩ := shrunk_axes (st := { st with params := P }) hr s1 hx
              rw [shrinkSpectra_params, Prod.mk.injEq] at hx
              refine ⟨a3, a5, by simp, a1.fits, fun _ => a1, fun _ => ?_⟩
              rw [← hx.1]
              exact s2.params P
          obtain ⟨a1, a2, a3, a4, a5, a6⟩ := hstep
          cases hrp : roiPars ses.roi (st1.view r) with
          | error e => rw [hrp] at h; cases h
          | ok ps =>
            rw [hrp] at h
            dsimp only at h
            have hps : RoiNames (st1.view r).cfg ses.roi ps := by
              obtain ⟨axes, d1, d2⟩ := hd r (by simp)
              obtain ⟨ps', p1, p2⟩ := hpars d1 ((a1 r).trans d2) a4
              rw [hrp] at p1
              cases p1
              exact p2
            cases hl : floatingLoop keyOf ses.roi shrink (addConfig keyOf config st r).1 st1 rs with
            | mk c res =>
              obtain ⟨st2, res⟩ := res
              rw [hl] at h
              cases res with
              | error e => cases h
              | ok pss1 =>
                cases h
                obtain ⟨i1, i2, i3, i4⟩ := ih _ st1 _ _ _ a6 (fun q hq => by
                  obtain ⟨axes, d1, d2⟩ := hd q (by simp [hq])
                  exact ⟨axes, d1, (a1 q).trans d2⟩) hl
                refine ⟨fun q => (i1 q).trans (a1 q), fun q hq => i2 q (a2 q hq),
                  fun hf q => (i3 hf q).trans (a3 hf q),
                  .cons ⟨hnames (i1 r).symm hps, ?_, fun ht => i2 r (a5 ht)⟩ i4⟩
                cases hsh : shrink with
                | true => exact (i2 r (a5 hsh)).fits
                | false => rw [i3 hsh r]; exact a4
  unfold setFloating at hok ⊢
  cases hl : floatingLoop keyOf ses.roi shrink ses.config st rs with
  | mk c res =>
    obtain ⟨st2, res⟩ := res
    rw [hl] at hok
    cases res with
    | error e => cases hok
    | ok pss => exact ⟨pss, rfl, (key rs _ _ _ _ _ hs
      (fun r hr => ⟨_, hd r hr, rfl⟩) hl).2.2.2⟩

/-- Two backgrounds with a configuration of their own. -/
theorem ex_floating_shrinkable : ShrinkableAll Ex.sesNew.roi [2, 3] Ex.fitState :=
  ⟨ex_shrinkable _ _ (by decide +kernel) (by decide +kernel),
    ex_shrinkable _ _ (by decide +kernel) (by decide +kernel), trivial⟩

example := c96_floating_axes Ex.keyOf Ex.sesNew (List.nodup_singleton _) Ex.fitState [2, 3] true
  (fun _ => ex_floating_shrinkable)
  (by
    intro r hr
    have hr : r = 2 ∨ r = 3 := by simpa using hr
    rcases hr with rfl | rfl <;> exact ex_single_dims _) (by decide +kernel)
example := c96_shrink_all { Ex.sesNew with floating := some [2, 3] } (List.nodup_singleton _)
  Ex.fitState _ ex_floating_shrinkable (Prod.ext rfl (by decide +kernel))

/-- **C96, no signal.** After `remove_signal` the fit does what it does if no signal has ever been
set: results, exceptions, and what it does to the objects. -/
theorem c96_remove_signal {ρ : Type} (mini : Fit → FitM ρ) (ses : Session) (st : FitState) :
    ((ses.removeSignal).fit mini st).2 =
      ({ ses with signal := none, signalPars := none }.fit mini st).2 ∧
    ((ses.removeSignal).fit mini st).1.2 =
      ({ ses with signal := none, signalPars := none }.fit mini st).1.2 ∧
    (ses.removeSignal).toFit = { ses.toFit with signal := none } := by
  have hrun : ∀ b, runFit mini { ses with signal := none, checked := b } st =
      runFit mini { ses with signal := none, signalPars := none, checked := b } st := fun _ => rfl
  have hs : checkAllSpectra { ses with signal := none, signalPars := none } st =
      checkAllSpectra { ses with signal := none } st := rfl
  have hset : checkSettings { ses with signal := none, signalPars := none } =
      checkSettings { ses with signal := none } := rfl
  have hd : dumpConfig { ses with signal := none, signalPars := none } st =
      dumpConfig { ses with signal := none } st := rfl
  have hcheck : (checkFitter { ses with signal := none } st).2 =
      (checkFitter { ses with signal := none, signalPars := none } st).2 := by
    unfold checkFitter
    rw [hs, hset, hd]
    cases checkAllSpectra { ses with signal := none } st with
    | error e => rfl
    | ok u =>
      cases checkSettings { ses with signal := none } with
      | error e => rfl
      | ok v => rfl
  have fit_eq : ∀ s : Session, s.checked = false →
      (s.fit mini st).2 = (match (checkFitter s st).2 with
        | .error e => .error e
        | .ok _ => (runFit mini { s with checked := true } st).2) ∧
      (s.fit mini st).1.2 = (match (checkFitter s st).2 with
        | .error _ => st
        | .ok _ => (runFit mini { s with checked := true } st).1) := by
    intro s hc
    unfold Session.fit
    rw [if_neg (by rw [hc]; decide)]
    rcases checkFitter_cases s st with ⟨e, he⟩ | ⟨h1, h2, h3⟩
    · rw [he]; exact ⟨rfl, rfl⟩
    · rw [h3]
      cases dumpConfig s st with
      | error e => exact ⟨rfl, rfl⟩
      | ok u => exact ⟨rfl, rfl⟩
  have key : ((ses.removeSignal).fit mini st).2 =
      ({ ses with signal := none, signalPars := none }.fit mini st).2 ∧
    ((ses.removeSignal).fit mini st).1.2 =
      ({ ses with signal := none, signalPars := none }.fit mini st).1.2 := by
    by_cases hc : ses.checked = true
    · unfold Session.fit
      rw [if_pos (show (ses.removeSignal).checked = true from hc),
        if_pos (show ({ ses with signal := none, signalPars := none } : Session).checked = true from hc)]
      exact ⟨rfl, rfl⟩
    · have hc' : ses.checked = false := by simpa using hc
      have h1 := fit_eq ses.removeSignal hc'
      have h2 := fit_eq { ses with signal := none, signalPars := none } hc'
      rw [h1.1, h1.2, h2.1, h2.2,
        show (checkFitter ses.removeSignal st).2 = _ from hcheck]
      exact ⟨rfl, rfl⟩
  exact ⟨key.1, key.2, rfl⟩

example {ρ : Type} (mini : Fit → FitM ρ) :=
  c96_remove_signal mini { Ex.ses with signal := some 4, signalPars := some [lit "energy_mc"] }
    Ex.shrunkState

/-! ### C97 -/

theorem FreshSession.inv {ses : Session} (h : FreshSession ses) (st : FitState) (strict : Bool) :
    SesInv strict (ses, st) where
  dict := h.roi
  alloc q hq := by
    simp only [Session.compared, h.data, h.fixed, h.signal, Option.toList_none, List.append_nil,
      List.not_mem_nil] at hq
  sets hc := by rw [h.checked] at hc; cases hc
  fits hc := by rw [h.checked] at hc; cases hc

/-- **C97, data and fixed background.** After any sequence of calls, a fit that counts as checked
has data and a background, and data and fixed background have the range of the region, up to
the tolerance. -/
theorem c97_checked {ρ : Type} (keyOf : ℕ → PyStr) (mini : Fit → FitM ρ) (strict : Bool)
    (ses : Session) (hf : FreshSession ses) (st : FitState) (ses' : Session) (st' : FitState)
    (h : AfterCalls keyOf mini strict (ses, st) (ses', st')) (hc : ses'.checked = true) :
    (∃ r, ses'.data = some r ∧ FitsRoi (st'.view r).cfg ses'.roi) ∧
    (ses'.fixed ≠ none ∨ ses'.floating ≠ none) ∧
    ∀ r, ses'.fixed = some r → FitsRoi (st'.view r).cfg ses'.roi := by
  have hi := sesInv_calls (hf.inv st strict) h
  obtain ⟨h1, h2⟩ := hi.sets hc
  have h3 := hi.fits hc
  refine ⟨?_, h2, fun r hr => h3 r ?_⟩
  · cases hd : ses'.data with
    | none => exact absurd hd h1
    | some r =>
      refine ⟨r, rfl, h3 r ?_⟩
      simp only [Session.watched, List.mem_append, Option.mem_toList]
      exact .inl (.inl hd)
  · simp only [Session.watched, List.mem_append, Option.mem_toList]
    exact .inl (.inr hr)

/-- Data are set and shrunk. -/
noncomputable def exSetData : Session × FitState := (Ex.sesNew.setData Ex.fitState 0 true).1

/-- Then the fixed background is set and shrunk, and the fit is checked. -/
noncomputable def exCalls : Session × FitState :=
  let w := (exSetData.1.setFixed exSetData.2 1 true).1
  (((w.1.setMinimiser w.2 (some false)).1.checkFitter w.2).1, w.2)

/-- Then the signal is set. -/
noncomputable def exSetSignal (shrink : Bool) : Session × FitState :=
  (exCalls.1.setSignal exCalls.2 4 shrink).1

theorem ex_shrinkable' (w : Session × FitState) (r : ℕ) (h1 : w.1.roi = Ex.sesRoi)
    (h2 : (w.2.view r).cfg = [Ex.fitAxis]) (h3 : (w.2.view r).data.shape = [4]) :
    Shrinkable w.1.roi (w.2.view r) := by
  rw [h1]; exact ex_shrinkable _ _ h2 h3

theorem ex_fresh : FreshSession Ex.sesNew := ⟨List.nodup_singleton _, rfl, rfl, rfl, rfl⟩

theorem exCalls_after {ρ : Type} (mini : Fit → FitM ρ) (strict : Bool) :
    AfterCalls Ex.keyOf mini strict (Ex.sesNew, Ex.fitState) exCalls := by
  have h1 : AfterCalls Ex.keyOf mini strict (Ex.sesNew, Ex.fitState) exSetData :=
    .snoc (.setData 0 true) _ .nil ⟨by decide, fun _ => ex_shrinkable _ _ rfl rfl⟩
  have h2 := h1.snoc (.setFixed 1 true) _
    ⟨by decide +kernel, fun _ => ex_shrinkable' _ _ (by decide +kernel) (by decide +kernel)
      (by decide +kernel)⟩
  exact (h2.snoc (.setMinimiser (some false)) _ trivial).snoc .checkFitter _ trivial

theorem exCalls_checked : exCalls.1.checked = true := by decide +kernel

example {ρ : Type} (mini : Fit → FitM ρ) :=
  c97_checked Ex.keyOf mini true Ex.sesNew ex_fresh Ex.fitState _ _ (exCalls_after mini true)
    exCalls_checked

/-- **C97, signal.** If every signal that is set without shrinking has the range of the region,
so has the signal of a checked fit. Without that supposition see `c97_signal_negation`. -/
theorem c97_signal_partial {ρ : Type} (keyOf : ℕ → PyStr) (mini : Fit → FitM ρ)
    (ses : Session) (hf : FreshSession ses) (st : FitState) (ses' : Session) (st' : FitState)
    (h : AfterCalls keyOf mini true (ses, st) (ses', st')) (hc : ses'.checked = true) (r : ℕ)
    (hr : ses'.signal = some r) : FitsRoi (st'.view r).cfg ses'.roi := by
  refine (sesInv_calls (hf.inv st true) h).fits hc r ?_
  simp only [Session.watched, if_true, List.mem_append, Option.mem_toList]
  exact .inr hr

example {ρ : Type} (mini : Fit → FitM ρ) : FitsRoi ((exSetSignal true).2.view 4).cfg (exSetSignal true).1.roi :=
  c97_signal_partial Ex.keyOf mini Ex.sesNew ex_fresh Ex.fitState (exSetSignal true).1
    (exSetSignal true).2 ((exCalls_after mini true).snoc (.setSignal 4 true) _
      ⟨by decide +kernel, fun _ => ex_shrinkable' _ _ (by decide +kernel) (by decide +kernel)
        (by decide +kernel), by rintro _ ⟨⟩⟩) (by decide +kernel) 4 (by decide +kernel)

/-- **C97 fails** for signals set with `shrink=False`: the fit counts as checked, and the signal
does not have the range of the region. -/
theorem c97_signal_negation : ∃ ses : Session, FreshSession ses ∧ ∃ st : FitState,
    ∀ (ρ : Type) (mini : Fit → FitM ρ), ∃ w : Session × FitState,
      AfterCalls Ex.keyOf mini false (ses, st) w ∧ w.1.checked = true ∧
      w.1.signal = some 4 ∧ ¬ FitsRoi (w.2.view 4).cfg w.1.roi := by
  refine ⟨Ex.sesNew, ex_fresh, Ex.fitState, fun ρ mini => ⟨exSetSignal false,
    (exCalls_after mini false).snoc (.setSignal 4 false) _ ⟨by decide +kernel, by rintro ⟨⟩, by rintro ⟨⟩⟩,
    by decide +kernel, by decide +kernel, ?_⟩⟩
  have h1 : ((exSetSignal false).2.view 4).cfg = [Ex.fitAxis] := by decide +kernel
  have h2 : (exSetSignal false).1.roi = Ex.sesRoi := by decide +kernel
  rw [h1, h2]
  exact ex_axis_unfit

/-- **C97, fits.** Every `fit()` that returns a value has compared data and fixed background with
the region it is run for. -/
theorem c97_fit {ρ : Type} (keyOf : ℕ → PyStr) (mini : Fit → FitM ρ) (strict : Bool)
    (ses : Session) (hf : FreshSession ses) (st : FitState) (ses' : Session) (st' : FitState)
    (h : AfterCalls keyOf mini strict (ses, st) (ses', st')) (v : StatValue ⊕ ρ)
    (hv : (ses'.fit mini st').2 = .ok v) :
    (∃ r, ses'.data = some r ∧ FitsRoi (st'.view r).cfg ses'.roi) ∧
    ∀ r, ses'.fixed = some r → FitsRoi (st'.view r).cfg ses'.roi := by
  by_cases hc : ses'.checked = true
  · obtain ⟨h1, -, h2⟩ := c97_checked keyOf mini strict ses hf st ses' st' h hc
    exact ⟨h1, h2⟩
  · rcases checkFitter_cases ses' st' with ⟨e, he⟩ | ⟨h1, -⟩
    · unfold Session.fit at hv
      rw [if_neg hc, he] at hv
      cases hv
    · obtain ⟨a, -, b⟩ := checkAllSpectra_fits h1
      constructor
      · cases hd : ses'.data with
        | none => exact absurd hd a
        | some r => exact ⟨r, rfl, b r (mem_compared (.inl hd))⟩
      · exact fun r hr => b r (mem_compared (.inr (.inl hr)))

/-- The fit of `exCalls`; it returns a value, see `exCalls_fit` in `Props/FitFixedOnly`. -/
example {ρ : Type} (mini : Fit → FitM ρ) (v : StatValue ⊕ ρ)
    (hv : (exCalls.1.fit mini exCalls.2).2 = .ok v) :=
  c97_fit Ex.keyOf mini true Ex.sesNew ex_fresh Ex.fitState _ _ (exCalls_after mini true) v hv

end Verif
