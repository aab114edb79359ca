import Verif.Lemmas.FitInitRun
import Verif.Props.FitSession

/-!
# C99: the constructor of fits
-/

namespace Verif

open Session

section

variable {a : FitArgs} {ts : List Spectrum} {st : FitState}

/-- The spectra and parameter lists of the fit are as the checks want them. -/
theorem final_ready {keyOf : ℕ → PyStr} (hg : a.Given ts st) {b : Option ℕ} {st' : FitState} {ses : Session}
    (h : SesOf keyOf a ts st b ses) (hf : Final a ts st b st') :
    Addressable st' ses.compared ∧
    (a.data ≠ none → a.fixed ≠ [] ∨ a.floating ≠ [] → SpectraReady ses st') ∧
    (¬ (a.data ≠ none ∧ (a.fixed ≠ [] ∨ a.floating ≠ [])) →
      checkAllSpectra ses st' = .error .compatibility) := by
  have hr := inOrder_isDict hg.region
  have hk : ∀ r ∈ a.kept, HasRegion (st'.view r).cfg (inOrder a.roi) ∧
      CanShrink (inOrder a.roi) (st'.view r) := fun r hm =>
    (hf.shrunk r hm).region hr (hg.able r (List.mem_append_left _ hm))
  have hb : ∀ t, b = some t → HasRegion (st'.view t).cfg (inOrder a.roi) ∧
      CanShrink (inOrder a.roi) (st'.view t) := fun t ht =>
    total_region hg (hf.total t ht) fun hn => by rw [h.nofixed.2 hn] at ht; cases ht
  have hdat : ∀ r, a.data = some r → r ∈ a.kept := fun r hr => by simp [FitArgs.kept, hr]
  have hsig : ∀ r, a.signal = some r → r ∈ a.kept := fun r hr => by simp [FitArgs.kept, hr]
  have haddr : Addressable st' ses.compared := by
    intro r hm
    have hc : CanShrink (inOrder a.roi) (st'.view r) := by
      simp only [Session.compared, h.data, h.fixed, h.signal, List.mem_append,
        Option.mem_toList] at hm
      rcases hm with (hm | hm) | hm
      · exact (hk r (hdat r hm)).2
      · exact (hb r hm).2
      · exact (hk r (hsig r hm)).2
    exact ⟨hc.dims, hc.wf.names⟩
  have hfix : ∀ r, ses.fixed = some r → ReadyFor ses.roi st' r ses.fixedPars := by
    intro r hm
    rw [h.fixed] at hm
    rw [h.roi]
    exact ⟨h.fixedPars (by rw [hm]; simp), (hb r hm).1.fits⟩
  have hsg : ∀ r, ses.signal = some r → ReadyFor ses.roi st' r ses.signalPars := by
    intro r hm
    rw [h.signal] at hm
    rw [h.roi]
    exact ⟨h.signalPars (by rw [hm]; simp), (hk r (hsig r hm)).1.fits⟩
  have hda : ∀ r, ses.data = some r → ReadyFor ses.roi st' r ses.dataPars := by
    intro r hm
    rw [h.data] at hm
    rw [h.roi]
    exact ⟨h.dataPars (by rw [hm]; simp), (hk r (hdat r hm)).1.fits⟩
  refine ⟨haddr, fun hd hbg => ⟨?_, ?_, hfix, hsg, ?_⟩, fun hn => ?_⟩
  · obtain ⟨r, hr'⟩ := Option.ne_none_iff_exists'.1 hd
    rw [← h.data] at hr'
    exact ⟨r, hr', hda r hr'⟩
  · rcases hbg with hbg | hbg
    · left; rw [h.fixed]; exact fun hn => hbg (h.nofixed.1 hn)
    · right; rw [h.floating, nonEmpty, if_neg hbg]; simp
  · intro rs hrs _
    rw [h.floating] at hrs
    exact h.floatingPars rs hrs
  · unfold checkAllSpectra
    cases hd : ses.data with
    | none => rfl
    | some r =>
      have hnb : a.fixed = [] ∧ a.floating = [] := by
        rw [h.data] at hd
        by_contra hc
        exact hn ⟨by rw [hd]; simp, by tauto⟩
      simp only
      have h1 : checkSet ses.roi st' r ses.dataPars = .ok () :=
        (checkSet_iff (haddr r (mem_compared (.inl hd)))).2 (hda r hd)
      rw [h1]
      have h2 : ses.fixed = none ∧ ses.floating = none := by
        rw [h.fixed, h.floating, nonEmpty, if_pos hnb.2]
        exact ⟨h.nofixed.2 hnb.1, rfl⟩
      simp only [h2, and_self, if_true]
      rfl

/-- What the constructor gives. -/
theorem init_run (hg : a.Given ts st) (keyOf : ℕ → PyStr) :
    ∃ ses ses' st' b, init keyOf a st = (st', .ok ses) ∧ SesOf keyOf a ts st b ses' ∧ Final a ts st b st' ∧
      ses = { ses' with
        perBin := a.perBin, singleBin := a.singleBin,
        minimiser := if a.data ≠ none ∧ (a.fixed ≠ [] ∨ a.floating ≠ []) then
          some (a.minimiser.getD a.perBin) else none } := by
  obtain ⟨ses, st1, b, h1, h2, h3⟩ := initSpectra_run hg keyOf
  obtain ⟨st2, h4, h5⟩ := shrinkAllIf_run hg h3 h2
  have h6 : SesOf keyOf a ts st b { ses with perBin := a.perBin } :=
    ⟨h2.roi, h2.checked, h2.data, h2.dataPars, h2.fixed, h2.fixedPars, h2.nofixed, h2.floating,
      h2.floatingPars, h2.signal, h2.signalPars, h2.globals, h2.given, h2.config, h2.statPerBin,
      h2.stat, h2.entered, h2.dataNames, h2.fixedNames, h2.floatingNames, h2.signalNames⟩
  obtain ⟨h7, h8, h9⟩ := final_ready hg h6 h5
  unfold init
  rw [h1]
  simp only [thenDo]
  rw [h4]
  simp only [initMinimiser, setMinimiser]
  by_cases hc : a.data ≠ none ∧ (a.fixed ≠ [] ∨ a.floating ≠ [])
  · rw [(checkAllSpectra_iff h7).2 (h8 hc.1 hc.2), if_pos hc]
    exact ⟨_, ses, st2, b, rfl, h2, h5, rfl⟩
  · rw [h9 hc, if_neg hc]
    simp only [true_or, if_true]
    exact ⟨_, ses, st2, b, rfl, h2, h5, rfl⟩

theorem final_constructed {keyOf : ℕ → PyStr} (hg : a.Given ts st) {b : Option ℕ} {st' : FitState} {ses : Session}
    (h : SesOf keyOf a ts st b ses) (hf : Final a ts st b st') : Constructed a ts st ses st' where
  roi := h.roi
  data := h.data
  signal := h.signal
  floating := h.floating
  shrunk r hm := ⟨hf.shrunk r hm, ((hf.shrunk r hm).region (inOrder_isDict hg.region)
    (hg.able r (List.mem_append_left _ hm))).1⟩
  nofixed hn := h.fixed.trans (h.nofixed.2 hn)
  fixed hn := by
    cases hb : b with
    | none => exact absurd (h.nofixed.1 hb) hn
    | some t =>
      exact ⟨t, h.fixed.trans hb, hf.total t hb, (total_region hg (hf.total t hb) hn).1⟩

/-! ### C99 -/

/-- **C99, ready.** A fit is constructed with data, fixed or floating backgrounds or both, and
perhaps a signal, which can be cut to the region of interest at bin edges. Then the
constructor succeeds; every spectrum is as if it had been shrunk once, although the
constructor shrinks all of them twice; the fixed background is the total of the supplied
ones; there is a minimiser; and `fit()` passes all checks. Missing for the full claim:
axes that do not start at a multiple of their bin width (`c99_unaligned_negation`). -/
theorem c99_ready_partial (keyOf : ℕ → PyStr) (a : FitArgs) (ts : List Spectrum) (st : FitState)
    (hg : a.Given ts st) (hd : a.data ≠ none) (hb : a.fixed ≠ [] ∨ a.floating ≠ [])
    (hs : a.Settings st) :
    ∃ ses st', init keyOf a st = (st', .ok ses) ∧ Constructed a ts st ses st' ∧
      ses.checked = false ∧ ses.perBin = a.perBin ∧ ses.singleBin = a.singleBin ∧
      ses.minimiser = some (a.minimiser.getD a.perBin) ∧
      ∀ (ρ : Type) (mini : Fit → FitM ρ),
        ses.fit mini st' = { ses with checked := true }.fit mini st' := by
  obtain ⟨_, ses, st', b, h1, h2, h3, rfl⟩ := init_run hg keyOf
  rw [if_pos ⟨hd, hb⟩] at h1
  have h6 : SesOf keyOf a ts st b { ses with
      perBin := a.perBin, singleBin := a.singleBin,
      minimiser := some (a.minimiser.getD a.perBin) } :=
    ⟨h2.roi, h2.checked, h2.data, h2.dataPars, h2.fixed, h2.fixedPars, h2.nofixed, h2.floating,
      h2.floatingPars, h2.signal, h2.signalPars, h2.globals, h2.given, h2.config, h2.statPerBin,
      h2.stat, h2.entered, h2.dataNames, h2.fixedNames, h2.floatingNames, h2.signalNames⟩
  obtain ⟨h7, h8, -⟩ := final_ready hg h6 h3
  refine ⟨_, st', h1, final_constructed hg h6 h3, h2.checked, rfl, rfl, rfl, fun ρ mini => ?_⟩
  refine c94_accepted_partial mini _ st' h2.checked h7 ?_ (h8 hd hb) ⟨?_, ?_, ?_, ?_⟩
  · intro e he hgl
    rw [h3.dimension]
    exact hs.dimension e (h2.globals e he hgl) hgl
  · intro rs hrs hne
    refine h2.config (hs.floating ?_)
    rintro hn
    have := h2.floating.symm.trans hrs
    rw [nonEmpty, if_pos hn] at this
    cases this
  · intro hrs e he
    have hn : a.floating = [] := by
      by_contra hn
      exact hn (hrs a.floating (h2.floating.trans (by rw [nonEmpty, if_neg hn])))
    have h9 : e ∈ a.config := by rw [← h2.given hn]; exact he
    exact hs.fixed hn e h9
  · refine ⟨_, rfl, fun hp => ?_⟩
    have hp : a.perBin = true := hp
    have := (hs.perBin hp).2
    cases hm : a.minimiser with
    | none => exact hp
    | some m =>
      cases m with
      | true => rfl
      | false => exact absurd hm this
  · intro hp
    exact h2.statPerBin.trans (hs.perBin hp).1

/-- **C99, incomplete.** Without data, or without any background, the constructor succeeds all the
same, so that the missing spectra can be set later; but there is no minimiser, and
`fit()` is refused and changes nothing. -/
theorem c99_incomplete (keyOf : ℕ → PyStr) (a : FitArgs) (ts : List Spectrum) (st : FitState)
    (hg : a.Given ts st) (hn : a.data = none ∨ (a.fixed = [] ∧ a.floating = [])) :
    ∃ ses st', init keyOf a st = (st', .ok ses) ∧ Constructed a ts st ses st' ∧
      ses.minimiser = none ∧
      ∀ (ρ : Type) (mini : Fit → FitM ρ),
        ses.fit mini st' = ((ses, st'), .error .compatibility) := by
  have hc : ¬ (a.data ≠ none ∧ (a.fixed ≠ [] ∨ a.floating ≠ [])) := by tauto
  obtain ⟨_, ses, st', b, h1, h2, h3, rfl⟩ := init_run hg keyOf
  rw [if_neg hc] at h1
  have h6 : SesOf keyOf a ts st b { ses with
      perBin := a.perBin, singleBin := a.singleBin, minimiser := none } :=
    ⟨h2.roi, h2.checked, h2.data, h2.dataPars, h2.fixed, h2.fixedPars, h2.nofixed, h2.floating,
      h2.floatingPars, h2.signal, h2.signalPars, h2.globals, h2.given, h2.config, h2.statPerBin,
      h2.stat, h2.entered, h2.dataNames, h2.fixedNames, h2.floatingNames, h2.signalNames⟩
  obtain ⟨-, -, h9⟩ := final_ready hg h6 h3
  exact ⟨_, st', h1, final_constructed hg h6 h3, rfl, fun ρ mini =>
    fit_error_of_check mini h6.checked (h9 hc)⟩

end

/-- **C99, exceptions.** The constructor calls the setters in the order data, fixed backgrounds,
floating backgrounds, signal, shrinking of all spectra; the first one that raises ends it with its
exception, and the objects are as that call left them. Then the spectra are checked: what is wrong
with them is raised too, except that a missing spectrum (`CompatibilityError`) or a dimension that a
spectrum does not have (`IndexError`) only leaves the fit without minimiser. -/
theorem c99_raises (keyOf : ℕ → PyStr) (a : FitArgs) (st : FitState) (e : PyErr)
    (w : Session × FitState) :
    (∀ r, a.data = some r → (bare a).setData st r = (w, .error e) →
      init keyOf a st = (w.2, .error e)) ∧
    (∀ v, AfterData a st v → a.fixed ≠ [] → v.1.makeFixed v.2 a.fixed = (w, .error e) →
      init keyOf a st = (w.2, .error e)) ∧
    (∀ v, AfterFixed a st v → a.floating ≠ [] →
      setFloating keyOf v.1 v.2 a.floating = (w, .error e) →
      init keyOf a st = (w.2, .error e)) ∧
    (∀ v r, AfterFloating keyOf a st v → a.signal = some r →
      v.1.setSignal v.2 r = (w, .error e) → init keyOf a st = (w.2, .error e)) ∧
    (∀ v st', AfterSignal keyOf a st v → a.shrink = true → v.1.shrinkAll v.2 = (st', .error e) →
      init keyOf a st = (st', .error e)) ∧
    ∀ v, AfterShrink keyOf a st v → v.1.checkAllSpectra v.2 = .error e →
      (e ≠ .compatibility → e ≠ .indexError → init keyOf a st = (v.2, .error e)) ∧
      ((e = .compatibility ∨ e = .indexError) → init keyOf a st = (v.2, .ok { v.1 with
        perBin := a.perBin, minimiser := none, singleBin := a.singleBin })) := by
  have hd : ∀ v, AfterData a st v →
      setIf (fun ses st r => ses.setData st r) a.data (bare a) st = (v, .ok ()) := by
    intro v hv
    unfold AfterData at hv
    cases h : a.data with
    | none => rw [h] at hv; rw [hv]; rfl
    | some r => rw [h] at hv; exact hv
  have hf : ∀ v, AfterFixed a st v →
      thenDo (setIf (fun ses st r => ses.setData st r) a.data (bare a) st)
        (setIf (fun ses st d => ses.makeFixed st d) (nonEmpty a.fixed)) = (v, .ok ()) := by
    rintro v ⟨u, hu, h⟩
    rw [hd u hu]
    rcases h with ⟨h, rfl⟩ | ⟨h, h2⟩
    · simp [thenDo, setIf, nonEmpty, h]
    · simp only [thenDo, setIf, nonEmpty, if_neg h]
      exact h2
  have hl : ∀ v, AfterFloating keyOf a st v → thenDo
      (thenDo (setIf (fun ses st r => ses.setData st r) a.data (bare a) st)
        (setIf (fun ses st d => ses.makeFixed st d) (nonEmpty a.fixed)))
      (setIf (fun ses st rs => setFloating keyOf ses st rs) (nonEmpty a.floating)) =
        (v, .ok ()) := by
    rintro v ⟨u, hu, h⟩
    rw [hf u hu]
    rcases h with ⟨h, rfl⟩ | ⟨h, h2⟩
    · simp [thenDo, setIf, nonEmpty, h]
    · simp only [thenDo, setIf, nonEmpty, if_neg h]
      exact h2
  have hs : ∀ v, AfterSignal keyOf a st v → initSpectra keyOf a st = (v, .ok ()) := by
    rintro v ⟨u, hu, h⟩
    unfold initSpectra
    rw [hl u hu]
    cases hsig : a.signal with
    | none => rw [hsig] at h; rw [h]; rfl
    | some r => rw [hsig] at h; exact h
  unfold init
  refine ⟨fun r h1 h2 => ?_, fun v hv h1 h2 => ?_, fun v hv h1 h2 => ?_, fun v r hv h1 h2 => ?_,
    fun v st' hv h1 h2 => ?_, fun w hw hc => ?_⟩
  · unfold initSpectra
    rw [h1]
    simp only [setIf, h2, thenDo]
  · unfold initSpectra
    rw [hd v hv]
    simp only [thenDo, setIf, nonEmpty, if_neg h1, h2]
  · unfold initSpectra
    rw [hf v hv]
    simp only [thenDo, setIf, nonEmpty, if_neg h1, h2]
  · unfold initSpectra
    rw [hl v hv, h1]
    simp only [thenDo, setIf, h2]
  · rw [hs v hv]
    simp only [thenDo, shrinkAllIf, if_pos h1, h2]
  · obtain ⟨v, hv, h⟩ := hw
    have hsh : thenDo (initSpectra keyOf a st) (shrinkAllIf a.shrink) = (w, .ok ()) := by
      rw [hs v hv]
      rcases h with ⟨h1, rfl⟩ | ⟨h1, h2, h3⟩
      · simp [thenDo, shrinkAllIf, h1]
      · rw [h2] at h3
        simp only [thenDo, shrinkAllIf, if_pos h1, h2, h3]
    have hmin : setMinimiser { w.1 with perBin := a.perBin } w.2 a.minimiser =
        ({ w.1 with perBin := a.perBin }, .error e) := by
      unfold setMinimiser
      rw [show checkAllSpectra { w.1 with perBin := a.perBin } w.2 = .error e from hc]
    rw [hsh]
    simp only [thenDo, initMinimiser, hmin]
    refine ⟨fun h1 h2 => ?_, fun h1 => ?_⟩
    · rw [if_neg (by tauto)]
    · rw [if_pos h1]

theorem setData_keeps {ses : Session} {st : FitState} {r : ℕ} {b : Bool} {w : Session × FitState}
    (h : ses.setData st r b = (w, .ok ())) : ∃ ps, w.1 = { ses with data := some r, dataPars := ps } := by
  unfold setData at h
  split at h
  · cases h
  · split at h
    · cases h
    · cases h; exact ⟨_, rfl⟩

theorem makeFixed_keeps {ses : Session} {st : FitState} {d : List (ℕ × ℚ)} {b : Bool}
    {w : Session × FitState} (h : ses.makeFixed st d b = (w, .ok ())) :
    ∃ r ps, w.1 = { ses with fixed := some r, fixedPars := ps } := by
  unfold Session.makeFixed at h
  split at h
  · cases h
  · cases h; exact ⟨_, _, rfl⟩

theorem setFloating_keeps {keyOf : ℕ → PyStr} {ses : Session} {st : FitState} {rs : List ℕ} {b : Bool}
    {w : Session × FitState} (h : setFloating keyOf ses st rs b = (w, .ok ())) :
    ∃ c ps, w.1 = { ses with config := c, floating := some rs, floatingPars := ps } := by
  unfold setFloating at h
  split at h
  · cases h
  · cases h; exact ⟨_, _, rfl⟩

theorem setSignal_keeps {ses : Session} {st : FitState} {r : ℕ} {b : Bool} {w : Session × FitState}
    (h : ses.setSignal st r b = (w, .ok ())) :
    ∃ ps, w.1 = { ses with signal := some r, signalPars := ps } := by
  unfold setSignal at h
  split at h
  · cases h
  · split at h
    · cases h
    · cases h; exact ⟨_, rfl⟩

theorem thenDo_ok {x : SesResult Unit} {f : Session → FitState → SesResult Unit} {w : Session × FitState}
    (h : thenDo x f = (w, .ok ())) : ∃ v, x = (v, .ok ()) ∧ f v.1 v.2 = (w, .ok ()) := by
  unfold thenDo at h
  split at h
  · cases h
  · exact ⟨_, rfl, h⟩

theorem setIf_ok {α : Type} {set : Session → FitState → α → SesResult Unit} {o : Option α}
    {ses : Session} {st : FitState} {w : Session × FitState} (h : setIf set o ses st = (w, .ok ())) :
    (o = none ∧ w = (ses, st)) ∨ ∃ x, o = some x ∧ set ses st x = (w, .ok ()) := by
  cases o with
  | none => cases h; exact .inl ⟨rfl, rfl⟩
  | some x => exact .inr ⟨x, rfl, h⟩

/-- **C99, region.** Whatever the arguments: a fit that the constructor gives holds the data and the
signal that it has been given, and if it has a minimiser, then there are data and a background, and
data, fixed background and signal have the range of the region, up to the tolerance. -/
theorem c99_region (keyOf : ℕ → PyStr) (a : FitArgs) (st : FitState) (ses : Session) (st' : FitState)
    (h : init keyOf a st = (st', .ok ses)) :
    ses.roi = inOrder a.roi ∧ ses.data = a.data ∧ ses.signal = a.signal ∧
    (ses.fixed = none ↔ a.fixed = []) ∧ ses.floating.getD [] = a.floating ∧
    (ses.minimiser ≠ none → ses.data ≠ none ∧ (a.fixed ≠ [] ∨ a.floating ≠ []) ∧
      ∀ q, ses.data = some q ∨ ses.fixed = some q ∨ ses.signal = some q →
        FitsRoi (st'.view q).cfg (inOrder a.roi)) := by
  obtain ⟨w, hw, rfl, rfl⟩ : ∃ w, thenDo (thenDo (initSpectra keyOf a st) (shrinkAllIf a.shrink))
      (initMinimiser a) = (w, .ok ()) ∧ w.2 = st' ∧ w.1 = ses := by
    unfold init at h
    split at h
    · cases h
    · next w u hw => cases h; exact ⟨w, hw, rfl, rfl⟩
  obtain ⟨v, hv, hmin⟩ := thenDo_ok hw
  obtain ⟨u, hu, hsh⟩ := thenDo_ok hv
  have huv : u.1 = v.1 := by
    unfold shrinkAllIf at hsh
    split at hsh
    · exact congrArg (fun x => x.1.1) hsh
    · cases hsh; rfl
  have key : u.1.roi = inOrder a.roi ∧ u.1.data = a.data ∧ u.1.signal = a.signal ∧
      (u.1.fixed = none ↔ a.fixed = []) ∧ u.1.floating = nonEmpty a.floating ∧
      u.1.minimiser = none := by
    unfold initSpectra at hu
    obtain ⟨v3, h3, h4⟩ := thenDo_ok hu
    obtain ⟨v2, h2, h3⟩ := thenDo_ok h3
    obtain ⟨v1, h1, h2⟩ := thenDo_ok h2
    have k1 : v1.1.roi = inOrder a.roi ∧ v1.1.data = a.data ∧ v1.1.signal = none ∧
        v1.1.fixed = none ∧ v1.1.floating = none ∧ v1.1.minimiser = none := by
      rcases setIf_ok h1 with ⟨e, rfl⟩ | ⟨r, e, h1⟩
      · rw [e]; exact ⟨bare_roi a, rfl, rfl, rfl, rfl, rfl⟩
      · obtain ⟨ps, e'⟩ := setData_keeps h1
        rw [e, e']; exact ⟨bare_roi a, rfl, rfl, rfl, rfl, rfl⟩
    have k2 : v2.1.roi = inOrder a.roi ∧ v2.1.data = a.data ∧ v2.1.signal = none ∧
        (v2.1.fixed = none ↔ a.fixed = []) ∧ v2.1.floating = none ∧ v2.1.minimiser = none := by
      obtain ⟨k1, k2, k3, k4, k5, k6⟩ := k1
      rcases setIf_ok h2 with ⟨e, rfl⟩ | ⟨r, e, h1⟩
      · unfold nonEmpty at e
        split at e
        · next hf => exact ⟨k1, k2, k3, ⟨fun _ => hf, fun _ => k4⟩, k5, k6⟩
        · cases e
      · unfold nonEmpty at e
        split at e
        · cases e
        · next hf =>
          obtain ⟨r, ps, e'⟩ := makeFixed_keeps h1
          rw [e']
          exact ⟨k1, k2, k3, ⟨fun h => (by cases h), fun h => absurd h hf⟩, k5, k6⟩
    have k3 : v3.1.roi = inOrder a.roi ∧ v3.1.data = a.data ∧ v3.1.signal = none ∧
        (v3.1.fixed = none ↔ a.fixed = []) ∧ v3.1.floating = nonEmpty a.floating ∧
        v3.1.minimiser = none := by
      obtain ⟨k1, k2, k3, k4, k5, k6⟩ := k2
      rcases setIf_ok h3 with ⟨e, rfl⟩ | ⟨rs, e, h1⟩
      · exact ⟨k1, k2, k3, k4, k5.trans e.symm, k6⟩
      · obtain ⟨c, ps, e'⟩ := setFloating_keeps h1
        rw [e', e]
        exact ⟨k1, k2, k3, k4, rfl, k6⟩
    obtain ⟨k1, k2, k3, k4, k5, k6⟩ := k3
    rcases setIf_ok h4 with ⟨e, rfl⟩ | ⟨r, e, h1⟩
    · exact ⟨k1, k2, k3.trans e.symm, k4, k5, k6⟩
    · obtain ⟨ps, e'⟩ := setSignal_keeps h1
      rw [e', e]
      exact ⟨k1, k2, rfl, k4, k5, k6⟩
  rw [huv] at key
  obtain ⟨k1, k2, k3, k4, k5, k6⟩ := key
  have hfl : v.1.floating.getD [] = a.floating := by
    rw [k5]
    unfold nonEmpty
    split
    · next h => rw [h]; rfl
    · rfl
  unfold initMinimiser setMinimiser at hmin
  dsimp only at hmin
  cases hck : checkAllSpectra { v.1 with perBin := a.perBin } v.2 with
  | error e =>
    rw [hck] at hmin
    dsimp only at hmin
    split at hmin
    · cases hmin
      exact ⟨k1, k2, k3, k4, hfl, fun h => absurd rfl h⟩
    · cases hmin
  | ok x =>
    rw [hck] at hmin
    cases hmin
    refine ⟨k1, k2, k3, k4, hfl, fun _ => ?_⟩
    obtain ⟨c1, c2, c3⟩ := checkAllSpectra_fits hck
    refine ⟨c1, ?_, fun q hq => ?_⟩
    · rcases c2 with c2 | c2
      · exact .inl fun h => c2 (k4.2 h)
      · refine .inr fun h => c2 ?_
        show v.1.floating = none
        rw [k5, nonEmpty, if_pos h]
    · have := c3 q (by
        simp only [Session.compared, List.mem_append, Option.mem_toList]
        tauto)
      rw [← k1]
      exact this

/-! ### examples and negations -/

/-- Data, two fixed backgrounds, a floating one and a signal; the region from 1 to 2, given the
wrong way round. -/
def exInit : FitArgs where
  roi := [(lit "energy", (2, 1))]
  stat := .bcChi
  config := [(lit "rate", (0, false)), (lit "global", (2, true))]
  data := some 0
  fixed := [(2, 20), (3, 5)]
  floating := [1]
  signal := some 4

theorem exInit_roi : inOrder [(lit "energy", ((2 : ℚ), (1 : ℚ)))] = exFitRoi := by decide +kernel

theorem ex_canShrink {s : Spectrum} (h : s.cfg = [Ex.fitAxis]) (hs : s.data.shape = [4]) :
    CanShrink exFitRoi s where
  wf := ⟨by rw [h]; simp [SPar.WF, Ex.fitAxis], by rw [h]; simp, by rw [h, hs]; rfl⟩
  aligned := by
    rw [h]
    intro p hp
    rw [List.mem_singleton.1 hp]
    exact ⟨0, by simp [Ex.fitAxis]⟩
  dims := by rw [h]; exact fitAxis_dims
  edges := by
    rw [h]
    intro e he p hp _
    rw [List.mem_singleton.1 he, List.mem_singleton.1 hp]
    exact ⟨2, 4, by decide, by norm_num [Ex.fitAxis],
      by norm_num [SPar.edge, SPar.width, Ex.fitAxis],
      by norm_num [SPar.edge, SPar.width, Ex.fitAxis]⟩
  has := by
    intro e he
    rw [h, List.mem_singleton.1 he]
    exact ⟨Ex.fitAxis, by simp, ex_energy_mc⟩

theorem ex_fitState_canShrink (r : ℕ) (h : r < 5) : CanShrink exFitRoi (Ex.fitState.view r) :=
  ex_canShrink rfl (by
    show (Ex.fitObj r).data.shape = [4]
    interval_cases r <;> rfl)

theorem exInit_given : exInit.Given (exFitPrepared Ex.fitState) Ex.fitState where
  region := by unfold IsDict; decide
  some := by simp [exInit]
  alloc := by unfold FitState.Allocated; decide
  own := by decide
  able := by
    intro r hr
    show CanShrink (inOrder [(lit "energy", ((2 : ℚ), (1 : ℚ)))]) _
    rw [exInit_roi]
    refine ex_fitState_canShrink r ?_
    revert r
    decide
  fixed := by
    show Suppliable (inOrder [(lit "energy", ((2 : ℚ), (1 : ℚ)))]) _ _ _
    rw [exInit_roi]
    exact exFit_suppliable

theorem exInit_settings : exInit.Settings Ex.fitState where
  floating := fun _ => .inl (by simp [exInit])
  fixed := fun h => by cases h
  dimension := by
    intro e he hgl
    simp only [exInit, List.mem_cons, List.not_mem_nil, or_false] at he
    rcases he with rfl | rfl
    · cases hgl
    · simp [Ex.fitState, Ex.fitParam]
  perBin := fun h => by cases h

example := c99_ready_partial Ex.keyOf exInit _ _ exInit_given (by simp [exInit]) (by simp [exInit])
  exInit_settings

/-- The same arguments for `c99_region`. -/
example : ∃ ses st', init Ex.keyOf exInit Ex.fitState = (st', .ok ses) ∧ ses.minimiser ≠ none := by
  obtain ⟨ses, st', h, -, -, -, -, hm, -⟩ := c99_ready_partial Ex.keyOf exInit _ _ exInit_given
    (by simp [exInit]) (by simp [exInit]) exInit_settings
  exact ⟨ses, st', h, by rw [hm]; simp⟩

/-- Without data. -/
example := c99_incomplete Ex.keyOf { exInit with data := none } (exFitPrepared Ex.fitState)
  Ex.fitState
  { region := by unfold IsDict; decide
    some := by simp [exInit]
    alloc := by unfold FitState.Allocated; decide
    own := by decide
    able := by
      intro r hr
      refine exInit_given.able r ?_
      revert r
      decide
    fixed := exInit_given.fixed } (.inl rfl)

/-- The data alone, with axes that start half a bin away from a multiple of the bin width. -/
noncomputable def exUnaligned : FitState :=
  { Ex.fitState with cfgs := fun _ => [⟨lit "energy_mc", 1 / 4, 9 / 4, 4⟩] }

/-- **C99 fails** for axes that do not start at a multiple of their bin width: setting the data
cuts them to the region, but the constructor shrinks a second time, and that raises
`ValueError`. -/
theorem c99_unaligned_negation :
    let roi : Dict (ℚ × ℚ) := [(lit "energy", (3 / 4, 7 / 4))]
    ((setData { roi, stat := .bcChi } exUnaligned 0).2.toOption = some ()) ∧
    (match (init Ex.keyOf { roi, stat := .bcChi, data := some 0 } exUnaligned).2 with
      | .error e => some e
      | .ok _ => none) = some .valueError := by
  decide +kernel

/-- Arguments with these data only. -/
def exUnalignedArgs : FitArgs :=
  { roi := [(lit "energy", (3 / 4, 7 / 4))], stat := .bcChi, data := some 0 }

/-- There the last clause of `c99_raises` applies: the setters succeed, shrinking all raises. -/
example : ∃ v st', AfterSignal Ex.keyOf exUnalignedArgs exUnaligned v ∧
    v.1.shrinkAll v.2 = (st', .error .valueError) := by
  have h1 : (setData (bare exUnalignedArgs) exUnaligned 0).2.toOption = some () := by
    decide +kernel
  have h2 : (match (Session.shrinkAll (setData (bare exUnalignedArgs) exUnaligned 0).1.1
      (setData (bare exUnalignedArgs) exUnaligned 0).1.2).2 with
      | .error e => some e
      | .ok _ => none) = some .valueError := by decide +kernel
  have h1' : (setData (bare exUnalignedArgs) exUnaligned 0).2 = .ok () := by
    cases h : (setData (bare exUnalignedArgs) exUnaligned 0).2 with
    | error e => rw [h] at h1; cases h1
    | ok u => rfl
  refine ⟨(setData (bare exUnalignedArgs) exUnaligned 0).1, _,
    ⟨_, ⟨_, ⟨_, Prod.ext rfl h1', .inl ⟨rfl, rfl⟩⟩, .inl ⟨rfl, rfl⟩⟩, rfl⟩, Prod.ext rfl ?_⟩
  split at h2
  · next e he =>
    cases h2
    exact he
  · cases h2

/-- Data and a region whose bounds are not on bin edges. -/
def exOffArgs : FitArgs :=
  { roi := [(lit "energy", (3 / 4, 7 / 4))], stat := .bcChi, data := some 0 }

/-- There the clause of `c99_raises` about the checks applies: the spectra are cut to the bins that
overlap with the region, and since these are not the region the constructor raises `ValueError`. -/
example : ∃ v, AfterShrink Ex.keyOf exOffArgs Ex.fitState v ∧
    v.1.checkAllSpectra v.2 = .error .valueError ∧ (v.2.view 0).cfg = [⟨lit "energy_mc", 1 / 2, 2, 3⟩] ∧
    init Ex.keyOf exOffArgs Ex.fitState = (v.2, .error .valueError) := by
  have ok : ∀ x : Except PyErr Unit, x.toOption = some () → x = .ok () := by
    intro x hx
    cases x with
    | error e => cases hx
    | ok u => rfl
  have err : ∀ x : Except PyErr Unit, (match x with
      | .error e => some e
      | .ok _ => none) = some PyErr.valueError → x = .error .valueError := by
    intro x hx
    cases x with
    | error e => cases hx; rfl
    | ok u => cases hx
  have h1 := ok (setData (bare exOffArgs) Ex.fitState 0).2 (by decide +kernel)
  have h2 := ok (Session.shrinkAll (setData (bare exOffArgs) Ex.fitState 0).1.1
    (setData (bare exOffArgs) Ex.fitState 0).1.2).2 (by decide +kernel)
  have h3 := err (checkAllSpectra (setData (bare exOffArgs) Ex.fitState 0).1.1
    (Session.shrinkAll (setData (bare exOffArgs) Ex.fitState 0).1.1
      (setData (bare exOffArgs) Ex.fitState 0).1.2).1) (by decide +kernel)
  have ha : AfterShrink Ex.keyOf exOffArgs Ex.fitState ((setData (bare exOffArgs) Ex.fitState 0).1.1,
      (Session.shrinkAll (setData (bare exOffArgs) Ex.fitState 0).1.1
        (setData (bare exOffArgs) Ex.fitState 0).1.2).1) :=
    ⟨_, ⟨_, ⟨_, ⟨_, Prod.ext rfl h1, .inl ⟨rfl, rfl⟩⟩, .inl ⟨rfl, rfl⟩⟩, rfl⟩,
      .inr ⟨rfl, rfl, Prod.ext rfl h2⟩⟩
  refine ⟨_, ha, h3, by decide +kernel, ?_⟩
  exact (((c99_raises Ex.keyOf exOffArgs Ex.fitState .valueError (bare exOffArgs, Ex.fitState)).2.2.2.2.2
    _ ha h3).1 (by decide) (by decide))

/-- **C99: `shrink=False` is ignored.** The constructor calls the setters with their default
`shrink=True`, so the given spectra are cut to the region whatever the argument says. -/
theorem c99_shrink_negation :
    (Ex.fitState.view 0).cfg = [Ex.fitAxis] ∧
    ((init Ex.keyOf { exInit with shrink := false } Ex.fitState).1.view 0).cfg =
      [⟨lit "energy_mc", 1, 2, 2⟩] := by
  decide +kernel

end Verif
