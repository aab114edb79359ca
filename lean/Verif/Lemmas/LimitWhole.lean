import Verif.Props.FitWhole
import Verif.Spec.LimitWhole
import Verif.Lemmas.Recover

/-! Helper lemmas: a fit made from its arguments, whose signal is given to the limit. -/

namespace Verif

open Session

section

variable {a : FitArgs} {ts : List Spectrum} {st0 : FitState}

/-- Spectra that have been shrunk are shrunk again. -/
theorem Prog.reshrink (hg : a.Given ts st0) {done : List ℕ} {b : Option ℕ} {st st' : FitState}
    (h : Prog a ts st0 done b st) {rs : List ℕ}
    (hk : ∀ r ∈ rs, b = some r ∨ (r ∈ a.kept ∧ r ∈ done))
    (hs : ShrunkAt (inOrder a.roi) rs st st')
    (hp : ∀ p, (st'.params p).dimension = (st.params p).dimension) : Prog a ts st0 done b st' := by
  have hr := inOrder_isDict hg.region
  have hlt : ∀ r ∈ a.kept, r < st0.next := hg.alloc
  have hfix : ∀ e ∈ a.fixed, e.1 < st0.next :=
    fun e he => hg.fixed.alloc _ (List.mem_map_of_mem he)
  have hother : ∀ q ∈ a.kept, q ∉ rs → st'.view q = st.view q := by
    intro q hq hqr
    refine hs.other q fun r hr he => ?_
    rcases hk r hr with hb | ⟨h1, -⟩
    · obtain ⟨⟨e, he', h2⟩, -⟩ := h.total r hb
      rw [h.refs q (hlt q hq), h2] at he
      exact hg.apart hq he' he
    · rw [h.refs q (hlt q hq), h.refs r (hlt r h1)] at he
      exact hqr (hg.kept_inj hq h1 he ▸ hr)
  refine ⟨hs.next ▸ h.next, fun q hq => (hs.refs q).trans (h.refs q hq),
    fun q hq => (hs.fit q).trans (h.fit q hq), fun p => (hp p).trans (h.dimension p), ?_, ?_, ?_, ?_,
    fun t ht => hs.next ▸ h.made t ht⟩
  · intro r hr hn
    rw [hother r hr]
    · exact h.todo r hr hn
    · intro hm
      rcases hk r hm with hb | ⟨-, h2⟩
      · exact absurd (hlt r hr) (not_lt.2 (h.made r hb).1)
      · exact hn h2
  · intro r hm hn
    by_cases hrs : r ∈ rs
    · exact (h.done r hm hn).trans hr (hg.able r (List.mem_append_left _ hm)) (hs.shrunk r hrs)
    · rw [hother r hm hrs]; exact h.done r hm hn
  · intro hb e he
    rw [hs.other]
    · exact h.supplied hb e he
    · intro r hr hc
      rcases hk r hr with hb' | ⟨h1, -⟩
      · rw [hb] at hb'; cases hb'
      · rw [h.refs _ (hfix e he), h.refs r (hlt r h1)] at hc
        exact hg.apart h1 he hc.symm
  · intro t ht
    obtain ⟨⟨e, he, h1⟩, h2⟩ := h.total t ht
    refine ⟨⟨e, he, (hs.refs t).trans h1⟩, ?_⟩
    by_cases hrs : t ∈ rs
    · obtain ⟨g1, g2⟩ := total_region hg h2 (List.ne_nil_of_mem he)
      exact h2.eqv (shrunkTo_same hr g2 g1 (hs.shrunk t hrs))
    · rw [hs.other]
      · exact h2
      · intro r hr hc
        rcases hk r hr with hb' | ⟨h3, -⟩
        · rw [ht] at hb'
          cases hb'
          exact hrs hr
        · rw [h1, h.refs r (hlt r h3)] at hc
          exact hg.apart h3 he hc.symm

theorem FitArgs.Given.without {r : ℕ} (hg : (a.withSignal r).Given ts st0) (hs : a.signal = none) :
    a.Given ts st0 := by
  have hk : a.kept = a.data.toList ++ a.floating := by simp [FitArgs.kept, hs]
  have hsub : a.kept.Sublist (a.withSignal r).kept := by
    rw [hk]
    unfold FitArgs.kept
    simp
  refine ⟨hg.region, hg.some, fun q hq => hg.alloc q (hsub.subset hq),
    hg.own.sublist (((hsub.append_right _)).map _), fun q hq => hg.able q ?_, hg.fixed⟩
  exact (hsub.append_right _).subset hq

theorem initMinimiser_state (a : FitArgs) (ses : Session) (st : FitState) :
    (initMinimiser a ses st).1.2 = st := by
  unfold initMinimiser
  dsimp only
  split
  · rfl
  · split <;> rfl

/-- The constructor of a fit without signal, as far as the spectra are concerned. -/
theorem init_without {r : ℕ} (hg : (a.withSignal r).Given ts st0) (hs : a.signal = none)
    (keyOf : ℕ → PyStr) {ses : Session} {st : FitState} (h : init keyOf a st0 = (st, .ok ses)) :
    Prog (a.withSignal r) ts st0 (a.data.toList ++ a.floating) ses.fixed st := by
  have hr := inOrder_isDict hg.region
  obtain ⟨st1, dp, h1, p1, -, -⟩ := init_data hg
  have h1 : setIf (fun ses st r => ses.setData st r) a.data (bare a) st0 =
    (({ bare a with data := a.data, dataPars := dp }, st1), .ok ()) := h1
  obtain ⟨st2, b, fp, h2, p2, -, -, -⟩ := init_fixed hg p1
    { bare a with data := a.data, dataPars := dp } (bare_roi a) rfl rfl
  have h2 : thenDo (({ bare a with data := a.data, dataPars := dp }, st1), .ok ())
      (setIf (fun ses st d => ses.makeFixed st d) (nonEmpty a.fixed)) = _ := h2
  obtain ⟨st3, config, flp, h3, p3, -, -, -, -, -, -⟩ := init_floating hg keyOf p2
    { bare a with data := a.data, dataPars := dp, fixed := b, fixedPars := fp } (bare_roi a) rfl rfl rfl
  have h3 : thenDo (({ bare a with data := a.data, dataPars := dp, fixed := b, fixedPars := fp }, st2),
      .ok ()) (setIf (fun ses st rs => setFloating keyOf ses st rs) (nonEmpty a.floating)) = _ := h3
  have p3 : Prog (a.withSignal r) ts st0 (a.data.toList ++ a.floating) b st3 := p3
  have h4 : initSpectra keyOf a st0 = (({ bare a with
      data := a.data, dataPars := dp, fixed := b, fixedPars := fp, config := config,
      floating := nonEmpty a.floating, floatingPars := flp }, st3), .ok ()) := by
    unfold initSpectra
    rw [h1, h2, h3, hs]
    rfl
  generalize hs3 : ({ bare a with
      data := a.data, dataPars := dp, fixed := b, fixedPars := fp, config := config,
      floating := nonEmpty a.floating, floatingPars := flp } : Session) = s3 at h4
  have e1 : s3.roi = inOrder a.roi := by rw [← hs3]; exact bare_roi a
  have e2 : s3.data.toList ++ s3.fixed.toList ++ s3.signal.toList ++ s3.floating.getD [] =
      a.data.toList ++ b.toList ++ a.floating := by
    rw [← hs3]
    have hfl : (nonEmpty a.floating).getD [] = a.floating := by
      unfold nonEmpty; split
      · next h => rw [h]; rfl
      · rfl
    show _ ++ _ ++ [] ++ (nonEmpty a.floating).getD [] = _
    rw [hfl, List.append_nil]
  have e3 : s3.fixed = b := by rw [← hs3]
  obtain ⟨st4, h5, p4⟩ : ∃ st4, shrinkAllIf a.shrink s3 st3 = ((s3, st4), .ok ()) ∧
      Prog (a.withSignal r) ts st0 (a.data.toList ++ a.floating) b st4 := by
    unfold shrinkAllIf
    by_cases hsh : a.shrink = true
    swap
    · rw [if_neg hsh]; exact ⟨st3, rfl, p3⟩
    rw [if_pos hsh]
    unfold Session.shrinkAll
    rw [e1, e2]
    have hk : ∀ q ∈ a.data.toList ++ a.floating, q ∈ (a.withSignal r).kept := by
      intro q hq
      simp only [FitArgs.kept, List.mem_append] at hq ⊢
      tauto
    have hperm : (a.data.toList ++ b.toList ++ a.floating).Perm
        (b.toList ++ (a.data.toList ++ a.floating)) := by
      rw [List.append_assoc]
      exact List.perm_append_comm_assoc _ _ _
    have hcan : ∀ q ∈ b.toList ++ (a.data.toList ++ a.floating),
        CanShrink (inOrder a.roi) (st3.view q) := by
      intro q hm
      rcases List.mem_append.1 hm with hm | hm
      · have hb : b = some q := by simpa using hm
        obtain ⟨⟨e, he, -⟩, h2⟩ := p3.total q hb
        exact (total_region hg h2 (List.ne_nil_of_mem he)).2
      · exact p3.canShrink hg (hk q hm)
    have hlt : ∀ r' ∈ (a.withSignal r).kept, r' < st0.next := hg.alloc
    have hkn : ((a.data.toList ++ a.floating).map (fun r => (st3.objs r).cfg)) =
        (a.data.toList ++ a.floating).map (fun r => (st0.objs r).cfg) :=
      List.map_congr_left fun q hq => p3.refs q (hlt q (hk q hq))
    have hnd : ((b.toList ++ (a.data.toList ++ a.floating)).map (fun r => (st3.objs r).cfg)).Nodup := by
      rw [List.map_append, List.nodup_append, hkn]
      refine ⟨by cases b <;> simp, hg.kept_nodup.sublist (List.Sublist.map _ ?_), ?_⟩
      · unfold FitArgs.kept
        simp
      · intro c hc c' hc'
        obtain ⟨q, hq, rfl⟩ := List.mem_map.1 hc
        obtain ⟨q', hq', rfl⟩ := List.mem_map.1 hc'
        have hb : b = some q := by simpa using hq
        obtain ⟨⟨e, he, h1⟩, -⟩ := p3.total q hb
        rw [h1]
        exact (hg.apart (hk q' hq') he).symm
    obtain ⟨st4, k1, k2, k3⟩ := shrinkList_canShrink hr
      (((hperm.map (fun r => (st3.objs r).cfg)).nodup_iff).2 hnd)
      (fun q hm => hcan q (hperm.mem_iff.1 hm))
    refine ⟨st4, by rw [k1], p3.reshrink hg ?_ k2 (fun p => by rw [k3])⟩
    intro q hq
    rcases List.mem_append.1 (hperm.mem_iff.1 hq) with hm | hm
    · exact .inl (by simpa using hm)
    · exact .inr ⟨hk q hm, hm⟩
  have h6 : (initMinimiser a s3 st4).1.2 = st4 := initMinimiser_state a s3 st4
  have h7 : (initMinimiser a s3 st4).1.1.fixed = s3.fixed := by
    unfold initMinimiser setMinimiser
    dsimp only
    cases checkAllSpectra { s3 with perBin := a.perBin } st4 with
    | ok u => rfl
    | error e =>
      dsimp only
      split <;> rfl
  unfold init at h
  rw [h4] at h
  simp only [thenDo] at h
  rw [h5] at h
  dsimp only at h
  rcases hm : initMinimiser a s3 st4 with ⟨⟨s5, st5⟩, e | u⟩
  · rw [hm] at h; cases h
  · rw [hm] at h h6 h7
    cases h
    dsimp only at h6 h7
    rw [h6, h7, e3]
    exact p4

/-- A fit is made without signal, and then a limit with the signal `r`. -/
theorem limit_run {r : ℕ} (hg : (a.withSignal r).Given ts st0) (hs : a.signal = none)
    (keyOf : ℕ → PyStr) (hd : a.data ≠ none) (hb : a.fixed ≠ [] ∨ a.floating ≠ [])
    (hset : a.Settings st0) (hfit : (st0.objs r).fit ≠ none) (search : GridSearch) :
    ∃ ses ses' ses'' st' st'', init keyOf a st0 = (st', .ok ses) ∧
      Fitter.limitInit ⟨ses, st', search⟩ r true = (⟨ses'', st'', search⟩, .ok ()) ∧
      SesOf keyOf (a.withSignal r) ts st0 ses''.fixed ses' ∧
      Final (a.withSignal r) ts st0 ses''.fixed st'' ∧ MadeFrom st0 st'' ∧
      ses'' = { ses' with
        perBin := a.perBin, singleBin := a.singleBin,
        minimiser := some (a.minimiser.getD a.perBin) } ∧
      ∀ ps, ses''.signalPars = some ps → roiPars ses''.roi (st''.view r) = .ok ps := by
  have hg0 := hg.without hs
  obtain ⟨ses, ses₁, st', b, h1, h2, h3, h4⟩ := init_run hg0 keyOf
  rw [if_pos ⟨hd, hb⟩] at h4
  have p := init_without hg hs keyOf h1
  have hfix : ses.fixed = b := by rw [h4]; exact h2.fixed
  have hroi : ses.roi = inOrder a.roi := by rw [h4]; exact h2.roi
  have hrk : r ∈ (a.withSignal r).kept := by simp [FitArgs.kept]
  have hrd : r ∉ a.data.toList ++ a.floating := by
    have := hg.kept_nodup
    unfold FitArgs.kept at this
    rw [List.map_append, List.map_append, List.nodup_append, List.nodup_append] at this
    intro hm
    rcases List.mem_append.1 hm with hm | hm
    · exact this.1.2.2 _ (List.mem_map.2 ⟨r, hm, rfl⟩) _ (by simp) rfl
    · exact this.2.2 _ (by simp) _ (List.mem_map.2 ⟨r, hm, rfl⟩) rfl
  have hlt : ∀ r' ∈ (a.withSignal r).kept, r' < st0.next := hg.alloc
  have hreg := inOrder_isDict hg.region
  have p0 := p.canShrink hg hrk
  obtain ⟨st'', ps, k1, k2, k3, k4, k5⟩ := shrink_setter hreg p0
  have p' := p.shrink hg (rs := [r]) (by simpa using hrk) (by simpa using hrd) k4
    (fun q => by rw [k5])
  have p' : Prog (a.withSignal r) ts st0
    ((a.withSignal r).data.toList ++ (a.withSignal r).floating ++ (a.withSignal r).signal.toList)
    ses.fixed st'' := p'
  have hsig : ses.setSignal st' r true =
      (({ ses with signal := some r, signalPars := some ps }, st''), .ok ()) := by
    unfold setSignal
    rw [← show ses.roi = inOrder (a.withSignal r).roi from hroi] at k1 k2
    rw [shrinkIf_true]
    simp only [k1, k2]
  have hmade : MadeFrom st0 st'' := by
    have m1 := made_init keyOf a st0
    rw [h1] at m1
    have m2 := made_setSignal ses st' r true
    rw [hsig] at m2
    exact m1.trans m2
  have hdump : dumpConfig { ses with signal := some r, signalPars := some ps } st'' = .ok () := by
    rw [dumpConfig_iff]
    intro e he hgl
    have he : e ∈ ses.config := he
    rw [p'.dimension]
    rw [h4] at he
    exact hset.dimension e (h2.globals e he hgl) hgl
  refine ⟨ses, { ses₁ with signal := some r, signalPars := some ps },
    { ses with signal := some r, signalPars := some ps }, st', st'', h1, ?_, ?_, p'.final, hmade, ?_, ?_⟩
  · unfold Fitter.limitInit
    rw [if_neg (by rw [p.fit r (hlt r hrk)]; exact hfit)]
    simp only [hsig, hdump]
  · show SesOf keyOf (a.withSignal r) ts st0 ses.fixed _
    rw [hfix]
    refine ⟨h2.roi, h2.checked, h2.data, h2.dataPars, h2.fixed, h2.fixedPars, h2.nofixed, h2.floating,
      h2.floatingPars, rfl, ?_, h2.globals, h2.given, h2.config, h2.statPerBin,
      h2.stat, h2.entered, h2.dataNames, h2.fixedNames, h2.floatingNames, ?_⟩
    · exact fun _ => ⟨ps, rfl, ne_nil_of_length (roiPars_length k3) (inOrder_ne_nil hg.some)⟩
    · intro q hq
      cases hq
      refine ⟨ps, rfl, ?_⟩
      rw [← p.todo r hrk hrd]
      exact roiNames_congr (shrunkTo_cfg (k4.shrunk r (by simp))) k3
  · rw [h4]
  · intro qs hqs
    cases hqs
    show roiPars ses.roi _ = _
    rw [hroi]; exact k2

theorem checkFitter_ok {ses : Session} {st : FitState} (ha : Addressable st ses.compared)
    (hg : ∀ e ∈ ses.config, e.2.2 = true → (st.params e.2.1).dimension ≠ none)
    (hs : SpectraReady ses st) (hp : SettingsReady ses) : (ses.checkFitter st).2 = .ok () := by
  rcases checkFitter_cases ses st with ⟨e, he⟩ | ⟨-, -, h3⟩
  · exfalso
    unfold checkFitter at he
    rw [(checkAllSpectra_iff ha).2 hs, checkSettings_iff.2 hp] at he
    simp only [bind, Except.bind] at he
    rw [dumpConfig_iff.2 hg] at he
    cases (Prod.mk.inj he).2
  · rw [h3, dumpConfig_iff.2 hg]

/-- The fit can be used for limits. -/
theorem limit_signal {r d : ℕ} (hg : (a.withSignal r).Given ts st0) {keyOf : ℕ → PyStr}
    (hd : a.data = some d) (hb : a.fixed ≠ [] ∨ a.floating ≠ [])
    (hset : a.Settings st0) (hdec : (st0.view r).numDecays ≠ 0) {ses ses' : Session} {st : FitState}
    {b : Option ℕ} (h : SesOf keyOf (a.withSignal r) ts st0 b ses') (hf : Final (a.withSignal r) ts st0 b st)
    (hs : ses = { ses' with
        perBin := a.perBin, singleBin := a.singleBin,
        minimiser := some (a.minimiser.getD a.perBin) })
    (hp : ∀ ps, ses.signalPars = some ps → roiPars ses.roi (st.view r) = .ok ps)
    (search : GridSearch) : LimitSignal r ⟨ses, st, search⟩ := by
  have h' : SesOf keyOf (a.withSignal r) ts st0 b ses := by
    rw [hs]
    exact ⟨h.roi, h.checked, h.data, h.dataPars, h.fixed, h.fixedPars, h.nofixed, h.floating,
      h.floatingPars, h.signal, h.signalPars, h.globals, h.given, h.config, h.statPerBin,
      h.stat, h.entered, h.dataNames, h.fixedNames, h.floatingNames, h.signalNames⟩
  obtain ⟨h7, h8, -⟩ := final_ready hg h' hf
  have hready := h8 (by rw [hd]; simp) hb
  have hrk : r ∈ (a.withSignal r).kept := by simp [FitArgs.kept]
  have hdk : d ∈ (a.withSignal r).kept := by simp [FitArgs.kept, hd]
  have hdr : d ≠ r := by
    rintro rfl
    have := hg.kept_nodup
    unfold FitArgs.kept at this
    simp [hd] at this
  have hlt : ∀ r' ∈ (a.withSignal r).kept, r' < st0.next := hg.alloc
  have hdim : ∀ e ∈ ses.config, e.2.2 = true → (st.params e.2.1).dimension ≠ none := by
    intro e he hgl
    rw [hf.dimension]
    exact hset.dimension e (h'.globals e he hgl) hgl
  have hsr : SettingsReady ses := by
    refine ⟨?_, ?_, ?_, ?_⟩
    · intro rs hrs hne
      refine h'.config (hset.floating ?_)
      rintro hn
      have := h'.floating.symm.trans hrs
      rw [nonEmpty, if_pos hn] at this
      cases this
    · intro hrs e he
      have hn : a.floating = [] := by
        by_contra hn
        exact hn (hrs a.floating (h'.floating.trans (by rw [nonEmpty, if_neg hn])))
      have h9 : e ∈ a.config := by rw [← h'.given hn]; exact he
      exact hset.fixed hn e h9
    · refine ⟨_, by rw [hs], fun hp => ?_⟩
      have hp : a.perBin = true := by rw [hs] at hp; exact hp
      have := (hset.perBin hp).2
      cases hm : a.minimiser with
      | none => exact hp
      | some m =>
        cases m with
        | true => rfl
        | false => exact absurd hm this
    · intro hp
      have hp : a.perBin = true := by rw [hs] at hp; exact hp
      exact h'.statPerBin.trans (hset.perBin hp).1
  have hsig : ses.signal = some r := h'.signal
  have hw : Fitter.with ⟨ses, st, search⟩ r = ⟨ses, st, search⟩ := by
    unfold Fitter.with
    rw [← hsig]
  refine ⟨.inr hsig, ?_, ?_, ⟨⟨d, h'.data.trans hd, hdr⟩, ?_⟩, .inr ?_, ?_⟩
  · obtain ⟨ps, q1, -⟩ := h'.signalNames r rfl
    exact ⟨ps, q1, hp ps q1⟩
  · have hreg := inOrder_isDict hg.region
    have hR := hg.able r (List.mem_append_left _ hrk)
    have e := (shrunkTo_same_axes hreg hR hR rfl (hf.shrunk r hrk) (hf.shrunk r hrk)).2.2
    show (st.view r).numDecays ≠ 0
    rw [e]; exact hdec
  · show ses.fixed ≠ some r
    rw [h'.fixed]
    intro hb
    exact absurd (hlt r hrk) (not_lt.2 (hf.made r hb).1)
  · refine checkFitter_ok ?_ hdim ⟨hready.data, hready.background, hready.fixed, ?_, hready.floating⟩
      ⟨hsr.floating, hsr.fixed, hsr.minimiser, hsr.stat⟩
    · intro q hq
      refine h7 q ?_
      have hq : q ∈ ses.data.toList ++ ses.fixed.toList ++ [] := hq
      simp only [Session.compared, List.mem_append] at hq ⊢
      tauto
    · intro q hq; cases hq
  · rw [hw]
    exact .inr (checkFitter_ok h7 hdim hready hsr)

end

end Verif
