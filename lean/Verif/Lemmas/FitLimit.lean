import Verif.Spec.FitLimit
import Verif.Props.FitGrid
import Verif.Props.FitSession

/-! Helper lemmas about limits set with a fit. -/

namespace Verif

open Session

/-! ### scaling the signal -/

theorem scaled_eq {st : FitState} {r : ℕ} (h : (st.view r).numDecays ≠ 0) (n : ℚ) :
    FitM.call r (fun s => s.scale n) st = (st.scaled r n, .ok ()) ∧
    st.scaled r n = { st with objs := Function.update st.objs r { st.objs r with
      data := ((st.objs r).data.norm.smul (n / (st.objs r).numDecays)), numDecays := n } } := by
  have hs : (st.view r).scale n = .ok { st.view r with
      data := (st.view r).data.smul (n / (st.view r).numDecays), numDecays := n } := by
    unfold Spectrum.scale
    rw [if_neg h]
  unfold FitState.scaled FitM.call
  simp only [hs]
  refine ⟨rfl, ?_⟩
  simp only [FitState.write, Outcome.ok, FitState.view, Function.update_eq_self]

theorem scaled_objs {st : FitState} {r q : ℕ} (h : (st.view r).numDecays ≠ 0) (n : ℚ)
    (hq : q ≠ r) : (st.scaled r n).objs q = st.objs q := by
  rw [(scaled_eq h n).2]
  exact Function.update_of_ne hq _ _

theorem scaled_self {st : FitState} {r : ℕ} (h : (st.view r).numDecays ≠ 0) (n : ℚ) :
    (st.scaled r n).objs r = { st.objs r with
      data := ((st.objs r).data.norm.smul (n / (st.objs r).numDecays)), numDecays := n } := by
  rw [(scaled_eq h n).2]
  exact Function.update_self _ _ _

theorem scaled_rest {st : FitState} {r : ℕ} (h : (st.view r).numDecays ≠ 0) (n : ℚ) :
    (st.scaled r n).cfgs = st.cfgs ∧ (st.scaled r n).next = st.next ∧
    (st.scaled r n).params = st.params ∧ (st.scaled r n).cache = st.cache := by
  rw [(scaled_eq h n).2]
  exact ⟨rfl, rfl, rfl, rfl⟩

theorem scaled_view {st : FitState} {r q : ℕ} (h : (st.view r).numDecays ≠ 0) (n : ℚ)
    (hq : q ≠ r) : (st.scaled r n).view q = st.view q := by
  simp only [FitState.view, scaled_objs h n hq, (scaled_rest h n).1]

theorem scaled_cfg {st : FitState} {r : ℕ} (h : (st.view r).numDecays ≠ 0) (n : ℚ) (q : ℕ) :
    ((st.scaled r n).view q).cfg = (st.view q).cfg := by
  by_cases hq : q = r
  · subst hq
    simp only [FitState.view, scaled_self h n, (scaled_rest h n).1]
  · rw [scaled_view h n hq]

theorem scaled_decays {st : FitState} {r : ℕ} (h : (st.view r).numDecays ≠ 0) (n : ℚ) :
    ((st.scaled r n).view r).numDecays = n := by
  simp only [FitState.view, scaled_self h n]

theorem scaled_scaled {st : FitState} {r : ℕ} (h : (st.view r).numDecays ≠ 0) {n : ℚ} (m : ℚ)
    (hn : n ≠ 0) : (st.scaled r n).scaled r m = st.scaled r m := by
  have h' : ((st.scaled r n).view r).numDecays ≠ 0 := by rw [scaled_decays h]; exact hn
  have hd : (st.objs r).numDecays ≠ 0 := h
  rw [(scaled_eq h' m).2, scaled_self h n, (scaled_eq h m).2, (scaled_eq h n).2]
  simp only [Function.update_idem]
  congr 2
  congr 1
  simp only [NdArray.smul, NdArray.norm]
  congr 1
  funext idx
  split
  · field_simp
  · simp

/-- The objects, with the signal as it is or scaled. -/
def Base (st : FitState) (r : ℕ) (b : FitState) : Prop := b = st ∨ ∃ n, n ≠ 0 ∧ b = st.scaled r n

theorem Base.decays {st b : FitState} {r : ℕ} (h : (st.view r).numDecays ≠ 0) (hb : Base st r b) :
    (b.view r).numDecays ≠ 0 := by
  rcases hb with rfl | ⟨n, hn, rfl⟩
  · exact h
  · rw [scaled_decays h]; exact hn

theorem Base.scaled {st b : FitState} {r : ℕ} (h : (st.view r).numDecays ≠ 0) (hb : Base st r b)
    (m : ℚ) : b.scaled r m = st.scaled r m := by
  rcases hb with rfl | ⟨n, hn, rfl⟩
  · rfl
  · exact scaled_scaled h m hn

theorem Base.view {st b : FitState} {r q : ℕ} (h : (st.view r).numDecays ≠ 0) (hb : Base st r b)
    (hq : q ≠ r) : b.view q = st.view q := by
  rcases hb with rfl | ⟨n, -, rfl⟩
  · rfl
  · exact scaled_view h n hq

theorem Base.objs {st b : FitState} {r q : ℕ} (h : (st.view r).numDecays ≠ 0) (hb : Base st r b)
    (hq : q ≠ r) : b.objs q = st.objs q := by
  rcases hb with rfl | ⟨n, -, rfl⟩
  · rfl
  · exact scaled_objs h n hq

theorem Base.cfg {st b : FitState} {r : ℕ} (h : (st.view r).numDecays ≠ 0) (hb : Base st r b)
    (q : ℕ) : (b.view q).cfg = (st.view q).cfg := by
  rcases hb with rfl | ⟨n, -, rfl⟩
  · rfl
  · exact scaled_cfg h n q

theorem Base.rest {st b : FitState} {r : ℕ} (h : (st.view r).numDecays ≠ 0) (hb : Base st r b) :
    b.cfgs = st.cfgs ∧ b.next = st.next ∧ b.params = st.params ∧ b.cache = st.cache := by
  rcases hb with rfl | ⟨n, -, rfl⟩
  · exact ⟨rfl, rfl, rfl, rfl⟩
  · exact scaled_rest h n

/-! ### checks -/

theorem checkSpectra_cfg {roi : Dict (ℚ × ℚ)} {s t : Spectrum} (h : s.cfg = t.cfg) :
    checkSpectra roi s = checkSpectra roi t := by
  have : checkSpectraDim s = checkSpectraDim t := by
    funext e
    simp only [checkSpectraDim, Spectrum.pars, Spectrum.getPar, h]
  simp only [checkSpectra, this]

theorem roiPars_cfg {roi : Dict (ℚ × ℚ)} {s t : Spectrum} (h : s.cfg = t.cfg) :
    roiPars roi s = roiPars roi t := by
  simp only [roiPars, Spectrum.pars, h]

theorem checkAllSpectra_cfg {ses : Session} {st b : FitState}
    (h : ∀ q, ses.data = some q ∨ ses.fixed = some q ∨ ses.signal = some q →
      (b.view q).cfg = (st.view q).cfg) : checkAllSpectra ses b = checkAllSpectra ses st := by
  have hs : ∀ r p, (ses.data = some r ∨ ses.fixed = some r ∨ ses.signal = some r) →
      checkSet ses.roi b r p = checkSet ses.roi st r p := by
    intro r p hr
    unfold checkSet
    rw [checkSpectra_cfg (h r hr)]
  have ho : ∀ (o : Option ℕ) p, (∀ q, o = some q →
      ses.data = some q ∨ ses.fixed = some q ∨ ses.signal = some q) →
      checkOptional ses.roi b o p = checkOptional ses.roi st o p := by
    intro r p hr
    unfold checkOptional
    cases r with
    | none => rfl
    | some r => exact hs r p (hr r rfl)
  unfold checkAllSpectra
  rw [ho ses.fixed _ fun q hq => .inr (.inl hq), ho ses.signal _ fun q hq => .inr (.inr hq)]
  cases hd : ses.data with
  | none => rfl
  | some d => simp only [hs d _ (.inl hd)]

theorem checkFitter_same {ses : Session} {st b : FitState}
    (h : ∀ q, ses.data = some q ∨ ses.fixed = some q ∨ ses.signal = some q →
      (b.view q).cfg = (st.view q).cfg)
    (hp : ∀ q, (b.params q).dimension = (st.params q).dimension) :
    checkFitter ses b = checkFitter ses st := by
  unfold checkFitter dumpConfig
  simp only [hp]
  rw [checkAllSpectra_cfg h]

theorem runFit_checked {ρ : Type} (mini : Fit → FitM ρ) (ses : Session) (c : Bool) (st : FitState) :
    runFit mini { ses with checked := c } st = runFit mini ses st := rfl

/-- A fit that passes its checks is run. -/
theorem fit_passes {ρ : Type} (mini : Fit → FitM ρ) {ses : Session} {st : FitState}
    (h : ses.checked = true ∨ (ses.checkFitter st).2 = .ok ()) :
    ses.fit mini st = (({ ses with checked := true }, (runFit mini ses st).1),
      (runFit mini ses st).2) := by
  unfold Session.fit
  by_cases hc : ses.checked = true
  · rw [if_pos hc]
    have : ({ ses with checked := true } : Session) = ses := by
      cases ses; simp only at hc; subst hc; rfl
    rw [this]
  · rw [if_neg hc]
    rcases h with h | h
    · exact absurd h hc
    · rcases checkFitter_cases ses st with ⟨e, he⟩ | ⟨-, -, he⟩
      · rw [he] at h; cases h
      · rw [he] at h ⊢
        simp only at h ⊢
        rw [h]
        rfl

/-! ### the loops, for any fitter -/

/-- The methods of the limit on a fitter that always gives what `fresh` gives, as long as the
invariant holds. -/
structure Refines (env : FitEnv) (rnd : ℝ → ℚ) (r : ℕ) (S : ℝ → Prop) (I : Fitter → Prop)
    (fresh : Option ℝ → Except PyErr FitOut) (ret : Option ℝ → Except PyErr FitReturn) : Prop where
  off : ∀ w, I w → I (w.without.call env rnd).1
  scale : ∀ w, I w → ∀ x, S x → ∃ w', w.atScale rnd r x = (w', .ok ()) ∧
    I (w'.call env rnd).1 ∧ (w'.fit env rnd).2 = fresh (signalAt x)
  statScale : ∀ w, I w → ∀ x, S x → ∃ w', w.statScale rnd r x = (w', .ok ()) ∧
    I (w'.call env rnd).1 ∧ (w'.call env rnd).2 = ret (signalAt x)
  value : ∀ w, I w → (w.without.fit env rnd).2 = fresh none

theorem fit_fst (env : FitEnv) (rnd : ℝ → ℚ) (w : Fitter) :
    (w.fit env rnd).1 = (w.call env rnd).1 := by
  unfold Fitter.fit
  rcases w.call env rnd with ⟨w', r | r⟩ <;> rfl

variable {env : FitEnv} {rnd : ℝ → ℚ} {r : ℕ} {S : ℝ → Prop} {I : Fitter → Prop}
  {fresh : Option ℝ → Except PyErr FitOut} {ret : Option ℝ → Except PyErr FitReturn}

theorem Refines.rows (h : Refines env rnd r S I fresh ret) (m : List ℝ) (scales : List ℝ)
    (hs : ∀ x ∈ scales, S x) (w : Fitter) (hw : I w) :
    ∃ w', I w' ∧ w.limitRows env rnd r m scales = (w', scales.mapM (limitRow fresh m)) := by
  induction scales generalizing w with
  | nil => exact ⟨w, hw, rfl⟩
  | cons x xs ih =>
    obtain ⟨w1, h1, h2, h3⟩ := h.scale w hw x (hs x (by simp))
    have h4 : I (w1.fit env rnd).1 := by rw [fit_fst]; exact h2
    unfold Fitter.limitRows
    rw [h1, List.mapM_cons]
    dsimp only
    rcases hf : w1.fit env rnd with ⟨w2, e | o⟩
    · rw [hf] at h3 h4
      refine ⟨w2, h4, ?_⟩
      unfold limitRow
      rw [← h3]
      rfl
    · rw [hf] at h3 h4
      simp only at h3 h4 ⊢
      have hrow : limitRow fresh m x = (do
          let row ← setRow m.length o.stat
          .ok (List.zipWith (fun a b => a - b) row m, o.pens)) := by
        unfold limitRow
        rw [← h3]
        rfl
      rw [hrow]
      cases setRow m.length o.stat with
      | error e => exact ⟨w2, h4, rfl⟩
      | ok row =>
        obtain ⟨w3, h5, h6⟩ := ih (fun y hy => hs y (by simp [hy])) w2 h4
        simp only [okBind]
        rw [h6]
        cases List.mapM (limitRow fresh m) xs with
        | error e => exact ⟨w3, h5, rfl⟩
        | ok rows => exact ⟨w3, h5, rfl⟩

theorem Refines.minStat (h : Refines env rnd r S I fresh ret) (w : Fitter) (hw : I w) :
    ∃ w', I w' ∧ w.minStat env rnd = (w', (fresh none).map FitOut.stat) := by
  have h1 : I (w.without.fit env rnd).1 := by rw [fit_fst]; exact h.off w hw
  have h2 := h.value w hw
  unfold Fitter.minStat
  change ∃ w', I w' ∧ (match w.without.fit env rnd with
    | (w, .error e) => (w, .error e)
    | (w, .ok o) => (w, .ok o.stat)) = (w', (fresh none).map FitOut.stat)
  rcases hf : w.without.fit env rnd with ⟨w2, e | o⟩ <;> rw [hf] at h1 h2 <;>
    rw [← h2] <;> exact ⟨w2, h1, rfl⟩

theorem Refines.minStatGiven (h : Refines env rnd r S I fresh ret) (w : Fitter) (hw : I w)
    (m : Option (List ℝ)) : ∃ w', I w' ∧ w.minStatGiven env rnd m = (w', minStatOf fresh m) := by
  match m with
  | none => exact h.minStat w hw
  | some [] => exact h.minStat w hw
  | some [x] =>
    by_cases hx : x = 0
    · obtain ⟨w', h1, h2⟩ := h.minStat w hw
      refine ⟨w', h1, ?_⟩
      simp only [Fitter.minStatGiven, minStatOf, if_pos hx]
      exact h2
    · refine ⟨w, hw, ?_⟩
      simp only [Fitter.minStatGiven, minStatOf, if_neg hx]
  | some (_ :: _ :: _) => exact ⟨w, hw, rfl⟩

theorem Refines.limitOf (h : Refines env rnd r S I fresh ret) (scales : List ℝ)
    (hs : ∀ x ∈ scales, S x) (sigmas : List (Option ℝ)) (w : Fitter) (hw : I w)
    (m : Option (List ℝ)) (limit : ℝ) :
    ∃ w', I w' ∧ w.limitOf env rnd r scales sigmas m limit =
      (w', getLimit scales sigmas fresh m limit) := by
  obtain ⟨w1, h1, h2⟩ := h.minStatGiven w hw m
  unfold Fitter.limitOf getLimit
  rw [h2]
  cases minStatOf fresh m with
  | error e => exact ⟨w1, h1, rfl⟩
  | ok m =>
    obtain ⟨w3, h5, h6⟩ := h.rows m scales hs w1 h1
    simp only [okBind]
    rw [h6]
    cases List.mapM (limitRow fresh m) scales with
    | error e => exact ⟨w3, h5, rfl⟩
    | ok rows => exact ⟨w3, h5, rfl⟩

theorem Refines.statistics (h : Refines env rnd r S I fresh ret) (scales : List ℝ)
    (hs : ∀ x ∈ scales, S x) (w : Fitter) (hw : I w) :
    ∃ w', I w' ∧ w.statistics env rnd r scales =
      (w', scales.mapM (fun x => ret (signalAt x))) := by
  induction scales generalizing w with
  | nil => exact ⟨w, hw, rfl⟩
  | cons x xs ih =>
    obtain ⟨w1, h1, h2, h3⟩ := h.statScale w hw x (hs x (by simp))
    have h4 : I (w1.call env rnd).1 := h2
    unfold Fitter.statistics
    rw [h1, List.mapM_cons, ← h3]
    dsimp only
    rcases hf : w1.call env rnd with ⟨w2, e | o⟩
    · rw [hf] at h4
      exact ⟨w2, h4, rfl⟩
    · rw [hf] at h4
      simp only [okBind]
      obtain ⟨w3, h5, h6⟩ := ih (fun y hy => hs y (by simp [hy])) w2 h4
      rw [h6]
      cases List.mapM (fun x => ret (signalAt x)) xs with
      | error e => exact ⟨w3, h5, rfl⟩
      | ok rows => exact ⟨w3, h5, rfl⟩

theorem Refines.after (h : Refines env rnd r S I fresh ret) (calls : List LimitCall)
    (hs : ∀ c ∈ calls, ∀ x ∈ c.scales, S x) (w : Fitter) (hw : I w) :
    I (w.afterCalls env rnd r calls) := by
  unfold Fitter.afterCalls
  induction calls generalizing w with
  | nil => exact hw
  | cons c cs ih =>
    rw [List.foldl_cons]
    refine ih (fun d hd => hs d (by simp [hd])) _ ?_
    have hc := hs c (by simp)
    cases c with
    | limit scales sigmas m l =>
      obtain ⟨w', h1, h2⟩ := h.limitOf scales hc sigmas w hw m l
      unfold LimitCall.perform
      dsimp only
      rw [h2]
      exact h1
    | statistics scales =>
      obtain ⟨w', h1, h2⟩ := h.statistics scales hc w hw
      unfold LimitCall.perform
      dsimp only
      rw [h2]
      exact h1

theorem fit_of_call {w v : Fitter} (h1 : (w.call env rnd).2 = (v.call env rnd).2)
    (h2 : Fitter.summaryPens (w.call env rnd).1.search = Fitter.summaryPens (v.call env rnd).1.search) :
    (w.fit env rnd).2 = (v.fit env rnd).2 := by
  unfold Fitter.fit
  rcases hw : w.call env rnd with ⟨w', a | a⟩ <;> rcases hv : v.call env rnd with ⟨v', b | b⟩ <;>
    rw [hw, hv] at h1 h2 <;> cases h1
  · rfl
  · simp only at h2 ⊢
    rw [h2]

/-- The attributes of the fit during limit setting: only the signal and the flag change. -/
def SesLike (r : ℕ) (w0 : Fitter) (ses : Session) : Prop :=
  ∃ s c, (s = none ∨ s = some r) ∧ (c = true ∨ c = w0.ses.checked) ∧
    ses = { w0.ses with signal := s, checked := c }

theorem SesLike.without {w0 : Fitter} {ses : Session} (h : SesLike r w0 ses) :
    SesLike r w0 { ses with signal := none } := by
  obtain ⟨s, c, -, hc, rfl⟩ := h
  exact ⟨none, c, .inl rfl, hc, rfl⟩

theorem SesLike.on {w0 : Fitter} {ses : Session} (h : SesLike r w0 ses) :
    SesLike r w0 { ses with signal := some r } := by
  obtain ⟨s, c, -, hc, rfl⟩ := h
  exact ⟨some r, c, .inr rfl, hc, rfl⟩

theorem SesLike.checked {w0 : Fitter} {ses : Session} (h : SesLike r w0 ses) :
    SesLike r w0 { ses with checked := true } := by
  obtain ⟨s, c, hs, -, rfl⟩ := h
  exact ⟨s, true, hs, .inl rfl, rfl⟩

theorem SesLike.self {w0 : Fitter} (h : LimitSignal r w0) : SesLike r w0 w0.ses := by
  refine ⟨w0.ses.signal, w0.ses.checked, h.set, .inr rfl, ?_⟩
  cases w0.ses; rfl

/-- Setting the signal again without shrinking. -/
theorem setSignal_again {w0 : Fitter} (h : LimitSignal r w0) {ses : Session} (hs : SesLike r w0 ses)
    {st : FitState} (hc : (st.view r).cfg = (w0.st.view r).cfg) :
    ses.setSignal st r false = (({ ses with signal := some r }, st), .ok ()) := by
  obtain ⟨ps, h1, h2⟩ := h.pars
  obtain ⟨s, c, -, -, rfl⟩ := hs
  have : shrinkIf w0.ses.roi false r st = (st, .ok ()) := rfl
  unfold setSignal
  simp only [this]
  rw [roiPars_cfg hc, h2]
  dsimp only
  rw [← h1]

theorem atScale_run {w0 : Fitter} (h : LimitSignal r w0) {w : Fitter} (hs : SesLike r w0 w.ses)
    (hc : (w.st.view r).cfg = (w0.st.view r).cfg) (hd : (w.st.view r).numDecays ≠ 0) (x : ℝ) :
    w.atScale rnd r x = (match signalAt x with
      | none => w.without
      | some x => w.withScaled r (rnd x), .ok ()) ∧
    w.statScale rnd r x = (match signalAt x with
      | none => w.without
      | some x => w.withScaled r (rnd x), .ok ()) := by
  unfold Fitter.atScale Fitter.statScale
  cases signalAt x with
  | none => exact ⟨rfl, rfl⟩
  | some x =>
    dsimp only
    constructor
    · cases hq : w.ses.signal with
      | none =>
        dsimp only
        rw [setSignal_again h hs hc]
        dsimp only
        rw [(scaled_eq hd _).1]
        rfl
      | some q =>
        have : q = r := by
          obtain ⟨s, c, h1, -, h2⟩ := hs
          rw [h2] at hq
          rcases h1 with rfl | rfl
          · cases hq
          · exact (Option.some.inj hq).symm
        subst this
        dsimp only
        rw [(scaled_eq hd _).1]
        unfold Fitter.withScaled Fitter.with
        have : ({ w.ses with signal := some q } : Session) = w.ses := by
          rw [← hq]
        rw [this]
    · rw [(scaled_eq hd _).1]
      dsimp only
      rw [setSignal_again h hs (by rw [scaled_cfg hd]; exact hc)]
      rfl

/-- A fit during limit setting is run. -/
theorem call_run {w0 : Fitter} (h : LimitSignal r w0) {w : Fitter} (hs : SesLike r w0 w.ses)
    (hc : ∀ q, w.ses.data = some q ∨ w.ses.fixed = some q ∨ w.ses.signal = some q →
      (w.st.view q).cfg = (w0.st.view q).cfg)
    (hp : ∀ q, (w.st.params q).dimension = (w0.st.params q).dimension) :
    w.ses.fit (fun f => fitGrid env f rnd w.search) w.st =
      (({ w.ses with checked := true }, (runFit (fun f => fitGrid env f rnd w.search) w.ses w.st).1),
        (runFit (fun f => fitGrid env f rnd w.search) w.ses w.st).2) := by
  refine fit_passes _ ?_
  rw [checkFitter_same hc hp]
  obtain ⟨s, c, h1, h2, h3⟩ := hs
  rw [h3]
  rcases h2 with rfl | rfl
  · exact .inl rfl
  · rcases h1 with rfl | rfl
    · exact h.passes.1
    · exact h.passes.2

end Verif
