import Verif.Lemmas.FitLimit

/-! Helper lemmas: limits set with a fit without floating backgrounds. -/

namespace Verif

open Session

variable {env : FitEnv} {rnd : ℝ → ℚ} {r : ℕ}

/-- The scalings that are looked at. -/
def Tested (rnd : ℝ → ℚ) (scales : List ℝ) (x : ℝ) : Prop :=
  x ∈ scales ∧ (¬ npCloseReal x 0 → rnd x ≠ 0)

/-- The invariant of limit setting without floating backgrounds. -/
structure FixedInv (r : ℕ) (w0 w : Fitter) : Prop where
  ses : SesLike r w0 w.ses
  search : w.search = w0.search
  base : Base w0.st r w.st

theorem SesLike.with {w0 : Fitter} {ses : Session} (h : SesLike r w0 ses) (s : Option ℕ) :
    ∃ c, ({ ses with signal := s } : Session) = { w0.ses with signal := s, checked := c } := by
  obtain ⟨_, c, -, -, rfl⟩ := h
  exact ⟨c, rfl⟩

/-- Without floating backgrounds `fit()` reads data, fixed background and signal. -/
theorem call_fixed {w0 : Fitter} (h : LimitSignal r w0) (hf : w0.ses.floating.getD [] = [])
    {w : Fitter} (hs : SesLike r w0 w.ses) (hb : Base w0.st r w.st) :
    w.call env rnd = (⟨{ w.ses with checked := true }, w.st, w.search⟩, do
      let c ← fixedOnly w.ses w.st
      let out ← w.ses.stat.computeStatistic w.ses.statPerBin (flatten w.ses.singleBin c.1)
        (flatten w.ses.singleBin c.2)
      .ok ⟨out.value.row, none⟩) := by
  have hfl : w.ses.floating.getD [] = [] := by
    obtain ⟨s, c, -, -, h3⟩ := hs
    rw [h3]; exact hf
  unfold Fitter.call
  rw [call_run h hs (fun q _ => hb.cfg h.decays q) (fun q => by rw [(hb.rest h.decays).2.2.1])]
  unfold runFit
  rw [if_pos hfl]
  cases fixedOnly w.ses w.st with
  | error e => rfl
  | ok c =>
    simp only [okBind]
    cases w.ses.stat.computeStatistic w.ses.statPerBin (flatten w.ses.singleBin c.1)
        (flatten w.ses.singleBin c.2) with
    | error e => rfl
    | ok o => rfl

theorem FixedInv.step {w0 w : Fitter} (h : LimitSignal r w0) (hi : FixedInv r w0 w) {x : ℝ}
    (hx : ¬ npCloseReal x 0 → rnd x ≠ 0) :
    FixedInv r w0 (match signalAt x with
      | none => w.without
      | some x => w.withScaled r (rnd x)) := by
  unfold signalAt
  by_cases hc : npCloseReal x 0
  · rw [if_pos hc]
    exact ⟨hi.ses.without, hi.search, hi.base⟩
  · rw [if_neg hc]
    refine ⟨hi.ses.on, hi.search, .inr ⟨rnd x, hx hc, ?_⟩⟩
    exact hi.base.scaled h.decays _

theorem fixedOnly_off {w0 : Fitter} (h : LimitSignal r w0) {st : FitState} (hb : Base w0.st r st)
    {ses : Session} (hd : ses.data = w0.ses.data) (hf : ses.fixed = w0.ses.fixed)
    (hn : ses.signal = none) : fixedOnly ses st = fixedOnly ses w0.st := by
  unfold fixedOnly
  have hv : ∀ {o : Option ℕ} {q : ℕ}, o ≠ some r → o = some q → st.view q = w0.st.view q := by
    intro o q h1 h2
    exact hb.view h.decays (fun hq => h1 (by rw [h2, hq]))
  cases h1 : ses.data with
  | none => rfl
  | some d =>
    have e1 := hv (o := ses.data) (by
      obtain ⟨d', h2, h3⟩ := h.apart.1
      rw [hd, h2]
      exact fun he => h3 (Option.some.inj he)) h1
    cases h2 : ses.fixed with
    | none => simp only [fixedOnly.optionOr, okBind, errorBind, e1]
    | some b =>
      have e2 := hv (hf ▸ h.apart.2) h2
      simp only [fixedOnly.optionOr, okBind, e1, e2, hn]

theorem call_value {w0 w : Fitter} (h : LimitSignal r w0) (hf : w0.ses.floating.getD [] = [])
    (hi : FixedInv r w0 w) {x : ℝ} (hx : ¬ npCloseReal x 0 → rnd x ≠ 0) :
    (Fitter.call env rnd (match signalAt x with
      | none => w.without
      | some x => w.withScaled r (rnd x))).2 = w0.freshReturn env rnd r (signalAt x) ∧
    (Fitter.fit env rnd (match signalAt x with
      | none => w.without
      | some x => w.withScaled r (rnd x))).2 = w0.fresh env rnd r (signalAt x) := by
  have hself : FixedInv r w0 w0 := ⟨SesLike.self h, rfl, .inl rfl⟩
  have h1 := hi.step (rnd := rnd) h hx
  have h2 := hself.step (rnd := rnd) h hx
  have key : (Fitter.call env rnd (match signalAt x with
      | none => w.without
      | some x => w.withScaled r (rnd x))).2 = (Fitter.call env rnd (match signalAt x with
      | none => w0.without
      | some x => w0.withScaled r (rnd x))).2 := by
    rw [call_fixed h hf h1.ses h1.base, call_fixed h hf h2.ses h2.base]
    cases signalAt x with
    | none =>
      dsimp only
      obtain ⟨c, hc⟩ := hi.ses.with none
      have hc' : w.without.ses = { w0.ses with signal := none, checked := c } := hc
      rw [hc']
      have e := fixedOnly_off h hi.base
        (ses := { w0.ses with signal := none, checked := c }) rfl rfl rfl
      change (do let c ← fixedOnly { w0.ses with signal := none, checked := c } w.st; _) = _
      rw [e]
      rfl
    | some y =>
      dsimp only
      obtain ⟨c, hc⟩ := hi.ses.with (some r)
      have hc' : (w.withScaled r (rnd y)).ses = { w0.ses with signal := some r, checked := c } := hc
      have hst : (w.withScaled r (rnd y)).st = (w0.withScaled r (rnd y)).st :=
        hi.base.scaled h.decays _
      rw [hc', hst]
      rfl
  refine ⟨?_, ?_⟩
  · rw [key]
    cases signalAt x <;> rfl
  · rw [fit_of_call (v := match signalAt x with
      | none => w0.without
      | some x => w0.withScaled r (rnd x)) key]
    · cases signalAt x <;> rfl
    · rw [call_fixed h hf h1.ses h1.base, call_fixed h hf h2.ses h2.base]
      dsimp only
      rw [h1.search, h2.search]

theorem FixedInv.call {w0 w : Fitter} (h : LimitSignal r w0) (hf : w0.ses.floating.getD [] = [])
    (hw : FixedInv r w0 w) : FixedInv r w0 (w.call env rnd).1 := by
  rw [call_fixed h hf hw.ses hw.base]
  exact ⟨hw.ses.checked, hw.search, hw.base⟩

theorem refines_fixed {w0 : Fitter} (h : LimitSignal r w0) (hf : w0.ses.floating.getD [] = [])
    (scales : List ℝ) :
    Refines env rnd r (Tested rnd scales) (FixedInv r w0) (w0.fresh env rnd r)
      (w0.freshReturn env rnd r) where
  off w hw := FixedInv.call h hf ⟨hw.ses.without, hw.search, hw.base⟩
  scale w hw x hx := ⟨_, (atScale_run h hw.ses (hw.base.cfg h.decays r) (hw.base.decays h.decays) x).1,
    (hw.step h hx.2).call h hf, (call_value h hf hw hx.2).2⟩
  statScale w hw x hx := ⟨_, (atScale_run h hw.ses (hw.base.cfg h.decays r)
    (hw.base.decays h.decays) x).2, (hw.step h hx.2).call h hf, (call_value h hf hw hx.2).1⟩
  value w hw := by
    have h0 : npCloseReal 0 0 := by unfold npCloseReal; norm_num
    have := (call_value (env := env) (rnd := rnd) h hf hw (x := 0) (fun hn => absurd h0 hn)).2
    unfold signalAt at this
    rw [if_pos h0] at this
    exact this

end Verif
