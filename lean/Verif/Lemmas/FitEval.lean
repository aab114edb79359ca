import Verif.Lemmas.FitCache

/-! Helper lemmas: an evaluation of a fit gives what computing anew would give. -/

namespace Verif

open Spectrum

variable {env : FitEnv} {f : Fit} {st0 st : FitState} {D : ℕ → Prop}

theorem okBind {α β : Type} (a : α) (g : α → Except PyErr β) : (Except.ok a >>= g) = g a := rfl

theorem errorBind {α β : Type} (e : PyErr) (g : α → Except PyErr β) :
    (Except.error e >>= g) = Except.error e := rfl

/-- A floating background computed anew. -/
def bgValue (env : FitEnv) (f : Fit) (st0 : FitState) (P : ℕ → Param) (r : ℕ) :
    Except PyErr Spectrum := do
  let t ← convFrom env f st0 r P
  rateAll (((st0.objs r).fit.getD []).map P) t

/-- One of the rates of the background is zero. -/
def ZeroRate (st0 : FitState) (P : ℕ → Param) (r : ℕ) : Prop :=
  ∃ p ∈ (st0.objs r).fit.getD [], (P p).value = some 0

theorem withGlobals_run (hr : FitReady env f st0) (h : Inv env f st0 D st) {r : ℕ}
    (hm : r ∈ f.floatingRefs) (hv : Valued st0.params st.params f.globals) :
    ∃ st', st'.params = st.params ∧ Inv env f st0 D st' ∧
      match convFrom env f st0 r st.params with
      | .ok t => ∃ c, withGlobals env f r st = (st', .ok c) ∧ Handle env f st0 D st' r t c
      | .error e => withGlobals env f r st = (st', .error e) := by
  unfold withGlobals
  by_cases hg : f.globals = []
  · refine ⟨st, rfl, h, ?_⟩
    have : convFrom env f st0 r st.params = .ok (st0.view r) := by
      unfold convFrom; rw [hg]; rfl
    rw [this]
    exact ⟨r, by rw [if_pos hg]; rfl, .inl ⟨hg, rfl, rfl, hm⟩⟩
  · rw [if_neg hg]
    have := cached_run hr h hg (r := r) (by simp [Fit.moving, hm]) hv
    rw [isBg_floating hr hm] at this
    exact this

theorem rateAll_resc {ps : List Param} {sc : Prop} {t u : Spectrum}
    (h : Resc sc t u) (hp : ps = [] → ¬ sc) (ht : t.numDecays ≠ 0)
    (hu : u.numDecays ≠ 0) : rateAll ps u = rateAll ps t := by
  rcases h with rfl | ⟨h1, m, rfl⟩
  · rfl
  · cases ps with
    | nil => exact absurd h1 (hp rfl)
    | cons p ps =>
      have hu' : m ≠ 0 := hu
      have : rateP p (t.rescaled m) = rateP p t := by
        unfold rateP
        split
        · rfl
        · rw [if_neg hu, if_neg ht, rescaled_rescaled ht hu']
      unfold rateAll
      rw [List.foldlM_cons, List.foldlM_cons, this]

theorem scaling_floating (hr : FitReady env f st0) {r : ℕ} (hm : r ∈ f.floatingRefs) :
    Scaling f st0 r ↔ (st0.objs r).fit.getD [] ≠ [] := by
  unfold Scaling; rw [isBg_floating hr hm]; simp only [forall_const]

theorem Resc.alike {rates : Prop} {t u : Spectrum} (h : Resc rates t u) :
    u.cfg = t.cfg ∧ u.data.shape = t.data.shape := by
  rcases h with rfl | ⟨-, m, rfl⟩
  · exact ⟨rfl, rfl⟩
  · exact ⟨rfl, rfl⟩

theorem floatingSpectrum_run (hr : FitReady env f st0) (h : Inv env f st0 D st) {r : ℕ}
    (hm : r ∈ f.floatingRefs) (hD : ¬ D r) (hv : Valued st0.params st.params f.globals)
    (hvr : Valued st0.params st.params ((st0.objs r).fit.getD [])) :
    ∃ st', st'.params = st.params ∧
      Inv env f st0 (fun q => D q ∨ (q = r ∧ ZeroRate st0 st.params r)) st' ∧
      match bgValue env f st0 st.params r with
      | .ok w => ∃ c, floatingSpectrum env f r st = (st', .ok c) ∧ st'.view c = w
      | .error e => floatingSpectrum env f r st = (st', .error e) := by
  have hmv : r ∈ f.moving := by simp [Fit.moving, hm]
  obtain ⟨st1, e1, e2, e3⟩ := withGlobals_run hr h hm hv
  unfold bgValue
  cases hc : convFrom env f st0 r st.params with
  | error e =>
    rw [hc] at e3
    exact ⟨st1, e1, e2.mono fun q hq => .inl hq, FitM.bind_error e3⟩
  | ok t =>
    rw [hc] at e3
    obtain ⟨c, g1, g2⟩ := e3
    have hmade := Handle.made e2 g2
    obtain ⟨hal, hnorm⟩ := convFold_alike hc (.refl _) (FitState.view_data_norm _ _)
    have ht0 : t.numDecays ≠ 0 := by rw [hal.numDecays]; exact hr.decays r hmv
    have hfit : (st1.objs c).fit = (st0.objs r).fit := hmade.fit
    obtain ⟨st2, a1, a2, a3, a4⟩ := applyAll_rates (env := env) ((st0.objs r).fit.getD []) c st1
      (fun p hp => by
        rw [e1]
        obtain ⟨v, hv⟩ := hvr p hp
        rw [hv]; exact (hr.rates r hm p hp).2)
    have hrates := scaling_floating hr hm
    -- the invariant after the rates
    have halive1 : (st1.view c).numDecays ≠ 0 := hmade.alive hD
    have hresc2 : Resc (Scaling f st0 r) t (st2.view c) := by
      rcases a3 with a3 | ⟨hne, h0, m, a3⟩
      · rw [a3]; exact hmade.resc
      · right
        refine ⟨by rw [hrates]; exact hne, m, ?_⟩
        rw [a3]
        rcases hmade.resc with hx | ⟨-, m', hx⟩
        · rw [hx]
        · rw [hx] at h0 ⊢
          exact rescaled_rescaled (m := m') ht0 h0
    obtain ⟨inv2, han2⟩ := (e2.mono (D' := fun q => D q ∨ (q = r ∧ ZeroRate st0 st.params r))
      fun q hq => .inl hq).scaled (g2.mono fun q hq => .inl hq) a1 hresc2 (by
        intro hn
        refine a4 halive1 fun p hp hz => hn (.inr ⟨rfl, p, hp, ?_⟩)
        rw [← e1]; exact hz)
    have hbind : floatingSpectrum env f r st = (do
        let r ← applyAll env ((st0.objs r).fit.getD []) c
        shrinkToData f.data r
        let d ← FitM.read (fun st => st.view f.data)
        FitM.call r (fun s => s.rebin d.data.shape)
        pure r : FitM ℕ) st1 := by
      unfold floatingSpectrum
      rw [FitM.bind_ok g1, FitM.read_bind, hfit]
    have hval : rateAll (((st0.objs r).fit.getD []).map st1.params) (st1.view c) =
        rateAll (((st0.objs r).fit.getD []).map st.params) t := by
      rw [e1]
      exact rateAll_resc hmade.resc (by rw [hrates]; simp) ht0 halive1
    simp only [bind, Except.bind]
    rw [hval] at a2
    cases hw : rateAll (((st0.objs r).fit.getD []).map st.params) t with
    | error e =>
      rw [hw] at a2
      refine ⟨st2, a1.params.trans e1, inv2, ?_⟩
      rw [hbind, FitM.bind_error a2]
    | ok w =>
      rw [hw] at a2
      obtain ⟨b1, b2⟩ := a2
      -- shrink and rebin do nothing
      have hdata : ∀ {D st}, Inv env f st0 D st → st.view f.data = st0.view f.data :=
        fun h => h.view_old hr.alloc.1 (.inr hr.apart.1)
      have hax : ∀ {D st}, Inv env f st0 D st → Resc (Scaling f st0 r) t (st.view c) →
          OnDataAxes (st.view f.data) (st.view c) := by
        intro D st hi hre
        rw [hdata hi]
        exact onDataAxes_alike (hr.axes r hmv) (hre.alike.1.trans hal.cfg)
          (hre.alike.2.trans hal.shape)
      obtain ⟨st3, c1, c2, c3⟩ := shrinkToData_same (hax inv2 hresc2)
      obtain ⟨inv3, han3⟩ := inv2.scaled han2 c2 (by rw [c3]; exact hresc2)
        (by rw [c3]; exact (Handle.made inv2 han2).alive)
      have hresc3 : Resc (Scaling f st0 r) t (st3.view c) := by rw [c3]; exact hresc2
      obtain ⟨st4, d1, d2, d3⟩ := rebin_same (hax inv3 hresc3)
      obtain ⟨inv4, han4⟩ := inv3.scaled han3 d2 (by rw [d3]; exact hresc3)
        (by rw [d3]; exact (Handle.made inv3 han3).alive)
      refine ⟨st4, d2.params.trans (c2.params.trans (a1.params.trans e1)), inv4, c, ?_, ?_⟩
      · rw [hbind, FitM.bind_ok b1, FitM.bind_ok c1, FitM.read_bind, FitM.bind_ok d1]
        rfl
      · rw [d3, c3, b2]

/-! ### the loop over the backgrounds -/

/-- One round, computed anew. -/
def roundValue (env : FitEnv) (f : Fit) (st0 : FitState) (P : ℕ → Param)
    (expected : Option (NdArray ℚ)) (b : ℕ × List PyStr) :
    Except PyErr (Option (NdArray ℚ)) := do
  let w ← bgValue env f st0 P b.1
  let proj ← w.ndProject b.2
  let e ← addProjection expected proj
  pure (some e)

theorem floatingRound_run (hr : FitReady env f st0) (h : Inv env f st0 D st)
    {b : ℕ × List PyStr} (hm : b.1 ∈ f.floatingRefs) (hD : ¬ D b.1)
    (hv : Valued st0.params st.params f.globals)
    (hvr : Valued st0.params st.params ((st0.objs b.1).fit.getD [])) (e : Option (NdArray ℚ)) :
    ∃ st', st'.params = st.params ∧
      Inv env f st0 (fun q => D q ∨ (q = b.1 ∧ ZeroRate st0 st.params b.1)) st' ∧
      floatingRound env f e b st = (st', roundValue env f st0 st.params e b) := by
  obtain ⟨st', e1, e2, e3⟩ := floatingSpectrum_run hr h hm hD hv hvr
  refine ⟨st', e1, e2, ?_⟩
  unfold floatingRound roundValue
  cases hw : bgValue env f st0 st.params b.1 with
  | error e =>
    rw [hw] at e3
    rw [FitM.bind_error e3]
    rfl
  | ok w =>
    rw [hw] at e3
    obtain ⟨c, g1, g2⟩ := e3
    rw [FitM.bind_ok g1, FitM.read_bind, g2, FitM.lift_bind]
    simp only [bind, Except.bind]
    cases hp : w.ndProject b.2 with
    | error _ => rfl
    | ok p =>
      simp only
      cases ha : addProjection e p <;> rfl

theorem floatingLoop_run (hr : FitReady env f st0) (l : List (ℕ × List PyStr))
    (hl : ∀ b ∈ l, b.1 ∈ f.floatingRefs) (hn : (l.map Prod.fst).Nodup)
    (h : Inv env f st0 D st) (hD : ∀ b ∈ l, ¬ D b.1)
    (hv : Valued st0.params st.params f.globals)
    (hvr : ∀ b ∈ l, Valued st0.params st.params ((st0.objs b.1).fit.getD []))
    (e : Option (NdArray ℚ)) :
    ∃ st', st'.params = st.params ∧
      Inv env f st0 (fun q => D q ∨ (q ∈ l.map Prod.fst ∧ ZeroRate st0 st.params q)) st' ∧
      l.foldlM (floatingRound env f) e st =
        (st', l.foldlM (roundValue env f st0 st.params) e) := by
  induction l generalizing st D e with
  | nil => exact ⟨st, rfl, h.mono fun q hq => .inl hq, rfl⟩
  | cons b l ih =>
    rw [List.map_cons, List.nodup_cons] at hn
    obtain ⟨st1, e1, e2, e3⟩ := floatingRound_run hr h (hl b (by simp)) (hD b (by simp)) hv
      (hvr b (by simp)) e
    have hrun : ∀ x, (b :: l).foldlM (floatingRound env f) e x =
        (floatingRound env f e b >>= fun e' => l.foldlM (floatingRound env f) e') x := by
      intro x; rw [List.foldlM_cons]
    rw [hrun, List.foldlM_cons]
    cases hrv : roundValue env f st0 st.params e b with
    | error er =>
      rw [hrv] at e3
      refine ⟨st1, e1, e2.mono ?_, ?_⟩
      · rintro q (hq | ⟨rfl, hq⟩)
        · exact .inl hq
        · exact .inr ⟨by simp, hq⟩
      · rw [FitM.bind_error e3]; rfl
    | ok e' =>
      rw [hrv] at e3
      have hne : ∀ x ∈ l, x.1 ≠ b.1 := fun x hx he => hn.1 (he ▸ List.mem_map_of_mem hx)
      obtain ⟨st', f1, f2, f3⟩ := ih (st := st1)
        (D := fun q => D q ∨ (q = b.1 ∧ ZeroRate st0 st.params b.1))
        (fun x hx => hl x (by simp [hx])) hn.2 e2
        (fun x hx hd => hd.elim (hD x (by simp [hx])) fun hd => hne x hx hd.1)
        (by rw [e1]; exact hv) (fun x hx => by rw [e1]; exact hvr x (by simp [hx])) e'
      rw [e1] at f1 f2 f3
      refine ⟨st', f1, f2.mono ?_, ?_⟩
      · rintro q ((hq | ⟨rfl, hq⟩) | ⟨hq, hz⟩)
        · exact .inl hq
        · exact .inr ⟨by simp, hq⟩
        · exact .inr ⟨by simp [hq], hz⟩
      · rw [FitM.bind_ok e3]
        exact f3

/-! ### the signal -/

/-- The signal is not a background. -/
theorem signal_facts (hr : FitReady env f st0) {b : ℕ × List PyStr} (hs : f.signal = some b) :
    b.1 ∈ f.moving ∧ b.1 ∉ f.floatingRefs ∧ isBg f b.1 = false := by
  have hm : b.1 ∈ f.signal.toList.map Prod.fst := by rw [hs]; simp
  refine ⟨by simp only [Fit.moving, List.mem_append]; exact .inr hm, fun hf =>
    (List.nodup_append.1 (moving_nodup hr)).2.2 _ hf _ hm rfl, ?_⟩
  unfold isBg
  rw [hs]
  simp

theorem signalSpectrum_run (hr : FitReady env f st0) (h : Inv env f st0 D st)
    {b : ℕ × List PyStr} (hs : f.signal = some b) (hD : ¬ D b.1)
    (hv : Valued st0.params st.params f.globals) :
    ∃ st', st'.params = st.params ∧ Inv env f st0 D st' ∧
      match convFrom env f st0 b.1 st.params with
      | .ok w => ∃ c, signalSpectrum env f b.1 st = (st', .ok c) ∧ st'.view c = w
      | .error e => signalSpectrum env f b.1 st = (st', .error e) := by
  obtain ⟨hmv, hnf, hbg⟩ := signal_facts hr hs
  unfold signalSpectrum
  by_cases hg : f.globals = []
  · refine ⟨st, rfl, h, ?_⟩
    have : convFrom env f st0 b.1 st.params = .ok (st0.view b.1) := by
      unfold convFrom; rw [hg]; rfl
    rw [this]
    exact ⟨b.1, by rw [if_pos hg]; rfl, h.view_old (moving_lt hr hmv) (.inr hnf)⟩
  · rw [if_neg hg]
    obtain ⟨st1, e1, e2, e3⟩ := cached_run hr h hg hmv hv
    rw [hbg] at e3
    cases hc : convFrom env f st0 b.1 st.params with
    | error e =>
      rw [hc] at e3
      refine ⟨st1, e1, e2, ?_⟩
      rw [FitM.read_bind, FitM.read_bind]
      exact FitM.bind_error e3
    | ok t =>
      rw [hc] at e3
      obtain ⟨c, g1, g2⟩ := e3
      obtain ⟨hal, hnorm⟩ := convFold_alike hc (.refl _) (FitState.view_data_norm _ _)
      have ht0 : t.numDecays ≠ 0 := by rw [hal.numDecays]; exact hr.decays _ hmv
      have hsc : Scaling f st0 b.1 := fun h => by rw [hbg] at h; cases h
      have hax : ∀ {D st}, Inv env f st0 D st → Resc (Scaling f st0 b.1) t (st.view c) →
          OnDataAxes (st.view f.data) (st.view c) := by
        intro D st hi hre
        rw [hi.view_old hr.alloc.1 (.inr hr.apart.1)]
        exact onDataAxes_alike (hr.axes _ hmv) (hre.alike.1.trans hal.cfg)
          (hre.alike.2.trans hal.shape)
      have h1 := (Handle.made e2 g2).resc
      obtain ⟨st3, c1, c2, c3⟩ := shrinkToData_same (hax e2 h1)
      obtain ⟨inv3, han3⟩ := e2.scaled g2 c2 (by rw [c3]; exact h1)
        (by rw [c3]; exact (Handle.made e2 g2).alive)
      have h3 := (Handle.made inv3 han3).resc
      obtain ⟨st4, d1, d2, d3⟩ := rebin_same (hax inv3 h3)
      obtain ⟨inv4, han4⟩ := inv3.scaled han3 d2 (by rw [d3]; exact h3)
        (by rw [d3]; exact (Handle.made inv3 han3).alive)
      have h4 := (Handle.made inv4 han4).resc
      have h40 := (Handle.made inv4 han4).alive hD
      have hobj : (st.objs b.1).numDecays = t.numDecays := by
        rw [h.old _ (moving_lt hr hmv) (.inl hg), hal.numDecays]; rfl
      have hrun := scale_run t.numDecays (s := st4.view c) h40
      obtain ⟨st5, k1, k2, k3⟩ := call_frame (st := st4) (c := c)
        (f := fun s => s.scale t.numDecays) (by rw [hrun]; rfl) (by rw [hrun]; rfl)
      have h5 : st5.view c = t := by
        rw [k3, hrun]
        have : ((Outcome.ok { st4.view c with
            data := (st4.view c).data.smul (t.numDecays / (st4.view c).numDecays)
            numDecays := t.numDecays }).st).norm = (st4.view c).rescaled t.numDecays := rfl
        rw [this]
        rcases h4 with h4 | ⟨-, m, h4⟩
        · rw [h4, rescaled_self hnorm ht0]
        · rw [h4] at h40 ⊢
          rw [rescaled_rescaled (m := m) ht0 h40, rescaled_self hnorm ht0]
      obtain ⟨inv5, -⟩ := inv4.scaled han4 k2 (by rw [h5]; exact .inl rfl)
        (fun _ => by rw [h5]; exact ht0)
      refine ⟨st5, k2.params.trans (d2.params.trans (c2.params.trans e1)), inv5, c, ?_, h5⟩
      rw [FitM.read_bind, FitM.read_bind]
      refine (FitM.bind_ok g1).trans ?_
      rw [FitM.bind_ok c1, FitM.read_bind, FitM.bind_ok d1, hobj, FitM.bind_ok k1]
      rfl

/-- Adding the signal, computed anew. -/
def signalValue (env : FitEnv) (f : Fit) (st0 : FitState) (P : ℕ → Param)
    (expected : Option (NdArray ℚ)) : Except PyErr (Option (NdArray ℚ)) :=
  match f.signal with
  | none => .ok expected
  | some b =>
    match convFrom env f st0 b.1 P with
    | .error e => .error e
    | .ok s =>
      match s.ndProject b.2 with
      | .error e => .error e
      | .ok proj =>
        match expected with
        | none => .error .typeError
        | some e => (addProjection (some e) proj).map some

theorem addSignal_run (hr : FitReady env f st0) (h : Inv env f st0 D st)
    (hD : ∀ q, D q → q ∈ f.floatingRefs)
    (hv : Valued st0.params st.params f.globals) (e : Option (NdArray ℚ)) :
    ∃ st', st'.params = st.params ∧ Inv env f st0 D st' ∧
      addSignal env f e st = (st', signalValue env f st0 st.params e) := by
  unfold addSignal signalValue
  cases hs : f.signal with
  | none => exact ⟨st, rfl, h, rfl⟩
  | some b =>
    obtain ⟨st', e1, e2, e3⟩ := signalSpectrum_run hr h hs
      (fun hd => (signal_facts hr hs).2.1 (hD _ hd)) hv
    refine ⟨st', e1, e2, ?_⟩
    obtain ⟨r, pars⟩ := b
    simp only at e3 ⊢
    cases hc : convFrom env f st0 r st.params with
    | error e => rw [hc] at e3; rw [FitM.bind_error e3]
    | ok s =>
      rw [hc] at e3
      obtain ⟨c, g1, g2⟩ := e3
      rw [FitM.bind_ok g1, FitM.read_bind, g2, FitM.lift_bind]
      simp only
      cases hp : s.ndProject pars with
      | error _ => rfl
      | ok proj =>
        simp only
        cases e with
        | none => rfl
        | some e =>
          simp only
          cases ha : addProjection (some e) proj <;> rfl

/-! ### contents and result -/

/-- Contents of the fixed background. -/
def fixedValue (f : Fit) (st0 : FitState) : Except PyErr (Option (NdArray ℚ)) :=
  match f.fixed with
  | none => .ok none
  | some b => ((st0.view b.1).ndProject b.2).map some

/-- Observed and expected contents, computed anew. -/
def contentsValue (env : FitEnv) (f : Fit) (st0 : FitState) (P : ℕ → Param)
    (fl : List (ℕ × List PyStr)) : Except PyErr (NdArray ℚ × Option (NdArray ℚ)) := do
  let observed ← (st0.view f.data).ndProject f.dataPars
  let e ← fixedValue f st0
  let e ← fl.foldlM (roundValue env f st0 P) e
  let e ← signalValue env f st0 P e
  pure (observed, e)

theorem contents_run (hr : FitReady env f st0) (h : Inv env f st0 (fun _ => False) st)
    {fl : List (ℕ × List PyStr)} (hf : f.floating = some fl)
    (hv : Valued st0.params st.params f.pars) :
    ∃ st', st'.params = st.params ∧
      Inv env f st0 (fun q => q ∈ f.floatingRefs ∧ ZeroRate st0 st.params q) st' ∧
      contents env f fl st = (st', contentsValue env f st0 st.params fl) := by
  have hfl : f.floatingRefs = fl.map Prod.fst := by simp [Fit.floatingRefs, hf]
  have hvg : Valued st0.params st.params f.globals := fun p hp => hv p (hr.globals p hp).1
  have hvr : ∀ b ∈ fl, Valued st0.params st.params ((st0.objs b.1).fit.getD []) := by
    intro b hb p hp
    exact hv p (hr.rates b.1 (by rw [hfl]; exact List.mem_map_of_mem hb) p hp).1
  have hmono : ∀ {st'}, Inv env f st0 (fun _ => False) st' →
      Inv env f st0 (fun q => q ∈ f.floatingRefs ∧ ZeroRate st0 st.params q) st' :=
    fun hi => hi.mono fun q hq => hq.elim
  have hd := h.view_old hr.alloc.1 (.inr hr.apart.1)
  unfold contents contentsValue
  simp only [FitM.read_bind, FitM.lift_bind, hd]
  cases ho : (st0.view f.data).ndProject f.dataPars with
  | error e => exact ⟨st, rfl, hmono h, rfl⟩
  | ok observed =>
    simp only [okBind]
    have hfx : fixedContents f st = (st, fixedValue f st0) := by
      unfold fixedContents fixedValue
      cases hb : f.fixed with
      | none => rfl
      | some b =>
        obtain ⟨r, pars⟩ := b
        have hview := h.view_old (q := r) (hr.alloc.2.1 (r, pars) hb)
          (.inr (hr.apart.2 (r, pars) hb))
        simp only [FitM.read_bind, FitM.lift_bind, hview]
        cases hp : (st0.view r).ndProject pars <;> rfl
    cases hfv : fixedValue f st0 with
    | error e =>
      rw [hfv] at hfx
      refine ⟨st, rfl, hmono h, ?_⟩
      rw [FitM.bind_error hfx, errorBind]
    | ok e =>
      rw [hfv] at hfx
      obtain ⟨st1, a1, a2, a3⟩ := floatingLoop_run hr fl
        (fun b hb => by rw [hfl]; exact List.mem_map_of_mem hb)
        (by rw [← hfl]; exact (List.nodup_append.1 (moving_nodup hr)).1) h
        (fun _ _ hx => hx) hvg hvr e
      have inv1 : Inv env f st0 (fun q => q ∈ f.floatingRefs ∧ ZeroRate st0 st.params q) st1 := by
        refine a2.mono ?_
        rintro q (hq | hq)
        · exact hq.elim
        · rw [hfl]; exact hq
      cases hl : fl.foldlM (roundValue env f st0 st.params) e with
      | error er =>
        rw [hl] at a3
        refine ⟨st1, a1, inv1, ?_⟩
        rw [FitM.bind_ok hfx, FitM.bind_error a3, okBind, hl, errorBind]
      | ok e' =>
        rw [hl] at a3
        obtain ⟨st2, b1, b2, b3⟩ := addSignal_run hr inv1 (fun _ hq => hq.1) (by rw [a1]; exact hvg) e'
        rw [a1] at b1 b3
        refine ⟨st2, b1, b2, ?_⟩
        rw [FitM.bind_ok hfx, FitM.bind_ok a3, okBind, hl, okBind]
        cases hsv : signalValue env f st0 st.params e' with
        | error er => rw [hsv] at b3; rw [FitM.bind_error b3, errorBind]
        | ok e2 => rw [hsv] at b3; rw [FitM.bind_ok b3]; rfl

theorem contentsValue_congr (hr : FitReady env f st0) {fl : List (ℕ × List PyStr)}
    (hf : f.floating = some fl) {P Q : ℕ → Param} (h : ∀ p ∈ f.pars, P p = Q p) :
    contentsValue env f st0 P fl = contentsValue env f st0 Q fl := by
  have hg : f.globals.map P = f.globals.map Q :=
    List.map_congr_left fun p hp => h p (hr.globals p hp).1
  have hc : ∀ r, convFrom env f st0 r P = convFrom env f st0 r Q := by
    intro r; unfold convFrom; rw [hg]
  have hfl : f.floatingRefs = fl.map Prod.fst := by simp [Fit.floatingRefs, hf]
  have hround : ∀ b ∈ fl, ∀ e, roundValue env f st0 P e b = roundValue env f st0 Q e b := by
    intro b hb e
    unfold roundValue bgValue
    rw [hc, List.map_congr_left fun p hp =>
      h p (hr.rates b.1 (by rw [hfl]; exact List.mem_map_of_mem hb) p hp).1]
  have hloop : ∀ e, fl.foldlM (roundValue env f st0 P) e =
      fl.foldlM (roundValue env f st0 Q) e := by
    clear hfl hf
    induction fl with
    | nil => intro e; rfl
    | cons b l ih =>
      intro e
      rw [List.foldlM_cons, List.foldlM_cons, hround b (by simp) e]
      congr 1
      funext e'
      exact ih (fun x hx => hround x (by simp [hx])) e'
  have hsig : ∀ e, signalValue env f st0 P e = signalValue env f st0 Q e := by
    intro e
    unfold signalValue
    simp only [hc]
  unfold contentsValue
  simp only [hloop, hsig]

/-- What an evaluation gives when everything is computed anew. -/
noncomputable def functValue (env : FitEnv) (f : Fit) (st0 : FitState) (args : List ℚ)
    (fl : List (ℕ × List PyStr)) : Except PyErr ((StatValue × Option (List ℕ)) × ℝ) := do
  let c ← contentsValue env f st0 (withValues f.pars args st0.params) fl
  evaluate f (f.pars.map (withValues f.pars args st0.params)) (st0.view f.data).data.shape c

theorem withValues_mem {pars : List ℕ} {args : List ℚ} {P : ℕ → Param} (hn : pars.Nodup) {p : ℕ}
    {v : ℚ} (h : (p, v) ∈ pars.zip args) :
    withValues pars args P p = { P p with value := some v } := by
  induction pars generalizing args P with
  | nil => simp at h
  | cons a pars ih =>
    cases args with
    | nil => simp at h
    | cons w args =>
      rw [List.nodup_cons] at hn
      rw [List.zip_cons_cons] at h
      simp only [withValues]
      rcases List.mem_cons.1 h with h | h
      · cases h
        rw [withValues_not_mem hn.1, Function.update_self]
      · rw [ih hn.2 h]
        have hpa : p ≠ a := fun he => hn.1 (he ▸ (List.of_mem_zip h).1)
        rw [Function.update_of_ne hpa]

theorem withValues_valued {S P : ℕ → Param}
    (hS : ∀ q, { P q with value := none } = { S q with value := none }) {pars : List ℕ}
    {args : List ℚ} (hl : args.length = pars.length) (hn : pars.Nodup) :
    Valued S (withValues pars args P) pars ∧
      ∀ p ∈ pars, withValues pars args P p = withValues pars args S p := by
  have key : ∀ (pars : List ℕ) (args : List ℚ) (P S : ℕ → Param), args.length = pars.length →
      pars.Nodup → (∀ q, { P q with value := none } = { S q with value := none }) →
      ∀ p ∈ pars, ∃ v, withValues pars args P p = { S p with value := some v } ∧
        withValues pars args S p = { S p with value := some v } := by
    intro pars
    induction pars with
    | nil => intro _ _ _ _ _ _ p hp; cases hp
    | cons a pars ih =>
      intro args P S hl hn hS p hp
      cases args with
      | nil => simp at hl
      | cons v args =>
        rw [List.nodup_cons] at hn
        have hup : ∀ (R : ℕ → Param) q, { Function.update R a { R a with value := some v } q with
            value := none } = { R q with value := none } := by
          intro R q
          by_cases hq : q = a
          · subst hq; rw [Function.update_self]
          · rw [Function.update_of_ne hq]
        have hval : ∀ {x y : Param} (v : ℚ), { x with value := none } = { y with value := none } →
            ({ x with value := some v } : Param) = { y with value := some v } := by
          intro x y v hxy
          cases x; cases y
          simp only [Param.mk.injEq] at hxy ⊢
          exact ⟨hxy.1, hxy.2.1, hxy.2.2.1, hxy.2.2.2.1, hxy.2.2.2.2.1, trivial⟩
        simp only [withValues]
        rcases List.mem_cons.1 hp with rfl | hp
        · refine ⟨v, ?_, ?_⟩
          · rw [withValues_not_mem hn.1, Function.update_self]; exact hval v (hS p)
          · rw [withValues_not_mem hn.1, Function.update_self]
        · obtain ⟨w, h1, h2⟩ := ih args _ (Function.update S a { S a with value := some v })
            (by simpa using hl) hn.2 (fun q => (hup P q).trans ((hS q).trans (hup S q).symm)) p hp
          have hpa : p ≠ a := fun he => hn.1 (he ▸ hp)
          rw [Function.update_of_ne hpa] at h1 h2
          exact ⟨w, h1, h2⟩
  refine ⟨fun p hp => ?_, fun p hp => ?_⟩
  · obtain ⟨v, h1, -⟩ := key pars args P S hl hn hS p hp
    exact ⟨v, h1⟩
  · obtain ⟨v, h1, h2⟩ := key pars args P S hl hn hS p hp
    rw [h1, h2]

theorem funct_run (hr : FitReady env f st0) (h : Inv env f st0 (fun _ => False) st)
    {fl : List (ℕ × List PyStr)} (hf : f.floating = some fl) {args : List ℚ}
    (hl : FullArgs f args) :
    ∃ st', Inv env f st0 (fun q => q ∈ f.floatingRefs ∧
        ZeroRate st0 (withValues f.pars args st.params) q) st' ∧
      st'.params = withValues f.pars args st.params ∧
      funct env f args st = (st', functValue env f st0 args fl) := by
  obtain ⟨hval, hsame⟩ := withValues_valued h.params hl hr.pars
  have hset := setValues_ok f.pars args (le_of_eq hl) st
  generalize hst1 : ({ st with params := withValues f.pars args st.params } : FitState) = st1
  rw [hst1] at hset
  have hp1 : st1.params = withValues f.pars args st.params := by rw [← hst1]
  have inv1 : Inv env f st0 (fun _ => False) st1 := by
    rw [← hst1]
    exact h.setParams fun q => withValues_static f.pars args st.params q
  obtain ⟨st2, a1, a2, a3⟩ := contents_run hr inv1 hf (by rw [hp1]; exact hval)
  rw [hp1] at a1 a2 a3
  refine ⟨st2, a2, a1, ?_⟩
  rw [contentsValue_congr hr hf hsame] at a3
  unfold functValue
  rw [funct_some hf, FitM.bind_ok hset]
  cases hc : contentsValue env f st0 (withValues f.pars args st0.params) fl with
  | error e =>
    rw [hc] at a3
    rw [FitM.bind_error a3]
    rfl
  | ok c =>
    rw [hc] at a3
    have hps : f.pars.map st2.params = f.pars.map (withValues f.pars args st0.params) := by
      rw [a1]; exact List.map_congr_left hsame
    rw [FitM.bind_ok a3, FitM.read_bind, FitM.read_bind, hps,
      a2.view_old hr.alloc.1 (.inr hr.apart.1)]
    rfl

theorem evaluatedContents_value (hr : FitReady env f st0) (h : Inv env f st0 (fun _ => False) st)
    {fl : List (ℕ × List PyStr)} (hf : f.floating = some fl) {args : List ℚ}
    (hl : FullArgs f args) :
    evaluatedContents env f args st =
      contentsValue env f st0 (withValues f.pars args st0.params) fl := by
  unfold evaluatedContents
  rw [FitM.bind_ok (setValues_ok f.pars args (le_of_eq hl) st), hf]
  obtain ⟨hval, hsame⟩ := withValues_valued h.params hl hr.pars
  obtain ⟨s', -, -, e⟩ := contents_run hr (h.setParams (P := withValues f.pars args st.params)
    fun q => withValues_static f.pars args st.params q) hf hval
  rw [← contentsValue_congr hr hf hsame]
  exact congrArg Prod.snd e

end Verif
