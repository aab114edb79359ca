import Verif.Lemmas.FitPreMade

/-! Helper lemmas: an evaluation of a fit with pre-made spectra gives what loading all files anew
would give. -/

namespace Verif

open Spectrum

namespace PreM

theorem bind_ok {α β : Type} {m : PreM α} {f : α → PreM β} {ld ld' : Loads} {a : α}
    (h : m ld = (ld', .ok a)) : (m >>= f) ld = f a ld' := by
  show (match m ld with | (ld', .ok a) => f a ld' | (ld', .error e) => (ld', .error e)) = _
  rw [h]

theorem bind_error {α β : Type} {m : PreM α} {f : α → PreM β} {ld ld' : Loads} {e : PyErr}
    (h : m ld = (ld', .error e)) : (m >>= f) ld = (ld', .error e) := by
  show (match m ld with | (ld', .ok a) => f a ld' | (ld', .error e) => (ld', .error e)) = _
  rw [h]

theorem lift_bind {α β : Type} (x : Except PyErr α) (f : α → PreM β) (ld : Loads) :
    (lift x >>= f) ld = match x with
      | .ok a => f a ld
      | .error e => (ld, .error e) := by
  cases x <;> rfl

theorem get_bind {β : Type} {key : PyStr × PyStr} {ld : Loads} {x : Loaded} (h : ld key = some x)
    (f : Loaded → PreM β) : (get key >>= f) ld = f x ld := by
  refine bind_ok ?_
  unfold get
  rw [h]

theorem call_ok {key : PyStr × PyStr} {ld : Loads} {x : Loaded} (h : ld key = some x)
    {f : Spectrum → Outcome} (he : (f x.spectrum).err = none) :
    call key f ld =
      (Function.update ld key (some { x with spectrum := (f x.spectrum).st.norm }), .ok ()) := by
  unfold call
  rw [h]
  simp only [he]
  rfl

theorem call_error {key : PyStr × PyStr} {ld : Loads} {x : Loaded} (h : ld key = some x)
    {f : Spectrum → Outcome} {e : PyErr} (he : (f x.spectrum).err = some e) :
    call key f ld =
      (Function.update ld key (some { x with spectrum := (f x.spectrum).st.norm }), .error e) := by
  unfold call
  rw [h]
  simp only [he]
  rfl

end PreM

theorem applyRate_rate {key : PyStr × PyStr} {p : Param} {v : ℚ} (hv : p.value = some v)
    (hp : p.kind = .rate) : applyRate key p = PreM.call key (fun s => s.scale v) := by
  unfold applyRate
  rw [hv]
  exact if_pos hp

/-! ### rates -/

/-- The number of decays after applying rates one after the other. -/
def lastRate : ℚ → List Param → Except PyErr ℚ
  | m, [] => .ok m
  | m, p :: ps =>
    match p.value with
    | none => .error .valueError
    | some v => if m = 0 then .error .zeroDivision else lastRate v ps

theorem lastRate_any {m n : ℚ} (hm : m ≠ 0) (hn : n ≠ 0) {ps : List Param}
    (h : ps ≠ [] ∨ m = n) : lastRate m ps = lastRate n ps := by
  rcases h with h | h
  · cases ps with
    | nil => exact absurd rfl h
    | cons p ps =>
      unfold lastRate
      cases p.value with
      | none => rfl
      | some v =>
        dsimp only
        rw [if_neg hm, if_neg hn]
  · rw [h]

theorem scale_norm {s : Spectrum} (h : s.numDecays ≠ 0) (v : ℚ) :
    (s.scale v).err = none ∧ (s.scale v).st.norm = s.rescaled v := by
  unfold scale
  rw [if_neg h]
  exact ⟨rfl, rfl⟩

theorem rates_run {key : PyStr × PyStr} {X : Spectrum} (hX : X.numDecays ≠ 0) (ps : List Param)
    (hk : ∀ p ∈ ps, p.kind = .rate) (hv : ∀ p ∈ ps, p.value ≠ none) (m : ℚ) (ld : Loads)
    {x : Loaded} (h : ld key = some x) (hx : x.spectrum = X.rescaled m) :
    ∃ m', ps.forM (applyRate key) ld =
        (Function.update ld key (some { x with spectrum := X.rescaled m' }),
          (lastRate m ps).map fun _ => ()) ∧
      (∀ v, lastRate m ps = .ok v → m' = v) ∧ (ps = [] → m' = m) ∧
      (m ≠ 0 → (∀ p ∈ ps, p.value ≠ some 0) → m' ≠ 0) := by
  induction ps generalizing m ld x with
  | nil =>
    refine ⟨m, ?_, fun v hv => Except.ok.inj hv, fun _ => rfl, fun h _ => h⟩
    have : some { x with spectrum := X.rescaled m } = ld key := by rw [h, ← hx]
    rw [this, Function.update_eq_self]
    rfl
  | cons p ps ih =>
    have hp := hk p (by simp)
    obtain ⟨v, hpv⟩ := Option.ne_none_iff_exists'.1 (hv p (by simp))
    have hcons : (p :: ps).forM (applyRate key) ld =
        (applyRate key p >>= fun _ => ps.forM (applyRate key)) ld := rfl
    rw [hcons]
    unfold lastRate
    rw [hpv]
    dsimp only
    by_cases h0 : m = 0
    · rw [if_pos h0]
      refine ⟨m, ?_, (fun v hv => by cases hv), (fun h => by simp at h), fun h => absurd h0 h⟩
      refine PreM.bind_error ?_
      have hz : x.spectrum.scale v = .fail x.spectrum .zeroDivision := by
        unfold scale
        rw [hx, if_pos (show (X.rescaled m).numDecays = 0 from h0)]
      rw [applyRate_rate hpv hp, PreM.call_error h (e := .zeroDivision) (by rw [hz]; rfl), hz]
      have : (Outcome.fail x.spectrum .zeroDivision).st.norm = X.rescaled m := by
        rw [hx]
        simp only [Outcome.fail, Spectrum.norm, Spectrum.rescaled, NdArray.norm_norm]
      rw [this]
    · rw [if_neg h0]
      have hx0 : x.spectrum.numDecays ≠ 0 := by rw [hx]; exact h0
      obtain ⟨s1, s2⟩ := scale_norm hx0 v
      have hstep : applyRate key p ld =
          (Function.update ld key (some { x with spectrum := X.rescaled v }), .ok ()) := by
        rw [applyRate_rate hpv hp, PreM.call_ok h s1, s2, hx, rescaled_rescaled hX h0]
      obtain ⟨m', a1, a2, a3, a4⟩ := ih (fun q hq => hk q (by simp [hq]))
        (fun q hq => hv q (by simp [hq])) v _
        (x := { x with spectrum := X.rescaled v }) (Function.update_self ..) rfl
      refine ⟨m', ?_, a2, (fun h => by simp at h), fun _ hz => a4 ?_ fun q hq => hz q (by simp [hq])⟩
      · rw [PreM.bind_ok hstep, a1, Function.update_idem]
      · intro hv0
        exact hz p (by simp) (by rw [hpv, hv0])

/-! ### cutting -/

/-- The spectrum cut to the data. -/
def cutV (d s : Spectrum) : Except PyErr Spectrum := do
  let kw ← dataKw s.pars d.cfg
  match (s.shrink kw).err with
  | some e => .error e
  | none =>
    match ((s.shrink kw).st.norm.rebin d.data.shape).err with
    | some e => .error e
    | none => .ok ((s.shrink kw).st.norm.rebin d.data.shape).st.norm

theorem Cuts.value {d s t : Spectrum} (h : Cuts d s t) : cutV d s = .ok t := by
  obtain ⟨kw, h1, h2, -, h4, rfl⟩ := h
  unfold cutV
  rw [h1, okBind, h2]
  dsimp only
  rw [h4]

theorem cutToData_run {d t : Spectrum} {key : PyStr × PyStr} {ld : Loads} {x : Loaded}
    (h : ld key = some x) (hc : Cuts d x.spectrum t) :
    cutToData d key ld = (Function.update ld key (some { x with spectrum := t }), .ok ()) := by
  obtain ⟨kw, h1, h2, -, h4, rfl⟩ := hc
  unfold cutToData
  rw [PreM.get_bind h, h1, PreM.lift_bind]
  dsimp only
  rw [PreM.bind_ok (PreM.call_ok h h2)]
  rw [PreM.call_ok (x := { x with spectrum := (x.spectrum.shrink kw).st.norm })
    (Function.update_self ..) h4, Function.update_idem]

/-! ### loading -/

variable {env : FitEnv} {pm : PreMade} {f : Fit} {st0 : FitState} {D D' : ℕ → Prop} {ld : Loads}

/-- The pre-made spectrum, computed anew. -/
def loadV (env : FitEnv) (pm : PreMade) (f : Fit) (st0 : FitState) (r : ℕ) (P : ℕ → Param) :
    Except PyErr Spectrum :=
  (loadPreMade env.str pm r (st0.objs r).numDecays (f.globals.map P)).map Spectrum.norm

theorem shrink_decays (s : Spectrum) (m : ℚ) (kw : List (PyStr × ℚ)) :
    Spectrum.shrink { s with numDecays := m } kw =
      ⟨{ (s.shrink kw).st with numDecays := m }, (s.shrink kw).err⟩ := by
  unfold Spectrum.shrink
  rw [shrinkCheck_congr (s := s) (t := { s with numDecays := m }) rfl]
  cases kw.forM (shrinkCheck s) with
  | error e => rfl
  | ok u =>
    dsimp only
    cases (shrinkLoop kw s.cfg).2.2 <;> rfl

theorem rebin_decays (s : Spectrum) (m : ℚ) (ns : List ℕ) :
    Spectrum.rebin { s with numDecays := m } ns =
      ⟨{ (s.rebin ns).st with numDecays := m }, (s.rebin ns).err⟩ := by
  unfold Spectrum.rebin
  by_cases h : ns.length ≠ s.cfg.length
  · rw [if_pos h, if_pos h]; rfl
  · rw [if_neg h, if_neg h]
    dsimp only
    cases (rebinLoop s.cfg ns).2 with
    | some e => rfl
    | none =>
      dsimp only
      cases rebinData s.data ns <;> rfl

theorem Cuts.decays {d s t : Spectrum} (h : Cuts d s t) (m : ℚ) :
    Cuts d { s with numDecays := m } { t with numDecays := m } := by
  obtain ⟨kw, h1, h2, h3, h4, rfl⟩ := h
  refine ⟨kw, h1, ?_, ?_, ?_, ?_⟩
  · rw [shrink_decays]; exact h2
  · rw [shrink_decays]; exact ⟨h3.axes, h3.names, h3.shape⟩
  · rw [shrink_decays]
    exact (congrArg Outcome.err (rebin_decays (s.shrink kw).st.norm m d.data.shape)).trans h4
  · rw [shrink_decays s m]
    exact (congrArg (fun o : Outcome => o.st.norm)
      (rebin_decays (s.shrink kw).st.norm m d.data.shape)).symm

/-- What is known of a loaded spectrum. -/
structure LoadFacts (pm : PreMade) (f : Fit) (st0 : FitState) (r : ℕ) (s : Spectrum) : Prop where
  wf : s.WF
  norm : s.data.norm = s.data
  numDecays : s.numDecays = (st0.objs r).numDecays

theorem loadPreMade_of {str : ℚ → PyStr} {r : ℕ} {n : ℚ} {ps : List Param} {file : PyStr}
    {F : Spectrum} (h1 : preMadeFile str pm r ps = .ok file) (h2 : pm.files file = .ok F) :
    loadPreMade str pm r n ps =
      if pm.decays r F = 0 then .error .zeroDivision
      else .ok (Spectrum.scale { F with numDecays := pm.decays r F } n).st := by
  have key : ∀ G : Spectrum, (match (G.scale n).err with
      | some e => Except.error e
      | none => .ok (G.scale n).st) =
      if G.numDecays = 0 then .error .zeroDivision else .ok (G.scale n).st := by
    intro G
    unfold scale
    by_cases h : G.numDecays = 0
    · rw [if_pos h, if_pos h]; rfl
    · rw [if_neg h, if_neg h]; rfl
  unfold loadPreMade PreMade.decays
  rw [h1, okBind, h2, okBind]
  cases pm.origDecays r with
  | none => exact key F
  | some m =>
    dsimp only
    by_cases hm : m = 0
    · simp only [if_pos hm]
      exact key F
    · simp only [if_neg hm]
      refine (key _).trans ?_
      rw [if_neg (show ({ F with numDecays := m } : Spectrum).numDecays ≠ 0 from hm)]

theorem loadV_file {r : ℕ} {P : ℕ → Param} {file : PyStr} {F : Spectrum}
    (h1 : preMadeFile env.str pm r (f.globals.map P) = .ok file) (h2 : pm.files file = .ok F)
    (h3 : pm.decays r F ≠ 0) :
    loadV env pm f st0 r P =
      .ok (Spectrum.rescaled { F with numDecays := pm.decays r F } (st0.objs r).numDecays) := by
  unfold loadV
  rw [loadPreMade_of h1 h2, if_neg h3]
  exact congrArg Except.ok
    (scale_norm (s := { F with numDecays := pm.decays r F }) h3 _).2

theorem loadV_ok {r : ℕ} {P : ℕ → Param} {s : Spectrum} (h : loadV env pm f st0 r P = .ok s) :
    ∃ file F, preMadeFile env.str pm r (f.globals.map P) = .ok file ∧ pm.files file = .ok F ∧
      pm.decays r F ≠ 0 ∧
      s = Spectrum.rescaled { F with numDecays := pm.decays r F } (st0.objs r).numDecays := by
  cases h1 : preMadeFile env.str pm r (f.globals.map P) with
  | error e => unfold loadV loadPreMade at h; rw [h1] at h; cases h
  | ok file =>
    cases h2 : pm.files file with
    | error e => unfold loadV loadPreMade at h; rw [h1, okBind, h2] at h; cases h
    | ok F =>
      by_cases h3 : pm.decays r F = 0
      · unfold loadV at h
        rw [loadPreMade_of h1 h2, if_pos h3] at h
        cases h
      · rw [loadV_file h1 h2 h3] at h
        exact ⟨file, F, rfl, h2, h3, (Except.ok.inj h).symm⟩

theorem loadV_facts (hr : PreMadeReady env pm f st0) {r : ℕ} {P : ℕ → Param} {s : Spectrum}
    (h : loadV env pm f st0 r P = .ok s) :
    LoadFacts pm f st0 r s ∧
      ∃ t, Cuts (st0.view f.data) s t ∧ OnDataAxes (st0.view f.data) t := by
  obtain ⟨file, F, -, h2, h3, rfl⟩ := loadV_ok h
  have hF := hr.files file F h2
  obtain ⟨t, ht1, ht2⟩ := hF.cut
  have hw : ({ F with numDecays := pm.decays r F } : Spectrum).WF :=
    ⟨hF.wf.axes, hF.wf.names, hF.wf.shape⟩
  refine ⟨⟨rescaled_wf hw _, NdArray.norm_norm _, rfl⟩, _,
    ((cuts_of ht1 hF.dims ht2).decays _).rescaled hw h3 _, ?_⟩
  exact onDataAxes_alike ht2 rfl rfl

/-! ### the invariant -/

/-- What a loaded spectrum is. `D` are the spectra that may have been scaled to zero. -/
structure PreEntry (env : FitEnv) (pm : PreMade) (f : Fit) (st0 : FitState) (D : ℕ → Prop)
    (key : PyStr × PyStr) (x : Loaded) (r : ℕ) (P : ℕ → Param) (s t : Spectrum) (m : ℚ) : Prop where
  mem : r ∈ f.moving
  key : key = ((st0.objs r).background, curVal env.str (f.globals.map P))
  vals : Valued st0.params P f.globals
  fit : x.fit = (st0.objs r).fit
  load : loadV env pm f st0 r P = .ok s
  cut : Cuts (st0.view f.data) s t
  axes : OnDataAxes (st0.view f.data) t
  made : x.spectrum = s.rescaled m ∨ x.spectrum = t.rescaled m
  alive : ¬ D r → m ≠ 0
  scaling : r ∈ f.floatingRefs → (st0.objs r).fit.getD [] = [] → m = (st0.objs r).numDecays

/-- The invariant. -/
def PreInv (env : FitEnv) (pm : PreMade) (f : Fit) (st0 : FitState) (D : ℕ → Prop)
    (ld : Loads) : Prop :=
  ∀ key x, ld key = some x → ∃ r P s t m, PreEntry env pm f st0 D key x r P s t m

theorem PreEntry.mono {key : PyStr × PyStr} {x : Loaded} {r : ℕ} {P : ℕ → Param} {s t : Spectrum}
    {m : ℚ} (h : PreEntry env pm f st0 D key x r P s t m) (hD : ∀ q, D q → D' q) :
    PreEntry env pm f st0 D' key x r P s t m :=
  { h with alive := fun hn => h.alive fun hd => hn (hD r hd) }

theorem PreInv.mono (h : PreInv env pm f st0 D ld) (hD : ∀ q, D q → D' q) :
    PreInv env pm f st0 D' ld := by
  intro key x hx
  obtain ⟨r, P, s, t, m, hE⟩ := h key x hx
  exact ⟨r, P, s, t, m, hE.mono hD⟩

theorem PreInv.put (h : PreInv env pm f st0 D ld) {key : PyStr × PyStr} {x : Loaded} {r : ℕ}
    {P : ℕ → Param} {s t : Spectrum} {m : ℚ} (hE : PreEntry env pm f st0 D key x r P s t m) :
    PreInv env pm f st0 D (Function.update ld key (some x)) := by
  intro key' x' hx
  by_cases hk : key' = key
  · subst hk
    rw [Function.update_self, Option.some.injEq] at hx
    subst hx
    exact ⟨r, P, s, t, m, hE⟩
  · rw [Function.update_of_ne hk] at hx
    exact h key' x' hx

theorem preInv_start : PreInv env pm f st0 D (fun _ => none) := fun _ _ h => by cases h

theorem pre_ref_inj (hr : PreMadeReady env pm f st0) {r r' : ℕ} (h : r ∈ f.moving)
    (h' : r' ∈ f.moving) (he : (st0.objs r).background = (st0.objs r').background) : r = r' :=
  List.inj_on_of_nodup_map hr.backgrounds h h' he

theorem loadV_congr {r : ℕ} {P Q : ℕ → Param} (h : f.globals.map P = f.globals.map Q) :
    loadV env pm f st0 r P = loadV env pm f st0 r Q := by
  unfold loadV
  rw [h]

theorem preMadeFor_run (hr : PreMadeReady env pm f st0) (h : PreInv env pm f st0 D ld) {r : ℕ}
    (hm : r ∈ f.moving) {P : ℕ → Param} (hv : Valued st0.params P f.globals) :
    ∃ ld', PreInv env pm f st0 D ld' ∧
      match loadV env pm f st0 r P with
      | .ok s => ∃ key x t m, preMadeFor env pm f { st0 with params := P } r ld = (ld', .ok key) ∧
          ld' key = some x ∧ PreEntry env pm f st0 D key x r P s t m
      | .error e => preMadeFor env pm f { st0 with params := P } r ld = (ld', .error e) := by
  unfold preMadeFor
  dsimp only
  cases hl : ld ((st0.objs r).background, curVal env.str (f.globals.map P)) with
  | some x =>
    obtain ⟨r', P', s, t, m, hE⟩ := h _ x hl
    have hk := hE.key
    rw [Prod.mk.injEq] at hk
    have hrr := pre_ref_inj hr hm hE.mem hk.1
    subst hrr
    have hP := key_inj hr.str.1 hr.str.2 f.globals hv hE.vals hk.2
    refine ⟨ld, h, ?_⟩
    rw [loadV_congr hP, hE.load]
    refine ⟨_, x, t, m, rfl, hl, { hE with key := ?_, vals := hv, load := ?_ }⟩
    · rfl
    · rw [loadV_congr hP]; exact hE.load
  | none =>
    dsimp only
    cases hs : loadPreMade env.str pm r (st0.objs r).numDecays (f.globals.map P) with
    | error e =>
      refine ⟨ld, h, ?_⟩
      unfold loadV
      rw [hs]
      rfl
    | ok s =>
      have hload : loadV env pm f st0 r P = .ok s.norm := by unfold loadV; rw [hs]; rfl
      obtain ⟨hf, t, ht1, ht2⟩ := loadV_facts hr hload
      have hN : s.norm.numDecays ≠ 0 := by rw [hf.numDecays]; exact hr.decays r hm
      have hE : PreEntry env pm f st0 D
          ((st0.objs r).background, curVal env.str (f.globals.map P))
          ⟨s.norm, (st0.objs r).fit⟩ r P s.norm t (st0.objs r).numDecays :=
        { mem := hm, key := rfl, vals := hv, fit := rfl, load := hload, cut := ht1, axes := ht2
          made := .inl (by rw [← hf.numDecays, rescaled_self hf.norm hN])
          alive := fun _ => hr.decays r hm
          scaling := fun _ _ => rfl }
      rw [hload]
      exact ⟨_, h.put hE, _, _, t, _, rfl, Function.update_self .., hE⟩

/-! ### the loop over the backgrounds -/

/-- One round, computed anew. -/
def preRoundV (env : FitEnv) (pm : PreMade) (f : Fit) (st0 : FitState) (P : ℕ → Param)
    (expected : Option (NdArray ℚ)) (b : ℕ × List PyStr) :
    Except PyErr (Option (NdArray ℚ)) := do
  let s ← loadV env pm f st0 b.1 P
  let t ← cutV (st0.view f.data) s
  let m ← lastRate (st0.objs b.1).numDecays (((st0.objs b.1).fit.getD []).map P)
  let proj ← (t.rescaled m).ndProject b.2
  let e ← addProjection expected proj
  pure (some e)

theorem preMadeRound_run (hr : PreMadeReady env pm f st0) (h : PreInv env pm f st0 D ld)
    {b : ℕ × List PyStr} (hm : b.1 ∈ f.floatingRefs) (hD : ¬ D b.1) {P : ℕ → Param}
    (hv : Valued st0.params P f.globals)
    (hvr : Valued st0.params P ((st0.objs b.1).fit.getD [])) (e : Option (NdArray ℚ)) :
    ∃ ld', PreInv env pm f st0 (fun q => D q ∨ (q = b.1 ∧ ZeroRate st0 P b.1)) ld' ∧
      preMadeRound env pm f { st0 with params := P } e b ld =
        (ld', preRoundV env pm f st0 P e b) := by
  have hmv : b.1 ∈ f.moving := by simp [Fit.moving, hm]
  obtain ⟨ld1, i1, e1⟩ := preMadeFor_run hr h hmv hv
  unfold preMadeRound preRoundV
  cases hl : loadV env pm f st0 b.1 P with
  | error er =>
    rw [hl] at e1
    refine ⟨ld1, i1.mono fun q hq => .inl hq, ?_⟩
    rw [PreM.bind_error e1]
    rfl
  | ok s =>
    rw [hl] at e1
    obtain ⟨key, x, t, m, g1, g2, hE⟩ := e1
    obtain ⟨hf, -⟩ := loadV_facts hr hl
    have hN : (st0.objs b.1).numDecays ≠ 0 := hr.decays _ hmv
    have hs0 : s.numDecays ≠ 0 := by rw [hf.numDecays]; exact hN
    have ht0 : t.numDecays ≠ 0 := by rw [hE.cut.numDecays]; exact hs0
    have hm0 : m ≠ 0 := hE.alive hD
    rw [okBind, hE.cut.value, okBind]
    have hps : ∀ p ∈ ((st0.objs b.1).fit.getD []).map P, p.kind = .rate ∧ p.value ≠ none := by
      intro p hp
      obtain ⟨q, hq, rfl⟩ := List.mem_map.1 hp
      obtain ⟨v, hv⟩ := hvr q hq
      rw [hv]
      exact ⟨(hr.rates b.1 hm q hq).2, fun h => by cases h⟩
    -- the rates
    obtain ⟨X, hX, hXc⟩ : ∃ X, x.spectrum = X.rescaled m ∧ X.numDecays ≠ 0 ∧
        (X = s ∨ X = t) := by
      rcases hE.made with h | h
      · exact ⟨s, h, hs0, .inl rfl⟩
      · exact ⟨t, h, ht0, .inr rfl⟩
    obtain ⟨m', a1, a2, a3, a4⟩ := rates_run (key := key) hXc.1
      (((st0.objs b.1).fit.getD []).map P) (fun p hp => (hps p hp).1) (fun p hp => (hps p hp).2)
      m ld1 g2 hX
    have hlast : lastRate m (((st0.objs b.1).fit.getD []).map P) =
        lastRate (st0.objs b.1).numDecays (((st0.objs b.1).fit.getD []).map P) := by
      refine lastRate_any hm0 hN ?_
      by_cases hne : (st0.objs b.1).fit.getD [] = []
      · exact .inr (hE.scaling hm hne)
      · exact .inl (by simpa using hne)
    rw [hlast] at a1 a2
    have halive : ¬ (D b.1 ∨ (b.1 = b.1 ∧ ZeroRate st0 P b.1)) → m' ≠ 0 := by
      intro hn
      refine a4 hm0 fun p hp hz => hn (.inr ⟨rfl, ?_⟩)
      obtain ⟨q, hq, rfl⟩ := List.mem_map.1 hp
      exact ⟨q, hq, hz⟩
    have hscal : b.1 ∈ f.floatingRefs → (st0.objs b.1).fit.getD [] = [] →
        m' = (st0.objs b.1).numDecays := by
      intro _ hne
      rw [a3 (by rw [hne]; rfl)]
      exact hE.scaling hm hne
    have hE1 : PreEntry env pm f st0 (fun q => D q ∨ (q = b.1 ∧ ZeroRate st0 P b.1)) key
        { x with spectrum := X.rescaled m' } b.1 P s t m' :=
      { mem := hmv, key := hE.key, vals := hv, fit := hE.fit, load := hl, cut := hE.cut
        axes := hE.axes
        made := hXc.2.imp (fun h => by rw [h]) (fun h => by rw [h])
        alive := halive, scaling := hscal }
    have i2 := (i1.mono (D' := fun q => D q ∨ (q = b.1 ∧ ZeroRate st0 P b.1))
      fun q hq => .inl hq).put hE1
    have hx : (x.fit.getD []).map P = ((st0.objs b.1).fit.getD []).map P := by rw [hE.fit]
    cases hlr : lastRate (st0.objs b.1).numDecays (((st0.objs b.1).fit.getD []).map P) with
    | error er =>
      rw [hlr] at a1
      refine ⟨_, i2, ?_⟩
      rw [PreM.bind_ok g1, PreM.get_bind g2]
      dsimp only
      rw [hx, PreM.bind_error a1]
      rfl
    | ok v =>
      rw [hlr] at a1
      have hmv' : m' = v := a2 v hlr
      subst hmv'
      -- cutting
      have hcut : Cuts (st0.view f.data) (X.rescaled m') (t.rescaled m') := by
        rcases hXc.2 with rfl | rfl
        · exact hE.cut.rescaled hf.wf hs0 m'
        · exact cuts_self (onDataAxes_alike hE.axes rfl rfl) (NdArray.norm_norm _)
      have hcr := cutToData_run (x := { x with spectrum := X.rescaled m' })
        (Function.update_self key (some { x with spectrum := X.rescaled m' }) ld1) hcut
      rw [Function.update_idem] at hcr
      have hE2 : PreEntry env pm f st0 (fun q => D q ∨ (q = b.1 ∧ ZeroRate st0 P b.1)) key
          { x with spectrum := t.rescaled m' } b.1 P s t m' := { hE1 with made := .inr rfl }
      have i3 := i2.put hE2
      rw [Function.update_idem] at i3
      refine ⟨_, i3, ?_⟩
      rw [PreM.bind_ok g1, PreM.get_bind g2]
      dsimp only
      rw [hx, PreM.bind_ok a1]
      refine (PreM.bind_ok hcr).trans ?_
      rw [PreM.get_bind (Function.update_self ..), PreM.lift_bind, okBind]
      dsimp only
      cases hp : (t.rescaled m').ndProject b.2 with
      | error _ => rfl
      | ok p =>
        rw [okBind]
        dsimp only
        cases ha : addProjection e p <;> rfl

theorem preMadeLoop_run (hr : PreMadeReady env pm f st0) (l : List (ℕ × List PyStr))
    (hl : ∀ b ∈ l, b.1 ∈ f.floatingRefs) (hn : (l.map Prod.fst).Nodup)
    (h : PreInv env pm f st0 D ld) (hD : ∀ b ∈ l, ¬ D b.1) {P : ℕ → Param}
    (hv : Valued st0.params P f.globals)
    (hvr : ∀ b ∈ l, Valued st0.params P ((st0.objs b.1).fit.getD []))
    (e : Option (NdArray ℚ)) :
    ∃ ld', PreInv env pm f st0 (fun q => D q ∨ (q ∈ l.map Prod.fst ∧ ZeroRate st0 P q)) ld' ∧
      l.foldlM (preMadeRound env pm f { st0 with params := P }) e ld =
        (ld', l.foldlM (preRoundV env pm f st0 P) e) := by
  induction l generalizing ld D e with
  | nil => exact ⟨ld, h.mono fun q hq => .inl hq, rfl⟩
  | cons b l ih =>
    rw [List.map_cons, List.nodup_cons] at hn
    obtain ⟨ld1, e2, e3⟩ := preMadeRound_run hr h (hl b (by simp)) (hD b (by simp)) hv
      (hvr b (by simp)) e
    rw [List.foldlM_cons, List.foldlM_cons]
    cases hrv : preRoundV env pm f st0 P e b with
    | error er =>
      rw [hrv] at e3
      refine ⟨ld1, e2.mono ?_, ?_⟩
      · rintro q (hq | ⟨rfl, hq⟩)
        · exact .inl hq
        · exact .inr ⟨by simp, hq⟩
      · rw [PreM.bind_error e3]; rfl
    | ok e' =>
      rw [hrv] at e3
      have hne : ∀ x ∈ l, x.1 ≠ b.1 := fun x hx he => hn.1 (he ▸ List.mem_map_of_mem hx)
      obtain ⟨ld', f2, f3⟩ := ih (ld := ld1)
        (D := fun q => D q ∨ (q = b.1 ∧ ZeroRate st0 P b.1))
        (fun x hx => hl x (by simp [hx])) hn.2 e2
        (fun x hx hd => hd.elim (hD x (by simp [hx])) fun hd => hne x hx hd.1)
        (fun x hx => hvr x (by simp [hx])) e'
      refine ⟨ld', f2.mono ?_, ?_⟩
      · rintro q ((hq | ⟨rfl, hq⟩) | ⟨hq, hz⟩)
        · exact .inl hq
        · exact .inr ⟨by simp, hq⟩
        · exact .inr ⟨by simp [hq], hz⟩
      · rw [PreM.bind_ok e3]
        exact f3

/-! ### the signal -/

/-- Adding the signal, computed anew. -/
def preSignalV (env : FitEnv) (pm : PreMade) (f : Fit) (st0 : FitState) (P : ℕ → Param)
    (expected : Option (NdArray ℚ)) : Except PyErr (Option (NdArray ℚ)) :=
  match f.signal with
  | none => .ok expected
  | some b => do
    let s ← loadV env pm f st0 b.1 P
    let t ← cutV (st0.view f.data) s
    let proj ← t.ndProject b.2
    match expected with
    | none => .error .typeError
    | some e => (addProjection (some e) proj).map some

theorem preMadeSignal_run (hr : PreMadeReady env pm f st0) (h : PreInv env pm f st0 D ld)
    (hD : ∀ q, D q → q ∈ f.floatingRefs) {P : ℕ → Param}
    (hv : Valued st0.params P f.globals) (e : Option (NdArray ℚ)) :
    ∃ ld', PreInv env pm f st0 D ld' ∧
      preMadeSignal env pm f { st0 with params := P } e ld =
        (ld', preSignalV env pm f st0 P e) := by
  unfold preMadeSignal preSignalV
  cases hs : f.signal with
  | none => exact ⟨ld, h, rfl⟩
  | some b =>
    obtain ⟨r, pars⟩ := b
    have hm : r ∈ f.signal.toList.map Prod.fst := by rw [hs]; simp
    have hmv : r ∈ f.moving := by simp only [Fit.moving, List.mem_append]; exact .inr hm
    have hnf : r ∉ f.floatingRefs := fun hf =>
      (List.nodup_append.1 (List.Nodup.of_map _ hr.backgrounds)).2.2 _ hf _ hm rfl
    obtain ⟨ld1, i1, e1⟩ := preMadeFor_run hr h hmv hv
    dsimp only
    cases hl : loadV env pm f st0 r P with
    | error er =>
      rw [hl] at e1
      refine ⟨ld1, i1, ?_⟩
      rw [PreM.bind_error e1]
      rfl
    | ok s =>
      rw [hl] at e1
      obtain ⟨key, x, t, m, g1, g2, hE⟩ := e1
      obtain ⟨hf, -⟩ := loadV_facts hr hl
      have hN : (st0.objs r).numDecays ≠ 0 := hr.decays _ hmv
      have hs0 : s.numDecays ≠ 0 := by rw [hf.numDecays]; exact hN
      have ht0 : t.numDecays ≠ 0 := by rw [hE.cut.numDecays]; exact hs0
      have hm0 : m ≠ 0 := hE.alive fun hd => hnf (hD _ hd)
      rw [okBind, hE.cut.value, okBind]
      have hcut : Cuts (st0.view f.data) x.spectrum (t.rescaled m) := by
        rcases hE.made with h | h
        · rw [h]; exact hE.cut.rescaled hf.wf hs0 m
        · rw [h]; exact cuts_self (onDataAxes_alike hE.axes rfl rfl) (NdArray.norm_norm _)
      have hcr := cutToData_run g2 hcut
      obtain ⟨s1, s2⟩ := scale_norm (s := t.rescaled m) hm0 (st0.objs r).numDecays
      have hsc := PreM.call_ok (key := key) (f := fun s => s.scale (st0.objs r).numDecays)
        (Function.update_self key (some { x with spectrum := t.rescaled m }) ld1) s1
      have hfin : ((t.rescaled m).scale (st0.objs r).numDecays).st.norm = t := by
        rw [s2, rescaled_rescaled ht0 hm0, ← hf.numDecays, ← hE.cut.numDecays,
          rescaled_self hE.cut.norm ht0]
      rw [Function.update_idem] at hsc
      dsimp only at hsc
      rw [hfin] at hsc
      have hE2 : PreEntry env pm f st0 D key { x with spectrum := t } r P s t
          (st0.objs r).numDecays :=
        { hE with
          made := .inr (by rw [← hf.numDecays, ← hE.cut.numDecays, rescaled_self hE.cut.norm ht0])
          alive := fun _ => hN
          scaling := fun h => absurd h hnf }
      refine ⟨_, i1.put hE2, ?_⟩
      rw [PreM.bind_ok g1]
      refine (PreM.bind_ok hcr).trans ?_
      rw [PreM.bind_ok hsc, PreM.get_bind (Function.update_self ..), PreM.lift_bind]
      dsimp only
      cases hp : t.ndProject pars with
      | error _ => rfl
      | ok proj =>
        rw [okBind]
        dsimp only
        cases e with
        | none => rfl
        | some e =>
          dsimp only
          rw [PreM.lift_bind]
          cases ha : addProjection (some e) proj <;> rfl

/-! ### contents and result -/

/-- Observed and expected contents, computed anew. -/
def preContentsV (env : FitEnv) (pm : PreMade) (f : Fit) (st0 : FitState) (P : ℕ → Param)
    (fl : List (ℕ × List PyStr)) : Except PyErr (NdArray ℚ × Option (NdArray ℚ)) := do
  let observed ← (st0.view f.data).ndProject f.dataPars
  let e ← fixedValue f st0
  let e ← fl.foldlM (preRoundV env pm f st0 P) e
  let e ← preSignalV env pm f st0 P e
  pure (observed, e)

theorem preMadeContents_run (hr : PreMadeReady env pm f st0)
    (h : PreInv env pm f st0 (fun _ => False) ld)
    {fl : List (ℕ × List PyStr)} (hf : f.floating = some fl) {P : ℕ → Param}
    (hv : Valued st0.params P f.pars) :
    ∃ ld', PreInv env pm f st0 (fun q => q ∈ f.floatingRefs ∧ ZeroRate st0 P q) ld' ∧
      preMadeContents env pm f { st0 with params := P } fl ld =
        (ld', preContentsV env pm f st0 P fl) := by
  have hfl : f.floatingRefs = fl.map Prod.fst := by simp [Fit.floatingRefs, hf]
  have hvg : Valued st0.params P f.globals := fun p hp => hv p (hr.globals p hp)
  have hvr : ∀ b ∈ fl, Valued st0.params P ((st0.objs b.1).fit.getD []) := by
    intro b hb p hp
    exact hv p (hr.rates b.1 (by rw [hfl]; exact List.mem_map_of_mem hb) p hp).1
  have hmono : ∀ {ld'}, PreInv env pm f st0 (fun _ => False) ld' →
      PreInv env pm f st0 (fun q => q ∈ f.floatingRefs ∧ ZeroRate st0 P q) ld' :=
    fun hi => hi.mono fun q hq => hq.elim
  have hview : ∀ q, FitState.view { st0 with params := P } q = st0.view q := fun q => rfl
  unfold preMadeContents preContentsV
  rw [hview, PreM.lift_bind]
  cases ho : (st0.view f.data).ndProject f.dataPars with
  | error e => exact ⟨ld, hmono h, rfl⟩
  | ok observed =>
    rw [okBind]
    dsimp only
    have hfx : (fixedContents f { st0 with params := P }).2 = fixedValue f st0 := by
      unfold fixedContents fixedValue
      cases hb : f.fixed with
      | none => rfl
      | some b =>
        obtain ⟨r, pars⟩ := b
        dsimp only
        rw [FitM.read_bind, FitM.lift_bind, hview]
        cases hp : (st0.view r).ndProject pars <;> rfl
    rw [hfx, PreM.lift_bind]
    cases hfv : fixedValue f st0 with
    | error e => exact ⟨ld, hmono h, rfl⟩
    | ok e0 =>
      rw [okBind]
      dsimp only
      have hnd : (fl.map Prod.fst).Nodup := by
        have := (List.nodup_append.1 (List.Nodup.of_map _ hr.backgrounds)).1
        rw [hfl] at this
        exact this
      obtain ⟨ld1, i1, l1⟩ := preMadeLoop_run hr fl
        (fun b hb => by rw [hfl]; exact List.mem_map_of_mem hb) hnd h (fun _ _ => id) hvg hvr e0
      have hmono1 : PreInv env pm f st0 (fun q => q ∈ f.floatingRefs ∧ ZeroRate st0 P q) ld1 := by
        refine i1.mono ?_
        rintro q (hq | ⟨hq, hz⟩)
        · exact hq.elim
        · exact ⟨by rw [hfl]; exact hq, hz⟩
      cases hlv : fl.foldlM (preRoundV env pm f st0 P) e0 with
      | error e =>
        rw [hlv] at l1
        refine ⟨ld1, hmono1, ?_⟩
        rw [PreM.bind_error l1]
        rfl
      | ok e1 =>
        rw [hlv] at l1
        obtain ⟨ld2, i2, s2⟩ := preMadeSignal_run hr hmono1 (fun q hq => hq.1) hvg e1
        refine ⟨ld2, i2, ?_⟩
        rw [PreM.bind_ok l1, okBind]
        cases hsv : preSignalV env pm f st0 P e1 with
        | error e =>
          rw [hsv] at s2
          rw [PreM.bind_error s2]
          rfl
        | ok e2 =>
          rw [hsv] at s2
          rw [PreM.bind_ok s2]
          rfl

end Verif
