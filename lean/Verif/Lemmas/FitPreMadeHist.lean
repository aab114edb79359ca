import Verif.Lemmas.FitPreMadeRun

/-! Helper lemmas: fits with pre-made spectra after earlier evaluations, and their expected
contents. -/

namespace Verif

open Spectrum

variable {env : FitEnv} {pm : PreMade} {f : Fit} {st0 : FitState} {D D' : ℕ → Prop} {ld : Loads}

theorem preContentsV_congr (hr : PreMadeReady env pm f st0) {fl : List (ℕ × List PyStr)}
    (hf : f.floating = some fl) {P Q : ℕ → Param} (h : ∀ p ∈ f.pars, P p = Q p) :
    preContentsV env pm f st0 P fl = preContentsV env pm f st0 Q fl := by
  have hg : f.globals.map P = f.globals.map Q :=
    List.map_congr_left fun p hp => h p (hr.globals p hp)
  have hc : ∀ r, loadV env pm f st0 r P = loadV env pm f st0 r Q := fun r => loadV_congr hg
  have hfl : f.floatingRefs = fl.map Prod.fst := by simp [Fit.floatingRefs, hf]
  have hround : ∀ b ∈ fl, ∀ e, preRoundV env pm f st0 P e b = preRoundV env pm f st0 Q e b := by
    intro b hb e
    unfold preRoundV
    rw [hc, List.map_congr_left fun p hp =>
      h p (hr.rates b.1 (by rw [hfl]; exact List.mem_map_of_mem hb) p hp).1]
  have hloop : ∀ e, fl.foldlM (preRoundV env pm f st0 P) e =
      fl.foldlM (preRoundV env pm f st0 Q) e := by
    clear hfl hf
    induction fl with
    | nil => intro e; rfl
    | cons b l ih =>
      intro e
      rw [List.foldlM_cons, List.foldlM_cons, hround b (by simp) e]
      congr 1
      funext e'
      exact ih (fun x hx => hround x (by simp [hx])) e'
  have hsig : ∀ e, preSignalV env pm f st0 P e = preSignalV env pm f st0 Q e := by
    intro e
    unfold preSignalV
    simp only [hc]
  unfold preContentsV
  simp only [hloop, hsig]

/-- What holds before each evaluation. -/
structure PreState (env : FitEnv) (pm : PreMade) (f : Fit) (st0 : FitState)
    (w : FitState × Loads) : Prop where
  objects : w.1 = { st0 with params := w.1.params }
  params : ∀ q, { w.1.params q with value := none } = { st0.params q with value := none }
  loads : PreInv env pm f st0 (fun _ => False) w.2

theorem preState_start : PreState env pm f st0 (st0, fun _ => none) :=
  ⟨rfl, fun _ => rfl, preInv_start⟩

/-- The result, computed anew. -/
noncomputable def preFunctV (env : FitEnv) (pm : PreMade) (f : Fit) (st0 : FitState)
    (args : List ℚ) (fl : List (ℕ × List PyStr)) :
    Except PyErr ((StatValue × Option (List ℕ)) × ℝ) := do
  let c ← preContentsV env pm f st0 (withValues f.pars args st0.params) fl
  evaluate f (f.pars.map (withValues f.pars args st0.params)) (st0.view f.data).data.shape c

theorem preMade_contents (hr : PreMadeReady env pm f st0) {w : FitState × Loads}
    (h : PreState env pm f st0 w) {fl : List (ℕ × List PyStr)} (hf : f.floating = some fl)
    {args : List ℚ} (hl : FullArgs f args) :
    ∃ ld', PreInv env pm f st0 (fun q => q ∈ f.floatingRefs ∧
        ZeroRate st0 (withValues f.pars args w.1.params) q) ld' ∧
      setValues f.pars args w.1 =
        ({ st0 with params := withValues f.pars args w.1.params }, .ok ()) ∧
      preMadeContents env pm f { st0 with params := withValues f.pars args w.1.params } fl w.2 =
        (ld', preContentsV env pm f st0 (withValues f.pars args st0.params) fl) := by
  obtain ⟨hval, hsame⟩ := withValues_valued h.params hl hr.pars
  obtain ⟨ld', i, e⟩ := preMadeContents_run hr h.loads hf hval
  refine ⟨ld', i, ?_, ?_⟩
  · rw [setValues_ok f.pars args (le_of_eq hl) w.1]
    have := h.objects
    generalize w.1 = st at this ⊢
    rw [this]
  · rw [e, preContentsV_congr hr hf hsame]

theorem preMadeFunct_run (hr : PreMadeReady env pm f st0) {w : FitState × Loads}
    (h : PreState env pm f st0 w) {fl : List (ℕ × List PyStr)} (hf : f.floating = some fl)
    {args : List ℚ} (hl : FullArgs f args) :
    ∃ ld', PreInv env pm f st0 (fun q => q ∈ f.floatingRefs ∧
        ZeroRate st0 (withValues f.pars args w.1.params) q) ld' ∧
      preMadeFunct env pm f args w =
        (({ st0 with params := withValues f.pars args w.1.params }, ld'),
          preFunctV env pm f st0 args fl) := by
  obtain ⟨-, hsame⟩ := withValues_valued h.params hl hr.pars
  obtain ⟨ld', i, e1, e2⟩ := preMade_contents hr h hf hl
  refine ⟨ld', i, ?_⟩
  unfold preMadeFunct preFunctV
  rw [hf]
  dsimp only
  rw [e1]
  dsimp only
  rw [e2, List.map_congr_left hsame]
  cases preContentsV env pm f st0 (withValues f.pars args st0.params) fl <;> rfl

theorem pre_no_zeroRate (hr : PreMadeReady env pm f st0) {a : List ℚ} (h1 : FullArgs f a)
    (h2 : NonzeroRates f st0 a) (P : ℕ → Param)
    (q : ℕ) :
    ¬ (q ∈ f.floatingRefs ∧ ZeroRate st0 (withValues f.pars a P) q) := by
  rintro ⟨hq, p, hp, hz⟩
  obtain ⟨hpp, hk⟩ := hr.rates q hq p hp
  obtain ⟨i, hi, rfl⟩ := List.mem_iff_getElem.1 hpp
  have hia : i < a.length := by rw [h1]; exact hi
  have hm : (f.pars[i], a[i]) ∈ f.pars.zip a := by
    rw [List.mem_iff_getElem]
    exact ⟨i, by rw [List.length_zip]; exact lt_min hi hia, by simp⟩
  rw [withValues_mem hr.pars hm] at hz
  exact h2 _ hm hk (Option.some.inj hz)

theorem preState_after (hr : PreMadeReady env pm f st0) {hist : List (List ℚ)}
    (hh : ∀ a ∈ hist, FullArgs f a ∧ NonzeroRates f st0 a) {w : FitState × Loads}
    (h : PreState env pm f st0 w) : PreState env pm f st0 (afterPreMade env pm f hist w) := by
  induction hist generalizing w with
  | nil => exact h
  | cons a hist ih =>
    refine ih (fun b hb => hh b (by simp [hb])) ?_
    obtain ⟨h1, h2⟩ := hh a (by simp)
    cases hf : f.floating with
    | none =>
      unfold preMadeFunct
      rw [hf]
      exact h
    | some fl =>
      obtain ⟨ld', i, e⟩ := preMadeFunct_run hr h hf h1
      rw [e]
      refine ⟨rfl, fun q => ?_, i.mono fun q hq => pre_no_zeroRate hr h1 h2 _ q hq⟩
      exact (withValues_static f.pars a w.1.params q).trans (h.params q)

theorem preMadeEvaluated_value (hr : PreMadeReady env pm f st0) {w : FitState × Loads}
    (h : PreState env pm f st0 w) {fl : List (ℕ × List PyStr)} (hf : f.floating = some fl)
    {args : List ℚ} (hl : FullArgs f args) :
    preMadeEvaluated env pm f args w =
      preContentsV env pm f st0 (withValues f.pars args st0.params) fl := by
  obtain ⟨ld', -, e1, e2⟩ := preMade_contents hr h hf hl
  unfold preMadeEvaluated
  rw [e1, hf]
  exact congrArg Prod.snd e2

/-! ### the terms -/

theorem withTheseValues_map (hr : PreMadeReady env pm f st0) {args : List ℚ} {ps : List Param}
    (h : WithTheseValues st0 (f.pars.zip args) f.globals ps) :
    ps = f.globals.map (withValues f.pars args st0.params) := by
  unfold WithTheseValues at h
  generalize f.globals = l at h
  induction h with
  | nil => rfl
  | cons h1 _ ih =>
    obtain ⟨v, hv, rfl⟩ := h1
    rw [List.map_cons, ← ih, withValues_mem hr.pars hv]

/-- The file and the cut spectrum of a term. -/
theorem preTerm_load (hr : PreMadeReady env pm f st0) {args : List ℚ} {b : ℕ × List PyStr}
    {x : PreTerm} (hx : IsPreTerm env pm f st0 args b x) :
    ∃ s t : Spectrum, loadV env pm f st0 b.1 (withValues f.pars args st0.params) = .ok s ∧
      cutV (st0.view f.data) s = .ok (t.rescaled (st0.objs b.1).numDecays) ∧
      t.numDecays = x.decays ∧ x.decays ≠ 0 ∧ t.ndProject b.2 = .ok x.proj := by
  obtain ⟨ps, file, s, t, h1, h2, h3, h4, h5, h6, h7⟩ := hx
  rw [withTheseValues_map hr h1] at h2
  have hF := hr.files file s h3
  obtain ⟨u, -, hu⟩ := hF.cut
  rw [h4] at h5
  refine ⟨_, { t with numDecays := pm.decays b.1 s }, loadV_file h2 h3 h5, ?_, h4.symm,
    by rw [h4]; exact h5, h7⟩
  have hw : ({ s with numDecays := pm.decays b.1 s } : Spectrum).WF :=
    ⟨hF.wf.axes, hF.wf.names, hF.wf.shape⟩
  exact (((cuts_of h6 hF.dims hu).decays _).rescaled hw h5 _).value

theorem preRoundV_of (hr : PreMadeReady env pm f st0) {args : List ℚ} {b : ℕ × List PyStr}
    {x : PreTerm} (hb : b.1 ∈ f.floatingRefs) (hx : IsPreTerm env pm f st0 args b x) {rate : ℚ}
    (hp : ∃ p, (st0.objs b.1).fit = some [p] ∧ (p, rate) ∈ f.pars.zip args) {sh : List ℕ}
    (hsh : x.proj.shape = sh) {e : Option (NdArray ℚ)} {terms : List (List ℕ → ℚ)}
    (h : Sums sh e terms) :
    ∃ a, preRoundV env pm f st0 (withValues f.pars args st0.params) e b = .ok (some a) ∧
      Sums sh (some a) (terms ++ [fun idx => rate / x.decays * x.proj.get idx]) := by
  obtain ⟨s, t, h1, h2, h3, h4, h5⟩ := preTerm_load hr hx
  obtain ⟨p, hp1, hp2⟩ := hp
  have hN : (st0.objs b.1).numDecays ≠ 0 := hr.decays _ (by simp [Fit.moving, hb])
  obtain ⟨q, hq, hqt⟩ := ndProject_times (rescaled_alike_cfg t rate) (rescaled_times t rate) h5
  obtain ⟨a, ha, hs⟩ := addProjection_sums h (hqt.1.trans hsh)
    (g := fun idx => rate / x.decays * x.proj.get idx)
    (fun idx hi => by rw [hqt.2 idx (by rw [hsh]; exact hi), h3])
  refine ⟨a, ?_, hs⟩
  unfold preRoundV
  rw [h1, okBind, h2, okBind, hp1]
  simp only [Option.getD_some, List.map_cons, List.map_nil]
  unfold lastRate
  rw [withValues_mem hr.pars hp2]
  dsimp only
  rw [if_neg hN]
  unfold lastRate
  rw [okBind, rescaled_rescaled (by rw [h3]; exact h4) hN, hq, okBind, ha]
  rfl

theorem preLoop_of (hr : PreMadeReady env pm f st0) {args : List ℚ} {sh : List ℕ}
    {l : List (ℕ × List PyStr)} {xs : List (ℚ × PreTerm)}
    (hx : List.Forall₂ (fun b x => IsPreTerm env pm f st0 args b x.2 ∧
      ∃ p, (st0.objs b.1).fit = some [p] ∧ (p, x.1) ∈ f.pars.zip args) l xs)
    (hl : ∀ b ∈ l, b.1 ∈ f.floatingRefs)
    (hsh : ∀ x ∈ xs, x.2.proj.shape = sh) {e : Option (NdArray ℚ)} {terms : List (List ℕ → ℚ)}
    (h : Sums sh e terms) :
    ∃ e', l.foldlM (preRoundV env pm f st0 (withValues f.pars args st0.params)) e = .ok e' ∧
      Sums sh e' (terms ++ xs.map (fun x idx => x.1 / x.2.decays * x.2.proj.get idx)) ∧
      (l ≠ [] → e' ≠ none) ∧ (e ≠ none → e' ≠ none) := by
  induction hx generalizing e terms with
  | nil => exact ⟨e, rfl, by simpa using h, fun h => absurd rfl h, id⟩
  | @cons b x l xs hbx _ ih =>
    obtain ⟨a, ha, hs⟩ := preRoundV_of hr (hl b (by simp)) hbx.1 hbx.2 (hsh x (by simp)) h
    obtain ⟨e', h1, h2, h3, h4⟩ := ih (fun c hc => hl c (by simp [hc]))
      (fun y hy => hsh y (by simp [hy])) hs
    refine ⟨e', ?_, ?_, fun _ => h4 (by simp), fun _ => h4 (by simp)⟩
    · rw [List.foldlM_cons, ha, okBind]
      exact h1
    · rw [List.map_cons]
      simpa using h2

theorem preSignalV_of (hr : PreMadeReady env pm f st0) {args : List ℚ} {b : ℕ × List PyStr}
    (hb : f.signal = some b) {x : PreTerm} (hx : IsPreTerm env pm f st0 args b x) {sh : List ℕ}
    (hsh : x.proj.shape = sh) {a : NdArray ℚ} {terms : List (List ℕ → ℚ)}
    (h : Sums sh (some a) terms) :
    ∃ a', preSignalV env pm f st0 (withValues f.pars args st0.params) (some a) = .ok (some a') ∧
      Sums sh (some a')
        (terms ++ [fun idx => (st0.objs b.1).numDecays / x.decays * x.proj.get idx]) := by
  obtain ⟨s, t, h1, h2, h3, h4, h5⟩ := preTerm_load hr hx
  obtain ⟨q, hq, hqt⟩ := ndProject_times (rescaled_alike_cfg t (st0.objs b.1).numDecays)
    (rescaled_times t (st0.objs b.1).numDecays) h5
  obtain ⟨a', ha, hs⟩ := addProjection_sums h (hqt.1.trans hsh)
    (g := fun idx => (st0.objs b.1).numDecays / x.decays * x.proj.get idx)
    (fun idx hi => by rw [hqt.2 idx (by rw [hsh]; exact hi), h3])
  refine ⟨a', ?_, hs⟩
  unfold preSignalV
  rw [hb]
  dsimp only
  rw [h1, okBind, h2, okBind, hq, okBind, ha]
  rfl

end Verif
