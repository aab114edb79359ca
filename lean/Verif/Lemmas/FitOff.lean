import Verif.Props.FitGrid

/-!
Helper lemmas: evaluations without signal keep what is known of the fit with signal (its cache
also has convolved signals).
-/

namespace Verif

open Spectrum

variable {env : FitEnv} {f : Fit} {st0 st : FitState}

/-- The fit without its signal. -/
def Fit.off (f : Fit) : Fit := { f with signal := none }

theorem roundValue_off (hr : FitReady env f st0) (P : ℕ → Param) {b : ℕ × List PyStr}
    (hb : b.1 ∈ f.floatingRefs) (e : Option (NdArray ℚ)) :
    roundValue env f.off st0 P e b = roundValue env f st0 P e b := by
  unfold roundValue bgValue convFrom
  rw [isBg_floating hr hb, show isBg f.off b.1 = true by unfold isBg Fit.off; simp]
  rfl

theorem loopValue_off (hr : FitReady env f st0) (P : ℕ → Param) (l : List (ℕ × List PyStr))
    (hl : ∀ b ∈ l, b.1 ∈ f.floatingRefs) (e : Option (NdArray ℚ)) :
    l.foldlM (roundValue env f.off st0 P) e = l.foldlM (roundValue env f st0 P) e := by
  induction l generalizing e with
  | nil => rfl
  | cons b l ih =>
    rw [List.foldlM_cons, List.foldlM_cons, roundValue_off hr P (hl b (by simp))]
    congr 1
    funext e'
    exact ih (fun x hx => hl x (by simp [hx])) e'

theorem contents_run_off (hr : FitReady env f st0) (h : Inv env f st0 (fun _ => False) st)
    {fl : List (ℕ × List PyStr)} (hf : f.floating = some fl)
    (hv : Valued st0.params st.params f.pars) :
    ∃ st', st'.params = st.params ∧
      Inv env f st0 (fun q => q ∈ f.floatingRefs ∧ ZeroRate st0 st.params q) st' ∧
      contents env f.off fl st = (st', contentsValue env f.off st0 st.params fl) := by
  have hfl : f.floatingRefs = fl.map Prod.fst := by simp [Fit.floatingRefs, hf]
  have hvg : Valued st0.params st.params f.globals := fun p hp => hv p (hr.globals p hp).1
  have hvr : ∀ b ∈ fl, Valued st0.params st.params ((st0.objs b.1).fit.getD []) := by
    intro b hb p hp
    exact hv p (hr.rates b.1 (by rw [hfl]; exact List.mem_map_of_mem hb) p hp).1
  have hmono : ∀ {st'}, Inv env f st0 (fun _ => False) st' →
      Inv env f st0 (fun q => q ∈ f.floatingRefs ∧ ZeroRate st0 st.params q) st' :=
    fun hi => hi.mono fun q hq => hq.elim
  have hd := h.view_old hr.alloc.1 (.inr hr.apart.1)
  unfold contents contentsValue
  have ed : f.off.data = f.data := rfl
  have ep : f.off.dataPars = f.dataPars := rfl
  have ev : fixedValue f.off st0 = fixedValue f st0 := rfl
  have er : floatingRound env f.off = floatingRound env f := rfl
  simp only [FitM.read_bind, FitM.lift_bind, ed, ep, ev, er, hd]
  cases ho : (st0.view f.data).ndProject f.dataPars with
  | error e => exact ⟨st, rfl, hmono h, rfl⟩
  | ok observed =>
    simp only [okBind]
    have hfx : fixedContents f.off st = (st, fixedValue f st0) := by
      unfold fixedContents fixedValue
      have : f.off.fixed = f.fixed := rfl
      rw [this]
      cases hb : f.fixed with
      | none => rfl
      | some b =>
        obtain ⟨r, pars⟩ := b
        have hview := h.view_old (q := r) (hr.alloc.2.1 (r, pars) hb)
          (.inr (hr.apart.2 (r, pars) hb))
        simp only [FitM.read_bind, FitM.lift_bind, hview]
        cases hp : (st0.view r).ndProject pars <;> rfl
    cases hfv : fixedValue f st0 with
    | error e =>
      rw [hfv] at hfx
      refine ⟨st, rfl, hmono h, ?_⟩
      rw [FitM.bind_error hfx, errorBind]
    | ok e =>
      rw [hfv] at hfx
      have hmem : ∀ b ∈ fl, b.1 ∈ f.floatingRefs :=
        fun b hb => by rw [hfl]; exact List.mem_map_of_mem hb
      obtain ⟨st1, a1, a2, a3⟩ := floatingLoop_run hr fl hmem
        (by rw [← hfl]; exact (List.nodup_append.1 (moving_nodup hr)).1) h
        (fun _ _ hx => hx) hvg hvr e
      have inv1 : Inv env f st0 (fun q => q ∈ f.floatingRefs ∧ ZeroRate st0 st.params q) st1 := by
        refine a2.mono ?_
        rintro q (hq | hq)
        · exact hq.elim
        · rw [hfl]; exact hq
      refine ⟨st1, a1, inv1, ?_⟩
      cases hl : fl.foldlM (roundValue env f st0 st.params) e with
      | error er =>
        rw [hl] at a3
        rw [FitM.bind_ok hfx, FitM.bind_error a3, okBind, loopValue_off hr _ _ hmem, hl, errorBind]
      | ok e' =>
        rw [hl] at a3
        rw [FitM.bind_ok hfx, FitM.bind_ok a3, okBind, loopValue_off hr _ _ hmem, hl, okBind]
        rfl

theorem FitReady.off {b : FitState} (h : FitReady env f b) : FitReady env f.off b := by
  have hsub : ∀ q, q ∈ f.off.moving → q ∈ f.moving := by
    intro q hq
    simp only [Fit.off, Fit.moving, Fit.floatingRefs, Option.toList_none, List.map_nil,
      List.append_nil, List.mem_append] at hq ⊢
    exact .inl hq
  refine ⟨h.str, h.cache, ⟨h.alloc.1, h.alloc.2.1, fun q hq => h.alloc.2.2 q (hsub q hq)⟩, h.apart,
    ?_, fun q hq => h.axes q (hsub q hq), fun q hq => h.decays q (hsub q hq), h.pars, h.globals,
    h.rates⟩
  have := h.backgrounds
  unfold Fit.moving at this ⊢
  rw [List.map_append] at this
  have h1 := (List.nodup_append.1 this).1
  simp only [Fit.off, Option.toList_none, List.map_nil, List.append_nil]
  exact h1

theorem funct_run_off (hr : FitReady env f st0) (h : Inv env f st0 (fun _ => False) st)
    {fl : List (ℕ × List PyStr)} (hf : f.floating = some fl) {args : List ℚ}
    (hl : FullArgs f args) :
    ∃ st', Inv env f st0 (fun q => q ∈ f.floatingRefs ∧
        ZeroRate st0 (withValues f.pars args st.params) q) st' ∧
      funct env f.off args st = (st', functValue env f.off st0 args fl) := by
  obtain ⟨hval, hsame⟩ := withValues_valued h.params hl hr.pars
  have hset := setValues_ok f.pars args (le_of_eq hl) st
  generalize hst1 : ({ st with params := withValues f.pars args st.params } : FitState) = st1
  rw [hst1] at hset
  have hp1 : st1.params = withValues f.pars args st.params := by rw [← hst1]
  have inv1 : Inv env f st0 (fun _ => False) st1 := by
    rw [← hst1]
    exact h.setParams fun q => withValues_static f.pars args st.params q
  obtain ⟨st2, a1, a2, a3⟩ := contents_run_off hr inv1 hf (by rw [hp1]; exact hval)
  rw [hp1] at a1 a2 a3
  refine ⟨st2, a2, ?_⟩
  rw [contentsValue_congr hr.off hf hsame] at a3
  unfold functValue
  have hpo : f.off.pars = f.pars := rfl
  have hdo : f.off.data = f.data := rfl
  rw [funct_some (f := f.off) hf, hpo, hdo, FitM.bind_ok hset]
  cases hc : contentsValue env f.off st0 (withValues f.pars args st0.params) fl with
  | error e =>
    rw [hc] at a3
    rw [FitM.bind_error a3]
    rfl
  | ok c =>
    rw [hc] at a3
    have hps : f.pars.map st2.params = f.pars.map (withValues f.pars args st0.params) := by
      rw [a1]; exact List.map_congr_left hsame
    rw [FitM.bind_ok a3, FitM.read_bind, FitM.read_bind, hps,
      a2.view_old hr.alloc.1 (.inr hr.apart.1)]
    rfl

theorem functAt_keeps_off (hr : FitReady env f st0) (hf : f.floating ≠ none) {rnd : ℝ → ℚ}
    {w : List ℝ} (h1 : FullArgs f (w.map rnd)) (h2 : NonzeroRates f st0 (w.map rnd)) {s : FitState}
    (hs : Inv env f st0 (fun _ => False) s) :
    ∃ s', Inv env f st0 (fun _ => False) s' ∧
      functAt env f.off rnd w s = (s', freshValue env f.off rnd st0 w) := by
  obtain ⟨fl, hf⟩ := Option.ne_none_iff_exists'.1 hf
  obtain ⟨s1, i1, a⟩ := funct_run_off hr hs hf h1
  obtain ⟨_, -, b⟩ := funct_run_off hr (inv_start hr) hf h1
  refine ⟨s1, i1.mono fun q hq => no_zeroRate hr h1 h2 _ q hq, ?_⟩
  unfold freshValue
  rw [b]
  exact functAt_run a

/-- The fit by grid search, with the signal or without it. -/
theorem fitGrid_part {f1 : Fit} (h1 : f1 = f ∨ f1 = f.off) {rnd : ℝ → ℚ} {g : GridSearch}
    {vss : List (List ℝ)} {F : List ℝ → FitVal} {P : List ℝ → ℝ} (hr : FitReady env f st0)
    (h : FitGridSetup env f1 st0 rnd g vss F P) {s : FitState}
    (hs : Inv env f st0 (fun _ => False) s) :
    ∃ s', Inv env f st0 (fun _ => False) s' ∧
      fitGrid env f1 rnd g s = (s', g.minimise (freshValue env f1 rnd st0) f1.stat) := by
  refine fitGrid_keeps h.values (fun pts hpts pt hpt s hs => ?_) hs
  obtain ⟨a1, a2⟩ := h.points hpts pt hpt
  rcases h1 with rfl | rfl
  · exact functAt_keeps hr h.floating a1 a2 hs
  · exact functAt_keeps_off hr h.floating a1 a2 hs

end Verif
