import Verif.Lemmas.Fit

/-! Evaluating a fit leaves the parameter objects alone once their values are set. -/

namespace Verif

namespace FitM

/-- The computation does not touch the parameter objects. -/
def KeepsParams {α : Type} (m : FitM α) : Prop := ∀ st, (m st).1.params = st.params

theorem KeepsParams.pure {α : Type} (a : α) : KeepsParams (pure a : FitM α) := fun _ => rfl
theorem KeepsParams.raise {α : Type} (e : PyErr) : KeepsParams (raise e : FitM α) := fun _ => rfl
theorem KeepsParams.lift {α : Type} (x : Except PyErr α) : KeepsParams (lift x) := fun _ => rfl
theorem KeepsParams.read {α : Type} (f : FitState → α) : KeepsParams (read f) := fun _ => rfl
theorem KeepsParams.copy (r : ℕ) : KeepsParams (copy r) := fun _ => rfl
theorem KeepsParams.call (r : ℕ) (f : Spectrum → Outcome) : KeepsParams (call r f) := fun _ => rfl
theorem KeepsParams.change {f : FitState → FitState} (h : ∀ st, (f st).params = st.params) :
    KeepsParams (change f) := h

theorem KeepsParams.bind {α β : Type} {m : FitM α} {f : α → FitM β} (hm : KeepsParams m)
    (hf : ∀ a, KeepsParams (f a)) : KeepsParams (m >>= f) := by
  intro st
  have h1 := hm st
  rcases hms : m st with ⟨st', a | a⟩
  · rw [bind_error hms]; rw [hms] at h1; exact h1
  · rw [bind_ok hms, hf a st']; rw [hms] at h1; exact h1

theorem KeepsParams.foldlM {α β : Type} {f : β → α → FitM β} (hf : ∀ b a, KeepsParams (f b a))
    (l : List α) (b : β) : KeepsParams (l.foldlM f b) := by
  induction l generalizing b with
  | nil => exact KeepsParams.pure b
  | cons a l ih =>
    rw [List.foldlM_cons]
    exact (hf b a).bind fun b' => ih b'

end FitM

open FitM

theorem keepsParams_applyTo (env : FitEnv) (p : Param) (r : ℕ) : KeepsParams (applyTo env p r) := by
  unfold applyTo
  split
  · exact .raise _
  · split
    · exact (KeepsParams.call _ _).bind fun _ => .pure _
    · refine (KeepsParams.read _).bind fun _ => (KeepsParams.lift _).bind fun _ =>
        (KeepsParams.copy _).bind fun _ => (KeepsParams.change ?_).bind fun _ => .pure _
      intro _; rfl

theorem keepsParams_applyAll (env : FitEnv) (ps : List ℕ) (r : ℕ) :
    KeepsParams (applyAll env ps r) :=
  KeepsParams.foldlM (fun _ _ => (KeepsParams.read _).bind fun _ => keepsParams_applyTo _ _ _) _ _

theorem keepsParams_shrinkToData (d r : ℕ) : KeepsParams (shrinkToData d r) :=
  (KeepsParams.read _).bind fun _ => (KeepsParams.read _).bind fun _ =>
    (KeepsParams.lift _).bind fun _ => .call _ _

theorem keepsParams_cached (bg key : PyStr) (fc : Option (List ℕ)) {make : FitM ℕ}
    (h : KeepsParams make) : KeepsParams (cached bg key fc make) := by
  refine (KeepsParams.read _).bind fun hit => ?_
  cases hit with
  | some r => exact .pure _
  | none =>
    refine h.bind fun _ => (KeepsParams.change ?_).bind fun _ => .pure _
    intro _; rfl

theorem keepsParams_withGlobals (env : FitEnv) (f : Fit) (r : ℕ) :
    KeepsParams (withGlobals env f r) := by
  unfold withGlobals
  split
  · exact .pure _
  · exact (KeepsParams.read _).bind fun o => (KeepsParams.read _).bind fun ps =>
      keepsParams_cached _ _ _ (keepsParams_applyAll _ _ _)

theorem keepsParams_floatingSpectrum (env : FitEnv) (f : Fit) (r : ℕ) :
    KeepsParams (floatingSpectrum env f r) :=
  (keepsParams_withGlobals _ _ _).bind fun _ => (KeepsParams.read _).bind fun _ =>
    (keepsParams_applyAll _ _ _).bind fun _ => (keepsParams_shrinkToData _ _).bind fun _ =>
      (KeepsParams.read _).bind fun _ => (KeepsParams.call _ _).bind fun _ => .pure _

theorem keepsParams_signalSpectrum (env : FitEnv) (f : Fit) (r : ℕ) :
    KeepsParams (signalSpectrum env f r) := by
  unfold signalSpectrum
  split
  · exact .pure _
  · refine (KeepsParams.read _).bind fun o => (KeepsParams.read _).bind fun ps =>
      (keepsParams_cached _ _ _ ?_).bind fun c => (keepsParams_shrinkToData _ _).bind fun _ =>
        (KeepsParams.read _).bind fun d => (KeepsParams.call _ _).bind fun _ =>
          (KeepsParams.call _ _).bind fun _ => .pure _
    exact KeepsParams.foldlM
      (fun _ _ => (KeepsParams.read _).bind fun _ => keepsParams_applyTo _ _ _) _ _

theorem keepsParams_floatingRound (env : FitEnv) (f : Fit) (e : Option (NdArray ℚ))
    (b : ℕ × List PyStr) : KeepsParams (floatingRound env f e b) :=
  (keepsParams_floatingSpectrum _ _ _).bind fun _ => (KeepsParams.read _).bind fun _ =>
    (KeepsParams.lift _).bind fun _ => (KeepsParams.lift _).bind fun _ => .pure _

theorem keepsParams_addSignal (env : FitEnv) (f : Fit) (e : Option (NdArray ℚ)) :
    KeepsParams (addSignal env f e) := by
  unfold addSignal
  split
  · exact .pure _
  · refine (keepsParams_signalSpectrum _ _ _).bind fun c => (KeepsParams.read _).bind fun s =>
      (KeepsParams.lift _).bind fun p => ?_
    cases e with
    | none => exact .raise _
    | some e => exact (KeepsParams.lift _).bind fun _ => .pure _

theorem keepsParams_fixedContents (f : Fit) : KeepsParams (fixedContents f) := by
  unfold fixedContents
  split
  · exact .pure _
  · exact (KeepsParams.read _).bind fun _ => (KeepsParams.lift _).bind fun _ => .pure _

theorem keepsParams_contents (env : FitEnv) (f : Fit) (fl : List (ℕ × List PyStr)) :
    KeepsParams (contents env f fl) :=
  (KeepsParams.read _).bind fun _ => (KeepsParams.lift _).bind fun _ =>
    (keepsParams_fixedContents f).bind fun _ =>
      (KeepsParams.foldlM (keepsParams_floatingRound env f) _ _).bind
        fun _ => (keepsParams_addSignal _ _ _).bind fun _ => .pure _

theorem funct_none {env : FitEnv} {f : Fit} {args : List ℚ} (h : f.floating = none) :
    funct env f args = FitM.raise .valueError := by
  unfold funct; simp only [h]

theorem funct_some {env : FitEnv} {f : Fit} {args : List ℚ} {fl : List (ℕ × List PyStr)}
    (h : f.floating = some fl) : funct env f args = (do
      setValues f.pars args
      let c ← contents env f fl
      let ps ← FitM.read (fun st => f.pars.map st.params)
      let d ← FitM.read (fun st => st.view f.data)
      FitM.lift (evaluate f ps d.data.shape c)) := by
  unfold funct; simp only [h]

/-! ### setting the values -/

/-- The parameter objects with the given values. -/
def withValues : List ℕ → List ℚ → (ℕ → Param) → ℕ → Param
  | p :: ps, v :: vs, P => withValues ps vs (Function.update P p { P p with value := some v })
  | _, _, P => P

theorem zipIdx_forM_set (pars : List ℕ) (pre : List ℕ) (args : List ℚ)
    (hl : args.length ≤ pars.length) (st : FitState) :
    ((args.zipIdx pre.length).forM (fun (v, i) =>
      match (pre ++ pars)[i]? with
      | none => FitM.raise .indexError
      | some p => FitM.change (fun st => { st with
          params := Function.update st.params p { st.params p with value := some v } }))) st =
      ({ st with params := withValues pars args st.params }, .ok ()) := by
  induction args generalizing pars pre st with
  | nil => cases pars <;> rfl
  | cons v args ih =>
    cases pars with
    | nil => simp at hl
    | cons p pars =>
      rw [List.zipIdx_cons, List.forM_eq_forM, List.forM_cons]
      have hget : (pre ++ p :: pars)[pre.length]? = some p := by simp
      have happ : pre ++ p :: pars = (pre ++ [p]) ++ pars := by simp
      have hlen : (pre ++ [p]).length = pre.length + 1 := by simp
      have := ih pars (pre ++ [p]) (by simpa using hl)
        { st with params := Function.update st.params p { st.params p with value := some v } }
      rw [hlen, ← happ] at this
      simp only [hget]
      rw [FitM.change_bind]
      exact this

theorem setValues_ok (pars : List ℕ) (args : List ℚ) (hl : args.length ≤ pars.length)
    (st : FitState) : setValues pars args st =
      ({ st with params := withValues pars args st.params }, .ok ()) :=
  zipIdx_forM_set pars [] args hl st

theorem withValues_not_mem {pars : List ℕ} {args : List ℚ} {P : ℕ → Param} {q : ℕ}
    (h : q ∉ pars) : withValues pars args P q = P q := by
  induction pars generalizing args P with
  | nil => cases args <;> rfl
  | cons p pars ih =>
    simp only [List.mem_cons, not_or] at h
    cases args with
    | nil => rfl
    | cons v args => rw [withValues, ih h.2, Function.update_of_ne h.1]

theorem withValues_map {pars : List ℕ} {args : List ℚ} {P : ℕ → Param} (hn : pars.Nodup)
    (hl : args.length = pars.length) :
    pars.map (withValues pars args P) =
      List.zipWith (fun p v => { P p with value := some v }) pars args := by
  induction pars generalizing args P with
  | nil => simp
  | cons p pars ih =>
    cases args with
    | nil => simp at hl
    | cons v args =>
      rw [List.nodup_cons] at hn
      simp only [List.map_cons, withValues, List.zipWith_cons_cons]
      rw [withValues_not_mem hn.1, Function.update_self, ih hn.2 (by simpa using hl)]
      congr 1
      have : ∀ (l : List ℕ) (a : List ℚ), p ∉ l →
          List.zipWith (fun q v' => { Function.update P p { P p with value := some v } q with
            value := some v' }) l a =
          List.zipWith (fun q v' => { P q with value := some v' }) l a := by
        intro l
        induction l with
        | nil => intro a _; rfl
        | cons q l ihl =>
          intro a hq
          cases a with
          | nil => rfl
          | cons w a =>
            simp only [List.mem_cons, not_or] at hq
            rw [List.zipWith_cons_cons, List.zipWith_cons_cons, ihl a hq.2,
              Function.update_of_ne (Ne.symm hq.1)]
      exact this pars args hn.1

/-- Only the values change. -/
theorem withValues_static (pars : List ℕ) (args : List ℚ) (P : ℕ → Param) (q : ℕ) :
    { withValues pars args P q with value := none } = { P q with value := none } := by
  induction pars generalizing args P with
  | nil => cases args <;> rfl
  | cons p pars ih =>
    cases args with
    | nil => rfl
    | cons v args =>
      rw [withValues, ih]
      by_cases h : q = p
      · subst h; rw [Function.update_self]
      · rw [Function.update_of_ne h]

theorem setValues_many (pars : List ℕ) (args : List ℚ) (hl : pars.length < args.length)
    (st : FitState) : (setValues pars args st).2 = .error .indexError := by
  have key : ∀ (pars pre : List ℕ) (args : List ℚ), pars.length < args.length → ∀ st : FitState,
      (((args.zipIdx pre.length).forM (fun (v, i) =>
        match (pre ++ pars)[i]? with
        | none => FitM.raise .indexError
        | some p => FitM.change (fun st => { st with
            params := Function.update st.params p { st.params p with value := some v } }))) st).2 =
        .error .indexError := by
    intro pars
    induction pars with
    | nil =>
      intro pre args h st
      cases args with
      | nil => simp at h
      | cons v args =>
        rw [List.zipIdx_cons, List.forM_eq_forM, List.forM_cons]
        have hget : (pre ++ ([] : List ℕ))[pre.length]? = none := by simp
        simp only [hget]
        rfl
    | cons p pars ih =>
      intro pre args h st
      cases args with
      | nil => simp at h
      | cons v args =>
        rw [List.zipIdx_cons, List.forM_eq_forM, List.forM_cons]
        have hget : (pre ++ p :: pars)[pre.length]? = some p := by simp
        have happ : pre ++ p :: pars = (pre ++ [p]) ++ pars := by simp
        have hlen : (pre ++ [p]).length = pre.length + 1 := by simp
        have := ih (pre ++ [p]) args (by simpa using h)
          { st with params := Function.update st.params p { st.params p with value := some v } }
        rw [hlen, ← happ] at this
        simp only [hget]
        rw [FitM.change_bind]
        exact this
  exact key pars [] args hl st

end Verif
