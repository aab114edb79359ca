import Verif.Lemmas.Names
import Verif.Lemmas.Fill

/-! Helper lemmas about `Spectrum.add`. -/

namespace Verif

open Spectrum

theorem hasDim_iff {n d : PyStr} : HasDim n d ↔ getDim n = d := by
  constructor
  · rintro (⟨t, ht, rfl⟩ | ⟨h, rfl⟩)
    · exact getDim_append ht
    · exact getDim_of_not_mem h
  · rintro rfl
    by_cases h : '_' ∈ n
    · exact .inl ⟨lastPart n, lastPart_no_sep n, (getDim_lastPart h).symm⟩
    · exact .inr ⟨h, getDim_of_not_mem h⟩

theorem getPar_mem {s : Spectrum} (hn : (s.cfg.map SPar.name).Nodup) {p : SPar} (hp : p ∈ s.cfg) :
    s.getPar p.name = .ok p := by
  have : s.cfg.find? (fun q => decide (q.name = p.name)) = some p := by
    revert hn hp
    generalize s.cfg = cfg
    intro hn hp
    induction cfg with
    | nil => simp at hp
    | cons a cfg ih =>
      simp only [List.map_cons, List.nodup_cons] at hn
      rcases List.mem_cons.1 hp with rfl | hp
      · simp
      · have : a.name ≠ p.name := fun h => hn.1 (h ▸ List.mem_map.2 ⟨p, hp, rfl⟩)
        simp [this, ih hn.2 hp]
  unfold getPar; rw [this]

theorem getPar_ok {s : Spectrum} {n : PyStr} {p : SPar} (h : s.getPar n = .ok p) :
    p ∈ s.cfg ∧ p.name = n := by
  unfold getPar at h
  split at h
  · next q hq => cases h; exact ⟨List.mem_of_find?_eq_some hq, by simpa using List.find?_some hq⟩
  · cases h

theorem getDimType_no_sep {names : List PyStr} {d ty : PyStr} (h : getDimType names d = .ok ty) :
    '_' ∉ ty := by
  unfold getDimType at h
  split at h
  · cases h; exact lastPart_no_sep _
  · cases h

theorem foldlM_invariant {α β : Type} {f : β → α → Except PyErr β} {P : β → Prop}
    (hf : ∀ b a b', P b → f b a = .ok b' → P b') {l : List α} {b b' : β} (hb : P b)
    (h : l.foldlM f b = .ok b') : P b' := by
  induction l generalizing b with
  | nil => simp [pure, Except.pure] at h; subst h; exact hb
  | cons a l ih =>
    rw [List.foldlM_cons] at h
    cases hfa : f b a with
    | error e => simp [hfa, bind, Except.bind] at h
    | ok b1 => simp only [hfa, bind, Except.bind] at h; exact ih (hf _ _ _ hb hfa) h

theorem addTypes_no_sep {s t : Spectrum} {types : List (PyStr × PyStr)}
    (h : addTypes s t = .ok types) : ∀ e ∈ types, '_' ∉ e.2 := by
  refine foldlM_invariant (P := fun types => ∀ e ∈ types, '_' ∉ e.2) ?_ (by simp) h
  intro b v b' hb hstep
  simp only at hstep
  split at hstep
  · cases hstep; exact hb
  · cases hd : getDimType t.pars (getDim v) with
    | error e => simp [hd, bind, Except.bind] at hstep
    | ok ty =>
      simp only [hd, bind, Except.bind, pure, Except.pure, Except.ok.injEq] at hstep
      subst hstep
      intro e he
      rcases List.mem_cons.1 he with rfl | he
      · exact getDimType_no_sep hd
      · exact hb e he

theorem addCheckPar_ok_iff {t : Spectrum} {types : List (PyStr × PyStr)} {p : SPar} :
    addCheckPar t types p = .ok () ↔
      ∃ q, t.getPar (match assoc types (getDim p.name) with
        | some ty => getDim p.name ++ ('_' :: ty)
        | none => p.name) = .ok q ∧ AxesClose p q := by
  unfold addCheckPar AxesClose
  simp only
  cases hq : t.getPar (match assoc types (getDim p.name) with
        | some ty => getDim p.name ++ ('_' :: ty)
        | none => p.name) with
  | error e => simp [bind, Except.bind]
  | ok q =>
    simp only [bind, Except.bind, pure, Except.pure, throw, throwThe, MonadExceptOf.throw]
    by_cases h1 : npClose p.high q.high
    · by_cases h2 : npClose p.low q.low
      · by_cases h3 : p.bins = q.bins
        · simp only [h1, h2, h3, not_true_eq_false, if_false, ne_eq, true_iff]
          exact ⟨q, rfl, h1, h2, rfl⟩
        · simp [h1, h2, h3]
      · simp only [h1, h2, not_true_eq_false, not_false_eq_true, if_true, if_false, reduceCtorEq,
          false_iff]
        rintro ⟨q', hq', h⟩; cases hq'; exact h2 h.2.1
    · simp only [h1, not_false_eq_true, if_true, reduceCtorEq, false_iff]
      rintro ⟨q', hq', h⟩; cases hq'; exact h1 h.1

theorem addCheck_ok_iff {s t : Spectrum} :
    addCheck s t = .ok () ↔ s.data.shape = t.data.shape ∧
      (∀ d ∈ getDims s.pars, d ∈ getDims t.pars) ∧ (∀ d ∈ getDims t.pars, d ∈ getDims s.pars) ∧
      ∃ types, addTypes s t = .ok types ∧ ∀ p ∈ s.cfg, addCheckPar t types p = .ok () := by
  unfold addCheck
  simp only [bind, Except.bind, throw, throwThe, MonadExceptOf.throw]
  by_cases h1 : s.data.shape = t.data.shape
  · by_cases h2 : (getDims s.pars).any (fun v => decide (v ∉ getDims t.pars)) = true
    · simp only [h1, h2, ne_eq, not_true_eq_false, if_false, if_true, reduceCtorEq, false_iff]
      rintro ⟨-, h, -⟩
      simp only [List.any_eq_true, decide_eq_true_eq] at h2
      obtain ⟨x, hx, hx'⟩ := h2
      exact hx' (h x hx)
    · by_cases h3 : (getDims t.pars).any (fun v => decide (v ∉ getDims s.pars)) = true
      · simp only [h1, h2, h3, ne_eq, not_true_eq_false, if_false, if_true, reduceCtorEq, false_iff]
        rintro ⟨-, -, h, -⟩
        simp only [List.any_eq_true, decide_eq_true_eq] at h3
        obtain ⟨x, hx, hx'⟩ := h3
        exact hx' (h x hx)
      · have h2' : ∀ d ∈ getDims s.pars, d ∈ getDims t.pars := by
          simpa only [List.any_eq_true, decide_eq_true_eq, not_exists, not_and, not_not] using h2
        have h3' : ∀ d ∈ getDims t.pars, d ∈ getDims s.pars := by
          simpa only [List.any_eq_true, decide_eq_true_eq, not_exists, not_and, not_not] using h3
        simp only [h1, h2, h3, ne_eq, not_true_eq_false, if_false, true_and]
        cases ht : addTypes s t with
        | error e => simp
        | ok types =>
          simp only [Except.ok.injEq, exists_eq_left', Bool.false_eq_true, if_false, forM_except_ok]
          exact ⟨fun h => ⟨h2', h3', h⟩, fun h => h.2.2⟩
  · simp [h1]

theorem mem_getDims {names : List PyStr} {d : PyStr} :
    d ∈ getDims names ↔ ∃ n ∈ names, getDim n = d := by
  simp [getDims, sortedNames, List.mem_insertionSort]

theorem addTypes_same {s t : Spectrum} (h : ∀ v ∈ t.pars, v ∈ s.pars) :
    addTypes s t = .ok [] := by
  unfold addTypes
  revert h
  generalize t.pars = l
  have : ∀ (names : List PyStr), (∀ v ∈ l, v ∈ s.pars) →
      l.foldlM (fun (types : List (PyStr × PyStr)) v =>
      if v ∈ s.pars then pure types
      else do
        let dim := getDim v
        let dimType ← getDimType names dim
        pure ((dim, dimType) :: types)) [] = (Except.ok [] : Except PyErr _) := by
    intro names h
    induction l with
    | nil => rfl
    | cons a l ih =>
      rw [List.foldlM_cons]
      simp only [h a (by simp), if_true]
      exact ih (fun v hv => h v (by simp [hv]))
  exact fun h => this _ h

theorem addCheck_same {s t : Spectrum} (hn : (s.cfg.map SPar.name).Nodup)
    (hc : t.cfg = s.cfg) (hs : t.data.shape = s.data.shape) : addCheck s t = .ok () := by
  have hp : t.pars = s.pars := by unfold pars; rw [hc]
  refine addCheck_ok_iff.2 ⟨hs.symm, by rw [hp]; simp, by rw [hp]; simp, [], ?_, ?_⟩
  · exact addTypes_same (by rw [hp]; simp)
  · intro p hpm
    refine addCheckPar_ok_iff.2 ⟨p, ?_, ?_⟩
    · simp only [assoc, List.find?_nil, Option.map_none]
      exact getPar_mem (by rw [hc]; exact hn) (by rw [hc]; exact hpm)
    · exact ⟨npClose_self _, npClose_self _, rfl⟩

/-- What acceptance means in terms of names and axes. -/
theorem addCheck_ok_axes {s t : Spectrum} (h : addCheck s t = .ok ()) :
    s.data.shape = t.data.shape ∧
    (∀ p ∈ s.cfg, ∃ q ∈ t.cfg, getDim q.name = getDim p.name ∧ AxesClose p q) ∧
    (∀ q ∈ t.cfg, ∃ p ∈ s.cfg, getDim p.name = getDim q.name) := by
  obtain ⟨h1, -, h3, types, ht, hp⟩ := addCheck_ok_iff.1 h
  refine ⟨h1, ?_, ?_⟩
  · intro p hpm
    obtain ⟨q, hq, hc⟩ := addCheckPar_ok_iff.1 (hp p hpm)
    obtain ⟨hqm, hqn⟩ := getPar_ok hq
    refine ⟨q, hqm, ?_, hc⟩
    rw [hqn]
    split
    · next ty hty =>
      have : ∃ e ∈ types, e.2 = ty := by
        simp only [assoc, Option.map_eq_some_iff] at hty
        obtain ⟨e, he, rfl⟩ := hty
        exact ⟨e, List.mem_of_find?_eq_some he, rfl⟩
      obtain ⟨e, he, rfl⟩ := this
      exact getDim_append (addTypes_no_sep ht e he)
    · rfl
  · intro q hq
    have := h3 (getDim q.name) (mem_getDims.2 ⟨q.name, List.mem_map.2 ⟨q, hq, rfl⟩, rfl⟩)
    obtain ⟨n, hn, hn'⟩ := mem_getDims.1 this
    obtain ⟨p, hp, rfl⟩ := List.mem_map.1 hn
    exact ⟨p, hp, hn'⟩

end Verif
