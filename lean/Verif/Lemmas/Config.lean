import Verif.Spec.Config
import Verif.Lemmas.Names
import Mathlib.Data.List.Nodup
import Mathlib.Data.List.Perm.Basic

/-! Helper lemmas about configurations. -/

namespace Verif

section dict
variable {α β : Type}

theorem assoc_nil (k : PyStr) : assoc ([] : Dict α) k = none := rfl

theorem assoc_cons (e : PyStr × α) (d : Dict α) (k : PyStr) :
    assoc (e :: d) k = if e.1 = k then some e.2 else assoc d k := by
  unfold assoc
  rw [List.find?_cons]
  by_cases h : e.1 = k <;> simp [h]

theorem assoc_eq_none {d : Dict α} {k : PyStr} : assoc d k = none ↔ k ∉ d.map Prod.fst := by
  induction d with
  | nil => simp [assoc_nil]
  | cons e d ih =>
    rw [assoc_cons]
    by_cases h : e.1 = k
    · simp [h]
    · simp only [h, if_false, ih, List.map_cons, List.mem_cons, not_or]
      exact ⟨fun h' => ⟨fun hk => h hk.symm, h'⟩, fun h' => h'.2⟩

theorem assoc_mem {d : Dict α} {k : PyStr} {v : α} (h : assoc d k = some v) : (k, v) ∈ d := by
  induction d with
  | nil => cases h
  | cons e d ih =>
    rw [assoc_cons] at h
    by_cases he : e.1 = k
    · rw [if_pos he] at h
      have h2 : e.2 = v := Option.some.inj h
      rw [← he, ← h2]
      exact List.mem_cons_self
    · rw [if_neg he] at h
      exact List.mem_cons_of_mem _ (ih h)

theorem assoc_of_mem {d : Dict α} {k : PyStr} {v : α} (hnd : (d.map Prod.fst).Nodup)
    (h : (k, v) ∈ d) : assoc d k = some v := by
  induction d with
  | nil => cases h
  | cons e d ih =>
    rw [List.map_cons, List.nodup_cons] at hnd
    rw [assoc_cons]
    rcases List.mem_cons.1 h with rfl | h'
    · simp
    · have hne : e.1 ≠ k := by
        intro he
        exact hnd.1 (he ▸ List.mem_map_of_mem (f := Prod.fst) h')
      rw [if_neg hne, ih hnd.2 h']

theorem assoc_dictSet (d : Dict α) (k k' : PyStr) (v : α) :
    assoc (dictSet d k v) k' = if k = k' then some v else assoc d k' := by
  induction d with
  | nil => simp [dictSet, assoc_cons, assoc_nil]
  | cons e d ih =>
    rw [dictSet]
    by_cases h : e.1 = k
    · rw [if_pos h, assoc_cons, assoc_cons]
      by_cases hk : k = k'
      · simp [hk]
      · simp [hk, h]
    · rw [if_neg h, assoc_cons, assoc_cons, ih]
      by_cases hk : k = k'
      · subst hk; simp [h]
      · simp [hk]

theorem keys_dictSet (d : Dict α) (k : PyStr) (v : α) :
    (dictSet d k v).map Prod.fst =
      if k ∈ d.map Prod.fst then d.map Prod.fst else d.map Prod.fst ++ [k] := by
  induction d with
  | nil => simp [dictSet]
  | cons e d ih =>
    rw [dictSet]
    by_cases h : e.1 = k
    · simp [h]
    · have h' : k ≠ e.1 := fun hk => h hk.symm
      rw [if_neg h, List.map_cons, ih]
      by_cases hm : k ∈ d.map Prod.fst
      · have : k ∈ (e :: d).map Prod.fst := by
          rw [List.map_cons]; exact List.mem_cons_of_mem _ hm
        rw [if_pos hm, if_pos this, List.map_cons]
      · have : k ∉ (e :: d).map Prod.fst := by
          rw [List.map_cons]; exact fun hk => (List.mem_cons.1 hk).elim h' hm
        rw [if_neg hm, if_neg this, List.map_cons, List.cons_append]

theorem nodup_dictSet {d : Dict α} (h : (d.map Prod.fst).Nodup) (k : PyStr) (v : α) :
    ((dictSet d k v).map Prod.fst).Nodup := by
  rw [keys_dictSet]
  split
  · exact h
  · next hk => exact List.nodup_append.2 ⟨h, by simp, by
      intro a ha b hb
      rw [List.mem_singleton] at hb
      rintro rfl
      exact hk (hb ▸ ha)⟩

theorem dictSet_fresh {d : Dict α} {k : PyStr} (h : k ∉ d.map Prod.fst) (v : α) :
    dictSet d k v = d ++ [(k, v)] := by
  induction d with
  | nil => rfl
  | cons e d ih =>
    rw [List.map_cons, List.mem_cons, not_or] at h
    rw [dictSet, if_neg (fun he => h.1 he.symm), ih h.2, List.cons_append]

/-- Setting fresh, distinct keys one after another appends them. -/
theorem foldl_dictSet_fresh {γ : Type} (key : γ → PyStr) (val : γ → α) (l : List γ) (d : Dict α)
    (hnd : (l.map key).Nodup) (hf : ∀ k ∈ l.map key, k ∉ d.map Prod.fst) :
    l.foldl (fun d e => dictSet d (key e) (val e)) d = d ++ l.map (fun e => (key e, val e)) := by
  induction l generalizing d with
  | nil => simp
  | cons e l ih =>
    rw [List.map_cons, List.nodup_cons] at hnd
    rw [List.foldl_cons, dictSet_fresh (hf _ (by simp)), ih _ hnd.2]
    · simp
    · intro k hk hk'
      rw [List.map_append, List.mem_append] at hk'
      rcases hk' with hk' | hk'
      · exact hf k (by simp only [List.map_cons]; exact List.mem_cons_of_mem _ hk) hk'
      · have hke : k = key e := by simpa using hk'
        exact hnd.1 (hke ▸ hk)

/-- The same in the exception monad. -/
theorem foldlM_dictSet_fresh {γ : Type} (key : γ → PyStr) (val : γ → α)
    (f : Dict α → γ → Except PyErr (Dict α)) (l : List γ) (d : Dict α)
    (hstep : ∀ d, ∀ e ∈ l, f d e = .ok (dictSet d (key e) (val e)))
    (hnd : (l.map key).Nodup) (hf : ∀ k ∈ l.map key, k ∉ d.map Prod.fst) :
    l.foldlM f d = .ok (d ++ l.map (fun e => (key e, val e))) := by
  rw [← foldl_dictSet_fresh key val l d hnd hf]
  clear hnd hf
  induction l generalizing d with
  | nil => rfl
  | cons e l ih =>
    rw [List.foldlM_cons, hstep d e (by simp), List.foldl_cons]
    exact ih _ (fun d' e' he' => hstep d' e' (List.mem_cons_of_mem _ he'))

end dict

/-! ### first occurrences -/

theorem mem_firstSeen {n : PyStr} {l : List PyStr} : n ∈ firstSeen l ↔ n ∈ l := by
  induction l with
  | nil => simp [firstSeen]
  | cons a l ih =>
    by_cases h : n = a
    · simp [firstSeen, h]
    · simp [firstSeen, h, ih]

theorem nodup_firstSeen (l : List PyStr) : (firstSeen l).Nodup := by
  induction l with
  | nil => simp [firstSeen]
  | cons a l ih =>
    rw [firstSeen, List.nodup_cons]
    exact ⟨by simp, ih.filter _⟩

theorem firstSeen_concat (l : List PyStr) (n : PyStr) :
    firstSeen (l ++ [n]) = if n ∈ l then firstSeen l else firstSeen l ++ [n] := by
  induction l with
  | nil => simp [firstSeen]
  | cons a l ih =>
    rw [List.cons_append, firstSeen, ih, firstSeen]
    by_cases ha : n = a
    · subst ha
      by_cases hl : n ∈ l
      · simp [hl]
      · simp [hl]
    · by_cases hl : n ∈ l
      · simp [hl]
      · simp [hl, ha]

theorem firstSeen_of_nodup {l : List PyStr} (h : l.Nodup) : firstSeen l = l := by
  induction l with
  | nil => rfl
  | cons a l ih =>
    rw [List.nodup_cons] at h
    rw [firstSeen, ih h.2, List.filter_eq_self.2]
    intro b hb
    have : b ≠ a := by rintro rfl; exact h.1 hb
    simpa using this

section groupBy
variable {α : Type} (label : α → PyStr)

theorem mem_groupBy {l : List α} {a : α} : a ∈ groupBy label l ↔ a ∈ l := by
  unfold groupBy
  rw [List.mem_flatMap]
  constructor
  · rintro ⟨d, -, ha⟩
    exact (List.mem_filter.1 ha).1
  · intro ha
    exact ⟨label a, mem_firstSeen.2 (List.mem_map_of_mem ha), List.mem_filter.2 ⟨ha, by simp⟩⟩

theorem nodup_groupBy {l : List α} (h : l.Nodup) : (groupBy label l).Nodup := by
  unfold groupBy
  rw [List.nodup_flatMap]
  refine ⟨fun d _ => h.filter _, (nodup_firstSeen _).imp ?_⟩
  intro d d' hdd a ha ha'
  have h1 := (List.mem_filter.1 ha).2
  have h2 := (List.mem_filter.1 ha').2
  rw [decide_eq_true_eq] at h1 h2
  exact hdd (h1.symm.trans h2)

theorem groupBy_perm {l : List α} (h : l.Nodup) : List.Perm (groupBy label l) l :=
  (List.perm_ext_iff_of_nodup (nodup_groupBy label h) h).2 (fun _ => mem_groupBy label)

end groupBy

/-! ### removing the dimension from a name -/

theorem pyRemove_of_not_infix {old s : PyStr} (h : ¬ old <:+: s) : pyRemove old s = s := by
  induction s with
  | nil => rw [pyRemove]
  | cons c s ih =>
    rw [pyRemove, if_neg, ih]
    · exact fun hs => h (hs.trans (List.suffix_cons c s).isInfix)
    · intro hp
      exact h (List.isPrefixOf_iff_prefix.1 hp).isInfix

theorem pyRemove_prefix {old : PyStr} (hold : old ≠ []) (s : PyStr) :
    pyRemove old (old ++ s) = pyRemove old s := by
  cases old with
  | nil => exact absurd rfl hold
  | cons c old =>
    rw [List.cons_append, pyRemove, if_pos]
    · congr 1
      simp
    · exact List.isPrefixOf_iff_prefix.2 ⟨s, by simp⟩

theorem infix_sep_mem {dim s : PyStr} (h : (dim ++ ['_']) <:+: s) : '_' ∈ s :=
  h.subset (by simp)

theorem not_infix_resolution {dim : PyStr} : ¬ (dim ++ ['_']) <:+: lit "resolution" :=
  fun h => absurd (infix_sep_mem h) (by decide)

theorem not_infix_shift {dim : PyStr} : ¬ (dim ++ ['_']) <:+: lit "shift" :=
  fun h => absurd (infix_sep_mem h) (by decide)

theorem not_infix_scale {dim : PyStr} : ¬ (dim ++ ['_']) <:+: lit "scale" :=
  fun h => absurd (infix_sep_mem h) (by decide)

theorem infix_ly {dim : PyStr} :
    (dim ++ ['_']) <:+: lit "resolution_ly" ↔ dim <:+ lit "resolution" := by
  constructor
  · rintro ⟨s, t, h⟩
    have h' : (s ++ dim) ++ '_' :: t = lit "resolution" ++ '_' :: lit "ly" := by
      rw [← List.append_assoc, List.append_assoc, List.singleton_append] at h
      exact h
    have hs : pySplit '_' ((s ++ dim) ++ '_' :: t) = [lit "resolution", lit "ly"] := by
      rw [h']; decide
    rw [pySplit_append] at hs
    have hl := congrArg List.length hs
    rw [List.length_append, List.length_cons, List.length_cons, List.length_nil] at hl
    have h1 := List.length_pos_of_ne_nil (pySplit_ne_nil '_' (s ++ dim))
    have h2 := List.length_pos_of_ne_nil (pySplit_ne_nil '_' t)
    obtain ⟨x, hx⟩ := List.length_eq_one_iff.1 (show (pySplit '_' (s ++ dim)).length = 1 by omega)
    rw [hx, List.singleton_append, List.cons.injEq] at hs
    have : s ++ dim = x := by
      have := List.intercalate_splitOn (xs := s ++ dim) '_'
      rw [show List.splitOn '_' (s ++ dim) = [x] from hx] at this
      simpa using this.symm
    exact ⟨s, this.trans hs.1⟩
  · rintro ⟨s, hs⟩
    refine ⟨s, lit "ly", ?_⟩
    rw [← List.append_assoc, hs]
    rfl

/-- The last character tells the systematics apart. -/
theorem systematic_inj {d d' s s' : PyStr} {k k' : ParKind} (hs : Systematic s k)
    (hs' : Systematic s' k') (h : d ++ '_' :: s = d' ++ '_' :: s') : d = d' ∧ s = s' := by
  have hl := congrArg List.getLast? h
  have : s = s' := by
    cases hs <;> cases hs' <;> first | rfl | (exfalso; revert hl; simp [List.getLast?_append])
  subst this
  exact ⟨List.append_cancel_right h, rfl⟩

end Verif
