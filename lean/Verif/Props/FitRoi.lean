import Verif.Lemmas.Fit
import Mathlib.Algebra.Order.Ring.Rat

/-! # C64: the region of interest of a fit -/

namespace Verif

theorem checkRoiVal_pair (old : Option (Dict RoiVal)) (dim : PyStr) (a b : ℚ) :
    checkRoiVal old dim (.seq [a, b]) = .ok (.seq [min a b, max a b]) := by
  simp only [checkRoiVal]
  by_cases h : b < a
  · rw [if_pos h, min_eq_right h.le, max_eq_left h.le]
  · rw [if_neg h, min_eq_left (not_lt.1 h), max_eq_right (not_lt.1 h)]

theorem checkRoiVal_ok {old : Option (Dict RoiVal)} {dim : PyStr} {v w : RoiVal}
    (h : checkRoiVal old dim v = .ok w) : ∃ a b, v = .seq [a, b] := by
  cases v with
  | other => simp [checkRoiVal] at h
  | seq l =>
    match l, h with
    | [a, b], _ => exact ⟨a, b, rfl⟩
    | [], h | [_], h | _ :: _ :: _ :: _, h =>
      exfalso
      simp only [checkRoiVal] at h
      split at h
      · cases h
      · split at h <;> cases h

theorem checkRoiLoop_pairs {old : Option (Dict RoiVal)} {d : Dict RoiVal} (h : Pairs d) :
    ∃ d', checkRoiLoop old d = (d', none) ∧ PutInOrder d d' := by
  induction d with
  | nil => exact ⟨[], rfl, .nil⟩
  | cons e d ih =>
    obtain ⟨d', h1, h2⟩ := ih fun x hx => h x (List.mem_cons_of_mem _ hx)
    obtain ⟨a, b, hab⟩ := h e List.mem_cons_self
    refine ⟨(e.1, .seq [min a b, max a b]) :: d', ?_, .cons ⟨rfl, a, b, hab, rfl⟩ h2⟩
    simp only [checkRoiLoop, hab, checkRoiVal_pair, h1]

theorem checkRoiLoop_ok {old : Option (Dict RoiVal)} {d : Dict RoiVal}
    (h : (checkRoiLoop old d).2 = none) : Pairs d := by
  induction d with
  | nil => exact fun _ h => by cases h
  | cons e d ih =>
    cases hv : checkRoiVal old e.1 e.2 with
    | error err => simp only [checkRoiLoop, hv] at h; cases h
    | ok v =>
      simp only [checkRoiLoop, hv] at h
      intro x hx
      rcases List.mem_cons.1 hx with rfl | hx
      · exact checkRoiVal_ok hv
      · exact ih h x hx

theorem putInOrder_unique {d d1 d2 : Dict RoiVal} (h1 : PutInOrder d d1) (h2 : PutInOrder d d2) :
    d1 = d2 := by
  unfold PutInOrder at h1 h2
  induction h1 generalizing d2 with
  | nil => cases h2; rfl
  | cons hab _ ih =>
    cases h2 with
    | cons hac h2 =>
      obtain ⟨n1, a, b, e1, e2⟩ := hab
      obtain ⟨n2, a', b', e1', e2'⟩ := hac
      rw [e1] at e1'
      cases e1'
      rw [ih h2, Prod.ext (n1.trans n2.symm) (e2.trans e2'.symm)]

theorem putInOrder_self {d d' : Dict RoiVal} (h : PutInOrder d d') : PutInOrder d' d' := by
  unfold PutInOrder at h ⊢
  induction h with
  | nil => exact .nil
  | cons hab _ ih =>
    refine .cons ?_ ih
    obtain ⟨_, a, b, _, e2⟩ := hab
    exact ⟨rfl, _, _, e2, by rw [e2]; simp⟩

theorem putInOrder_pairs {d d' : Dict RoiVal} (h : PutInOrder d d') : Pairs d' := by
  unfold PutInOrder at h
  induction h with
  | nil => exact fun _ h => by cases h
  | cons hab _ ih =>
    intro x hx
    rcases List.mem_cons.1 hx with rfl | hx
    · obtain ⟨_, a, b, _, e2⟩ := hab
      exact ⟨_, _, e2⟩
    · exact ih x hx

/-- **C64, accepted regions.** A dictionary of pairs is accepted whatever region the fit had
before; the region of the fit (and the caller's dictionary, which is the same object) then
has the same dimensions with each pair in ascending order. -/
theorem c64_ordered (old : Option (Dict RoiVal)) (d : Dict RoiVal) (hd : Pairs d) :
    ∃ d', PutInOrder d d' ∧ setRoi old (.dict d) = (some d', .dict d', none) := by
  obtain ⟨d', h1, h2⟩ := checkRoiLoop_pairs (old := old) hd
  refine ⟨d', h2, ?_⟩
  simp only [setRoi, checkRoi, h1]

/-- **C64, what is accepted.** Only dictionaries of pairs are; a rejected region leaves the
region of the fit as it was. -/
theorem c64_accepted_iff (old : Option (Dict RoiVal)) (roi : RoiArg) :
    ((setRoi old roi).2.2 = none ↔ ∃ d, roi = .dict d ∧ Pairs d) ∧
    ((setRoi old roi).2.2 ≠ none → (setRoi old roi).1 = old) := by
  cases roi with
  | other =>
    simp only [setRoi, checkRoi]
    exact ⟨⟨fun h => (by cases h), fun ⟨d, h, _⟩ => (by cases h)⟩, fun _ => by trivial⟩
  | dict d =>
    have hcase : (checkRoiLoop old d).2 = none ∨ ∃ e, (checkRoiLoop old d).2 = some e := by
      cases (checkRoiLoop old d).2 with
      | none => exact .inl rfl
      | some e => exact .inr ⟨e, rfl⟩
    rcases hcase with h | ⟨e, h⟩
    · have hs : setRoi old (.dict d) =
          (some (checkRoiLoop old d).1, .dict (checkRoiLoop old d).1, none) := by
        simp only [setRoi, checkRoi, h]
      rw [hs]
      exact ⟨⟨fun _ => ⟨d, rfl, checkRoiLoop_ok h⟩, fun _ => rfl⟩, fun h => absurd rfl h⟩
    · have hs : setRoi old (.dict d) = (old, .dict (checkRoiLoop old d).1, some e) := by
        simp only [setRoi, checkRoi, h]
      rw [hs]
      refine ⟨⟨fun h => (by cases h), fun ⟨d', h1, h2⟩ => ?_⟩, fun _ => rfl⟩
      cases h1
      obtain ⟨d', h3, -⟩ := checkRoiLoop_pairs (old := old) h2
      rw [h3] at h; cases h

/-- **C64, again.** Setting the ordered region once more changes nothing, and pairs given in
either order give the same region. -/
theorem c64_idempotent (old old' : Option (Dict RoiVal)) (d d' : Dict RoiVal)
    (h : setRoi old (.dict d) = (some d', .dict d', none)) :
    setRoi old' (.dict d') = (some d', .dict d', none) ∧
    ∀ a b dim, d = [(dim, .seq [a, b])] →
      (setRoi old (.dict [(dim, .seq [b, a])])).1 = some d' := by
  have hp : Pairs d := by
    obtain ⟨d0, h1, h2⟩ := (c64_accepted_iff old (.dict d)).1.1 (by rw [h])
    cases h1; exact h2
  obtain ⟨d1, h1, h2⟩ := c64_ordered old d hp
  rw [h] at h2
  cases h2
  constructor
  · obtain ⟨d2, h3, h4⟩ := c64_ordered old' d' (putInOrder_pairs h1)
    rw [putInOrder_unique h3 (putInOrder_self h1)] at h4
    exact h4
  · rintro a b dim rfl
    obtain ⟨d2, h3, h4⟩ := c64_ordered old [(dim, .seq [b, a])]
      (fun e he => by rw [List.mem_singleton.1 he]; exact ⟨b, a, rfl⟩)
    rw [h4]
    unfold PutInOrder at h1 h3
    cases h1 with
    | cons e1 t1 =>
      cases t1
      cases h3 with
      | cons e3 t3 =>
        cases t3
        obtain ⟨n1, x, y, hx, hy⟩ := e1
        obtain ⟨n3, x', y', hx', hy'⟩ := e3
        cases hx; cases hx'
        rw [Prod.ext (n3.trans n1.symm) (hy'.trans (by rw [hy, min_comm, max_comm]))]

/-- The error of the first entry that is not a pair. -/
theorem checkRoiLoop_first {old : Option (Dict RoiVal)} {pre post : Dict RoiVal}
    {e : PyStr × RoiVal} {err : PyErr} (hp : Pairs pre) (he : checkRoiVal old e.1 e.2 = .error err) :
    ∃ pre', PutInOrder pre pre' ∧
      checkRoiLoop old (pre ++ e :: post) = (pre' ++ e :: post, some err) := by
  induction pre with
  | nil => exact ⟨[], .nil, by simp only [List.nil_append, checkRoiLoop, he]⟩
  | cons x pre ih =>
    obtain ⟨pre', h1, h2⟩ := ih fun y hy => hp y (List.mem_cons_of_mem _ hy)
    obtain ⟨a, b, hab⟩ := hp x List.mem_cons_self
    refine ⟨(x.1, .seq [min a b, max a b]) :: pre', .cons ⟨rfl, a, b, hab, rfl⟩ h1, ?_⟩
    simp only [List.cons_append, checkRoiLoop, hab, checkRoiVal_pair, h2]

/-- **C64, types.** A region that is not a dictionary is a `TypeError`; so is an entry that is
not a tuple or list, when the entries before it are pairs. The entries before it have then
already been put in order in the caller's dictionary, the rest of it is unchanged. -/
theorem c64_type_error (old : Option (Dict RoiVal)) (pre post : Dict RoiVal) (dim : PyStr)
    (hp : Pairs pre) :
    setRoi old .other = (old, .other, some .typeError) ∧
    ∃ pre', PutInOrder pre pre' ∧ setRoi old (.dict (pre ++ (dim, .other) :: post)) =
      (old, .dict (pre' ++ (dim, .other) :: post), some .typeError) := by
  refine ⟨rfl, ?_⟩
  obtain ⟨pre', h1, h2⟩ := checkRoiLoop_first (old := old) (pre := pre) (post := post)
    (e := (dim, .other)) (err := .typeError) hp rfl
  exact ⟨pre', h1, by simp only [setRoi, checkRoi, h2]⟩

theorem checkRoiVal_length {old : Option (Dict RoiVal)} {dim : PyStr} {l : List ℚ}
    (h : l.length ≠ 2) : checkRoiVal old dim (.seq l) = .error (match old with
      | none => .attributeError
      | some d => match assoc d dim with
        | none => .keyError
        | some _ => .compatibility) := by
  match l, h with
  | [a, b], h => exact absurd rfl h
  | [], _ | [_], _ | _ :: _ :: _ :: _, _ =>
    simp only [checkRoiVal]
    cases old with
    | none => rfl
    | some d => dsimp only; cases assoc d dim <;> rfl

/-- **C64, lengths, partial.** An entry of another length than two is a `CompatibilityError`
if the fit already has a region with this dimension. (The property asks for it always, see
`c64_length_negation`.) -/
theorem c64_length_partial (old pre post : Dict RoiVal) (dim : PyStr) (v : RoiVal)
    (hdim : (dim, v) ∈ old) (l : List ℚ) (hl : l.length ≠ 2) (hp : Pairs pre) :
    (setRoi (some old) (.dict (pre ++ (dim, .seq l) :: post))).1 = some old ∧
    (setRoi (some old) (.dict (pre ++ (dim, .seq l) :: post))).2.2 = some .compatibility := by
  have hv : checkRoiVal (some old) dim (.seq l) = .error .compatibility := by
    rw [checkRoiVal_length hl]
    have : (assoc old dim).isSome := by
      unfold assoc
      rw [Option.isSome_map, List.find?_isSome]
      exact ⟨_, hdim, by simp⟩
    obtain ⟨w, hw⟩ := Option.isSome_iff_exists.1 this
    simp only [hw]
  obtain ⟨pre', -, h2⟩ := checkRoiLoop_first (old := some old) (pre := pre) (post := post)
    (e := (dim, .seq l)) hp hv
  simp only [setRoi, checkRoi, h2, and_self]

/-- **C64, lengths, negation.** Whenever a fit is constructed with an entry of another length,
the error is an `AttributeError`, and later, for a dimension the fit did not have yet, a
`KeyError`: both come from writing the message. -/
theorem c64_length_negation (old : Dict RoiVal) (dim : PyStr) (hdim : ∀ v, (dim, v) ∉ old)
    (l : List ℚ) (hl : l.length ≠ 2) :
    setRoi none (.dict [(dim, .seq l)]) =
      (none, .dict [(dim, .seq l)], some .attributeError) ∧
    setRoi (some old) (.dict [(dim, .seq l)]) =
      (some old, .dict [(dim, .seq l)], some .keyError) := by
  have hn : assoc old dim = none := by
    unfold assoc
    rw [Option.map_eq_none_iff, List.find?_eq_none]
    rintro ⟨a, v⟩ hx he
    simp only [decide_eq_true_eq] at he
    subst he
    exact hdim v hx
  constructor
  · simp only [setRoi, checkRoi, checkRoiLoop, checkRoiVal_length hl]
  · simp only [setRoi, checkRoi, checkRoiLoop, checkRoiVal_length hl, hn]

/-! ### cases that meet the hypotheses -/

/-- Two dimensions, the first pair reversed. -/
def exRoi : Dict RoiVal := [(lit "energy", .seq [3, 2]), (lit "radial3", .seq [0, 1])]

theorem exRoi_pairs : Pairs exRoi := by
  intro e he
  simp only [exRoi, List.mem_cons, List.not_mem_nil, or_false] at he
  rcases he with rfl | rfl
  exacts [⟨3, 2, rfl⟩, ⟨0, 1, rfl⟩]

example : setRoi none (.dict exRoi) =
    (some [(lit "energy", .seq [2, 3]), (lit "radial3", .seq [0, 1])],
     .dict [(lit "energy", .seq [2, 3]), (lit "radial3", .seq [0, 1])], none) := by
  obtain ⟨d', h1, h2⟩ := c64_ordered none exRoi exRoi_pairs
  rw [h2, putInOrder_unique h1 (d2 := [(lit "energy", .seq [2, 3]), (lit "radial3", .seq [0, 1])])]
  exact .cons ⟨rfl, 3, 2, rfl, by norm_num⟩ (.cons ⟨rfl, 0, 1, rfl, by norm_num⟩ .nil)

example := c64_type_error (some exRoi) exRoi [] (lit "z") exRoi_pairs
example := c64_length_partial exRoi exRoi [] (lit "energy") _ List.mem_cons_self [1, 2, 3]
  (by decide) exRoi_pairs
example := c64_length_negation exRoi (lit "z") (by simp [exRoi]) [1] (by decide)
example (old : Option (Dict RoiVal)) : (setRoi old (.dict exRoi)).2.2 = none :=
  (c64_accepted_iff old _).1.2 ⟨_, rfl, exRoi_pairs⟩

end Verif
