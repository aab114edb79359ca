import Verif.Spec.Minimise
import Verif.Lemmas.NdArray
import Mathlib.Tactic.Linarith
import Mathlib.Tactic.Ring
import Mathlib.Data.List.Nodup
import Mathlib.Data.List.ProdSigma

/-! Helper lemmas about the grid search. -/

namespace Verif

/-! ### Minimum of a flat list -/

theorem argminAux_spec {α : Type} [LinearOrder α] (l : List α) (pre : List α) (best : α) (bi : ℕ)
    (hbi : pre[bi]? = some best)
    (hmin : ∀ (j : ℕ) (y : α), pre[j]? = some y → best ≤ y ∧ (j < bi → best < y)) :
    ∃ x, (pre ++ l)[argminAux best bi pre.length l]? = some x ∧
      ∀ (j : ℕ) (y : α), (pre ++ l)[j]? = some y →
        x ≤ y ∧ (j < argminAux best bi pre.length l → x < y) := by
  induction l generalizing pre best bi with
  | nil => simpa [argminAux] using ⟨best, hbi, hmin⟩
  | cons a l ih =>
    have hlen : bi < pre.length := (List.getElem?_eq_some_iff.1 hbi).1
    have happ : pre ++ a :: l = (pre ++ [a]) ++ l := by simp
    rw [happ]
    have hl : pre.length + 1 = (pre ++ [a]).length := by simp
    simp only [argminAux]
    split
    · rename_i hlt
      rw [hl]
      apply ih
      · simp
      · intro j y hj
        rcases Nat.lt_or_ge j pre.length with h | h
        · rw [List.getElem?_append_left h] at hj
          exact ⟨(hlt.trans_le (hmin j y hj).1).le, fun _ => hlt.trans_le (hmin j y hj).1⟩
        · rw [List.getElem?_append_right h] at hj
          have := (List.getElem?_eq_some_iff.1 hj).1
          have h0 : j - pre.length = 0 := by simpa using this
          rw [h0] at hj
          simp at hj
          subst hj
          exact ⟨le_rfl, fun h' => by omega⟩
    · rename_i hlt
      rw [hl]
      apply ih
      · rw [List.getElem?_append_left hlen]; exact hbi
      · intro j y hj
        rcases Nat.lt_or_ge j pre.length with h | h
        · rw [List.getElem?_append_left h] at hj
          exact hmin j y hj
        · rw [List.getElem?_append_right h] at hj
          have := (List.getElem?_eq_some_iff.1 hj).1
          have h0 : j - pre.length = 0 := by simpa using this
          rw [h0] at hj
          simp at hj
          subst hj
          exact ⟨not_lt.1 hlt, fun h' => by omega⟩

theorem npArgmin_spec {α : Type} [LinearOrder α] {l : List α} (h : l ≠ []) :
    ∃ k x, npArgmin l = .ok k ∧ l[k]? = some x ∧
      ∀ (j : ℕ) (y : α), l[j]? = some y → x ≤ y ∧ (j < k → x < y) := by
  cases l with
  | nil => exact absurd rfl h
  | cons a l =>
    obtain ⟨x, hx, hm⟩ := argminAux_spec l [a] a 0 (by simp) (by
      intro j y hj
      cases j with
      | zero => simp at hj; subst hj; exact ⟨le_rfl, fun h => absurd h (Nat.lt_irrefl 0)⟩
      | succ j => simp at hj)
    exact ⟨_, x, rfl, hx, hm⟩

theorem foldl_min_spec {α : Type} [LinearOrder α] (l : List α) (m : α) :
    (l.foldl (fun m y => if y < m then y else m) m = m ∨
      l.foldl (fun m y => if y < m then y else m) m ∈ l) ∧
    l.foldl (fun m y => if y < m then y else m) m ≤ m ∧
    ∀ y ∈ l, l.foldl (fun m y => if y < m then y else m) m ≤ y := by
  induction l generalizing m with
  | nil => simp
  | cons a l ih =>
    simp only [List.foldl_cons]
    obtain ⟨h1, h2, h3⟩ := ih (if a < m then a else m)
    generalize hr : List.foldl (fun m y => if y < m then y else m) (if a < m then a else m) l = r at *
    have hle : (if a < m then a else m) ≤ m ∧ (if a < m then a else m) ≤ a := by
      split
      · rename_i h; exact ⟨h.le, le_rfl⟩
      · rename_i h; exact ⟨le_rfl, not_lt.1 h⟩
    refine ⟨?_, h2.trans hle.1, ?_⟩
    · rcases h1 with h1 | h1
      · by_cases h : a < m
        · right; simp [h1, h]
        · left; simp [h1, h]
      · right; exact List.mem_cons_of_mem _ h1
    · intro y hy
      rcases List.mem_cons.1 hy with rfl | hy
      · exact h2.trans hle.2
      · exact h3 y hy

theorem npMin_spec {α : Type} [LinearOrder α] {l : List α} {k : ℕ} {x : α}
    (hk : l[k]? = some x) (hm : ∀ (j : ℕ) (y : α), l[j]? = some y → x ≤ y) : npMin l = .ok x := by
  cases l with
  | nil => simp at hk
  | cons a l =>
    obtain ⟨h1, h2, h3⟩ := foldl_min_spec l a
    simp only [npMin]
    congr 1
    apply le_antisymm
    · have hx : x ∈ a :: l := List.mem_of_getElem? hk
      rcases List.mem_cons.1 hx with rfl | hx
      · exact h2
      · exact h3 _ hx
    · have : List.foldl (fun m y => if y < m then y else m) a l ∈ a :: l := by
        rcases h1 with h1 | h1
        · rw [h1]; exact List.mem_cons_self
        · exact List.mem_cons_of_mem _ h1
      obtain ⟨j, hj⟩ := List.getElem?_of_mem this
      exact hm j _ hj

/-! ### All index lists -/

theorem mem_allIdx {s idx : List ℕ} : idx ∈ allIdx s ↔ InB s idx := by
  induction s generalizing idx with
  | nil => simp [allIdx]
  | cons n s ih =>
    cases idx with
    | nil => simp [allIdx]
    | cons i idx => simp [allIdx, ih]

theorem length_allIdx (s : List ℕ) : (allIdx s).length = s.prod := by
  induction s with
  | nil => simp [allIdx]
  | cons n s ih => simp [allIdx, ih, List.length_flatMap]

theorem cons_lt_cons_iff' {a b : ℕ} {s t : List ℕ} :
    a :: s < b :: t ↔ a < b ∨ (a = b ∧ s < t) := by
  exact List.cons_lt_cons_iff

theorem allIdx_sorted (s : List ℕ) : (allIdx s).Pairwise (· < ·) := by
  induction s with
  | nil => simp [allIdx]
  | cons n s ih =>
    simp only [allIdx]
    rw [List.pairwise_flatMap]
    refine ⟨fun i _ => ?_, ?_⟩
    · rw [List.pairwise_map]
      exact ih.imp (fun h => cons_lt_cons_iff'.2 (Or.inr ⟨rfl, h⟩))
    · refine List.pairwise_lt_range.imp (fun {i j} hij x hx y hy => ?_)
      obtain ⟨x', _, rfl⟩ := List.mem_map.1 hx
      obtain ⟨y', _, rfl⟩ := List.mem_map.1 hy
      exact cons_lt_cons_iff'.2 (Or.inl hij)

theorem allIdx_getElem? {s : List ℕ} {k : ℕ} (hk : k < s.prod) :
    (allIdx s)[k]? = some (unravelIdx s k) := by
  induction s generalizing k with
  | nil =>
    simp at hk
    subst hk
    simp [allIdx, unravelIdx]
  | cons n s ih =>
    simp only [allIdx, unravelIdx]
    simp only [List.prod_cons] at hk
    have hp : 0 < s.prod := by
      rcases Nat.eq_zero_or_pos s.prod with h | h
      · rw [h] at hk; simp at hk
      · exact h
    induction n generalizing k with
    | zero => simp at hk
    | succ n ihn =>
      rw [List.range_succ, List.flatMap_append]
      have hlen : ((List.range n).flatMap (fun i => (allIdx s).map (i :: ·))).length = n * s.prod := by
        simp [List.length_flatMap, length_allIdx]
      rcases Nat.lt_or_ge k (n * s.prod) with h | h
      · rw [List.getElem?_append_left (by omega)]
        exact ihn h
      · rw [List.getElem?_append_right (by omega), hlen]
        have hk' : k - n * s.prod < s.prod := by
          have : (n + 1) * s.prod = n * s.prod + s.prod := by ring
          omega
        have hd : k / s.prod = n := by
          apply Nat.div_eq_of_lt_le
          · exact h
          · exact hk
        have hm : k % s.prod = k - n * s.prod := by
          have := Nat.mod_add_div k s.prod
          rw [hd] at this
          have h2 : s.prod * n = n * s.prod := by ring
          omega
        simp only [List.flatMap_cons, List.flatMap_nil, List.append_nil, List.getElem?_map, ih hk',
          Option.map_some, hd, hm]

theorem allIdx_snoc (s : List ℕ) (n : ℕ) :
    allIdx (s ++ [n]) = (allIdx s).flatMap (fun o => (List.range n).map (fun k : ℕ => o ++ [k])) := by
  induction s with
  | nil =>
    simp only [allIdx, List.nil_append, List.flatMap_cons, List.flatMap_nil, List.append_nil,
      List.map_cons, List.map_nil]
    exact List.map_eq_flatMap.symm
  | cons m s ih =>
    simp only [List.cons_append, allIdx, ih, List.map_flatMap, List.flatMap_map, List.flatMap_assoc,
      List.map_map]
    rfl

theorem flatMap_getElem? {α β : Type} (l : List α) (f : α → ℕ → β) (n i k : ℕ) (hk : k < n) :
    (l.flatMap (fun o => (List.range n).map (f o)))[i * n + k]? = l[i]?.map (fun o => f o k) := by
  induction l generalizing i with
  | nil => simp
  | cons a l ih =>
    rw [List.flatMap_cons]
    cases i with
    | zero =>
      rw [List.getElem?_append_left (by simpa using hk)]
      simp [hk]
    | succ i =>
      have : (i + 1) * n + k = n + (i * n + k) := by ring
      rw [List.getElem?_append_right (by simp; omega)]
      simp only [List.length_map, List.length_range, List.getElem?_cons_succ]
      rw [← ih, this]
      congr 1
      omega

theorem allIdx_lt_iff {s : List ℕ} {j k : ℕ} (hj : j < s.prod) (hk : k < s.prod) (h : j < k) :
    unravelIdx s j < unravelIdx s k := by
  have hs := allIdx_sorted s
  rw [List.pairwise_iff_getElem] at hs
  have hj' : j < (allIdx s).length := by rw [length_allIdx]; exact hj
  have hk' : k < (allIdx s).length := by rw [length_allIdx]; exact hk
  have := hs j k hj' hk' h
  have e1 := allIdx_getElem? hj
  have e2 := allIdx_getElem? hk
  rw [List.getElem?_eq_getElem hj'] at e1
  rw [List.getElem?_eq_getElem hk'] at e2
  rw [Option.some.inj e1, Option.some.inj e2] at this
  exact this

theorem FirstMin.unique {α : Type} [LinearOrder α] {s : List ℕ} {f : List ℕ → α} {p q : List ℕ}
    (hp : FirstMin s f p) (hq : FirstMin s f q) : p = q := by
  have e : f p = f q := le_antisymm (hp.2 q hq.1).1 (hq.2 p hp.1).1
  exact le_antisymm ((hp.2 q hq.1).2 e.symm) ((hq.2 p hp.1).2 e)

/-- numpy's `argmin` and `unravel_index`. -/
theorem numpy_firstMin {α : Type} [LinearOrder α] (a : NdArray α) (h : ∀ n ∈ a.shape, 0 < n) :
    ∃ k, npArgmin a.ravel = .ok k ∧ FirstMin a.shape a.get (unravelIdx a.shape k) := by
  have hp : 0 < a.shape.prod := List.prod_pos h
  have hlen : a.ravel.length = a.shape.prod := by simp [NdArray.ravel, length_allIdx]
  have hne : a.ravel ≠ [] := by
    intro h0; rw [h0] at hlen; simp at hlen; omega
  obtain ⟨k, x, hk, hx, hm⟩ := npArgmin_spec hne
  refine ⟨k, hk, ?_⟩
  have hkl : k < a.shape.prod := by rw [← hlen]; exact (List.getElem?_eq_some_iff.1 hx).1
  have get_at : ∀ j, j < a.shape.prod → a.ravel[j]? = some (a.get (unravelIdx a.shape j)) := by
    intro j hj
    simp [NdArray.ravel, allIdx_getElem? hj]
  have hxe : x = a.get (unravelIdx a.shape k) := by
    have := get_at k hkl
    rw [hx] at this
    exact Option.some.inj this
  refine ⟨inB_unravel hkl, fun q hq => ?_⟩
  have hql := ravelIdx_lt hq
  have hqe := get_at _ hql
  rw [unravel_ravel hq] at hqe
  have := hm _ _ hqe
  rw [← hxe]
  refine ⟨this.1, fun e => ?_⟩
  rcases Nat.lt_trichotomy (ravelIdx a.shape q) k with h' | h' | h'
  · have := this.2 h'
    rw [e] at this
    exact absurd this (lt_irrefl _)
  · rw [← h', unravel_ravel hq]
  · have := allIdx_lt_iff hkl hql h'
    rw [unravel_ravel hq] at this
    exact this.le

/-! ### Looking for the minimum axis by axis -/

theorem mapM_ok {α β : Type} {l : List α} {f : α → Except PyErr β} {g : α → β}
    (h : ∀ x ∈ l, f x = .ok (g x)) : l.mapM f = .ok (l.map g) := by
  induction l with
  | nil => rfl
  | cons a l ih =>
    rw [List.mapM_cons, h a List.mem_cons_self, ih (fun x hx => h x (List.mem_cons_of_mem _ hx))]
    rfl

theorem firstMin_cons {α : Type} [LinearOrder α] {n : ℕ} {t : List ℕ} {f : List ℕ → α}
    {c : ℕ → List ℕ} {k : ℕ} (hk : k < n)
    (hc : ∀ j, j < n → FirstMin t (fun i => f (j :: i)) (c j))
    (hm : ∀ j, j < n → f (k :: c k) ≤ f (j :: c j) ∧ (j < k → f (k :: c k) < f (j :: c j))) :
    FirstMin (n :: t) f (k :: c k) := by
  refine ⟨by simp [hk, (hc k hk).1], fun q hq => ?_⟩
  cases q with
  | nil => simp at hq
  | cons j q =>
    simp only [inB_cons_cons] at hq
    have h1 := hm j hq.1
    have h2 := (hc j hq.1).2 q hq.2
    refine ⟨h1.1.trans h2.1, fun e => ?_⟩
    rcases Nat.lt_trichotomy j k with h | h | h
    · have := (h1.2 h).trans_le h2.1
      simp only [e] at this
      exact absurd this (lt_irrefl _)
    · subst h
      have := h2.2 e
      rcases this.lt_or_eq with h' | h'
      · exact (cons_lt_cons_iff'.2 (Or.inr ⟨rfl, h'⟩)).le
      · rw [h']
    · exact (cons_lt_cons_iff'.2 (Or.inl h)).le

theorem alongLast_ok {α β : Type} [Inhabited β] {f : List α → Except PyErr β} {a : NdArray α}
    {s : List ℕ} {n : ℕ} (hs : a.shape = s ++ [n]) (hn : 0 < n) :
    a.alongLast f = .ok ⟨s, fun o =>
      match f ((List.range n).map (fun k : ℕ => a.get (o ++ [k]))) with
      | .ok x => x
      | .error _ => default⟩ := by
  unfold NdArray.alongLast
  rw [hs]
  simp [hn.ne']
  rfl

/-- `c o` is the first minimum, over the inner axes `t`, of the array at the outer index `o`. -/
structure Stage {α : Type} [LinearOrder α] (a : NdArray α) (s t : List ℕ) (m : NdArray α)
    (c : List ℕ → List ℕ) : Prop where
  shape : m.shape = s
  val : ∀ o, InB s o → m.get o = a.get (o ++ c o)
  first : ∀ o, InB s o → FirstMin t (fun i => a.get (o ++ i)) (c o)

theorem stage_step {α : Type} [LinearOrder α] [Inhabited α] {a : NdArray α} {s t : List ℕ} {n : ℕ}
    {m : NdArray α} {c : List ℕ → List ℕ} (hn : 0 < n) (h : Stage a (s ++ [n]) t m c) :
    ∃ (am : NdArray ℕ) (m' : NdArray α), m.alongLast npArgmin = .ok am ∧ m.alongLast npMin = .ok m' ∧
      am.shape = s ∧ (∀ o, InB s o → am.get o < n) ∧
      Stage a s (n :: t) m' (fun o => am.get o :: c (o ++ [am.get o])) := by
  refine ⟨_, _, alongLast_ok h.shape hn, alongLast_ok h.shape hn, rfl, ?_, ?_⟩
  all_goals
    have key : ∀ o, ∃ k x, npArgmin ((List.range n).map (fun k : ℕ => m.get (o ++ [k]))) = .ok k ∧
        npMin ((List.range n).map (fun k : ℕ => m.get (o ++ [k]))) = .ok x ∧
        k < n ∧ x = m.get (o ++ [k]) ∧ ∀ j, j < n → m.get (o ++ [k]) ≤ m.get (o ++ [j]) ∧
          (j < k → m.get (o ++ [k]) < m.get (o ++ [j])) := by
      intro o
      have hne : (List.range n).map (fun k : ℕ => m.get (o ++ [k])) ≠ [] := by
        intro h0
        have : ((List.range n).map (fun k : ℕ => m.get (o ++ [k]))).length = 0 := by rw [h0]; rfl
        simp at this
        omega
      obtain ⟨k, x, hk, hx, hmn⟩ := npArgmin_spec hne
      have hmin := npMin_spec hx (fun j y hj => (hmn j y hj).1)
      have hkn : k < n := by simpa using (List.getElem?_eq_some_iff.1 hx).1
      have hxe : x = m.get (o ++ [k]) := by
        simp [hkn] at hx
        exact hx.symm
      refine ⟨k, x, hk, hmin, hkn, hxe, fun j hj => ?_⟩
      have := hmn j (m.get (o ++ [j])) (by simp [hj])
      rw [hxe] at this
      exact this
  · intro o _
    obtain ⟨k, x, hk, hx, hkn, _, _⟩ := key o
    simp only [hk]
    exact hkn
  · refine ⟨rfl, fun o ho => ?_, fun o ho => ?_⟩
    · obtain ⟨k, x, hk, hx, hkn, hxe, _⟩ := key o
      simp only [hk, hx, hxe]
      have hi : InB (s ++ [n]) (o ++ [k]) := (inB_append ho.length_eq).2 ⟨ho, by simp [hkn]⟩
      rw [h.val _ hi]
      simp
    · obtain ⟨k, x, hk, hx, hkn, hxe, hmn⟩ := key o
      simp only [hk]
      have hi : ∀ j, j < n → InB (s ++ [n]) (o ++ [j]) :=
        fun j hj => (inB_append ho.length_eq).2 ⟨ho, by simp [hj]⟩
      apply firstMin_cons (c := fun j => c (o ++ [j])) hkn
      · intro j hj
        have := h.first _ (hi j hj)
        simpa using this
      · intro j hj
        have h1 := hmn j hj
        rw [h.val _ (hi k hkn), h.val _ (hi j hj)] at h1
        simpa using h1

theorem updateCoords_ok {s : List ℕ} {n : ℕ} (hs : ∀ x ∈ s, 0 < x) {am : NdArray ℕ} (ham : am.shape = s)
    (hlt : ∀ o, InB s o → am.get o < n) (c : List ℕ → List ℕ) :
    updateCoords ((allIdx (s ++ [n])).map c) am.ravel =
      .ok ((allIdx s).map (fun o => am.get o :: c (o ++ [am.get o]))) := by
  have hp : 0 < s.prod := List.prod_pos hs
  have hlen : am.ravel.length = s.prod := by simp [NdArray.ravel, length_allIdx, ham]
  unfold updateCoords
  rw [if_neg (by omega)]
  simp only [List.length_map, length_allIdx, hlen, List.prod_append, List.prod_cons, List.prod_nil,
    Nat.mul_one, Nat.mul_div_cancel_left _ hp]
  rw [mapM_ok (g := fun e : ℕ × ℕ => e.1 :: c ((unravelIdx s e.2) ++ [e.1]))]
  · congr 1
    apply List.ext_getElem?
    intro i
    rcases Nat.lt_or_ge i s.prod with hi | hi
    · simp [NdArray.ravel, ham, allIdx_getElem? hi]
    · rw [List.getElem?_eq_none (by simp [hlen, hi]), List.getElem?_eq_none (by simp [length_allIdx, hi])]
  · rintro ⟨j, i⟩ hji
    obtain ⟨_, hi, hj⟩ := List.mem_zipIdx hji
    simp only [Nat.zero_add, hlen] at hi
    have hj' : j = am.get (unravelIdx s i) := by
      rw [hj]
      have := allIdx_getElem? hi
      simp only [Nat.sub_zero, NdArray.ravel, ham, List.getElem_map]
      congr 1
      rw [List.getElem?_eq_getElem (by rw [length_allIdx]; exact hi)] at this
      exact Option.some.inj this
    have hjn : j < n := by rw [hj']; exact hlt _ (inB_unravel hi)
    simp only [List.getElem?_map, allIdx_snoc, flatMap_getElem? _ (fun o k => o ++ [k]) n i j hjn,
      allIdx_getElem? hi, Option.map_some]

theorem findMinLoop_ok {α : Type} [LinearOrder α] [Inhabited α] {a : NdArray α} (s : List ℕ) :
    ∀ {t : List ℕ} {m : NdArray α} {c : List ℕ → List ℕ}, (∀ x ∈ s, 0 < x) → s ≠ [] →
    Stage a s t m c →
    ∃ m', findMinLoop s.length m (some ((allIdx s).map c)) = .ok m' ∧
      ∃ p, m'.2 = some [p] ∧ m'.1.get [] = a.get p ∧ FirstMin (s ++ t) a.get p := by
  induction s using List.reverseRecOn with
  | nil => intro t m c _ h; exact absurd rfl h
  | append_singleton s n ih =>
    intro t m c hpos _ hst
    have hn : 0 < n := hpos n (by simp)
    obtain ⟨am, m', ham, hmin, hsh, hlt, hst'⟩ := stage_step hn hst
    simp only [List.length_append, List.length_cons, List.length_nil, Nat.zero_add, findMinLoop,
      bind, Except.bind, ham, hmin]
    rcases s.eq_nil_or_concat with rfl | ⟨s', x, hs'⟩
    · have h0 : InB [] [] := by simp
      have hk := hlt [] h0
      have hget : ((allIdx ([] ++ [n])).map c)[am.get []]? = some (c [am.get []]) := by
        rw [List.getElem?_map, List.nil_append, allIdx_getElem? (by simpa using hk)]
        simp [unravelIdx]
      simp only [List.length_nil, Nat.lt_irrefl, if_false, hget, findMinLoop]
      refine ⟨_, rfl, _, rfl, ?_, ?_⟩
      · simpa using hst'.val [] h0
      · simpa using hst'.first [] h0
    · have hlen : 0 < s.length := by rw [hs']; simp
      have hne : s ≠ [] := by rintro rfl; simp at hlen
      have hp : ∀ x ∈ s, 0 < x := fun x hx => hpos x (by simp [hx])
      simp only [hlen, if_true]
      rw [updateCoords_ok hp hsh hlt c]
      simp only []
      obtain ⟨r, hr, p, h1, h2, h3⟩ := ih hp hne hst'
      refine ⟨r, hr, p, h1, h2, ?_⟩
      simpa using h3

theorem findMinimum_ok {α : Type} [LinearOrder α] [Inhabited α] (a : NdArray α)
    (hne : a.shape ≠ []) (hpos : ∀ n ∈ a.shape, 0 < n) :
    ∃ p, findMinimum a = .ok (a.get p, p) ∧ FirstMin a.shape a.get p := by
  obtain ⟨s, n, hs⟩ : ∃ s n, a.shape = s ++ [n] := by
    rcases a.shape.eq_nil_or_concat with h | ⟨s, n, h⟩
    · exact absurd h hne
    · exact ⟨s, n, by simpa using h⟩
  have hn : 0 < n := hpos n (by simp [hs])
  have hst : Stage a (s ++ [n]) [] a (fun _ => []) := by
    refine ⟨hs, fun o _ => by simp, fun o _ => ⟨by simp, fun q hq => ?_⟩⟩
    simp at hq
    subst hq
    simp
  obtain ⟨am, m', ham, hmin, hsh, hlt, hst'⟩ := stage_step hn hst
  unfold findMinimum
  have hd : a.ndim = s.length + 1 := by simp [NdArray.ndim, hs]
  rw [hd]
  simp only [findMinLoop, bind, Except.bind, ham, hmin]
  have hc : am.ravel.map (fun j => [j]) = (allIdx s).map (fun o => [am.get o]) := by
    simp [NdArray.ravel, hsh]
  rw [hc]
  rcases s.eq_nil_or_concat with rfl | ⟨s', x, hs'⟩
  · simp only [List.length_nil, findMinLoop, allIdx, List.map_cons, List.map_nil]
    have h0 : InB [] [] := by simp
    have h1 := hst'.val [] h0
    have h2 := hst'.first [] h0
    simp only [List.nil_append] at h1 h2
    refine ⟨[am.get []], ?_, ?_⟩
    · simp [h1]
    · rw [hs]; simpa using h2
  · have hlen : 0 < s.length := by rw [hs']; simp
    have hne : s ≠ [] := by rintro rfl; simp at hlen
    have hp : ∀ x ∈ s, 0 < x := fun x hx => hpos x (by simp [hs, hx])
    obtain ⟨r, hr, p, h1, h2, h3⟩ := findMinLoop_ok s hp hne hst'
    rw [hr]
    refine ⟨p, ?_, ?_⟩
    · simp only [h1, h2]
      simp
    · rw [hs]; exact h3

end Verif
