import Verif.Lemmas.Project
import Verif.Spec.Project
import Verif.Lemmas.Shift
import Mathlib.Data.List.Range

/-! # Projections with any number of axes to remove -/

namespace Verif

open Finset

/-- `b` holds the sums over all axes but those at the positions `ks`. -/
def ProjOn (a : NdArray ℚ) (ks : List ℕ) (b : NdArray ℚ) : Prop :=
  b.shape = ks.map (fun i => a.shape.getD i 0) ∧
  ∀ idx, InB b.shape idx → b.get idx =
    sumIdx a.shape (fun full => if ks.map (fun i => full.getD i 0) = idx then a.get full else 0)

theorem eq_insertIdx_iff {v idx : List ℕ} {k j x : ℕ} (hk : v[k]? = some x)
    (hl : idx.length + 1 = v.length) : v = idx.insertIdx k j ↔ v.eraseIdx k = idx ∧ j = x := by
  have hkv := (List.getElem?_eq_some_iff.1 hk).1
  constructor
  · rintro rfl
    have hkl : k ≤ idx.length := by omega
    rw [List.getElem?_insertIdx_self, if_pos hkl] at hk
    exact ⟨List.eraseIdx_insertIdx_self _, Option.some.inj hk⟩
  · rintro ⟨rfl, rfl⟩
    have := (List.getElem?_eq_some_iff.1 hk).2
    rw [← this, List.insertIdx_eraseIdx_getElem]

theorem projOn_step {a b : NdArray ℚ} {ks : List ℕ} (h : ProjOn a ks b) {k : ℕ} (hk : k < ks.length)
    (hks : ∀ i ∈ ks, i < a.shape.length) :
    ∃ b', b.sumAxis k = .ok b' ∧ ProjOn a (ks.eraseIdx k) b' := by
  obtain ⟨h1, h2⟩ := h
  have hkb : k < b.shape.length := by rw [h1]; simpa using hk
  refine ⟨_, NdArray.sumAxis_isOk hkb, ?_, ?_⟩
  · simp only [h1, List.eraseIdx_map]
  · intro idx hi
    dsimp only at hi ⊢
    have hsk : b.shape[k]? = some b.shape[k] := List.getElem?_eq_getElem hkb
    rw [Finset.sum_congr rfl fun j hj => h2 _ (inB_insertIdx hsk hi (Finset.mem_range.1 hj)),
      ← sumIdx_sum]
    refine sumIdx_congr fun full hf => ?_
    have hlt : full.getD ks[k] 0 < b.shape[k] := by
      have h3 : ks[k] < a.shape.length := hks _ (List.getElem_mem hk)
      have h4 : ks[k] < full.length := by rw [hf.length_eq]; exact h3
      obtain ⟨x, hx, hx'⟩ := inB_getElem? hf (List.getElem?_eq_getElem h3)
      have : b.shape[k] = a.shape[ks[k]] := by
        simp only [h1, List.getElem_map, List.getD_eq_getElem?_getD, List.getElem?_eq_getElem h3,
          Option.getD_some]
      rw [this, List.getD_eq_getElem?_getD, hx]
      exact hx'
    have hv : (ks.map (fun i => full.getD i 0))[k]? = some (full.getD ks[k] 0) := by
      rw [List.getElem?_map, List.getElem?_eq_getElem hk]; rfl
    have hlen : idx.length + 1 = (ks.map (fun i => full.getD i 0)).length := by
      have := hi.length_eq
      rw [List.length_eraseIdx_of_lt hkb, h1] at this
      simp only [List.length_map] at this ⊢
      omega
    simp only [eq_insertIdx_iff hv hlen, List.eraseIdx_map]
    by_cases hc : (ks.eraseIdx k).map (fun i => full.getD i 0) = idx
    · simp only [hc, true_and, if_true]
      rw [Finset.sum_ite_eq' (Finset.range _), if_pos (Finset.mem_range.2 hlt)]
    · simp only [hc, false_and, if_false, Finset.sum_const_zero]

/-- The positions of `l` moved up by their places in the list. -/
def shifted (l : List ℕ) (t : ℕ) : List ℕ := (l.zipIdx t).map (fun e => e.1 + e.2)

theorem foldlM_filter_sum {P : ℕ → Prop} [DecidablePred P] (l : List ℕ) (a : NdArray ℚ) :
    l.foldlM (fun (proj : NdArray ℚ) i => if P i then proj.sumAxis i else pure proj) a =
      (l.filter (fun i => decide (P i))).foldlM (fun proj i => proj.sumAxis i) a := by
  induction l generalizing a with
  | nil => rfl
  | cons i l ih =>
    rw [List.foldlM_cons]
    by_cases h : P i
    · rw [if_pos h, List.filter_cons_of_pos (by simpa using h), List.foldlM_cons]
      cases a.sumAxis i with
      | error e => rfl
      | ok b => exact ih b
    · rw [if_neg h, List.filter_cons_of_neg (by simpa using h)]
      exact ih a

/-- Summing one axis after the other without allowing for those already gone. -/
theorem foldlM_sumAxis {a : NdArray ℚ} {n : ℕ} (hn : a.shape.length = n) (R : List ℕ)
    (hR : R.Pairwise (· < ·)) {b : NdArray ℚ} {A : List ℕ} {t : ℕ}
    (hA : ∀ r ∈ R, A.length ≤ r) (hA' : ∀ i ∈ A, i < A.length + t) (hc : A.length + t ≤ n)
    (hb : ProjOn a (A ++ List.range' (A.length + t) (n - (A.length + t))) b) :
    ((∀ i ∈ shifted R t, i < n) →
      ∃ b', R.foldlM (fun proj i => proj.sumAxis i) b = .ok b' ∧
        ProjOn a ((A ++ List.range' (A.length + t) (n - (A.length + t))).filter
          (fun i => decide (i ∉ shifted R t))) b') ∧
    ((∃ i ∈ shifted R t, n ≤ i) →
      R.foldlM (fun proj i => proj.sumAxis i) b = .error .axisError) := by
  induction R generalizing b A t with
  | nil =>
    refine ⟨fun _ => ⟨b, rfl, ?_⟩, ?_⟩
    · simpa [shifted] using hb
    · rintro ⟨i, hi, -⟩; simp [shifted] at hi
  | cons r R ih =>
    have hr := hA r (by simp)
    have hcons : shifted (r :: R) t = (r + t) :: shifted R (t + 1) := by
      simp [shifted, List.zipIdx_cons]
    have hge : ∀ i ∈ shifted R (t + 1), r + t + 1 < i := by
      intro i hi
      simp only [shifted, List.mem_map] at hi
      obtain ⟨e, he, rfl⟩ := hi
      have h1 := List.mem_zipIdx he
      have h2 : e.1 ∈ R := by
        rw [h1.2.2]; exact List.getElem_mem _
      have := (List.pairwise_cons.1 hR).1 _ h2
      omega
    rw [hcons, List.foldlM_cons]
    by_cases hlt : r + t < n
    · obtain ⟨b', hb', hp⟩ := projOn_step hb (k := r) (by
        rw [List.length_append, List.length_range']; omega) (by
        intro i hi
        rcases List.mem_append.1 hi with h | h
        · have := hA' i h; omega
        · have := List.mem_range'_1.1 h; omega)
      have hers : (A ++ List.range' (A.length + t) (n - (A.length + t))).eraseIdx r =
          (A ++ List.range' (A.length + t) (r - A.length)) ++
            List.range' (r + t + 1) (n - (r + t + 1)) := by
        rw [List.eraseIdx_append_of_length_le hr, List.append_assoc]
        congr 1
        have h1 : n - (A.length + t) = (r - A.length) + (1 + (n - (r + t + 1))) := by omega
        rw [h1, ← List.range'_append_1, List.eraseIdx_append_of_length_le (by simp)]
        congr 1
        rw [List.length_range', Nat.sub_self, ← List.range'_append_1]
        simp only [List.range'_one, List.cons_append, List.nil_append, List.eraseIdx_zero,
          List.tail_cons]
        congr 1
        omega
      have hlen' : (A ++ List.range' (A.length + t) (r - A.length)).length = r := by
        rw [List.length_append, List.length_range']; omega
      rw [hers] at hp
      have key := ih (List.pairwise_cons.1 hR).2 (b := b')
        (A := A ++ List.range' (A.length + t) (r - A.length)) (t := t + 1)
        (by
          intro r' hr'
          rw [hlen']
          exact ((List.pairwise_cons.1 hR).1 r' hr').le)
        (by
          intro i hi
          rw [hlen']
          rcases List.mem_append.1 hi with h | h
          · have := hA' i h; omega
          · have := List.mem_range'_1.1 h; omega)
        (by rw [hlen']; omega)
        (by rw [hlen']; exact hp)
      rw [hlen'] at key
      rw [hb']
      refine ⟨fun hall => ?_, fun hex => ?_⟩
      · obtain ⟨c, hc1, hc2⟩ := key.1 fun i hi => hall i (by simp [hi])
        refine ⟨c, hc1, ?_⟩
        have heq : (A ++ List.range' (A.length + t) (n - (A.length + t))).filter
            (fun i => decide (i ∉ (r + t) :: shifted R (t + 1))) =
            ((A ++ List.range' (A.length + t) (r - A.length)) ++
              List.range' (r + (t + 1)) (n - (r + (t + 1)))).filter
                (fun i => decide (i ∉ shifted R (t + 1))) := by
          have h1 : n - (A.length + t) = (r - A.length) + (1 + (n - (r + (t + 1)))) := by omega
          have h2 : A.length + t + (r - A.length) = r + t := by omega
          have h3 : r + t + 1 = r + (t + 1) := by omega
          have h4 : ∀ l : List ℕ, (∀ i ∈ l, i ≠ r + t) →
              l.filter (fun i => decide (i ∉ (r + t) :: shifted R (t + 1))) =
                l.filter (fun i => decide (i ∉ shifted R (t + 1))) := by
            intro l hl
            refine List.filter_congr fun i hi => ?_
            simp [hl i hi]
          rw [h1, ← List.range'_append_1, ← List.range'_append_1, h2, List.range'_one, h3]
          simp only [List.filter_append]
          rw [h4 A fun i hi => by have := hA' i hi; omega,
            h4 (List.range' (A.length + t) _) fun i hi => by
              have := List.mem_range'_1.1 hi; omega,
            h4 (List.range' (r + (t + 1)) _) fun i hi => by
              have := List.mem_range'_1.1 hi; omega,
            show [r + t].filter (fun i => decide (i ∉ (r + t) :: shifted R (t + 1))) = [] by simp,
            List.nil_append, List.append_assoc]
        rw [heq]
        exact hc2
      · obtain ⟨i, hi, hin⟩ := hex
        rcases List.mem_cons.1 hi with rfl | hi
        · omega
        · exact key.2 ⟨i, hi, hin⟩
    · refine ⟨fun hall => absurd (hall (r + t) (by simp)) hlt, fun _ => ?_⟩
      have : b.shape[r]? = none := by
        rw [List.getElem?_eq_none_iff, hb.1, List.length_map, List.length_append,
          List.length_range']
        omega
      unfold NdArray.sumAxis
      rw [this]
      rfl

theorem pick_eq_map {dims ns : List PyStr} {l : List ℕ} (hl : l.length = ns.length) :
    pick dims ns l = ((List.range ns.length).filter (fun i => decide (ns.getD i [] ∈ dims))).map
      (fun i => l.getD i 0) := by
  induction ns generalizing l with
  | nil => cases l <;> rfl
  | cons n ns ih =>
    cases l with
    | nil => simp at hl
    | cons a l =>
      have h := ih (l := l) (by simpa using hl)
      rw [List.length_cons, List.range_succ_eq_map, List.filter_cons, List.filter_map, pick, h]
      simp only [List.getD_cons_zero, decide_eq_true_eq, Function.comp_def, List.getD_cons_succ]
      split <;> simp [List.map_map, Function.comp_def]

/-- Sums over positions are projections onto names. -/
theorem projOn_isProjection {s : Spectrum} (hs : s.WF) {l : List ℕ} {b : NdArray ℚ}
    (h : ProjOn s.data ((List.range s.cfg.length).filter (fun i => decide (i ∉ l))) b) :
    IsProjection s (s.namesBut l) b := by
  have hlen := shape_length hs
  have hks : (List.range (s.cfg.map SPar.name).length).filter (fun i =>
      decide ((s.cfg.map SPar.name).getD i [] ∈ s.namesBut l)) =
      (List.range s.cfg.length).filter (fun i => decide (i ∉ l)) := by
    rw [List.length_map]
    refine List.filter_congr fun i hi => ?_
    rw [List.mem_range] at hi
    rw [decide_eq_decide]
    unfold Spectrum.namesBut
    simp only [List.mem_map, List.mem_filter, List.mem_range, decide_eq_true_eq]
    constructor
    · rintro ⟨j, ⟨hj, hjl⟩, he⟩
      have e : j = i := by
        have h1 : j < (s.cfg.map SPar.name).length := by simpa using hj
        have h2 : i < (s.cfg.map SPar.name).length := by simpa using hi
        simp only [List.getD_eq_getElem?_getD, List.getElem?_eq_getElem h1,
          List.getElem?_eq_getElem h2, Option.getD_some] at he
        exact hs.names.getElem_inj_iff.1 he
      rwa [← e]
    · intro hl
      exact ⟨i, ⟨hi, hl⟩, rfl⟩
  refine ⟨?_, fun idx hi => ?_⟩
  · rw [pick_eq_map (by simp [hlen]), hks]; exact h.1
  · rw [h.2 idx hi]
    refine sumIdx_congr fun full hf => ?_
    rw [pick_eq_map (by rw [hf.length_eq, hlen, List.length_map]), hks]

theorem projOn_self {s : Spectrum} (hs : s.WF) :
    ProjOn s.data (List.range' 0 s.cfg.length) s.data := by
  have hlen := shape_length hs
  have h : ∀ l : List ℕ, l.length = s.cfg.length →
      (List.range' 0 s.cfg.length).map (fun i => l.getD i 0) = l := by
    intro l hl
    apply List.ext_getElem
    · simp [hl]
    · intro i h1 h2
      simp [List.getD_eq_getElem?_getD, List.getElem?_eq_getElem h2]
  refine ⟨(h _ hlen).symm, fun idx hi => ?_⟩
  rw [← sumIdx_ite hi s.data.get]
  refine sumIdx_congr fun full hf => ?_
  rw [h full (by rw [hf.length_eq, hlen])]

/-- The loop of `nd_project` and `surface` for any axes to remove. -/
theorem removal_loop {s : Spectrum} (hs : s.WF) (P : ℕ → Prop) [DecidablePred P] :
    ((∀ i ∈ movedUp ((List.range s.cfg.length).filter (fun i => decide (P i))), i < s.cfg.length) →
      ∃ b, (List.range s.cfg.length).foldlM (fun (proj : NdArray ℚ) i =>
          if P i then proj.sumAxis i else pure proj) s.data = .ok b ∧
        IsProjection s (s.namesBut (movedUp ((List.range s.cfg.length).filter
          (fun i => decide (P i))))) b) ∧
    ((∃ i ∈ movedUp ((List.range s.cfg.length).filter (fun i => decide (P i))), s.cfg.length ≤ i) →
      (List.range s.cfg.length).foldlM (fun (proj : NdArray ℚ) i =>
          if P i then proj.sumAxis i else pure proj) s.data = .error .axisError) := by
  have hlen := shape_length hs
  have hR : ((List.range s.cfg.length).filter (fun i => decide (P i))).Pairwise (· < ·) :=
    List.Pairwise.filter _ List.pairwise_lt_range
  have key := foldlM_sumAxis hlen _ hR (b := s.data) (A := []) (t := 0) (by simp) (by simp)
    (by simp) (by simpa using projOn_self hs)
  rw [foldlM_filter_sum]
  refine ⟨fun h => ?_, fun h => key.2 h⟩
  obtain ⟨b, h1, h2⟩ := key.1 h
  refine ⟨b, h1, projOn_isProjection hs ?_⟩
  simp only [List.length_nil, Nat.add_zero, Nat.sub_zero, List.nil_append,
    ← List.range_eq_range'] at h2
  exact h2

end Verif
