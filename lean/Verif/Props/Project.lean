import Verif.Lemmas.ProjectAll
import Verif.Spec.Examples
import Mathlib.Tactic.NormNum

/-! # C10–C12: projections -/

namespace Verif

open Spectrum

/-- **C10.** For any number of dimensions, projecting onto a parameter gives the array of sums
over all other axes; it has the length of that axis and the total of the spectrum. -/
theorem c10_project (s : Spectrum) (hs : s.WF) (p : SPar) (hp : p ∈ s.cfg) :
    ∃ b, s.project p.name = .ok b ∧ IsProjection s [p.name] b ∧
      b.shape = [p.bins.toNat] ∧ b.sum = s.sum := by
  obtain ⟨pre, post, hc⟩ := List.append_of_mem hp
  obtain ⟨b, hb, hproj⟩ := project_ok hs hc
  refine ⟨b, hb, hproj, ?_, isProjection_sum hproj⟩
  rw [hproj.1]
  have hshape : s.data.shape = s.cfg.map (fun p => p.bins.toNat) := by
    have := congrArg (List.map Int.toNat) hs.shape
    simpa [Function.comp_def] using this
  have hnd := hs.names
  rw [hshape, hc]
  rw [hc] at hnd
  simp only [List.map_append, List.map_cons] at hnd ⊢
  rw [pick_append (by simp), pick_none, pick, if_pos (by simp), pick_none]
  · rfl
  · intro n hn h
    rw [List.mem_singleton] at h; subst h
    have := (List.nodup_append.1 hnd).2.1
    simp only [List.nodup_cons] at this
    exact this.1 hn
  · intro n hn h
    rw [List.mem_singleton] at h; subst h
    exact (List.nodup_append.1 hnd).2.2 _ hn _ (by simp) rfl

/-- **C10, unknown parameter.** -/
theorem c10_project_unknown (s : Spectrum) (d : PyStr) (hd : ∀ p ∈ s.cfg, p.name ≠ d) :
    s.project d = .error .indexError := by
  unfold Spectrum.project
  rw [getIndex_unknown]
  · rfl
  · intro h
    obtain ⟨p, hp, hpd⟩ := List.mem_map.1 h
    exact hd p hp hpd

example : Ex.spec.WF ∧ Ex.radial ∈ Ex.spec.cfg := ⟨Ex.spec_wf, by simp [Ex.spec]⟩

/-- A three-dimensional spectrum with 1, 2 and 3 bins. -/
def brick : Spectrum where
  name := lit "s"
  cfg := [⟨lit "x_mc", 0, 1, 1⟩, ⟨lit "y_mc", 0, 2, 2⟩, ⟨lit "z_mc", 0, 3, 3⟩]
  data := ⟨[1, 2, 3], fun _ => 1⟩
  numDecays := 1
  rawEvents := 0
  rois := []

theorem brick_wf : brick.WF where
  axes := by simp [brick, SPar.WF]
  names := by simp [brick]
  shape := by simp [brick]

/-- **C11, negation.** Projecting a three-dimensional spectrum onto its last parameter with
`nd_project` does not give the projection: the second sum runs over the wrong axis. -/
theorem c11_nd_project_negation :
    ¬ ∀ (s : Spectrum) (dims : List PyStr), s.WF → dims.Nodup →
      (∀ d ∈ dims, ∃ p ∈ s.cfg, p.name = d) →
      ∃ b, s.ndProject dims = .ok b ∧ IsProjection s dims b := by
  intro h
  obtain ⟨b, hb, h1, -⟩ := h brick [lit "z_mc"] brick_wf (by simp) (by simp [brick])
  have hs : ∃ b', brick.ndProject [lit "z_mc"] = .ok b' ∧ b'.shape = [2] := ⟨_, rfl, rfl⟩
  obtain ⟨b', hb', hs'⟩ := hs
  rw [hb] at hb'; cases hb'
  rw [hs'] at h1
  simp [brick, pick] at h1

/-- **C11, error.** Leaving out the last two axes of a spectrum with at least two axes
makes `nd_project` raise. -/
theorem c11_nd_project_last_two_raises (s : Spectrum) (hs : s.WF) (n : ℕ)
    (hn : s.cfg.length = n + 2) :
    s.ndProject ((s.cfg.map SPar.name).take n) = .error .axisError := by
  have hlen := shape_length hs
  have hm : ((s.cfg.map SPar.name).take n).mapM s.getIndex = .ok (List.range n) := by
    have aux : ∀ m ≤ n, ((s.cfg.map SPar.name).take m).mapM s.getIndex = .ok (List.range m) := by
      intro m
      induction m with
      | zero => intro _; rfl
      | succ m ih =>
        intro hm
        have hlt : m < (s.cfg.map SPar.name).length := by simp; omega
        rw [List.take_succ_eq_append_getElem hlt, List.mapM_append, ih (by omega),
          List.mapM_cons, getIndex_ok hs.names (List.getElem?_eq_getElem hlt), List.range_succ]
        rfl
    exact aux n le_rfl
  unfold Spectrum.ndProject
  simp only [hm, bind, Except.bind, List.length_range, hn]
  rw [if_neg (by omega), List.range_succ, List.foldlM_append]
  have h1 : (List.range (n + 1)).foldlM (fun (proj : NdArray ℚ) i =>
      if i ∉ List.range n then proj.sumAxis i else pure proj) s.data =
      .ok ⟨s.data.shape.eraseIdx n, fun idx =>
        ∑ j ∈ Finset.range (s.data.shape[n]'(by omega)), s.data.get (idx.insertIdx n j)⟩ := by
    rw [List.range_succ, List.foldlM_append, foldlM_noop]
    · simp only [bind, Except.bind, List.foldlM_cons, List.foldlM_nil]
      rw [if_pos (by simp), NdArray.sumAxis_isOk (by omega)]; rfl
    · intro i hi
      rw [if_neg (by simpa using hi)]; rfl
  rw [h1]
  simp only [bind, Except.bind, List.foldlM_cons, List.foldlM_nil]
  rw [if_pos (by simp)]
  unfold NdArray.sumAxis
  have : (s.data.shape.eraseIdx n)[n + 1]? = none := by
    rw [List.getElem?_eq_none_iff, List.length_eraseIdx_of_lt (by omega)]; omega
  simp only [this]

theorem mapM_getIndex_mem {s : Spectrum} (hs : s.WF) {dims : List PyStr}
    (hd : ∀ d ∈ dims, ∃ p ∈ s.cfg, p.name = d) :
    ∃ axes, dims.mapM s.getIndex = .ok axes ∧ axes.length = dims.length ∧
      ∀ i (hi : i < (s.cfg.map SPar.name).length),
        i ∈ axes ↔ (s.cfg.map SPar.name)[i] ∈ dims := by
  induction dims with
  | nil => exact ⟨[], rfl, rfl, by simp⟩
  | cons d dims ih =>
    obtain ⟨axes, h1, h2, h3⟩ := ih fun d hd' => hd d (by simp [hd'])
    obtain ⟨p, hp, hpd⟩ := hd d (by simp)
    obtain ⟨k, hk, hkd⟩ := List.getElem_of_mem (List.mem_map.2 ⟨p, hp, hpd⟩)
    refine ⟨k :: axes, ?_, by simp [h2], fun i hi => ?_⟩
    · rw [List.mapM_cons, getIndex_ok hs.names (List.getElem?_eq_some_iff.2 ⟨hk, hkd⟩), h1]; rfl
    · simp only [List.mem_cons, h3 i hi, ← hkd, hs.names.getElem_inj_iff]

/-- **C11, partial.** When at most one axis has to be summed over, `nd_project` returns the
projection, with the total of the spectrum. Missing: two or more axes to sum over,
for which the claim is false. -/
theorem c11_nd_project_partial (s : Spectrum) (hs : s.WF) (dims : List PyStr) (hnd : dims.Nodup)
    (hd : ∀ d ∈ dims, ∃ p ∈ s.cfg, p.name = d) (hl : s.cfg.length ≤ dims.length + 1) :
    ∃ b, s.ndProject dims = .ok b ∧ IsProjection s dims b ∧ b.sum = s.sum := by
  obtain ⟨axes, h1, h2, h3⟩ := mapM_getIndex_mem hs hd
  have hlen := shape_length hs
  suffices h : ∃ b, s.ndProject dims = .ok b ∧ IsProjection s dims b by
    obtain ⟨b, hb, hp⟩ := h
    exact ⟨b, hb, hp, isProjection_sum hp⟩
  have hsub : dims ⊆ s.cfg.map SPar.name := by
    intro d h; obtain ⟨p, hp, rfl⟩ := hd d h; exact List.mem_map.2 ⟨p, hp, rfl⟩
  have hle : dims.length ≤ (s.cfg.map SPar.name).length := (hnd.subperm hsub).length_le
  by_cases hall : dims.length = s.cfg.length
  · refine ⟨s.data, ?_, isProjection_all hs fun n hn => ?_⟩
    · unfold Spectrum.ndProject
      simp only [h1, bind, Except.bind, h2, hall, if_true]; rfl
    · exact ((hnd.subperm hsub).perm_of_length_le (by simp [hall])).mem_iff.2 hn
  · -- exactly one name is missing
    have hone : ∃ k, ∃ hk : k < (s.cfg.map SPar.name).length,
        ∀ i (hi : i < (s.cfg.map SPar.name).length),
          (s.cfg.map SPar.name)[i] ∈ dims ↔ i ≠ k := by
      have hperm := hnd.subperm hsub
      obtain ⟨l, hl1, hl2⟩ := hperm.exists_of_length_lt (by simp at hle ⊢; omega) |> fun
        ⟨a, ha⟩ => (⟨a, ha, trivial⟩ : ∃ a, (a :: dims).Subperm (s.cfg.map SPar.name) ∧ True)
      have hp : (l :: dims).Perm (s.cfg.map SPar.name) :=
        hl1.perm_of_length_le (by simp; omega)
      have hndl : (l :: dims).Nodup := hp.nodup_iff.2 hs.names
      obtain ⟨k, hk, hkl⟩ := List.getElem_of_mem (hp.mem_iff.1 (by simp : l ∈ l :: dims))
      refine ⟨k, hk, fun i hi => ?_⟩
      have hm : (s.cfg.map SPar.name)[i] ∈ l :: dims := hp.mem_iff.2 (List.getElem_mem hi)
      rw [List.nodup_cons] at hndl
      constructor
      · rintro h rfl; rw [hkl] at h; exact hndl.1 h
      · intro h
        rcases List.mem_cons.1 hm with h' | h'
        · exfalso; apply h
          exact (hs.names.getElem_inj_iff (hi := hi) (hj := hk)).1 (h'.trans hkl.symm)
        · exact h'
    obtain ⟨k, hk, hone⟩ := hone
    have hk' : k < s.cfg.length := by simpa using hk
    refine ⟨_, ?_, isProjection_one hs (k := k) (by omega) hone⟩
    unfold Spectrum.ndProject
    simp only [h1, bind, Except.bind, h2]
    rw [if_neg hall]
    refine foldlM_sum_one (P := fun i => i ∉ axes) hlen hk' fun i hi => ?_
    rw [h3 i (by simpa using hi), hone i (by simpa using hi), not_not]

example : Ex.spec.WF ∧ [lit "radial_mc"].Nodup ∧
    (∀ d ∈ [lit "radial_mc"], ∃ p ∈ Ex.spec.cfg, p.name = d) ∧
    Ex.spec.cfg.length ≤ [lit "radial_mc"].length + 1 :=
  ⟨Ex.spec_wf, by simp, by simp [Ex.spec, Ex.radial], by simp [Ex.spec]⟩

theorem leftOut_eq {s : Spectrum} {dims : List PyStr} {axes : List ℕ}
    (h : ∀ i (hi : i < (s.cfg.map SPar.name).length),
      i ∈ axes ↔ (s.cfg.map SPar.name)[i] ∈ dims) :
    (List.range s.cfg.length).filter (fun i => decide (i ∉ axes)) = s.leftOut dims := by
  unfold Spectrum.leftOut
  refine List.filter_congr fun i hi => ?_
  have hi' : i < (s.cfg.map SPar.name).length := by simpa using hi
  rw [decide_eq_decide, h i hi', List.getD_eq_getElem?_getD, List.getElem?_eq_getElem hi', Option.getD_some]

/-- **C11, in general.** What `nd_project` does for any parameters left out: it sums over the
first axis left out, but for the second over the axis one higher, for the third over the axis
two higher and so on. The result is the projection onto the remaining parameters; if there is
no such axis, it raises. -/
theorem c11_nd_project_general (s : Spectrum) (hs : s.WF) (dims : List PyStr) (hnd : dims.Nodup)
    (hd : ∀ d ∈ dims, ∃ p ∈ s.cfg, p.name = d) :
    ((∀ i ∈ movedUp (s.leftOut dims), i < s.cfg.length) →
      ∃ b, s.ndProject dims = .ok b ∧
        IsProjection s (s.namesBut (movedUp (s.leftOut dims))) b ∧ b.sum = s.sum) ∧
    ((∃ i ∈ movedUp (s.leftOut dims), s.cfg.length ≤ i) →
      s.ndProject dims = .error .axisError) := by
  obtain ⟨axes, h1, h2, h3⟩ := mapM_getIndex_mem hs hd
  have hl := leftOut_eq h3
  have key := removal_loop hs (fun i => i ∉ axes)
  rw [hl] at key
  have hsub : dims ⊆ s.cfg.map SPar.name := by
    intro d h; obtain ⟨p, hp, rfl⟩ := hd d h; exact List.mem_map.2 ⟨p, hp, rfl⟩
  by_cases hall : dims.length = s.cfg.length
  · have hnil : s.leftOut dims = [] := by
      unfold Spectrum.leftOut
      rw [List.filter_eq_nil_iff]
      intro i hi
      have hi' : i < (s.cfg.map SPar.name).length := by simpa using hi
      rw [List.getD_eq_getElem?_getD, List.getElem?_eq_getElem hi', Option.getD_some,
        decide_eq_true_eq, not_not]
      exact ((hnd.subperm hsub).perm_of_length_le (by simp [hall])).mem_iff.2 (List.getElem_mem hi')
    rw [hnil]
    refine ⟨fun _ => ?_, by rintro ⟨i, hi, -⟩; simp [movedUp] at hi⟩
    have hp : IsProjection s (s.namesBut (movedUp [])) s.data := by
      refine isProjection_all hs fun n hn => ?_
      obtain ⟨i, hi, rfl⟩ := List.getElem_of_mem hn
      unfold Spectrum.namesBut
      refine List.mem_map.2 ⟨i, by simpa [movedUp] using hi, ?_⟩
      rw [List.getD_eq_getElem?_getD, List.getElem?_eq_getElem hi, Option.getD_some]
    refine ⟨s.data, ?_, hp, isProjection_sum hp⟩
    unfold Spectrum.ndProject
    simp only [h1, bind, Except.bind, h2, hall, if_true]; rfl
  · have hunf : s.ndProject dims = (List.range s.cfg.length).foldlM
        (fun (proj : NdArray ℚ) i => if i ∉ axes then proj.sumAxis i else pure proj) s.data := by
      unfold Spectrum.ndProject
      simp only [h1, bind, Except.bind, h2]
      rw [if_neg hall]
    rw [hunf]
    refine ⟨fun h => ?_, key.2⟩
    obtain ⟨b, hb, hp⟩ := key.1 h
    exact ⟨b, hb, hp, isProjection_sum hp⟩

/-- Two parameters left out of `brick` so that `nd_project` returns, and two so that it raises. -/
example : brick.leftOut [lit "z_mc"] = [0, 1] ∧ movedUp [0, 1] = [0, 2] ∧
    brick.namesBut [0, 2] = [lit "y_mc"] ∧
    brick.leftOut [lit "x_mc"] = [1, 2] ∧ movedUp [1, 2] = [1, 3] := by decide

/-- A four-dimensional spectrum with 2, 3, 4 and 5 bins. -/
def hyperBrick : Spectrum where
  name := lit "s"
  cfg := [⟨lit "x_mc", 0, 2, 2⟩, ⟨lit "y_mc", 0, 3, 3⟩, ⟨lit "z_mc", 0, 4, 4⟩,
    ⟨lit "t_mc", 0, 5, 5⟩]
  data := ⟨[2, 3, 4, 5], fun _ => 1⟩
  numDecays := 1
  rawEvents := 0
  rois := []

theorem hyperBrick_wf : hyperBrick.WF where
  axes := by simp [hyperBrick, SPar.WF]
  names := by simp [hyperBrick]
  shape := by simp [hyperBrick]

/-- **C12, negation.** In four dimensions `surface` does not return the surface. -/
theorem c12_surface_negation :
    ¬ ∀ (s : Spectrum) (d1 d2 : PyStr), s.WF → d1 ≠ d2 →
      (∃ p ∈ s.cfg, p.name = d1) → (∃ p ∈ s.cfg, p.name = d2) →
      ∃ b, s.surface d1 d2 = .ok b ∧ IsProjection s [d1, d2] b := by
  intro h
  obtain ⟨b, hb, h1, -⟩ := h hyperBrick (lit "z_mc") (lit "t_mc") hyperBrick_wf (by simp)
    (by simp [hyperBrick]) (by simp [hyperBrick])
  have hs : ∃ b', hyperBrick.surface (lit "z_mc") (lit "t_mc") = .ok b' ∧ b'.shape = [3, 5] :=
    ⟨_, rfl, rfl⟩
  obtain ⟨b', hb', hs'⟩ := hs
  rw [hb] at hb'; cases hb'
  rw [hs'] at h1
  simp [hyperBrick, pick] at h1

/-- **C12, partial.** In two and three dimensions `surface` returns the surface of two
distinct parameters, with the total of the spectrum. Missing: four and more
dimensions, for which the claim is false. -/
theorem c12_surface_partial (s : Spectrum) (hs : s.WF) (hl : s.cfg.length ≤ 3)
    (d1 d2 : PyStr) (hne : d1 ≠ d2) (h1 : ∃ p ∈ s.cfg, p.name = d1)
    (h2 : ∃ p ∈ s.cfg, p.name = d2) :
    ∃ b, s.surface d1 d2 = .ok b ∧ IsProjection s [d1, d2] b ∧ b.sum = s.sum := by
  have hlen := shape_length hs
  suffices h : ∃ b, s.surface d1 d2 = .ok b ∧ IsProjection s [d1, d2] b by
    obtain ⟨b, hb, hp⟩ := h
    exact ⟨b, hb, hp, isProjection_sum hp⟩
  obtain ⟨p1, hp1, rfl⟩ := h1
  obtain ⟨p2, hp2, rfl⟩ := h2
  obtain ⟨a1, ha1, e1⟩ := List.getElem_of_mem (List.mem_map.2 ⟨p1, hp1, rfl⟩ :
    p1.name ∈ s.cfg.map SPar.name)
  obtain ⟨a2, ha2, e2⟩ := List.getElem_of_mem (List.mem_map.2 ⟨p2, hp2, rfl⟩ :
    p2.name ∈ s.cfg.map SPar.name)
  have i1 := getIndex_ok hs.names (List.getElem?_eq_some_iff.2 ⟨ha1, e1⟩)
  have i2 := getIndex_ok hs.names (List.getElem?_eq_some_iff.2 ⟨ha2, e2⟩)
  have hne' : a1 ≠ a2 := by rintro rfl; exact hne (e1.symm.trans e2)
  have ha1' : a1 < s.cfg.length := by simpa using ha1
  have ha2' : a2 < s.cfg.length := by simpa using ha2
  have hmem : ∀ i (hi : i < (s.cfg.map SPar.name).length),
      (s.cfg.map SPar.name)[i] ∈ [p1.name, p2.name] ↔ (i = a1 ∨ i = a2) := by
    intro i hi
    simp only [List.mem_cons, List.not_mem_nil, or_false, ← e1, ← e2, hs.names.getElem_inj_iff]
  have hunf : s.surface p1.name p2.name =
      (List.range s.cfg.length).foldlM (fun (proj : NdArray ℚ) i =>
        if i ≠ a1 ∧ i ≠ a2 then proj.sumAxis i else pure proj) s.data := by
    unfold Spectrum.surface
    simp only [i1, i2, bind, Except.bind]
    rw [if_neg (by omega), if_neg (by omega)]
  rw [hunf]
  by_cases h3 : s.cfg.length = 3
  · obtain ⟨k, hk, hk'⟩ : ∃ k < 3, ∀ i < 3, (i ≠ a1 ∧ i ≠ a2) ↔ i = k := by
      refine ⟨3 - a1 - a2, by omega, fun i hi => by omega⟩
    refine ⟨_, foldlM_sum_one (P := fun i => i ≠ a1 ∧ i ≠ a2) hlen (by omega)
      (fun i hi => hk' i (by omega)), isProjection_one hs (by omega) fun i hi => ?_⟩
    rw [hmem i hi]
    have := hk' i (by simp at hi; omega)
    tauto
  · refine ⟨s.data, foldlM_noop fun i hi => ?_, isProjection_all hs fun n hn => ?_⟩
    · rw [List.mem_range] at hi
      rw [if_neg (by omega)]; rfl
    · obtain ⟨i, hi, rfl⟩ := List.getElem_of_mem hn
      rw [hmem i hi]
      simp at hi; omega

/-- **C12, in general.** What `surface` does for any number of dimensions, as `nd_project`. -/
theorem c12_surface_general (s : Spectrum) (hs : s.WF) (d1 d2 : PyStr)
    (h1 : ∃ p ∈ s.cfg, p.name = d1) (h2 : ∃ p ∈ s.cfg, p.name = d2) :
    ((∀ i ∈ movedUp (s.leftOut [d1, d2]), i < s.cfg.length) →
      ∃ b, s.surface d1 d2 = .ok b ∧
        IsProjection s (s.namesBut (movedUp (s.leftOut [d1, d2]))) b ∧ b.sum = s.sum) ∧
    ((∃ i ∈ movedUp (s.leftOut [d1, d2]), s.cfg.length ≤ i) →
      s.surface d1 d2 = .error .axisError) := by
  obtain ⟨p1, hp1, rfl⟩ := h1
  obtain ⟨p2, hp2, rfl⟩ := h2
  obtain ⟨a1, ha1, e1⟩ := List.getElem_of_mem (List.mem_map.2 ⟨p1, hp1, rfl⟩ :
    p1.name ∈ s.cfg.map SPar.name)
  obtain ⟨a2, ha2, e2⟩ := List.getElem_of_mem (List.mem_map.2 ⟨p2, hp2, rfl⟩ :
    p2.name ∈ s.cfg.map SPar.name)
  have i1 := getIndex_ok hs.names (List.getElem?_eq_some_iff.2 ⟨ha1, e1⟩)
  have i2 := getIndex_ok hs.names (List.getElem?_eq_some_iff.2 ⟨ha2, e2⟩)
  have ha1' : a1 < s.cfg.length := by simpa using ha1
  have ha2' : a2 < s.cfg.length := by simpa using ha2
  have hunf : s.surface p1.name p2.name =
      (List.range s.cfg.length).foldlM (fun (proj : NdArray ℚ) i =>
        if i ∉ [a1, a2] then proj.sumAxis i else pure proj) s.data := by
    unfold Spectrum.surface
    simp only [i1, i2, bind, Except.bind]
    rw [if_neg (by omega), if_neg (by omega)]
    congr 1
    funext proj i
    simp only [List.mem_cons, List.not_mem_nil, or_false, not_or, ne_eq]
  have hmem : ∀ i (hi : i < (s.cfg.map SPar.name).length),
      i ∈ [a1, a2] ↔ (s.cfg.map SPar.name)[i] ∈ [p1.name, p2.name] := by
    intro i hi
    simp only [List.mem_cons, List.not_mem_nil, or_false, ← e1, ← e2, hs.names.getElem_inj_iff]
  have key := removal_loop hs (fun i => i ∉ [a1, a2])
  rw [leftOut_eq hmem] at key
  rw [hunf]
  refine ⟨fun h => ?_, key.2⟩
  obtain ⟨b, hb, hp⟩ := key.1 h
  exact ⟨b, hb, hp, isProjection_sum hp⟩

example : hyperBrick.leftOut [lit "z_mc", lit "t_mc"] = [0, 1] ∧
    hyperBrick.namesBut (movedUp [0, 1]) = [lit "y_mc", lit "t_mc"] ∧
    hyperBrick.leftOut [lit "x_mc", lit "y_mc"] = [2, 3] ∧ movedUp [2, 3] = [2, 4] := by decide

example : brick.WF ∧ brick.cfg.length ≤ 3 ∧ lit "z_mc" ≠ lit "x_mc" ∧
    (∃ p ∈ brick.cfg, p.name = lit "z_mc") ∧ (∃ p ∈ brick.cfg, p.name = lit "x_mc") :=
  ⟨brick_wf, by simp [brick], by simp, by simp [brick], by simp [brick]⟩

end Verif
