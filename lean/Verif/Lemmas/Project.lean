import Verif.Lemmas.Fill

/-! Helper lemmas about projections. -/

namespace Verif

open Finset

theorem inB_pick {dims ns : List PyStr} {s idx : List ℕ} (h : InB s idx) :
    InB (pick dims ns s) (pick dims ns idx) := by
  induction ns generalizing s idx with
  | nil => simp [pick]
  | cons n ns ih =>
    cases s with
    | nil => simp at h; subst h; simp [pick]
    | cons m s =>
      cases idx with
      | nil => simp at h
      | cons i idx =>
        simp only [inB_cons_cons] at h
        simp only [pick]
        split
        · simp [h.1, ih h.2]
        · exact ih h.2

theorem sumIdx_ite {α : Type} [AddCommMonoid α] {s idx : List ℕ} (h : InB s idx)
    (f : List ℕ → α) : sumIdx s (fun j => if j = idx then f j else 0) = f idx := by
  rw [← sumIdx_single h (f idx)]
  refine sumIdx_congr fun j _ => ?_
  split
  · next hj => rw [hj]
  · rfl

theorem isProjection_sum {s : Spectrum} {dims : List PyStr} {b : NdArray ℚ}
    (h : IsProjection s dims b) : b.sum = s.sum := by
  obtain ⟨hs, hg⟩ := h
  unfold Spectrum.sum NdArray.sum
  rw [sumIdx_congr hg, sumIdx_comm]
  refine sumIdx_congr fun full hfull => ?_
  have h1 : InB b.shape (pick dims (s.cfg.map SPar.name) full) := by
    rw [hs]; exact inB_pick hfull
  refine Eq.trans ?_ (sumIdx_single h1 (s.data.get full))
  exact sumIdx_congr fun j _ => by simp only [eq_comm]

theorem pick_all {dims ns : List PyStr} (h : ∀ n ∈ ns, n ∈ dims) {l : List ℕ}
    (hl : l.length = ns.length) : pick dims ns l = l := by
  induction ns generalizing l with
  | nil => simp at hl; subst hl; rfl
  | cons n ns ih =>
    cases l with
    | nil => simp at hl
    | cons a l =>
      simp only [pick, h n (by simp), if_true]
      rw [ih (fun n hn => h n (by simp [hn])) (by simpa using hl)]

theorem pick_none {dims ns : List PyStr} (h : ∀ n ∈ ns, n ∉ dims) (l : List ℕ) :
    pick dims ns l = [] := by
  induction ns generalizing l with
  | nil => simp [pick]
  | cons n ns ih =>
    cases l with
    | nil => simp [pick]
    | cons a l =>
      simp only [pick, h n (by simp), if_false]
      exact ih (fun n hn => h n (by simp [hn])) l

theorem pick_append {dims ns ms : List PyStr} {l m : List ℕ} (hl : l.length = ns.length) :
    pick dims (ns ++ ms) (l ++ m) = pick dims ns l ++ pick dims ms m := by
  induction ns generalizing l with
  | nil => simp at hl; subst hl; simp [pick]
  | cons n ns ih =>
    cases l with
    | nil => simp at hl
    | cons a l =>
      simp only [List.cons_append, pick]
      split <;> simp [ih (by simpa using hl)]

theorem getIndex_ok {s : Spectrum} (hn : (s.cfg.map SPar.name).Nodup) {k : ℕ} {d : PyStr}
    (h : (s.cfg.map SPar.name)[k]? = some d) : s.getIndex d = .ok k := by
  have : s.pars.findIdx? (fun x => decide (x = d)) = some k := by
    unfold Spectrum.pars
    revert hn h
    generalize s.cfg.map SPar.name = l
    intro hn h
    rw [List.findIdx?_eq_some_iff_getElem]
    obtain ⟨hk, rfl⟩ := List.getElem?_eq_some_iff.1 h
    refine ⟨hk, by simp, fun j hj => ?_⟩
    simp only [decide_eq_true_eq]
    intro he
    have := (hn.getElem_inj_iff (hi := by omega) (hj := hk)).1 he
    omega
  unfold Spectrum.getIndex; rw [this]

theorem getIndex_unknown {s : Spectrum} {d : PyStr} (h : d ∉ s.cfg.map SPar.name) :
    s.getIndex d = .error .indexError := by
  have : s.pars.findIdx? (fun x => decide (x = d)) = none := by
    rw [List.findIdx?_eq_none_iff]
    intro x hx
    simp only [decide_eq_false_iff_not]
    rintro rfl; exact h hx
  unfold Spectrum.getIndex; rw [this]

/-! ### the loop of `project` -/

theorem project_phase1 (axis : ℕ) (l : List ℕ) (hl : ∀ i ∈ l, i < axis) (a : NdArray ℚ)
    (pre rest : List ℕ) (hlen : l.length = pre.length) (hs : a.shape = pre ++ rest) :
    ∃ b, l.foldlM (fun (proj : NdArray ℚ) i =>
        if axis < i + 1 then proj.sumAxis 1 else proj.sumAxis 0) a = .ok b ∧
      b.shape = rest ∧ ∀ idx, b.get idx = sumIdx pre (fun i => a.get (i ++ idx)) := by
  induction l generalizing a pre with
  | nil =>
    cases pre with
    | nil => exact ⟨a, rfl, by simpa using hs, fun idx => by simp⟩
    | cons m pre => simp at hlen
  | cons i l ih =>
    cases pre with
    | nil => simp at hlen
    | cons m pre =>
      rw [List.foldlM_cons]
      have h1 : ¬ axis < i + 1 := by have := hl i (by simp); omega
      have h2 : a.sumAxis 0 = .ok ⟨pre ++ rest, fun idx => ∑ j ∈ range m, a.get (j :: idx)⟩ := by
        unfold NdArray.sumAxis; rw [hs]; simp
      obtain ⟨b, hb1, hb2, hb3⟩ := ih (fun j hj => hl j (by simp [hj]))
        ⟨pre ++ rest, fun idx => ∑ j ∈ range m, a.get (j :: idx)⟩ pre (by simpa using hlen) rfl
      refine ⟨b, ?_, hb2, fun idx => ?_⟩
      · simp only [if_neg h1, h2]; exact hb1
      · rw [hb3 idx]
        simp only [sumIdx_cons, List.cons_append]
        exact sumIdx_sum (range m) pre (fun j i => a.get (j :: (i ++ idx)))

theorem project_phase2 (axis : ℕ) (l : List ℕ) (hl : ∀ i ∈ l, axis ≤ i) (a : NdArray ℚ)
    (n : ℕ) (post : List ℕ) (hlen : l.length = post.length) (hs : a.shape = n :: post) :
    ∃ b, l.foldlM (fun (proj : NdArray ℚ) i =>
        if axis < i + 1 then proj.sumAxis 1 else proj.sumAxis 0) a = .ok b ∧
      b.shape = [n] ∧ ∀ i, b.get [i] = sumIdx post (fun j => a.get (i :: j)) := by
  induction l generalizing a post with
  | nil =>
    cases post with
    | nil => exact ⟨a, rfl, by simpa using hs, fun idx => by simp⟩
    | cons m pre => simp at hlen
  | cons i l ih =>
    cases post with
    | nil => simp at hlen
    | cons m post =>
      rw [List.foldlM_cons]
      have h1 : axis < i + 1 := by have := hl i (by simp); omega
      have h2 : a.sumAxis 1 =
          .ok ⟨n :: post, fun idx => ∑ j ∈ range m, a.get (idx.insertIdx 1 j)⟩ := by
        unfold NdArray.sumAxis; rw [hs]; simp
      obtain ⟨b, hb1, hb2, hb3⟩ := ih (fun j hj => hl j (by simp [hj]))
        ⟨n :: post, fun idx => ∑ j ∈ range m, a.get (idx.insertIdx 1 j)⟩ post
        (by simpa using hlen) rfl
      refine ⟨b, ?_, hb2, fun i' => ?_⟩
      · simp only [if_pos h1, h2]; exact hb1
      · rw [hb3 i']
        simp only [sumIdx_cons, List.insertIdx_succ_cons, List.insertIdx_zero]
        exact sumIdx_sum (range m) post (fun j idx => a.get (i' :: j :: idx))

theorem shape_length {s : Spectrum} (hs : s.WF) : s.data.shape.length = s.cfg.length := by
  have := congrArg List.length hs.shape
  simpa using this

theorem project_ok {s : Spectrum} (hs : s.WF) {pre post : List SPar} {p : SPar}
    (hc : s.cfg = pre ++ p :: post) :
    ∃ b, s.project p.name = .ok b ∧ IsProjection s [p.name] b := by
  have hlen := shape_length hs
  have hnames : s.cfg.map SPar.name = pre.map SPar.name ++ p.name :: post.map SPar.name := by
    rw [hc]; simp
  have hidx : s.getIndex p.name = .ok pre.length :=
    getIndex_ok hs.names (by rw [hnames]; simp)
  have hnd := hs.names
  rw [hnames] at hnd
  have hpre : ∀ n ∈ pre.map SPar.name, n ∉ [p.name] := by
    intro n hn h
    rw [List.mem_singleton] at h; subst h
    exact (List.nodup_append.1 hnd).2.2 _ hn _ (by simp) rfl
  have hpost : ∀ n ∈ post.map SPar.name, n ∉ [p.name] := by
    intro n hn h
    rw [List.mem_singleton] at h; subst h
    have := (List.nodup_append.1 hnd).2.1
    simp only [List.nodup_cons] at this
    exact this.1 hn
  -- shape
  obtain ⟨spre, sn, spost, hshape, hl1, hl2⟩ : ∃ spre sn spost,
      s.data.shape = spre ++ sn :: spost ∧ spre.length = pre.length ∧
      spost.length = post.length := by
    have hlt : pre.length < s.data.shape.length := by rw [hlen, hc]; simp
    refine ⟨s.data.shape.take pre.length, s.data.shape[pre.length],
      s.data.shape.drop (pre.length + 1), ?_, ?_, ?_⟩
    · rw [List.getElem_cons_drop, List.take_append_drop]
    · simp; omega
    · simp [hlen, hc]; omega
  have hrange : List.range (s.cfg.length - 1) =
      List.range pre.length ++ (List.range post.length).map (pre.length + ·) := by
    rw [← List.range_add]; congr 1; rw [hc]; simp
  obtain ⟨a', h1, h2, h3⟩ := project_phase1 pre.length (List.range pre.length)
    (fun i hi => List.mem_range.1 hi) s.data spre (sn :: spost) (by simp [hl1]) hshape
  obtain ⟨b, h4, h5, h6⟩ := project_phase2 pre.length
    ((List.range post.length).map (pre.length + ·))
    (fun i hi => by simp at hi; obtain ⟨j, _, rfl⟩ := hi; omega) a' sn spost
    (by simp [hl2]) h2
  have hpick : ∀ (x : List ℕ) (i : ℕ) (y : List ℕ), x.length = pre.length →
      pick [p.name] (s.cfg.map SPar.name) (x ++ i :: y) = [i] := by
    intro x i y hx
    rw [hnames, pick_append (by simpa using hx), pick_none hpre]
    simp [pick, pick_none hpost]
  refine ⟨b, ?_, ?_, ?_⟩
  · unfold Spectrum.project
    simp only [hidx, bind, Except.bind]
    rw [hrange, List.foldlM_append, h1]
    exact h4
  · rw [h5, hshape, hpick _ _ _ hl1]
  · intro idx hidx'
    rw [h5] at hidx'
    obtain ⟨i, rfl⟩ : ∃ i, idx = [i] := by
      cases idx with
      | nil => simp at hidx'
      | cons i idx => simp at hidx'; exact ⟨i, by rw [hidx'.2]⟩
    simp only [inB_cons_cons, inB_nil_iff, and_true] at hidx'
    rw [h6 i, hshape, sumIdx_append]
    simp only [h3]
    rw [sumIdx_comm]
    refine sumIdx_congr fun x hx => ?_
    simp only [sumIdx_cons]
    have hxl : x.length = pre.length := by rw [hx.length_eq, hl1]
    simp only [hpick _ _ _ hxl, List.cons.injEq, and_true]
    rw [sum_eq_single i]
    · simp
    · intro j _ hj; simp [hj]
    · intro hi; exact absurd (mem_range.2 hidx') hi

/-! ### `nd_project` and `surface` with at most one axis to remove -/

theorem foldlM_noop {α β : Type} {f : β → α → Except PyErr β} {l : List α} {b : β}
    (h : ∀ a ∈ l, f b a = .ok b) : l.foldlM f b = .ok b := by
  induction l with
  | nil => rfl
  | cons a l ih =>
    rw [List.foldlM_cons, h a (by simp)]
    exact ih fun a ha => h a (by simp [ha])

/-- Loop that sums axis `k` only. -/
theorem foldlM_sum_one {P : ℕ → Prop} [DecidablePred P] {a : NdArray ℚ} {n k : ℕ}
    (hn : a.shape.length = n) (hk : k < n) (hP : ∀ i < n, P i ↔ i = k) :
    (List.range n).foldlM (fun (proj : NdArray ℚ) i =>
      if P i then proj.sumAxis i else pure proj) a =
    .ok ⟨a.shape.eraseIdx k,
      fun idx => ∑ j ∈ range (a.shape[k]'(by omega)), a.get (idx.insertIdx k j)⟩ := by
  have hr : List.range n = List.range k ++ k :: (List.range (n - k - 1)).map (k + 1 + ·) := by
    have : n = (k + 1) + (n - k - 1) := by omega
    conv_lhs => rw [this, List.range_add, List.range_succ]
    simp
  rw [hr, List.foldlM_append, foldlM_noop]
  · simp only [bind, Except.bind]
    rw [List.foldlM_cons]
    simp only [if_pos ((hP k hk).2 rfl)]
    rw [NdArray.sumAxis_isOk (by omega : k < a.shape.length)]
    simp only [bind, Except.bind]
    apply foldlM_noop
    intro i hi
    simp only [List.mem_map, List.mem_range] at hi
    obtain ⟨j, hj, rfl⟩ := hi
    rw [if_neg]
    · rfl
    · rw [hP _ (by omega)]; omega
  · intro i hi
    rw [List.mem_range] at hi
    rw [if_neg]
    · rfl
    · rw [hP _ (by omega)]; omega

theorem pick_erase {dims ns : List PyStr} {k : ℕ}
    (h : ∀ i (hi : i < ns.length), ns[i] ∈ dims ↔ i ≠ k) {l : List ℕ}
    (hl : l.length = ns.length) : pick dims ns l = l.eraseIdx k := by
  induction ns generalizing k l with
  | nil => simp at hl; subst hl; simp [pick]
  | cons n ns ih =>
    cases l with
    | nil => simp at hl
    | cons a l =>
      have h0 := h 0 (by simp)
      simp only [List.getElem_cons_zero] at h0
      cases k with
      | zero =>
        simp only [pick, h0, ne_eq, not_true_eq_false, if_false, List.eraseIdx_zero, List.tail_cons]
        refine pick_all (fun m hm => ?_) (by simpa using hl)
        obtain ⟨i, hi, rfl⟩ := List.getElem_of_mem hm
        have := h (i + 1) (by simpa using hi)
        simpa using this
      | succ k =>
        simp only [pick, h0, ne_eq, Nat.zero_ne_add_one, not_false_eq_true, if_true,
          List.eraseIdx_cons_succ]
        congr 1
        refine ih (fun i hi => ?_) (by simpa using hl)
        have := h (i + 1) (by simpa using hi)
        simpa using this

theorem isProjection_all {s : Spectrum} (hs : s.WF) {dims : List PyStr}
    (h : ∀ n ∈ s.cfg.map SPar.name, n ∈ dims) : IsProjection s dims s.data := by
  have hlen := shape_length hs
  refine ⟨?_, fun idx hidx => ?_⟩
  · rw [pick_all h (by simp [hlen])]
  · rw [← sumIdx_ite hidx s.data.get]
    refine sumIdx_congr fun j hj => ?_
    rw [pick_all h (by simp [hj.length_eq, hlen])]

theorem isProjection_one {s : Spectrum} (hs : s.WF) {dims : List PyStr} {k : ℕ}
    (hk : k < s.data.shape.length)
    (h : ∀ i (hi : i < (s.cfg.map SPar.name).length), (s.cfg.map SPar.name)[i] ∈ dims ↔ i ≠ k) :
    IsProjection s dims ⟨s.data.shape.eraseIdx k,
      fun idx => ∑ j ∈ range (s.data.shape[k]), s.data.get (idx.insertIdx k j)⟩ := by
  have hlen := shape_length hs
  refine ⟨?_, fun idx hidx => ?_⟩
  · rw [pick_erase h (by simp [hlen])]
  · simp only at hidx ⊢
    rw [← sumIdx_eraseIdx (List.getElem?_eq_getElem hk)]
    rw [← sumIdx_ite hidx (fun idx => ∑ j ∈ range (s.data.shape[k]), s.data.get (idx.insertIdx k j))]
    refine sumIdx_congr fun x hx => ?_
    have hxl : x.length = s.data.shape.length - 1 := by
      rw [hx.length_eq, List.length_eraseIdx_of_lt hk]
    by_cases hxi : x = idx
    · simp only [hxi, if_true]
      refine sum_congr rfl fun j _ => ?_
      rw [pick_erase h, List.eraseIdx_insertIdx_self, if_pos rfl]
      rw [List.length_insertIdx_of_le_length (by rw [← hxi]; omega), ← hxi]
      simp [← hlen]; omega
    · simp only [hxi, if_false]
      symm
      refine sum_eq_zero fun j _ => ?_
      rw [pick_erase h, List.eraseIdx_insertIdx_self, if_neg hxi]
      rw [List.length_insertIdx_of_le_length (by omega)]
      simp [← hlen]; omega

end Verif
