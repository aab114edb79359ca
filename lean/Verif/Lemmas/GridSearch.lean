import Verif.Lemmas.Minimise

/-! Helper lemmas about filling the grid and reading it. -/

namespace Verif

open Finset

/-! ### indexing and broadcasting -/

theorem npIndex_ok {s p : List ℕ} (c : List ℕ) (h : InB s p) :
    npIndex (s ++ c) (p.map (fun n : ℕ => (n : ℤ))) = .ok p := by
  induction s generalizing p with
  | nil => simp at h; subst h; simp [npIndex]
  | cons n s ih =>
    cases p with
    | nil => simp at h
    | cons i p =>
      simp only [inB_cons_cons] at h
      have hc : (0 : ℤ) ≤ (i : ℤ) ∧ (i : ℤ) < (n : ℤ) := ⟨by omega, by omega⟩
      simp only [List.cons_append, List.map_cons, npIndex, hc, and_self, if_true, ih h.2, bind,
        Except.bind, Int.toNat_natCast]

theorem tupleGt_inB {s p : List ℕ} (h : InB s p) :
    tupleGt (p.map (fun n : ℕ => (n : ℤ))) (s.map (fun n : ℕ => (n : ℤ))) = false := by
  cases s with
  | nil => simp at h; subst h; rfl
  | cons n s =>
    cases p with
    | nil => simp at h
    | cons i p =>
      simp only [inB_cons_cons] at h
      have h1 : ¬ ((i : ℤ) = (n : ℤ)) := by omega
      have h2 : ¬ ((n : ℤ) < (i : ℤ)) := by omega
      simp [tupleGt, h1, h2]

theorem bcastRev_self (s : List ℕ) : bcastRev s s = some s := by
  induction s with
  | nil => rfl
  | cons n s ih => simp [bcastRev, ih]

theorem bcast_self (s : List ℕ) : bcast s s = some s := by simp [bcast, bcastRev_self]

theorem bcast_nil (s : List ℕ) : bcast [] s = some s := by simp [bcast, bcastRev]

theorem bcastIdx_self {s j : List ℕ} (h : InB s j) : bcastIdx s j = j := by
  unfold bcastIdx
  rw [h.length_eq]
  simp only [Nat.sub_self, List.drop_zero]
  induction s generalizing j with
  | nil => simp at h; subst h; rfl
  | cons n s ih =>
    cases j with
    | nil => simp at h
    | cons i j =>
      simp only [inB_cons_cons] at h
      simp only [List.zipWith_cons_cons, ih h.2, List.cons.injEq, and_true]
      split
      · omega
      · rfl

@[simp] theorem bcastIdx_nil (j : List ℕ) : bcastIdx [] j = [] := by simp [bcastIdx]

theorem bcastAdd_ok {α : Type} [Add α] {a b : NdArray α} (h : a.shape = b.shape) :
    ∃ m, a.bcastAdd b = .ok m ∧ m.shape = a.shape ∧
      ∀ j, InB a.shape j → m.get j = a.get j + b.get j := by
  unfold NdArray.bcastAdd
  rw [← h, bcast_self]
  refine ⟨_, rfl, rfl, fun j hj => ?_⟩
  simp only [bcastIdx_self hj]

theorem take_ok {α : Type} {a : NdArray α} {s c p : List ℕ} (hs : a.shape = s ++ c) (hp : InB s p) :
    a.take (p.map (fun n : ℕ => (n : ℤ))) = .ok ⟨c, fun j => a.get (p ++ j)⟩ := by
  unfold NdArray.take
  rw [hs, npIndex_ok c hp]
  simp [bind, Except.bind, hp.length_eq]

theorem assign_ok {α : Type} {a b : NdArray α} {s c p : List ℕ} (hs : a.shape = s ++ c)
    (hp : InB s p) (hb : b.shape = c ∨ b.shape = []) :
    a.assign (p.map (fun n : ℕ => (n : ℤ))) b = .ok ⟨s ++ c, fun j =>
      if j.take p.length = p then b.get (bcastIdx b.shape (j.drop p.length)) else a.get j⟩ := by
  unfold NdArray.assign
  rw [hs, npIndex_ok c hp]
  have hd : (s ++ c).drop p.length = c := by simp [hp.length_eq]
  have hb' : bcast b.shape c = some c := by
    rcases hb with h | h
    · rw [h]; exact bcast_self c
    · rw [h]; exact bcast_nil c
  simp only [bind, Except.bind, hd, hb', if_true]

theorem sumLast_ok {α : Type} [AddCommMonoid α] (c : List ℕ) :
    ∀ {a : NdArray α} {s : List ℕ}, a.shape = s ++ c →
    ∃ m, a.sumLast c.length = .ok m ∧ m.shape = s ∧
      ∀ idx, InB s idx → m.get idx = sumIdx c (fun j => a.get (idx ++ j)) := by
  induction c using List.reverseRecOn with
  | nil =>
    intro a s hs
    exact ⟨a, rfl, by simpa using hs, fun idx _ => by simp⟩
  | append_singleton c n ih =>
    intro a s hs
    have hnd : a.ndim = (s ++ c).length + 1 := by simp [NdArray.ndim, hs]; omega
    have hget : a.shape[a.ndim - 1]? = some n := by
      rw [hnd, hs, ← List.append_assoc]
      simp only [Nat.add_sub_cancel]
      rw [List.getElem?_append_right (le_refl _)]
      simp
    have herase : a.shape.eraseIdx (a.ndim - 1) = s ++ c := by
      rw [hnd, hs, ← List.append_assoc]
      simp only [Nat.add_sub_cancel]
      rw [List.eraseIdx_append_of_length_le (le_refl _)]
      simp
    have hax : a.sumAxisNeg 1 = .ok ⟨s ++ c, fun idx => ∑ j ∈ range n,
        a.get (idx.insertIdx (a.ndim - 1) j)⟩ := by
      unfold NdArray.sumAxisNeg NdArray.sumAxis
      rw [if_pos (by omega), hget, herase]
    obtain ⟨m, hm, hms, hmg⟩ := ih (a := ⟨s ++ c, fun idx => ∑ j ∈ range n,
        a.get (idx.insertIdx (a.ndim - 1) j)⟩) (s := s) rfl
    refine ⟨m, ?_, hms, fun idx hidx => ?_⟩
    · simp only [List.length_append, List.length_cons, List.length_nil, Nat.zero_add,
        NdArray.sumLast, hax, bind, Except.bind]
      exact hm
    · rw [hmg idx hidx, sumIdx_append]
      apply sumIdx_congr
      intro j hj
      have hl : (idx ++ j).length = a.ndim - 1 := by
        rw [hnd]; simp [hidx.length_eq, hj.length_eq]
      simp only [sumIdx_cons, sumIdx_nil]
      refine sum_congr rfl fun k _ => ?_
      congr 1
      rw [← hl, List.insertIdx_length_self, List.append_assoc]

/-! ### the grid points -/

theorem valuesAt_nil_iff {idx : List ℕ} {w : List ℝ} :
    ValuesAt [] idx w ↔ idx = [] ∧ w = [] := by
  constructor
  · rintro ⟨h1, h2⟩
    have : idx = [] := List.eq_nil_of_length_eq_zero h2
    subst this
    simp at h1
    exact ⟨rfl, h1⟩
  · rintro ⟨rfl, rfl⟩
    exact ⟨by simp, rfl⟩

theorem valuesAt_cons_iff {vs : List ℝ} {vss : List (List ℝ)} {i : ℕ} {idx : List ℕ} {x : ℝ}
    {w : List ℝ} : ValuesAt (vs :: vss) (i :: idx) (x :: w) ↔ vs[i]? = some x ∧ ValuesAt vss idx w := by
  unfold ValuesAt
  simp [and_assoc]

theorem ValuesAt.inB {vss : List (List ℝ)} {idx : List ℕ} {w : List ℝ} (h : ValuesAt vss idx w) :
    InB (vss.map List.length) idx := by
  induction vss generalizing idx w with
  | nil => rw [valuesAt_nil_iff] at h; simp [h.1]
  | cons vs vss ih =>
    cases idx with
    | nil => exact absurd h.2 (by simp)
    | cons i idx =>
      cases w with
      | nil => have := h.1; simp at this
      | cons x w =>
        rw [valuesAt_cons_iff] at h
        simp only [List.map_cons, inB_cons_cons]
        exact ⟨(List.getElem?_eq_some_iff.1 h.1).1, ih h.2⟩

theorem ValuesAt.comb {vss : List (List ℝ)} {idx : List ℕ} {w : List ℝ} (h : ValuesAt vss idx w) :
    Combination vss w := by
  induction vss generalizing idx w with
  | nil => rw [valuesAt_nil_iff] at h; simp [Combination, h.2]
  | cons vs vss ih =>
    cases idx with
    | nil => exact absurd h.2 (by simp)
    | cons i idx =>
      cases w with
      | nil => have := h.1; simp at this
      | cons x w =>
        rw [valuesAt_cons_iff] at h
        exact List.Forall₂.cons (List.mem_of_getElem? h.1) (ih h.2)

theorem ValuesAt.eq {vss : List (List ℝ)} {idx : List ℕ} {w w' : List ℝ} (h : ValuesAt vss idx w)
    (h' : ValuesAt vss idx w') : w = w' := by
  induction vss generalizing idx w w' with
  | nil => rw [valuesAt_nil_iff] at h h'; rw [h.2, h'.2]
  | cons vs vss ih =>
    cases idx with
    | nil => exact absurd h.2 (by simp)
    | cons i idx =>
      cases w with
      | nil => have := h.1; simp at this
      | cons x w =>
        cases w' with
        | nil => have := h'.1; simp at this
        | cons x' w' =>
          rw [valuesAt_cons_iff] at h h'
          rw [ih h.2 h'.2]
          have := h.1.symm.trans h'.1
          rw [Option.some.inj this]

theorem ValuesAt.exists {vss : List (List ℝ)} {idx : List ℕ} (h : InB (vss.map List.length) idx) :
    ∃ w, ValuesAt vss idx w := by
  induction vss generalizing idx with
  | nil => exact ⟨[], by rw [valuesAt_nil_iff]; simpa using h⟩
  | cons vs vss ih =>
    cases idx with
    | nil => simp at h
    | cons i idx =>
      simp only [List.map_cons, inB_cons_cons] at h
      obtain ⟨w, hw⟩ := ih h.2
      exact ⟨vs[i] :: w, valuesAt_cons_iff.2 ⟨List.getElem?_eq_getElem h.1, hw⟩⟩

theorem Combination.exists {vss : List (List ℝ)} {w : List ℝ} (h : Combination vss w) :
    ∃ idx, ValuesAt vss idx w := by
  induction vss generalizing w with
  | nil => exact ⟨[], by rw [valuesAt_nil_iff]; simpa [Combination] using h⟩
  | cons vs vss ih =>
    cases w with
    | nil => simp [Combination] at h
    | cons x w =>
      simp only [Combination, List.forall₂_cons] at h
      obtain ⟨idx, hw⟩ := ih h.2
      obtain ⟨i, hi⟩ := List.getElem?_of_mem h.1
      exact ⟨i :: idx, valuesAt_cons_iff.2 ⟨hi, hw⟩⟩

theorem ValuesAt.idx_eq {vss : List (List ℝ)} (hn : ∀ vs ∈ vss, vs.Nodup) {idx idx' : List ℕ}
    {w : List ℝ} (h : ValuesAt vss idx w) (h' : ValuesAt vss idx' w) : idx = idx' := by
  induction vss generalizing idx idx' w with
  | nil => rw [valuesAt_nil_iff] at h h'; rw [h.1, h'.1]
  | cons vs vss ih =>
    cases idx with
    | nil => exact absurd h.2 (by simp)
    | cons i idx =>
      cases idx' with
      | nil => exact absurd h'.2 (by simp)
      | cons i' idx' =>
        cases w with
        | nil => have := h.1; simp at this
        | cons x w =>
          rw [valuesAt_cons_iff] at h h'
          rw [ih (fun vs h => hn vs (List.mem_cons_of_mem _ h)) h.2 h'.2]
          have hnd := hn vs List.mem_cons_self
          have hi := (List.getElem?_eq_some_iff.1 h.1).1
          rw [(List.getElem?_inj hi hnd).1 (h.1.trans h'.1.symm)]

theorem findIdx?_own {vs : List ℝ} {x : ℝ} (h : x ∈ vs) (q : ℝ → Bool) (hq : ∀ y, q y = true ↔ y = x) :
    ∃ i, vs.findIdx? q = some i ∧ vs[i]? = some x := by
  cases hf : vs.findIdx? q with
  | none =>
    rw [List.findIdx?_eq_none_iff] at hf
    have := hf x h
    have h2 := (hq x).2 rfl
    rw [this] at h2
    cases h2
  | some i =>
    refine ⟨i, rfl, ?_⟩
    rw [List.findIdx?_eq_some_iff_getElem] at hf
    obtain ⟨hi, hp, _⟩ := hf
    rw [List.getElem?_eq_getElem hi, (hq _).1 hp]

theorem getValueIndex_own {p : FitPar} {vs : List ℝ} (hv : p.getValues = .ok vs) {x : ℝ} (h : x ∈ vs) :
    ∃ i, p.getValueIndex x = .ok i ∧ vs[i]? = some x := by
  classical
  obtain ⟨i, hi, hx⟩ := findIdx?_own h (fun y => decide (y = x)) (by simp)
  refine ⟨i, ?_, hx⟩
  unfold FitPar.getValueIndex
  have hi' : vs.findIdx? (fun y => @decide (y = x) (Classical.propDecidable _)) = some i := by
    convert hi
  simp only [hv, bind, Except.bind, hi']

theorem mapM_forall₂ {α β : Type} {l : List α} {f : α → Except PyErr β} {R : α → β → Prop}
    (h : ∀ x ∈ l, ∃ y, f x = .ok y ∧ R x y) : ∃ r, l.mapM f = .ok r ∧ List.Forall₂ R l r := by
  induction l with
  | nil => exact ⟨[], rfl, List.Forall₂.nil⟩
  | cons a l ih =>
    obtain ⟨y, hy, hR⟩ := h a List.mem_cons_self
    obtain ⟨r, hr, hF⟩ := ih (fun x hx => h x (List.mem_cons_of_mem _ hx))
    refine ⟨y :: r, ?_, List.Forall₂.cons hR hF⟩
    rw [List.mapM_cons, hy, hr]
    rfl

theorem flatten_forall₂ {α β : Type} {R : α → List β → Prop} {l : List α} {r : List (List β)}
    (h : List.Forall₂ R l r) {P : β → Prop} (hP : ∀ x ∈ l, ∀ y, R x y → ∀ b ∈ y, P b) :
    ∀ b ∈ r.flatten, P b := by
  induction h with
  | nil => simp
  | cons hR _ ih =>
    intro b hb
    rw [List.flatten_cons, List.mem_append] at hb
    rcases hb with hb | hb
    · exact hP _ List.mem_cons_self _ hR b hb
    · exact ih (fun x hx => hP x (List.mem_cons_of_mem _ hx)) b hb

/-- The grid points exist and each pairs values with their positions. -/
theorem gridPoints_ok {pars : List FitPar} {vss : List (List ℝ)} (h : HasValues pars vss) :
    ∃ l, GridSearch.gridPoints pars = .ok l ∧ (∀ pt ∈ l, ValuesAt vss pt.2 pt.1) ∧
      ((∀ vs ∈ vss, vs.Nodup) → l.map Prod.snd = allIdx (vss.map List.length)) := by
  induction h with
  | nil =>
    refine ⟨[([], [])], rfl, ?_, fun _ => rfl⟩
    intro pt hpt
    simp at hpt
    subst hpt
    exact valuesAt_nil_iff.2 ⟨rfl, rfl⟩
  | @cons p vs pars vss hp _ ih =>
    obtain ⟨rest, hrest, hv, hn⟩ := ih
    have hblock : ∀ v ∈ vs, ∃ y, (do
        let i ← p.getValueIndex v
        let rest ← GridSearch.gridPoints pars
        Except.ok (rest.map (fun (e : List ℝ × List ℕ) => (v :: e.1, i :: e.2))) :
          Except PyErr (List (List ℝ × List ℕ))) = .ok y ∧
        ∃ i, vs[i]? = some v ∧ y = rest.map (fun e => (v :: e.1, i :: e.2)) := by
      intro v hvs
      obtain ⟨i, hi, hx⟩ := getValueIndex_own hp hvs
      refine ⟨_, ?_, i, hx, rfl⟩
      simp only [hi, hrest, bind, Except.bind]
    obtain ⟨blocks, hb, hF⟩ := mapM_forall₂ hblock
    refine ⟨blocks.flatten, ?_, ?_, ?_⟩
    · simp only [GridSearch.gridPoints, hp, bind, Except.bind] at hb ⊢
      rw [hb]
    · apply flatten_forall₂ hF (P := fun pt => ValuesAt (vs :: vss) pt.2 pt.1)
      rintro v _ y ⟨i, hi, rfl⟩ b hb
      obtain ⟨e, he, rfl⟩ := List.mem_map.1 hb
      exact valuesAt_cons_iff.2 ⟨hi, hv e he⟩
    · intro hnd
      have hn' := hn (fun vs h => hnd vs (List.mem_cons_of_mem _ h))
      have hvs := hnd vs List.mem_cons_self
      simp only [List.map_cons, allIdx]
      have hblocks : blocks.map (fun y => y.map Prod.snd) = (List.range vs.length).map
          (fun i => (allIdx (vss.map List.length)).map (i :: ·)) := by
        apply List.ext_getElem?
        intro k
        have hlen := hF.length_eq
        rcases Nat.lt_or_ge k vs.length with hk | hk
        · have hk' : k < blocks.length := by omega
          have hR := List.Forall₂.get hF hk hk'
          obtain ⟨i, hi, hy⟩ := hR
          have hik : i = k := by
            have h1 := (List.getElem?_eq_some_iff.1 hi).1
            have h2 : vs[k]? = some (vs.get ⟨k, hk⟩) := List.getElem?_eq_getElem hk
            exact (List.getElem?_inj h1 hvs).1 (hi.trans h2.symm)
          simp only [List.getElem?_map, List.getElem?_eq_getElem hk', Option.map_some,
            List.getElem?_range hk, Option.some.injEq]
          have hy' : blocks[k] = rest.map (fun e => (vs.get ⟨k, hk⟩ :: e.1, i :: e.2)) := hy
          rw [hy', ← hn', hik]
          simp [Function.comp_def]
        · rw [List.getElem?_eq_none (by simp; omega), List.getElem?_eq_none (by simp; omega)]
      rw [List.map_flatten, hblocks, List.flatMap_def]

/-! ### filling the grid -/

/-- The grid search after writing `r` and `x` at the grid point `p`. -/
def GridSearch.written (g : GridSearch) (r : FitVal) (x : ℝ) (p : List ℕ) : GridSearch :=
  { g with
    stats := ⟨g.stats.shape, fun j => if j.take p.length = p then
      r.cells.get (bcastIdx r.cells.shape (j.drop p.length)) else g.stats.get j⟩
    penalties := ⟨g.penalties.shape, fun j => if j.take p.length = p then x else g.penalties.get j⟩ }

theorem fillPoint_ok {g : GridSearch} (hr : g.Ready) {funct : List ℝ → Except PyErr (FitVal × ℝ)}
    {pt : List ℝ × List ℕ} {r : FitVal} {x : ℝ} (hf : funct pt.1 = .ok (r, x)) (hfit : g.Fits r)
    (hp : InB g.fitShape pt.2) : g.fillPoint funct pt = .ok (g.written r x pt.2) := by
  have hob : g.outOfBounds (pt.2.map (fun n : ℕ => (n : ℤ))) = false := by
    unfold GridSearch.outOfBounds
    exact tupleGt_inB hp
  have hcell : r.cells.shape = g.cellShape ∨ r.cells.shape = [] := by
    cases r with
    | scalar x => right; rfl
    | array a => left; simp only [FitVal.cells, GridSearch.cellShape]; rw [hfit.1, hfit.2]; rfl
  have hstat : g.setStat (.array r.cells) (pt.2.map (fun n : ℕ => (n : ℤ))) =
      .ok { g with stats := ⟨g.stats.shape, fun j => if j.take pt.2.length = pt.2 then
        r.cells.get (bcastIdx r.cells.shape (j.drop pt.2.length)) else g.stats.get j⟩ } := by
    unfold GridSearch.setStat
    rw [hob]
    simp only [Bool.false_eq_true, if_false, bind, Except.bind, assign_ok hr.1 hp hcell]
    rw [hr.1]
  have hpen : ∀ g' : GridSearch, g'.pars = g.pars → g'.penalties = g.penalties →
      g'.setPenaltyTerm x (pt.2.map (fun n : ℕ => (n : ℤ))) =
      .ok { g' with penalties := ⟨g.penalties.shape, fun j => if j.take pt.2.length = pt.2 then x
        else g.penalties.get j⟩ } := by
    intro g' h1 h2
    unfold GridSearch.setPenaltyTerm
    have hob' : g'.outOfBounds (pt.2.map (fun n : ℕ => (n : ℤ))) = false := by
      rw [← hob]; unfold GridSearch.outOfBounds GridSearch.fitShape; rw [h1]
    rw [hob']
    have hps : g'.penalties.shape = g.fitShape ++ [] := by rw [h2, hr.2]; simp
    have := assign_ok (b := (⟨[], fun _ => x⟩ : NdArray ℝ)) hps hp (Or.inl rfl)
    simp only [Bool.false_eq_true, if_false, bind, Except.bind, this]
    rw [h2, hr.2]
    simp
  unfold GridSearch.fillPoint
  simp only [hf, bind, Except.bind]
  cases r with
  | scalar y =>
    have hpb : g.perBin = false := hfit
    simp only [hpb]
    have hstat' : g.setStat (.array ⟨[], fun _ => y⟩) (pt.2.map (fun n : ℕ => (n : ℤ))) = _ := hstat
    simp only [hstat']
    rw [hpen _ (by rfl) (by rfl)]
    rfl
  | array a =>
    have hpb : g.perBin = true := hfit.1
    simp only [hpb]
    have hstat' : g.setStat (.array a) (pt.2.map (fun n : ℕ => (n : ℤ))) = _ := hstat
    simp only [hstat']
    rw [hpen _ (by rfl) (by rfl)]
    rfl

theorem written_ready {g : GridSearch} (hr : g.Ready) (r : FitVal) (x : ℝ) (p : List ℕ) :
    (g.written r x p).Ready := hr

theorem fillGrid_ok {funct : List ℝ → Except PyErr (FitVal × ℝ)} {F : List ℝ → FitVal}
    {P : List ℝ → ℝ} (pts : List (List ℝ × List ℕ)) :
    ∀ {g : GridSearch}, g.Ready →
    (∀ pt ∈ pts, funct pt.1 = .ok (F pt.1, P pt.1) ∧ g.Fits (F pt.1) ∧ InB g.fitShape pt.2) →
    ∃ g', g.fillGrid funct pts = .ok g' ∧ g'.Ready ∧
      (∃ st pe, g' = { g with stats := st, penalties := pe }) ∧
      (∀ idx, InB g.fitShape idx → idx ∉ pts.map Prod.snd →
        (∀ j, g'.stats.get (idx ++ j) = g.stats.get (idx ++ j)) ∧
        g'.penalties.get idx = g.penalties.get idx) ∧
      ((pts.map Prod.snd).Nodup → ∀ pt ∈ pts,
        (∀ j, InB g.cellShape j → g'.stats.get (pt.2 ++ j) = (F pt.1).cells.get j) ∧
        g'.penalties.get pt.2 = P pt.1) := by
  induction pts with
  | nil =>
    intro g hr _
    exact ⟨g, rfl, hr, ⟨g.stats, g.penalties, rfl⟩, fun _ _ _ => ⟨fun _ => rfl, rfl⟩,
      fun _ pt h => absurd h (by simp)⟩
  | cons pt pts ih =>
    intro g hr h
    obtain ⟨h1, h2, h3⟩ := h pt List.mem_cons_self
    have hstep := fillPoint_ok hr h1 h2 h3
    obtain ⟨g', hg', hr', ⟨st, pe, he⟩, hun, hw⟩ := ih (g := g.written (F pt.1) (P pt.1) pt.2)
      (written_ready hr _ _ _) (fun q hq => h q (List.mem_cons_of_mem _ hq))
    have hother : ∀ idx, InB g.fitShape idx → idx ≠ pt.2 → ∀ j,
        (g.written (F pt.1) (P pt.1) pt.2).stats.get (idx ++ j) = g.stats.get (idx ++ j) := by
      intro idx hidx hne j
      have hl : pt.2.length = idx.length := by rw [hidx.length_eq, h3.length_eq]
      simp only [GridSearch.written, hl, List.take_left]
      rw [if_neg hne]
    refine ⟨g', ?_, hr', ⟨st, pe, he⟩, ?_, ?_⟩
    · simp only [GridSearch.fillGrid, bind, Except.bind, hstep]
      exact hg'
    · intro idx hidx hnot
      simp only [List.map_cons, List.mem_cons, not_or] at hnot
      obtain ⟨a, b⟩ := hun idx hidx hnot.2
      refine ⟨fun j => (a j).trans (hother idx hidx hnot.1 j), b.trans ?_⟩
      have hl : pt.2.length = idx.length := by rw [hidx.length_eq, h3.length_eq]
      simp only [GridSearch.written, hl, List.take_length]
      rw [if_neg hnot.1]
    · intro hnd q hq
      simp only [List.map_cons, List.nodup_cons] at hnd
      rcases List.mem_cons.1 hq with rfl | hq
      · obtain ⟨a, b⟩ := hun q.2 h3 hnd.1
        refine ⟨fun j hj => (a j).trans ?_, b.trans ?_⟩
        · simp only [GridSearch.written, List.take_left, List.drop_left, if_true]
          cases hF : F q.1 with
          | scalar y =>
            have : j = [] := by
              rw [hF] at h2
              have hpb : g.perBin = false := h2
              simpa [GridSearch.cellShape, hpb] using hj
            simp [FitVal.cells]
          | array a =>
            rw [hF] at h2
            have hpb : g.perBin = true := h2.1
            simp only [GridSearch.cellShape, hpb, if_true] at hj
            simp only [FitVal.cells, h2.2, bcastIdx_self hj]
        · simp [GridSearch.written]
      · exact hw hnd.2 q hq

/-! ### reading the grid -/

theorem getStats_ok {g : GridSearch} (hr : g.Ready) :
    ∃ m, g.getStats = .ok m ∧ m.shape = g.fitShape ∧ ∀ idx, InB g.fitShape idx →
      m.get idx = sumIdx g.cellShape (fun j => g.stats.get (idx ++ j)) + g.penalties.get idx := by
  have hs : ∃ c, (if g.perBin then g.stats.sumLast g.specShape.length else .ok g.stats) = .ok c ∧
      c.shape = g.fitShape ∧ ∀ idx, InB g.fitShape idx →
        c.get idx = sumIdx g.cellShape (fun j => g.stats.get (idx ++ j)) := by
    have h := hr.1
    unfold GridSearch.cellShape at h ⊢
    cases hpb : g.perBin with
    | true =>
      simp only [hpb, if_true] at h ⊢
      exact sumLast_ok g.specShape h
    | false =>
      simp only [hpb, Bool.false_eq_true, if_false, List.append_nil] at h ⊢
      exact ⟨g.stats, rfl, h, fun idx _ => by simp⟩
  obtain ⟨c, hc, hcs, hcg⟩ := hs
  obtain ⟨m, hm, hms, hmg⟩ := bcastAdd_ok (a := c) (b := g.penalties) (by rw [hcs, hr.2])
  refine ⟨m, ?_, hms.trans hcs, fun idx hidx => ?_⟩
  · unfold GridSearch.getStats
    cases hpb : g.perBin with
    | true =>
      simp only [hpb, if_true] at hc
      simp only [if_true, bind, Except.bind, hc]
      exact hm
    | false =>
      simp only [hpb, Bool.false_eq_true, if_false] at hc
      simp only [Bool.false_eq_true, if_false, bind, Except.bind]
      rw [Except.ok.inj hc]
      exact hm
  · rw [hmg idx (by rw [hcs]; exact hidx), hcg idx hidx]

theorem bestPosition_ok {g : GridSearch} (hr : g.Ready) (hpos : ∀ n ∈ g.fitShape, 0 < n)
    (hne : g.useNumpy = true ∨ g.fitShape ≠ []) :
    ∃ p, g.bestPosition = .ok p ∧ FirstMin g.fitShape (fun idx =>
      sumIdx g.cellShape (fun j => g.stats.get (idx ++ j)) + g.penalties.get idx) p := by
  obtain ⟨m, hm, hms, hmg⟩ := getStats_ok hr
  have conv : ∀ p, FirstMin m.shape m.get p → FirstMin g.fitShape (fun idx =>
      sumIdx g.cellShape (fun j => g.stats.get (idx ++ j)) + g.penalties.get idx) p := by
    rintro p ⟨h1, h2⟩
    rw [hms] at h1
    refine ⟨h1, fun q hq => ?_⟩
    have := h2 q (by rw [hms]; exact hq)
    rw [hmg p h1, hmg q hq] at this
    exact this
  unfold GridSearch.bestPosition
  simp only [bind, Except.bind, hm]
  cases hn : g.useNumpy with
  | true =>
    obtain ⟨k, hk, hfm⟩ := numpy_firstMin m (by rw [hms]; exact hpos)
    simp only [if_true, hk]
    exact ⟨_, rfl, conv _ hfm⟩
  | false =>
    have hne' : m.shape ≠ [] := by
      rw [hms]
      rcases hne with h | h
      · rw [hn] at h; cases h
      · exact h
    obtain ⟨p, hp, hfm⟩ := findMinimum_ok m hne' (by rw [hms]; exact hpos)
    simp only [Bool.false_eq_true, if_false, hp]
    exact ⟨_, rfl, conv _ hfm⟩

end Verif
