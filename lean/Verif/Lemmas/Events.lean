import Verif.Spec.Events
import Verif.Props.Rebin
import Verif.Props.Shrink
import Verif.Props.Project
import Mathlib.Tactic.FieldSimp
import Mathlib.Tactic.Linarith

/-! # Helper lemmas: what happens to the cell of an event -/

namespace Verif

open Spectrum

theorem runFills_wf {s : Spectrum} (hs : s.WF) (h : Fills) : (runFills s h).WF := by
  induction h generalizing s with
  | nil => exact hs
  | cons e h ih => exact ih (fill_wf hs e.1)

/-- Sums of histories go through sums over cells. -/
theorem sumIdx_history {α : Type} (h : List α) (shape : List ℕ) (f : α → List ℕ → ℚ) :
    sumIdx shape (fun j => (h.map (fun e => f e j)).sum) = (h.map (fun e => sumIdx shape (f e))).sum := by
  induction h with
  | nil => simp
  | cons e h ih => simp only [List.map_cons, List.sum_cons, sumIdx_add, ih]

/-- The bin of a merged axis. -/
theorem inCell_merge {p : SPar} (hp : p.WF) {n : ℕ} (hd : (n : ℤ) ∣ p.bins) {x : ℚ} {i : ℕ}
    (h : InCell p x i) : InCell { p with bins := (n : ℤ) } x (i / (p.bins.toNat / n)) := by
  obtain ⟨hb, hlt⟩ := hp
  obtain ⟨m, hm⟩ : ∃ m : ℕ, p.bins = m := ⟨p.bins.toNat, by omega⟩
  obtain ⟨h1, h2, h3⟩ := h
  rw [hm] at hd hb h1
  rw [Int.natCast_dvd_natCast] at hd
  obtain ⟨k, rfl⟩ := hd
  have hnk : 0 < n * k := by exact_mod_cast hb
  have hn : 0 < n := Nat.pos_of_mul_pos_right hnk
  have hk : 0 < k := Nat.pos_of_mul_pos_left hnk
  have hq : p.bins.toNat / n = k := by
    rw [hm, Int.toNat_natCast, Nat.mul_div_cancel_left _ hn]
  rw [hq]
  have hw : (0 : ℚ) < (p.high - p.low) / p.bins := by
    rw [hm]; exact div_pos (by linarith) (by exact_mod_cast hnk)
  have hedge : ∀ j : ℤ, SPar.edge { p with bins := (n : ℤ) } j = p.edge (j * k) := by
    intro j
    unfold SPar.edge
    simp only [hm]
    push_cast
    have : (n : ℚ) ≠ 0 := by exact_mod_cast hn.ne'
    have : (k : ℚ) ≠ 0 := by exact_mod_cast hk.ne'
    field_simp
  have hmono : ∀ a b : ℤ, a ≤ b → p.edge a ≤ p.edge b := by
    intro a b hab
    unfold SPar.edge
    have : (a : ℚ) ≤ b := by exact_mod_cast hab
    have := mul_le_mul_of_nonneg_right this hw.le
    linarith
  refine ⟨?_, ?_, ?_⟩
  · have hi : i < n * k := by exact_mod_cast h1
    have : i / k < n := Nat.div_lt_of_lt_mul (by rw [Nat.mul_comm]; exact hi)
    change ((i / k : ℕ) : ℤ) < (n : ℤ)
    exact_mod_cast this
  · rw [hedge]
    refine (hmono _ _ ?_).trans h2
    have := Nat.div_mul_le_self i k
    exact_mod_cast this
  · rw [hedge]
    refine h3.trans_le (hmono _ _ ?_)
    have := Nat.lt_div_mul_add (a := i) hk
    have : i + 1 ≤ (i / k + 1) * k := by rw [Nat.add_mul, one_mul]; omega
    exact_mod_cast this

/-- The bin of a restricted axis. -/
theorem inCell_sub {p : SPar} (hp : p.WF) {r : ℕ × ℕ} (hr : r.1 < r.2) (hb : (r.2 : ℤ) ≤ p.bins)
    {x : ℚ} {i : ℕ} (hi : i < r.2 - r.1) :
    InCell (subAxis p r) x i ↔ InCell p x (r.1 + i) := by
  have hedge : ∀ j : ℤ, (subAxis p r).edge j = p.edge (r.1 + j) := by
    intro j
    have hb0 : ((p.bins : ℤ) : ℚ) ≠ 0 := by exact_mod_cast hp.1.ne'
    have hr0 : (r.2 : ℚ) - r.1 ≠ 0 := by
      have : (r.1 : ℚ) < r.2 := by exact_mod_cast hr
      linarith
    unfold subAxis SPar.edge
    push_cast
    field_simp
    ring
  unfold InCell
  rw [hedge, hedge]
  have e1 : ((r.1 + i : ℕ) : ℤ) = (r.1 : ℤ) + i := by push_cast; ring
  rw [e1, add_assoc]
  constructor
  · rintro ⟨-, h2, h3⟩
    exact ⟨by omega, h2, h3⟩
  · rintro ⟨-, h2, h3⟩
    refine ⟨?_, h2, h3⟩
    change (i : ℤ) < (r.2 : ℤ) - r.1
    omega

/-- The cell of an event after merging bins. -/
theorem cellOf_merge {s t : Spectrum} (hs : s.WF) {ns : List ℕ}
    (hd : List.Forall₂ (fun (p : SPar) (n : ℕ) => (n : ℤ) ∣ p.bins) s.cfg ns)
    (hc : t.cfg = List.zipWith (fun (p : SPar) (n : ℕ) => { p with bins := (n : ℤ) }) s.cfg ns)
    {kw : List (PyStr × ℚ)} {full : List ℕ} (h : CellOf s kw full) :
    CellOf t kw (List.zipWith (· / ·) full (List.zipWith (· / ·) s.data.shape ns)) := by
  unfold CellOf at *
  rw [hc]
  have hax := hs.axes
  have hsh := hs.shape
  revert hd h hax hsh
  generalize s.cfg = cfg
  generalize s.data.shape = shape
  intro hd h hax hsh
  clear * - hd h hax hsh
  induction hd generalizing full shape with
  | nil =>
    cases h
    simp
  | @cons p n cfg ns h1 _ ih =>
    cases h with
    | @cons _ i _ full ha hb =>
      cases shape with
      | nil => simp at hsh
      | cons c shape =>
        simp only [List.map_cons, List.cons.injEq] at hsh
        simp only [List.zipWith_cons_cons]
        obtain ⟨x, hx, hcell⟩ := ha
        refine .cons ⟨x, hx, ?_⟩ (ih shape hb (fun q hq => hax q (by simp [hq])) hsh.2)
        have := inCell_merge (hax p (by simp)) h1 hcell
        rwa [← hsh.1, Int.toNat_natCast] at this

theorem inRange_merge {s t : Spectrum} {ns : List ℕ} (hl : ns.length = s.cfg.length)
    (hc : t.cfg = List.zipWith (fun (p : SPar) (n : ℕ) => { p with bins := (n : ℤ) }) s.cfg ns)
    (kw : List (PyStr × ℚ)) : InRange t kw ↔ InRange s kw := by
  have key : ∀ (P : PyStr → ℚ → ℚ → Prop), ((∃ p ∈ t.cfg, P p.name p.low p.high) ↔
      ∃ p ∈ s.cfg, P p.name p.low p.high) ∧ ((∀ p ∈ t.cfg, P p.name p.low p.high) ↔
      ∀ p ∈ s.cfg, P p.name p.low p.high) := by
    intro P
    rw [hc]
    revert hl
    generalize s.cfg = cfg
    intro hl
    clear * - hl
    induction cfg generalizing ns with
    | nil => simp
    | cons p cfg ih => cases ns with
      | nil => simp at hl
      | cons n ns =>
        obtain ⟨a, b⟩ := ih (by simpa using hl)
        simp only [List.zipWith_cons_cons, List.mem_cons, exists_eq_or_imp, forall_eq_or_imp, a, b,
          and_self]
  unfold InRange
  refine and_congr (forall₂_congr fun e _ => (key (fun n _ _ => n = e.1)).1)
    (key (fun n lo hi => ∃ x, (n, x) ∈ kw ∧ lo ≤ x ∧ x < hi)).2

/-- What an event contributes to a merged cell is what it contributes to the cells of the block. -/
theorem contribution_merge {s t : Spectrum} (hs : s.WF) (ht : t.WF) {ns : List ℕ}
    (hd : List.Forall₂ (fun (p : SPar) (n : ℕ) => (n : ℤ) ∣ p.bins) s.cfg ns)
    (hc : t.cfg = List.zipWith (fun (p : SPar) (n : ℕ) => { p with bins := (n : ℤ) }) s.cfg ns)
    (e : ℚ × List (PyStr × ℚ)) (he : IsDict e.2) (idx : List ℕ) :
    sumIdx s.data.shape (fun full =>
      if List.zipWith (· / ·) full (List.zipWith (· / ·) s.data.shape ns) = idx
      then contribution s full e else 0) = contribution t idx e := by
  by_cases hr : InRange s e.2
  · have hr' : InRange t e.2 := (inRange_merge hd.length_eq.symm hc _).2 hr
    obtain ⟨full, hf, -⟩ := fill_of_inRange hs he hr e.1
    have hm := cellOf_merge hs hd hc hf
    have h1 : ∀ j, contribution s j e = if j = full then e.1 else 0 := by
      intro j
      classical
      unfold contribution
      refine if_congr ⟨fun h => cellOf_unique hs he h.2 hf, ?_⟩ rfl rfl
      rintro rfl
      exact ⟨hr, hf⟩
    have h2 : contribution t idx e =
        if List.zipWith (· / ·) full (List.zipWith (· / ·) s.data.shape ns) = idx then e.1 else 0 := by
      classical
      unfold contribution
      refine if_congr ⟨fun h => cellOf_unique ht he hm h.2, ?_⟩ rfl rfl
      rintro rfl
      exact ⟨hr', hm⟩
    rw [h2, ← sumIdx_ite (cellOf_inB hs hf) (fun j =>
      if List.zipWith (· / ·) j (List.zipWith (· / ·) s.data.shape ns) = idx then e.1 else 0)]
    refine sumIdx_congr fun j _ => ?_
    rw [h1]
    split_ifs <;> rfl
  · have hr' : ¬ InRange t e.2 := fun h => hr ((inRange_merge hd.length_eq.symm hc _).1 h)
    simp [contribution, hr, hr']

/-- The cell of an event in a part of the spectrum. -/
theorem cellOf_sub {s t : Spectrum} (hs : s.WF) {rs : List (ℕ × ℕ)}
    (hf : List.Forall₂ (fun (p : SPar) (r : ℕ × ℕ) => r.1 < r.2 ∧ (r.2 : ℤ) ≤ p.bins) s.cfg rs)
    (hc : t.cfg = List.zipWith subAxis s.cfg rs)
    {kw : List (PyStr × ℚ)} {idx : List ℕ} (hi : InB (rs.map (fun r => r.2 - r.1)) idx) :
    CellOf t kw idx ↔ CellOf s kw (List.zipWith (fun r i => r.1 + i) rs idx) := by
  unfold CellOf
  rw [hc]
  have hax := hs.axes
  revert hf hax
  generalize s.cfg = cfg
  intro hf hax
  clear * - hf hax hi
  induction hf generalizing idx with
  | nil =>
    cases idx with
    | nil => simp
    | cons a b => simp at hi
  | @cons p r cfg rs h1 _ ih =>
    cases idx with
    | nil => simp at hi
    | cons i idx =>
      simp only [List.map_cons, inB_cons_cons] at hi
      simp only [List.zipWith_cons_cons, List.forall₂_cons]
      have ih' := ih hi.2 (fun q hq => hax q (by simp [hq]))
      refine and_congr (exists_congr fun x => ?_) ih'
      rw [inCell_sub (hax p (by simp)) h1.1 h1.2 hi.1]
      rfl

/-- What an event contributes to a cell of a part of the spectrum. -/
theorem contribution_sub {s t : Spectrum} (hs : s.WF) (ht : t.WF) {rs : List (ℕ × ℕ)}
    (hf : List.Forall₂ (fun (p : SPar) (r : ℕ × ℕ) => r.1 < r.2 ∧ (r.2 : ℤ) ≤ p.bins) s.cfg rs)
    (hc : t.cfg = List.zipWith subAxis s.cfg rs) (e : ℚ × List (PyStr × ℚ)) {idx : List ℕ}
    (hi : InB (rs.map (fun r => r.2 - r.1)) idx) :
    contribution t idx e = contribution s (List.zipWith (fun r i => r.1 + i) rs idx) e := by
  have hnames : ∀ n : PyStr, (∃ p ∈ t.cfg, p.name = n) ↔ ∃ p ∈ s.cfg, p.name = n := by
    intro n
    rw [hc]
    revert hf
    generalize s.cfg = cfg
    intro hf
    clear * - hf
    induction hf with
    | nil => simp
    | cons _ _ ih =>
      simp only [List.zipWith_cons_cons, List.mem_cons, exists_eq_or_imp, ih, subAxis]
  have key : InRange t e.2 ∧ CellOf t e.2 idx ↔
      InRange s e.2 ∧ CellOf s e.2 (List.zipWith (fun r i => r.1 + i) rs idx) := by
    constructor
    · rintro ⟨h1, h2⟩
      have h3 := (cellOf_sub hs hf hc hi).1 h2
      exact ⟨inRange_of_cellOf hs h3 fun x hx => (hnames _).1 (h1.1 x hx), h3⟩
    · rintro ⟨h1, h2⟩
      have h3 := (cellOf_sub hs hf hc hi).2 h2
      exact ⟨inRange_of_cellOf ht h3 fun x hx => (hnames _).2 (h1.1 x hx), h3⟩
  classical
  unfold contribution
  exact if_congr key rfl rfl

/-- The cell of an event in a projection. -/
theorem cellOf_pick {s t : Spectrum} {dims : List PyStr} (hc : t.cfg = axesOf dims s.cfg)
    {kw : List (PyStr × ℚ)} {full : List ℕ} (h : CellOf s kw full) :
    CellOf t (kw.filter (fun c => decide (c.1 ∈ dims))) (pick dims (s.cfg.map SPar.name) full) := by
  unfold CellOf at *
  rw [hc]
  revert h
  generalize s.cfg = cfg
  intro h
  clear * - h
  induction h with
  | nil => exact .nil
  | @cons p i cfg full h1 _ ih =>
    simp only [List.map_cons, pick, axesOf, List.filter_cons]
    by_cases hp : p.name ∈ dims
    · simp only [hp, decide_true, if_true]
      obtain ⟨x, hx, hcell⟩ := h1
      exact .cons ⟨x, List.mem_filter.2 ⟨hx, by simpa using hp⟩, hcell⟩ ih
    · simp only [hp, decide_false, if_false, Bool.false_eq_true]
      exact ih

theorem inRange_pick {s t : Spectrum} {dims : List PyStr} (hc : t.cfg = axesOf dims s.cfg)
    {kw : List (PyStr × ℚ)} (h : InRange s kw) :
    InRange t (kw.filter (fun c => decide (c.1 ∈ dims))) := by
  obtain ⟨h1, h2⟩ := h
  constructor
  · intro e he
    obtain ⟨ha, hb⟩ := List.mem_filter.1 he
    obtain ⟨p, hp, hpe⟩ := h1 e ha
    refine ⟨p, ?_, hpe⟩
    rw [hc]
    exact List.mem_filter.2 ⟨hp, by rw [hpe]; exact hb⟩
  · intro p hp
    rw [hc] at hp
    obtain ⟨ha, hb⟩ := List.mem_filter.1 hp
    obtain ⟨x, hx, hxr⟩ := h2 p ha
    exact ⟨x, List.mem_filter.2 ⟨hx, by simpa using hb⟩, hxr⟩

theorem isDict_filter {α : Type} {kw : List (PyStr × α)} (h : IsDict kw) (f : PyStr × α → Bool) :
    IsDict (kw.filter f) :=
  List.Nodup.sublist (List.Sublist.map _ List.filter_sublist) h

/-- What an accepted event contributes to a cell of a projection. -/
theorem contribution_pick {s t : Spectrum} (hs : s.WF) (ht : t.WF) {dims : List PyStr}
    (hc : t.cfg = axesOf dims s.cfg) {e : ℚ × List (PyStr × ℚ)} (he : IsDict e.2)
    (hr : InRange s e.2) (idx : List ℕ) :
    sumIdx s.data.shape (fun full =>
      if pick dims (s.cfg.map SPar.name) full = idx then contribution s full e else 0) =
      contribution t idx (e.1, e.2.filter (fun c => decide (c.1 ∈ dims))) := by
  have hr' := inRange_pick hc hr
  obtain ⟨full, hf, -⟩ := fill_of_inRange hs he hr e.1
  have hm := cellOf_pick hc hf
  have h1 : ∀ j, contribution s j e = if j = full then e.1 else 0 := by
    intro j
    classical
    unfold contribution
    refine if_congr ⟨fun h => cellOf_unique hs he h.2 hf, ?_⟩ rfl rfl
    rintro rfl
    exact ⟨hr, hf⟩
  have h2 : contribution t idx (e.1, e.2.filter (fun c => decide (c.1 ∈ dims))) =
      if pick dims (s.cfg.map SPar.name) full = idx then e.1 else 0 := by
    classical
    unfold contribution
    refine if_congr ⟨fun h => cellOf_unique ht (isDict_filter he _) hm h.2, ?_⟩ rfl rfl
    rintro rfl
    exact ⟨hr', hm⟩
  rw [h2, ← sumIdx_ite (cellOf_inB hs hf) (fun j =>
    if pick dims (s.cfg.map SPar.name) j = idx then e.1 else 0)]
  refine sumIdx_congr fun j _ => ?_
  rw [h1]
  split_ifs <;> rfl

end Verif
