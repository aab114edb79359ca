import Verif.Spec.Projections
import Verif.Props.Project
import Verif.Props.Rebin
import Verif.Props.Shrink
import Verif.Props.Smear
import Verif.Props.Shift

/-! Helper lemmas: the order of projections and other operations. -/

namespace Verif

open Finset

theorem projCall_ok {s : Spectrum} (hs : s.WF) {c : ProjCall} (hc : c.Fits s) :
    ∃ b, c.run s = .ok b ∧ IsProjection s c.dims b := by
  obtain ⟨hn, hd, h⟩ := hc
  have hd' : ∀ d ∈ c.dims, ∃ p ∈ s.cfg, p.name = d := fun d hdm => List.mem_map.1 (hd d hdm)
  cases c with
  | project d =>
    obtain ⟨p, hp, rfl⟩ := hd' d (by simp [ProjCall.dims])
    obtain ⟨b, h1, h2, -⟩ := c10_project s hs p hp
    exact ⟨b, h1, h2⟩
  | nd dims =>
    obtain ⟨b, h1, h2, -⟩ := c11_nd_project_partial s hs dims hn hd' h
    exact ⟨b, h1, h2⟩
  | surface d1 d2 =>
    obtain ⟨b, h1, h2, -⟩ := c12_surface_partial s hs h d1 d2 (by
      intro e
      simp [ProjCall.dims, e] at hn) (hd' d1 (by simp [ProjCall.dims]))
      (hd' d2 (by simp [ProjCall.dims]))
    exact ⟨b, h1, h2⟩

theorem projCall_fits {s t : Spectrum} {c : ProjCall} (hc : c.Fits s)
    (h : t.cfg.map SPar.name = s.cfg.map SPar.name) : c.Fits t := by
  have hl : t.cfg.length = s.cfg.length := by
    have := congrArg List.length h
    simpa using this
  obtain ⟨h1, h2, h3⟩ := hc
  refine ⟨h1, by rw [h]; exact h2, ?_⟩
  cases c with
  | project d => trivial
  | nd dims => rw [hl]; exact h3
  | surface d1 d2 => rw [hl]; exact h3

/-! ### the projection as a spectrum -/

theorem pick_bins {dims : List PyStr} {cfg : List SPar} {shape : List ℕ}
    (h : shape.map (fun n : ℕ => (n : ℤ)) = cfg.map SPar.bins) :
    (pick dims (cfg.map SPar.name) shape).map (fun n : ℕ => (n : ℤ)) =
      (axesOf dims cfg).map SPar.bins := by
  induction cfg generalizing shape with
  | nil => cases shape with
    | nil => rfl
    | cons a l => simp at h
  | cons p cfg ih => cases shape with
    | nil => simp at h
    | cons n shape =>
      simp only [List.map_cons, List.cons.injEq] at h
      have := ih h.2
      unfold axesOf at this ⊢
      by_cases hp : p.name ∈ dims
      · simp [pick, hp, h.1, this]
      · simp [pick, hp, this]

theorem onto_wf {s : Spectrum} (hs : s.WF) {dims : List PyStr} {b : NdArray ℚ}
    (hb : b.shape = pick dims (s.cfg.map SPar.name) s.data.shape) : (s.onto dims b).WF where
  axes := fun p hp => hs.axes p (List.mem_filter.1 hp).1
  names := (List.Sublist.map _ List.filter_sublist).nodup hs.names
  shape := by
    change b.shape.map _ = _
    rw [hb]
    exact pick_bins hs.shape

theorem axesOf_names {dims : List PyStr} {cfg : List SPar} :
    (axesOf dims cfg).map SPar.name = (cfg.map SPar.name).filter (fun n => decide (n ∈ dims)) := by
  unfold axesOf
  rw [List.filter_map]
  rfl

/-! ### pushing contents forward -/

/-- Sums over cells that collect sums over other cells. -/
theorem push_sum {S T : List ℕ} {f : List ℕ → List ℕ} (hf : ∀ full, InB S full → InB T (f full))
    (G : List ℕ → ℚ) (P : List ℕ → Prop) [DecidablePred P] :
    sumIdx T (fun i => if P i then sumIdx S (fun full => if f full = i then G full else 0) else 0) =
      sumIdx S (fun full => if P (f full) then G full else 0) := by
  have h1 : sumIdx T (fun i => if P i then
        sumIdx S (fun full => if f full = i then G full else 0) else 0) =
      sumIdx T (fun i => sumIdx S (fun full =>
        if i = f full then (if P i then G full else 0) else 0)) := by
    refine sumIdx_congr fun i _ => ?_
    by_cases hP : P i
    · rw [if_pos hP]
      refine sumIdx_congr fun full _ => ?_
      simp only [if_pos hP, eq_comm]
    · simp [hP]
  rw [h1, sumIdx_comm]
  refine sumIdx_congr fun full hfull => ?_
  exact sumIdx_ite (hf full hfull) (fun i => if P i then G full else 0)

theorem pick_zipWith (f : ℕ → ℕ → ℕ) (dims ns : List PyStr) (l m : List ℕ) :
    pick dims ns (List.zipWith f l m) = List.zipWith f (pick dims ns l) (pick dims ns m) := by
  induction ns generalizing l m with
  | nil => simp [pick]
  | cons n ns ih =>
    cases l with
    | nil => simp [pick]
    | cons a l => cases m with
      | nil => simp [pick]
      | cons b m => by_cases hn : n ∈ dims <;> simp [pick, hn, ih]

theorem inB_coarse {cfg : List SPar} (hax : ∀ p ∈ cfg, p.WF) {ns : List ℕ}
    (hd : List.Forall₂ (fun (p : SPar) (n : ℕ) => (n : ℤ) ∣ p.bins) cfg ns) {shape : List ℕ}
    (hsh : shape.map (fun n : ℕ => (n : ℤ)) = cfg.map SPar.bins) {full : List ℕ}
    (hf : InB shape full) :
    InB ns (List.zipWith (· / ·) full (List.zipWith (· / ·) shape ns)) := by
  induction hd generalizing shape full with
  | nil => cases shape with
    | nil => simp at hf; subst hf; simp
    | cons a l => simp at hsh
  | @cons p n cfg ns hpn _ ih => cases shape with
    | nil => simp at hsh
    | cons m shape => cases full with
      | nil => simp at hf
      | cons i full =>
        simp only [List.map_cons, List.cons.injEq] at hsh
        rw [inB_cons_cons] at hf
        simp only [List.zipWith_cons_cons, inB_cons_cons]
        refine ⟨?_, ih (fun q hq => hax q (by simp [hq])) hsh.2 hf.2⟩
        have hb := (hax p (by simp)).1
        rw [← hsh.1, Int.natCast_dvd_natCast] at hpn
        rw [← hsh.1] at hb
        obtain ⟨k, rfl⟩ := hpn
        have hnk : 0 < n * k := by exact_mod_cast hb
        have hn : 0 < n := Nat.pos_of_mul_pos_right hnk
        rw [Nat.mul_div_cancel_left _ hn]
        exact Nat.div_lt_of_lt_mul (by rw [Nat.mul_comm]; exact hf.1)

/-- The entries of a list that belong to the kept parameters. -/
def keepOf {β : Type} (dims : List PyStr) : List SPar → List β → List β
  | p :: ps, x :: xs => if p.name ∈ dims then x :: keepOf dims ps xs else keepOf dims ps xs
  | _, _ => []

theorem keepOf_pick {dims : List PyStr} (cfg : List SPar) (l : List ℕ) :
    keepOf dims cfg l = pick dims (cfg.map SPar.name) l := by
  induction cfg generalizing l with
  | nil => cases l <;> rfl
  | cons p cfg ih => cases l with
    | nil => rfl
    | cons a l => simp only [keepOf, List.map_cons, pick, ih]

theorem keepOf_map {β γ : Type} {dims : List PyStr} (g : β → γ) (cfg : List SPar) (l : List β) :
    keepOf dims cfg (l.map g) = (keepOf dims cfg l).map g := by
  induction cfg generalizing l with
  | nil => cases l <;> rfl
  | cons p cfg ih => cases l with
    | nil => rfl
    | cons a l => by_cases hp : p.name ∈ dims <;> simp [keepOf, hp, ih]

theorem axesOf_cons {dims : List PyStr} (p : SPar) (cfg : List SPar) :
    axesOf dims (p :: cfg) = if p.name ∈ dims then p :: axesOf dims cfg else axesOf dims cfg := by
  unfold axesOf
  by_cases hp : p.name ∈ dims <;> simp [hp]

theorem forall₂_keep {β : Type} {dims : List PyStr} {R : SPar → β → Prop} {cfg : List SPar}
    {l : List β} (h : List.Forall₂ R cfg l) :
    List.Forall₂ R (axesOf dims cfg) (keepOf dims cfg l) := by
  induction h with
  | nil => exact .nil
  | @cons p x cfg l hp _ ih =>
    rw [axesOf_cons]
    unfold keepOf
    by_cases hd : p.name ∈ dims
    · rw [if_pos hd, if_pos hd]; exact .cons hp ih
    · rw [if_neg hd, if_neg hd]; exact ih

theorem zipWith_keep {β : Type} {dims : List PyStr} {f : SPar → β → SPar}
    (hf : ∀ p x, (f p x).name = p.name) (cfg : List SPar) (l : List β) :
    axesOf dims (List.zipWith f cfg l) = List.zipWith f (axesOf dims cfg) (keepOf dims cfg l) := by
  induction cfg generalizing l with
  | nil => rfl
  | cons p cfg ih => cases l with
    | nil => simp [keepOf, axesOf]
    | cons x l =>
      rw [List.zipWith_cons_cons, axesOf_cons, axesOf_cons, hf]
      unfold keepOf
      by_cases hd : p.name ∈ dims <;> simp [hd, ih]

/-! ### slices -/

/-- Summing the cells of a slice that keeps the left-out axes whole. -/
theorem slice_sum {dims : List PyStr} {cfg : List SPar} {rs : List (ℕ × ℕ)} {shape : List ℕ}
    (hsh : shape.map (fun n : ℕ => (n : ℤ)) = cfg.map SPar.bins)
    (hr : List.Forall₂ (fun (p : SPar) (r : ℕ × ℕ) => r.1 ≤ r.2 ∧ (r.2 : ℤ) ≤ p.bins ∧
      (p.name ∉ dims → r.1 = 0 ∧ (r.2 : ℤ) = p.bins)) cfg rs) {idx : List ℕ}
    (hi : InB ((keepOf dims cfg rs).map (fun r => r.2 - r.1)) idx) (G : List ℕ → ℚ) :
    sumIdx (rs.map (fun r => r.2 - r.1)) (fun out => if pick dims (cfg.map SPar.name) out = idx
      then G (List.zipWith (fun r i => r.1 + i) rs out) else 0) =
    sumIdx shape (fun full => if pick dims (cfg.map SPar.name) full =
      List.zipWith (fun r i => r.1 + i) (keepOf dims cfg rs) idx then G full else 0) := by
  induction hr generalizing shape idx G with
  | nil => cases shape with
    | nil => simp [keepOf] at hi; subst hi; simp [pick, keepOf]
    | cons a l => simp at hsh
  | @cons p r cfg rs hp _ ih => cases shape with
    | nil => simp at hsh
    | cons n shape =>
      simp only [List.map_cons, List.cons.injEq] at hsh
      simp only [List.map_cons, sumIdx_cons, pick, keepOf, List.zipWith_cons_cons]
      unfold keepOf at hi
      by_cases hd : p.name ∈ dims
      · rw [if_pos hd] at hi
        simp only [if_pos hd]
        cases idx with
        | nil => simp at hi
        | cons j idx =>
          rw [List.map_cons, inB_cons_cons] at hi
          have hle : r.2 ≤ n := by have := hp.2.1; omega
          rw [Finset.sum_eq_single j, Finset.sum_eq_single (r.1 + j)]
          · simp only [List.cons.injEq, true_and, List.zipWith_cons_cons]
            exact ih hsh.2 hi.2 (fun l => G ((r.1 + j) :: l))
          · intro i _ hne
            simp only [List.zipWith_cons_cons, List.cons.injEq, hne, false_and, if_false, sumIdx_zero]
          · intro h
            rw [Finset.mem_range] at h
            omega
          · intro i _ hne
            simp only [List.cons.injEq, hne, false_and, if_false, sumIdx_zero]
          · intro h
            rw [Finset.mem_range] at h
            omega
      · rw [if_neg hd] at hi
        simp only [if_neg hd]
        obtain ⟨h0, h1⟩ := hp.2.2 hd
        have hn : r.2 - r.1 = n := by have := hsh.1; omega
        rw [hn]
        refine Finset.sum_congr rfl fun i _ => ?_
        rw [h0, Nat.zero_add]
        exact ih hsh.2 hi (fun l => G (i :: l))

theorem inB_keepSlice {dims : List PyStr} {cfg : List SPar} {rs : List (ℕ × ℕ)} {shape : List ℕ}
    (hsh : shape.map (fun n : ℕ => (n : ℤ)) = cfg.map SPar.bins)
    (hr : List.Forall₂ (fun (p : SPar) (r : ℕ × ℕ) => r.1 ≤ r.2 ∧ (r.2 : ℤ) ≤ p.bins ∧
      (p.name ∉ dims → r.1 = 0 ∧ (r.2 : ℤ) = p.bins)) cfg rs) {idx : List ℕ}
    (hi : InB ((keepOf dims cfg rs).map (fun r => r.2 - r.1)) idx) :
    InB (keepOf dims cfg shape)
      (List.zipWith (fun r i => r.1 + i) (keepOf dims cfg rs) idx) := by
  induction hr generalizing shape idx with
  | nil => cases shape with
    | nil => simp [keepOf]
    | cons a l => simp at hsh
  | @cons p r cfg rs hp _ ih => cases shape with
    | nil => simp at hsh
    | cons n shape =>
      simp only [List.map_cons, List.cons.injEq] at hsh
      unfold keepOf at hi ⊢
      by_cases hd : p.name ∈ dims
      · rw [if_pos hd] at hi
        rw [if_pos hd, if_pos hd]
        cases idx with
        | nil => simp at hi
        | cons j idx =>
          rw [List.map_cons, inB_cons_cons] at hi
          rw [List.zipWith_cons_cons, inB_cons_cons]
          refine ⟨?_, ih hsh.2 hi.2⟩
          have := hp.2.1
          omega
      · rw [if_neg hd] at hi
        rw [if_neg hd, if_neg hd]
        exact ih hsh.2 hi

/-! ### changes along one axis -/

/-- `b` is `a` with the contents redistributed along axis `k` (with `n` bins): the share `M i j` of
what is in bin `i` goes to bin `j`. -/
def AlongAxis (a b : NdArray ℚ) (k n : ℕ) (M : ℕ → ℕ → ℚ) : Prop :=
  b.shape = a.shape ∧ ∀ out j, InB a.shape out → out[k]? = some j →
    b.get out = ∑ i ∈ range n, a.get (out.set k i) * M i j

/-- Summing the cells with a given index on a kept axis. -/
theorem sum_kept {dims n1 n2 : List PyStr} {d : PyStr} (hd : d ∈ dims) {s1 s2 : List ℕ} {n : ℕ}
    (hl : s1.length = n1.length) {i1 i2 : List ℕ} {j : ℕ} (hj : j < n)
    (hi : i1.length = (pick dims n1 s1).length) (H : List ℕ → ℚ) :
    sumIdx (s1 ++ n :: s2) (fun out => if pick dims (n1 ++ d :: n2) out = i1 ++ j :: i2
      then H out else 0) =
    sumIdx s1 (fun o1 => sumIdx s2 (fun o2 => if pick dims n1 o1 = i1 ∧ pick dims n2 o2 = i2
      then H (o1 ++ j :: o2) else 0)) := by
  rw [sumIdx_append]
  refine sumIdx_congr fun o1 h1 => ?_
  have hlen : (pick dims n1 o1).length = i1.length := by
    rw [hi]; exact (inB_pick h1).length_eq
  have e : ∀ i o2, pick dims (n1 ++ d :: n2) (o1 ++ i :: o2) =
      pick dims n1 o1 ++ i :: pick dims n2 o2 := by
    intro i o2
    rw [pick_append (by rw [h1.length_eq, hl]), pick, if_pos hd]
  rw [sumIdx_cons]
  simp only [e]
  rw [Finset.sum_eq_single j]
  · refine sumIdx_congr fun o2 _ => ?_
    have hiff : (pick dims n1 o1 ++ j :: pick dims n2 o2 = i1 ++ j :: i2) ↔
        (pick dims n1 o1 = i1 ∧ pick dims n2 o2 = i2) := by
      constructor
      · intro h
        have h' := List.append_inj h hlen
        simp only [List.cons.injEq, true_and] at h'
        exact h'
      · rintro ⟨rfl, rfl⟩
        rfl
    simp only [hiff]
  · intro i _ hne
    have hz : ∀ o2, ¬ (pick dims n1 o1 ++ i :: pick dims n2 o2 = i1 ++ j :: i2) := by
      intro o2 h
      have := (List.append_inj h hlen).2
      simp only [List.cons.injEq] at this
      exact hne this.1
    simp only [hz, if_false, sumIdx_zero]
  · intro h
    exact absurd (Finset.mem_range.2 hj) h

/-- Summing the cells with any index on an axis that is left out. -/
theorem sum_left_out {dims n1 n2 : List PyStr} {d : PyStr} (hd : d ∉ dims) {s1 s2 : List ℕ} {n : ℕ}
    (hl : s1.length = n1.length) {idx : List ℕ} (H : List ℕ → ℚ) :
    sumIdx (s1 ++ n :: s2) (fun out => if pick dims (n1 ++ d :: n2) out = idx
      then H out else 0) =
    sumIdx s1 (fun o1 => sumIdx s2 (fun o2 => if pick dims n1 o1 ++ pick dims n2 o2 = idx
      then ∑ j ∈ range n, H (o1 ++ j :: o2) else 0)) := by
  rw [sumIdx_append]
  refine sumIdx_congr fun o1 h1 => ?_
  have e : ∀ i o2, pick dims (n1 ++ d :: n2) (o1 ++ i :: o2) =
      pick dims n1 o1 ++ pick dims n2 o2 := by
    intro i o2
    rw [pick_append (by rw [h1.length_eq, hl]), pick, if_neg hd]
  rw [sumIdx_cons]
  simp only [e]
  rw [← sumIdx_sum]
  refine sumIdx_congr fun o2 _ => ?_
  split
  · rfl
  · simp

/-- Where an axis of the spectrum is, and where it is in the projection. -/
theorem axis_split {s : Spectrum} (hs : s.WF) {k : ℕ} {p : SPar} (hk : s.cfg[k]? = some p) :
    ∃ pre post s1 s2, s.cfg = pre ++ p :: post ∧ s.data.shape = s1 ++ p.bins.toNat :: s2 ∧
      pre.length = k ∧ s1.length = k := by
  obtain ⟨hk1, hk2⟩ := List.getElem?_eq_some_iff.1 hk
  obtain ⟨-, -, -, -, hsh⟩ := axis_facts hs hk
  obtain ⟨hk3, hk4⟩ := List.getElem?_eq_some_iff.1 hsh
  refine ⟨s.cfg.take k, s.cfg.drop (k + 1), s.data.shape.take k, s.data.shape.drop (k + 1), ?_, ?_,
    by simp; omega, by simp; omega⟩
  · rw [← hk2, List.getElem_cons_drop, List.take_append_drop]
  · rw [← hk4, List.getElem_cons_drop, List.take_append_drop]

theorem axesOf_append {dims : List PyStr} (l m : List SPar) :
    axesOf dims (l ++ m) = axesOf dims l ++ axesOf dims m := by
  unfold axesOf
  exact List.filter_append ..

theorem onto_axis {s : Spectrum} {dims : List PyStr} {pre post : List SPar} {p : SPar}
    (h : s.cfg = pre ++ p :: post) (hp : p.name ∈ dims) (b : NdArray ℚ) :
    (s.onto dims b).cfg[(axesOf dims pre).length]? = some p := by
  change (axesOf dims s.cfg)[_]? = _
  rw [h, axesOf_append, axesOf_cons, if_pos hp]
  simp

theorem pick_length {dims : List PyStr} {cfg : List SPar} {l : List ℕ}
    (h : l.length = cfg.length) :
    (pick dims (cfg.map SPar.name) l).length = (axesOf dims cfg).length := by
  induction cfg generalizing l with
  | nil => cases l with
    | nil => rfl
    | cons a l => simp at h
  | cons p cfg ih => cases l with
    | nil => simp at h
    | cons a l =>
      have := ih (l := l) (by simpa using h)
      rw [axesOf_cons]
      by_cases hp : p.name ∈ dims <;> simp [pick, hp, this]

/-- Redistributing along a kept axis and projecting can be done in either order. -/
theorem along_kept {s t : Spectrum} (hs : s.WF) {dims : List PyStr} {pre post : List SPar} {p : SPar}
    (h : s.cfg = pre ++ p :: post) (hp : p.name ∈ dims) (ht : t.cfg = s.cfg)
    {b c d : NdArray ℚ} (hb : IsProjection s dims b) (hc : IsProjection t dims c) {M : ℕ → ℕ → ℚ}
    (h1 : AlongAxis s.data t.data pre.length p.bins.toNat M)
    (h2 : AlongAxis b d (axesOf dims pre).length p.bins.toNat M) : d.Eqv c := by
  have hk : s.cfg[pre.length]? = some p := by simp [h]
  obtain ⟨pre', post', s1, s2, hcfg, hsh, hl1, hl2⟩ := axis_split hs hk
  have hpp : pre' = pre ∧ post' = post := by
    have := List.append_inj (hcfg.symm.trans h) hl1
    simpa using this
  obtain ⟨rfl, rfl⟩ := hpp
  obtain ⟨hbs, hbg⟩ := hb
  obtain ⟨hcs, hcg⟩ := hc
  rw [ht, h1.1, ← hbs] at hcs
  refine ⟨h2.1.trans hcs.symm, fun idx hidx => ?_⟩
  rw [h2.1] at hidx
  rw [hcg idx (by rw [hcs]; exact hidx), ht, h1.1]
  have hbs' : b.shape = pick dims (pre'.map SPar.name) s1 ++ p.bins.toNat ::
      pick dims (post'.map SPar.name) s2 := by
    rw [hbs, h, hsh, List.map_append, List.map_cons, pick_append (by simp [hl2]), pick, if_pos hp]
  have hlen : (pick dims (pre'.map SPar.name) s1).length = (axesOf dims pre').length :=
    pick_length (by rw [hl2])
  obtain ⟨i1, j, i2, rfl, hi1, hj, hi2⟩ : ∃ i1 j i2, idx = i1 ++ j :: i2 ∧
      i1.length = (axesOf dims pre').length ∧ j < p.bins.toNat ∧
      True := by
    have hkb : b.shape[(axesOf dims pre').length]? = some p.bins.toNat := by
      rw [hbs', ← hlen]; simp
    have hll := hidx.length_eq
    have hlt : (axesOf dims pre').length < idx.length := by
      rw [hll]; exact (List.getElem?_eq_some_iff.1 hkb).1
    have hj : idx[(axesOf dims pre').length] < p.bins.toNat := by
      obtain ⟨i, h3, h4⟩ := inB_getElem? hidx hkb
      rw [List.getElem?_eq_getElem hlt, Option.some.injEq] at h3
      rw [h3]
      exact h4
    refine ⟨idx.take (axesOf dims pre').length, idx[(axesOf dims pre').length],
      idx.drop ((axesOf dims pre').length + 1), ?_, by simp; omega, hj, trivial⟩
    rw [List.getElem_cons_drop, List.take_append_drop]
  rw [h2.2 _ j hidx (by rw [← hi1]; simp)]
  have hset : ∀ i, (i1 ++ j :: i2).set (axesOf dims pre').length i = i1 ++ i :: i2 := by
    intro i
    rw [← hi1]
    simp
  rw [h, hsh, List.map_append, List.map_cons,
    sum_kept hp (by simp [hl2]) hj (hi1.trans hlen.symm)]
  have hL : ∀ i ∈ range p.bins.toNat, b.get ((i1 ++ j :: i2).set (axesOf dims pre').length i) * M i j =
      sumIdx s1 (fun o1 => sumIdx s2 (fun o2 => if pick dims (pre'.map SPar.name) o1 = i1 ∧
        pick dims (post'.map SPar.name) o2 = i2 then s.data.get (o1 ++ i :: o2) * M i j else 0)) := by
    intro i hi
    rw [Finset.mem_range] at hi
    rw [hset, hbg, h, hsh, List.map_append, List.map_cons,
      sum_kept hp (by simp [hl2]) hi (hi1.trans hlen.symm), ← sumIdx_mul]
    · refine sumIdx_congr fun o1 _ => ?_
      rw [← sumIdx_mul]
      refine sumIdx_congr fun o2 _ => ?_
      split
      · rfl
      · rw [zero_mul]
    · rw [hbs'] at hidx ⊢
      rw [← hset]
      refine inB_set hidx (n := p.bins.toNat) ?_ hi
      rw [← hlen]; simp
  rw [Finset.sum_congr rfl hL, ← sumIdx_sum]
  refine sumIdx_congr fun o1 ho1 => ?_
  rw [← sumIdx_sum]
  refine sumIdx_congr fun o2 ho2 => ?_
  split
  · rw [h1.2 (o1 ++ j :: o2) j]
    · refine Finset.sum_congr rfl fun i _ => ?_
      rw [← hl2, ← ho1.length_eq]
      simp
    · rw [hsh]
      refine List.rel_append ho1 (.cons hj ho2)
    · rw [hl1, ← hl2, ← ho1.length_eq]; simp
  · simp

/-- Redistributing along an axis that is left out does not change the projection, if nothing is
lost. -/
theorem along_left_out {s t : Spectrum} (hs : s.WF) {dims : List PyStr} {k : ℕ} {p : SPar}
    (hk : s.cfg[k]? = some p) (hp : p.name ∉ dims) (ht : t.cfg = s.cfg)
    {b c : NdArray ℚ} (hb : IsProjection s dims b) (hc : IsProjection t dims c)
    (hsh' : t.data.shape = s.data.shape)
    (h1 : ∀ idx, InB s.data.shape idx → ∑ j ∈ range p.bins.toNat, t.data.get (idx.set k j) =
      ∑ j ∈ range p.bins.toNat, s.data.get (idx.set k j)) : c.Eqv b := by
  obtain ⟨pre, post, s1, s2, h, hsh, hl1, hl2⟩ := axis_split hs hk
  obtain ⟨hbs, hbg⟩ := hb
  obtain ⟨hcs, hcg⟩ := hc
  rw [ht, hsh', ← hbs] at hcs
  have hpos : 0 < p.bins.toNat := by
    have := (hs.axes p (by rw [h]; simp)).1
    omega
  refine ⟨hcs, fun idx hidx => ?_⟩
  rw [hcg idx hidx, hbg idx (by rw [← hcs]; exact hidx), ht, hsh', h, hsh, List.map_append,
    List.map_cons, sum_left_out hp (by simp [hl1, hl2]), sum_left_out hp (by simp [hl1, hl2])]
  refine sumIdx_congr fun o1 ho1 => sumIdx_congr fun o2 ho2 => ?_
  split
  · have := h1 (o1 ++ 0 :: o2) (by rw [hsh]; exact List.rel_append ho1 (.cons hpos ho2))
    rw [← hl2, ← ho1.length_eq] at this
    simpa using this
  · rfl

/-- Moving along an axis is a redistribution. -/
theorem moved_along {a b : NdArray ℚ} {k n : ℕ} {m : ℤ} (hk : a.shape[k]? = some n)
    (h : Moved a b k m) :
    AlongAxis a b k n (fun i j => if (i : ℤ) = (j : ℤ) - m then 1 else 0) := by
  refine ⟨h.1, fun out j ho hj => ?_⟩
  rw [h.2 n hk out j ho hj]
  by_cases hr : 0 ≤ (j : ℤ) - m ∧ (j : ℤ) - m < n
  · rw [if_pos hr, Finset.sum_eq_single ((j : ℤ) - m).toNat]
    · dsimp only
      rw [if_pos (by omega), mul_one]
    · intro i _ hne
      dsimp only
      rw [if_neg (by omega), mul_zero]
    · intro hn
      rw [Finset.mem_range] at hn
      omega
  · rw [if_neg hr, Finset.sum_eq_zero]
    intro i hi
    rw [Finset.mem_range] at hi
    dsimp only
    rw [if_neg (by omega), mul_zero]

end Verif
