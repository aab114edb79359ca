import Verif.Lemmas.Add
import Verif.Spec.Examples
import Mathlib.Algebra.BigOperators.Group.List.Basic

/-! # C05–C09: adding and scaling spectra -/

namespace Verif

open Spectrum

theorem add_of_ok {s t : Spectrum} (h : addCheck s t = .ok ()) :
    s.add t = .ok { s with
      data := s.data.add t.data
      rawEvents := s.rawEvents + t.rawEvents
      numDecays := s.numDecays + t.numDecays } := by
  unfold Spectrum.add; rw [h]

theorem add_err_none {s t : Spectrum} : (s.add t).err = none ↔ addCheck s t = .ok () := by
  unfold Spectrum.add
  cases h : addCheck s t with
  | error e => simp [Outcome.fail]
  | ok u => cases u; simp [Outcome.ok]

/-- **C05.** An accepted add makes every cell, the total, the raw events and the decay count
the sum of the two; the rest of the receiver is unchanged. A rejected add leaves the
receiver unchanged. -/
theorem c05_add (s t : Spectrum) :
    ((s.add t).err = none →
      (s.add t).st.data.shape = s.data.shape ∧ t.data.shape = s.data.shape ∧
      (∀ j, (s.add t).st.data.get j = s.data.get j + t.data.get j) ∧
      (s.add t).st.sum = s.sum + t.sum ∧
      (s.add t).st.rawEvents = s.rawEvents + t.rawEvents ∧
      (s.add t).st.numDecays = s.numDecays + t.numDecays ∧
      (s.add t).st.cfg = s.cfg ∧ (s.add t).st.name = s.name ∧ (s.add t).st.rois = s.rois) ∧
    ((s.add t).err ≠ none → (s.add t).st = s) := by
  constructor
  · intro h
    have hc := add_err_none.1 h
    have hs := (addCheck_ok_iff.1 hc).1
    rw [add_of_ok hc]
    exact ⟨rfl, hs.symm, fun _ => rfl, NdArray.add_sum hs, rfl, rfl, rfl, rfl, rfl⟩
  · intro h
    rw [Ne, add_err_none] at h
    unfold Spectrum.add
    cases hc : addCheck s t with
    | error e => rfl
    | ok u => cases u; exact absurd hc h

/-- **C05, meaning of acceptance.** An accepted spectrum has the same shape, the same
dimensions, and for every axis of the receiver an axis of the same dimension with close
edges and equal bin count. -/
theorem c05_add_accepted_axes (s t : Spectrum) (h : (s.add t).err = none) :
    (∀ p ∈ s.cfg, ∃ q ∈ t.cfg, ∃ d, HasDim p.name d ∧ HasDim q.name d ∧ AxesClose p q) ∧
    (∀ q ∈ t.cfg, ∃ p ∈ s.cfg, ∃ d, HasDim p.name d ∧ HasDim q.name d) := by
  obtain ⟨-, h1, h2⟩ := addCheck_ok_axes (add_err_none.1 h)
  refine ⟨fun p hp => ?_, fun q hq => ?_⟩
  · obtain ⟨q, hq, hd, hc⟩ := h1 p hp
    exact ⟨q, hq, _, hasDim_iff.2 rfl, hasDim_iff.2 hd, hc⟩
  · obtain ⟨p, hp, hd⟩ := h2 q hq
    exact ⟨p, hp, _, hasDim_iff.2 rfl, hasDim_iff.2 hd.symm⟩

/-- **C05, when the names agree.** If both spectra have the same parameter names, the add is
accepted exactly when the shapes agree and axes of the same name are close. -/
theorem c05_add_accepted_iff (s t : Spectrum) (ht : (t.cfg.map SPar.name).Nodup)
    (hn : ∀ n, n ∈ s.cfg.map SPar.name ↔ n ∈ t.cfg.map SPar.name) :
    (s.add t).err = none ↔ s.data.shape = t.data.shape ∧
      ∀ p ∈ s.cfg, ∀ q ∈ t.cfg, q.name = p.name → AxesClose p q := by
  rw [add_err_none, addCheck_ok_iff]
  have hty : addTypes s t = .ok [] := addTypes_same fun v hv => (hn v).2 hv
  have hd1 : ∀ d ∈ getDims s.pars, d ∈ getDims t.pars := by
    intro d hd
    obtain ⟨n, h, rfl⟩ := mem_getDims.1 hd
    exact mem_getDims.2 ⟨n, (hn n).1 h, rfl⟩
  have hd2 : ∀ d ∈ getDims t.pars, d ∈ getDims s.pars := by
    intro d hd
    obtain ⟨n, h, rfl⟩ := mem_getDims.1 hd
    exact mem_getDims.2 ⟨n, (hn n).2 h, rfl⟩
  constructor
  · rintro ⟨hs, -, -, types, hty', hp⟩
    rw [hty] at hty'; cases hty'
    refine ⟨hs, fun p hpm q hqm hqn => ?_⟩
    obtain ⟨q', hq', hc⟩ := addCheckPar_ok_iff.1 (hp p hpm)
    simp only [assoc, List.find?_nil, Option.map_none] at hq'
    have := getPar_mem ht hqm
    rw [hqn, hq'] at this; cases this
    exact hc
  · rintro ⟨hs, hc⟩
    refine ⟨hs, hd1, hd2, [], hty, fun p hpm => addCheckPar_ok_iff.2 ?_⟩
    obtain ⟨q, hqm, hqn⟩ := List.mem_map.1 ((hn p.name).1 (List.mem_map.2 ⟨p, hpm, rfl⟩))
    refine ⟨q, ?_, hc p hpm q hqm hqn⟩
    simp only [assoc, List.find?_nil, Option.map_none]
    rw [← hqn]; exact getPar_mem ht hqm

example : (Ex.spec.add Ex.spec).err = none :=
  add_err_none.2 (addCheck_same Ex.spec_wf.names rfl rfl)

example : (Ex.spec.add Ex.specOdd).err ≠ none := by
  intro h
  have := ((c05_add Ex.spec Ex.specOdd).1 h).2.1
  simp [Ex.spec, Ex.specOdd] at this

/-- **C06.** Spectra with identical axes can always be combined, and the result holds the sums
over the whole list. -/
theorem c06_combine (s : Spectrum) (hs : s.WF) (ts : List Spectrum)
    (ht : ∀ t ∈ ts, t.cfg = s.cfg ∧ t.data.shape = s.data.shape) :
    (combine s ts).err = none ∧ (combine s ts).st.cfg = s.cfg ∧
    (combine s ts).st.data.shape = s.data.shape ∧
    (∀ j, (combine s ts).st.data.get j = ((s :: ts).map (fun t => t.data.get j)).sum) ∧
    (combine s ts).st.sum = ((s :: ts).map Spectrum.sum).sum ∧
    (combine s ts).st.rawEvents = ((s :: ts).map Spectrum.rawEvents).sum ∧
    (combine s ts).st.numDecays = ((s :: ts).map Spectrum.numDecays).sum := by
  induction ts generalizing s with
  | nil => simp [combine, Outcome.ok]
  | cons t ts ih =>
    obtain ⟨htc, hts⟩ := ht t (by simp)
    have hok := addCheck_same hs.names htc hts
    have herr := add_err_none.2 hok
    have hc : combine s (t :: ts) = combine (s.add t).st ts := by
      rw [combine]; simp only [herr]
    obtain ⟨a1, -, a3, a4, a5, a6, a7, -, -⟩ := (c05_add s t).1 herr
    have hwf : (s.add t).st.WF := by
      refine ⟨?_, ?_, ?_⟩
      · rw [a7]; exact hs.axes
      · rw [a7]; exact hs.names
      · rw [a7, a1]; exact hs.shape
    obtain ⟨b1, b2, b3, b4, b5, b6, b7⟩ := ih (s.add t).st hwf
      (fun t' ht' => by rw [a7, a1]; exact ht t' (by simp [ht']))
    rw [hc]
    refine ⟨b1, b2.trans a7, b3.trans a1, fun j => ?_, ?_, ?_, ?_⟩
    · rw [b4 j]; simp only [List.map_cons, List.sum_cons, a3]; ring
    · rw [b5]; simp only [List.map_cons, List.sum_cons, a4]; ring
    · rw [b6]; simp only [List.map_cons, List.sum_cons, a5]; ring
    · rw [b7]; simp only [List.map_cons, List.sum_cons, a6]; ring

/-- **C06, order.** Whatever order the whole list (first one included) is taken in, contents,
total, raw events and decay count are the same. -/
theorem c06_combine_perm (s s' : Spectrum) (ts ts' : List Spectrum)
    (hp : (s :: ts).Perm (s' :: ts')) (hs : s.WF)
    (ht : ∀ t ∈ ts, t.cfg = s.cfg ∧ t.data.shape = s.data.shape) :
    (combine s' ts').err = none ∧
    (combine s' ts').st.data = (combine s ts).st.data ∧
    (combine s' ts').st.sum = (combine s ts).st.sum ∧
    (combine s' ts').st.rawEvents = (combine s ts).st.rawEvents ∧
    (combine s' ts').st.numDecays = (combine s ts).st.numDecays := by
  have hall : ∀ t ∈ s :: ts, t.cfg = s.cfg ∧ t.data.shape = s.data.shape := by
    intro t h
    rcases List.mem_cons.1 h with rfl | h
    exacts [⟨rfl, rfl⟩, ht t h]
  have hs'm : s' ∈ s :: ts := hp.mem_iff.2 (by simp)
  obtain ⟨hc', hsh'⟩ := hall s' hs'm
  have hs' : s'.WF := ⟨hc' ▸ hs.axes, hc' ▸ hs.names, by rw [hc', hsh']; exact hs.shape⟩
  obtain ⟨-, -, b3, b4, b5, b6, b7⟩ := c06_combine s hs ts ht
  obtain ⟨c1, -, c3, c4, c5, c6, c7⟩ := c06_combine s' hs' ts' (fun t h => by
    obtain ⟨x, y⟩ := hall t (hp.mem_iff.2 (by simp [h]))
    exact ⟨x.trans hc'.symm, y.trans hsh'.symm⟩)
  refine ⟨c1, ?_, ?_, ?_, ?_⟩
  · have hget : (combine s' ts').st.data.get = (combine s ts).st.data.get := by
      funext j; rw [b4, c4, (hp.map _).sum_eq]
    cases h1 : (combine s' ts').st.data; cases h2 : (combine s ts).st.data
    rw [h1] at c3 hget; rw [h2] at b3 hget
    simp only at c3 b3 hget
    rw [c3, b3, hget, hsh']
  · rw [b5, c5, (hp.map _).sum_eq]
  · rw [b6, c6, (hp.map _).sum_eq]
  · rw [b7, c7, (hp.map _).sum_eq]

example : Ex.spec.WF ∧ ∀ t ∈ [Ex.spec, { Ex.spec with rawEvents := 3 }],
    t.cfg = Ex.spec.cfg ∧ t.data.shape = Ex.spec.data.shape :=
  ⟨Ex.spec_wf, by simp⟩

/-! ### C07 -/

/-- One-dimensional spectrum with the given upper edge. -/
def oneD (high : ℚ) : Spectrum :=
  { name := lit "s", cfg := [⟨lit "energy_mc", 0, high, 2⟩], data := .zeros [2],
    numDecays := 1, rawEvents := 0, rois := [] }

theorem oneD_wf {high : ℚ} (h : 0 < high) : (oneD high).WF where
  axes := by simp [oneD, SPar.WF, h]
  names := by simp [oneD]
  shape := by simp [oneD, NdArray.zeros]

theorem oneD_add_iff (a b : ℚ) : ((oneD a).add (oneD b)).err = none ↔
    |a - b| ≤ 1 / 10 ^ 8 + 1 / 10 ^ 5 * |b| := by
  rw [c05_add_accepted_iff _ _ (by simp [oneD]) (by simp [oneD])]
  simp only [oneD, List.mem_singleton, forall_eq, AxesClose, NdArray.zeros, true_and, and_true,
    forall_const, sub_self, abs_zero, mul_zero, add_zero]
  constructor
  · exact fun h => h.1
  · exact fun h => ⟨h, by norm_num⟩

/-- **C07, negation.** There are two spectra such that the first accepts the second but not
the other way round: the tolerance is relative to the second one. -/
theorem c07_add_symmetric_negation :
    ¬ ∀ s t : Spectrum, s.WF → t.WF → s.cfg.map SPar.name = t.cfg.map SPar.name →
      ((s.add t).err = none ↔ (t.add s).err = none) := by
  intro h
  have h1 := h (oneD 1) (oneD (1 + (1 / 10 ^ 8 + 1 / 10 ^ 5 + 1 / 10 ^ 11)))
    (oneD_wf (by norm_num)) (oneD_wf (by norm_num)) (by simp [oneD])
  rw [oneD_add_iff, oneD_add_iff] at h1
  norm_num [abs_of_pos] at h1

/-- **C07, partial.** Acceptance is symmetric for spectra with the same parameter names whose
edges of the same name have the same magnitude (in particular equal edges). Missing:
edges that differ within the tolerance, for which the claim is false. -/
theorem c07_add_symmetric_partial (s t : Spectrum) (hs : (s.cfg.map SPar.name).Nodup)
    (ht : (t.cfg.map SPar.name).Nodup)
    (hn : ∀ n, n ∈ s.cfg.map SPar.name ↔ n ∈ t.cfg.map SPar.name)
    (he : ∀ p ∈ s.cfg, ∀ q ∈ t.cfg, q.name = p.name → |p.low| = |q.low| ∧ |p.high| = |q.high|) :
    (s.add t).err = none ↔ (t.add s).err = none := by
  rw [c05_add_accepted_iff s t ht hn, c05_add_accepted_iff t s hs (fun n => (hn n).symm)]
  constructor
  · rintro ⟨h1, h2⟩
    refine ⟨h1.symm, fun q hq p hp hpq => ?_⟩
    obtain ⟨a, b, c⟩ := h2 p hp q hq hpq.symm
    obtain ⟨e1, e2⟩ := he p hp q hq hpq.symm
    exact ⟨by rw [abs_sub_comm, e2]; exact a, by rw [abs_sub_comm, e1]; exact b, c.symm⟩
  · rintro ⟨h1, h2⟩
    refine ⟨h1.symm, fun p hp q hq hpq => ?_⟩
    obtain ⟨a, b, c⟩ := h2 q hq p hp hpq.symm
    obtain ⟨e1, e2⟩ := he p hp q hq hpq
    exact ⟨by rw [abs_sub_comm, ← e2]; exact a, by rw [abs_sub_comm, ← e1]; exact b, c.symm⟩

example : ∀ p ∈ Ex.spec.cfg, ∀ q ∈ Ex.spec.cfg, q.name = p.name →
    |p.low| = |q.low| ∧ |p.high| = |q.high| := by
  simp [Ex.spec, Ex.energy, Ex.radial]

/-- **C07, exactly where it fails.** If one spectrum accepts another but not the other way round, then
some pair of edges of the same parameter differs by more than the tolerance of the receiver's edge
but no more than that of the argument's: the argument's edge is the larger one in magnitude, and the
two agree to within 2 parts in 10⁸ plus 2 parts in 10⁵. -/
theorem c07_add_asymmetric (s t : Spectrum) (hs : (s.cfg.map SPar.name).Nodup)
    (ht : (t.cfg.map SPar.name).Nodup)
    (hn : ∀ n, n ∈ s.cfg.map SPar.name ↔ n ∈ t.cfg.map SPar.name)
    (h1 : (s.add t).err = none) (h2 : (t.add s).err ≠ none) :
    ∃ p ∈ s.cfg, ∃ q ∈ t.cfg, q.name = p.name ∧ p.bins = q.bins ∧
      ∃ a b : ℚ, (a = p.low ∧ b = q.low ∨ a = p.high ∧ b = q.high) ∧
        1 / 10 ^ 8 + 1 / 10 ^ 5 * |a| < |a - b| ∧ |a - b| ≤ 1 / 10 ^ 8 + 1 / 10 ^ 5 * |b| ∧
        |a| < |b| ∧ |a - b| ≤ 2 / 10 ^ 8 + 2 / 10 ^ 5 * |a| := by
  rw [c05_add_accepted_iff s t ht hn] at h1
  rw [Ne, c05_add_accepted_iff t s hs (fun n => (hn n).symm)] at h2
  by_contra hno
  push Not at hno
  have key : ∀ a b : ℚ, |a - b| ≤ 1 / 10 ^ 8 + 1 / 10 ^ 5 * |b| →
      1 / 10 ^ 8 + 1 / 10 ^ 5 * |a| < |a - b| →
      |a| < |b| ∧ |a - b| ≤ 2 / 10 ^ 8 + 2 / 10 ^ 5 * |a| := by
    intro a b h h'
    have hb : |b| ≤ |a| + |a - b| := by
      have := abs_sub_abs_le_abs_sub b a
      rw [abs_sub_comm] at this
      linarith
    have := abs_nonneg a
    constructor
    · linarith
    · linarith
  refine h2 ⟨h1.1.symm, fun q hq p hp hpq => ?_⟩
  obtain ⟨a, b, c⟩ := h1.2 p hp q hq hpq.symm
  refine ⟨?_, ?_, c.symm⟩
  · by_contra hlt
    rw [abs_sub_comm, not_le] at hlt
    have := hno p hp q hq hpq.symm c p.high q.high (.inr ⟨rfl, rfl⟩) hlt a
    have k := key _ _ a hlt
    linarith [this k.1]
  · by_contra hlt
    rw [abs_sub_comm, not_le] at hlt
    have := hno p hp q hq hpq.symm c p.low q.low (.inl ⟨rfl, rfl⟩) hlt b
    have k := key _ _ b hlt
    linarith [this k.1]

/-- Upper edges 1 and 1.00001001001: the first spectrum accepts the second, not the other way round. -/
example : ((oneD 1).add (oneD (1 + (1 / 10 ^ 8 + 1 / 10 ^ 5 + 1 / 10 ^ 11)))).err = none ∧
    ((oneD (1 + (1 / 10 ^ 8 + 1 / 10 ^ 5 + 1 / 10 ^ 11))).add (oneD 1)).err ≠ none := by
  rw [Ne, oneD_add_iff, oneD_add_iff]
  norm_num [abs_of_pos]

/-! ### C08 -/

/-- Two dimensions with two bins each, in either order. -/
def square (swap : Bool) : Spectrum :=
  let x : SPar := ⟨lit "x_mc", 0, 2, 2⟩
  let y : SPar := ⟨lit "y_mc", 0, 2, 2⟩
  { name := lit "s", cfg := if swap then [y, x] else [x, y]
    data := ⟨[2, 2], fun idx => if idx = [0, 1] then 1 else 0⟩
    numDecays := 1, rawEvents := 0, rois := [] }

theorem square_wf (b : Bool) : (square b).WF where
  axes := by cases b <;> simp [square, SPar.WF]
  names := by cases b <;> simp [square]
  shape := by cases b <;> simp [square]

/-- **C08, negation.** Two spectra that list the same parameters in different orders are
added cell by cell of the arrays: the content at a coordinate is then not the sum of
the contents at that coordinate. -/
theorem c08_add_coordinates_negation :
    ¬ ∀ s t : Spectrum, s.WF → t.WF → (s.add t).err = none →
      ∀ kw i j, IsDict kw → CellOf s kw i → CellOf t kw j →
        (s.add t).st.data.get i = s.data.get i + t.data.get j := by
  intro h
  have hacc : ((square false).add (square true)).err = none := by
    rw [c05_add_accepted_iff _ _ (square_wf true).names (by simp [square, or_comm])]
    constructor
    · simp [square]
    · intro p hp q hq hpq
      simp [square] at hp hq
      rcases hp with rfl | rfl <;> rcases hq with rfl | rfl <;> simp_all [AxesClose]
      all_goals norm_num
  have h1 := h (square false) (square true) (square_wf _) (square_wf _) hacc
    [(lit "x_mc", 0), (lit "y_mc", 1)] [0, 1] [1, 0] (by simp [IsDict])
    (by
      unfold CellOf
      refine .cons ⟨0, by simp, ?_⟩ (.cons ⟨1, by simp, ?_⟩ .nil) <;>
        norm_num [InCell, SPar.edge])
    (by
      unfold CellOf
      refine .cons ⟨1, by simp, ?_⟩ (.cons ⟨0, by simp, ?_⟩ .nil) <;>
        norm_num [InCell, SPar.edge])
  rw [((c05_add _ _).1 hacc).2.2.1] at h1
  simp [square] at h1

/-- **C08, partial.** For spectra that list the same parameters in the same order with equal
edges, the content at every coordinate is the sum of the contents there. Missing:
configurations in a different order, for which the claim is false. -/
theorem c08_add_coordinates_partial (s t : Spectrum) (hs : s.WF) (h : (s.add t).err = none)
    (hc : List.Forall₂ (fun p q : SPar => p.name = q.name ∧ p.low = q.low ∧ p.high = q.high)
      s.cfg t.cfg) (ht : t.WF)
    (kw : List (PyStr × ℚ)) (hk : IsDict kw) (i j : List ℕ)
    (hi : CellOf s kw i) (hj : CellOf t kw j) :
    (s.add t).st.data.get i = s.data.get i + t.data.get j := by
  have hcfg : s.cfg = t.cfg := by
    have hb := ((c05_add s t).1 h).2.1
    have h1 := hs.shape
    have h2 := ht.shape
    rw [hb, h1] at h2
    clear hi hj h1
    revert h2 hc
    generalize s.cfg = c1
    generalize t.cfg = c2
    intro hc h2
    induction hc with
    | nil => rfl
    | cons a _ ih =>
      simp only [List.map_cons, List.cons.injEq] at h2
      rw [ih h2.2]
      congr 1
      rename_i p q _ _ _
      cases p; cases q; simp_all
  have : j = i := by
    refine cellOf_unique hs hk ?_ hi
    unfold CellOf at hj ⊢
    rwa [hcfg]
  rw [((c05_add s t).1 h).2.2.1, this]

example : (Ex.spec.add Ex.spec).err = none ∧
    List.Forall₂ (fun p q : SPar => p.name = q.name ∧ p.low = q.low ∧ p.high = q.high)
      Ex.spec.cfg Ex.spec.cfg ∧ ∃ i, CellOf Ex.spec Ex.point i :=
  ⟨add_err_none.2 (addCheck_same Ex.spec_wf.names rfl rfl), by simp,
    (fill_of_inRange Ex.spec_wf Ex.point_dict Ex.point_inRange 1).imp fun _ h => h.1⟩

/-! ### C09 -/

/-- **C09.** Scaling multiplies every cell and the total by the ratio of the decay counts and
records the new count, changing nothing else. With a zero decay count it is not a
finite result (modelled as an error that leaves the spectrum unchanged). -/
theorem c09_scale (s : Spectrum) (n : ℚ) :
    (s.numDecays ≠ 0 →
      (s.scale n).err = none ∧
      (∀ j, (s.scale n).st.data.get j = s.data.get j * n / s.numDecays) ∧
      (s.scale n).st.sum = s.sum * n / s.numDecays ∧
      (s.scale n).st.numDecays = n ∧ (s.scale n).st.data.shape = s.data.shape ∧
      (s.scale n).st.cfg = s.cfg ∧ (s.scale n).st.rawEvents = s.rawEvents ∧
      (s.scale n).st.name = s.name ∧ (s.scale n).st.rois = s.rois) ∧
    (s.numDecays = 0 → (s.scale n).err = some .zeroDivision ∧ (s.scale n).st = s) := by
  constructor
  · intro h
    unfold Spectrum.scale
    rw [if_neg h]
    refine ⟨rfl, fun j => ?_, ?_, rfl, rfl, rfl, rfl, rfl, rfl⟩
    · simp only [Outcome.ok, NdArray.smul]; ring
    · have := NdArray.smul_sum s.data (n / s.numDecays)
      simp only [Outcome.ok, Spectrum.sum]
      rw [this]; ring
  · intro h
    unfold Spectrum.scale
    rw [if_pos h]; exact ⟨rfl, rfl⟩

/-- **C09, last scaling wins.** -/
theorem c09_scale_scale (s : Spectrum) (n m : ℚ) (hs : s.numDecays ≠ 0) (hn : n ≠ 0) :
    (((s.scale n).st.scale m).err = none) ∧ ((s.scale n).st.scale m).st = (s.scale m).st := by
  unfold Spectrum.scale
  simp only [if_neg hs, Outcome.ok, hn, if_false, true_and]
  congr 1
  simp only [NdArray.smul, NdArray.mk.injEq, true_and]
  funext j
  field_simp

/-- **C09, identity.** Scaling to the present decay count changes nothing. -/
theorem c09_scale_self (s : Spectrum) (hs : s.numDecays ≠ 0) :
    (s.scale s.numDecays).st = s := by
  unfold Spectrum.scale
  simp [if_neg hs, Outcome.ok, NdArray.smul, div_self hs]

example : Ex.spec.numDecays ≠ 0 := by norm_num [Ex.spec]

end Verif
