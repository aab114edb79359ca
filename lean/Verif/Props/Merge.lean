import Verif.Lemmas.StatMerge
import Verif.Lemmas.Minimise
import Verif.Lemmas.Smear
import Verif.Props.Rebin
import Verif.Props.Project
import Verif.Model.Fit
import Mathlib.Data.Rat.BigOperators

/-! # C130: merging bins never raises a statistic -/

namespace Verif

open Real (log log_div)

/-- **C130, lists.** Let the bins come in groups that are not empty, with contents that count.
Replacing every group by one bin with the summed observed and expected contents does not raise
the statistic, for each of the six statistics. -/
theorem c130_merge (st : Stat) (groups : List (List (ℝ × ℝ))) (hne : ∀ g ∈ groups, g ≠ [])
    (h : ∀ g ∈ groups, ∀ b ∈ g, st.Mergeable b) (v w : ℝ)
    (hv : st.Total (groups.flatten.map Prod.fst) (groups.flatten.map Prod.snd) v)
    (hw : st.Total ((groups.map groupSum).map Prod.fst) ((groups.map groupSum).map Prod.snd) w) :
    w ≤ v := by
  rw [total_iff st (by rw [List.length_map, List.length_map]), zip_fst_snd] at hv
  rw [total_iff st (by rw [List.length_map, List.length_map _ (as := groups.map groupSum)]),
    zip_fst_snd] at hw
  rw [hv, hw]
  clear hv hw
  induction groups with
  | nil => simp
  | cons g L ih =>
    simp only [List.flatten_cons, List.map_append, List.sum_append, List.map_cons, List.sum_cons]
    exact add_le_add (group_le (hne g (by simp)) (h g (by simp)))
      (ih (fun g hg => hne g (by simp [hg])) (fun g hg => h g (by simp [hg])))

example : (∀ b ∈ ([(3, 2), (0, 1), (0, 0)] : List (ℝ × ℝ)), Stat.bcChi.Mergeable b) ∧
    (∀ b ∈ ([(3, 2), (1, 0)] : List (ℝ × ℝ)), Stat.neyman.Mergeable b) ∧
    groupSum [(3, 2), (0, 1), (0, 0)] = (3, 3) := by
  refine ⟨?_, ?_, ?_⟩
  · simp [Stat.Mergeable, zeroThreshold]; norm_num
  · simp [Stat.Mergeable, zeroThreshold]; norm_num
  · simp [groupSum]; norm_num

/-- **C130, the conditions are needed.** Where nothing is expected but something is observed,
merging does raise the Baker-Cousins statistic: two bins with one event each and no expected
events give less than one bin with two events and no expected events, because the expected
number is replaced by the same threshold before and after merging. In the same way two bins
with one expected event each and nothing observed give less with Neyman's statistic than one
bin with two. -/
theorem c130_conditions_needed :
    (∃ v w, Stat.bcChi.Total [1, 1] [0, 0] v ∧ Stat.bcChi.Total [2] [0] w ∧ v < w) ∧
    ∃ v w, Stat.neyman.Total [0, 0] [1, 1] v ∧ Stat.neyman.Total [0] [2] w ∧ v < w := by
  have hlt : statEps < 1 := by unfold statEps; norm_num
  have hpos := statEps_pos
  refine ⟨⟨_, _, (total_iff _ (by simp) _).2 rfl, (total_iff _ (by simp) _).2 rfl, ?_⟩,
    _, _, (total_iff _ (by simp) _).2 rfl, (total_iff _ (by simp) _).2 rfl, ?_⟩
  · simp only [List.map_cons, List.map_nil, List.sum_cons, List.sum_nil, List.zip_cons_cons,
      List.zip_nil_right, Stat.bin, bakerCousinsBin]
    norm_num [clampEps, hpos, not_lt.2 hlt.le, not_lt.2 (hlt.le.trans one_le_two)]
    rw [log_div two_ne_zero hpos.ne']
    have := Real.one_sub_inv_le_log_of_pos (x := 2) (by norm_num)
    norm_num at this
    linarith
  · simp only [List.map_cons, List.map_nil, List.sum_cons, List.sum_nil, List.zip_cons_cons,
      List.zip_nil_right, Stat.bin, neymanBin]
    norm_num [clampEps, hpos, not_lt.2 hlt.le, not_lt.2 (hlt.le.trans one_le_two)]
    rw [← add_div, div_lt_div_iff_of_pos_right hpos]
    have : statEps < 1 / 10 := by unfold statEps; norm_num
    nlinarith

theorem ravel_zip {a b : NdArray ℚ} (h : b.shape = a.shape) :
    (ravel a).zip (ravel b) = (allIdx a.shape).map
      (fun i => (((a.get i : ℚ) : ℝ), ((b.get i : ℚ) : ℝ))) := by
  unfold ravel
  rw [h]
  generalize allIdx a.shape = L
  induction L with
  | nil => rfl
  | cons x L ih => simp [ih]

theorem ravel_total {st : Stat} {a b : NdArray ℚ} (h : b.shape = a.shape) {v : ℝ} :
    st.Total (ravel a) (ravel b) v ↔
      v = ((allIdx a.shape).map (fun i => st.bin ((a.get i : ℚ) : ℝ) ((b.get i : ℚ) : ℝ))).sum := by
  rw [total_iff st (by simp [ravel, h]), ravel_zip h, List.map_map]
  rfl

theorem allIdx_nodup (s : List ℕ) : (allIdx s).Nodup :=
  (allIdx_sorted s).imp (fun h => ne_of_lt h)

theorem cast_fiber (A : List ℕ) (π : List ℕ → List ℕ) (f : List ℕ → ℚ) (j : List ℕ) :
    ((sumIdx A (fun full => if π full = j then f full else 0) : ℚ) : ℝ) =
      (((allIdx A).filter (fun i => decide (π i = j))).map (fun i => ((f i : ℚ) : ℝ))).sum := by
  rw [← sum_allIdx, Rat.cast_list_sum, List.map_map]
  generalize allIdx A = L
  induction L with
  | nil => rfl
  | cons i L ih =>
    rw [List.map_cons, List.sum_cons, ih, List.filter_cons]
    by_cases hj : π i = j
    · simp [hj]
    · simp [hj]

/-- Arrays merged along a map of indices. -/
theorem merge_arrays {st : Stat} {a c b d : NdArray ℚ} (hac : c.shape = a.shape)
    (hbd : d.shape = b.shape) (π : List ℕ → List ℕ)
    (h1 : ∀ i, InB a.shape i → InB b.shape (π i))
    (h2 : ∀ j, InB b.shape j → ∃ i, InB a.shape i ∧ π i = j)
    (h : st.MergeableArrays a c)
    (hb : ∀ j, InB b.shape j →
      b.get j = sumIdx a.shape (fun full => if π full = j then a.get full else 0))
    (hd : ∀ j, InB b.shape j →
      d.get j = sumIdx a.shape (fun full => if π full = j then c.get full else 0))
    {v w : ℝ} (hv : st.Total (ravel a) (ravel c) v) (hw : st.Total (ravel b) (ravel d) w) :
    w ≤ v := by
  rw [ravel_total hac] at hv
  rw [ravel_total hbd] at hw
  rw [hv, hw]
  refine merge_fiber (allIdx_nodup _) π (fun i hi => mem_allIdx.2 (h1 i (mem_allIdx.1 hi)))
    (fun j hj => ?_) (fun i => ((a.get i : ℚ) : ℝ)) (fun i => ((c.get i : ℚ) : ℝ))
    (fun i hi => h i (mem_allIdx.1 hi)) (fun j => ((b.get j : ℚ) : ℝ))
    (fun j => ((d.get j : ℚ) : ℝ)) (fun j hj => ?_) (fun j hj => ?_)
  · obtain ⟨i, hi, hij⟩ := h2 j (mem_allIdx.1 hj)
    exact ⟨i, mem_allIdx.2 hi, hij⟩
  · rw [hb j (mem_allIdx.1 hj), cast_fiber]
  · rw [hd j (mem_allIdx.1 hj), cast_fiber]

theorem block_exists {L : List (ℕ × ℕ)} (hpos : ∀ p ∈ L, 0 < p.2) {idx : List ℕ}
    (h : InB (L.map Prod.fst) idx) : ∃ full, InB (L.map (fun p => p.1 * p.2)) full ∧
      List.zipWith (· / ·) full (L.map Prod.snd) = idx := by
  induction L generalizing idx with
  | nil => simp at h; subst h; exact ⟨[], by simp, rfl⟩
  | cons p L ih =>
    cases idx with
    | nil => simp at h
    | cons i idx =>
      simp only [List.map_cons, inB_cons_cons] at h
      obtain ⟨full, h1, h2⟩ := ih (fun q hq => hpos q (by simp [hq])) h.2
      have hp := hpos p (by simp)
      refine ⟨i * p.2 :: full, ?_, ?_⟩
      · simp only [List.map_cons, inB_cons_cons]
        exact ⟨Nat.mul_lt_mul_of_pos_right h.1 hp, h1⟩
      · simp only [List.map_cons, List.zipWith_cons_cons, h2, Nat.mul_div_cancel _ hp]

/-- **C130, rebinning.** Data and model with the same axes: if both are rebinned to the same
numbers of bins, no statistic gets larger. -/
theorem c130_rebin (st : Stat) (s t : Spectrum) (hs : s.WF) (ht : t.WF) (hcfg : t.cfg = s.cfg)
    (ns : List ℕ) (hok : (s.rebin ns).err = none) (h : st.MergeableArrays s.data t.data)
    (v w : ℝ) (hv : st.Total (ravel s.data) (ravel t.data) v)
    (hw : st.Total (ravel (s.rebin ns).st.data) (ravel (t.rebin ns).st.data) w) : w ≤ v := by
  have hshape : t.data.shape = s.data.shape := by
    have h1 := hs.shape
    have h2 := ht.shape
    rw [hcfg, ← h1] at h2
    exact List.map_injective_iff.2 (fun a b h => by simpa using h) h2
  have hdiv := (c13_rebin s hs ns).1.1 hok
  obtain ⟨hb1, hb2⟩ := ((c13_rebin s hs ns).2 hok).1
  obtain ⟨hd1, hd2⟩ := ((c13_rebin t ht ns).2 ((c13_rebin t ht ns).1.2 (by
    simpa only [hcfg] using hdiv))).1
  have hf : List.Forall₂ (fun (p : SPar) (n : ℕ) => (n : ℤ) ∣ p.bins) s.cfg ns := by
    rw [List.forall₂_iff_get]
    exact ⟨hdiv.1.symm, fun i h1 h2 => hdiv.2 i h1 h2⟩
  obtain ⟨L, hL1, hL2, hpos⟩ := pairs_exist (fun p hp => (hs.axes p hp).1) hs.shape hf
  have hpos2 : ∀ p ∈ L, 0 < p.2 := by
    intro p hp
    have h1 : p.1 * p.2 ∈ s.data.shape := by rw [hL2]; exact List.mem_map.2 ⟨p, hp, rfl⟩
    have h2 : ((p.1 * p.2 : ℕ) : ℤ) ∈ s.cfg.map SPar.bins := by
      rw [← hs.shape]; exact List.mem_map.2 ⟨_, h1, rfl⟩
    obtain ⟨q, hq, hqe⟩ := List.mem_map.1 h2
    have h3 := (hs.axes q hq).1
    rw [hqe] at h3
    exact Nat.pos_of_mul_pos_left (by exact_mod_cast h3)
  refine merge_arrays hshape (hd1.trans hb1.symm)
    (fun full => List.zipWith (· / ·) full (List.zipWith (· / ·) s.data.shape ns)) ?_ ?_ h ?_ ?_ hv hw
  · intro i hi
    rw [hb1, hL2, hL1, zipWith_div_pairs hpos]
    exact inB_div (hL2 ▸ hi)
  · intro j hj
    rw [hb1, hL1] at hj
    rw [hL2, hL1, zipWith_div_pairs hpos]
    exact block_exists hpos2 hj
  · intro j hj
    rw [hb1] at hj
    exact hb2 j hj
  · intro j hj
    rw [hb1] at hj
    rw [hd2 j hj, hshape]

theorem pick_inB (dims : List PyStr) {ns : List PyStr} {shape full : List ℕ}
    (h : InB shape full) : InB (pick dims ns shape) (pick dims ns full) := by
  induction ns generalizing shape full with
  | nil => cases shape <;> cases full <;> simp [pick]
  | cons n ns ih =>
    cases h with
    | nil => simp [pick]
    | cons h1 h2 =>
      simp only [pick]
      split
      · rw [inB_cons_cons]; exact ⟨h1, ih h2⟩
      · exact ih h2

theorem pick_surj (dims : List PyStr) {ns : List PyStr} {shape j : List ℕ}
    (hlen : ns.length = shape.length) (hpos : ∀ n ∈ shape, 0 < n) (h : InB (pick dims ns shape) j) :
    ∃ full, InB shape full ∧ pick dims ns full = j := by
  induction ns generalizing shape j with
  | nil =>
    cases shape with
    | nil => simp [pick] at h; subst h; exact ⟨[], by simp, rfl⟩
    | cons m shape => simp at hlen
  | cons n ns ih =>
    cases shape with
    | nil => simp at hlen
    | cons m shape =>
      have hl : ns.length = shape.length := by simpa using hlen
      have hp : ∀ n ∈ shape, 0 < n := fun n hn => hpos n (by simp [hn])
      simp only [pick] at h
      by_cases hn : n ∈ dims
      · rw [if_pos hn] at h
        cases j with
        | nil => simp at h
        | cons i j =>
          rw [inB_cons_cons] at h
          obtain ⟨full, h1, h2⟩ := ih hl hp h.2
          exact ⟨i :: full, by rw [inB_cons_cons]; exact ⟨h.1, h1⟩, by simp [pick, hn, h2]⟩
      · rw [if_neg hn] at h
        obtain ⟨full, h1, h2⟩ := ih hl hp h
        exact ⟨0 :: full, by rw [inB_cons_cons]; exact ⟨hpos m (by simp), h1⟩, by simp [pick, hn, h2]⟩

/-- **C130, projecting.** Data and model with the same axes: if both are projected onto the
same parameters, no statistic gets larger. This is the comparison of a fit with more
parameters to one with fewer. -/
theorem c130_project (st : Stat) (s t : Spectrum) (hs : s.WF) (ht : t.WF) (hcfg : t.cfg = s.cfg)
    (dims : List PyStr) (hnd : dims.Nodup) (hdim : ∀ d ∈ dims, ∃ p ∈ s.cfg, p.name = d)
    (b d : NdArray ℚ) (hb : s.ndProject dims = .ok b) (hd : t.ndProject dims = .ok d)
    (h : st.MergeableArrays s.data t.data) (v w : ℝ)
    (hv : st.Total (ravel s.data) (ravel t.data) v) (hw : st.Total (ravel b) (ravel d) w) :
    w ≤ v := by
  have hshape : t.data.shape = s.data.shape := by
    have h1 := hs.shape
    have h2 := ht.shape
    rw [hcfg, ← h1] at h2
    exact List.map_injective_iff.2 (fun a b h => by simpa using h) h2
  have proj : ∀ u : Spectrum, u.WF → u.cfg = s.cfg → ∀ x, u.ndProject dims = .ok x →
      IsProjection u (s.namesBut (movedUp (s.leftOut dims))) x := by
    intro u hu hc x hx
    have hg := c11_nd_project_general u hu dims hnd (by rw [hc]; exact hdim)
    have e1 : u.leftOut dims = s.leftOut dims := by unfold Spectrum.leftOut; rw [hc]
    have e2 : ∀ l, u.namesBut l = s.namesBut l := by intro l; unfold Spectrum.namesBut; rw [hc]
    rw [e1, e2] at hg
    by_cases hm : ∀ i ∈ movedUp (s.leftOut dims), i < u.cfg.length
    · obtain ⟨x', hx', h', -⟩ := hg.1 hm
      rw [hx] at hx'; cases hx'; exact h'
    · push Not at hm
      rw [hg.2 hm] at hx; cases hx
  obtain ⟨hb1, hb2⟩ := proj s hs rfl b hb
  obtain ⟨hd1, hd2⟩ := proj t ht hcfg d hd
  rw [hcfg, hshape] at hd1
  have hlen : (s.cfg.map SPar.name).length = s.data.shape.length := by
    have := congrArg List.length hs.shape
    simpa using this.symm
  have hpos : ∀ n ∈ s.data.shape, 0 < n := by
    intro n hn
    have h2 : (n : ℤ) ∈ s.cfg.map SPar.bins := by
      rw [← hs.shape]; exact List.mem_map.2 ⟨_, hn, rfl⟩
    obtain ⟨q, hq, hqe⟩ := List.mem_map.1 h2
    have h3 := (hs.axes q hq).1
    rw [hqe] at h3
    exact_mod_cast h3
  refine merge_arrays hshape (hd1.trans hb1.symm)
    (pick (s.namesBut (movedUp (s.leftOut dims))) (s.cfg.map SPar.name)) ?_ ?_ h hb2 ?_ hv hw
  · intro i hi
    rw [hb1]
    exact pick_inB _ hi
  · intro j hj
    rw [hb1] at hj
    exact pick_surj _ hlen hpos hj
  · intro j hj
    rw [hd2 j (by rw [hd1, ← hb1]; exact hj), hcfg, hshape]

/-- A model for `Ex.spec`: two events in every bin. -/
def Ex.flatModel : Spectrum := { Ex.spec with data := ⟨[10, 4], fun _ => 2⟩ }

theorem Ex.flatModel_wf : Ex.flatModel.WF :=
  ⟨Ex.spec_wf.axes, Ex.spec_wf.names, Ex.spec_wf.shape⟩

theorem Ex.flat_mergeable (st : Stat) : st.MergeableArrays Ex.spec.data Ex.flatModel.data := by
  intro idx h
  match idx, h with
  | [i, j], h =>
    have h1 : (1 : ℝ) ≤ (((i : ℚ) + 2 * (j : ℚ) + 1 : ℚ) : ℝ) := by
      push_cast
      have : (0 : ℝ) ≤ i := Nat.cast_nonneg _
      have : (0 : ℝ) ≤ j := Nat.cast_nonneg _
      linarith
    have h2 : zeroThreshold ≤ 1 := by unfold zeroThreshold; norm_num
    have h3 : Ex.spec.data.get [i, j] = (i : ℚ) + 2 * (j : ℚ) + 1 := rfl
    have h4 : Ex.flatModel.data.get [i, j] = 2 := rfl
    rw [h3, h4]
    generalize (((i : ℚ) + 2 * (j : ℚ) + 1 : ℚ) : ℝ) = x at h1
    have h5 : zeroThreshold ≤ ((2 : ℚ) : ℝ) := by norm_num; linarith
    have h6 : zeroThreshold ≤ x := h2.trans h1
    have h7 : (0 : ℝ) ≤ ((2 : ℚ) : ℝ) := by norm_num
    have h8 : 0 ≤ x := by linarith
    cases st
    case extLL => exact ⟨h8, h7⟩
    case neyman => exact ⟨h6, .inr h5⟩
    all_goals exact ⟨.inr h6, h7, .inr h5⟩
  | [], h => simp [Ex.spec] at h
  | [_], h => simp [Ex.spec] at h
  | _ :: _ :: _ :: _, h => simp [Ex.spec] at h

/-- The hypotheses of the rebinning and the projection are met, with unequal
contents of data and model. -/
example : (Ex.spec.rebin [5, 2]).err = none ∧ Ex.flatModel.cfg = Ex.spec.cfg ∧
    (∀ st : Stat, st.MergeableArrays Ex.spec.data Ex.flatModel.data) ∧
    (∃ b, Ex.spec.ndProject [lit "energy_mc"] = .ok b) ∧
    (∃ d, Ex.flatModel.ndProject [lit "energy_mc"] = .ok d) := by
  refine ⟨by decide +kernel, rfl, Ex.flat_mergeable, ?_, ?_⟩
  · obtain ⟨b, hb, -⟩ := c11_nd_project_partial Ex.spec Ex.spec_wf [lit "energy_mc"] (by simp)
      (by simp [Ex.spec, Ex.energy]) (by simp [Ex.spec])
    exact ⟨b, hb⟩
  · obtain ⟨b, hb, -⟩ := c11_nd_project_partial Ex.flatModel Ex.flatModel_wf [lit "energy_mc"] (by simp)
      (by simp [Ex.flatModel, Ex.spec, Ex.energy]) (by simp [Ex.flatModel, Ex.spec])
    exact ⟨b, hb⟩

/-- **C130, one bin.** The statistic of a fit with `single_bin` is at most the statistic of
the fit that keeps the bins. -/
theorem c130_single_bin (st : Stat) (a c : NdArray ℚ) (hac : c.shape = a.shape)
    (hpos : ∀ n ∈ a.shape, 0 < n) (h : st.MergeableArrays a c) (v w : ℝ) (o e o' e' : List ℝ)
    (hv : st.computeStatistic false (flatten false a) (flatten false c) = .ok ⟨.total v, o, e⟩)
    (hw : st.computeStatistic false (flatten true a) (flatten true c) = .ok ⟨.total w, o', e'⟩) :
    w ≤ v := by
  have hr : ∀ x : NdArray ℚ, flatten false x = arr (ravel x) := by
    intro x
    simp [flatten, arr, ravel, length_allIdx]
  have hv' : st.Total (ravel a) (ravel c) v := ⟨o, e, by rw [← hr, ← hr]; exact hv⟩
  have hw' : st.Total [((a.sum : ℚ) : ℝ)] [((c.sum : ℚ) : ℝ)] w := ⟨o', e', by
    simpa [flatten, arr] using hw⟩
  rw [ravel_total hac] at hv'
  rw [total_iff st (by simp)] at hw'
  rw [hv', hw']
  have := group_le (st := st)
    (L := (allIdx a.shape).map (fun i => (((a.get i : ℚ) : ℝ), ((c.get i : ℚ) : ℝ)))) (by
      intro hnil
      have h0 := congrArg List.length hnil
      rw [List.length_map, length_allIdx, List.length_nil, List.prod_eq_zero_iff] at h0
      exact absurd (hpos 0 h0) (lt_irrefl 0)) (by
      intro b hb
      obtain ⟨i, hi, rfl⟩ := List.mem_map.1 hb
      exact h i (mem_allIdx.1 hi))
  have hsum : ∀ x : NdArray ℚ, x.shape = a.shape →
      ((allIdx a.shape).map (fun i => ((x.get i : ℚ) : ℝ))).sum = ((x.sum : ℚ) : ℝ) := by
    intro x hx
    unfold NdArray.sum
    rw [hx, ← sum_allIdx, Rat.cast_list_sum, List.map_map]
    rfl
  simp only [groupSum, List.map_map, Function.comp_def] at this
  rw [hsum a rfl, hsum c hac] at this
  simpa using this

example : (∀ n ∈ Ex.spec.data.shape, 0 < n) ∧ Ex.flatModel.data.shape = Ex.spec.data.shape ∧
    ∀ st : Stat, st.MergeableArrays Ex.spec.data Ex.flatModel.data :=
  ⟨by decide, rfl, Ex.flat_mergeable⟩

end Verif
