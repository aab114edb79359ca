import Verif.Lemmas.Fill
import Verif.Spec.Examples
import Mathlib.Algebra.BigOperators.Group.List.Basic

/-! # C01–C04: filling a spectrum -/

namespace Verif

/-- **C01.** An in-range fill adds the weight to exactly the cell that contains the point.
`CellOf` determines the cell by its edges; it exists, is unique and is in range. -/
theorem c01_fill_lands_in_cell (s : Spectrum) (hs : s.WF) (kw : List (PyStr × ℚ))
    (hk : IsDict kw) (h : InRange s kw) (w : ℚ) :
    ∃ idx, CellOf s kw idx ∧ (∀ idx', CellOf s kw idx' → idx' = idx) ∧
      InB s.data.shape idx ∧
      (s.fill w kw).err = none ∧
      SameButData s (s.fill w kw).st ∧
      (s.fill w kw).st.data.shape = s.data.shape ∧
      (s.fill w kw).st.data.get idx = s.data.get idx + w ∧
      ∀ j, j ≠ idx → (s.fill w kw).st.data.get j = s.data.get j := by
  obtain ⟨idx, hc, hf⟩ := fill_of_inRange hs hk h w
  refine ⟨idx, hc, fun idx' h' => cellOf_unique hs hk h' hc, cellOf_inB hs hc, ?_⟩
  rw [hf]
  refine ⟨rfl, ⟨rfl, rfl, rfl, rfl, rfl⟩, rfl, ?_, ?_⟩
  · simp [Outcome.ok, NdArray.addAt]
  · intro j hj; simp [Outcome.ok, NdArray.addAt, hj]

example : Ex.spec.WF ∧ IsDict Ex.point ∧ InRange Ex.spec Ex.point :=
  ⟨Ex.spec_wf, Ex.point_dict, Ex.point_inRange⟩

/-- **C02.** A fill succeeds exactly when the coordinates name the parameters of the
spectrum and lie in range; otherwise the spectrum is unchanged. -/
theorem c02_rejected_fill_unchanged (s : Spectrum) (hs : s.WF) (kw : List (PyStr × ℚ))
    (hk : IsDict kw) (w : ℚ) :
    ((s.fill w kw).err = none ↔ InRange s kw) ∧
    (¬ InRange s kw → (s.fill w kw).st = s) := by
  refine ⟨⟨?_, ?_⟩, ?_⟩
  · intro h
    by_contra hn
    obtain ⟨e, he⟩ := fill_of_not_inRange hk hn w
    rw [he] at h; simp [Outcome.fail] at h
  · intro h
    obtain ⟨idx, _, hf⟩ := fill_of_inRange hs hk h w
    rw [hf]; rfl
  · intro hn
    obtain ⟨e, he⟩ := fill_of_not_inRange hk hn w
    rw [he]; rfl

/-- **C02, kinds of error.** An unknown or a missing parameter gives the generic
exception, and with the right parameters a coordinate out of range gives `ValueError`. -/
theorem c02_fill_error_kind (s : Spectrum) (kw : List (PyStr × ℚ)) (hk : IsDict kw) (w : ℚ) :
    ((∃ e ∈ kw, ∀ p ∈ s.cfg, p.name ≠ e.1) ∨ (∃ p ∈ s.cfg, ∀ x, (p.name, x) ∉ kw) →
      (s.fill w kw).err = some .exception) ∧
    ((∀ e ∈ kw, ∃ p ∈ s.cfg, p.name = e.1) → (∀ p ∈ s.cfg, ∃ x, (p.name, x) ∈ kw) →
      (∃ p ∈ s.cfg, ∃ x, (p.name, x) ∈ kw ∧ (x < p.low ∨ p.high ≤ x)) →
      (s.fill w kw).err = some .valueError) := by
  constructor
  · intro h
    unfold Spectrum.fill
    split
    · rfl
    · next h1 =>
      split
      · rfl
      · next xs hxs =>
        exfalso
        simp only [List.any_eq_true, decide_eq_true_eq, not_exists, not_and, not_not] at h1
        rcases h with ⟨e, he, hp⟩ | ⟨p, hp, hx⟩
        · obtain ⟨p, hp', hpe⟩ := List.mem_map.1 (h1 e he)
          exact hp p hp' hpe
        · have : s.cfg.mapM (fun p => assoc kw p.name) = none :=
            mapM_option_eq_none.2 ⟨p, hp, assoc_eq_none_iff.2 hx⟩
          rw [hxs] at this; cases this
  · rintro hn hm ⟨p, hp, x, hx, hbad⟩
    unfold Spectrum.fill
    rw [if_neg]
    · split
      · next hnone =>
        obtain ⟨q, hq, hq'⟩ := mapM_option_eq_none.1 hnone
        obtain ⟨y, hy⟩ := hm q hq
        exact absurd hy (assoc_eq_none_iff.1 hq' y)
      · next xs hxs =>
        rw [if_neg]
        · rfl
        · intro hall
          have h2 := mapM_option_eq_some.1 hxs
          have hr := zip_all_forall₂ h2.length_eq hall
          clear hall hxs
          revert hp h2 hr
          generalize s.cfg = cfg
          intro hp h2 hr
          induction h2 with
          | nil => simp at hp
          | cons a _ ih =>
            cases hr with
            | cons b1 b2 =>
              rcases List.mem_cons.1 hp with rfl | hp
              · rw [(assoc_eq_some_iff hk).2 hx] at a; cases a
                rcases hbad with h | h <;> linarith [b1.1, b1.2]
              · exact ih hp b2
    · simp only [List.any_eq_true, decide_eq_true_eq, not_exists, not_and, not_not]
      intro e he
      obtain ⟨q, hq, hqe⟩ := hn e he
      exact List.mem_map.2 ⟨q, hq, hqe⟩

example : ¬ InRange Ex.spec [(lit "energy_mc", 5), (lit "radial_mc", 3000)] := by
  rintro ⟨-, h⟩
  obtain ⟨x, hx, h1, h2⟩ := h Ex.energy (by simp [Ex.spec])
  simp [Ex.energy] at hx
  subst hx
  norm_num [Ex.energy] at h2

/-- A history of fills: weights and keyword coordinates. -/
abbrev Fills := List (ℚ × List (PyStr × ℚ))

/-- Run a history of fills, going on after errors. -/
def runFills (s : Spectrum) (h : Fills) : Spectrum :=
  h.foldl (fun s e => (s.fill e.1 e.2).st) s

open Classical in
/-- The weight that the fill `e` should contribute to cell `j`. -/
noncomputable def contribution (s : Spectrum) (j : List ℕ) (e : ℚ × List (PyStr × ℚ)) : ℚ :=
  if InRange s e.2 ∧ CellOf s e.2 j then e.1 else 0

theorem fill_step {s : Spectrum} (hs : s.WF) {kw : List (PyStr × ℚ)} (hk : IsDict kw) (w : ℚ) :
    SameButData s (s.fill w kw).st ∧ (s.fill w kw).st.data.shape = s.data.shape ∧
    ∀ j, (s.fill w kw).st.data.get j = s.data.get j + contribution s j (w, kw) := by
  by_cases h : InRange s kw
  · obtain ⟨idx, hc, hf⟩ := fill_of_inRange hs hk h w
    rw [hf]
    refine ⟨⟨rfl, rfl, rfl, rfl, rfl⟩, rfl, fun j => ?_⟩
    simp only [Outcome.ok, NdArray.addAt, contribution, h, true_and]
    by_cases hj : j = idx
    · subst hj; simp [hc, h]
    · have : ¬ CellOf s kw j := fun h' => hj (cellOf_unique hs hk h' hc)
      simp [hj, this]
  · obtain ⟨e, he⟩ := fill_of_not_inRange hk h w
    rw [he]
    refine ⟨⟨rfl, rfl, rfl, rfl, rfl⟩, rfl, fun j => ?_⟩
    simp [Outcome.fail, contribution, h]

theorem contribution_congr {s t : Spectrum} (h : t.cfg = s.cfg) (j : List ℕ)
    (e : ℚ × List (PyStr × ℚ)) : contribution t j e = contribution s j e := by
  unfold contribution InRange CellOf; rw [h]

/-- **C03.** After any history of fills, accepted or rejected, each cell holds its starting
content plus the weights of the accepted points lying in it; nothing else changes. -/
theorem c03_fill_history (s : Spectrum) (hs : s.WF) (h : Fills) (hk : ∀ e ∈ h, IsDict e.2) :
    SameButData s (runFills s h) ∧ (runFills s h).data.shape = s.data.shape ∧
    ∀ j, (runFills s h).data.get j =
      s.data.get j + (h.map (contribution s j)).sum := by
  induction h generalizing s with
  | nil => simp [runFills, SameButData]
  | cons e h ih =>
    obtain ⟨a1, a2, a3⟩ := fill_step hs (hk e (by simp)) e.1
    obtain ⟨b1, b2, b3⟩ := ih (s.fill e.1 e.2).st (fill_wf hs e.1)
      (fun e' he' => hk e' (by simp [he']))
    change SameButData s (runFills (s.fill e.1 e.2).st h) ∧
      (runFills (s.fill e.1 e.2).st h).data.shape = _ ∧
      ∀ j, (runFills (s.fill e.1 e.2).st h).data.get j = _
    refine ⟨?_, b2.trans a2, fun j => ?_⟩
    · obtain ⟨x1, x2, x3, x4, x5⟩ := a1
      obtain ⟨y1, y2, y3, y4, y5⟩ := b1
      exact ⟨y1.trans x1, y2.trans x2, y3.trans x3, y4.trans x4, y5.trans x5⟩
    · rw [b3 j, a3 j]
      have : (h.map (contribution (s.fill e.1 e.2).st j)) = h.map (contribution s j) :=
        List.map_congr_left fun e' _ => contribution_congr a1.2.1 j e'
      rw [this]; simp [add_assoc]

/-- **C03, order.** Permuting the history gives the same spectrum. -/
theorem c03_fill_history_perm (s : Spectrum) (hs : s.WF) (h h' : Fills) (hp : h.Perm h')
    (hk : ∀ e ∈ h, IsDict e.2) : runFills s h = runFills s h' := by
  obtain ⟨⟨a1, a2, a3, a4, a5⟩, b, c⟩ := c03_fill_history s hs h hk
  obtain ⟨⟨a1', a2', a3', a4', a5'⟩, b', c'⟩ := c03_fill_history s hs h'
    (fun e he => hk e (hp.mem_iff.2 he))
  have hget : (runFills s h).data.get = (runFills s h').data.get := by
    funext j
    rw [c, c', (hp.map _).sum_eq]
  have hdata : (runFills s h).data = (runFills s h').data := by
    cases hd : (runFills s h).data; cases hd' : (runFills s h').data
    rw [hd] at b hget; rw [hd'] at b' hget
    simp only at b b' hget
    rw [b, b', hget]
  cases hd : runFills s h; cases hd' : runFills s h'
  rw [hd] at a1 a2 a3 a4 a5 hdata; rw [hd'] at a1' a2' a3' a4' a5' hdata
  simp only at *
  simp [a1, a2, a3, a4, a5, a1', a2', a3', a4', a5', hdata]

open Classical in
/-- **C03, total.** The total grows by the sum of the accepted weights. -/
theorem c03_fill_history_total (s : Spectrum) (hs : s.WF) (h : Fills)
    (hk : ∀ e ∈ h, IsDict e.2) :
    (runFills s h).sum = s.sum + (h.map (fun e => if InRange s e.2 then e.1 else 0)).sum := by
  induction h generalizing s with
  | nil => simp [runFills]
  | cons e h ih =>
    have hstep := (fill_step hs (hk e (by simp)) e.1).1
    have := ih (s.fill e.1 e.2).st (fill_wf hs e.1) (fun e' he' => hk e' (by simp [he']))
    change (runFills (s.fill e.1 e.2).st h).sum = _
    rw [this]
    have hcfg : ∀ kw, InRange (s.fill e.1 e.2).st kw ↔ InRange s kw := by
      intro kw; unfold InRange; rw [hstep.2.1]
    simp only [hcfg, List.map_cons, List.sum_cons, ← add_assoc]
    congr 1
    by_cases hr : InRange s e.2
    · obtain ⟨idx, hc, hf⟩ := fill_of_inRange hs (hk e (by simp)) hr e.1
      rw [hf]
      simp only [Outcome.ok, Spectrum.sum, hr, if_true]
      exact NdArray.addAt_sum (cellOf_inB hs hc) _
    · obtain ⟨x, hx⟩ := fill_of_not_inRange (hk e (by simp)) hr e.1
      rw [hx]; simp [Outcome.fail, hr]

example : Ex.spec.WF ∧ ∀ e ∈ ([(1, Ex.point), (2, [])] : Fills), IsDict e.2 :=
  ⟨Ex.spec_wf, by intro e he; simp at he; rcases he with rfl | rfl; exacts [Ex.point_dict, by simp [IsDict]]⟩

/-- **C04, negation.** `fill` never counts a raw event: for every spectrum and every call the
counter is what it was. The promise "increased by one for each event filled"
fails for every accepted fill. (The loops that fill from files do count; see
`c04_file_loops_count`.) -/
theorem c04_fill_never_counts (s : Spectrum) (kw : List (PyStr × ℚ)) (w : ℚ) :
    (s.fill w kw).st.rawEvents = s.rawEvents := by
  unfold Spectrum.fill
  split
  · rfl
  split
  · rfl
  split
  · simp only
    split <;> rfl
  · rfl

/-- **C04, negation** with a concrete accepted fill. -/
theorem c04_raw_events_negation :
    ¬ ∀ (s : Spectrum) (kw : List (PyStr × ℚ)) (w : ℚ), s.WF → IsDict kw → InRange s kw →
      (s.fill w kw).st.rawEvents = s.rawEvents + 1 := by
  intro h
  have h1 := h Ex.spec Ex.point 1 Ex.spec_wf Ex.point_dict Ex.point_inRange
  rw [c04_fill_never_counts] at h1
  omega

end Verif
