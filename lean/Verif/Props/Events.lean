import Verif.Lemmas.Events
import Verif.Props.History

/-!
# C121: rebinning, shrinking and projecting a histogram

The histogram of a list of events, rebinned, shrunk or projected afterwards, is the histogram
of these events made that way from the start.
-/

namespace Verif

open Spectrum

/-- **C121, rebinning.** Filling any events, accepted or not, and then rebinning gives the same
spectrum as rebinning first and filling the same events into the coarser bins. The rebinning is
accepted in both orders or in none. -/
theorem c121_rebin (s : Spectrum) (hs : s.WF) (ns : List ℕ) (h : Fills)
    (hk : ∀ e ∈ h, IsDict e.2) :
    (((runFills s h).rebin ns).err = none ↔ (s.rebin ns).err = none) ∧
    ((s.rebin ns).err = none →
      ((runFills s h).rebin ns).st.Eqv (runFills (s.rebin ns).st h)) := by
  have hs' := runFills_wf hs h
  obtain ⟨⟨f1, f2, f3, f4, f5⟩, f6, f7⟩ := c03_fill_history s hs h hk
  have hiff : ((runFills s h).rebin ns).err = none ↔ (s.rebin ns).err = none := by
    rw [rebin_err_none_iff hs, rebin_err_none_iff hs', f2]
  refine ⟨hiff, fun herr => ?_⟩
  obtain ⟨⟨a1, a2⟩, a3, -, a5, a6, a7, a8⟩ := (c13_rebin _ hs' ns).2 (hiff.2 herr)
  obtain ⟨⟨b1, b2⟩, b3, -, b5, b6, b7, b8⟩ := (c13_rebin s hs ns).2 herr
  have hw := rebin_wf hs herr
  obtain ⟨⟨g1, g2, g3, g4, g5⟩, g6, g7⟩ := c03_fill_history _ hw h hk
  refine ⟨⟨?_, ?_, ?_, ?_, ?_⟩, ?_, fun idx hidx => ?_⟩
  · rw [g1, b7, a7, f1]
  · rw [g2, b3, a3, f2]
  · rw [g3, b5, a5, f3]
  · rw [g4, b6, a6, f4]
  · rw [g5, b8, a8, f5]
  · rw [g6, b1, a1]
  · rw [a1] at hidx
    rw [a2 idx hidx, g7, b2 idx hidx, f6]
    have hd := (rebin_err_none_iff hs).1 herr
    rw [← List.map_congr_left (fun e he => contribution_merge hs hw hd b3 e (hk e he) idx),
      ← sumIdx_history, ← sumIdx_add]
    refine sumIdx_congr fun full _ => ?_
    rw [f7]
    split
    · rfl
    · simp

/-- **C121, shrinking.** On aligned axes, filling any events and then shrinking to bin edges gives
the same spectrum as shrinking first and filling the same events, of which the shrunk spectrum
refuses those outside. Missing: other axes, see `c121_shrink_negation`. -/
theorem c121_shrink_partial (s : Spectrum) (hs : s.WF) (ha : ∀ p ∈ s.cfg, p.Aligned)
    (kw : List (PyStr × ℚ)) (rs : List (ℕ × ℕ)) (hq : AsksEdges s kw rs)
    (hne : ∀ r ∈ rs, r.1 < r.2) (h : Fills) (hk : ∀ e ∈ h, IsDict e.2) :
    ((runFills s h).shrink kw).err = none ∧ (s.shrink kw).err = none ∧
    ((runFills s h).shrink kw).st.Eqv (runFills (s.shrink kw).st h) := by
  have hs' := runFills_wf hs h
  obtain ⟨⟨f1, f2, f3, f4, f5⟩, f6, f7⟩ := c03_fill_history s hs h hk
  have hq' : AsksEdges (runFills s h) kw rs := by
    unfold AsksEdges BoundKeys at *
    rwa [f2]
  have hl : rs.length = s.cfg.length := hq.2.2.length_eq.symm
  obtain ⟨e1, h1⟩ := shrink_isSub hs ha hq
  obtain ⟨e2, ⟨a1, a2⟩, a3, a4, a5, a6, a7⟩ := shrink_isSub hs' (by rw [f2]; exact ha) hq'
  have hw := isSub_wf hs h1 hne hl
  obtain ⟨⟨b1, b2⟩, b3, b4, b5, b6, b7⟩ := h1
  obtain ⟨⟨g1, g2, g3, g4, g5⟩, g6, g7⟩ := c03_fill_history _ hw h hk
  refine ⟨e2, e1, ⟨?_, ?_, ?_, ?_, ?_⟩, ?_, fun idx hidx => ?_⟩
  · rw [g1, b4, a4, f1]
  · rw [g2, b3, a3, f2]
  · rw [g3, b5, a5, f3]
  · rw [g4, b6, a6, f4]
  · rw [g5, b7, a7, f5]
  · rw [g6, b1, a1]
  · have hi : InB (rs.map (fun r => r.2 - r.1)) idx := by rw [← a1]; exact hidx
    rw [a2 idx hidx, f7, g7, b2 idx (by rw [b1]; exact hi)]
    congr 2
    refine List.map_congr_left fun e _ => (contribution_sub hs hw ?_ b3 e hi).symm
    have hq2 := hq.2.2
    clear * - hq2 hne
    revert hq2
    generalize s.cfg = cfg
    intro hq2
    induction hq2 with
    | nil => exact .nil
    | @cons p r cfg rs h _ ih =>
      exact .cons ⟨hne r (by simp), h.2.1⟩ (ih fun r hr => hne r (by simp [hr]))

/-- **C121, projecting.** The projection of a spectrum after filling any events is the projection
before, taken as a spectrum with the remaining axes, filled with the remaining coordinates of the
accepted events. This speaks of the mathematical projection onto any parameters; see C10–C12 for
the methods. -/
theorem c121_projection (s t : Spectrum) (hs : s.WF) (ht : t.WF) (dims : List PyStr)
    (hc : t.cfg = axesOf dims s.cfg) (hp : IsProjection s dims t.data) (h : Fills)
    (hk : ∀ e ∈ h, IsDict e.2) (b : NdArray ℚ) (hb : IsProjection (runFills s h) dims b) :
    b.Eqv (runFills t (onlyDims dims (accepted s h))).data := by
  obtain ⟨⟨f1, f2, f3, f4, f5⟩, f6, f7⟩ := c03_fill_history s hs h hk
  have hk' : ∀ e ∈ onlyDims dims (accepted s h), IsDict e.2 := by
    intro e he
    obtain ⟨e', he', rfl⟩ := List.mem_map.1 he
    exact isDict_filter (hk e' (List.mem_filter.1 he').1) _
  obtain ⟨-, g6, g7⟩ := c03_fill_history t ht _ hk'
  obtain ⟨b1, b2⟩ := hb
  obtain ⟨p1, p2⟩ := hp
  have hsh : b.shape = t.data.shape := by rw [b1, p1, f2, f6]
  refine ⟨hsh.trans g6.symm, fun idx hidx => ?_⟩
  rw [b2 idx hidx, g7, p2 idx (hsh ▸ hidx), f6, f2]
  have hsum : ((onlyDims dims (accepted s h)).map (contribution t idx)).sum =
      (h.map (fun e => sumIdx s.data.shape (fun full =>
        if pick dims (s.cfg.map SPar.name) full = idx then contribution s full e else 0))).sum := by
    clear * - hs ht hc hk
    unfold onlyDims accepted
    induction h with
    | nil => rfl
    | cons e h ih =>
      have ih' := ih fun e he => hk e (by simp [he])
      by_cases hr : InRange s e.2
      · rw [List.filter_cons_of_pos (by simpa using hr)]
        simp only [List.map_cons, List.sum_cons]
        rw [ih', contribution_pick hs ht hc (hk e (by simp)) hr]
      · rw [List.filter_cons_of_neg (by simpa using hr)]
        simp only [List.map_cons, List.sum_cons]
        rw [ih']
        have : ∀ full, contribution s full e = 0 := fun full => by simp [contribution, hr]
        simp [this]
  rw [hsum, ← sumIdx_history, ← sumIdx_add]
  refine sumIdx_congr fun full _ => ?_
  rw [f7]
  split
  · rfl
  · simp

theorem runFills_eqv {s t : Spectrum} (hs : s.WF) (ht : t.WF) (e : s.Eqv t) (h : Fills)
    (hk : ∀ e ∈ h, IsDict e.2) : (runFills s h).Eqv (runFills t h) := by
  obtain ⟨⟨f1, f2, f3, f4, f5⟩, f6, f7⟩ := c03_fill_history s hs h hk
  obtain ⟨⟨g1, g2, g3, g4, g5⟩, g6, g7⟩ := c03_fill_history t ht h hk
  obtain ⟨⟨e1, e2, e3, e4, e5⟩, e6, e7⟩ := e
  refine ⟨⟨?_, ?_, ?_, ?_, ?_⟩, ?_, fun idx hidx => ?_⟩
  · rw [g1, e1, f1]
  · rw [g2, e2, f2]
  · rw [g3, e3, f3]
  · rw [g4, e4, f4]
  · rw [g5, e5, f5]
  · rw [g6, ← e6, f6]
  · rw [f7, g7, e7 idx (f6 ▸ hidx),
      List.map_congr_left fun e _ => contribution_congr (s := s) (t := t) e2 idx e]

/-- **C121, new spectra.** The histogram of any events, rebinned, is the histogram of these events
in a new spectrum with the coarser bins. -/
theorem c121_rebin_new (name : PyStr) (n : ℚ) (cfg : List SPar) (hax : ∀ p ∈ cfg, p.WF)
    (hn : (cfg.map SPar.name).Nodup) (ns : List ℕ)
    (hd : List.Forall₂ (fun (p : SPar) (m : ℕ) => (m : ℤ) ∣ p.bins) cfg ns) (h : Fills)
    (hk : ∀ e ∈ h, IsDict e.2) :
    ((runFills (.new name n cfg) h).rebin ns).err = none ∧
    ((runFills (.new name n cfg) h).rebin ns).st.Eqv
      (runFills (.new name n
        (List.zipWith (fun (p : SPar) (m : ℕ) => { p with bins := (m : ℤ) }) cfg ns)) h) := by
  have hs := c23_new name n cfg hax hn
  have herr : ((Spectrum.new name n cfg).rebin ns).err = none := (rebin_err_none_iff hs).2 hd
  obtain ⟨h1, h2⟩ := c121_rebin _ hs ns h hk
  refine ⟨h1.2 herr, ?_⟩
  obtain ⟨⟨b1, b2⟩, b3, -, b5, b6, b7, b8⟩ := (c13_rebin _ hs ns).2 herr
  replace b3 : ((Spectrum.new name n cfg).rebin ns).st.cfg =
    List.zipWith (fun (p : SPar) (m : ℕ) => { p with bins := (m : ℤ) }) cfg ns := b3
  have hw := rebin_wf hs herr
  have ht := c23_new name n (List.zipWith (fun (p : SPar) (m : ℕ) => { p with bins := (m : ℤ) }) cfg ns)
    (by rw [← b3]; exact hw.axes) (by rw [← b3]; exact hw.names)
  have e : Spectrum.Eqv ((Spectrum.new name n cfg).rebin ns).st (.new name n
      (List.zipWith (fun (p : SPar) (m : ℕ) => { p with bins := (m : ℤ) }) cfg ns)) := by
    refine ⟨⟨b7.symm, b3.symm, b5.symm, b6.symm, b8.symm⟩, ?_, fun idx hidx => ?_⟩
    · have := hw.shape.trans ((congrArg (List.map SPar.bins) b3).trans ht.shape.symm)
      exact (List.map_injective_iff.2 Nat.cast_injective) this
    · rw [b1] at hidx
      rw [b2 idx hidx]
      change _ = (0 : ℚ)
      refine (sumIdx_congr (g := fun _ => (0 : ℚ)) fun full _ => ?_).trans (sumIdx_zero _)
      split <;> rfl
  obtain ⟨⟨x1, x2, x3, x4, x5⟩, x6, x7⟩ := h2 herr
  obtain ⟨⟨y1, y2, y3, y4, y5⟩, y6, y7⟩ := runFills_eqv hw ht e h hk
  exact ⟨⟨y1.trans x1, y2.trans x2, y3.trans x3, y4.trans x4, y5.trans x5⟩, x6.trans y6,
    fun idx hidx => (x7 idx hidx).trans (y7 idx (x6 ▸ hidx))⟩

/-- **C121, one-dimensional projections of new spectra.** The projection of the histogram of any
events onto a parameter is the one-dimensional histogram of that coordinate of the events
accepted by the whole spectrum. -/
theorem c121_project_new (name : PyStr) (n : ℚ) (cfg : List SPar) (hax : ∀ p ∈ cfg, p.WF)
    (hn : (cfg.map SPar.name).Nodup) (p : SPar) (hp : p ∈ cfg) (h : Fills)
    (hk : ∀ e ∈ h, IsDict e.2) :
    ∃ b, (runFills (.new name n cfg) h).project p.name = .ok b ∧
      b.Eqv (runFills (.new name n [p])
        (onlyDims [p.name] (accepted (.new name n cfg) h))).data := by
  have hs := c23_new name n cfg hax hn
  have ht := c23_new name n [p] (by simpa using hax p hp) (by simp)
  obtain ⟨b0, -, hb0, hsh0, -⟩ := c10_project _ hs p hp
  have hcfg := (c03_fill_history _ hs h hk).1.2.1
  obtain ⟨b, hb, hb', -⟩ := c10_project _ (runFills_wf hs h) p (by rw [hcfg]; exact hp)
  refine ⟨b, hb, c121_projection _ _ hs ht [p.name] ?_ ?_ h hk b hb'⟩
  · change [p] = cfg.filter _
    clear * - hn hp
    induction cfg with
    | nil => simp at hp
    | cons q cfg ih =>
      simp only [List.map_cons, List.nodup_cons] at hn
      rcases List.mem_cons.1 hp with rfl | hp
      · rw [List.filter_cons_of_pos (by simp), List.filter_eq_nil_iff.2]
        intro q hq
        simp only [List.mem_singleton, decide_eq_true_eq]
        exact fun he => hn.1 (he ▸ List.mem_map_of_mem hq)
      · rw [List.filter_cons_of_neg, ih hn.2 hp]
        simp only [List.mem_singleton, decide_eq_true_eq]
        exact fun he => hn.1 (he ▸ List.mem_map_of_mem hp)
  · refine ⟨hsh0.symm.trans hb0.1, fun idx hidx => ?_⟩
    change (0 : ℚ) = _
    refine ((sumIdx_congr (g := fun _ => (0 : ℚ)) fun full _ => ?_).trans (sumIdx_zero _)).symm
    split <;> rfl

/-- **C121, negation.** On an axis that is not aligned the orders differ: shrinking moves the axis
and the event is then outside. -/
theorem c121_shrink_negation :
    ¬ ∀ (s : Spectrum) (kw : List (PyStr × ℚ)) (rs : List (ℕ × ℕ)) (h : Fills), s.WF →
      AsksEdges s kw rs → (∀ r ∈ rs, r.1 < r.2) → (∀ e ∈ h, IsDict e.2) →
      ((runFills s h).shrink kw).st.Eqv (runFills (s.shrink kw).st h) := by
  intro H
  have ha : AsksEdges Ex.specOdd [] [(0, 2)] := by
    refine ⟨by simp [IsDict], by simp [BoundKeys], ?_⟩
    simp only [Ex.specOdd]
    refine .cons ⟨by norm_num, by norm_num [Ex.odd], .inr ⟨by simp, ?_⟩, .inr ⟨by simp, ?_⟩⟩ .nil <;>
      norm_num [SPar.edge_eq, SPar.width, Ex.odd]
  have h1 := (H Ex.specOdd [] [(0, 2)] [(1, [(lit "time_mc", 3 / 2)])] Ex.specOdd_wf ha (by simp)
    (by simp [IsDict])).2.2 [0]
  revert h1
  decide +kernel

/-- The hypotheses hold for the two-dimensional example and a history of three fills, the last of
them outside the range. -/
example : Ex.spec.WF ∧ (Ex.spec.rebin [5, 2]).err = none ∧ AsksEdges Ex.spec exKw [(2, 7), (1, 4)] ∧
    (∀ r ∈ [((2 : ℕ), (7 : ℕ)), (1, 4)], r.1 < r.2) ∧
    ∀ e ∈ ([(1, Ex.point), (2, Ex.point), (1, [(lit "energy_mc", 7)])] : Fills), IsDict e.2 := by
  refine ⟨Ex.spec_wf, (rebin_err_none_iff Ex.spec_wf).2 (by simp [Ex.spec, Ex.energy, Ex.radial]),
    exKw_asks, by simp, ?_⟩
  intro e he
  simp at he
  rcases he with rfl | rfl | rfl
  exacts [Ex.point_dict, Ex.point_dict, by simp [IsDict]]

end Verif
