import Verif.Lemmas.Shrink
import Verif.Spec.Examples
import Mathlib.Tactic.NormNum
import Mathlib.Tactic.IntervalCases

/-! # C16–C22: shrinking, cutting, regions of interest -/

namespace Verif

open Spectrum

/-! ### helper results -/

/-- What shrinking to bin edges does, on any axes. -/
theorem shrink_edges {s : Spectrum} (hs : s.WF) {kw : List (PyStr × ℚ)} {rs : List (ℕ × ℕ)}
    (h : AsksEdges s kw rs) :
    s.shrink kw = .ok { s with
      cfg := List.zipWith (fun (p : SPar) (r : ℕ × ℕ) => { p with
        low := p.round (p.edge r.1), high := p.round (p.edge r.2),
        bins := (r.2 : ℤ) - r.1 }) s.cfg rs
      data := s.data.slice (rs.map (fun r => ((r.1 : ℤ), (r.2 : ℤ)))) } := by
  obtain ⟨hk, hb, hf⟩ := h
  have hf' : List.Forall₂ (fun (p : SPar) (r : ℕ × ℕ) => r.1 ≤ r.2 ∧ (r.2 : ℤ) ≤ p.bins ∧
      askedLow kw p = p.edge r.1 ∧ askedHigh kw p = p.edge r.2) s.cfg rs :=
    hf.imp fun p r ⟨h1, h2, h3, h4⟩ => ⟨h1, h2, (asked_iff hk).1 h3, (asked_iff hk).1 h4⟩
  have hv : kw.forM (shrinkCheck s) = .ok () := by
    refine valid_of_asked hs hk hb fun p hp => ?_
    obtain ⟨r, -, h1, h2, h3, h4⟩ := forall₂_mem_left hf' hp
    have hw := (hs.axes p hp).width_pos
    rw [h3, h4, (hs.axes p hp).high_eq]
    simp only [SPar.edge_eq]
    constructor
    · have : (0 : ℚ) ≤ ((r.1 : ℤ) : ℚ) * p.width := by positivity
      linarith
    · have : ((r.2 : ℤ) : ℚ) ≤ p.bins := by exact_mod_cast h2
      have := mul_le_mul_of_nonneg_right this hw.le
      linarith
  rw [shrink_wf_eq hs hv]
  have hax := hs.axes
  have key : s.cfg.map (fun p => shrinkAxis p (askedLow kw p) (askedHigh kw p)) =
      List.zipWith (fun (p : SPar) (r : ℕ × ℕ) => ({ p with
        low := p.round (p.edge r.1), high := p.round (p.edge r.2),
        bins := (r.2 : ℤ) - r.1 }, ((r.1 : ℤ), (r.2 : ℤ)))) s.cfg rs := by
    revert hf' hax
    generalize s.cfg = cfg
    intro hf' hax
    clear * - hf' hax
    induction hf' with
    | nil => rfl
    | @cons p r cfg rs h1 _ ih =>
      simp only [List.map_cons, List.zipWith_cons_cons]
      rw [ih fun q hq => hax q (by simp [hq]), h1.2.2.1, h1.2.2.2,
        shrinkAxis_edges (hax p (by simp)) (by omega)]
  have hl := hf.length_eq
  congr 2
  · have := congrArg (List.map Prod.fst) key
    rw [List.map_map, List.map_zipWith] at this
    exact this
  · congr 1
    have := congrArg (List.map Prod.snd) key
    rw [List.map_map, List.map_zipWith] at this
    refine this.trans ?_
    clear * - hl
    revert hl
    generalize s.cfg = cfg
    intro hl
    induction cfg generalizing rs with
    | nil => cases rs with
      | nil => rfl
      | cons a b => simp at hl
    | cons p cfg ih => cases rs with
      | nil => simp at hl
      | cons r rs => simp [ih (by simpa using hl)]

/-- Shrinking aligned axes to bin edges. -/
theorem shrink_isSub {s : Spectrum} (hs : s.WF) (ha : ∀ p ∈ s.cfg, p.Aligned)
    {kw : List (PyStr × ℚ)} {rs : List (ℕ × ℕ)} (h : AsksEdges s kw rs) :
    (s.shrink kw).err = none ∧ IsSub s rs (s.shrink kw).st := by
  rw [shrink_edges hs h]
  refine ⟨rfl, isSlice_of_bounds hs (h.2.2.imp fun p r h => ⟨h.1, h.2.1⟩) rfl, ?_,
    rfl, rfl, rfl, rfl⟩
  simp only [Outcome.ok]
  have hax := hs.axes
  have hf := h.2.2
  revert hf ha hax
  generalize s.cfg = cfg
  intro ha hax hf
  clear * - hf ha hax
  induction hf with
  | nil => rfl
  | @cons p r cfg rs h1 _ ih =>
    simp only [List.zipWith_cons_cons]
    rw [ih (fun q hq => ha q (by simp [hq])) (fun q hq => hax q (by simp [hq])),
      round_aligned (hax p (by simp)) (ha p (by simp)),
      round_aligned (hax p (by simp)) (ha p (by simp))]
    rfl

theorem isSub_unique {s t u : Spectrum} {rs : List (ℕ × ℕ)} (h1 : IsSub s rs t)
    (h2 : IsSub s rs u) : t.Eqv u := by
  obtain ⟨⟨a1, a2⟩, a3, a4, a5, a6, a7⟩ := h1
  obtain ⟨⟨b1, b2⟩, b3, b4, b5, b6, b7⟩ := h2
  refine ⟨⟨b4.trans a4.symm, b3.trans a3.symm, b5.trans a5.symm, b6.trans a6.symm,
    b7.trans a7.symm⟩, a1.trans b1.symm, fun idx hi => ?_⟩
  rw [a2 idx hi, b2 idx (by rw [b1, ← a1]; exact hi)]

/-- Range of bins of the range of bins. -/
def compRange (r q : ℕ × ℕ) : ℕ × ℕ := (r.1 + q.1, r.1 + q.2)

theorem isSub_comp {s t u : Spectrum} {rs qs : List (ℕ × ℕ)} (h1 : IsSub s rs t)
    (h2 : IsSub t qs u) (hr : ∀ r ∈ rs, r.1 < r.2) (hlen : rs.length = s.cfg.length)
    (hq : List.Forall₂ (fun (r q : ℕ × ℕ) => q.1 ≤ q.2 ∧ q.2 ≤ r.2 - r.1) rs qs) :
    IsSub s (List.zipWith compRange rs qs) u := by
  obtain ⟨⟨a1, a2⟩, a3, a4, a5, a6, a7⟩ := h1
  obtain ⟨⟨b1, b2⟩, b3, b4, b5, b6, b7⟩ := h2
  refine ⟨⟨?_, fun idx hi => ?_⟩, ?_, b4.trans a4, b5.trans a5, b6.trans a6, b7.trans a7⟩
  · rw [b1]
    clear * - hq
    induction hq with
    | nil => rfl
    | cons h _ ih =>
      simp only [List.map_cons, List.zipWith_cons_cons, ih, compRange]
      congr 1; omega
  · rw [b2 idx hi, a2]
    · congr 1
      clear * -
      induction rs generalizing qs idx with
      | nil => simp
      | cons r rs ih => cases qs with
        | nil => simp
        | cons q qs => cases idx with
          | nil => simp
          | cons i idx =>
            simp only [List.zipWith_cons_cons, ih, compRange]
            congr 1; omega
    · rw [b1] at hi
      rw [a1]
      clear * - hi hq
      induction hq generalizing idx with
      | nil => simp
      | @cons r q rs qs h _ ih => cases idx with
        | nil => simp at hi
        | cons i idx =>
          simp only [List.map_cons, List.zipWith_cons_cons, inB_cons_cons] at hi ⊢
          exact ⟨by omega, ih _ hi.2⟩
  · rw [b3, a3]
    have : rs.length = qs.length := hq.length_eq
    clear * - hr hlen this
    revert hlen
    generalize s.cfg = cfg
    intro hlen
    induction cfg generalizing rs qs with
    | nil => simp
    | cons p cfg ih => cases rs with
      | nil => simp at hlen
      | cons r rs => cases qs with
        | nil => simp at this
        | cons q qs =>
          simp only [List.zipWith_cons_cons]
          rw [ih (fun r hr' => hr r (by simp [hr'])) (by simpa using this) (by simpa using hlen)]
          congr 1
          have hr1 := hr r (by simp)
          have e1 := subAxis_edge (p := p) hr1 q.1
          have e2 := subAxis_edge (p := p) hr1 q.2
          have : subAxis (subAxis p r) q = { (subAxis p r) with
            low := (subAxis p r).edge q.1, high := (subAxis p r).edge q.2,
            bins := (q.2 : ℤ) - q.1 } := rfl
          rw [this, e1, e2]
          simp only [subAxis, compRange]
          congr 1
          push_cast; ring

theorem isSub_wf {s t : Spectrum} {rs : List (ℕ × ℕ)} (hs : s.WF) (h : IsSub s rs t)
    (hr : ∀ r ∈ rs, r.1 < r.2) (hlen : rs.length = s.cfg.length) : t.WF := by
  obtain ⟨⟨a1, -⟩, a3, -⟩ := h
  have hax := hs.axes
  have hn := hs.names
  have e1 : t.cfg.map SPar.name = s.cfg.map SPar.name := by
    rw [a3, List.map_zipWith]
    clear * - hlen
    revert hlen
    generalize s.cfg = cfg
    intro hlen
    induction cfg generalizing rs with
    | nil => simp
    | cons p cfg ih => cases rs with
      | nil => simp at hlen
      | cons r rs =>
        simp only [List.zipWith_cons_cons, ih (rs := rs) (by simpa using hlen), List.map_cons]
        rfl
  refine ⟨?_, by rw [e1]; exact hn, ?_⟩
  · rw [a3]
    clear * - hax hr
    revert hax
    generalize s.cfg = cfg
    intro hax
    induction cfg generalizing rs with
    | nil => simp
    | cons p cfg ih => cases rs with
      | nil => simp
      | cons r rs =>
        simp only [List.zipWith_cons_cons, List.mem_cons, forall_eq_or_imp]
        exact ⟨subAxis_wf (hax p (by simp)) (hr r (by simp)),
          ih (fun r h => hr r (by simp [h])) (fun q h => hax q (by simp [h]))⟩
  · rw [a1, a3, List.map_map, List.map_zipWith]
    clear * - hlen hr
    revert hlen
    generalize s.cfg = cfg
    intro hlen
    induction cfg generalizing rs with
    | nil => cases rs with
      | nil => rfl
      | cons _ _ => simp at hlen
    | cons p cfg ih => cases rs with
      | nil => simp at hlen
      | cons r rs =>
        simp only [List.map_cons, List.zipWith_cons_cons, Function.comp]
        congr 1
        · have := hr r (by simp)
          simp only [subAxis]; omega
        · exact ih (fun r h => hr r (by simp [h])) (by simpa using hlen)

theorem isSub_aligned {s t : Spectrum} {rs : List (ℕ × ℕ)} (ha : ∀ p ∈ s.cfg, p.Aligned)
    (h : IsSub s rs t) (hr : ∀ r ∈ rs, r.1 < r.2) : ∀ p ∈ t.cfg, p.Aligned := by
  rw [h.2.1]
  clear h
  revert ha
  generalize s.cfg = cfg
  intro ha
  induction cfg generalizing rs with
  | nil => simp
  | cons p cfg ih => cases rs with
    | nil => simp
    | cons r rs =>
      simp only [List.zipWith_cons_cons, List.mem_cons, forall_eq_or_imp]
      exact ⟨subAxis_aligned (ha p (by simp)) (hr r (by simp)),
        ih (fun r h => hr r (by simp [h])) (fun q h => ha q (by simp [h]))⟩

/-! ### C16 -/

/-- **C16, cells.** Shrinking to bin edges is accepted; it keeps exactly the cells between
the edges and records the number of kept bins. This part needs no assumption on the axes. -/
theorem c16_shrink_cells (s : Spectrum) (hs : s.WF) (kw : List (PyStr × ℚ))
    (rs : List (ℕ × ℕ)) (h : AsksEdges s kw rs) :
    (s.shrink kw).err = none ∧ IsSlice s rs (s.shrink kw).st ∧ SameMeta s (s.shrink kw).st ∧
    (s.shrink kw).st.cfg.map SPar.name = s.cfg.map SPar.name ∧
    (s.shrink kw).st.cfg.map SPar.bins = rs.map (fun r => (r.2 : ℤ) - r.1) := by
  rw [shrink_edges hs h]
  have hl := h.2.2.length_eq
  refine ⟨rfl, isSlice_of_bounds hs (h.2.2.imp fun p r h => ⟨h.1, h.2.1⟩) rfl,
    ⟨rfl, rfl, rfl, rfl⟩, ?_, ?_⟩ <;>
  · simp only [Outcome.ok, List.map_zipWith]
    clear * - hl
    revert hl
    generalize s.cfg = cfg
    intro hl
    induction cfg generalizing rs with
    | nil => cases rs with
      | nil => rfl
      | cons _ _ => simp at hl
    | cons p cfg ih => cases rs with
      | nil => simp at hl
      | cons r rs => simp [ih rs (by simpa using hl)]

/-- **C16.** On axes whose lower edge is a multiple of the bin width, shrinking to bin edges
keeps exactly the sub-histogram: the cells between the edges, the edges themselves and the
number of kept bins (`IsSub`). Parameters that are not named are asked for their full range
and stay as they are. -/
theorem c16_shrink_edges (s : Spectrum) (hs : s.WF) (ha : ∀ p ∈ s.cfg, p.Aligned)
    (kw : List (PyStr × ℚ)) (rs : List (ℕ × ℕ)) (h : AsksEdges s kw rs) :
    (s.shrink kw).err = none ∧ IsSub s rs (s.shrink kw).st :=
  shrink_isSub hs ha h

/-- **C16, width.** The bin width of a kept non-empty range is the original one, and the
cells keep their coordinates; the full range is the axis itself. -/
theorem c16_width_kept (p : SPar) (hp : p.WF) (r : ℕ × ℕ) (hr : r.1 < r.2) :
    (subAxis p r).width = p.width ∧ (∀ i : ℤ, (subAxis p r).edge i = p.edge (r.1 + i)) ∧
    subAxis p (0, p.bins.toNat) = p := by
  refine ⟨subAxis_width hr, subAxis_edge hr, ?_⟩
  have h0 := hp.1
  have hb : ((p.bins.toNat : ℕ) : ℤ) = p.bins := by omega
  have hh := hp.high_eq
  simp only [subAxis, hb, SPar.edge_eq]
  cases p
  simp at hh ⊢
  exact hh.symm

/-- keywords used in the examples: the energy axis from 1 to 7/2 and the lower radial edge -/
def exKw : List (PyStr × ℚ) :=
  [(lit "energy_mc_high", 7 / 2), (lit "radial_mc_low", 1500), (lit "energy_mc_low", 1)]

theorem ex_energy_edge (i : ℤ) : Ex.energy.edge i = i / 2 := by
  rw [SPar.edge_eq]; simp [SPar.width, Ex.energy]; ring

theorem ex_radial_edge (i : ℤ) : Ex.radial.edge i = i * 1500 := by
  rw [SPar.edge_eq]; simp [SPar.width, Ex.radial]; left; norm_num

theorem exKw_asks : AsksEdges Ex.spec exKw [(2, 7), (1, 4)] := by
  refine ⟨by unfold IsDict exKw; decide, ?_, ?_⟩
  · simp [BoundKeys, exKw, Ex.spec, Ex.energy, Ex.radial]
  · simp only [Ex.spec]
    refine .cons ⟨by norm_num, by norm_num [Ex.energy], ?_, ?_⟩
      (.cons ⟨by norm_num, by norm_num [Ex.radial], ?_, ?_⟩ .nil)
    · left; rw [ex_energy_edge]; norm_num [exKw, Ex.energy]
    · left; rw [ex_energy_edge]; norm_num [exKw, Ex.energy]
    · left; rw [ex_radial_edge]; norm_num [exKw, Ex.radial]
    · right; rw [ex_radial_edge]; exact ⟨by simp [exKw, Ex.radial], by norm_num [Ex.radial]⟩

theorem ex_aligned : ∀ p ∈ Ex.spec.cfg, p.Aligned := by
  simp only [Ex.spec, List.mem_cons, List.not_mem_nil, or_false, forall_eq_or_imp, forall_eq]
  exact ⟨⟨0, by simp [Ex.energy]⟩, ⟨0, by simp [Ex.radial]⟩⟩

example : Ex.spec.WF ∧ (∀ p ∈ Ex.spec.cfg, p.Aligned) ∧
    AsksEdges Ex.spec exKw [(2, 7), (1, 4)] := ⟨Ex.spec_wf, ex_aligned, exKw_asks⟩

/-! ### C17 -/

/-- **C17, partial.** On axes whose lower edge is a multiple of the bin width: bounds in
range and in order are accepted, and the result is the sub-histogram of bin ranges whose
edges are at most 0.99 bins outside and less than 0.01 bins inside the requested bounds.
Missing: other axes, where the claim is false (`c17_unaligned_negation`). -/
theorem c17_shrink_any_partial (s : Spectrum) (hs : s.WF) (ha : ∀ p ∈ s.cfg, p.Aligned)
    (kw : List (PyStr × ℚ)) (h : AsksOrdered s kw) :
    (s.shrink kw).err = none ∧ ∃ rs, IsSub s rs (s.shrink kw).st ∧
      List.Forall₂ (fun (p : SPar) (r : ℕ × ℕ) => r.1 ≤ r.2 ∧ (r.2 : ℤ) ≤ p.bins ∧
        ∀ kl kh, Asked kw (p.name ++ lit "_low") p.low kl →
          Asked kw (p.name ++ lit "_high") p.high kh →
          kl - 99 / 100 * p.width ≤ p.edge r.1 ∧ p.edge r.1 < kl + 1 / 100 * p.width ∧
          kh - 1 / 100 * p.width < p.edge r.2 ∧ p.edge r.2 ≤ kh + 99 / 100 * p.width)
        s.cfg rs := by
  obtain ⟨hk, hb, hp⟩ := h
  have hp' : ∀ p ∈ s.cfg, p.low ≤ askedLow kw p ∧ askedLow kw p ≤ askedHigh kw p ∧
      askedHigh kw p ≤ p.high := by
    intro p hpm
    obtain ⟨kl, kh, h1, h2, h3⟩ := hp p hpm
    have e1 : askedLow kw p = kl := (asked_iff hk).1 h1
    have e2 : askedHigh kw p = kh := (asked_iff hk).1 h2
    rw [e1, e2]; exact h3
  have hv := valid_of_asked hs hk hb fun p h => ⟨(hp' p h).1, (hp' p h).2.2⟩
  rw [shrink_wf_eq hs hv]
  have hax := hs.axes
  have key : ∃ rs : List (ℕ × ℕ),
      s.cfg.map (fun p => shrinkAxis p (askedLow kw p) (askedHigh kw p)) =
        List.zipWith (fun p (r : ℕ × ℕ) => (subAxis p r, ((r.1 : ℤ), (r.2 : ℤ)))) s.cfg rs ∧
      List.Forall₂ (fun (p : SPar) (r : ℕ × ℕ) => r.1 ≤ r.2 ∧ (r.2 : ℤ) ≤ p.bins ∧
        ∀ kl kh, Asked kw (p.name ++ lit "_low") p.low kl →
          Asked kw (p.name ++ lit "_high") p.high kh →
          kl - 99 / 100 * p.width ≤ p.edge r.1 ∧ p.edge r.1 < kl + 1 / 100 * p.width ∧
          kh - 1 / 100 * p.width < p.edge r.2 ∧ p.edge r.2 ≤ kh + 99 / 100 * p.width)
        s.cfg rs := by
    clear hv
    revert hax ha hp'
    generalize s.cfg = cfg
    intro ha hp' hax
    clear * - hax ha hp' hk
    induction cfg with
    | nil => exact ⟨[], rfl, .nil⟩
    | cons p cfg ih =>
      obtain ⟨rs, h1, h2⟩ := ih (fun q h => ha q (by simp [h])) (fun q h => hp' q (by simp [h]))
        (fun q h => hax q (by simp [h]))
      obtain ⟨g1, g2, g3⟩ := hp' p (by simp)
      obtain ⟨r, r1, r2, r3, r4⟩ := shrinkAxis_aligned (hax p (by simp)) (ha p (by simp)) g1 g2 g3
      refine ⟨r :: rs, by simp [h1, r3], .cons ⟨r1, r2, ?_⟩ h2⟩
      intro kl kh hl hh
      rw [← (asked_iff hk).1 hl, ← (asked_iff hk).1 hh]
      exact r4
  obtain ⟨rs, h1, h2⟩ := key
  refine ⟨rfl, rs, ⟨isSlice_of_bounds hs (h2.imp fun p r h => ⟨h.1, h.2.1⟩) ?_, ?_,
    rfl, rfl, rfl, rfl⟩, h2⟩
  · simp only [Outcome.ok]
    congr 1
    have := congrArg (List.map Prod.snd) h1
    rw [List.map_map, List.map_zipWith] at this
    refine this.trans ?_
    have hl := h2.length_eq
    clear * - hl
    revert hl
    generalize s.cfg = cfg
    intro hl
    induction cfg generalizing rs with
    | nil => cases rs with
      | nil => rfl
      | cons a b => simp at hl
    | cons p cfg ih => cases rs with
      | nil => simp at hl
      | cons r rs => simp [ih rs (by simpa using hl)]
  · simp only [Outcome.ok]
    have := congrArg (List.map Prod.fst) h1
    rw [List.map_map, List.map_zipWith] at this
    exact this

example : AsksOrdered Ex.spec [(lit "energy_mc_low", 13 / 10), (lit "radial_mc_high", 4600)] := by
  refine ⟨by unfold IsDict; decide, by simp [BoundKeys, Ex.spec, Ex.energy, Ex.radial], ?_⟩
  simp only [Ex.spec, List.mem_cons, List.not_mem_nil, or_false, forall_eq_or_imp, forall_eq]
  refine ⟨⟨13 / 10, 5, .inl (by simp [Ex.energy]), .inr (by simp [Ex.energy]), ?_⟩,
    ⟨0, 4600, .inr (by simp [Ex.radial]), .inl (by simp [Ex.radial]), ?_⟩⟩ <;>
    norm_num [Ex.energy, Ex.radial]

theorem specOdd_shrink :
    Ex.specOdd.shrink [(lit "time_mc_high", 39 / 10)] = .ok { Ex.specOdd with
      cfg := [⟨lit "time_mc", 2, 4, 1⟩], data := Ex.specOdd.data.slice [(0, 1)] } := by
  have hv : ([(lit "time_mc_high", (39 / 10 : ℚ))]).forM (shrinkCheck Ex.specOdd) = .ok () := by
    refine valid_of_asked Ex.specOdd_wf (by unfold IsDict; decide)
      (by simp [BoundKeys, Ex.specOdd, Ex.odd]) ?_
    simp only [Ex.specOdd, List.mem_singleton, forall_eq]
    norm_num [askedLow, askedHigh, assoc, Ex.odd]
  rw [shrink_wf_eq Ex.specOdd_wf hv]
  have : shrinkAxis Ex.odd (askedLow [(lit "time_mc_high", 39 / 10)] Ex.odd)
      (askedHigh [(lit "time_mc_high", 39 / 10)] Ex.odd) = (⟨lit "time_mc", 2, 4, 1⟩, (0, 1)) := by
    decide +kernel
  simp only [Ex.specOdd, List.map_cons, List.map_nil, this]

/-- **C17, negation.** On the axis from 1 to 5 with two bins, asking for the range up to 3.9
keeps only the bin from 1 to 3: nearly half a bin of the requested range is lost. -/
theorem c17_unaligned_negation :
    ¬ ∀ (s : Spectrum) (kw : List (PyStr × ℚ)), s.WF → AsksOrdered s kw →
      (s.shrink kw).err = none ∧ ∃ rs, IsSlice s rs (s.shrink kw).st ∧
      List.Forall₂ (fun (p : SPar) (r : ℕ × ℕ) =>
        ∀ kh, Asked kw (p.name ++ lit "_high") p.high kh →
          kh - 1 / 100 * p.width < p.edge r.2) s.cfg rs := by
  intro h
  obtain ⟨-, rs, ⟨h1, h2⟩, h3⟩ := h Ex.specOdd [(lit "time_mc_high", 39 / 10)] Ex.specOdd_wf (by
    refine ⟨by unfold IsDict; decide, by simp [BoundKeys, Ex.specOdd, Ex.odd], ?_⟩
    simp only [Ex.specOdd, List.mem_singleton, forall_eq]
    exact ⟨1, 39 / 10, .inr (by simp [Ex.odd]), .inl (by simp [Ex.odd]), by norm_num [Ex.odd]⟩)
  rw [specOdd_shrink] at h1 h2
  simp only [Ex.specOdd] at h3
  cases h3 with
  | @cons _ r _ _ h3 h4 =>
    cases h4
    have hsh : (Ex.specOdd.data.slice [(0, 1)]).shape = [1] := by decide +kernel
    simp only [Outcome.ok, hsh, List.map_cons, List.map_nil, List.cons.injEq, and_true] at h1 h2
    have h5 := h2 [0] (by simp)
    have h6 : (Ex.specOdd.data.slice [(0, 1)]).get [0] = 3 := by decide +kernel
    rw [h6] at h5
    have hr : r.1 = 0 := by
      rcases hr0 : r.1 with _ | _ | k
      · rfl
      · simp [Ex.specOdd, hr0] at h5
      · simp [Ex.specOdd, hr0] at h5
    have h7 := h3 (39 / 10) (.inl (by simp [Ex.odd]))
    have : r.2 = 1 := by omega
    rw [this] at h7
    norm_num [SPar.edge_eq, SPar.width, Ex.odd] at h7

/-! ### C18 -/

/-- **C18, negation.** A shrink that asks for nothing (every parameter keeps its full range)
moves the axis from 1..5 to 2..6 under the data. -/
theorem c18_shrink_moves_axis_negation :
    ¬ ∀ (s : Spectrum) (kw : List (PyStr × ℚ)) (rs : List (ℕ × ℕ)), s.WF →
      AsksEdges s kw rs → (s.shrink kw).st.cfg = List.zipWith subAxis s.cfg rs := by
  intro h
  have ha : AsksEdges Ex.specOdd [] [(0, 2)] := by
    refine ⟨by simp [IsDict], by simp [BoundKeys], ?_⟩
    simp only [Ex.specOdd]
    refine .cons ⟨by norm_num, by norm_num [Ex.odd], .inr ⟨by simp, ?_⟩, .inr ⟨by simp, ?_⟩⟩ .nil <;>
      norm_num [SPar.edge_eq, SPar.width, Ex.odd]
  have h1 := h Ex.specOdd [] [(0, 2)] Ex.specOdd_wf ha
  rw [shrink_edges Ex.specOdd_wf ha] at h1
  revert h1
  simp only [Outcome.ok, Ex.specOdd]
  decide +kernel

/-- **C18, partial.** On axes whose lower edge is a multiple of the bin width every cell of
a kept range of bins keeps its coordinate interval, for every request in range and in order.
Missing: the other axes, see the negation. -/
theorem c18_shrink_axis_partial (s : Spectrum) (hs : s.WF) (ha : ∀ p ∈ s.cfg, p.Aligned)
    (kw : List (PyStr × ℚ)) (h : AsksOrdered s kw) :
    ∃ rs, IsSlice s rs (s.shrink kw).st ∧
      ∀ (a : ℕ) (p p' : SPar) (r : ℕ × ℕ), s.cfg[a]? = some p →
        (s.shrink kw).st.cfg[a]? = some p' → rs[a]? = some r → r.1 < r.2 →
        ∀ i : ℤ, p'.edge i = p.edge (r.1 + i) := by
  obtain ⟨-, rs, ⟨h1, h2, -⟩, -⟩ := c17_shrink_any_partial s hs ha kw h
  refine ⟨rs, h1, fun a p p' r hp hp' hr hlt i => ?_⟩
  rw [h2, List.getElem?_zipWith, hp, hr] at hp'
  simp only [Option.some.injEq] at hp'
  rw [← hp']
  exact subAxis_edge hlt i

/-- **C18, bound.** On any axis a shrink to bin edges moves an edge by at most half a bin. -/
theorem c18_shift_at_most_half_partial (s : Spectrum) (hs : s.WF) (kw : List (PyStr × ℚ))
    (rs : List (ℕ × ℕ)) (h : AsksEdges s kw rs) (a : ℕ) (p p' : SPar) (r : ℕ × ℕ)
    (hp : s.cfg[a]? = some p) (hp' : (s.shrink kw).st.cfg[a]? = some p') (hr : rs[a]? = some r) :
    |p'.low - p.edge r.1| ≤ p.width / 2 ∧ |p'.high - p.edge r.2| ≤ p.width / 2 := by
  rw [shrink_edges hs h] at hp'
  simp only [Outcome.ok] at hp'
  rw [List.getElem?_zipWith, hp, hr] at hp'
  simp only [Option.some.injEq] at hp'
  rw [← hp']
  have hwf := hs.axes p (List.mem_of_getElem? hp)
  exact ⟨round_close hwf _, round_close hwf _⟩

/-! ### C19 -/

/-- **C19, partial.** On axes whose lower edge is a multiple of the bin width: shrinking to a
non-empty range of bin edges and then to a range of bin edges of the result is accepted, and
is the same as asking for the inner range directly. Missing: other axes, see the negation. -/
theorem c19_nested_partial (s : Spectrum) (hs : s.WF) (ha : ∀ p ∈ s.cfg, p.Aligned)
    (kwO kwI kwD : List (PyStr × ℚ)) (rs qs : List (ℕ × ℕ)) (hO : AsksEdges s kwO rs)
    (hne : ∀ r ∈ rs, r.1 < r.2) (hI : AsksEdges (s.shrink kwO).st kwI qs)
    (hD : AsksEdges s kwD (List.zipWith (fun r q => (r.1 + q.1, r.1 + q.2)) rs qs)) :
    ((s.shrink kwO).st.shrink kwI).err = none ∧ (s.shrink kwD).err = none ∧
    (s.shrink kwD).st.Eqv ((s.shrink kwO).st.shrink kwI).st := by
  obtain ⟨-, h1⟩ := shrink_isSub hs ha hO
  have hlen := hO.2.2.length_eq
  have hwf := isSub_wf hs h1 hne hlen.symm
  obtain ⟨e2, h2⟩ := shrink_isSub hwf (isSub_aligned ha h1 hne) hI
  obtain ⟨e3, h3⟩ := shrink_isSub hs ha hD
  refine ⟨e2, e3, isSub_unique h3 (isSub_comp h1 h2 hne hlen.symm ?_)⟩
  have hq := hI.2.2
  rw [h1.2.1] at hq
  clear * - hq hlen
  revert hq hlen
  generalize s.cfg = cfg
  intro hlen hq
  induction cfg generalizing rs qs with
  | nil => cases rs with
    | nil => cases hq; exact .nil
    | cons _ _ => simp at hlen
  | cons p cfg ih => cases rs with
    | nil => simp at hlen
    | cons r rs => cases hq with
      | cons a b =>
        have hb : (subAxis p r).bins = (r.2 : ℤ) - r.1 := rfl
        rw [hb] at a
        exact .cons ⟨a.1, by have := a.2.1; omega⟩ (ih rs _ (by simpa using hlen) b)

/-- Asking the result of a shrink for the same keywords again asks for all of it. -/
theorem asks_again {s : Spectrum} (hs : s.WF) (ha : ∀ p ∈ s.cfg, p.Aligned)
    {kw : List (PyStr × ℚ)} {rs : List (ℕ × ℕ)} (h : AsksEdges s kw rs)
    (hne : ∀ r ∈ rs, r.1 < r.2) :
    AsksEdges (s.shrink kw).st kw (rs.map (fun r => (0, r.2 - r.1))) := by
  obtain ⟨-, -, h2, -⟩ := shrink_isSub hs ha h
  obtain ⟨hk, hb, hf⟩ := h
  refine ⟨hk, ?_, ?_⟩
  · intro e he
    obtain ⟨p, hp, hkey⟩ := hb e he
    rw [h2]
    obtain ⟨i, hi, rfl⟩ := List.getElem_of_mem hp
    have hi' : i < rs.length := by rw [← hf.length_eq]; exact hi
    refine ⟨subAxis s.cfg[i] rs[i], ?_, hkey⟩
    rw [List.mem_iff_getElem]
    exact ⟨i, by simp [hi, hi'], by simp⟩
  · rw [h2]
    clear h2 hb
    revert hf
    generalize s.cfg = cfg
    intro hf
    induction hf with
    | nil => exact .nil
    | @cons p r cfg rs h1 _ ih =>
      obtain ⟨g1, g2, g3, g4⟩ := h1
      have hr := hne r (by simp)
      simp only [List.zipWith_cons_cons, List.map_cons]
      refine .cons ⟨by omega, ?_, ?_, ?_⟩ (ih fun r h => hne r (by simp [h]))
      · change _ ≤ (r.2 : ℤ) - r.1; omega
      · have e : (subAxis p r).edge ((0 : ℕ) : ℤ) = p.edge r.1 := by
          rw [subAxis_edge hr]; simp
        change Asked kw (p.name ++ lit "_low") (p.edge r.1) _
        rw [e]
        rcases g3 with g | ⟨g, -⟩
        · exact .inl g
        · exact .inr ⟨g, rfl⟩
      · have e : (subAxis p r).edge ((r.2 - r.1 : ℕ) : ℤ) = p.edge r.2 := by
          rw [subAxis_edge hr]; congr 1; omega
        change Asked kw (p.name ++ lit "_high") (p.edge r.2) _
        rw [e]
        rcases g4 with g | ⟨g, -⟩
        · exact .inl g
        · exact .inr ⟨g, rfl⟩

/-- **C19, idempotence, partial.** On axes whose lower edge is a multiple of the bin width,
shrinking twice with the same keywords is shrinking once. -/
theorem c19_idempotent_partial (s : Spectrum) (hs : s.WF) (ha : ∀ p ∈ s.cfg, p.Aligned)
    (kw : List (PyStr × ℚ)) (rs : List (ℕ × ℕ)) (h : AsksEdges s kw rs)
    (hne : ∀ r ∈ rs, r.1 < r.2) :
    ((s.shrink kw).st.shrink kw).err = none ∧
    (s.shrink kw).st.Eqv ((s.shrink kw).st.shrink kw).st := by
  have h2 := asks_again hs ha h hne
  have hz : List.zipWith (fun (r q : ℕ × ℕ) => (r.1 + q.1, r.1 + q.2)) rs
      (rs.map (fun r => (0, r.2 - r.1))) = rs := by
    rw [List.zipWith_map_right, List.zipWith_self]
    conv_rhs => rw [← List.map_id rs]
    refine List.map_congr_left fun r hr => ?_
    have := hne r hr
    ext <;> simp; omega
  obtain ⟨a, -, b⟩ := c19_nested_partial s hs ha kw kw kw rs _ h hne h2 (by rw [hz]; exact h)
  exact ⟨a, b⟩

/-- **C19, negation.** On an axis that is not aligned a second, identical shrink can raise:
the first one has moved the axis. -/
theorem c19_idempotent_negation :
    ¬ ∀ (s : Spectrum) (kw : List (PyStr × ℚ)) (rs : List (ℕ × ℕ)), s.WF → AsksEdges s kw rs →
      (∀ r ∈ rs, r.1 < r.2) → ((s.shrink kw).st.shrink kw).err = none := by
  intro h
  have ha : AsksEdges Ex.specOdd [(lit "time_mc_low", 1)] [(0, 2)] := by
    refine ⟨by simp [IsDict], by simp [BoundKeys, Ex.specOdd, Ex.odd], ?_⟩
    simp only [Ex.specOdd]
    refine .cons ⟨by norm_num, by norm_num [Ex.odd], .inl ?_, .inr ⟨by simp [Ex.odd], ?_⟩⟩ .nil <;>
      norm_num [SPar.edge_eq, SPar.width, Ex.odd]
  have h1 := h Ex.specOdd _ _ Ex.specOdd_wf ha (by simp)
  revert h1
  rw [shrink_edges Ex.specOdd_wf ha]
  decide +kernel

example : AsksEdges Ex.spec exKw [(2, 7), (1, 4)] ∧
    (∀ r ∈ [(2, 7), (1, 4)], (r : ℕ × ℕ).1 < r.2) := ⟨exKw_asks, by simp⟩

/-- the hypotheses of `c19_nested_partial` together -/
example : ∃ qs, AsksEdges (Ex.spec.shrink exKw).st exKw qs ∧
    AsksEdges Ex.spec exKw (List.zipWith (fun r q => (r.1 + q.1, r.1 + q.2)) [(2, 7), (1, 4)] qs) :=
  ⟨_, asks_again Ex.spec_wf ex_aligned exKw_asks (by simp), exKw_asks⟩

/-! ### C20 -/

/-- **C20, acceptance.** A shrink is accepted exactly when every keyword is a parameter name
with `_low` or `_high` and its bound is in range up to the tolerance. -/
theorem c20_shrink_accepted_iff (s : Spectrum) (hs : s.WF) (hne : ∀ p ∈ s.cfg, p.name ≠ [])
    (kw : List (PyStr × ℚ)) :
    (s.shrink kw).err = none ↔ ∀ e ∈ kw, BoundAccepted s e := by
  constructor
  · intro h e he
    have hv : kw.forM (shrinkCheck s) = .ok () := by
      by_contra hc
      cases hx : kw.forM (shrinkCheck s) with
      | ok u => exact hc hx
      | error e =>
        unfold Spectrum.shrink at h
        rw [hx] at h; cases h
    exact good_of_shrinkCheck_ok hne (forM_except_ok.1 hv e he)
  · intro h
    have hv : kw.forM (shrinkCheck s) = .ok () :=
      forM_except_ok.2 fun e he => shrinkCheck_ok_of_good hs.names (h e he)
    rw [shrink_wf_eq hs hv]; rfl

/-- **C20.** A rejected shrink leaves the spectrum as it was. -/
theorem c20_rejected_shrink_unchanged (s : Spectrum) (hs : s.WF) (kw : List (PyStr × ℚ))
    (h : (s.shrink kw).err ≠ none) : (s.shrink kw).st = s := by
  cases hx : kw.forM (shrinkCheck s) with
  | ok u => exact absurd (by rw [shrink_wf_eq hs hx]; rfl) h
  | error e => unfold Spectrum.shrink; rw [hx]; rfl

example : (∀ p ∈ Ex.spec.cfg, p.name ≠ []) ∧
    ¬ BoundAccepted Ex.spec (lit "energy_mc_high", 6) ∧ BoundAccepted Ex.spec (lit "energy_mc_low", 2) := by
  refine ⟨by simp [Ex.spec, Ex.energy, Ex.radial], ?_, ?_⟩
  · simp only [BoundAccepted, Ex.spec, List.mem_cons, List.not_mem_nil, or_false,
      exists_eq_or_imp, exists_eq_left]
    rintro ((⟨h, -⟩ | ⟨-, h⟩) | (⟨h, -⟩ | ⟨h, -⟩))
    · simp [Ex.energy] at h
    · norm_num [Ex.energy] at h
    · simp [Ex.radial] at h
    · simp [Ex.radial] at h
  · simp only [BoundAccepted, Ex.spec, List.mem_cons, List.not_mem_nil, or_false,
      exists_eq_or_imp, exists_eq_left]
    left; left; norm_num [Ex.energy]

/-! ### C21 -/

/-- **C21.** A cut shrinks in the same way as `shrink`; the decay count is multiplied by the
kept fraction of the total, and the ratio of total to decay count stays what it was. -/
theorem c21_cut (s : Spectrum) (kw : List (PyStr × ℚ)) (h : (s.shrink kw).err = none)
    (h0 : s.sum ≠ 0) :
    (s.cut kw).err = none ∧ (s.cut kw).st.data = (s.shrink kw).st.data ∧
    (s.cut kw).st.cfg = (s.shrink kw).st.cfg ∧
    (s.cut kw).st.numDecays = s.numDecays * ((s.cut kw).st.sum / s.sum) ∧
    ((s.cut kw).st.sum ≠ 0 →
      (s.cut kw).st.sum / (s.cut kw).st.numDecays = s.sum / s.numDecays) := by
  have hd : (s.shrink kw).st.numDecays = s.numDecays := by
    unfold Spectrum.shrink at h ⊢
    cases hx : kw.forM (shrinkCheck s) with
    | error e => simp only; rfl
    | ok u =>
      simp only
      cases hy : (shrinkLoop kw s.cfg).2.2 with
        | some e => rfl
        | none => rfl
  have hc : s.cut kw = .ok { (s.shrink kw).st with
      numDecays := (s.shrink kw).st.numDecays * ((s.shrink kw).st.sum / s.sum) } := by
    unfold Spectrum.cut
    simp only [h, if_neg h0]
  rw [hc]
  refine ⟨rfl, rfl, rfl, by simp only [Outcome.ok, hd]; rfl, fun hne => ?_⟩
  simp only [Outcome.ok, hd]
  change (s.shrink kw).st.data.sum / (s.numDecays * ((s.shrink kw).st.data.sum / s.sum)) = _
  have hne' : (s.shrink kw).st.data.sum ≠ 0 := hne
  by_cases hn : s.numDecays = 0
  · simp [hn]
  · field_simp

/-- **C21, errors.** A cut of a spectrum with total zero, or with refused bounds, raises. -/
theorem c21_cut_rejected (s : Spectrum) (kw : List (PyStr × ℚ)) :
    ((s.shrink kw).err ≠ none → s.cut kw = s.shrink kw) ∧ (s.sum = 0 → (s.cut kw).err ≠ none) := by
  unfold Spectrum.cut
  constructor
  · intro h
    obtain ⟨e, he⟩ := Option.ne_none_iff_exists'.1 h
    simp only [he]
  · intro h
    cases he : (s.shrink kw).err with
    | some e => simp [he]
    | none => simp only [he, h, if_true, Outcome.fail]; simp

theorem shrink_with_data (s : Spectrum) (kw : List (PyStr × ℚ)) (c n : ℚ) :
    (({ s with data := s.data.smul c, numDecays := n } : Spectrum).shrink kw) =
      { st := { (s.shrink kw).st with data := (s.shrink kw).st.data.smul c, numDecays := n },
        err := (s.shrink kw).err } := by
  have hck : shrinkCheck ({ s with data := s.data.smul c, numDecays := n } : Spectrum) =
      shrinkCheck s := rfl
  unfold Spectrum.shrink
  rw [hck]
  cases hx : kw.forM (shrinkCheck s) with
  | error e => rfl
  | ok u =>
    simp only
    cases hy : (shrinkLoop kw s.cfg).2.2 with
    | some e => rfl
    | none => rfl

/-- **C21, scaling.** Scaling to `n` decays and then cutting gives the same spectrum as
cutting and then scaling to the kept fraction of `n`. -/
theorem c21_cut_scale (s : Spectrum) (kw : List (PyStr × ℚ)) (n : ℚ)
    (h : (s.shrink kw).err = none) (h0 : s.sum ≠ 0) (hd : s.numDecays ≠ 0) (hn : n ≠ 0)
    (hk : (s.shrink kw).st.sum ≠ 0) :
    ((s.scale n).st.cut kw).err = none ∧
    ((s.cut kw).st.scale (n * ((s.shrink kw).st.sum / s.sum))).err = none ∧
    ((s.scale n).st.cut kw).st.Eqv
      ((s.cut kw).st.scale (n * ((s.shrink kw).st.sum / s.sum))).st := by
  have hsc : s.scale n = .ok { s with data := s.data.smul (n / s.numDecays), numDecays := n } := by
    unfold Spectrum.scale; rw [if_neg hd]
  obtain ⟨c1, c2, c3, c4, -⟩ := c21_cut s kw h h0
  have hs' := shrink_with_data s kw (n / s.numDecays) n
  have hsum' : ({ s with data := s.data.smul (n / s.numDecays), numDecays := n } : Spectrum).sum =
      s.sum * (n / s.numDecays) := NdArray.smul_sum _ _
  have hfac : n / s.numDecays ≠ 0 := div_ne_zero hn hd
  have hcut : (s.scale n).st.cut kw = .ok { (s.shrink kw).st with
      data := (s.shrink kw).st.data.smul (n / s.numDecays)
      numDecays := n * ((s.shrink kw).st.sum / s.sum) } := by
    rw [hsc]
    simp only [Outcome.ok]
    unfold Spectrum.cut
    simp only [hs', h, hsum']
    rw [if_neg (mul_ne_zero h0 hfac)]
    simp only [Outcome.ok]
    congr 2
    have : ({ (s.shrink kw).st with data := (s.shrink kw).st.data.smul (n / s.numDecays), numDecays := n } : Spectrum).sum =
      (s.shrink kw).st.sum * (n / s.numDecays) := NdArray.smul_sum _ _
    rw [this]
    field_simp
  have hc : s.cut kw = .ok { (s.shrink kw).st with
      numDecays := (s.shrink kw).st.numDecays * ((s.shrink kw).st.sum / s.sum) } := by
    unfold Spectrum.cut
    simp only [h, if_neg h0]
  have hsum2 : (s.cut kw).st.sum = (s.shrink kw).st.sum := by rw [hc]; rfl
  have hnd : (s.cut kw).st.numDecays ≠ 0 := by
    rw [c4, hsum2]; exact mul_ne_zero hd (div_ne_zero hk h0)
  have hscut : (s.cut kw).st.scale (n * ((s.shrink kw).st.sum / s.sum)) =
      .ok { (s.cut kw).st with
        data := (s.cut kw).st.data.smul
          (n * ((s.shrink kw).st.sum / s.sum) / (s.cut kw).st.numDecays)
        numDecays := n * ((s.shrink kw).st.sum / s.sum) } := by
    unfold Spectrum.scale
    rw [if_neg hnd]
  rw [hcut, hscut]
  refine ⟨rfl, rfl, ⟨?_, c3, rfl, ?_, ?_⟩, ?_, ?_⟩
  · simp only [Outcome.ok, hc]
  · simp only [Outcome.ok, hc]
  · simp only [Outcome.ok, hc]
  · simp only [Outcome.ok, hc]; rfl
  · intro idx _
    simp only [Outcome.ok, NdArray.smul]
    rw [c2, c4, hsum2]
    congr 1
    field_simp

/-- the hypotheses of the theorems about `cut` together -/
example : (Ex.spec.shrink exKw).err = none ∧ Ex.spec.sum ≠ 0 ∧ (Ex.spec.shrink exKw).st.sum ≠ 0 ∧
    Ex.spec.numDecays ≠ 0 := by
  refine ⟨(c16_shrink_cells _ Ex.spec_wf _ _ exKw_asks).1, by decide +kernel, ?_, by decide +kernel⟩
  rw [shrink_edges Ex.spec_wf exKw_asks]
  decide +kernel

/-! ### C22 -/

/-- **C22.** An accepted `shrink_to_roi` of a spectrum with non-zero total shrinks in the
same way as `shrink`, and records for the dimension the edges after shrinking and the kept
total over the former total. Entries of other dimensions are kept. -/
theorem c22_roi (s : Spectrum) (hs : s.WF) (lower upper : ℚ) (dim : PyStr)
    (hdim : ∃ p ∈ s.cfg, p.name = dim)
    (h : (s.shrink [(dim ++ lit "_low", lower), (dim ++ lit "_high", upper)]).err = none)
    (h0 : s.sum ≠ 0) :
    (s.shrinkToRoi lower upper dim).err = none ∧
    (s.shrinkToRoi lower upper dim).st.data =
      (s.shrink [(dim ++ lit "_low", lower), (dim ++ lit "_high", upper)]).st.data ∧
    (∃ p' ∈ (s.shrinkToRoi lower upper dim).st.cfg, p'.name = dim ∧
      assoc (s.shrinkToRoi lower upper dim).st.rois dim =
        some ⟨p'.low, p'.high, (s.shrinkToRoi lower upper dim).st.sum / s.sum⟩) ∧
    ∀ d, d ≠ dim → assoc (s.shrinkToRoi lower upper dim).st.rois d = assoc s.rois d := by
  have hv : ([(dim ++ lit "_low", lower), (dim ++ lit "_high", upper)]).forM (shrinkCheck s) =
      .ok () := by
    cases hx : ([(dim ++ lit "_low", lower), (dim ++ lit "_high", upper)]).forM (shrinkCheck s) with
    | ok u => rfl
    | error e => unfold Spectrum.shrink at h; rw [hx] at h; cases h
  generalize hkw : [(dim ++ lit "_low", lower), (dim ++ lit "_high", upper)] = kw at h hv
  have he := shrink_wf_eq hs hv
  obtain ⟨p, hp, rfl⟩ := hdim
  have hax := hs.axes p hp
  have hpar : ∃ p', p' ∈ (s.shrink kw).st.cfg ∧ p'.name = p.name ∧
      (s.shrink kw).st.getPar p.name = .ok p' := by
    refine ⟨(shrinkAxis p (askedLow kw p) (askedHigh kw p)).1, ?_, rfl, ?_⟩
    · rw [he]; exact List.mem_map.2 ⟨p, hp, rfl⟩
    · unfold Spectrum.getPar
      rw [he]
      have := find_name (cfg := s.cfg.map
        (fun p => (shrinkAxis p (askedLow kw p) (askedHigh kw p)).1)) (by
          rw [List.map_map]; exact hs.names)
        (p := (shrinkAxis p (askedLow kw p) (askedHigh kw p)).1) (List.mem_map.2 ⟨p, hp, rfl⟩)
      have hnm : (shrinkAxis p (askedLow kw p) (askedHigh kw p)).1.name = p.name := rfl
      rw [hnm] at this
      simp only [Outcome.ok, this]
  obtain ⟨p', hp', hn, hg⟩ := hpar
  have hroi : s.shrinkToRoi lower upper p.name = .ok { (s.shrink kw).st with
      rois := (p.name, ⟨p'.low, p'.high, (s.shrink kw).st.sum / s.sum⟩) ::
        (s.shrink kw).st.rois } := by
    unfold Spectrum.shrinkToRoi
    simp only [hkw, h, if_neg h0, hg]
  have hrois : (s.shrink kw).st.rois = s.rois := by rw [he]; rfl
  rw [hroi]
  refine ⟨rfl, rfl, ⟨p', hp', hn, ?_⟩, fun d hd => ?_⟩
  · simp only [Outcome.ok, assoc, List.find?_cons, decide_true, Option.map_some]
    rfl
  · simp only [Outcome.ok, assoc, List.find?_cons, hrois]
    rw [decide_eq_false (Ne.symm hd)]

/-- **C22, range.** For non-negative contents with positive total the recorded efficiency is
between 0 and 1. -/
theorem c22_efficiency_range (s : Spectrum) (hs : s.WF) (lower upper : ℚ) (dim : PyStr)
    (hdim : ∃ p ∈ s.cfg, p.name = dim)
    (h : (s.shrink [(dim ++ lit "_low", lower), (dim ++ lit "_high", upper)]).err = none)
    (hnn : ∀ idx, InB s.data.shape idx → 0 ≤ s.data.get idx) (hpos : 0 < s.sum) :
    ∃ roi, assoc (s.shrinkToRoi lower upper dim).st.rois dim = some roi ∧
      0 ≤ roi.efficiency ∧ roi.efficiency ≤ 1 := by
  obtain ⟨-, h2, ⟨p', -, -, h3⟩, -⟩ := c22_roi s hs lower upper dim hdim h hpos.ne'
  refine ⟨_, h3, ?_⟩
  have hv : ([(dim ++ lit "_low", lower), (dim ++ lit "_high", upper)]).forM (shrinkCheck s) =
      .ok () := by
    cases hx : ([(dim ++ lit "_low", lower), (dim ++ lit "_high", upper)]).forM (shrinkCheck s) with
    | ok u => rfl
    | error e => unfold Spectrum.shrink at h; rw [hx] at h; cases h
  have hle := slice_sum_le s.data hnn (s.cfg.map (fun p => (shrinkAxis p
    (askedLow [(dim ++ lit "_low", lower), (dim ++ lit "_high", upper)] p)
    (askedHigh [(dim ++ lit "_low", lower), (dim ++ lit "_high", upper)] p)).2))
    (by simp [shape_length hs])
  have hsum : (s.shrinkToRoi lower upper dim).st.sum = (s.data.slice (s.cfg.map (fun p => (shrinkAxis p
    (askedLow [(dim ++ lit "_low", lower), (dim ++ lit "_high", upper)] p)
    (askedHigh [(dim ++ lit "_low", lower), (dim ++ lit "_high", upper)] p)).2))).sum := by
    unfold Spectrum.sum
    rw [h2, shrink_wf_eq hs hv]; rfl
  simp only [hsum]
  exact ⟨div_nonneg hle.1 hpos.le, (div_le_one hpos).2 hle.2⟩

example : (∃ p ∈ Ex.spec.cfg, p.name = lit "energy_mc") ∧
    (Ex.spec.shrink [(lit "energy_mc" ++ lit "_low", 1), (lit "energy_mc" ++ lit "_high", 3)]).err = none ∧
    (∀ idx, InB Ex.spec.data.shape idx → 0 ≤ Ex.spec.data.get idx) ∧ 0 < Ex.spec.sum := by
  refine ⟨by simp [Ex.spec, Ex.energy], ?_, ?_, by decide +kernel⟩
  · rw [c20_shrink_accepted_iff _ Ex.spec_wf (by simp [Ex.spec, Ex.energy, Ex.radial])]
    intro e he
    refine ⟨Ex.energy, by simp [Ex.spec], ?_⟩
    simp only [List.mem_cons, List.not_mem_nil, or_false] at he
    rcases he with rfl | rfl
    · left; exact ⟨rfl, .inr (by norm_num [Ex.energy])⟩
    · right; exact ⟨rfl, .inr (by norm_num [Ex.energy])⟩
  · intro idx _
    simp only [Ex.spec]
    split
    · positivity
    · exact le_refl _

end Verif
