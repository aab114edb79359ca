import Verif.Props.Shrink
import Verif.Props.Rebin
import Verif.Props.Fill

/-! # C23: the shape of the data over histories of operations; C71: bounds at the tolerance -/

namespace Verif

open Spectrum

/-- A call of one of the mutating methods of a spectrum. -/
inductive Op
  | fill (weight : ℚ) (kw : List (PyStr × ℚ))
  | add (t : Spectrum)
  | scale (n : ℚ)
  | rebin (ns : List ℕ)
  | shrink (kw : List (PyStr × ℚ))
  | cut (kw : List (PyStr × ℚ))
  | roi (lower upper : ℚ) (dim : PyStr)

/-- State and exception after one call. -/
def call (s : Spectrum) : Op → Outcome
  | .fill w kw => s.fill w kw
  | .add t => s.add t
  | .scale n => s.scale n
  | .rebin ns => s.rebin ns
  | .shrink kw => s.shrink kw
  | .cut kw => s.cut kw
  | .roi l u d => s.shrinkToRoi l u d

/-- State after a history of calls; exceptions are caught by the caller and the state that
they leave behind is used for the next call. -/
def runOps (s : Spectrum) (ops : List Op) : Spectrum := ops.foldl (fun s op => (call s op).st) s

/-- The shape of the stored array is the list of bin counts of the configuration. -/
def ShapeMatches (s : Spectrum) : Prop :=
  s.data.shape.map (fun n : ℕ => (n : ℤ)) = s.cfg.map SPar.bins

/-- The bounds asked for on every axis are in range, and are two different bin edges in
order or more than two bin widths apart. -/
def AsksWide (s : Spectrum) (kw : List (PyStr × ℚ)) : Prop :=
  IsDict kw ∧ BoundKeys s kw ∧
  ∀ p ∈ s.cfg, ∃ kl kh, Asked kw (p.name ++ lit "_low") p.low kl ∧
    Asked kw (p.name ++ lit "_high") p.high kh ∧ p.low ≤ kl ∧ kh ≤ p.high ∧
    ((∃ i j : ℤ, 0 ≤ i ∧ i < j ∧ kl = p.edge i ∧ kh = p.edge j) ∨ kl + 2 * p.width < kh)

/-- Calls for which the invariant holds: rebins that are accepted or have the wrong number of
entries, shrinks that are rejected or ask for wide enough ranges. -/
def Sensible (s : Spectrum) : Op → Prop
  | .rebin ns => (s.rebin ns).err = none ∨ ns.length ≠ s.cfg.length
  | .shrink kw => (s.shrink kw).err ≠ none ∨ AsksWide s kw
  | .cut kw => (s.shrink kw).err ≠ none ∨ AsksWide s kw
  | .roi l u d =>
    (s.shrink [(d ++ lit "_low", l), (d ++ lit "_high", u)]).err ≠ none ∨
      AsksWide s [(d ++ lit "_low", l), (d ++ lit "_high", u)]
  | _ => True

/-- Every call of the history is sensible in the state in which it is made. -/
def SensibleRun (s : Spectrum) : List Op → Prop
  | [] => True
  | op :: ops => Sensible s op ∧ SensibleRun (call s op).st ops

theorem shrink_wide_wf {s : Spectrum} (hs : s.WF) {kw : List (PyStr × ℚ)} (h : AsksWide s kw) :
    (s.shrink kw).st.WF := by
  obtain ⟨hk, hb, hp⟩ := h
  have hp' : ∀ p ∈ s.cfg, p.low ≤ askedLow kw p ∧ askedHigh kw p ≤ p.high ∧
      ∃ p' : SPar, ∃ r : ℕ × ℕ, shrinkAxis p (askedLow kw p) (askedHigh kw p) =
          (p', ((r.1 : ℤ), (r.2 : ℤ))) ∧
        p'.WF ∧ p'.name = p.name ∧ r.1 < r.2 ∧ (r.2 : ℤ) ≤ p.bins ∧
        p'.bins = (r.2 : ℤ) - r.1 := by
    intro p hpm
    obtain ⟨kl, kh, h1, h2, h3, h4, h5⟩ := hp p hpm
    have e1 : askedLow kw p = kl := (asked_iff hk).1 h1
    have e2 : askedHigh kw p = kh := (asked_iff hk).1 h2
    have hwf := hs.axes p hpm
    have hw := hwf.width_pos
    rw [e1, e2]
    refine ⟨h3, h4, ?_⟩
    rcases h5 with ⟨i, j, hi, hij, rfl, rfl⟩ | h5
    · rw [shrinkAxis_edges hwf hi]
      have hj : j ≤ p.bins := by
        by_contra hc
        have : (p.bins : ℚ) < j := by exact_mod_cast not_le.1 hc
        have := mul_lt_mul_of_pos_right this hw
        rw [hwf.high_eq, SPar.edge_eq] at h4
        linarith
      have g1 : ((i.toNat : ℕ) : ℤ) = i := by omega
      have g2 : ((j.toNat : ℕ) : ℤ) = j := by omega
      refine ⟨{ p with low := p.round (p.edge i), high := p.round (p.edge j), bins := j - i },
        (i.toNat, j.toNat), by simp only [g1, g2], ⟨by simp only; omega, round_edges hwf hij⟩, rfl,
        by simp only; omega, by simp only; omega, by simp only; omega⟩
    · exact shrinkAxis_wide hwf h3 h5 h4
  have hv := valid_of_asked hs hk hb fun p h => ⟨(hp' p h).1, (hp' p h).2.1⟩
  rw [shrink_wf_eq hs hv]
  refine ⟨?_, ?_, ?_⟩
  · intro q hq
    simp only [Outcome.ok, List.mem_map] at hq
    obtain ⟨p, hpm, rfl⟩ := hq
    obtain ⟨-, -, p', r, e, hwf, -⟩ := hp' p hpm
    rw [e]; exact hwf
  · simp only [Outcome.ok, List.map_map]
    exact hs.names
  · simp only [Outcome.ok, NdArray.slice, List.map_map]
    have hsh := hs.shape
    revert hp' hsh
    generalize s.cfg = cfg
    generalize s.data.shape = shape
    intro hp' hsh
    clear * - hp' hsh
    induction cfg generalizing shape with
    | nil => cases shape with
      | nil => rfl
      | cons _ _ => simp at hsh
    | cons p cfg ih => cases shape with
      | nil => simp at hsh
      | cons n shape =>
        simp only [List.map_cons, List.cons.injEq] at hsh
        obtain ⟨-, -, p', r, e, -, -, h1, h2, h3⟩ := hp' p (by simp)
        simp only [List.map_cons, List.zipWith_cons_cons, Function.comp, e]
        congr 1
        · rw [sliceBounds_of_le (by omega) (by omega) (by omega), h3]
          simp only [Int.toNat_natCast]; omega
        · exact ih shape (fun q h => hp' q (by simp [h])) hsh.2

theorem call_wf {s : Spectrum} (hs : s.WF) {op : Op} (h : Sensible s op) : (call s op).st.WF := by
  have hshr : ∀ kw, (s.shrink kw).err ≠ none ∨ AsksWide s kw → (s.shrink kw).st.WF := by
    rintro kw (h | h)
    · rw [c20_rejected_shrink_unchanged s hs kw h]; exact hs
    · exact shrink_wide_wf hs h
  cases op with
  | fill w kw => exact fill_wf hs w
  | add t =>
    change (s.add t).st.WF
    unfold Spectrum.add
    split
    · exact hs
    · exact ⟨hs.axes, hs.names, hs.shape⟩
  | scale n =>
    change (s.scale n).st.WF
    unfold Spectrum.scale
    split
    · exact hs
    · exact ⟨hs.axes, hs.names, hs.shape⟩
  | rebin ns =>
    by_cases he : (s.rebin ns).err = none
    · exact rebin_wf hs he
    · rcases h with h | h
      · exact absurd h he
      · have := (c15_rejected_rebin_partial s hs ns he).2.2.2.2.2.1 h
        change (s.rebin ns).st.WF
        rw [this]; exact hs
  | shrink kw => exact hshr kw h
  | cut kw =>
    have := hshr kw h
    change (s.cut kw).st.WF
    unfold Spectrum.cut
    cases he : (s.shrink kw).err with
    | some e => simp only [he]; exact this
    | none =>
      simp only [he]
      split
      · exact this
      · exact ⟨this.axes, this.names, this.shape⟩
  | roi l u d =>
    have := hshr _ h
    change (s.shrinkToRoi l u d).st.WF
    unfold Spectrum.shrinkToRoi
    cases he : (s.shrink [(d ++ lit "_low", l), (d ++ lit "_high", u)]).err with
    | some e => simp only [he]; exact this
    | none =>
      simp only [he]
      split
      · exact this
      · split
        · exact this
        · exact ⟨this.axes, this.names, this.shape⟩

/-- **C23, partial.** Over every finite history of sensible calls, accepted or rejected, the
shape of the stored array equals the bin counts of the configuration, and the axes stay
proper (positive bin counts, lower below upper edge, distinct names). Missing: rebins
refused at a later parameter and shrinks to ranges of at most two bins that are not bin
edges or that are reversed, where the claim is false (see the negations). -/
theorem c23_shape_invariant_partial (s : Spectrum) (hs : s.WF) (ops : List Op)
    (h : SensibleRun s ops) : ShapeMatches (runOps s ops) ∧ (runOps s ops).WF := by
  suffices hw : (runOps s ops).WF from ⟨hw.shape, hw⟩
  induction ops generalizing s with
  | nil => exact hs
  | cons op ops ih => exact ih _ (call_wf hs h.1) h.2

/-- **C23, start.** A new spectrum on proper axes satisfies the invariant. -/
theorem c23_new (name : PyStr) (n : ℚ) (cfg : List SPar) (hax : ∀ p ∈ cfg, p.WF)
    (hn : (cfg.map SPar.name).Nodup) : (Spectrum.new name n cfg).WF := by
  refine ⟨hax, hn, ?_⟩
  simp only [Spectrum.new, NdArray.zeros, List.map_map]
  refine List.map_congr_left fun p hp => ?_
  have := (hax p hp).1
  simp only [Function.comp]; omega

/-- **C23, negation.** One refused rebin breaks the invariant. -/
theorem c23_failed_rebin_negation :
    ¬ ∀ (s : Spectrum) (ops : List Op), s.WF → ShapeMatches (runOps s ops) := by
  intro h
  have := h Ex.spec [.rebin [5, 3]] Ex.spec_wf
  revert this
  unfold ShapeMatches
  decide +kernel

/-- **C23, negation.** An accepted shrink with reversed bounds leaves a negative bin count
behind. -/
theorem c23_reversed_bounds_negation :
    ¬ ∀ (s : Spectrum) (ops : List Op), s.WF →
      (∀ op ∈ ops, ∃ kw, op = .shrink kw ∧ (s.shrink kw).err = none) →
      ShapeMatches (runOps s ops) := by
  intro h
  have := h Ex.spec [.shrink [(lit "energy_mc_low", 4), (lit "energy_mc_high", 1)]] Ex.spec_wf
    (by
      simp only [List.mem_singleton, forall_eq]
      exact ⟨_, rfl, by decide +kernel⟩)
  revert this
  unfold ShapeMatches
  decide +kernel

/-- A history that meets the hypothesis: a fill, a rejected fill, a rebin and a shrink to
bounds that are no bin edges. -/
example : SensibleRun Ex.spec [.fill 3 Ex.point, .fill 1 [], .scale 50, .rebin [10, 4],
    .shrink [(lit "energy_mc_low", 5 / 4), (lit "energy_mc_high", 13 / 3)], .rebin [1]] := by
  refine ⟨trivial, trivial, trivial, .inl (by decide +kernel), .inr ?_, .inr (by decide +kernel),
    trivial⟩
  have hc : (call (call (call (call Ex.spec (.fill 3 Ex.point)).st (.fill 1 [])).st (.scale 50)).st
      (.rebin [10, 4])).st.cfg = [Ex.energy, Ex.radial] := by decide +kernel
  refine ⟨by unfold IsDict; decide, ?_, ?_⟩
  · unfold BoundKeys
    rw [hc]
    simp [Ex.energy, Ex.radial]
  · rw [hc]
    simp only [List.mem_cons, List.not_mem_nil, or_false, forall_eq_or_imp, forall_eq]
    refine ⟨⟨5 / 4, 13 / 3, .inl (by simp [Ex.energy]), .inl (by simp [Ex.energy]),
      by norm_num [Ex.energy], by norm_num [Ex.energy], .inr ?_⟩,
      ⟨0, 6000, .inr (by simp [Ex.radial]), .inr (by simp [Ex.radial]),
      by norm_num [Ex.radial], by norm_num [Ex.radial], .inl ⟨0, 4, ?_⟩⟩⟩
    · norm_num [SPar.width, Ex.energy]
    · norm_num [SPar.edge_eq, SPar.width, Ex.radial]

/-! ### C71 -/

theorem shrinkAxis_low_tol {p : SPar} (hp : p.WF) (ha : p.Aligned) {kl kh : ℚ}
    (h1 : kl ≤ p.low) (h2 : p.low - kl < 1 / 100 * p.width) :
    shrinkAxis p kl kh = shrinkAxis p p.low kh := by
  have hw := hp.width_pos
  have e0 : p.edge 0 = p.low := by rw [SPar.edge_eq]; simp
  have hr : p.round p.low = p.low := by rw [← e0]; exact round_aligned hp ha 0
  have hq : pyInt ((kl - p.low) / p.width) = 0 := by
    unfold pyInt
    split
    · next hc =>
      have : kl - p.low = 0 := by
        by_contra hne
        have hlt : kl - p.low < 0 := lt_of_le_of_ne (by linarith) hne
        exact absurd hc (not_le.2 (div_neg_of_neg_of_pos hlt hw))
      simp [this]
    · next hc =>
      rw [Int.ceil_eq_iff]
      constructor
      · rw [lt_div_iff₀ hw]; push_cast; linarith
      · exact (not_le.1 hc).le
  have hq0 : pyInt (0 / p.width) = 0 := by simp [pyInt]
  unfold shrinkAxis
  simp only [hq, hq0, Int.cast_zero, zero_mul, add_zero, hr, sub_self, abs_zero]
  rw [if_neg (show ¬ 99 / 100 * p.width < |p.low - kl| by
        rw [abs_of_nonneg (by linarith)]; linarith),
      if_neg (show ¬ 99 / 100 * p.width < 0 by linarith)]

theorem shrinkAxis_high_tol {p : SPar} (hp : p.WF) (ha : p.Aligned) {kl kh : ℚ}
    (h1 : p.high ≤ kh) (h2 : kh - p.high < 1 / 100 * p.width) :
    shrinkAxis p kl kh = shrinkAxis p kl p.high := by
  have hw := hp.width_pos
  rcases h1.lt_or_eq with h1 | h1
  · have hh := hp.high_eq
    have hb1 : ⌈(kh - p.low) / p.width⌉ = p.bins + 1 := by
      rw [Int.ceil_eq_iff]
      constructor
      · rw [lt_div_iff₀ hw]; push_cast; linarith
      · rw [div_le_iff₀ hw]; push_cast; linarith
    have hb0 : ⌈(p.high - p.low) / p.width⌉ = p.bins := by
      rw [Int.ceil_eq_iff]
      constructor
      · rw [lt_div_iff₀ hw]; linarith
      · rw [div_le_iff₀ hw]; linarith
    have e1 : p.low + ((p.bins + 1 : ℤ) : ℚ) * p.width = p.edge (p.bins + 1) := rfl
    have e2 : p.low + ((p.bins : ℤ) : ℚ) * p.width = p.edge p.bins := rfl
    have eb : p.edge p.bins = p.high := by rw [SPar.edge_eq, ← hh]
    have eb1 : p.edge (p.bins + 1) = p.high + p.width := by
      rw [SPar.edge_eq, hh]; push_cast; ring
    have rh : p.round p.high = p.high := by rw [← eb]; exact round_aligned hp ha _
    have rh1 : p.round (p.high + p.width) = p.high + p.width := by
      rw [← eb1]; exact round_aligned hp ha _
    unfold shrinkAxis
    simp only [hb1, hb0, e1, e2, eb, eb1, rh, rh1, sub_self, abs_zero]
    have e3 : p.low + ((p.bins + 1 - 1 : ℤ) : ℚ) * p.width = p.edge p.bins := by
      rw [add_sub_cancel_right]; rfl
    rw [if_pos (show 99 / 100 * p.width < |p.high + p.width - kh| by
          rw [abs_of_pos (by linarith)]; linarith),
        if_pos (show 0 < p.high + p.width - kh by linarith),
        if_neg (show ¬ 99 / 100 * p.width < 0 by linarith), e3, eb, rh]
    simp
  · rw [h1]

/-- **C71, partial.** On axes whose lower edge is a multiple of the bin width: accepted bounds
that lie outside the range, by less than one hundredth of a bin, act like the edge of the
range. Missing: bounds further outside, which the tolerance accepts for fine binnings, see
the negation. -/
theorem c71_tolerance_partial (s : Spectrum) (hs : s.WF) (ha : ∀ p ∈ s.cfg, p.Aligned)
    (kw kw' : List (PyStr × ℚ)) (hk : IsDict kw) (hk' : IsDict kw')
    (he : (s.shrink kw).err = none) (he' : (s.shrink kw').err = none)
    (h : ∀ p ∈ s.cfg, ∃ kl kh, Asked kw (p.name ++ lit "_low") p.low kl ∧
      Asked kw (p.name ++ lit "_high") p.high kh ∧
      p.low - kl < 1 / 100 * p.width ∧ kh - p.high < 1 / 100 * p.width ∧
      Asked kw' (p.name ++ lit "_low") p.low (max kl p.low) ∧
      Asked kw' (p.name ++ lit "_high") p.high (min kh p.high)) :
    s.shrink kw = s.shrink kw' := by
  have hval : ∀ k, (s.shrink k).err = none → k.forM (shrinkCheck s) = .ok () := by
    intro k hk
    cases hx : k.forM (shrinkCheck s) with
    | ok u => rfl
    | error e => unfold Spectrum.shrink at hk; rw [hx] at hk; cases hk
  rw [shrink_wf_eq hs (hval _ he), shrink_wf_eq hs (hval _ he')]
  have key : ∀ p ∈ s.cfg, shrinkAxis p (askedLow kw p) (askedHigh kw p) =
      shrinkAxis p (askedLow kw' p) (askedHigh kw' p) := by
    intro p hp
    obtain ⟨kl, kh, h1, h2, h3, h4, h5, h6⟩ := h p hp
    have e1 : askedLow kw p = kl := (asked_iff hk).1 h1
    have e2 : askedHigh kw p = kh := (asked_iff hk).1 h2
    have e3 : askedLow kw' p = max kl p.low := (asked_iff hk').1 h5
    have e4 : askedHigh kw' p = min kh p.high := (asked_iff hk').1 h6
    rw [e1, e2, e3, e4]
    have s1 : shrinkAxis p kl kh = shrinkAxis p (max kl p.low) kh := by
      rcases le_total p.low kl with hc | hc
      · rw [max_eq_left hc]
      · rw [max_eq_right hc]; exact shrinkAxis_low_tol (hs.axes p hp) (ha p hp) hc h3
    have s2 : ∀ x, shrinkAxis p x kh = shrinkAxis p x (min kh p.high) := by
      intro x
      rcases le_total kh p.high with hc | hc
      · rw [min_eq_left hc]
      · rw [min_eq_right hc]; exact shrinkAxis_high_tol (hs.axes p hp) (ha p hp) hc h4
    rw [s1, s2]
  congr 2
  · exact List.map_congr_left fun p hp => by rw [key p hp]
  · congr 1
    exact List.map_congr_left fun p hp => by rw [key p hp]

example : ∃ kl : ℚ, kl < Ex.energy.low ∧ (Ex.spec.shrink [(lit "energy_mc_low", kl)]).err = none ∧
    Ex.energy.low - kl < 1 / 100 * Ex.energy.width := by
  refine ⟨-1 / 10 ^ 9, by norm_num [Ex.energy], by decide +kernel, ?_⟩
  norm_num [SPar.width, Ex.energy]

/-- radial axis in mm with bins of one mm -/
def fineRadial : SPar := ⟨lit "radial_mc", 0, 6000, 6000⟩

/-- an empty spectrum on it -/
def fineSpec : Spectrum := Spectrum.new (lit "fine") 1 [fineRadial]

/-- **C71, negation.** With bins of width one on 0..6000 the bound 6000.05 is accepted, and
the configuration then has one bin more than the data. -/
theorem c71_tolerance_negation :
    ¬ ∀ (s : Spectrum) (kw : List (PyStr × ℚ)), s.WF → IsDict kw → (s.shrink kw).err = none →
      (∀ p ∈ s.cfg, p.Aligned) →
      (∀ p ∈ s.cfg, ∃ kl kh, Asked kw (p.name ++ lit "_low") p.low kl ∧
        Asked kw (p.name ++ lit "_high") p.high kh ∧ kl < kh) →
      ShapeMatches (s.shrink kw).st := by
  intro h
  have hwf : fineSpec.WF := c23_new _ _ _ (by
    simp only [List.mem_singleton, forall_eq]
    constructor <;> norm_num [fineRadial]) (by simp)
  have hv : ([(lit "radial_mc_high", (120001 / 20 : ℚ))]).forM (shrinkCheck fineSpec) = .ok () := by
    decide +kernel
  have he := shrink_wf_eq hwf hv
  have hax : shrinkAxis fineRadial (askedLow [(lit "radial_mc_high", 120001 / 20)] fineRadial)
      (askedHigh [(lit "radial_mc_high", 120001 / 20)] fineRadial) =
      (⟨lit "radial_mc", 0, 6001, 6001⟩, (0, 6001)) := by decide +kernel
  have h1 := h fineSpec [(lit "radial_mc_high", 120001 / 20)] hwf (by simp [IsDict])
    (by rw [he]; rfl) (by
      simp only [fineSpec, Spectrum.new, List.mem_singleton, forall_eq]
      exact ⟨0, by simp [fineRadial]⟩) (by
      simp only [fineSpec, Spectrum.new, List.mem_singleton, forall_eq]
      exact ⟨0, 120001 / 20, .inr (by simp [fineRadial]), .inl (by simp [fineRadial]), by norm_num⟩)
  unfold ShapeMatches at h1
  rw [he] at h1
  simp only [Outcome.ok, fineSpec, Spectrum.new, NdArray.zeros, List.map_cons, List.map_nil, hax,
    NdArray.slice, List.zipWith_cons_cons, List.zipWith_nil_left] at h1
  revert h1
  decide +kernel

end Verif
