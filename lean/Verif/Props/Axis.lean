import Verif.Lemmas.Fill
import Verif.Spec.Examples

/-! # C24–C26: bins, centres and boundaries of an axis -/

namespace Verif

theorem getBin_of_range {p : SPar} (hp : p.WF) {x : ℚ} (h1 : p.low ≤ x) (h2 : x ≤ p.high) :
    p.getBin x = .ok ⌊(x - p.low) / p.width⌋ := by
  unfold SPar.getBin
  rw [if_neg (not_lt.2 h1), if_neg (not_lt.2 h2), if_neg, pyInt_of_nonneg]
  · exact div_nonneg (by linarith) hp.width_pos.le
  · rintro (h | h)
    · have := hp.1; omega
    · exact hp.width_pos.ne' h

theorem centre_inCell {p : SPar} (hp : p.WF) {i : ℕ} (hi : (i : ℤ) < p.bins) :
    InCell p ((p.edge i + p.edge (i + 1)) / 2) i := by
  have hw := hp.width_pos
  refine ⟨hi, ?_, ?_⟩ <;> simp only [SPar.edge_eq] <;> push_cast <;> linarith

/-- **C24.** Every valid bin has a centre, midway between its edges, and the bin of the
centre is the bin; every value in `[low, high)` has a valid bin that contains it; other bins
and values outside `[low, high]` raise `ValueError`. -/
theorem c24_bin_centre_inverse (p : SPar) (hp : p.WF) :
    (∀ i : ℤ, 0 ≤ i → i < p.bins → ∃ c, p.getBinCentre i = .ok c ∧
      c = (p.edge i + p.edge (i + 1)) / 2 ∧ p.getBin c = .ok i) ∧
    (∀ x, p.low ≤ x → x < p.high → ∃ i : ℕ, p.getBin x = .ok i ∧ InCell p x i) ∧
    (∀ i : ℤ, i < 0 ∨ p.bins ≤ i → p.getBinCentre i = .error .valueError) ∧
    (∀ x, x < p.low ∨ p.high < x → p.getBin x = .error .valueError) := by
  refine ⟨?_, ?_, ?_, ?_⟩
  · intro i h0 h1
    lift i to ℕ using h0
    have hc : p.getBinCentre i = .ok ((p.edge i + p.edge (i + 1)) / 2) := by
      unfold SPar.getBinCentre
      rw [if_neg (by omega), if_neg (by omega)]
      congr 1
      simp only [SPar.edge_eq]; push_cast; ring
    refine ⟨_, hc, rfl, ?_⟩
    have hcell := centre_inCell hp h1
    obtain ⟨r1, r2⟩ := inCell_range hp hcell
    obtain ⟨f1, f2⟩ := floor_inCell hp r1 r2
    rw [getBin_of_range hp r1 r2.le]
    have := inCell_unique hp f2 hcell
    congr 1; omega
  · intro x h1 h2
    obtain ⟨f1, f2⟩ := floor_inCell hp h1 h2
    refine ⟨_, ?_, f2⟩
    rw [getBin_of_range hp h1 h2.le, Int.toNat_of_nonneg f1]
  · rintro i (h | h)
    · unfold SPar.getBinCentre; rw [if_pos h]
    · unfold SPar.getBinCentre
      have := hp.1
      rw [if_neg (by omega), if_pos (by omega)]
  · rintro x (h | h)
    · unfold SPar.getBin; rw [if_pos h]
    · unfold SPar.getBin
      rw [if_neg (not_lt.2 (hp.2.le.trans h.le)), if_pos h]

example : Ex.energy.WF ∧ Ex.odd.WF := ⟨Ex.energy_wf, Ex.odd_wf⟩

/-- **C25, every axis.** The upper edge of any axis gets the bin number `bins`, which does not
exist. -/
theorem c25_upper_edge (p : SPar) (hp : p.WF) : p.getBin p.high = .ok p.bins := by
  rw [getBin_of_range hp hp.2.le le_rfl]
  have : (p.high - p.low) / p.width = p.bins := by
    rw [div_eq_iff hp.width_pos.ne', hp.bins_mul_width]
  rw [this, Int.floor_intCast]

/-- **C25, negation.** -/
theorem c25_upper_edge_negation :
    ¬ ∀ (p : SPar) (x : ℚ) (i : ℤ), p.WF → p.getBin x = .ok i → i < p.bins := by
  intro h
  have := h Ex.energy _ _ Ex.energy_wf (c25_upper_edge _ Ex.energy_wf)
  omega

/-- **C25, partial.** For every value other than the upper edge, the bin is a valid index or
the call raises. Missing: the upper edge itself, for which the claim is false. -/
theorem c25_bin_valid_partial (p : SPar) (hp : p.WF) (x : ℚ) (hx : x ≠ p.high) (i : ℤ)
    (h : p.getBin x = .ok i) : 0 ≤ i ∧ i < p.bins := by
  obtain ⟨-, c2, -, c4⟩ := c24_bin_centre_inverse p hp
  by_cases h1 : p.low ≤ x
  · rcases lt_or_gt_of_ne hx with h2 | h2
    · obtain ⟨j, hj, hc⟩ := c2 x h1 h2
      rw [h] at hj; cases hj
      exact ⟨by omega, hc.1⟩
    · rw [c4 x (.inr h2)] at h; cases h
  · rw [c4 x (.inl (not_le.1 h1))] at h; cases h

example : Ex.energy.getBin 3 = .ok 6 := by
  rw [getBin_of_range Ex.energy_wf (by norm_num [Ex.energy]) (by norm_num [Ex.energy])]
  norm_num [Ex.energy, SPar.width]

theorem binCentres_eq {p : SPar} (hp : p.WF) :
    p.binCentres = (List.range p.bins.toNat).map (fun i : ℕ => p.edge i + p.width / 2) := by
  unfold SPar.binCentres
  have hw := hp.width_pos
  have : ⌈(p.high - (p.low + p.width * (1 / 2))) / p.width⌉ = p.bins := by
    have h1 : (p.high - (p.low + p.width * (1 / 2))) / p.width = p.bins - 1 / 2 := by
      rw [div_eq_iff hw.ne']
      have := hp.bins_mul_width
      linarith
    rw [h1, Int.ceil_eq_iff]
    constructor <;> linarith
  rw [this]
  refine List.map_congr_left fun i _ => ?_
  simp only [SPar.edge_eq]; push_cast; ring

/-- **C26.** There are `bins + 1` boundaries, from `low` to `high`, one width apart, and `bins`
centres, each midway between two boundaries. -/
theorem c26_boundaries_centres (p : SPar) (hp : p.WF) :
    p.binBoundaries.length = p.bins.toNat + 1 ∧ p.binCentres.length = p.bins.toNat ∧
    p.binBoundaries[0]? = some p.low ∧ p.binBoundaries[p.bins.toNat]? = some p.high ∧
    ∀ i : ℕ, i < p.bins.toNat → ∃ a b c, p.binBoundaries[i]? = some a ∧
      p.binBoundaries[i + 1]? = some b ∧ p.binCentres[i]? = some c ∧
      b = a + p.width ∧ c = (a + b) / 2 ∧ p.getBinCentre i = .ok c := by
  have h0 := hp.1
  have hlen : (p.bins + 1).toNat = p.bins.toNat + 1 := by omega
  have hb : ∀ i, i ≤ p.bins.toNat → p.binBoundaries[i]? = some (p.edge i) := by
    intro i hi
    unfold SPar.binBoundaries
    rw [hlen, List.getElem?_map, List.getElem?_range (by omega)]
    simp [SPar.edge]
  refine ⟨?_, ?_, ?_, ?_, ?_⟩
  · simp [SPar.binBoundaries, hlen]
  · simp [binCentres_eq hp]
  · rw [hb 0 (by omega)]; simp [SPar.edge]
  · rw [hb _ le_rfl]
    have : ((p.bins.toNat : ℤ)) = p.bins := by omega
    rw [SPar.edge_eq, this, ← hp.high_eq]
  · intro i hi
    refine ⟨p.edge i, p.edge (i + 1), p.edge i + p.width / 2, hb i (by omega), ?_, ?_, ?_, ?_, ?_⟩
    · have := hb (i + 1) (by omega); simpa using this
    · rw [binCentres_eq hp, List.getElem?_map, List.getElem?_range hi]; rfl
    · simp only [SPar.edge_eq]; push_cast; ring
    · simp only [SPar.edge_eq]; push_cast; ring
    · obtain ⟨c, hc, hc', -⟩ := (c24_bin_centre_inverse p hp).1 i (by omega) (by omega)
      rw [hc, hc']; congr 1; simp only [SPar.edge_eq]; push_cast; ring

theorem cellOf_centres {kw : List (PyStr × ℚ)} {cfg : List SPar} {idx : List ℕ}
    (hw : ∀ p ∈ cfg, p.WF) (hb : List.Forall₂ (fun p (i : ℕ) => (i : ℤ) < p.bins) cfg idx)
    (hsub : ∀ e ∈ List.zipWith (fun (p : SPar) (i : ℕ) =>
      (p.name, (p.edge i + p.edge (i + 1)) / 2)) cfg idx, e ∈ kw) :
    List.Forall₂ (fun p i => ∃ x, (p.name, x) ∈ kw ∧ InCell p x i) cfg idx := by
  induction hb with
  | nil => exact .nil
  | cons h1 _ ih =>
    refine .cons ⟨_, hsub _ (by simp), centre_inCell (hw _ (by simp)) h1⟩
      (ih (fun p hp => hw p (by simp [hp])) fun e he => hsub e (by simp [he]))

/-- **C26, filling.** Filling at the centres of any cell of any spectrum succeeds and adds the
weight to that cell. -/
theorem c26_fill_at_centre (s : Spectrum) (hs : s.WF) (idx : List ℕ) (hi : InB s.data.shape idx)
    (w : ℚ) :
    let kw := List.zipWith (fun (p : SPar) (i : ℕ) =>
      (p.name, (p.edge i + p.edge (i + 1)) / 2)) s.cfg idx
    (s.fill w kw).err = none ∧ (s.fill w kw).st.data.get idx = s.data.get idx + w := by
  intro kw
  have hb := bins_of_inB hs.shape hi
  have hcell : CellOf s kw idx := cellOf_centres hs.axes hb (fun e he => he)
  have hnames : kw.map Prod.fst = s.cfg.map SPar.name := by
    have := hb.length_eq
    simp only [kw, List.map_zipWith]
    revert this
    generalize s.cfg = cfg
    intro this
    clear * - this
    induction cfg generalizing idx with
    | nil => simp
    | cons p cfg ih => cases idx with
      | nil => simp at this
      | cons i idx => simp [ih idx (by simpa using this)]
  have hk : IsDict kw := by unfold IsDict; rw [hnames]; exact hs.names
  have hr : InRange s kw := inRange_of_cellOf hs hcell (by
    intro e he
    have : e.1 ∈ s.cfg.map SPar.name := by rw [← hnames]; exact List.mem_map.2 ⟨e, he, rfl⟩
    obtain ⟨p, hp, hpe⟩ := List.mem_map.1 this
    exact ⟨p, hp, hpe⟩)
  obtain ⟨j, hj, hf⟩ := fill_of_inRange hs hk hr w
  have : j = idx := cellOf_unique hs hk hj hcell
  subst this
  rw [hf]
  exact ⟨rfl, by simp [Outcome.ok, NdArray.addAt]⟩

example : Ex.spec.WF ∧ InB Ex.spec.data.shape [9, 3] := ⟨Ex.spec_wf, by decide⟩

end Verif
