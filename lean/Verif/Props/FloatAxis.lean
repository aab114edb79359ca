import Verif.Lemmas.FloatAxis
import Verif.Props.FloatFill
import Verif.Props.FloatShrink

/-!
# C128: the bins of an axis with floats

`κ` bounds the relative error of the floats times the number of bin widths from zero to the far end
of the axis.
-/

namespace Verif

/-- **C128, centres.** The centre computed for a bin is right up to `8 κ` bin widths, and looking it
up gives that bin. -/
theorem c128_centre (R : Rounding) (p : SPar) (hp : p.WF) (κ : ℚ) (hκ1 : κ ≤ 1 / 1000)
    (hκ : (|p.low| / ((p.high - p.low) / p.bins) + p.bins) * R.u ≤ κ) (i : ℤ) (h0 : 0 ≤ i)
    (h1 : i < p.bins) : ∃ x, R.getBinCentre p i = .ok x ∧
      |x - (p.low + ((i : ℚ) + 1 / 2) * ((p.high - p.low) / p.bins))| ≤
        8 * κ * ((p.high - p.low) / p.bins) ∧ R.getBin p x = .ok i := by
  have hc := R.centre_near hp hκ hκ1 h0 h1
  refine ⟨_, ?_, hc, ?_⟩
  · unfold Rounding.getBinCentre
    rw [if_neg (by omega), if_neg (by omega)]
  · refine R.getBin_near hp hκ hκ1 h0 h1 (hc.trans ?_)
    have hw := hp.width_pos
    gcongr
    linarith

/-- **C128, any point.** A point that is not within a tenth of a bin width of an edge is looked up
in the bin that contains it. -/
theorem c128_get_bin (R : Rounding) (p : SPar) (hp : p.WF) (κ : ℚ) (hκ1 : κ ≤ 1 / 1000)
    (hκ : (|p.low| / ((p.high - p.low) / p.bins) + p.bins) * R.u ≤ κ) (i : ℕ) (h1 : (i : ℤ) < p.bins)
    (x : ℚ) (hx1 : p.edge i + 1 / 10 * ((p.high - p.low) / p.bins) ≤ x)
    (hx2 : x ≤ p.edge (i + 1) - 1 / 10 * ((p.high - p.low) / p.bins)) : R.getBin p x = .ok i := by
  refine R.getBin_near hp hκ hκ1 (by omega) h1 ?_
  unfold SPar.edge at hx1 hx2
  unfold SPar.width
  push_cast at hx1 hx2 ⊢
  rw [abs_le]
  constructor <;> linarith

/-- **C128, list of centres.** `numpy.arange` gives exactly as many centres as there are bins, for all
axes with `bins · κ ≤ 1/1000`. They are right up to `16 bins · κ` widths (the steps add up), so each
is looked up in its own bin. -/
theorem c128_centres (R : Rounding) (p : SPar) (hp : p.WF) (κ : ℚ) (hκ1 : p.bins * κ ≤ 1 / 1000)
    (hκ : (|p.low| / ((p.high - p.low) / p.bins) + p.bins) * R.u ≤ κ) :
    ((R.binCentres p).length : ℤ) = p.bins ∧
    ∀ (i : ℕ) (x : ℚ), (R.binCentres p)[i]? = some x →
      |x - (p.low + ((i : ℚ) + 1 / 2) * ((p.high - p.low) / p.bins))| ≤
        16 * (p.bins * κ) * ((p.high - p.low) / p.bins) ∧ R.getBin p x = .ok i := by
  obtain ⟨h1, h2⟩ := R.centres_near hp hκ hκ1
  have hb := hp.1
  have hbq : (1 : ℚ) ≤ p.bins := by exact_mod_cast hb
  refine ⟨by omega, fun i x hx => ⟨h2 i x hx, ?_⟩⟩
  obtain ⟨hlt, -⟩ := List.getElem?_eq_some_iff.1 hx
  have hw := hp.width_pos
  have hκ0 : 0 ≤ κ := by
    have hu0 := R.u_nonneg
    refine le_trans ?_ hκ
    have : 0 ≤ |p.low| / p.width := by positivity
    exact mul_nonneg (by change 0 ≤ |p.low| / p.width + p.bins; linarith) hu0
  refine R.getBin_near hp hκ (by nlinarith) (i := (i : ℤ)) (by omega) (by omega) ?_
  have := h2 i x hx
  rw [Int.cast_natCast]
  refine this.trans ?_
  gcongr
  linarith

/-- **C128, boundaries.** There is one boundary more than there are bins. They increase strictly, end
exactly at the upper end, and are right up to `7 κ` bin widths. -/
theorem c128_boundaries (R : Rounding) (p : SPar) (hp : p.WF) (κ : ℚ) (hκ1 : κ ≤ 1 / 1000)
    (hκ : (|p.low| / ((p.high - p.low) / p.bins) + p.bins) * R.u ≤ κ) :
    ((R.binBoundaries p).length : ℤ) = p.bins + 1 ∧
    (R.binBoundaries p).Pairwise (· < ·) ∧ (R.binBoundaries p).getLast? = some p.high ∧
    ∀ (i : ℕ) (x : ℚ), (R.binBoundaries p)[i]? = some x →
      |x - p.edge i| ≤ 7 * κ * ((p.high - p.low) / p.bins) := by
  have hb := hp.1
  have hw := hp.width_pos
  have hκ0 : 0 ≤ κ := by
    have hu0 := R.u_nonneg
    have hbq : (1 : ℚ) ≤ p.bins := by exact_mod_cast hb
    refine le_trans ?_ hκ
    have : 0 ≤ |p.low| / p.width := by positivity
    exact mul_nonneg (by change 0 ≤ |p.low| / p.width + p.bins; linarith) hu0
  set f : ℕ → ℚ := fun i => if (i : ℤ) = p.bins then p.high
    else R.add (R.mul i (R.div (R.sub p.high p.low) p.bins)) p.low with hf
  have hform : R.binBoundaries p = (List.range (p.bins + 1).toNat).map f := rfl
  have hnear : ∀ i : ℕ, (i : ℤ) ≤ p.bins → |f i - p.edge i| ≤ 7 * κ * p.width := by
    intro i hi
    by_cases hl : (i : ℤ) = p.bins
    · have : f i = p.edge i := by
        rw [hf]
        dsimp only
        rw [if_pos hl, hl, SPar.edge_eq, hp.high_eq]
      rw [this, sub_self, abs_zero]
      positivity
    · have : f i = R.add (R.mul i (R.width p)) p.low := by
        rw [hf]
        dsimp only
        rw [if_neg hl]
        rfl
      rw [this]
      exact R.boundary_near hp hκ hκ1 hi
  rw [hform]
  refine ⟨by simp; omega, ?_, ?_, ?_⟩
  · rw [List.pairwise_map]
    refine List.Pairwise.imp_of_mem ?_ List.pairwise_lt_range
    intro a b ha hb' hab
    rw [List.mem_range] at ha hb'
    have h1 := abs_le.1 (hnear a (by omega))
    have h2 := abs_le.1 (hnear b (by omega))
    have h3 : p.edge a + p.width ≤ p.edge b := by
      rw [SPar.edge_eq, SPar.edge_eq]
      have : ((a : ℤ) : ℚ) + 1 ≤ ((b : ℤ) : ℚ) := by
        push_cast
        exact_mod_cast hab
      nlinarith
    have h4 : 7 * κ * p.width ≤ 7 * (1 / 1000) * p.width := by gcongr
    linarith [h1.2, h2.1]
  · have : (p.bins + 1).toNat = p.bins.toNat + 1 := by omega
    rw [this, List.range_succ, List.map_append]
    have hl : ((p.bins.toNat : ℕ) : ℤ) = p.bins := by omega
    simp only [List.map_cons, List.map_nil, List.getLast?_append, List.getLast?_singleton]
    rw [hf]
    dsimp only
    rw [if_pos hl]
    rfl
  · intro i x hx
    rw [List.getElem?_map, Option.map_eq_some_iff] at hx
    obtain ⟨i', hi', hx⟩ := hx
    obtain ⟨hlt, rfl⟩ := List.getElem?_eq_some_iff.1 hi'
    rw [List.getElem_range] at hx
    rw [List.length_range] at hlt
    subst hx
    exact hnear i (by omega)

/-- **C128, filling at centres.** Filling at the computed centres of the bins `idx` changes exactly
the cell `idx`. -/
theorem c128_fill_centre (R : Rounding) (s : Spectrum) (hs : s.WF)
    (hbig : ∀ p ∈ s.cfg, p.bins.toNat ≤ R.big)
    (hκ : ∀ p ∈ s.cfg, (|p.low| / ((p.high - p.low) / p.bins) + p.bins) * R.u ≤ 1 / 1000)
    (hu : R.u ≤ 1 / 16) (kw : List (PyStr × ℚ)) (hk : IsDict kw)
    (hn : ∀ e ∈ kw, ∃ p ∈ s.cfg, p.name = e.1) (idx : List ℕ) (hi : InB s.data.shape idx)
    (hx : List.Forall₂ (fun p (i : ℕ) => ∃ x, R.getBinCentre p i = .ok x ∧ (p.name, x) ∈ kw) s.cfg idx)
    (w : ℚ) :
    (R.fill s w kw).err = none ∧ (R.fill s w kw).st.data.get idx = R.rnd (s.data.get idx + w) ∧
    ∀ j, j ≠ idx → (R.fill s w kw).st.data.get j = s.data.get j := by
  -- the centres lie well inside their bins
  have hin : ∀ p ∈ s.cfg, ∀ (i : ℕ) (x : ℚ), R.getBinCentre p i = .ok x →
      (i : ℤ) < p.bins ∧ p.low ≤ x ∧ x < p.high ∧
        |x - (p.low + ((i : ℚ) + 1 / 2) * p.width)| ≤ 8 * (1 / 1000) * p.width := by
    intro p hp i x hx
    have hpw := hs.axes p hp
    have hw := hpw.width_pos
    have hlt : (i : ℤ) < p.bins := by
      by_contra hge
      unfold Rounding.getBinCentre at hx
      rw [if_neg (by omega), if_pos (by omega)] at hx
      cases hx
    obtain ⟨y, hy, hy2, -⟩ := c128_centre R p hpw (1 / 1000) le_rfl (hκ p hp) i (by omega) hlt
    rw [hx] at hy
    cases hy
    rw [Int.cast_natCast] at hy2
    have hy3 : |x - (p.low + ((i : ℚ) + 1 / 2) * p.width)| ≤ 8 * (1 / 1000) * p.width := hy2
    have hb := abs_le.1 hy3
    have hiq : (0 : ℚ) ≤ i := by positivity
    have hiq' : (i : ℚ) + 1 ≤ p.bins := by exact_mod_cast hlt
    refine ⟨hlt, by nlinarith, ?_, hy3⟩
    rw [hpw.high_eq]
    nlinarith
  have hr : InRange s kw := by
    refine ⟨hn, fun p hp => ?_⟩
    obtain ⟨i, -, x, hx1, hx2⟩ := forall₂_mem_left hx hp
    obtain ⟨-, h1, h2, -⟩ := hin p hp i x hx1
    exact ⟨x, hx2, h1, h2⟩
  obtain ⟨idx', h1, h2⟩ := R.fill_of_inRange hs hk hr hu hbig w
  have heq : idx' = idx := by
    have hax := hs.axes
    clear * - h1 hx hin hk hax hu hbig hκ
    generalize s.cfg = cfg at *
    induction hx generalizing idx' with
    | nil => cases h1; rfl
    | @cons p i cfg idx a _ ih =>
      cases h1 with
      | @cons _ i' _ idx' b1 b2 =>
        rw [ih idx' (fun q hq => hbig q (by simp [hq])) (fun q hq => hκ q (by simp [hq]))
          (fun q hq => hin q (by simp [hq])) b2 (fun q hq => hax q (by simp [hq]))]
        congr 1
        obtain ⟨x, hx, hxk⟩ := a
        obtain ⟨y, hyk, hy1, hy2, hy3⟩ := b1
        have e1 := (assoc_eq_some_iff hk).2 hxk
        rw [(assoc_eq_some_iff hk).2 hyk] at e1
        cases e1
        obtain ⟨hlt, -, -, hx4⟩ := hin p (by simp) i x hx
        have hp := hax p (by simp)
        obtain ⟨-, -, hn⟩ := R.fillBin_spec hp hu (hbig p (by simp))
        obtain ⟨n1, n2⟩ := hn x hy1 hy2
        rw [hy3] at n1 n2
        have hw := hp.width_pos
        have hκ' : (|p.low| / p.width + p.bins) * R.u ≤ 1 / 1000 := hκ p (by simp)
        obtain ⟨-, -, -, h4, -⟩ := R.axis_bounds hp hκ' le_rfl
        have hD : p.high - p.low = p.bins * p.width := by
          rw [hp.high_eq]
          ring
        rw [hD] at n1 n2
        have h5 : 5 * R.u * (p.bins * p.width) ≤ 5 * (1 / 1000) * p.width := by
          have : 5 * R.u * (p.bins * p.width) = 5 * (p.bins * R.u) * p.width := by ring
          rw [this]
          gcongr
        rw [SPar.edge_eq] at n1 n2
        push_cast at n1 n2
        have hb := abs_le.1 hx4
        have c1 : (i' : ℚ) < i + 1 := by
          by_contra hge
          rw [not_lt] at hge
          have := mul_le_mul_of_nonneg_right hge hw.le
          linarith [hb.2]
        have c2 : (i : ℚ) < i' + 1 := by
          by_contra hge
          rw [not_lt] at hge
          have := mul_le_mul_of_nonneg_right hge hw.le
          linarith [hb.1]
        have d1 : i' < i + 1 := by exact_mod_cast c1
        have d2 : i < i' + 1 := by exact_mod_cast c2
        omega
  subst heq
  rw [h2, if_pos hi]
  exact ⟨rfl, if_pos rfl, fun j hj => if_neg hj⟩

/-- A thousand bins of a hundredth meet the hypotheses with python's floats. -/
example : Ex.fine.WF ∧ (Ex.fine.bins : ℚ) * (1 / 10 ^ 6) ≤ 1 / 1000 ∧ (1 / 10 ^ 6 : ℚ) ≤ 1 / 1000 ∧
    (|Ex.fine.low| / ((Ex.fine.high - Ex.fine.low) / Ex.fine.bins) + Ex.fine.bins) *
      (binary 53 (by norm_num)).u ≤ 1 / 10 ^ 6 ∧ Ex.fine.bins.toNat ≤ (binary 53 (by norm_num)).big := by
  refine ⟨⟨by norm_num [Ex.fine], by norm_num [Ex.fine]⟩, by norm_num [Ex.fine], by norm_num, ?_, ?_⟩
  · norm_num [Ex.fine, binary]
  · norm_num [Ex.fine, binary]

end Verif
