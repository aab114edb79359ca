import Verif.Lemmas.FloatSmear

/-! # Lemmas on weighted smearing with floats: contents -/

namespace Verif

open Finset

/-- Two numbers that agree up to a relative error. -/
structure NearF (θ x y : ℚ) : Prop where
  left : 0 ≤ x
  right : 0 ≤ y
  lower : (1 - θ) * y ≤ x
  upper : (1 - θ) * x ≤ y

namespace NearF

theorem refl {θ x : ℚ} (hθ : 0 ≤ θ) (hx : 0 ≤ x) : NearF θ x x :=
  ⟨hx, hx, by nlinarith, by nlinarith⟩

theorem mono {θ θ' x y : ℚ} (h : NearF θ x y) (hθ : θ ≤ θ') : NearF θ' x y := by
  have h1 := mul_le_mul_of_nonneg_right hθ h.left
  have h2 := mul_le_mul_of_nonneg_right hθ h.right
  exact ⟨h.left, h.right, by linarith [h.lower], by linarith [h.upper]⟩

theorem trans {θ θ' x y z : ℚ} (h : NearF θ x y) (h' : NearF θ' y z) (hθ : 0 ≤ θ) (hθ' : 0 ≤ θ') :
    NearF (θ + θ') x z := by
  obtain ⟨x0, y0, a1, a2⟩ := h
  obtain ⟨-, z0, b1, b2⟩ := h'
  by_cases hs : 1 - (θ + θ') ≤ 0
  · exact ⟨x0, z0, (mul_nonpos_of_nonpos_of_nonneg hs z0).trans x0,
      (mul_nonpos_of_nonpos_of_nonneg hs x0).trans z0⟩
  · rw [not_le] at hs
    have c1 := mul_le_mul_of_nonneg_left b1 (by linarith : 0 ≤ 1 - θ)
    have c2 := mul_le_mul_of_nonneg_left a2 (by linarith : 0 ≤ 1 - θ')
    have c3 := mul_nonneg (mul_nonneg hθ hθ') z0
    have c4 := mul_nonneg (mul_nonneg hθ hθ') x0
    exact ⟨x0, z0, by nlinarith, by nlinarith⟩

theorem add {θ x y x' y' : ℚ} (h : NearF θ x y) (h' : NearF θ x' y') : NearF θ (x + x') (y + y') :=
  ⟨add_nonneg h.left h'.left, add_nonneg h.right h'.right, by linarith [h.lower, h'.lower],
    by linarith [h.upper, h'.upper]⟩

theorem zero {θ : ℚ} : NearF θ 0 0 := ⟨le_rfl, le_rfl, by simp, by simp⟩

theorem sum {ι : Type} {S : Finset ι} {θ : ℚ} {f g : ι → ℚ} (h : ∀ i ∈ S, NearF θ (f i) (g i)) :
    NearF θ (∑ i ∈ S, f i) (∑ i ∈ S, g i) := by
  refine ⟨sum_nonneg fun i hi => (h i hi).left, sum_nonneg fun i hi => (h i hi).right, ?_, ?_⟩
  · rw [mul_sum]
    exact sum_le_sum fun i hi => (h i hi).lower
  · rw [mul_sum]
    exact sum_le_sum fun i hi => (h i hi).upper

theorem div {θ θ' x y t s : ℚ} (h : NearF θ x y) (h' : NearF θ' t s) (hθ : 0 ≤ θ) (hθ' : 0 ≤ θ')
    (ht : 0 < t) (hs : 0 < s) : NearF (θ + θ') (x / t) (y / s) := by
  have h1 : NearF θ (x / t) (y / t) := by
    refine ⟨div_nonneg h.left ht.le, div_nonneg h.right ht.le, ?_, ?_⟩
    · rw [← mul_div_assoc]
      exact div_le_div_of_nonneg_right h.lower ht.le
    · rw [← mul_div_assoc]
      exact div_le_div_of_nonneg_right h.upper ht.le
  have h2 : NearF θ' (y / t) (y / s) := by
    refine ⟨div_nonneg h.right ht.le, div_nonneg h.right hs.le, ?_, ?_⟩
    · rw [← mul_div_assoc, div_le_div_iff₀ hs ht]
      have := mul_le_mul_of_nonneg_left h'.upper h.right
      linarith
    · rw [← mul_div_assoc, div_le_div_iff₀ ht hs]
      have := mul_le_mul_of_nonneg_left h'.lower h.right
      linarith
  exact h1.trans h2 hθ hθ'

theorem abs {θ x y : ℚ} (h : NearF θ x y) (hθ : 0 ≤ θ) (hh : θ ≤ 1 / 2) : |x - y| ≤ 2 * θ * y := by
  have h1 := mul_le_mul_of_nonneg_right hh h.left
  have h2 := mul_nonneg hθ h.right
  have h3 : θ * x ≤ θ * (2 * y) := mul_le_mul_of_nonneg_left (by linarith [h.upper]) hθ
  rw [abs_le]
  constructor <;> linarith [h.lower, h.upper]

end NearF

namespace Rounding

variable (R : Rounding)

theorem nearF_rnd {x : ℚ} (hx : 0 ≤ x) : NearF R.u (R.rnd x) x := by
  obtain ⟨h1, h2⟩ := R.rnd_bounds hx
  have hr := R.rnd_nonneg hx
  have hu0 := R.u_nonneg
  refine ⟨hr, hx, h1, ?_⟩
  by_cases h : 1 - R.u ≤ 0
  · exact (mul_nonpos_of_nonpos_of_nonneg h hr).trans hx
  · have c1 := mul_le_mul_of_nonneg_left h2 (not_le.1 h).le
    have c2 := mul_nonneg (mul_nonneg hu0 hu0) hx
    nlinarith

theorem pow_bound (n : ℕ) : (1 - n * R.u) * (1 + R.u) ^ n ≤ 1 := by
  have hu0 := R.u_nonneg
  induction n with
  | zero => simp
  | succ n ih =>
    refine le_trans ?_ ih
    rw [pow_succ, mul_comm ((1 + R.u) ^ n), ← mul_assoc]
    refine mul_le_mul_of_nonneg_right ?_ (by positivity)
    push_cast
    have : 0 ≤ ((n : ℚ) + 1) * (R.u * R.u) := by positivity
    linarith

/-- The sum of numbers that are not negative. -/
theorem nearF_total {tot : List ℚ → ℚ} (ht : R.Totals tot) {l : List ℚ} (hl : ∀ x ∈ l, 0 ≤ x)
    {n : ℕ} (hn : l.length ≤ n) (hs : 2 * n * R.u ≤ 1) : NearF (2 * n * R.u) (tot l) l.sum := by
  have hu0 := R.u_nonneg
  have h := R.total_near ht l
  have hS : 0 ≤ l.sum := List.sum_nonneg hl
  have habs : (l.map abs).sum = l.sum := by
    congr 1
    conv_rhs => rw [← List.map_id l]
    exact List.map_congr_left fun x hx => abs_of_nonneg (hl x hx)
  rw [habs] at h
  have hnu : (l.length : ℚ) * R.u ≤ n * R.u :=
    mul_le_mul_of_nonneg_right (by exact_mod_cast hn) hu0
  have hln : 0 ≤ (l.length : ℚ) * R.u := mul_nonneg (by positivity) hu0
  have hb := R.pow_bound l.length
  have h1 := R.one_le_pow l.length
  generalize (1 + R.u) ^ l.length = e at *
  generalize (l.length : ℚ) * R.u = t at *
  have he : e - 1 ≤ 2 * t := by nlinarith
  have h' := abs_le.1 h
  have hlow : (1 - 2 * n * R.u) * l.sum ≤ tot l := by
    have := mul_le_mul_of_nonneg_right (by linarith : e - 1 ≤ 2 * n * R.u) hS
    linarith [h'.1]
  refine ⟨le_trans (mul_nonneg (by linarith) hS) hlow, hS, hlow, ?_⟩
  have c1 : (1 - 2 * n * R.u) * tot l ≤ (1 - 2 * n * R.u) * (e * l.sum) :=
    mul_le_mul_of_nonneg_left (by linarith [h'.2]) (by linarith)
  have c2 : (1 - 2 * n * R.u) * e ≤ (1 - t) * e :=
    mul_le_mul_of_nonneg_right (by linarith) (by linarith)
  have c3 := mul_le_mul_of_nonneg_right (c2.trans hb) hS
  linarith

/-- A point well inside a bin is filled into that bin. -/
theorem fillBin_centre {p : SPar} (hp : p.WF) (hb : p.bins.toNat ≤ R.big)
    (hκ : (p.bins : ℚ) * R.u ≤ 1 / 1000) {i : ℕ} (hi : (i : ℤ) < p.bins) {x : ℚ}
    (hx : |x - Verif.binMean p i| ≤ p.width / 4) :
    p.low ≤ x ∧ x < p.high ∧ R.fillBin p x = i := by
  have hu0 := R.u_nonneg
  have hw := hp.width_pos
  have hh := hp.high_eq
  have hbq : (1 : ℚ) ≤ p.bins := by exact_mod_cast hp.1
  have hiq : (i : ℚ) + 1 ≤ p.bins := by exact_mod_cast hi
  have hi0 : (0 : ℚ) ≤ i := by positivity
  have hu : R.u ≤ 1 / 16 := by nlinarith
  have x1 := abs_le.1 hx
  unfold Verif.binMean at x1
  have t1 := mul_nonneg hi0 hw.le
  have t2 := mul_nonneg (sub_nonneg.2 hiq) hw.le
  have hl : p.low ≤ x := by linarith [x1.1]
  have hr : x < p.high := by rw [hh]; linarith [x1.2]
  obtain ⟨h1, h2⟩ := (R.fillBin_spec hp hu hb).2.2 x hl hr
  refine ⟨hl, hr, ?_⟩
  have htol : 5 * R.u * (p.high - p.low) ≤ 5 / 1000 * p.width := by
    have e : 5 * R.u * (p.high - p.low) = 5 * (p.bins * R.u) * p.width := by rw [hh]; ring
    rw [e]
    exact mul_le_mul_of_nonneg_right (by linarith) hw.le
  rw [SPar.edge_eq] at h1 h2
  push_cast at h2
  generalize R.fillBin p x = b at *
  have g1 : ((b : ℚ) - i) * p.width < 1 * p.width := by linarith [x1.2]
  have g2 : ((i : ℚ) - b) * p.width < 1 * p.width := by linarith [x1.1]
  have g1 := lt_of_mul_lt_mul_right g1 hw.le
  have g2 := lt_of_mul_lt_mul_right g2 hw.le
  have k1 : b < (i : ℤ) + 1 := by
    have : (b : ℚ) < (i : ℚ) + 1 := by linarith
    exact_mod_cast this
  have k2 : (i : ℤ) < b + 1 := by
    have : (i : ℚ) < (b : ℚ) + 1 := by linarith
    exact_mod_cast this
  omega

theorem binMean_near {p : SPar} (hp : p.WF)
    (hκ : (|p.low| / p.width + p.bins) * R.u ≤ 1 / 10000) {i : ℕ} (hi : (i : ℤ) < p.bins) :
    |R.binMean p i - Verif.binMean p i| ≤ p.width / 100 := by
  have h := R.centre_near hp hκ (by norm_num) (i := i) (by positivity) hi
  have e : R.binMean p i = R.add p.low (R.mul (R.add ((i : ℤ) : ℚ) (1 / 2)) (R.width p)) := by
    simp [binMean]
  have e' : Verif.binMean p i = p.low + ((i : ℤ) + 1 / 2) * p.width := by
    simp [Verif.binMean]
  rw [e, e']
  refine h.trans ?_
  have := hp.width_pos
  linarith

/-- The condition on the axes of the spectrum. -/
def AxesFine (s : Spectrum) : Prop := ∀ q ∈ s.cfg,
  (|q.low| / q.width + q.bins) * R.u ≤ 1 / 10000 ∧ q.bins.toNat ≤ R.big

theorem AxesFine.bins {s : Spectrum} (h : R.AxesFine s) (hs : s.WF) {q : SPar} (hq : q ∈ s.cfg) :
    (q.bins : ℚ) * R.u ≤ 1 / 10000 := by
  have hw := (hs.axes q hq).width_pos
  have h0 : 0 ≤ |q.low| / q.width * R.u := mul_nonneg (by positivity) R.u_nonneg
  linarith [(h q hq).1]

theorem smearKw_keys {cfg : List SPar} {k : ℕ} {idx : List ℕ} (hl : idx.length = cfg.length)
    (x : ℚ) : (R.smearKw cfg k idx x).map Prod.fst = cfg.map SPar.name := by
  apply List.ext_getElem?
  intro q
  unfold smearKw
  simp only [List.getElem?_map, List.getElem?_modify, List.getElem?_zipWith]
  cases hc : cfg[q]? with
  | none => simp
  | some p =>
    have : q < idx.length := by rw [hl]; exact (List.getElem?_eq_some_iff.1 hc).1
    rw [List.getElem?_eq_getElem this]
    simp only [Option.map_some]
    split <;> rfl

theorem smearKw_mem {cfg : List SPar} {k : ℕ} {idx : List ℕ} {x : ℚ} {q : ℕ} {p : SPar} {i : ℕ}
    (hp : cfg[q]? = some p) (hi : idx[q]? = some i) :
    (p.name, if k = q then x else R.binMean p i) ∈ R.smearKw cfg k idx x := by
  apply List.mem_of_getElem? (i := q)
  unfold smearKw
  simp only [List.getElem?_modify, List.getElem?_zipWith, hp, hi]
  split <;> rfl

/-- A fill during smearing. -/
theorem smear_fill {s acc : Spectrum} (hs : s.WF) (hf : R.AxesFine s) (hc : acc.cfg = s.cfg)
    (hsh : acc.data.shape = s.data.shape) {k j : ℕ} {p : SPar} (hk : s.cfg[k]? = some p)
    {idx : List ℕ} (hi : InB s.data.shape idx) (hj : (j : ℤ) < p.bins) {x : ℚ}
    (hx : |x - Verif.binMean p j| ≤ p.width / 50) (w : ℚ) :
    R.fillOrRaise acc w (R.smearKw s.cfg k idx x) = .ok { acc with data := ⟨acc.data.shape,
      fun i => if i = idx.set k j then R.rnd (acc.data.get i + w) else acc.data.get i⟩ } := by
  have hu0 := R.u_nonneg
  have ha : acc.WF := ⟨by rw [hc]; exact hs.axes, by rw [hc]; exact hs.names,
    by rw [hc, hsh]; exact hs.shape⟩
  have hbins := bins_of_inB hs.shape hi
  have hl : idx.length = s.cfg.length := hbins.length_eq.symm
  obtain ⟨hmem, hp, -, -, hshk⟩ := axis_facts hs hk
  have hw := hp.width_pos
  have hpb := hf.bins R hs hmem
  have hd : IsDict (R.smearKw s.cfg k idx x) := by
    unfold IsDict; rw [R.smearKw_keys hl]; exact hs.names
  have hu : R.u ≤ 1 / 16 := by
    have : (1 : ℚ) ≤ p.bins := by exact_mod_cast hp.1
    nlinarith
  -- the value on every axis
  have hval : ∀ (q : ℕ) (pq : SPar), s.cfg[q]? = some pq → ∃ (y : ℚ) (i : ℕ),
      (pq.name, y) ∈ R.smearKw s.cfg k idx x ∧ (idx.set k j)[q]? = some i ∧
      pq.low ≤ y ∧ y < pq.high ∧ R.fillBin pq y = i := by
    intro q pq hq
    have hql := (List.getElem?_eq_some_iff.1 hq).1
    have hqi : q < idx.length := by omega
    have hiq := List.getElem?_eq_getElem hqi
    have hm := R.smearKw_mem (k := k) (x := x) hq hiq
    have hmq := List.mem_of_getElem? hq
    have hbq := hf.bins R hs hmq
    by_cases hkq : k = q
    · subst hkq
      rw [hk] at hq
      cases hq
      rw [if_pos rfl] at hm
      exact ⟨x, j, hm, by simp [hqi], R.fillBin_centre hp (hf p hmem).2 (by linarith) hj
        (by linarith)⟩
    · rw [if_neg hkq] at hm
      have hlt : ((idx[q] : ℕ) : ℤ) < pq.bins := by
        have := (List.forall₂_iff_get.1 hbins).2 q hql hqi
        have e : s.cfg[q] = pq := (List.getElem?_eq_some_iff.1 hq).2
        simpa [e] using this
      have hwq := (hs.axes pq hmq).width_pos
      refine ⟨_, idx[q], hm, by rw [List.getElem?_set_ne hkq, hiq],
        R.fillBin_centre (hs.axes pq hmq) (hf pq hmq).2 (by linarith) hlt ?_⟩
      have := R.binMean_near (hs.axes pq hmq) (hf pq hmq).1 hlt
      linarith
  have hr : InRange acc (R.smearKw s.cfg k idx x) := by
    constructor
    · intro e he
      have : e.1 ∈ s.cfg.map SPar.name := by
        rw [← R.smearKw_keys hl x]; exact List.mem_map.2 ⟨e, he, rfl⟩
      obtain ⟨q, hq, hqe⟩ := List.mem_map.1 this
      exact ⟨q, by rw [hc]; exact hq, hqe⟩
    · intro pq hq
      rw [hc] at hq
      obtain ⟨q, hq⟩ := List.getElem?_of_mem hq
      obtain ⟨y, i, h1, -, h2, h3, -⟩ := hval q pq hq
      exact ⟨y, h1, h2, h3⟩
  obtain ⟨idx', hidx', hfill⟩ := R.fill_of_inRange ha hd hr hu
    (fun q hq => (hf q (by rw [← hc]; exact hq)).2) w
  have hEq : idx' = idx.set k j := by
    rw [hc] at hidx'
    have hlen := hidx'.length_eq
    apply List.ext_getElem?
    intro q
    by_cases hq : q < s.cfg.length
    · have hqs := List.getElem?_eq_getElem hq
      obtain ⟨y, i, h1, h2, -, -, h3⟩ := hval q _ hqs
      have hq' : q < idx'.length := by omega
      obtain ⟨y', g1, -, -, g2⟩ := (List.forall₂_iff_get.1 hidx').2 q hq hq'
      simp only [List.get_eq_getElem] at g1 g2
      have : y = y' := by
        have e1 := (assoc_eq_some_iff hd).2 h1
        have e2 := (assoc_eq_some_iff hd).2 g1
        rw [e1] at e2
        exact Option.some.inj e2
      subst this
      rw [h3] at g2
      rw [h2, List.getElem?_eq_getElem hq']
      have : i = idx'[q] := by exact_mod_cast g2
      rw [this]
    · rw [List.getElem?_eq_none (by omega), List.getElem?_eq_none (by simp; omega)]
  rw [hEq] at hfill
  have hin : InB acc.data.shape (idx.set k j) := by
    rw [hsh]
    exact inB_set hi hshk (by omega)
  rw [if_pos hin] at hfill
  unfold fillOrRaise
  rw [hfill]
  rfl

end Rounding

end Verif
