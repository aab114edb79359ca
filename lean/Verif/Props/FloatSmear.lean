import Verif.Lemmas.FloatSmearEx
import Verif.Lemmas.FloatSmearLoop
import Verif.Props.FloatShift
import Verif.Props.Smear

/-!
# C140: weighted smearing with floats

Every operation is rounded by `R`; the sum of the weights (`tot`) may be computed in any order.
-/

namespace Verif

open Finset

/-- What is needed of the axes and of the window. -/
theorem smear_prep (R : Rounding) {s : Spectrum} (hs : s.WF)
    (hax : ∀ q ∈ s.cfg, (|q.low| / ((q.high - q.low) / q.bins) + q.bins) * R.u ≤ 1 / 10000 ∧
      q.bins ≤ R.big) {k : ℕ} {p : SPar} (hk : s.cfg[k]? = some p) {m : ℤ}
    (ha : |p.low - m * ((p.high - p.low) / p.bins)| ≤ (p.high - p.low) / p.bins / 1000)
    {sigma : ℚ → ℚ} {ns A : ℚ}
    (hA : ∀ x, p.low ≤ x → x ≤ p.high → 0 ≤ ns * sigma x ∧ ns * sigma x ≤ A)
    (hκ : p.bins * ((|p.low| / ((p.high - p.low) / p.bins) + p.bins + A / ((p.high - p.low) / p.bins)) *
      R.u) ≤ 1 / 10000) :
    R.AxesFine s ∧ ∃ (a b : ℕ → ℕ) (pt : ℕ → ℕ → ℚ), ∀ i : ℕ, (i : ℤ) < p.bins →
      |R.binMean p i - binMean p i| ≤ p.width / 100 ∧ 0 ≤ ns * sigma (R.binMean p i) ∧
      R.smearPoints p ns (sigma (R.binMean p i)) (R.binMean p i) =
        (List.range (b i - a i)).map (fun q => pt i (a i + q)) ∧ b i ≤ p.bins.toNat ∧
      (∀ j, a i ≤ j → j < b i → |pt i j - binMean p j| ≤ p.width / 50) ∧
      (∀ j : ℕ, j + 1 < p.bins.toNat → |binMean p j - binMean p i| ≤ ns * sigma (R.binMean p i) →
        a i ≤ j ∧ j < b i) ∧
      (∀ j : ℕ, a i ≤ j → j < b i →
        |binMean p j - binMean p i| ≤ ns * sigma (R.binMean p i) + 8 / 5 * p.width) ∧
      (2 ≤ p.bins → (i : ℤ) + 1 < p.bins ∨ p.width / 2 + p.width / 50 ≤ ns * sigma (R.binMean p i) →
        a i < b i) := by
  obtain ⟨hm, hp, -, -, -⟩ := axis_facts hs hk
  have hw := hp.width_pos
  have hu0 := R.u_nonneg
  refine ⟨fun q hq => ⟨(hax q hq).1, by have := (hax q hq).2; have := (hs.axes q hq).1; omega⟩, ?_⟩
  have key : ∀ i : ℕ, ∃ (a b : ℕ) (pt : ℕ → ℚ), (i : ℤ) < p.bins → _ := fun i => by
    by_cases hi : (i : ℤ) < p.bins
    · have hmean := R.binMean_near hp (hax p hm).1 hi
      have hr : p.low ≤ R.binMean p i ∧ R.binMean p i ≤ p.high := by
        have h := abs_le.1 hmean
        have hiq : (i : ℚ) + 1 ≤ p.bins := by exact_mod_cast hi
        have t1 := mul_nonneg (Nat.cast_nonneg (α := ℚ) i) hw.le
        have t2 := mul_nonneg (sub_nonneg.2 hiq) hw.le
        unfold binMean at h
        rw [hp.high_eq]
        constructor <;> linarith [h.1, h.2]
      obtain ⟨h0, h1⟩ := hA _ hr.1 hr.2
      have hN : (|p.low| / p.width + p.bins + ns * sigma (R.binMean p i) / p.width) * R.u ≤
          (|p.low| / p.width + p.bins + A / p.width) * R.u := by
        gcongr
      obtain ⟨a, b, pt, h⟩ := R.smearPoints_near hp h0 hN hκ (δ := 1 / 1000) le_rfl
        (m := m) (by rw [one_div_mul_eq_div]; exact ha) hi
      exact ⟨a, b, pt, fun _ => And.intro hmean (And.intro h0 h)⟩
    · exact ⟨0, 0, fun _ => 0, fun h => absurd h hi⟩
  choose a b pt h using key
  exact ⟨a, b, pt, h⟩

/-- **C140.** Weighted smearing with floats distributes the contents of every cell over cells that
differ only along the smeared axis, in proportion to the weights at points `x i j` that are the
centres of these cells up to a fiftieth of a bin. These cells form a range of bins that contains every
bin but the last whose centre is within the window, and no bin more than 1.6 bins outside it. Every
cell of the result is right up to the relative error `2 (3 bins + 2) u`, and everything but the name
and the contents is unchanged. The full claim is for every axis. Missing: axes whose lower edge is not
a whole number of bins, see `c140_raises_negation`. -/
theorem c140_cells_partial (R : Rounding) (tot : List ℚ → ℚ) (ht : R.Totals tot) (s : Spectrum) (hs : s.WF)
    (hn : NonNeg s.data)
    (hax : ∀ q ∈ s.cfg, (|q.low| / ((q.high - q.low) / q.bins) + q.bins) * R.u ≤ 1 / 10000 ∧
      q.bins ≤ R.big) (k : ℕ) (p : SPar) (hk : s.cfg[k]? = some p) (m : ℤ)
    (ha : |p.low - m * ((p.high - p.low) / p.bins)| ≤ (p.high - p.low) / p.bins / 1000)
    (suffix : PyStr) (sigma : ℚ → ℚ) (weight : ℚ → ℚ → ℚ → ℚ) (ns A : ℚ)
    (hpos : ∀ x m g, 0 < weight x m g)
    (hA : ∀ x, p.low ≤ x → x ≤ p.high → 0 ≤ ns * sigma x ∧ ns * sigma x ≤ A)
    (hκ : p.bins * ((|p.low| / ((p.high - p.low) / p.bins) + p.bins + A / ((p.high - p.low) / p.bins)) *
      R.u) ≤ 1 / 10000) :
    ∃ (t : Spectrum) (a b : ℕ → ℕ) (c : ℕ → ℚ) (x : ℕ → ℕ → ℚ),
      R.weightedSmear suffix tot sigma weight ns s p.name = .ok t ∧
      SameButNameData s t ∧ t.name = s.name ++ suffix ∧ t.data.shape = s.data.shape ∧
      (∀ i < p.bins.toNat, |c i - p.centre i| ≤ (p.high - p.low) / p.bins / 100 ∧ b i ≤ p.bins.toNat ∧
        ∀ j, (a i ≤ j → j < b i → |x i j - p.centre j| ≤ (p.high - p.low) / p.bins / 50 ∧
            |p.centre j - p.centre i| ≤ ns * sigma (c i) + 8 / 5 * ((p.high - p.low) / p.bins)) ∧
          (j + 1 < p.bins.toNat → |p.centre j - p.centre i| ≤ ns * sigma (c i) →
            a i ≤ j ∧ j < b i)) ∧
      ∀ out j, InB s.data.shape out → out[k]? = some j →
        ∀ e, e = ∑ i ∈ range p.bins.toNat, s.data.get (out.set k i) * (if a i ≤ j ∧ j < b i then
          weight (x i j) (c i) (sigma (c i)) /
            ∑ j' ∈ Ico (a i) (b i), weight (x i j') (c i) (sigma (c i)) else 0) →
        |t.data.get out - e| ≤ 2 * (3 * p.bins + 2) * R.u * e := by
  obtain ⟨hm, hp, -, -, -⟩ := axis_facts hs hk
  have hu0 := R.u_nonneg
  obtain ⟨hf, a, b, pt, h⟩ := smear_prep R hs hax hk ha hA hκ
  obtain ⟨t, h1, h2, h3, h4, h5⟩ := R.smear_core ht hs hf hn hk suffix sigma ns hpos (a := a) (b := b)
    (pt := pt) (fun i hi => ⟨(h i hi).2.2.1, (h i hi).2.2.2.1, (h i hi).2.2.2.2.1⟩)
  have hbu := hf.bins R hs hm
  have hb1 : (1 : ℚ) ≤ p.bins := by exact_mod_cast hp.1
  have hub : R.u ≤ p.bins * R.u := le_mul_of_one_le_left hu0 hb1
  refine ⟨t, a, b, R.binMean p, pt, h1, h2, h3, h4, ?_, ?_⟩
  · intro i hi
    obtain ⟨g1, -, -, g2, g3, g4, g5, -⟩ := h i (by omega)
    simp only [binMean_eq_centre] at g1 g3 g4 g5
    exact ⟨g1, g2, fun j => ⟨fun c1 c2 => ⟨g3 j c1 c2, g5 j c1 c2⟩, g4 j⟩⟩
  · rintro out j ho hj e rfl
    have := (h5 out j ho hj).abs (mul_nonneg (by linarith) hu0) (by linarith)
    rw [← mul_assoc] at this
    exact this

/-- **C140, conservation.** The sum along the smeared axis is conserved up to the relative error
`2 (3 bins + 2) u` for every choice of the other indices, and with it the total; contents that are not
negative stay so. Missing, besides axes whose lower edge is not a whole number of bins: one-bin axes and
narrow windows at the last bin, cf. `c32_conserved_negation`. -/
theorem c140_conserved_partial (R : Rounding) (tot : List ℚ → ℚ) (ht : R.Totals tot) (s : Spectrum)
    (hs : s.WF) (hn : NonNeg s.data)
    (hax : ∀ q ∈ s.cfg, (|q.low| / ((q.high - q.low) / q.bins) + q.bins) * R.u ≤ 1 / 10000 ∧
      q.bins ≤ R.big) (k : ℕ) (p : SPar) (hk : s.cfg[k]? = some p) (m : ℤ)
    (ha : |p.low - m * ((p.high - p.low) / p.bins)| ≤ (p.high - p.low) / p.bins / 1000)
    (suffix : PyStr) (sigma : ℚ → ℚ) (weight : ℚ → ℚ → ℚ → ℚ) (ns A : ℚ)
    (hpos : ∀ x m g, 0 < weight x m g)
    (hA : ∀ x, p.low ≤ x → x ≤ p.high → 0 ≤ ns * sigma x ∧ ns * sigma x ≤ A)
    (hκ : p.bins * ((|p.low| / ((p.high - p.low) / p.bins) + p.bins + A / ((p.high - p.low) / p.bins)) *
      R.u) ≤ 1 / 10000) (h2 : 2 ≤ p.bins)
    (hlast : (∀ x, |x - p.centre (p.bins.toNat - 1)| ≤ (p.high - p.low) / p.bins / 100 →
        13 / 25 * ((p.high - p.low) / p.bins) ≤ ns * sigma x) ∨
      ∀ idx, InB s.data.shape idx → idx[k]? = some (p.bins.toNat - 1) → s.data.get idx = 0) :
    ∃ t, R.weightedSmear suffix tot sigma weight ns s p.name = .ok t ∧ SameButNameData s t ∧
      (∀ idx, InB s.data.shape idx →
        |∑ j ∈ range p.bins.toNat, t.data.get (idx.set k j) -
          ∑ j ∈ range p.bins.toNat, s.data.get (idx.set k j)| ≤
        2 * (3 * p.bins + 2) * R.u * ∑ j ∈ range p.bins.toNat, s.data.get (idx.set k j)) ∧
      |t.sum - s.sum| ≤ 2 * (3 * p.bins + 2) * R.u * s.sum ∧ NonNeg t.data := by
  obtain ⟨hm, hp, -, -, hsh⟩ := axis_facts hs hk
  have hu0 := R.u_nonneg
  obtain ⟨hf, a, b, pt, h⟩ := smear_prep R hs hax hk ha hA hκ
  obtain ⟨t, h1, hsame, -, h4, h5⟩ := R.smear_core ht hs hf hn hk suffix sigma ns hpos (a := a) (b := b)
    (pt := pt) (fun i hi => ⟨(h i hi).2.2.1, (h i hi).2.2.2.1, (h i hi).2.2.2.2.1⟩)
  have hbu := hf.bins R hs hm
  have hb1 : (1 : ℚ) ≤ p.bins := by exact_mod_cast hp.1
  have hub : R.u ≤ p.bins * R.u := le_mul_of_one_le_left hu0 hb1
  have hθ0 : 0 ≤ (3 * (p.bins : ℚ) + 2) * R.u := mul_nonneg (by linarith) hu0
  have hθ : (3 * (p.bins : ℚ) + 2) * R.u ≤ 1 / 2 := by linarith
  have hslice : ∀ idx, InB s.data.shape idx → NearF ((3 * p.bins + 2) * R.u)
        (∑ j ∈ range p.bins.toNat, t.data.get (idx.set k j))
        (∑ j ∈ range p.bins.toNat, s.data.get (idx.set k j)) := by
    intro idx hidx
    have hkl : k < idx.length := by
      rw [hidx.length_eq]; exact (List.getElem?_eq_some_iff.1 hsh).1
    have e1 : ∀ j ∈ range p.bins.toNat, NearF ((3 * p.bins + 2) * R.u) (t.data.get (idx.set k j))
        (∑ i ∈ range p.bins.toNat, s.data.get (idx.set k i) *
            Rounding.shareAt (fun i j => weight (pt i j) (R.binMean p i) (sigma (R.binMean p i))) a b i j) := by
      intro j hj
      have := h5 (idx.set k j) j (inB_set hidx hsh (Finset.mem_range.1 hj)) (by simp [hkl])
      simpa only [List.set_set] using this
    have e2 := NearF.sum e1
    rw [Finset.sum_comm] at e2
    rw [show ∑ j ∈ range p.bins.toNat, s.data.get (idx.set k j) = _ from
      Finset.sum_congr rfl fun i hi => ?_]
    · exact e2
    rw [Finset.mem_range] at hi
    rw [← Finset.mul_sum]
    obtain ⟨g1, -, -, g2, -, -, -, g6⟩ := h i (by omega)
    rcases (by
        by_cases hi' : i + 1 < p.bins.toNat
        · exact Or.inl (g6 h2 (Or.inl (by omega)))
        · have hil : i = p.bins.toNat - 1 := by omega
          rcases hlast with hl | hl
          · refine Or.inl (g6 h2 (Or.inr ?_))
            rw [binMean_eq_centre] at g1
            have := hl (R.binMean p i) (by rw [← hil]; exact g1)
            change 13 / 25 * p.width ≤ _ at this
            linarith
          · exact Or.inr (hl (idx.set k i) (inB_set hidx hsh hi) (by simp [hkl, hil])) :
        a i < b i ∨ s.data.get (idx.set k i) = 0) with hab | h0
    · rw [shareAt_sum (fun _ _ => hpos _ _ _) hab g2, mul_one]
    · rw [h0, zero_mul]
  refine ⟨t, h1, hsame, fun idx hidx => ?_, ?_, ?_⟩
  · have := (hslice idx hidx).abs hθ0 hθ
    rwa [← mul_assoc] at this
  · have hsht : t.data.shape[k]? = some p.bins.toNat := by rw [h4]; exact hsh
    have hnear : NearF ((3 * p.bins + 2) * R.u) t.sum s.sum := by
      unfold Spectrum.sum NdArray.sum
      rw [← sumIdx_eraseIdx hsh, ← sumIdx_eraseIdx hsht, h4]
      refine NearF.sumIdx fun rest hr => ?_
      have hrl := length_of_erase hsh hr
      have := hslice (rest.insertIdx k 0) (inB_insertIdx hsh hr (by omega))
      simpa only [insertIdx_set hrl] using this
    have := hnear.abs hθ0 hθ
    rwa [← mul_assoc] at this
  · intro out ho
    rw [h4] at ho
    obtain ⟨j, hj, hjn⟩ := inB_getElem? ho hsh
    exact (h5 out j ho hj).left

namespace Ex

/-- One event between 6.6 and 7.8. -/
def threeNineSpec : Spectrum :=
  ⟨lit "Te130", [threeNine], ⟨[5], fun i => if i = [3] then 1 else 0⟩, 1, 1, []⟩

theorem threeNineSpec_wf : threeNineSpec.WF :=
  ⟨by simp [threeNineSpec, threeNine, SPar.WF]; norm_num, by simp [threeNineSpec],
    by simp [threeNineSpec, threeNine]⟩

/-- One event between a third and two thirds. -/
def thirdsSpec : Spectrum :=
  ⟨lit "Te130", [thirds], ⟨[3], fun i => if i = [1] then 1 else 0⟩, 1, 1, []⟩

theorem thirdsSpec_wf : thirdsSpec.WF :=
  ⟨by simp [thirdsSpec, thirds, SPar.WF], by simp [thirdsSpec], by simp [thirdsSpec, thirds]⟩

theorem thirdsSpec_nonneg : NonNeg thirdsSpec.data := by
  intro idx _
  simp only [thirdsSpec]
  split <;> norm_num

end Ex

theorem foldlM_ok_mem {α β ε : Type} {step : β → α → Except ε β} {P : β → Prop}
    (hP : ∀ b a b', P b → step b a = .ok b' → P b') {L : List α} {b r : β} (hb : P b)
    (h : L.foldlM step b = .ok r) {a : α} (ha : a ∈ L) : ∃ b' b'', P b' ∧ step b' a = .ok b'' := by
  induction L generalizing b with
  | nil => simp at ha
  | cons x L ih =>
    rw [List.foldlM_cons] at h
    simp only [bind, Except.bind] at h
    cases hs : step b x with
    | error e => rw [hs] at h; cases h
    | ok b1 =>
      rw [hs] at h
      rcases List.mem_cons.1 ha with rfl | ha
      · exact ⟨b, b1, hb, hs⟩
      · exact ih (hP _ _ _ hb hs) h ha

theorem foldlM_ok_inv {α β ε : Type} {step : β → α → Except ε β} {P : β → Prop}
    (hP : ∀ b a b', P b → step b a = .ok b' → P b') {L : List α} {b r : β} (hb : P b)
    (h : L.foldlM step b = .ok r) : P r := by
  induction L generalizing b with
  | nil => cases h; exact hb
  | cons x L ih =>
    rw [List.foldlM_cons] at h
    simp only [bind, Except.bind] at h
    cases hs : step b x with
    | error e => rw [hs] at h; cases h
    | ok b1 =>
      rw [hs] at h
      exact ih (hP _ _ _ hb hs) h

theorem fillOrRaise_cfg (R : Rounding) {acc t : Spectrum} {w : ℚ} {kw : List (PyStr × ℚ)}
    (h : R.fillOrRaise acc w kw = .ok t) : t.cfg = acc.cfg := by
  unfold Rounding.fillOrRaise at h
  split at h
  · cases h
  · simp only [Except.ok.injEq] at h
    rw [← h]
    unfold Rounding.fill
    dsimp only
    repeat' first | rfl | split

/-- **C140, negation.** Not every spectrum can be smeared: with python's floats, weighted smearing raises
for a spectrum with five bins from 3 to 9, one event at 7.2 and a window of half a unit, since
`numpy.arange(6.6, 9.0, 1.2)` contains `9.0`, which is beyond the last bin. -/
theorem c140_raises_negation :
    ¬ ∀ (tot : List ℚ → ℚ) (s : Spectrum) (k : ℕ) (p : SPar) (suffix : PyStr) (sigma : ℚ → ℚ)
      (weight : ℚ → ℚ → ℚ → ℚ) (ns : ℚ), (binary 53 (by norm_num)).Totals tot → s.WF → NonNeg s.data →
      s.cfg[k]? = some p → (∀ x m g, 0 < weight x m g) → (∀ x, 0 ≤ ns * sigma x) →
      ∃ t, (binary 53 (by norm_num)).weightedSmear suffix tot sigma weight ns s p.name = .ok t := by
  intro h
  obtain ⟨t, ht⟩ := h (fun l => Ex.py.sumTree (Ex.oneByOne l)) Ex.threeNineSpec 0
    Ex.threeNine [] (fun _ => 1 / 2) (fun _ _ _ => 1) 1 (Ex.oneByOne_totals _) Ex.threeNineSpec_wf
    (by intro idx _; simp only [Ex.threeNineSpec]; split <;> norm_num) rfl (by norm_num) (by norm_num)
  obtain ⟨hm, hp, hg, hidx, hsh⟩ := axis_facts (k := 0) (p := Ex.threeNine) Ex.threeNineSpec_wf rfl
  unfold Rounding.weightedSmear at ht
  simp only [bind, Except.bind, throw, throwThe, MonadExceptOf.throw, hg, hidx] at ht
  rw [if_neg (by rw [not_not]; exact List.mem_map.2 ⟨_, hm, rfl⟩),
    if_neg (by simp [Ex.threeNineSpec, Ex.threeNine])] at ht
  have hcfg : ∀ (acc : Spectrum) (idx : List ℕ) (t : Spectrum), acc.cfg = [Ex.threeNine] →
      Ex.py.smearCell (fun l => Ex.py.sumTree (Ex.oneByOne l)) (fun _ => 1 / 2) (fun _ _ _ => 1) 1
        Ex.threeNineSpec 0 Ex.threeNine acc idx = .ok t → t.cfg = [Ex.threeNine] := by
    intro acc idx t hc h
    unfold Rounding.smearCell at h
    dsimp only at h
    split at h
    · cases h; exact hc
    · split at h
      · cases h
      · exact foldlM_ok_inv (P := fun acc => acc.cfg = [Ex.threeNine])
          (fun b a b' hb h => (fillOrRaise_cfg _ h).trans hb) hc h
  obtain ⟨b', b'', hb, hs⟩ := foldlM_ok_mem hcfg rfl ht (a := [3]) (by decide)
  unfold Rounding.smearCell at hs
  dsimp only at hs
  rw [if_neg (by simp [Ex.threeNineSpec])] at hs
  split at hs
  · cases hs
  · rw [show ([3] : List ℕ).getD 0 0 = 3 from rfl, Ex.a_points] at hs
    obtain ⟨c, c', hc, hf⟩ := foldlM_ok_mem (P := fun acc => acc.cfg = [Ex.threeNine])
      (fun b a b' hb h => (fillOrRaise_cfg _ h).trans hb) hb hs (a := 9) (by simp)
    have hkw : Ex.py.smearKw Ex.threeNineSpec.cfg 0 [3] 9 = [(Ex.threeNine.name, 9)] := rfl
    rw [hkw] at hf
    unfold Rounding.fillOrRaise Rounding.fill at hf
    simp only [hc, Spectrum.pars, List.map_cons, List.map_nil, List.any_cons, List.any_nil,
      List.mem_singleton, not_true_eq_false, decide_false, Bool.or_false, List.mapM_cons,
      List.mapM_nil, assoc] at hf
    norm_num [Ex.threeNine, Outcome.fail] at hf
    cases hf

/-- **C140, the last bin.** That the last bin along the smeared axis is empty after weighted smearing on
an aligned axis, as with exact numbers (`c32_last_bin_empty`), is not so with python's floats: for
three bins from 0 to 1, one event in the middle and a window of one unit, a third of it ends up in the
last bin. -/
theorem c140_last_bin_negation :
    ¬ ∀ (tot : List ℚ → ℚ) (s t : Spectrum) (k : ℕ) (p : SPar) (suffix : PyStr) (sigma : ℚ → ℚ)
      (weight : ℚ → ℚ → ℚ → ℚ) (ns : ℚ) (out : List ℕ), (binary 53 (by norm_num)).Totals tot → s.WF →
      NonNeg s.data → s.cfg[k]? = some p → p.Aligned → (∀ x m g, 0 < weight x m g) →
      (∀ x, 0 ≤ ns * sigma x) →
      (binary 53 (by norm_num)).weightedSmear suffix tot sigma weight ns s p.name = .ok t →
      InB s.data.shape out → out[k]? = some (p.bins.toNat - 1) → t.data.get out = 0 := by
  intro h
  obtain ⟨hf, a, b, pt, hw⟩ := smear_prep Ex.py (k := 0) (p := Ex.thirds) (m := 0) (ns := 1) (A := 1)
    (sigma := fun _ => 1) Ex.thirdsSpec_wf (by
      simp only [Ex.thirdsSpec, List.mem_cons, List.not_mem_nil, or_false, forall_eq, Ex.thirds]
      norm_num [binary]) rfl (by norm_num [Ex.thirds]) (by norm_num) (by norm_num [Ex.thirds, binary])
  obtain ⟨t, h1, -, -, h4, h5⟩ := Ex.py.smear_core (Ex.oneByOne_totals _) Ex.thirdsSpec_wf hf
    Ex.thirdsSpec_nonneg (k := 0) (p := Ex.thirds) rfl [] (fun _ => 1) 1 (weight := fun _ _ _ => 1)
    (by norm_num) (a := a) (b := b) (pt := pt)
    (fun i hi => ⟨(hw i hi).2.2.1, (hw i hi).2.2.2.1, (hw i hi).2.2.2.2.1⟩)
  obtain ⟨-, -, g1, g2, -⟩ := hw 1 (by simp [Ex.thirds])
  have hlen : b 1 - a 1 = 3 := by
    have := congrArg List.length g1
    rw [Ex.b_points] at this
    simpa using this.symm
  have hb3 : b 1 ≤ 3 := g2
  have := h5 [2] 2 (by simp [Ex.thirdsSpec, InB]) rfl
  have h0 := h _ _ t 0 Ex.thirds [] (fun _ => 1) (fun _ _ _ => 1) 1 [2] (Ex.oneByOne_totals _)
    Ex.thirdsSpec_wf Ex.thirdsSpec_nonneg rfl ⟨0, by norm_num [Ex.thirds]⟩ (by norm_num) (by norm_num) h1
    (by simp [Ex.thirdsSpec, InB]) rfl
  have hl := this.upper
  have hl := this.lower
  rw [h0] at hl
  have e3 : Ex.thirds.bins.toNat = 3 := rfl
  rw [e3] at hl
  simp only [Finset.sum_range_succ, Finset.sum_range_zero, Ex.thirdsSpec, Rounding.shareAt] at hl
  rw [show a 1 = 0 by omega, show b 1 = 3 by omega] at hl
  norm_num [Ex.thirds, binary] at hl

/-- `Ex.tenthSpec`, smeared with a width of a twentieth, meets the hypotheses of C140 with python's
floats. -/
example : Ex.py.Totals (fun l => Ex.py.sumTree (Ex.oneByOne l)) ∧ Ex.tenthSpec.WF ∧
    NonNeg Ex.tenthSpec.data ∧
    (∀ q ∈ Ex.tenthSpec.cfg, (|q.low| / ((q.high - q.low) / q.bins) + q.bins) * Ex.py.u ≤ 1 / 10000 ∧
      q.bins ≤ Ex.py.big) ∧ Ex.tenthSpec.cfg[0]? = some Ex.tenths ∧
    |Ex.tenths.low - (0 : ℤ) * ((Ex.tenths.high - Ex.tenths.low) / Ex.tenths.bins)| ≤
      (Ex.tenths.high - Ex.tenths.low) / Ex.tenths.bins / 1000 ∧
    (∀ x : ℚ, Ex.tenths.low ≤ x → x ≤ Ex.tenths.high →
      (0 : ℚ) ≤ 3 * (1 / 20) ∧ (3 : ℚ) * (1 / 20) ≤ 3 / 20) ∧
    Ex.tenths.bins * ((|Ex.tenths.low| / ((Ex.tenths.high - Ex.tenths.low) / Ex.tenths.bins) +
      Ex.tenths.bins + (3 / 20) / ((Ex.tenths.high - Ex.tenths.low) / Ex.tenths.bins)) * Ex.py.u) ≤
      1 / 10000 ∧ 2 ≤ Ex.tenths.bins ∧
    13 / 25 * ((Ex.tenths.high - Ex.tenths.low) / Ex.tenths.bins) ≤ 3 * (1 / 20) := by
  refine ⟨Ex.oneByOne_totals _, Ex.tenthSpec_wf, Ex.tenthSpec_nonneg, ?_, rfl, ?_, ?_, ?_, ?_, ?_⟩
  · simp only [Ex.tenthSpec, List.mem_cons, List.not_mem_nil, or_false, forall_eq, Ex.tenths]
    norm_num [binary]
  · norm_num [Ex.tenths]
  · norm_num
  · norm_num [Ex.tenths, binary]
  · norm_num [Ex.tenths]
  · norm_num [Ex.tenths]

end Verif
