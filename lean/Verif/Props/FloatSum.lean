import Verif.Lemmas.FloatSum
import Verif.Props.Rebin
import Verif.Props.FloatShrink
import Verif.Lemmas.Smear
import Verif.Lemmas.Minimise

/-! # Properties of sums of bins in floating point arithmetic -/

namespace Verif

open Finset Rounding

/-! ### projections -/

theorem projectBy_loop (sm : ℕ → List ℕ → List ℚ → ℚ) (s : Spectrum) (dim : PyStr) :
    s.projectBy sm dim = (do
      let axis ← s.getIndex dim
      sumLoop (fun i a k => a.sumAxisBy (sm i) k) (fun i _ => some (if axis < i + 1 then 1 else 0))
        (List.range (s.cfg.length - 1)) s.data) := by
  unfold Spectrum.projectBy sumLoop
  congr 1; funext axis; congr 1; funext a i
  dsimp only
  split <;> rfl

theorem project_loop (s : Spectrum) (dim : PyStr) :
    s.project dim = (do
      let axis ← s.getIndex dim
      sumLoop (fun _ a k => a.sumAxis k) (fun i _ => some (if axis < i + 1 then 1 else 0))
        (List.range (s.cfg.length - 1)) s.data) := by
  unfold Spectrum.project sumLoop
  congr 1; funext axis; congr 1; funext a i
  dsimp only
  split <;> rfl

/-- Loops that sum over the axes with `P`. -/
theorem filterBy_loop (sum : ℕ → NdArray ℚ → ℕ → Except PyErr (NdArray ℚ)) (P : ℕ → Prop)
    [DecidablePred P] (l : List ℕ) (a : NdArray ℚ) :
    l.foldlM (fun (proj : NdArray ℚ) i => if P i then sum i proj i else pure proj) a =
      sumLoop sum (fun i _ => if P i then some i else none) l a := by
  unfold sumLoop
  congr 1; funext a i
  by_cases h : P i <;> simp [h]

theorem loop_accurate (R : Rounding) {sm : ℕ → List ℕ → List ℚ → ℚ} (hs : R.Sums sm)
    (pick : ℕ → ℕ → Option ℕ) (l : List ℕ) (a : NdArray ℚ) :
    R.Accurate a.shape.sum (sumLoop (fun i a k => a.sumAxisBy (sm i) k) pick l a)
      (sumLoop (fun _ a k => a.sumAxis k) pick l a)
      (sumLoop (fun _ a k => a.sumAxis k) pick l a.abs) := by
  rcases R.loop_near hs pick l (R.chain_self a) with
    ⟨err, h1, h2⟩ | ⟨N, d, e, m, h1, h2, h3, h4, h5⟩
  · rw [h1, h2]; rfl
  · rw [h1, h2, h3]
    refine ⟨d, m, rfl, rfl, h5.1, fun i hi => ?_⟩
    have : a.shape.sum - e.shape.sum = N := by omega
    rw [this]
    exact (h5.2.2 i hi).1

theorem loop_same (R : Rounding) {sm : ℕ → List ℕ → List ℚ → ℚ} (hs : R.Sums sm)
    (pick : ℕ → ℕ → Option ℕ) (l : List ℕ) (a : NdArray ℚ) (ha : R.Counts a) :
    SameArray (sumLoop (fun i a k => a.sumAxisBy (sm i) k) pick l a)
      (sumLoop (fun _ a k => a.sumAxis k) pick l a) := by
  rcases R.loop_exact hs pick l ⟨NdArray.Eqv.refl a, ha⟩ with
    ⟨err, h1, h2⟩ | ⟨d, e, h1, h2, h5⟩
  · rw [h1, h2]; rfl
  · rw [h1, h2]
    exact ⟨d, rfl, h5.1⟩

/-- **C135, projection.** Whatever order numpy adds in, each cell of a projection is the exact one
up to one rounding for each bin on the axes that are summed over. -/
theorem c135_project (R : Rounding) (sm : ℕ → List ℕ → List ℚ → ℚ) (hs : R.Sums sm) (s : Spectrum)
    (dim : PyStr) :
    R.Accurate s.data.shape.sum (s.projectBy sm dim) (s.project dim) (s.abs.project dim) := by
  rw [projectBy_loop, project_loop, project_loop]
  have hi : s.abs.getIndex dim = s.getIndex dim := rfl
  rw [hi]
  cases s.getIndex dim with
  | error e => rfl
  | ok axis =>
    exact loop_accurate R hs (fun i _ => some (if axis < i + 1 then 1 else 0))
      (List.range (s.cfg.length - 1)) s.data

/-- **C135, projection on several dimensions.** -/
theorem c135_nd_project (R : Rounding) (sm : ℕ → List ℕ → List ℚ → ℚ) (hs : R.Sums sm)
    (s : Spectrum) (dims : List PyStr) :
    R.Accurate s.data.shape.sum (s.ndProjectBy sm dims) (s.ndProject dims)
      (s.abs.ndProject dims) := by
  unfold Spectrum.ndProjectBy Spectrum.ndProject
  have hi : s.abs.getIndex = s.getIndex := rfl
  rw [hi]
  cases dims.mapM s.getIndex with
  | error e => rfl
  | ok axes =>
    simp only [bind, Except.bind, show s.abs.cfg = s.cfg from rfl, show s.abs.data = s.data.abs from rfl]
    by_cases h : axes.length = s.cfg.length
    · rw [if_pos h, if_pos h, if_pos h]
      exact ⟨_, _, rfl, rfl, rfl, by simp⟩
    · rw [if_neg h, if_neg h, if_neg h]
      simp only [filterBy_loop (fun i a k => a.sumAxisBy (sm i) k) (fun i => i ∉ axes),
        filterBy_loop (fun _ a k => a.sumAxis k) (fun i => i ∉ axes)]
      exact loop_accurate R hs _ _ s.data

/-- **C135, surface.** -/
theorem c135_surface (R : Rounding) (sm : ℕ → List ℕ → List ℚ → ℚ) (hs : R.Sums sm)
    (s : Spectrum) (d1 d2 : PyStr) :
    R.Accurate s.data.shape.sum (s.surfaceBy sm d1 d2) (s.surface d1 d2)
      (s.abs.surface d1 d2) := by
  unfold Spectrum.surfaceBy Spectrum.surface
  have hi : s.abs.getIndex = s.getIndex := rfl
  rw [hi]
  cases s.getIndex d1 with
  | error e => rfl
  | ok a1 =>
    cases s.getIndex d2 with
    | error e => rfl
    | ok a2 =>
      simp only [bind, Except.bind, show s.abs.cfg = s.cfg from rfl,
        show s.abs.data = s.data.abs from rfl]
      by_cases h : s.cfg.length < a1
      · rw [if_pos h, if_pos h, if_pos h]; rfl
      · rw [if_neg h, if_neg h, if_neg h]
        by_cases h' : s.cfg.length < a2
        · rw [if_pos h', if_pos h', if_pos h']; rfl
        · rw [if_neg h', if_neg h', if_neg h']
          simp only [filterBy_loop (fun i a k => a.sumAxisBy (sm i) k) (fun i => i ≠ a1 ∧ i ≠ a2),
            filterBy_loop (fun _ a k => a.sumAxis k) (fun i => i ≠ a1 ∧ i ≠ a2)]
          exact loop_accurate R hs _ _ s.data

/-- **C135, counts.** Projections of spectra of whole numbers, as filled with unit weights, have no
rounding errors as long as the sum of the contents is below `R.big`. -/
theorem c135_counts (R : Rounding) (sm : ℕ → List ℕ → List ℚ → ℚ) (hs : R.Sums sm) (s : Spectrum)
    (hc : R.Counts s.data) :
    (∀ dim, SameArray (s.projectBy sm dim) (s.project dim)) ∧
    (∀ dims, SameArray (s.ndProjectBy sm dims) (s.ndProject dims)) ∧
    ∀ d1 d2, SameArray (s.surfaceBy sm d1 d2) (s.surface d1 d2) := by
  refine ⟨fun dim => ?_, fun dims => ?_, fun d1 d2 => ?_⟩
  · rw [projectBy_loop, project_loop]
    cases s.getIndex dim with
    | error e => rfl
    | ok axis =>
      exact loop_same R hs (fun i _ => some (if axis < i + 1 then 1 else 0))
        (List.range (s.cfg.length - 1)) s.data hc
  · unfold Spectrum.ndProjectBy Spectrum.ndProject
    cases dims.mapM s.getIndex with
    | error e => rfl
    | ok axes =>
      simp only [bind, Except.bind]
      by_cases h : axes.length = s.cfg.length
      · rw [if_pos h, if_pos h]
        exact ⟨_, rfl, NdArray.Eqv.refl _⟩
      · rw [if_neg h, if_neg h]
        simp only [filterBy_loop (fun i a k => a.sumAxisBy (sm i) k) (fun i => i ∉ axes),
          filterBy_loop (fun _ a k => a.sumAxis k) (fun i => i ∉ axes)]
        exact loop_same R hs _ _ s.data hc
  · unfold Spectrum.surfaceBy Spectrum.surface
    cases s.getIndex d1 with
    | error e => rfl
    | ok a1 =>
      cases s.getIndex d2 with
      | error e => rfl
      | ok a2 =>
        simp only [bind, Except.bind]
        by_cases h : s.cfg.length < a1
        · rw [if_pos h, if_pos h]; rfl
        · rw [if_neg h, if_neg h]
          by_cases h' : s.cfg.length < a2
          · rw [if_pos h', if_pos h']; rfl
          · rw [if_neg h', if_neg h']
            simp only [filterBy_loop (fun i a k => a.sumAxisBy (sm i) k)
                (fun i => i ≠ a1 ∧ i ≠ a2),
              filterBy_loop (fun _ a k => a.sumAxis k) (fun i => i ≠ a1 ∧ i ≠ a2)]
            exact loop_same R hs _ _ s.data hc

/-! ### rebinning -/

theorem negBy_loop (sm : ℕ → List ℕ → List ℚ → ℚ) (l : List ℕ) (a : NdArray ℚ) :
    l.foldlM (fun (c : NdArray ℚ) i => c.sumAxisNegBy (sm i) (i + 1)) a =
      sumLoop (fun i a k => a.sumAxisBy (sm i) k)
        (fun i n => some (if i + 1 ≤ n then n - (i + 1) else n)) l a := by
  unfold sumLoop
  congr 1; funext a i
  unfold NdArray.sumAxisNegBy
  dsimp only
  split
  · rfl
  · unfold NdArray.sumAxisBy NdArray.ndim
    rw [List.getElem?_eq_none (le_refl _)]

theorem neg_loop (l : List ℕ) (a : NdArray ℚ) :
    l.foldlM (fun (c : NdArray ℚ) i => c.sumAxisNeg (i + 1)) a =
      sumLoop (fun _ a k => a.sumAxis k)
        (fun i n => some (if i + 1 ≤ n then n - (i + 1) else n)) l a := by
  unfold sumLoop
  congr 1; funext a i
  unfold NdArray.sumAxisNeg
  dsimp only
  split
  · rfl
  · unfold NdArray.sumAxis NdArray.ndim
    rw [List.getElem?_eq_none (le_refl _)]

theorem compression_sum {ns shape : List ℕ} (h : ns.length = shape.length) :
    (Spectrum.compression ns shape).sum =
      (List.zipWith (fun c d => c / d) shape ns).sum + ns.sum := by
  unfold Spectrum.compression
  induction ns generalizing shape with
  | nil => cases shape <;> simp_all
  | cons n ns ih =>
    cases shape with
    | nil => simp at h
    | cons c shape =>
      simp only [List.zipWith_cons_cons, List.flatten_cons, List.sum_append, List.sum_cons,
        List.sum_nil, ih (by simpa using h)]
      omega

/-- **C135, rebinning.** Rebinning accepts and refuses the same bin counts, and each new bin holds
the sum of the merged bins up to one rounding for each bin merged into one along each axis. For
whole numbers there is no error at all. -/
theorem c135_rebin (R : Rounding) (sm : ℕ → List ℕ → List ℚ → ℚ) (hs : R.Sums sm) (s : Spectrum)
    (hw : s.WF) (ns : List ℕ) :
    (s.rebinBy sm ns).err = (s.rebin ns).err ∧
    (s.rebinBy sm ns).st = { (s.rebin ns).st with data := (s.rebinBy sm ns).st.data } ∧
    ((s.rebin ns).err = none →
      R.Within (List.zipWith (fun c n => c / n) s.data.shape ns).sum (s.rebinBy sm ns).st.data
        (s.rebin ns).st.data (s.abs.rebin ns).st.data) ∧
    (R.Counts s.data → (s.rebinBy sm ns).st.data.Eqv (s.rebin ns).st.data) := by
  have habs : s.abs.cfg = s.cfg := rfl
  by_cases hl : ns.length = s.cfg.length
  swap
  · have e1 : s.rebinBy sm ns = .fail s .valueError := by
      unfold Spectrum.rebinBy; rw [if_pos hl]
    have e2 : s.rebin ns = .fail s .valueError := by
      unfold Spectrum.rebin; rw [if_pos hl]
    rw [e1, e2]
    exact ⟨rfl, rfl, (fun h => by cases h), fun _ => NdArray.Eqv.refl _⟩
  cases hr : (Spectrum.rebinLoop s.cfg ns).2 with
  | some e =>
    have e1 : s.rebinBy sm ns = .fail { s with cfg := (Spectrum.rebinLoop s.cfg ns).1 } e := by
      unfold Spectrum.rebinBy; rw [if_neg (by simpa using hl)]; simp only [hr]
    have e2 : s.rebin ns = .fail { s with cfg := (Spectrum.rebinLoop s.cfg ns).1 } e := by
      unfold Spectrum.rebin; rw [if_neg (by simpa using hl)]; simp only [hr]
    rw [e1, e2]
    exact ⟨rfl, rfl, (fun h => by cases h), fun _ => NdArray.Eqv.refl _⟩
  | none =>
    have hpos : ∀ p ∈ s.cfg, 0 < p.bins := fun p hp => (hw.axes p hp).1
    obtain ⟨L, hL1, hL2, hL3⟩ := pairs_exist hpos hw.shape ((rebinLoop_ok_iff hl hpos).1 hr)
    obtain ⟨e, he, hie⟩ := rebinData_ok hL2 hL3
    rw [← hL1] at he hie
    have hlen : ns.length = s.data.shape.length := by rw [hL1, hL2]; simp
    have hre : ∃ b, s.data.reshape (Spectrum.compression ns s.data.shape) = .ok b := by
      unfold Spectrum.rebinData at he
      cases hb : s.data.reshape (Spectrum.compression ns s.data.shape) with
      | error x => rw [hb] at he; cases he
      | ok b => exact ⟨b, rfl⟩
    obtain ⟨b, hb⟩ := hre
    have hbs : b.shape = Spectrum.compression ns s.data.shape := by
      unfold NdArray.reshape at hb
      split at hb <;> cases hb
      rfl
    have hab : s.abs.data.reshape (Spectrum.compression ns s.abs.data.shape) = .ok b.abs :=
      reshape_abs hb
    have f1 : Spectrum.rebinDataBy sm s.data ns = sumLoop (fun i a k => a.sumAxisBy (sm i) k)
        (fun i n => some (if i + 1 ≤ n then n - (i + 1) else n)) (List.range ns.length) b := by
      unfold Spectrum.rebinDataBy
      rw [hb]
      exact negBy_loop sm _ b
    have f2 : Spectrum.rebinData s.data ns = sumLoop (fun _ a k => a.sumAxis k)
        (fun i n => some (if i + 1 ≤ n then n - (i + 1) else n)) (List.range ns.length) b := by
      unfold Spectrum.rebinData
      rw [hb]
      exact neg_loop _ b
    have f3 : Spectrum.rebinData s.abs.data ns = sumLoop (fun _ a k => a.sumAxis k)
        (fun i n => some (if i + 1 ≤ n then n - (i + 1) else n)) (List.range ns.length) b.abs := by
      unfold Spectrum.rebinData
      rw [hab]
      exact neg_loop _ b.abs
    have hacc := loop_accurate R hs (fun i n => some (if i + 1 ≤ n then n - (i + 1) else n))
      (List.range ns.length) b
    rw [← f1, ← f2, ← f3, he] at hacc
    obtain ⟨d, m, hd, hm, hwi⟩ := hacc
    have e1 : s.rebinBy sm ns =
        .ok { s with cfg := (Spectrum.rebinLoop s.cfg ns).1, data := d } := by
      unfold Spectrum.rebinBy; rw [if_neg (by simpa using hl)]; simp only [hr, hd]
    have e2 : s.rebin ns = .ok { s with cfg := (Spectrum.rebinLoop s.cfg ns).1, data := e } := by
      unfold Spectrum.rebin; rw [if_neg (by simpa using hl)]; simp only [hr, he]
    have e3 : s.abs.rebin ns =
        .ok { s.abs with cfg := (Spectrum.rebinLoop s.cfg ns).1, data := m } := by
      unfold Spectrum.rebin; rw [habs, if_neg (by simpa using hl)]; simp only [hr, hm]
    rw [e1, e2, e3]
    refine ⟨rfl, rfl, fun _ => ?_, fun hc => ?_⟩
    · have hN : b.shape.sum - e.shape.sum =
          (List.zipWith (fun c n => c / n) s.data.shape ns).sum := by
        rw [hbs, hie.1, compression_sum hlen]
        omega
      rw [hN] at hwi
      exact hwi
    · have := loop_same R hs (fun i n => some (if i + 1 ≤ n then n - (i + 1) else n))
        (List.range ns.length) b (R.reshape_counts hb hc)
      rw [← f1, ← f2, he, hd] at this
      obtain ⟨d', hd', h⟩ := this
      cases hd'
      exact h

/-! ### totals -/

/-- **C135, total.** The sum of all cells is right up to one rounding per cell, and exact for whole
numbers. -/
theorem c135_sum (R : Rounding) (tot : List ℚ → ℚ) (ht : R.Totals tot) (s : Spectrum) :
    |s.sumBy tot - s.sum| ≤ ((1 + R.u) ^ s.data.shape.prod - 1) * s.abs.sum ∧
    (R.Counts s.data → s.sumBy tot = s.sum) := by
  have h1 : ((allIdx s.data.shape).map s.data.get).sum = s.sum := sum_allIdx _ _
  have h2 : (((allIdx s.data.shape).map s.data.get).map abs).sum = s.abs.sum := by
    rw [List.map_map]; exact sum_allIdx _ _
  constructor
  · have := R.total_near ht ((allIdx s.data.shape).map s.data.get)
    rwa [h1, h2, List.length_map, length_allIdx] at this
  · intro hc
    rw [← h1]
    refine R.total_exact ht _ ?_ ?_
    · intro x hx
      obtain ⟨i, hi, rfl⟩ := List.mem_map.1 hx
      exact hc.1 i (mem_allIdx.1 hi)
    · rw [h2]; exact hc.2

/-! ### adding spectra -/

/-- **C135, adding.** Adding accepts and refuses the same spectra. Each cell is the sum of the two
up to one rounding, and exact for whole numbers. -/
theorem c135_add (R : Rounding) (s t : Spectrum) :
    (R.addSpectrum s t).err = (s.add t).err ∧
    ((s.add t).err = none → ∀ i,
      |(R.addSpectrum s t).st.data.get i - (s.data.get i + t.data.get i)| ≤
        R.u * |s.data.get i + t.data.get i| ∧
      (IsWhole (s.data.get i) → IsWhole (t.data.get i) → |s.data.get i + t.data.get i| ≤ R.big →
        (R.addSpectrum s t).st.data.get i = s.data.get i + t.data.get i)) := by
  unfold addSpectrum Spectrum.add
  cases s.addCheck t with
  | error e => exact ⟨rfl, fun h => by cases h⟩
  | ok u =>
    exact ⟨rfl, fun _ i => ⟨R.rel _, fun h1 h2 h3 => rnd_whole R (isWhole_add h1 h2) h3⟩⟩

/-- **C135, adding in either order** gives the same contents, rounding included. -/
theorem c135_add_comm (R : Rounding) (s t : Spectrum) (h1 : (s.add t).err = none)
    (h2 : (t.add s).err = none) :
    (R.addSpectrum s t).st.data = (R.addSpectrum t s).st.data ∧
    (R.addSpectrum s t).st.numDecays = (R.addSpectrum t s).st.numDecays := by
  unfold addSpectrum
  unfold Spectrum.add at h1 h2
  cases hx : s.addCheck t with
  | error e => rw [hx] at h1; cases h1
  | ok u =>
    cases hy : t.addCheck s with
    | error e => rw [hy] at h2; cases h2
    | ok v =>
      have hsh : s.data.shape = t.data.shape := by
        unfold Spectrum.addCheck at hx
        by_contra hne
        rw [if_pos hne] at hx
        cases hx
      simp only [Outcome.ok, hsh, Rounding.add]
      exact ⟨by congr 1; funext j; rw [add_comm], by rw [add_comm]⟩

/-- **C135, adding more.** Adding a spectrum without negative contents lowers no cell, however small
the contents added are. -/
theorem c135_add_more (R : Rounding) (s t : Spectrum) (h : (s.add t).err = none) (i : List ℕ)
    (hr : R.Rep (s.data.get i)) (ht : 0 ≤ t.data.get i) :
    s.data.get i ≤ (R.addSpectrum s t).st.data.get i := by
  unfold addSpectrum
  unfold Spectrum.add at h
  cases hx : s.addCheck t with
  | error e => rw [hx] at h; cases h
  | ok u =>
    have : R.rnd (s.data.get i) ≤ R.rnd (s.data.get i + t.data.get i) := R.mono (by linarith)
    rw [hr] at this
    exact this

/-! ### the efficiency of a region of interest -/

theorem inB_slice {cfg : List SPar} {rs : List (ℕ × ℕ)} {shape idx : List ℕ}
    (hr : List.Forall₂ (fun (p : SPar) (r : ℕ × ℕ) => r.1 ≤ r.2 ∧ (r.2 : ℤ) ≤ p.bins) cfg rs)
    (hs : shape.map (fun n : ℕ => (n : ℤ)) = cfg.map SPar.bins)
    (hi : InB (rs.map fun r => r.2 - r.1) idx) :
    InB shape (List.zipWith (fun (r : ℕ × ℕ) i => r.1 + i) rs idx) := by
  induction hr generalizing shape idx with
  | nil =>
    cases shape with
    | nil => simp
    | cons n shape => simp at hs
  | @cons p r cfg rs h _ ih =>
    cases shape with
    | nil => simp at hs
    | cons n shape =>
      simp only [List.map_cons, List.cons.injEq] at hs
      cases idx with
      | nil => simp at hi
      | cons j idx =>
        simp only [List.map_cons, inB_cons_cons] at hi
        simp only [List.zipWith_cons_cons, inB_cons_cons]
        exact ⟨by omega, ih hs.2 hi.2⟩

/-- **C135, efficiency.** For counts, and bounds that are bin edges as in C127, `shrink_to_roi`
records the fraction of the counts inside the region, with a single rounding; it is between 0
and 1. -/
theorem c135_efficiency (R : Rounding) (c : ℚ) (hc : |c - 99 / 100| ≤ R.u) (δ κ : ℚ)
    (hδ : δ ≤ 1 / 1000) (hκ : κ ≤ 1 / 10000) (s : Spectrum) (hs : s.WF)
    (ha : ∀ p ∈ s.cfg, AlignedUpTo p R.u δ κ) (lower upper : ℚ) (p : SPar) (hp : p ∈ s.cfg)
    (rs : List (ℕ × ℕ))
    (hq : AsksNear s [(p.name ++ lit "_low", lower), (p.name ++ lit "_high", upper)] rs δ)
    (tot tot' : List ℚ → ℚ) (ht : R.Totals tot) (ht' : R.Totals tot') (hcount : R.Counts s.data)
    (hnn : ∀ i, InB s.data.shape i → 0 ≤ s.data.get i) (h1 : 1 ≤ R.big) (hpos : 0 < s.sum) :
    (R.shrinkToRoi c tot tot' s lower upper p.name).err = none ∧
    ∃ roi, assoc (R.shrinkToRoi c tot tot' s lower upper p.name).st.rois p.name = some roi ∧
      roi.efficiency = R.rnd (sumIdx (rs.map fun r => r.2 - r.1)
        (fun i => s.data.get (List.zipWith (fun r j => r.1 + j) rs i)) / s.sum) ∧
      0 ≤ roi.efficiency ∧ roi.efficiency ≤ 1 := by
  set kw := [(p.name ++ lit "_low", lower), (p.name ++ lit "_high", upper)] with hkw
  obtain ⟨g1, ⟨g2, g3⟩, -, g5⟩ := c127_shrink R c hc δ κ hδ hκ s hs ha
    (List.ne_nil_of_mem hp) kw rs hq
  set t := (R.shrink c s kw).st with ht0
  have hf : List.Forall₂ (fun (p : SPar) (r : ℕ × ℕ) => r.1 ≤ r.2 ∧ (r.2 : ℤ) ≤ p.bins) s.cfg rs :=
    hq.2.2.imp fun p r h => ⟨h.1, h.2.1⟩
  have hlen : (rs.map fun r => ((r.1 : ℤ), (r.2 : ℤ))).length = s.data.shape.length := by
    have e1 := hf.length_eq
    have e2 := congrArg List.length hs.shape
    simp only [List.length_map] at e2 ⊢
    omega
  -- sums over the region
  have region : ∀ a : NdArray ℚ, a.shape = s.data.shape → (∀ i, InB a.shape i → 0 ≤ a.get i) →
      0 ≤ sumIdx (rs.map fun r => r.2 - r.1)
        (fun i => a.get (List.zipWith (fun r j => r.1 + j) rs i)) ∧
      sumIdx (rs.map fun r => r.2 - r.1)
        (fun i => a.get (List.zipWith (fun r j => r.1 + j) rs i)) ≤ a.sum := by
    intro a h2 h3
    have := slice_sum_le a h3 (rs.map fun r => ((r.1 : ℤ), (r.2 : ℤ))) (by rw [h2]; exact hlen)
    have hsl : IsSlice { s with data := a } rs
        { s with data := a.slice (rs.map fun r => ((r.1 : ℤ), (r.2 : ℤ))) } :=
      isSlice_of_bounds (s := { s with data := a })
        ⟨hs.axes, hs.names, by rw [← hs.shape, ← h2]⟩ hf rfl
    have e : (a.slice (rs.map fun r => ((r.1 : ℤ), (r.2 : ℤ)))).sum =
        sumIdx (rs.map fun r => r.2 - r.1)
          (fun i => a.get (List.zipWith (fun r j => r.1 + j) rs i)) := by
      unfold NdArray.sum
      have h4 := hsl.1
      dsimp only at h4
      rw [← h4]
      exact sumIdx_congr hsl.2
    rwa [e] at this
  have htsum : t.sum = sumIdx (rs.map fun r => r.2 - r.1)
      (fun i => s.data.get (List.zipWith (fun r j => r.1 + j) rs i)) := by
    unfold Spectrum.sum NdArray.sum
    rw [← g2]
    exact sumIdx_congr g3
  have htc : R.Counts t.data := by
    refine ⟨fun i hi => ?_, le_trans ?_ hcount.2⟩
    · rw [g3 i hi]
      rw [g2] at hi
      exact hcount.1 _ (inB_slice hf hs.shape hi)
    · have := (region s.data.abs rfl fun i _ => abs_nonneg _).2
      refine le_of_eq_of_le ?_ this
      unfold NdArray.sum NdArray.abs
      dsimp only
      rw [← g2]
      exact sumIdx_congr fun i hi => by rw [g3 i hi]
  have e1 : s.sumBy tot = s.sum := (c135_sum R tot ht s).2 hcount
  have e2 : t.sumBy tot' = t.sum := (c135_sum R tot' ht' t).2 htc
  obtain ⟨q, hq1, hq2⟩ : ∃ q, t.getPar p.name = .ok q ∧ True := by
    have hnames : t.cfg.map SPar.name = s.cfg.map SPar.name := by
      have hl := hf.length_eq
      clear * - g5 hl
      generalize t.cfg = cfg' at *
      generalize s.cfg = cfg at *
      induction cfg generalizing rs cfg' with
      | nil => cases g5; rfl
      | cons x cfg ih =>
        cases rs with
        | nil => simp at hl
        | cons r rs =>
          cases g5 with
          | cons h h' =>
            simp only [List.map_cons, h.1]
            rw [ih _ _ (by simpa using hl) h']
    have hm : p.name ∈ t.cfg.map SPar.name := by
      rw [hnames]; exact List.mem_map.2 ⟨p, hp, rfl⟩
    obtain ⟨q, hq, hqn⟩ := List.mem_map.1 hm
    rw [← hqn]
    exact ⟨q, getPar_mem (by rw [hnames]; exact hs.names) hq, trivial⟩
  have hform : R.shrinkToRoi c tot tot' s lower upper p.name = .ok { t with
      rois := (p.name, ⟨q.low, q.high, R.div (t.sumBy tot') (s.sumBy tot)⟩) :: t.rois } := by
    unfold Rounding.shrinkToRoi
    simp only [← hkw, g1, e1, if_neg hpos.ne']
    rw [← ht0, hq1]
  rw [hform]
  have hr := region s.data rfl hnn
  refine ⟨rfl, _, by simp only [Outcome.ok, assoc, List.find?_cons, decide_true, Option.map_some]; rfl,
    ?_, ?_, ?_⟩
  · simp only [e1, e2, htsum, Rounding.div]
  · simp only [e1, e2, htsum, Rounding.div]
    exact R.rnd_nonneg (div_nonneg hr.1 hpos.le)
  · simp only [e1, e2, htsum, Rounding.div]
    have : R.rnd (sumIdx (rs.map fun r => r.2 - r.1)
        (fun i => s.data.get (List.zipWith (fun r j => r.1 + j) rs i)) / s.sum) ≤ R.rnd 1 :=
      R.mono ((div_le_one hpos).2 hr.2)
    have h1' := R.rnd_nat h1
    rw [Nat.cast_one] at h1'
    rwa [h1'] at this

namespace Ex

/-- Adding one number after the other. -/
def oneByOne : List ℚ → SumTree
  | [] => .zero
  | x :: l => .node (oneByOne l) (.leaf x)

theorem oneByOne_leaves (l : List ℚ) : (oneByOne l).leaves.Perm l := by
  induction l with
  | nil => exact .refl _
  | cons x l ih =>
    exact (List.perm_append_comm (l₁ := (oneByOne l).leaves) (l₂ := [x])).trans (ih.cons x)

/-- python's floats -/
noncomputable def R53 : Rounding := binary 53 (by norm_num)

theorem oneByOne_totals (R : Rounding) : R.Totals fun l => R.sumTree (oneByOne l) :=
  fun l => ⟨oneByOne l, oneByOne_leaves l, rfl⟩

end Ex

/-- Sums as python's `sum` computes them. -/
example : Ex.R53.Sums fun _ _ l => Ex.R53.sumTree (Ex.oneByOne l) :=
  fun _ _ => Ex.oneByOne_totals _

/-- The spectrum of C127 with a count in each of its thousand bins, and all other hypotheses of the
efficiency that C127 does not have. -/
example : Ex.R53.Counts Ex.fineSpec.data ∧ (∀ i, InB Ex.fineSpec.data.shape i → 0 ≤ Ex.fineSpec.data.get i) ∧
    1 ≤ Ex.R53.big ∧ 0 < Ex.fineSpec.sum ∧ Ex.fine ∈ Ex.fineSpec.cfg ∧
    Ex.fineCut = [(Ex.fine.name ++ lit "_low", roundBits 53 (29 / 100)),
      (Ex.fine.name ++ lit "_high", roundBits 53 (435 / 100))] := by
  have hsum : sumIdx [1000] (fun _ => (1 : ℚ)) = 1000 := by
    simp [sumIdx_cons]
  refine ⟨⟨fun _ _ => ⟨1, by simp [Ex.fineSpec]⟩, ?_⟩, fun _ _ => by simp [Ex.fineSpec], ?_, ?_,
    by simp [Ex.fineSpec], rfl⟩
  · have : Ex.fineSpec.data.abs.sum = 1000 := by
      unfold NdArray.sum NdArray.abs Ex.fineSpec
      simp only [abs_one]
      exact hsum
    rw [this]
    norm_num [Ex.R53, binary]
  · norm_num [Ex.R53, binary]
  · have : Ex.fineSpec.sum = 1000 := hsum
    rw [this]; norm_num

/-- A rebin that is accepted, of a spectrum of two axes. -/
example : Ex.spec.WF ∧ (Ex.spec.rebin [2, 1]).err = none := ⟨Ex.spec_wf, by decide +kernel⟩

/-- Spectra that can be added in either order. -/
example : (Ex.spec.add Ex.spec).err = none := by decide +kernel

end Verif
