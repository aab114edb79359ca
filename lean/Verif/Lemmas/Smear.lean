import Verif.Model.Smear
import Verif.Lemmas.Shift
import Verif.Lemmas.Fill
import Verif.Lemmas.Shrink
import Verif.Props.Axis

/-! Helper lemmas for smearing. -/

namespace Verif

open Finset

theorem sum_allIdx (s : List ℕ) (f : List ℕ → ℚ) : ((allIdx s).map f).sum = sumIdx s f := by
  induction s generalizing f with
  | nil => simp [allIdx, sumIdx]
  | cons n s ih =>
    simp only [allIdx, sumIdx, List.map_flatMap, List.map_map]
    rw [List.flatMap_def, List.sum_flatten, List.map_map]
    have : (List.sum ∘ fun i => List.map (f ∘ fun x => i :: x) (allIdx s)) =
        fun i => sumIdx s (fun idx => f (i :: idx)) := by
      funext i
      exact ih (fun idx => f (i :: idx))
    rw [this]
    rfl

theorem mem_allIdx {s idx : List ℕ} : idx ∈ allIdx s ↔ InB s idx := by
  induction s generalizing idx with
  | nil => cases idx <;> simp [allIdx]
  | cons n s ih =>
    cases idx with
    | nil => simp [allIdx]
    | cons i idx => simp [allIdx, ih]

theorem smearKw_keys {cfg : List SPar} {k : ℕ} {idx : List ℕ} (hl : idx.length = cfg.length)
    (x : ℚ) : (smearKw cfg k idx x).map Prod.fst = cfg.map SPar.name := by
  apply List.ext_getElem?
  intro q
  unfold smearKw
  simp only [List.getElem?_map, List.getElem?_modify, List.getElem?_zipWith]
  cases hc : cfg[q]? with
  | none => simp
  | some p =>
    have : q < idx.length := by rw [hl]; exact (List.getElem?_eq_some_iff.1 hc).1
    rw [List.getElem?_eq_getElem this]
    simp only [Option.map_some]
    split <;> rfl

theorem smearKw_mem {cfg : List SPar} {k : ℕ} {idx : List ℕ} {x : ℚ} {q : ℕ} {p : SPar} {i : ℕ}
    (hp : cfg[q]? = some p) (hi : idx[q]? = some i) :
    (p.name, if k = q then x else binMean p i) ∈ smearKw cfg k idx x := by
  apply List.mem_of_getElem? (i := q)
  unfold smearKw
  simp only [List.getElem?_modify, List.getElem?_zipWith, hp, hi]
  split <;> rfl

theorem binMean_inCell {p : SPar} (hp : p.WF) {i : ℕ} (hi : (i : ℤ) < p.bins) :
    InCell p (binMean p i) i := by
  have := centre_inCell hp hi
  have e : binMean p i = (p.edge i + p.edge (i + 1)) / 2 := by
    unfold binMean; simp only [SPar.edge_eq]; push_cast; ring
  rw [e]; exact this

theorem smear_cellOf {s : Spectrum} (hs : s.WF) {k j : ℕ} {p : SPar} (hk : s.cfg[k]? = some p)
    {idx : List ℕ} (hi : InB s.data.shape idx) {x : ℚ} (hx : InCell p x j) :
    CellOf s (smearKw s.cfg k idx x) (idx.set k j) := by
  have hb := bins_of_inB hs.shape hi
  have hl := hb.length_eq
  unfold CellOf
  rw [List.forall₂_iff_get]
  refine ⟨by simpa using hl, ?_⟩
  intro q h1 h2
  simp only [List.get_eq_getElem]
  have h3 : q < idx.length := by simpa using h2
  have hq := List.getElem?_eq_getElem h1
  have hiq := List.getElem?_eq_getElem h3
  refine ⟨_, smearKw_mem hq hiq, ?_⟩
  by_cases hkq : k = q
  · subst hkq
    rw [hk] at hq; cases hq
    simpa using hx
  · simp only [hkq, if_false, List.getElem_set]
    refine binMean_inCell (hs.axes _ (List.getElem_mem h1)) ?_
    have := (List.forall₂_iff_get.1 hb).2 q h1 h3
    simpa using this

theorem smear_fill {s acc : Spectrum} (hs : s.WF) (hc : acc.cfg = s.cfg)
    (hsh : acc.data.shape = s.data.shape) {k j : ℕ} {p : SPar} (hk : s.cfg[k]? = some p)
    {idx : List ℕ} (hi : InB s.data.shape idx) {x : ℚ} (hx : InCell p x j) (w : ℚ) :
    acc.fill w (smearKw s.cfg k idx x) =
      .ok { acc with data := acc.data.addAt (idx.set k j) w } := by
  have ha : acc.WF := ⟨by rw [hc]; exact hs.axes, by rw [hc]; exact hs.names,
    by rw [hc, hsh]; exact hs.shape⟩
  have hl : idx.length = s.cfg.length := (bins_of_inB hs.shape hi).length_eq.symm
  have hcell : CellOf acc (smearKw s.cfg k idx x) (idx.set k j) := by
    have := smear_cellOf hs hk hi hx
    unfold CellOf at this ⊢
    rw [hc]; exact this
  have hd : IsDict (smearKw s.cfg k idx x) := by
    unfold IsDict; rw [smearKw_keys hl]; exact hs.names
  have hr : InRange acc (smearKw s.cfg k idx x) := inRange_of_cellOf ha hcell (by
    intro e he
    have : e.1 ∈ s.cfg.map SPar.name := by
      rw [← smearKw_keys hl x]; exact List.mem_map.2 ⟨e, he, rfl⟩
    obtain ⟨q, hq, hqe⟩ := List.mem_map.1 this
    exact ⟨q, by rw [hc]; exact hq, hqe⟩)
  obtain ⟨idx', hidx', hf⟩ := fill_of_inRange ha hd hr w
  rw [hf, cellOf_unique ha hd hidx' hcell]

theorem smear_fill_outside {s acc : Spectrum} (hs : s.WF) (hc : acc.cfg = s.cfg)
    {k : ℕ} {p : SPar} (hk : s.cfg[k]? = some p)
    {idx : List ℕ} (hi : InB s.data.shape idx) {x : ℚ} (hx : x < p.low ∨ p.high ≤ x) (w : ℚ) :
    acc.fill w (smearKw s.cfg k idx x) = .fail acc .valueError := by
  have hl : idx.length = s.cfg.length := (bins_of_inB hs.shape hi).length_eq.symm
  have hd : IsDict (smearKw s.cfg k idx x) := by
    unfold IsDict; rw [smearKw_keys hl]; exact hs.names
  have hkk : ((p.name, x)) ∈ smearKw s.cfg k idx x := by
    have h1 := (List.getElem?_eq_some_iff.1 hk).1
    have := smearKw_mem (k := k) (x := x) hk (List.getElem?_eq_getElem (l := idx) (i := k)
      (by omega))
    simpa using this
  unfold Spectrum.fill
  rw [if_neg]
  · split
    · rename_i hm
      rw [mapM_option_eq_none] at hm
      obtain ⟨q, hq, hqn⟩ := hm
      rw [hc] at hq
      obtain ⟨r, hr⟩ := List.getElem?_of_mem hq
      have h1 := (List.getElem?_eq_some_iff.1 hr).1
      exact absurd (smearKw_mem (k := k) (x := x) hr (List.getElem?_eq_getElem (l := idx) (i := r)
        (by omega))) (assoc_eq_none_iff.1 hqn _)
    · rename_i xs hxs
      rw [if_neg]
      intro hall
      have h2 := mapM_option_eq_some.1 hxs
      have h3 := zip_all_forall₂ h2.length_eq hall
      rw [hc] at h2 h3
      obtain ⟨hk1, hk2⟩ := List.getElem?_eq_some_iff.1 hk
      have g2 := (List.forall₂_iff_get.1 h2).2 k hk1 (by rw [← h2.length_eq]; exact hk1)
      have g3 := (List.forall₂_iff_get.1 h3).2 k hk1 (by rw [← h2.length_eq]; exact hk1)
      simp only [List.get_eq_getElem, hk2] at g2 g3
      rw [(assoc_eq_some_iff hd).2 hkk] at g2
      simp only [Option.some.injEq] at g2
      rw [← g2] at g3
      rcases hx with h | h <;> linarith [g3.1, g3.2]
  · simp only [List.any_eq_true, decide_eq_true_eq, not_exists, not_and, not_not]
    intro e he
    have : e.1 ∈ s.cfg.map SPar.name := by
      rw [← smearKw_keys hl x]; exact List.mem_map.2 ⟨e, he, rfl⟩
    unfold Spectrum.pars; rw [hc]; exact this

/-- The bin of a value. -/
def binOf (p : SPar) (x : ℚ) : ℕ := ⌊(x - p.low) / p.width⌋.toNat

theorem binOf_inCell {p : SPar} (hp : p.WF) {x : ℚ} (h1 : p.low ≤ x) (h2 : x < p.high) :
    InCell p x (binOf p x) := by
  have h0 : 0 ≤ ⌊(x - p.low) / p.width⌋ :=
    Int.floor_nonneg.2 (div_nonneg (by linarith) hp.width_pos.le)
  obtain ⟨i, hi, hc⟩ := (c24_bin_centre_inverse p hp).2.1 x h1 h2
  rw [getBin_of_range hp h1 h2.le] at hi
  have : binOf p x = i := by
    unfold binOf
    simp only [Except.ok.injEq] at hi
    rw [hi]; simp
  rw [this]; exact hc

theorem smear_points_fill {s acc : Spectrum} (hs : s.WF) (hc : acc.cfg = s.cfg)
    (hsh : acc.data.shape = s.data.shape) {k : ℕ} {p : SPar} (hk : s.cfg[k]? = some p)
    {idx : List ℕ} (hi : InB s.data.shape idx) (g : ℚ → ℚ) {pts : List ℚ}
    (hpts : ∀ x ∈ pts, p.low ≤ x ∧ x < p.high) :
    ∃ d : NdArray ℚ, pts.foldlM (fun acc x => fillOrRaise acc (g x) (smearKw s.cfg k idx x)) acc =
        .ok { acc with data := d } ∧ d.shape = acc.data.shape ∧
      ∀ out, d.get out = acc.data.get out +
        (pts.map (fun x => if out = idx.set k (binOf p x) then g x else 0)).sum := by
  have hp := (axis_facts hs hk).2.1
  induction pts generalizing acc with
  | nil => exact ⟨acc.data, rfl, rfl, by simp⟩
  | cons x pts ih =>
    have hx := hpts x (by simp)
    have hf := smear_fill hs hc hsh hk hi (binOf_inCell hp hx.1 hx.2) (g x)
    have hfr : fillOrRaise acc (g x) (smearKw s.cfg k idx x) =
        .ok { acc with data := acc.data.addAt (idx.set k (binOf p x)) (g x) } := by
      unfold fillOrRaise; rw [hf]; rfl
    obtain ⟨d, h1, h2, h3⟩ := ih
      (acc := { acc with data := acc.data.addAt (idx.set k (binOf p x)) (g x) }) hc hsh
      (fun y hy => hpts y (by simp [hy]))
    refine ⟨d, ?_, h2, ?_⟩
    · rw [List.foldlM_cons, hfr]
      exact h1
    · intro out
      rw [h3 out]
      simp only [NdArray.addAt, List.map_cons, List.sum_cons]
      split <;> ring

/-- A loop over all cells in which each round adds a known array. -/
theorem cells_loop {s : Spectrum} {step : Spectrum → List ℕ → Except PyErr Spectrum}
    {f : List ℕ → List ℕ → ℚ} {L : List (List ℕ)} {acc : Spectrum} (hc : acc.cfg = s.cfg)
    (hsh : acc.data.shape = s.data.shape)
    (h : ∀ idx ∈ L, ∀ acc : Spectrum, acc.cfg = s.cfg → acc.data.shape = s.data.shape →
      ∃ d : NdArray ℚ, step acc idx = .ok { acc with data := d } ∧ d.shape = acc.data.shape ∧
        ∀ out, d.get out = acc.data.get out + f idx out) :
    ∃ d : NdArray ℚ, L.foldlM step acc = .ok { acc with data := d } ∧ d.shape = acc.data.shape ∧
      ∀ out, d.get out = acc.data.get out + (L.map (fun idx => f idx out)).sum := by
  induction L generalizing acc with
  | nil => exact ⟨acc.data, rfl, rfl, by simp⟩
  | cons idx L ih =>
    obtain ⟨d, h1, h2, h3⟩ := h idx (by simp) acc hc hsh
    obtain ⟨d', g1, g2, g3⟩ := ih (acc := { acc with data := d }) hc (h2.trans hsh)
      (fun idx hidx => h idx (by simp [hidx]))
    refine ⟨d', ?_, g2.trans h2, ?_⟩
    · rw [List.foldlM_cons, h1]; exact g1
    · intro out
      rw [g3 out]
      simp only [List.map_cons, List.sum_cons]
      rw [h3 out]; ring

theorem set_eq_insert {idx : List ℕ} {k : ℕ} (h : k < idx.length) (i : ℕ) :
    idx.set k i = (idx.eraseIdx k).insertIdx k i := by
  induction idx generalizing k with
  | nil => simp at h
  | cons a l ih =>
    cases k with
    | zero => simp
    | succ k => simp [ih (by simpa using h)]

theorem insertIdx_inj {l m : List ℕ} {k i : ℕ} :
    l.insertIdx k i = m.insertIdx k i ↔ l = m := by
  constructor
  · intro h
    have := congrArg (fun l => l.eraseIdx k) h
    simpa [List.eraseIdx_insertIdx_self] using this
  · rintro rfl; rfl

theorem inB_erase {s idx : List ℕ} (h : InB s idx) (k : ℕ) :
    InB (s.eraseIdx k) (idx.eraseIdx k) := by
  unfold InB at *
  induction h generalizing k with
  | nil => exact .nil
  | cons h1 h2 ih =>
    cases k with
    | zero => exact h2
    | succ k => exact .cons h1 (ih k)

/-- A sum over all cells in which only the cells that agree with `out` off axis `k` count. -/
theorem sumIdx_along {shape out : List ℕ} {k n : ℕ} (hk : shape[k]? = some n)
    (ho : InB shape out) (G : List ℕ → ℚ) :
    sumIdx shape (fun idx => if out.set k (idx.getD k 0) = idx then G idx else 0) =
      ∑ i ∈ range n, G (out.set k i) := by
  have hkl : k < shape.length := (List.getElem?_eq_some_iff.1 hk).1
  have hko : k < out.length := by rw [ho.length_eq]; exact hkl
  rw [← sumIdx_eraseIdx hk, sumIdx_sum]
  refine Finset.sum_congr rfl fun i _ => ?_
  rw [← sumIdx_single (inB_erase ho k) (G (out.set k i))]
  refine sumIdx_congr fun rest hr => ?_
  have hrl := length_of_erase hk hr
  have hel : k ≤ (out.eraseIdx k).length := by rw [List.length_eraseIdx, if_pos hko]; omega
  have e1 : (rest.insertIdx k i).getD k 0 = i := by
    rw [List.getD_eq_getElem?_getD, insertIdx_getElem? hrl]; rfl
  rw [e1, set_eq_insert hko]
  by_cases hre : rest = out.eraseIdx k
  · subst hre; simp
  · rw [if_neg hre, if_neg]
    rw [insertIdx_inj]
    exact fun h => hre h.symm

theorem smearPoints_range {p : SPar} (hp : p.WF) {ns sg mean x : ℚ}
    (h : x ∈ smearPoints p ns sg mean) : p.low ≤ x ∧ x < p.high := by
  have hw := hp.width_pos
  unfold smearPoints npArange at h
  obtain ⟨i, hi, rfl⟩ := List.mem_map.1 h
  rw [List.mem_range, Int.lt_toNat, Int.lt_ceil, lt_div_iff₀ hw] at hi
  have h1 : p.low ≤ (smearWindow p ns sg mean).1 := by
    unfold smearWindow; dsimp only
    split
    · linarith
    · linarith
  have h2 : (smearWindow p ns sg mean).2 ≤ p.high := by
    unfold smearWindow; dsimp only
    split
    · linarith
    · linarith
  have h0 : (0 : ℚ) ≤ (i : ℚ) * p.width := by positivity
  push_cast at hi
  constructor <;> linarith

/-- Share of the contents of bin `i` that goes to bin `j`. -/
def share (sigma : ℚ → ℚ) (weight : ℚ → ℚ → ℚ → ℚ) (ns : ℚ) (p : SPar) (i j : ℕ) : ℚ :=
  let mean := binMean p i
  let sg := sigma mean
  let pts := smearPoints p ns sg mean
  (pts.map (fun x => if binOf p x = j then
    weight x mean sg / (pts.map (fun x => weight x mean sg)).sum else 0)).sum

theorem eq_set_iff {out idx : List ℕ} {k j b : ℕ} (ho : out[k]? = some j) (hi : k < idx.length) :
    out = idx.set k b ↔ out.set k (idx.getD k 0) = idx ∧ b = j := by
  have hd : idx.getD k 0 = idx[k] := by simp [List.getD_eq_getElem?_getD, hi]
  rw [hd]
  constructor
  · rintro rfl
    have : b = j := by simpa [hi] using ho
    refine ⟨?_, this⟩
    rw [List.set_set, List.set_getElem_self]
  · rintro ⟨h, rfl⟩
    conv_rhs => rw [← h]
    rw [List.set_set, set_self ho]

theorem list_sum_pos {l : List ℚ} (h : ∀ x ∈ l, 0 < x) (hne : l ≠ []) : 0 < l.sum := by
  induction l with
  | nil => exact absurd rfl hne
  | cons a l ih =>
    rw [List.sum_cons]
    have ha := h a (by simp)
    by_cases hl : l = []
    · subst hl; simpa using ha
    · linarith [ih (fun x hx => h x (by simp [hx])) hl]

/-- What `weighted_smear` returns. -/
theorem smear_core {s : Spectrum} (hs : s.WF) {k : ℕ} {p : SPar} (hk : s.cfg[k]? = some p)
    (suffix : PyStr) (sigma : ℚ → ℚ) {weight : ℚ → ℚ → ℚ → ℚ} (ns : ℚ)
    (hpos : ∀ x m g, 0 < weight x m g) :
    ∃ t, s.weightedSmear suffix sigma weight ns p.name = .ok t ∧ SameButNameData s t ∧
      t.name = s.name ++ suffix ∧ t.data.shape = s.data.shape ∧
      ∀ out j, InB s.data.shape out → out[k]? = some j → t.data.get out =
        ∑ i ∈ range p.bins.toNat, s.data.get (out.set k i) * share sigma weight ns p i j := by
  obtain ⟨hm, hp, hg, hidx, hsh⟩ := axis_facts hs hk
  have hshape : s.cfg.map (fun p => p.bins.toNat) = s.data.shape := by
    have := congrArg (List.map Int.toNat) hs.shape
    simp only [List.map_map] at this
    rw [show (Int.toNat ∘ SPar.bins) = fun p : SPar => p.bins.toNat from rfl] at this
    rw [← this]
    simp [Function.comp_def]
  unfold Spectrum.weightedSmear
  simp only [bind, Except.bind, throw, throwThe, MonadExceptOf.throw, hg, hidx]
  rw [if_neg, if_neg, hshape]
  · obtain ⟨d, h1, h2, h3⟩ := cells_loop (s := s) (L := allIdx s.data.shape)
      (step := smearCell sigma weight ns s k p)
      (acc := { s with name := s.name ++ suffix, data := .zeros s.data.shape })
      (f := fun idx out => if s.data.get idx = 0 then 0 else
        ((smearPoints p ns (sigma (binMean p (idx.getD k 0))) (binMean p (idx.getD k 0))).map
          (fun x => if out = idx.set k (binOf p x) then
            s.data.get idx * weight x (binMean p (idx.getD k 0)) (sigma (binMean p (idx.getD k 0))) /
            ((smearPoints p ns (sigma (binMean p (idx.getD k 0))) (binMean p (idx.getD k 0))).map
              (fun x => weight x (binMean p (idx.getD k 0))
                (sigma (binMean p (idx.getD k 0))))).sum else 0)).sum)
      rfl rfl (by
        intro idx hidx acc hc hsh'
        rw [mem_allIdx] at hidx
        unfold smearCell
        dsimp only
        by_cases he : s.data.get idx = 0
        · rw [if_pos he]
          exact ⟨acc.data, rfl, rfl, by simp [he]⟩
        · rw [if_neg he, if_neg]
          · obtain ⟨d, h1, h2, h3⟩ := smear_points_fill hs hc hsh' hk hidx
              (g := fun x => s.data.get idx * weight x (binMean p (idx.getD k 0))
                (sigma (binMean p (idx.getD k 0))) /
                ((smearPoints p ns (sigma (binMean p (idx.getD k 0)))
                  (binMean p (idx.getD k 0))).map (fun x => weight x (binMean p (idx.getD k 0))
                (sigma (binMean p (idx.getD k 0))))).sum)
              (pts := smearPoints p ns (sigma (binMean p (idx.getD k 0)))
                (binMean p (idx.getD k 0)))
              (fun x hx => smearPoints_range hp hx)
            refine ⟨d, h1, h2, ?_⟩
            intro out
            rw [h3 out, if_neg he]
          · rintro ⟨hne, h0⟩
            refine absurd h0 (list_sum_pos ?_ ?_).ne'
            · intro y hy
              obtain ⟨x, -, rfl⟩ := List.mem_map.1 hy
              exact hpos _ _ _
            · simpa using hne)
    refine ⟨_, h1, ⟨rfl, rfl, rfl, rfl⟩, rfl, h2, ?_⟩
    intro out j ho hoj
    simp only at h3 ⊢
    rw [h3 out, sum_allIdx]
    simp only [NdArray.zeros, zero_add]
    have hkl' : k < out.length := (List.getElem?_eq_some_iff.1 hoj).1
    have hgd : ∀ i : ℕ, (out.set k i).getD k 0 = i := fun i => by
      simp [List.getD_eq_getElem?_getD, hkl']
    have hal := sumIdx_along hsh ho (fun idx => s.data.get idx *
      share sigma weight ns p (idx.getD k 0) j)
    simp only [hgd] at hal
    rw [← hal]
    · refine sumIdx_congr fun idx hidx => ?_
      have hkl : k < idx.length := by
        rw [hidx.length_eq]; exact (List.getElem?_eq_some_iff.1 hsh).1
      simp only [eq_set_iff hoj hkl]
      by_cases hcond : out.set k (idx.getD k 0) = idx
      · simp only [hcond, true_and, if_true]
        by_cases he : s.data.get idx = 0
        · simp [he]
        · rw [if_neg he]
          unfold share
          dsimp only
          rw [← List.sum_map_mul_left]
          congr 1
          refine List.map_congr_left fun x _ => ?_
          split
          · rw [mul_div_assoc]
          · simp
      · simp only [hcond, false_and, if_false]
        split <;> simp
  · simp only [List.any_eq_true, decide_eq_true_eq, not_exists, not_and]
    intro q hq
    have := (hs.axes q hq).1
    omega
  · rw [not_not]; exact List.mem_map.2 ⟨p, hm, rfl⟩

theorem pyRound_mono {x y : ℚ} (h : x ≤ y) : pyRound x ≤ pyRound y := by
  unfold pyRound
  split
  · rw [if_pos (by linarith)]; exact Int.floor_mono (by linarith)
  · split
    · rename_i h1 h2
      have a : ⌈x - 1 / 2⌉ ≤ 0 := by rw [Int.ceil_le]; push_cast; linarith
      have b : 0 ≤ ⌊y + 1 / 2⌋ := by rw [Int.le_floor]; push_cast; linarith
      omega
    · exact Int.ceil_mono (by linarith)

theorem smearPoints_ne_nil {p : SPar} (hp : p.WF) (h2 : 2 ≤ p.bins) {ns sg : ℚ}
    (hR : 0 ≤ ns * sg) {i : ℕ} (hi : (i : ℤ) < p.bins)
    (hlast : (i : ℤ) + 1 < p.bins ∨ p.width / 2 < ns * sg) :
    smearPoints p ns sg (binMean p i) ≠ [] := by
  have hw := hp.width_pos
  have hh := hp.high_eq
  set m := binMean p i with hm
  have hm1 : p.low + p.width / 2 ≤ m := by
    rw [hm, binMean]
    have : (0 : ℚ) ≤ (i : ℚ) * p.width := by positivity
    linarith
  have hm2 : m ≤ p.high - p.width / 2 := by
    rw [hm, binMean, hh]
    have : ((i : ℚ) + 1) ≤ p.bins := by exact_mod_cast hi
    nlinarith
  have hlt : (smearWindow p ns sg m).1 < (smearWindow p ns sg m).2 := by
    have r1 := abs_le.1 (round_close hp (m - ns * sg - 1 / 2 * p.width))
    have r2 := abs_le.1 (round_close hp (m + ns * sg + 1 / 2 * p.width))
    have hwide : p.low + 2 * p.width ≤ p.high := by
      rw [hh]
      have : (2 : ℚ) ≤ p.bins := by exact_mod_cast h2
      nlinarith
    unfold smearWindow; dsimp only
    split
    · split <;> linarith
    · split
      · rcases hlast with h | h
        · have : m ≤ p.high - 3 / 2 * p.width := by
            rw [hm, binMean, hh]
            have : ((i : ℚ) + 2) ≤ p.bins := by exact_mod_cast (by omega : (i : ℤ) + 2 ≤ p.bins)
            nlinarith
          linarith
        · linarith
      · unfold SPar.round
        have e1 : (m - ns * sg - 1 / 2 * p.width) / p.width + 1 =
            (m - ns * sg + 1 / 2 * p.width) / p.width := by field_simp; ring
        have e2 := pyRound_add_one ((m - ns * sg - 1 / 2 * p.width) / p.width)
        rw [e1] at e2
        have e3 : pyRound ((m - ns * sg + 1 / 2 * p.width) / p.width) ≤
            pyRound ((m + ns * sg + 1 / 2 * p.width) / p.width) :=
          pyRound_mono (by gcongr; linarith)
        have e4 : (pyRound ((m - ns * sg - 1 / 2 * p.width) / p.width) : ℚ) + 1 ≤
            pyRound ((m + ns * sg + 1 / 2 * p.width) / p.width) := by exact_mod_cast e2.trans e3
        nlinarith
  unfold smearPoints npArange
  simp only [ne_eq, List.map_eq_nil_iff, List.range_eq_nil]
  have : 0 < ⌈((smearWindow p ns sg m).2 - (smearWindow p ns sg m).1) / p.width⌉ := by
    rw [Int.ceil_pos]
    apply div_pos _ hw
    linarith
  omega

theorem share_sum {sigma : ℚ → ℚ} {weight : ℚ → ℚ → ℚ → ℚ} {ns : ℚ} {p : SPar} (hp : p.WF)
    (hpos : ∀ x m g, 0 < weight x m g) {i : ℕ}
    (hne : smearPoints p ns (sigma (binMean p i)) (binMean p i) ≠ []) :
    ∑ j ∈ range p.bins.toNat, share sigma weight ns p i j = 1 := by
  unfold share
  dsimp only
  set pts := smearPoints p ns (sigma (binMean p i)) (binMean p i) with hpts
  set T := (pts.map (fun x => weight x (binMean p i) (sigma (binMean p i)))).sum with hT
  have hT0 : 0 < T := by
    apply list_sum_pos
    · intro y hy
      obtain ⟨x, -, rfl⟩ := List.mem_map.1 hy
      exact hpos _ _ _
    · simpa using hne
  have hr : ∀ x ∈ pts, binOf p x < p.bins.toNat := by
    intro x hx
    have h1 := smearPoints_range hp hx
    have := (binOf_inCell hp h1.1 h1.2).1
    omega
  have key : ∀ l : List ℚ, (∀ x ∈ l, binOf p x < p.bins.toNat) →
      ∑ j ∈ range p.bins.toNat, (l.map (fun x => if binOf p x = j then
        weight x (binMean p i) (sigma (binMean p i)) / T else 0)).sum =
      (l.map (fun x => weight x (binMean p i) (sigma (binMean p i)))).sum / T := by
    intro l hl
    induction l with
    | nil => simp
    | cons a l ih =>
      simp only [List.map_cons, List.sum_cons, Finset.sum_add_distrib]
      rw [ih (fun x hx => hl x (by simp [hx])), Finset.sum_ite_eq, if_pos
        (Finset.mem_range.2 (hl a (by simp))), add_div]
  rw [key pts hr, ← hT]
  exact div_self hT0.ne'

theorem share_nonneg {sigma : ℚ → ℚ} {weight : ℚ → ℚ → ℚ → ℚ} {ns : ℚ} {p : SPar}
    (hpos : ∀ x m g, 0 < weight x m g) (i j : ℕ) : 0 ≤ share sigma weight ns p i j := by
  unfold share
  dsimp only
  apply List.sum_nonneg
  intro y hy
  obtain ⟨x, -, rfl⟩ := List.mem_map.1 hy
  split
  · apply div_nonneg (hpos _ _ _).le
    apply List.sum_nonneg
    intro y hy
    obtain ⟨x, -, rfl⟩ := List.mem_map.1 hy
    exact (hpos _ _ _).le
  · rfl

/-- On an axis aligned with zero the points of a window are bin centres. -/
theorem window_aligned {p : SPar} (hp : p.WF) (ha : p.Aligned) {ns sg : ℚ} (i : ℕ) :
    ∃ a b : ℕ, smearPoints p ns sg (binMean p i) =
        (List.range (b - a)).map (fun q : ℕ => binMean p (a + q)) ∧
      b + 1 ≤ p.bins.toNat ∧
      (∀ j : ℕ, j + 1 < p.bins.toNat → |binMean p j - binMean p i| ≤ ns * sg → a ≤ j ∧ j < b) ∧
      (∀ j : ℕ, a ≤ j → j < b → |binMean p j - binMean p i| ≤ ns * sg + p.width / 2) := by
  have hw := hp.width_pos
  have hh := hp.high_eq
  have hb := hp.1
  obtain ⟨M, hM⟩ := ha
  change p.low = M * p.width at hM
  set R := ns * sg with hR
  set r1 := pyRound ((binMean p i - R - 1 / 2 * p.width) / p.width) with hr1
  set r2 := pyRound ((binMean p i + R + 1 / 2 * p.width) / p.width) with hr2
  set L : ℤ := if (r1 : ℚ) * p.width + 1 / 2 * p.width < p.low then 0 else r1 - M with hL
  set B : ℤ := if p.high < (r2 : ℚ) * p.width + 1 / 2 * p.width then p.bins - 1 else r2 - M with hB
  have hwin : smearWindow p ns sg (binMean p i) =
      (p.low + ((L : ℚ) + 1 / 2) * p.width, p.low + ((B : ℚ) + 1 / 2) * p.width) := by
    unfold smearWindow SPar.round
    dsimp only
    rw [← hr1, ← hr2]
    congr 1
    · rw [hL]
      split
      · push_cast; ring
      · push_cast; rw [hM]; ring
    · rw [hB]
      split
      · push_cast; rw [hh]; ring
      · push_cast; rw [hM]; ring
  have hL0 : 0 ≤ L := by
    rw [hL]
    split
    · exact le_rfl
    · rename_i h
      rw [hM] at h
      have h1 : (M : ℚ) * p.width - 1 / 2 * p.width ≤ r1 * p.width := by linarith
      have h2 : ((M : ℚ) - 1 / 2) ≤ r1 := by
        by_contra hc
        have := mul_lt_mul_of_pos_right (not_le.1 hc) hw
        linarith
      have h3 : (M : ℚ) < ((r1 + 1 : ℤ) : ℚ) := by push_cast; linarith
      have h4 : M < r1 + 1 := by exact_mod_cast h3
      omega
  have hBn : B ≤ p.bins - 1 := by
    rw [hB]
    split
    · exact le_rfl
    · rename_i h
      rw [not_lt, hh, hM] at h
      have h2 : ((r2 : ℚ) + 1 / 2) ≤ M + p.bins := by
        by_contra hc
        have := mul_lt_mul_of_pos_right (not_le.1 hc) hw
        linarith
      have h3 : (r2 : ℚ) < ((M + p.bins : ℤ) : ℚ) := by push_cast; linarith
      have h4 : r2 < M + p.bins := by exact_mod_cast h3
      omega
  have hmean : binMean p i = (M + i + 1 / 2) * p.width := by
    unfold binMean; rw [hM]; ring
  have hdiff : ∀ j : ℕ, binMean p j - binMean p i = ((j : ℚ) - i) * p.width := by
    intro j; unfold binMean; ring
  have q1 : (binMean p i - R - 1 / 2 * p.width) / p.width = M + i - R / p.width := by
    rw [hmean]; field_simp; ring
  have q2 : (binMean p i + R + 1 / 2 * p.width) / p.width = M + i + 1 + R / p.width := by
    rw [hmean]; field_simp; ring
  have c1 := abs_le.1 (pyRound_close ((binMean p i - R - 1 / 2 * p.width) / p.width))
  have c2 := abs_le.1 (pyRound_close ((binMean p i + R + 1 / 2 * p.width) / p.width))
  rw [← hr1, q1] at c1
  rw [← hr2, q2] at c2
  refine ⟨L.toNat, B.toNat, ?_, by omega, ?_, ?_⟩
  · unfold smearPoints npArange
    rw [hwin]
    dsimp only
    have e1 : (p.low + ((B : ℚ) + 1 / 2) * p.width - (p.low + ((L : ℚ) + 1 / 2) * p.width)) /
        p.width = ((B - L : ℤ) : ℚ) := by push_cast; field_simp; ring
    rw [e1, Int.ceil_intCast]
    have e2 : (B - L).toNat = B.toNat - L.toNat := by omega
    rw [e2]
    refine List.map_congr_left fun q _ => ?_
    unfold binMean
    have : ((L.toNat : ℕ) : ℚ) = L := by exact_mod_cast Int.toNat_of_nonneg hL0
    push_cast
    rw [this]; ring
  · intro j hj habs
    rw [hdiff, abs_mul, abs_of_pos hw, ← le_div_iff₀ hw, abs_le] at habs
    obtain ⟨a1, a2⟩ := habs
    have s1 : L ≤ j := by
      rw [hL]
      split
      · omega
      · have : r1 ≤ M + j := by
          have hmono : r1 ≤ pyRound (((M + j : ℤ) : ℚ)) := by
            rw [hr1, q1]
            apply pyRound_mono
            push_cast; linarith
          rwa [pyRound_intCast] at hmono
        omega
    have s2 : (j : ℤ) < B := by
      rw [hB]
      split
      · omega
      · have : M + j + 1 ≤ r2 := by
          have hmono : pyRound (((M + j + 1 : ℤ) : ℚ)) ≤ r2 := by
            rw [hr2, q2]
            apply pyRound_mono
            push_cast; linarith
          rwa [pyRound_intCast] at hmono
        omega
    omega
  · intro j h1 h2
    have h1' : L ≤ j := by omega
    have h2' : (j : ℤ) < B := by omega
    rw [hdiff, abs_mul, abs_of_pos hw]
    have s1 : r1 ≤ M + j := by
      rw [hL] at h1'
      split at h1'
      · rename_i h
        rw [hM] at h
        have h3 : (r1 : ℚ) + 1 / 2 < M := by
          by_contra hc
          have := mul_le_mul_of_nonneg_right (not_lt.1 hc) hw.le
          linarith
        have h4 : (r1 : ℚ) < ((M : ℤ) : ℚ) := by linarith
        have h5 : r1 < M := by exact_mod_cast h4
        omega
      · omega
    have s2 : M + j + 1 ≤ r2 := by
      rw [hB] at h2'
      split at h2'
      · rename_i h
        rw [hh, hM] at h
        have h3 : (M : ℚ) + p.bins < (r2 : ℚ) + 1 / 2 := by
          by_contra hc
          have := mul_le_mul_of_nonneg_right (not_lt.1 hc) hw.le
          linarith
        have h4 : ((M + p.bins : ℤ) : ℚ) < ((r2 + 1 : ℤ) : ℚ) := by push_cast; linarith
        have h5 : M + p.bins < r2 + 1 := by exact_mod_cast h4
        omega
      · omega
    have s1' : (r1 : ℚ) ≤ M + j := by exact_mod_cast s1
    have s2' : (M : ℚ) + j + 1 ≤ r2 := by exact_mod_cast s2
    have hle : |(j : ℚ) - i| ≤ R / p.width + 1 / 2 := by
      rw [abs_le]; constructor <;> linarith
    have := mul_le_mul_of_nonneg_right hle hw.le
    have e : (R / p.width + 1 / 2) * p.width = R + p.width / 2 := by field_simp
    linarith

end Verif
