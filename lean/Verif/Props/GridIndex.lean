import Verif.Props.Minimise
import Verif.Spec.GridIndex

/-! # C46: exactly which indices a grid accepts -/

namespace Verif

theorem WithinTwice.inB {s : List ℕ} {idx : List ℤ} (h : WithinTwice s idx) : InB s (fromEnd s idx) := by
  induction h with
  | nil => simp [fromEnd]
  | @cons n i s idx hi _ ih =>
    unfold fromEnd at ih ⊢
    rw [List.zipWith_cons_cons, inB_cons_cons]
    refine ⟨?_, ih⟩
    split <;> omega

theorem npIndex_within {s : List ℕ} {idx : List ℤ} (h : WithinTwice s idx) (c : List ℕ) :
    npIndex (s ++ c) idx = npIndex (s ++ c) ((fromEnd s idx).map (fun n : ℕ => (n : ℤ))) := by
  induction h with
  | nil => cases c <;> rfl
  | @cons n i s idx hi _ ih =>
    unfold fromEnd at ih ⊢
    rw [List.zipWith_cons_cons, List.map_cons, List.cons_append]
    by_cases h0 : i < 0
    · rw [if_pos h0]
      have h1 : ¬ (0 ≤ i ∧ i < n) := by omega
      have h2 : (0 : ℤ) ≤ ((i + n).toNat : ℤ) ∧ ((i + n).toNat : ℤ) < n := by omega
      simp only [npIndex, if_neg h1, if_pos (show i < 0 ∧ -(n : ℤ) ≤ i by omega), if_pos h2, ih,
        Int.toNat_natCast]
    · rw [if_neg h0]
      have h1 : 0 ≤ i ∧ i < n := by omega
      have h2 : (0 : ℤ) ≤ (i.toNat : ℤ) ∧ (i.toNat : ℤ) < n := by omega
      simp only [npIndex, if_pos h1, if_pos h2, ih, Int.toNat_natCast]

theorem npIndex_without {s : List ℕ} {idx : List ℤ} (hl : idx.length = s.length)
    (h : ¬ WithinTwice s idx) (c : List ℕ) : npIndex (s ++ c) idx = .error .indexError := by
  induction s generalizing idx with
  | nil =>
    obtain rfl : idx = [] := List.eq_nil_of_length_eq_zero hl
    exact absurd .nil h
  | cons n s ih =>
    cases idx with
    | nil => simp at hl
    | cons i idx =>
      rw [List.cons_append]
      unfold npIndex
      by_cases hi : -(n : ℤ) ≤ i ∧ i < n
      · have := ih (idx := idx) (by simpa using hl) fun h' => h (.cons hi h')
        rw [this]
        by_cases h1 : 0 ≤ i ∧ i < n
        · rw [if_pos h1]; rfl
        · rw [if_neg h1, if_pos (by omega)]; rfl
      · rw [if_neg (by omega), if_neg (by omega)]

theorem outOfBounds_within {s : List ℕ} {idx : List ℤ} (h : WithinTwice s idx) :
    tupleGt idx (s.map (fun n : ℕ => (n : ℤ))) = false := by
  cases h with
  | nil => rfl
  | @cons n i s idx hi _ =>
    rw [List.map_cons, tupleGt, if_neg (by omega)]
    simpa using (by omega : i ≤ n)

/-- **C46, exactly.** With one index for every fit parameter, the grid accepts exactly the indices from
minus the length of an axis to the length minus one. Negative ones are read and written like the index
counted from the end; all others raise an `IndexError`. -/
theorem c46_exactly {g : GridSearch} (hr : g.Ready) {idx : List ℤ} (hl : idx.length = g.pars.length)
    (a : NdArray ℝ) (x : ℝ) :
    (WithinTwice g.fitShape idx → InB g.fitShape (fromEnd g.fitShape idx) ∧
      g.getStat idx = g.getStat ((fromEnd g.fitShape idx).map (fun n : ℕ => (n : ℤ))) ∧
      g.getPenaltyTerm idx = g.getPenaltyTerm ((fromEnd g.fitShape idx).map (fun n : ℕ => (n : ℤ))) ∧
      g.setStat (.array a) idx =
        g.setStat (.array a) ((fromEnd g.fitShape idx).map (fun n : ℕ => (n : ℤ))) ∧
      g.setPenaltyTerm x idx =
        g.setPenaltyTerm x ((fromEnd g.fitShape idx).map (fun n : ℕ => (n : ℤ)))) ∧
    (¬ WithinTwice g.fitShape idx → g.getStat idx = .error .indexError ∧
      g.getPenaltyTerm idx = .error .indexError ∧ g.setStat (.array a) idx = .error .indexError ∧
      g.setPenaltyTerm x idx = .error .indexError) := by
  constructor
  · intro h
    have hob : g.outOfBounds idx = false := outOfBounds_within h
    have hob' : g.outOfBounds ((fromEnd g.fitShape idx).map (fun n : ℕ => (n : ℤ))) = false :=
      tupleGt_inB h.inB
    have e1 : npIndex g.stats.shape idx =
        npIndex g.stats.shape ((fromEnd g.fitShape idx).map (fun n : ℕ => (n : ℤ))) := by
      rw [hr.1]; exact npIndex_within h _
    have e2 : npIndex g.penalties.shape idx =
        npIndex g.penalties.shape ((fromEnd g.fitShape idx).map (fun n : ℕ => (n : ℤ))) := by
      rw [hr.2]
      have := npIndex_within h []
      rwa [List.append_nil] at this
    refine ⟨h.inB, ?_, ?_, ?_, ?_⟩
    · unfold GridSearch.getStat NdArray.take
      rw [hob, hob', e1, e2]
    · unfold GridSearch.getPenaltyTerm NdArray.take
      rw [hob, hob', e2]
    · unfold GridSearch.setStat NdArray.assign
      rw [hob, hob', e1]
    · unfold GridSearch.setPenaltyTerm NdArray.assign
      rw [hob, hob', e2]
  · intro h
    have hl' : idx.length = g.fitShape.length := by simpa [GridSearch.fitShape] using hl
    have e1 : npIndex g.stats.shape idx = .error .indexError := by
      rw [hr.1]; exact npIndex_without hl' h _
    have e2 : npIndex g.penalties.shape idx = .error .indexError := by
      rw [hr.2]
      have := npIndex_without hl' h []
      rwa [List.append_nil] at this
    refine ⟨?_, ?_, ?_, ?_⟩
    · unfold GridSearch.getStat NdArray.take
      rw [e1]
      split <;> rfl
    · unfold GridSearch.getPenaltyTerm NdArray.take
      rw [e2]
      split <;> rfl
    · unfold GridSearch.setStat NdArray.assign
      rw [e1]
      split <;> rfl
    · unfold GridSearch.setPenaltyTerm NdArray.assign
      rw [e2]
      split <;> rfl

/-- On a grid of three by two points, (-3, 1) is the first row, (0, -3) is refused. -/
example : exSearch.Ready ∧ exSearch.pars.length = 2 ∧ WithinTwice exSearch.fitShape [-3, 1] ∧
    fromEnd exSearch.fitShape [-3, 1] = [0, 1] ∧ ¬ WithinTwice exSearch.fitShape [0, -3] := by
  refine ⟨exSearch_setup.1, rfl, ?_, ?_, ?_⟩
  · exact .cons (by decide) (.cons (by decide) .nil)
  · rfl
  · rintro (_ | ⟨_, h⟩)
    cases h with
    | cons h _ => revert h; decide

/-! ### C76 -/

theorem getBin_first {p : FitPar} {vs : List ℝ} (hv : p.getValues = .ok vs) {x y : ℝ} {i : ℕ}
    (hi : vs[i]? = some y) (hc : |y - x| ≤ 1 / 10 ^ 8 + 1 / 10 ^ 5 * |x|)
    (hf : ∀ j < i, ∀ z, vs[j]? = some z → 1 / 10 ^ 8 + 1 / 10 ^ 5 * |x| < |z - x|) :
    p.getBin x = .ok (i : ℤ) := by
  classical
  obtain ⟨hlt, rfl⟩ := List.getElem?_eq_some_iff.1 hi
  have : vs.findIdx? (fun y => decide (npCloseReal y x)) = some i := by
    rw [List.findIdx?_eq_some_iff_getElem]
    refine ⟨hlt, by simpa [npCloseReal] using hc, fun j hj => ?_⟩
    have := hf j hj _ (List.getElem?_eq_getElem (by omega))
    simpa [npCloseReal] using this
  unfold FitPar.getBin
  simp only [hv, this]

theorem firstClose_cons_iff {vs : List ℝ} {vss : List (List ℝ)} {i : ℕ} {idx : List ℕ} {x : ℝ}
    {w : List ℝ} : FirstClose (vs :: vss) (i :: idx) (x :: w) ↔
      ((∃ y, vs[i]? = some y ∧ |y - x| ≤ 1 / 10 ^ 8 + 1 / 10 ^ 5 * |x|) ∧
        ∀ j < i, ∀ z, vs[j]? = some z → 1 / 10 ^ 8 + 1 / 10 ^ 5 * |x| < |z - x|) ∧
      FirstClose vss idx w := by
  unfold FirstClose
  rw [List.zip_cons_cons, List.forall₂_cons]
  simp only [List.length_cons, Nat.add_right_cancel_iff, and_assoc]

theorem bins_first {pars : List FitPar} {vss : List (List ℝ)} (hv : HasValues pars vss)
    {kw : List (PyStr × ℝ)} : ∀ {idx : List ℕ} {w : List ℝ}, FirstClose vss idx w → KwFor pars w kw →
    pars.mapM (GridSearch.kwBin kw) = .ok (idx.map (fun n : ℕ => (n : ℤ))) ∧
      InB (vss.map List.length) idx := by
  induction hv with
  | nil =>
    intro idx w h _
    obtain rfl : idx = [] := List.eq_nil_of_length_eq_zero h.2
    exact ⟨rfl, by simp⟩
  | @cons p vs pars vss hp _ ih =>
    intro idx w h hk
    cases idx with
    | nil => exact absurd h.2 (by simp)
    | cons i idx =>
      cases w with
      | nil => have := h.1; simp at this
      | cons x w =>
        rw [firstClose_cons_iff] at h
        unfold KwFor at hk
        rw [List.forall₂_cons] at hk
        obtain ⟨⟨⟨y, hy, hc⟩, hf⟩, h'⟩ := h
        have h1 := getBin_first hp hy hc hf
        obtain ⟨h2, h4⟩ := ih h' hk.2
        have h3 : GridSearch.kwBin kw p = .ok (i : ℤ) := by
          simp only [GridSearch.kwBin, hk.1, h1]
        rw [List.mapM_cons, List.map_cons (f := List.length), inB_cons_cons]
        refine ⟨by simp only [h3, h2, bind, Except.bind, pure, Except.pure, List.map_cons], ?_, h4⟩
        exact (List.getElem?_eq_some_iff.1 hy).1

/-- **C76, exactly.** For every grid and all values that agree with grid values up to numpy's tolerance,
on the grid or not and however close the grid values are to each other, the penalty is that of the
first grid value of each parameter within the tolerance. -/
theorem c76_exactly {g : GridSearch} (hr : g.Ready) {vss : List (List ℝ)}
    (hv : HasValues g.pars vss) (hl : vss.map List.length = g.fitShape)
    {idx : List ℕ} {w : List ℝ} (hw : FirstClose vss idx w) {kw : List (PyStr × ℝ)}
    (hk : KwFor g.pars w kw) :
    ∃ p, g.getPenaltyAt kw = .ok p ∧ p.shape = [] ∧ p.get [] = g.penalties.get idx := by
  obtain ⟨h1, hb⟩ := bins_first hv hw hk
  rw [hl] at hb
  have ht := take_ok (a := g.penalties) (s := g.fitShape) (c := []) (by simpa using hr.2) hb
  refine ⟨⟨[], fun j => g.penalties.get (idx ++ j)⟩, ?_, rfl, by simp⟩
  unfold GridSearch.getPenaltyAt
  rw [h1]
  exact ht

theorem dropLeading_eq (k : ℕ) {a : NdArray ℝ} {rest : List ℕ} (hs : a.shape = List.replicate k 1 ++ rest)
    (hr : rest.head? ≠ some 1) {fuel : ℕ} (hf : k < fuel) :
    GridSearch.dropLeading a fuel = if rest = [] then .error .indexError
      else .ok ⟨rest, fun j => a.get (List.replicate k 0 ++ j)⟩ := by
  induction k generalizing a fuel with
  | zero =>
    obtain ⟨fuel, rfl⟩ : ∃ f, fuel = f + 1 := ⟨fuel - 1, by omega⟩
    obtain ⟨sh, get⟩ := a
    simp only [List.replicate_zero, List.nil_append] at hs
    subst hs
    unfold GridSearch.dropLeading
    cases sh with
    | nil => simp
    | cons n sh =>
      have : n ≠ 1 := by simpa using hr
      simp [this]
  | succ k ih =>
    obtain ⟨fuel, rfl⟩ : ∃ f, fuel = f + 1 := ⟨fuel - 1, by omega⟩
    obtain ⟨sh, get⟩ := a
    simp only [List.replicate_succ, List.cons_append] at hs
    subst hs
    unfold GridSearch.dropLeading
    simp only [NdArray.sumAxis, List.getElem?_cons_zero, if_true, bind, Except.bind,
      List.eraseIdx_zero, List.tail_cons, Finset.sum_range_one, List.insertIdx_zero]
    rw [ih rfl (by omega)]
    simp only [List.replicate_succ, List.cons_append]

theorem dropTrailing_eq (k : ℕ) {a : NdArray ℝ} {rest : List ℕ} (hs : a.shape = rest ++ List.replicate k 1)
    (hr : rest.getLast? ≠ some 1) (hne : rest ≠ []) {fuel : ℕ} (hf : k < fuel) :
    ∃ b, GridSearch.dropTrailing a fuel = .ok b ∧ b.shape = rest ∧
      ∀ j, j.length = rest.length → b.get j = a.get (j ++ List.replicate k 0) := by
  induction k generalizing a fuel with
  | zero =>
    obtain ⟨fuel, rfl⟩ : ∃ f, fuel = f + 1 := ⟨fuel - 1, by omega⟩
    simp only [List.replicate_zero, List.append_nil] at hs ⊢
    refine ⟨a, ?_, hs, fun _ _ => rfl⟩
    unfold GridSearch.dropTrailing
    rw [hs]
    cases hl : rest.getLast? with
    | none => exact absurd (List.getLast?_eq_none_iff.1 hl) hne
    | some n =>
      have : n ≠ 1 := by rintro rfl; exact hr hl
      simp [this]
  | succ k ih =>
    obtain ⟨fuel, rfl⟩ : ∃ f, fuel = f + 1 := ⟨fuel - 1, by omega⟩
    obtain ⟨sh, get⟩ := a
    rw [List.replicate_succ', ← List.append_assoc] at hs
    simp only at hs
    subst hs
    have e : NdArray.sumAxisNeg ⟨rest ++ List.replicate k 1 ++ [1], get⟩ 1 =
        .ok ⟨rest ++ List.replicate k 1, fun j => get (j.insertIdx (rest.length + k) 0)⟩ := by
      simp only [NdArray.sumAxisNeg, NdArray.ndim, NdArray.sumAxis, List.length_append,
        List.length_replicate, List.length_singleton]
      rw [if_pos (by omega)]
      have h1 : (rest ++ List.replicate k 1 ++ [1])[rest.length + k + 1 - 1]? = some 1 := by
        rw [List.getElem?_append_right (by simp)]
        simp
      have h2 : (rest ++ List.replicate k 1 ++ [1]).eraseIdx (rest.length + k + 1 - 1) =
          rest ++ List.replicate k 1 := by
        rw [List.eraseIdx_append_of_length_le (by simp)]
        simp
      rw [h1]
      simp only [h2, Finset.sum_range_one]
      congr 1
    unfold GridSearch.dropTrailing
    simp only [List.getLast?_append, List.getLast?_singleton, Option.some_or, if_true, bind,
      Except.bind]
    rw [e]
    obtain ⟨b, hb1, hb2, hb3⟩ := ih (a := ⟨rest ++ List.replicate k 1,
      fun j => get (j.insertIdx (rest.length + k) 0)⟩) rfl (fuel := fuel) (by omega)
    refine ⟨b, hb1, hb2, fun j hj => ?_⟩
    rw [hb3 j hj, List.replicate_succ', ← List.append_assoc]
    have : rest.length + k = (j ++ List.replicate k 0).length := by simp [hj]
    dsimp only
    rw [this, List.insertIdx_length_self]

/-- **C76, raw statistics with one number per bin.** Asking for the raw statistic by parameter values gives
the numbers stored for that grid point, without the axes of a single bin before the first and after the
last axis of several bins. -/
theorem c76_raw_stats_per_bin {g : GridSearch} (hr : g.Ready) (hpb : g.perBin = true)
    {vss : List (List ℝ)} (hv : HasValues g.pars vss) (hl : vss.map List.length = g.fitShape)
    {idx : List ℕ} {w : List ℝ} (hw : FirstClose vss idx w) {kw : List (PyStr × ℝ)}
    (hk : KwFor g.pars w kw) {m n : ℕ} {core : List ℕ} (hne : core ≠ [])
    (hhead : core.head? ≠ some 1) (hlast : core.getLast? ≠ some 1)
    (hshape : g.specShape = List.replicate m 1 ++ core ++ List.replicate n 1) :
    ∃ a, g.getRawStatsAt kw = .ok a ∧ a.shape = core ∧ ∀ j, j.length = core.length →
      a.get j = g.stats.get (idx ++ (List.replicate m 0 ++ j ++ List.replicate n 0)) := by
  obtain ⟨h1, hb⟩ := bins_first hv hw hk
  rw [hl] at hb
  have ht := take_ok (a := g.stats) (c := g.specShape)
    (by simpa [GridSearch.cellShape, hpb] using hr.1) hb
  have hd := dropLeading_eq m (a := ⟨g.specShape, fun j => g.stats.get (idx ++ j)⟩)
    (rest := core ++ List.replicate n 1) (by rw [hshape, List.append_assoc])
    (by cases core with
        | nil => exact absurd rfl hne
        | cons _ _ => simpa using hhead)
    (fuel := g.specShape.length + 1) (by rw [hshape]; simp)
  rw [if_neg (by simp [hne])] at hd
  obtain ⟨b, hb1, hb2, hb3⟩ := dropTrailing_eq n
    (a := ⟨core ++ List.replicate n 1,
      fun j => g.stats.get (idx ++ (List.replicate m 0 ++ j))⟩) rfl hlast hne
    (fuel := core.length + n + 1) (by omega)
  refine ⟨b, ?_, hb2, fun j hj => ?_⟩
  · unfold GridSearch.getRawStatsAt
    rw [h1]
    simp only [bind, Except.bind, ht, NdArray.ndim]
    rw [hd]
    simp only [List.length_append, List.length_replicate]
    exact hb1
  · rw [hb3 j hj]
    simp only [List.append_assoc]

/-- **C76, raw statistics of a single bin.** With one number per bin and a single bin on every axis, asking for
the raw statistic by parameter values raises an `IndexError`. -/
theorem c76_raw_stats_one_bin_negation {g : GridSearch} (hr : g.Ready) (hpb : g.perBin = true)
    {vss : List (List ℝ)} (hv : HasValues g.pars vss) (hl : vss.map List.length = g.fitShape)
    {idx : List ℕ} {w : List ℝ} (hw : FirstClose vss idx w) {kw : List (PyStr × ℝ)}
    (hk : KwFor g.pars w kw) {m : ℕ} (hshape : g.specShape = List.replicate m 1) :
    g.getRawStatsAt kw = .error .indexError := by
  obtain ⟨h1, hb⟩ := bins_first hv hw hk
  rw [hl] at hb
  have ht := take_ok (a := g.stats) (c := g.specShape)
    (by simpa [GridSearch.cellShape, hpb] using hr.1) hb
  have hd := dropLeading_eq m (a := ⟨g.specShape, fun j => g.stats.get (idx ++ j)⟩)
    (rest := []) (by rw [hshape, List.append_nil]) (by simp)
    (fuel := g.specShape.length + 1) (by rw [hshape]; simp)
  rw [if_pos rfl] at hd
  unfold GridSearch.getRawStatsAt
  rw [h1]
  simp only [bind, Except.bind, ht, NdArray.ndim]
  rw [hd]

/-- The values 10⁹ and 10⁹ + 1 are both looked up as the first; 2.000001 is looked up as 2. -/
example : FirstClose [[10 ^ 9, 10 ^ 9 + 1], [1, 2]] [0, 1] [10 ^ 9 + 1, 2.000001] := by
  refine firstClose_cons_iff.2 ⟨⟨⟨10 ^ 9, rfl, ?_⟩, by simp⟩,
    firstClose_cons_iff.2 ⟨⟨⟨2, rfl, ?_⟩, ?_⟩, by simp, rfl⟩⟩
  · rw [abs_of_nonpos (by norm_num), abs_of_pos (by norm_num)]; norm_num
  · rw [abs_of_nonpos (by norm_num), abs_of_pos (by norm_num)]; norm_num
  · intro j hj z hz
    obtain rfl : j = 0 := by omega
    obtain rfl : z = 1 := by simpa using hz.symm
    rw [abs_of_pos (by norm_num : (0 : ℝ) < 2.000001), abs_of_nonpos (by norm_num)]; norm_num

/-- A spectrum of one by three by one bins. -/
example : ∃ core : List ℕ, core ≠ [] ∧ core.head? ≠ some 1 ∧ core.getLast? ≠ some 1 ∧
    [1, 3, 1] = List.replicate 1 1 ++ core ++ List.replicate 1 1 := ⟨[3], by simp⟩

end Verif
