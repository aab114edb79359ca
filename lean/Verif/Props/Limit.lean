import Verif.Lemmas.Limit
import Mathlib.Tactic.NormNum
import Mathlib.Tactic.IntervalCases

/-!
# Properties of limit setting: C49, C50, C51, C80
-/

namespace Verif

/-! ## C49: the limit is the first crossing -/

/-- C49, for statistics that are plain numbers and fit parameters that all have a
sigma: with `b` the smallest scaling with the lowest statistic, the limit is the
first scaling from `b` on at which the statistic relative to `m` plus the
penalties exceeds the threshold; a limit error is raised exactly when there is
none. -/
theorem c49_limit_partial {fit : Option ℝ → Except PyErr FitOut} {st : ℝ → ℝ}
    {pens : ℝ → List ℝ} {m : ℝ} {scales : List ℝ} {minStat : Option (List ℝ)}
    {sigmas : List (Option ℝ)} (limit : ℝ) (hf : ScalarFits fit scales st pens)
    (hm : RelativeTo fit minStat m) (hn : scales ≠ []) (hs : scales.Pairwise (· < ·))
    (hsig : ∀ s ∈ sigmas, s ≠ none) :
    ∃ b, BestScale scales st b ∧
      (∀ x, getLimit scales sigmas fit minStat limit = .ok x ↔
        FirstCrossing scales (fun x => st x - m + (pens x).sum) b limit x) ∧
      (getLimit scales sigmas fit minStat limit = .error .limitError ↔
        ∀ y ∈ scales, b ≤ y → st y - m + (pens y).sum ≤ limit) := by
  obtain ⟨j, b, hb, hmin, hg⟩ := getLimit_scalar sigmas limit hf hm hn
  have hany : sigmas.any Option.isNone = false := by
    rw [List.any_eq_false]
    intro s hs'
    cases s with
    | none => exact absurd rfl (hsig _ hs')
    | some v => simp
  refine ⟨b, ⟨List.mem_of_getElem? hb, ?_⟩, ?_⟩
  · intro y hy
    obtain ⟨k, hk, rfl⟩ := List.getElem_of_mem hy
    have hk? : scales[k]? = some scales[k] := List.getElem?_eq_getElem hk
    obtain ⟨h1, h2⟩ := hmin k _ hk?
    refine ⟨h1, fun he => ?_⟩
    rw [(index_le hs hb hk?).1]
    by_contra hc
    have := h2 (not_le.1 hc)
    linarith
  · rw [hg]
    rcases readLimit_spec hs (sigmas := sigmas) (fun x => st x - m + (pens x).sum) hb limit with
      ⟨x, hx, he⟩ | ⟨hall, he⟩
    · rw [hany] at he
      simp only [Bool.false_eq_true, if_false] at he
      rw [he]
      refine ⟨fun y => ⟨fun h => ?_, fun h => ?_⟩, ⟨fun h => (by cases h), fun h => ?_⟩⟩
      · injection h with h; subst h; exact hx
      · rw [hx.unique h]
      · exact absurd hx.2.2.1 (not_lt.2 (h x hx.1 hx.2.1))
    · rw [hany] at he
      simp only [Bool.false_eq_true, if_false] at he
      rw [he]
      refine ⟨fun y => ⟨fun h => (by cases h), fun h => ?_⟩, ⟨fun _ => hall, fun _ => rfl⟩⟩
      exact absurd h.2.2.1 (not_lt.2 (hall y h.1 h.2.1))

/-- C49 fails when a fit parameter has no sigma: a `TypeError` is raised whatever
the statistics. -/
theorem c49_sigma_negation {fit : Option ℝ → Except PyErr FitOut} {st : ℝ → ℝ}
    {pens : ℝ → List ℝ} {m : ℝ} {scales : List ℝ} {minStat : Option (List ℝ)}
    {sigmas : List (Option ℝ)} (limit : ℝ) (hf : ScalarFits fit scales st pens)
    (hm : RelativeTo fit minStat m) (hn : scales ≠ []) (hs : scales.Pairwise (· < ·))
    (hsig : none ∈ sigmas) : getLimit scales sigmas fit minStat limit = .error .typeError := by
  obtain ⟨j, b, hb, hmin, hg⟩ := getLimit_scalar sigmas limit hf hm hn
  have hany : sigmas.any Option.isNone = true := List.any_eq_true.2 ⟨none, hsig, rfl⟩
  rw [hg]
  rcases readLimit_spec hs (sigmas := sigmas) (fun x => st x - m + (pens x).sum) hb limit with
    ⟨x, hx, he⟩ | ⟨hall, he⟩ <;> rw [he, hany] <;> rfl

/-- A fit with two numbers per scaling. -/
noncomputable def exBinFit (rows : List (ℝ × List ℝ)) : Option ℝ → Except PyErr FitOut
  | none => .ok ⟨[0, 0], []⟩
  | some x => match rows.find? (fun r => @decide (r.1 = x) (Classical.propDecidable _)) with
    | some r => .ok ⟨r.2, []⟩
    | none => .error .keyError

/-- C49 fails for statistics per bin: the totals are 2, 5 and 10 at the scalings 1,
2 and 3, the lowest is the first, and 5 is above the threshold 4; but the limit
is 3, because the position of the smallest entry of all (2) is taken for the
number of the scaling. -/
theorem c49_per_bin_negation :
    getLimit [1, 2, 3] [] (exBinFit [(1, [1, 1]), (2, [0, 5]), (3, [4, 6])]) none 4 = .ok 3 := by
  have c1 : ¬ npCloseReal 1 0 := by unfold npCloseReal; norm_num
  have c2 : ¬ npCloseReal 2 0 := by unfold npCloseReal; norm_num
  have c3 : ¬ npCloseReal 3 0 := by unfold npCloseReal; norm_num
  norm_num [getLimit, minStatOf, exBinFit, Except.map, bind, Except.bind, List.mapM_cons, limitRow, signalAt,
    c1, c2, c3, setRow, pure, Except.pure, npArgmin, argminAux, readLimit, List.findIdx?_cons]

/-- C49 fails for statistics per bin also in that a `ValueError` can be raised: the
smallest entry of all is at position 3 of 6. -/
theorem c49_per_bin_error_negation :
    getLimit [1, 2, 3] [] (exBinFit [(1, [1, 1]), (2, [5, 0]), (3, [4, 6])]) none 4 =
      .error .valueError := by
  have c1 : ¬ npCloseReal 1 0 := by unfold npCloseReal; norm_num
  have c2 : ¬ npCloseReal 2 0 := by unfold npCloseReal; norm_num
  have c3 : ¬ npCloseReal 3 0 := by unfold npCloseReal; norm_num
  norm_num [getLimit, minStatOf, exBinFit, Except.map, bind, Except.bind, List.mapM_cons, limitRow, signalAt,
    c1, c2, c3, setRow, pure, Except.pure, npArgmin, argminAux, readLimit, npArgmax]

/-- C49: the documented array for the statistic without signal raises a
`ValueError` as soon as it has two entries. -/
theorem c49_array_negation (scales : List ℝ) (sigmas : List (Option ℝ))
    (fit : Option ℝ → Except PyErr FitOut) (a b : ℝ) (l : List ℝ) (limit : ℝ) :
    getLimit scales sigmas fit (some (a :: b :: l)) limit = .error .valueError := rfl

/-- A fit whose statistic is a parabola with minimum at the scaling 1 and whose
penalty term is one half everywhere. -/
noncomputable def exFit : Option ℝ → Except PyErr FitOut
  | none => .ok ⟨[3], [1 / 2]⟩
  | some x => .ok ⟨[(x - 1) ^ 2 + 2], [1 / 2]⟩

/-- C49 is not vacuous: four scalings, the first of them without signal. -/
example : ScalarFits exFit [0, 1, 2, 4] (fun x => (x - 1) ^ 2 + 2) (fun _ => [1 / 2]) ∧
    RelativeTo exFit none 3 ∧ ([0, 1, 2, 4] : List ℝ).Pairwise (· < ·) ∧
    (∀ s ∈ [some (1 : ℝ)], s ≠ none) ∧
    FirstCrossing [0, 1, 2, 4] (fun x => (x - 1) ^ 2 + 2 - 3 + ([1 / 2] : List ℝ).sum) 1 2 4 := by
  have c1 : ¬ npCloseReal 1 0 := by unfold npCloseReal; norm_num
  have c2 : ¬ npCloseReal 2 0 := by unfold npCloseReal; norm_num
  have c4 : ¬ npCloseReal 4 0 := by unfold npCloseReal; norm_num
  have c0 : npCloseReal 0 0 := by unfold npCloseReal; norm_num
  refine ⟨?_, .inr ⟨.inl rfl, _, rfl⟩, ?_, by simp, ?_⟩
  · intro x hx
    simp only [List.mem_cons, List.not_mem_nil, or_false] at hx
    rcases hx with rfl | rfl | rfl | rfl
    · exact ⟨fun _ => by norm_num [exFit], fun h => absurd c0 h⟩
    · exact ⟨fun h => absurd h c1, fun _ => rfl⟩
    · exact ⟨fun h => absurd h c2, fun _ => rfl⟩
    · exact ⟨fun h => absurd h c4, fun _ => rfl⟩
  · norm_num
  · unfold FirstCrossing
    norm_num

/-! ## C50: monotone in the threshold -/

theorem getLimit_readLimit (scales : List ℝ) (sigmas : List (Option ℝ))
    (fit : Option ℝ → Except PyErr FitOut) (minStat : Option (List ℝ)) :
    (∃ e, ∀ limit, getLimit scales sigmas fit minStat limit = .error e) ∨
    ∃ k full j, ∀ limit, getLimit scales sigmas fit minStat limit =
      readLimit scales sigmas k full j limit := by
  unfold getLimit
  cases minStatOf fit minStat with
  | error e => exact .inl ⟨e, fun _ => rfl⟩
  | ok m =>
    simp only [bind, Except.bind]
    cases scales.mapM (limitRow fit m) with
    | error e => exact .inl ⟨e, fun _ => rfl⟩
    | ok rows =>
      cases h : npArgmin (rows.map Prod.fst).flatten with
      | error e => exact .inl ⟨e, fun _ => by simp only [h]⟩
      | ok j => exact .inr ⟨m.length, rows.map (fun r => r.1.sum + r.2.sum), j, fun _ => by simp only [h]⟩

theorem findIdx?_mono {l : List ℝ} {a b : ℝ} (hab : a ≤ b) {i : ℕ}
    (h : l.findIdx? (fun x => @decide (b < x) (Classical.propDecidable _)) = some i) :
    ∃ k ≤ i, l.findIdx? (fun x => @decide (a < x) (Classical.propDecidable _)) = some k := by
  rw [List.findIdx?_eq_some_iff_getElem] at h
  obtain ⟨hi, hp, _⟩ := h
  simp only [decide_eq_true_eq] at hp
  cases hf : l.findIdx? (fun x => @decide (a < x) (Classical.propDecidable _)) with
  | none =>
    rw [List.findIdx?_eq_none_iff] at hf
    have := hf _ (List.getElem_mem hi)
    simp only [decide_eq_false_iff_not, not_lt] at this
    linarith
  | some k =>
    refine ⟨k, ?_, rfl⟩
    by_contra hc
    rw [List.findIdx?_eq_some_iff_getElem] at hf
    have := hf.2.2 i (not_le.1 hc)
    simp only [decide_eq_true_eq, not_lt] at this
    linarith

theorem findIdx?_none_mono {l : List ℝ} {a b : ℝ} (hab : a ≤ b)
    (h : l.findIdx? (fun x => @decide (a < x) (Classical.propDecidable _)) = none) :
    l.findIdx? (fun x => @decide (b < x) (Classical.propDecidable _)) = none := by
  cases hf : l.findIdx? (fun x => @decide (b < x) (Classical.propDecidable _)) with
  | none => rfl
  | some i =>
    obtain ⟨k, _, hk⟩ := findIdx?_mono hab hf
    rw [h] at hk
    cases hk

/-- C50: for increasing scalings, a limit at a higher threshold implies a limit at
the lower one, which is not larger; and a limit error at a threshold implies one
at every higher threshold. This holds for every fitter, also per bin. -/
theorem c50_monotone {scales : List ℝ} (hs : scales.Pairwise (· < ·)) (sigmas : List (Option ℝ))
    (fit : Option ℝ → Except PyErr FitOut) (minStat : Option (List ℝ)) {a b : ℝ} (hab : a ≤ b) :
    (∀ y, getLimit scales sigmas fit minStat b = .ok y →
      ∃ x, getLimit scales sigmas fit minStat a = .ok x ∧ x ≤ y) ∧
    (getLimit scales sigmas fit minStat a = .error .limitError →
      getLimit scales sigmas fit minStat b = .error .limitError) := by
  rcases getLimit_readLimit scales sigmas fit minStat with ⟨e, h⟩ | ⟨k, full, j, h⟩
  · rw [h, h]
    exact ⟨fun y hy => (by cases hy), fun h => h⟩
  · rw [h, h]
    constructor
    · intro y hy
      unfold readLimit at hy ⊢
      cases hf : (full.drop j).findIdx?
          (fun x => @decide (b < x) (Classical.propDecidable _)) with
      | none =>
        rw [hf] at hy
        simp only [bind, Except.bind] at hy
        cases hn : npArgmax (full.drop j) with
        | error e => rw [hn] at hy; cases hy
        | ok i =>
          rw [hn] at hy
          simp only at hy
          cases hx : scales[j + i * k]? with
          | none => rw [hx] at hy; cases hy
          | some x =>
            rw [hx] at hy
            simp only at hy
            split at hy <;> cases hy
      | some i =>
        rw [hf] at hy
        obtain ⟨i', hi', hf'⟩ := findIdx?_mono hab hf
        rw [hf']
        simp only at hy ⊢
        cases hx : scales[j + i]? with
        | none => rw [hx] at hy; cases hy
        | some z =>
          rw [hx] at hy
          simp only at hy
          have hl := (List.getElem?_eq_some_iff.1 hx).1
          have hx' : scales[j + i']? = some (scales[j + i']'(by omega)) :=
            List.getElem?_eq_getElem _
          rw [hx']
          simp only
          split at hy
          · cases hy
          · injection hy with hy
            subst hy
            rename_i hsg
            exact ⟨_, if_neg hsg, (index_le hs hx' hx).1.2 (by omega)⟩
    · intro he
      unfold readLimit at he ⊢
      cases hf : (full.drop j).findIdx?
          (fun x => @decide (a < x) (Classical.propDecidable _)) with
      | some i =>
        rw [hf] at he
        simp only at he
        split at he
        · cases he
        · split at he <;> cases he
      | none =>
        rw [hf] at he
        rw [findIdx?_none_mono hab hf]
        exact he

/-- C50 is not vacuous: the limits of `exFit` at two thresholds. -/
example : getLimit [1, 2, 4] [some 1] exFit none 0 = .ok 2 ∧
    getLimit [1, 2, 4] [some 1] exFit none 2 = .ok 4 ∧
    getLimit [1, 2, 4] [some 1] exFit none 20 = .error .limitError := by
  have c1 : ¬ npCloseReal 1 0 := by unfold npCloseReal; norm_num
  have c2 : ¬ npCloseReal 2 0 := by unfold npCloseReal; norm_num
  have c4 : ¬ npCloseReal 4 0 := by unfold npCloseReal; norm_num
  refine ⟨?_, ?_, ?_⟩ <;>
  norm_num [getLimit, minStatOf, exFit, Except.map, bind, Except.bind, List.mapM_cons, limitRow, signalAt,
    c1, c2, c4, setRow, pure, Except.pure, npArgmin, argminAux, readLimit, List.findIdx?_cons,
    npArgmax]

/-! ## C51: limit from an array -/

theorem arrayLimitLoop_spec (counts : List ℝ) (limit : ℝ) : ∀ (l : List ℝ) (n : ℕ),
    (∃ i x c, l[i]? = some x ∧ limit < x ∧ (∀ k y, k < i → l[k]? = some y → y ≤ limit) ∧
      (n + l.length ≤ counts.length → counts[n + i]? = some c ∧
        arrayLimitLoop counts limit n l = .ok c)) ∨
    ((∀ x ∈ l, x ≤ limit) ∧ arrayLimitLoop counts limit n l = .error .limitError) := by
  intro l
  induction l with
  | nil => intro n; exact .inr ⟨by simp, rfl⟩
  | cons x l ih =>
    intro n
    by_cases h : limit < x
    · by_cases hl : n < counts.length
      · refine .inl ⟨0, x, counts[n], rfl, h, by simp, fun _ => ?_⟩
        have hc : counts[n]? = some counts[n] := List.getElem?_eq_getElem hl
        simp only [arrayLimitLoop, if_pos h, hc, add_zero, and_self]
      · refine .inl ⟨0, x, 0, rfl, h, by simp, fun hl' => ?_⟩
        rw [List.length_cons] at hl'
        omega
    · have he : arrayLimitLoop counts limit n (x :: l) = arrayLimitLoop counts limit (n + 1) l := by
        simp only [arrayLimitLoop, if_neg h]
      rcases ih (n + 1) with ⟨i, y, c, h1, h2, h3, h4⟩ | ⟨h1, h2⟩
      · refine .inl ⟨i + 1, y, c, h1, h2, ?_, ?_⟩
        · intro k z hk hz
          cases k with
          | zero => simp only [List.getElem?_cons_zero, Option.some.injEq] at hz; subst hz; linarith
          | succ k => exact h3 k z (by omega) (by simpa using hz)
        · intro hl
          rw [List.length_cons] at hl
          obtain ⟨h5, h6⟩ := h4 (by omega)
          exact ⟨by rw [← h5]; congr 1; omega, by rw [he, h6]⟩
      · refine .inr ⟨?_, by rw [he, h2]⟩
        intro y hy
        rcases List.mem_cons.1 hy with rfl | hy
        · exact not_lt.1 h
        · exact h1 y hy

/-- C51: with as many entries as scalings (at least one), the limit is the scaling
of the first entry above the threshold, and a limit error is raised exactly when
there is no such entry. -/
theorem c51_floats_partial {counts l : List ℝ} (hl : counts.length = l.length) (hn : l ≠ [])
    (limit : ℝ) :
    (∀ (i : ℕ) (x c : ℝ), counts[i]? = some c → l[i]? = some x → limit < x →
      (∀ (k : ℕ) (y : ℝ), k < i → l[k]? = some y → y ≤ limit) →
      getArrayLimit counts (.floats l) limit = .ok c) ∧
    (getArrayLimit counts (.floats l) limit = .error .limitError ↔ ∀ x ∈ l, x ≤ limit) := by
  have he : getArrayLimit counts (.floats l) limit = arrayLimitLoop counts limit 0 l := by
    simp only [getArrayLimit, hl, ne_eq, not_true_eq_false, if_false, List.length_eq_zero_iff, hn]
  rw [he]
  rcases arrayLimitLoop_spec counts limit l 0 with ⟨i, x, c, h1, h2, h3, h4⟩ | ⟨h1, h2⟩
  · obtain ⟨h5, h6⟩ := h4 (by omega)
    rw [h6]
    rw [zero_add] at h5
    refine ⟨fun i' x' c' g1 g2 g3 g4 => ?_, ⟨fun h => (by cases h), fun h => ?_⟩⟩
    · have : i = i' := by
        rcases lt_trichotomy i i' with h | h | h
        · have := g4 i x h h1; linarith
        · exact h
        · have := h3 i' x' h g2; linarith
      subst this
      rw [h5] at g1
      injection g1 with g1
      rw [g1]
    · have := h x (List.mem_of_getElem? h1)
      linarith
  · rw [h2]
    refine ⟨fun i x c g1 g2 g3 _ => ?_, ⟨fun _ => h1, fun _ => rfl⟩⟩
    have := h1 x (List.mem_of_getElem? g2)
    linarith

/-- C51: an array of arrays is treated as the array of the sums. -/
theorem c51_arrays (counts : List ℝ) (l : List (List ℝ)) (limit : ℝ) :
    getArrayLimit counts (.arrays l) limit =
      getArrayLimit counts (.floats (l.map List.sum)) limit := by
  simp only [getArrayLimit, sumEntries, List.length_map]

/-- C51: another number of entries raises a compatibility error. -/
theorem c51_length {counts l : List ℝ} (limit : ℝ) :
    getArrayLimit counts (.floats l) limit = .error .compatibility ↔ counts.length ≠ l.length := by
  constructor
  · intro h hl
    by_cases hn : l = []
    · subst hn
      simp [getArrayLimit, hl] at h
    · have hc := (c51_floats_partial hl hn limit)
      have he : getArrayLimit counts (.floats l) limit = arrayLimitLoop counts limit 0 l := by
        simp only [getArrayLimit, hl, ne_eq, not_true_eq_false, if_false,
          List.length_eq_zero_iff, hn]
      rw [he] at h
      rcases arrayLimitLoop_spec counts limit l 0 with ⟨i, x, c, h1, h2, h3, h4⟩ | ⟨h1, h2⟩
      · rw [(h4 (by omega)).2] at h; cases h
      · rw [h2] at h; cases h
  · intro h
    simp only [getArrayLimit, if_pos h]

/-- C51 fails for no scalings at all: an `IndexError` instead of a limit error. -/
theorem c51_empty_negation (limit : ℝ) :
    getArrayLimit [] (.floats []) limit = .error .indexError := by
  simp [getArrayLimit]

/-- C51 is not vacuous. -/
example : getArrayLimit [10, 20, 30] (.floats [1, 3, 2]) 2 = .ok 20 ∧
    getArrayLimit [10, 20, 30] (.arrays [[1, 0], [1, 1], [2, 2]]) 2 = .ok 30 := by
  rw [c51_arrays]
  refine ⟨(c51_floats_partial (counts := [10, 20, 30]) (l := [1, 3, 2]) rfl (by simp) 2).1 1 3 20 rfl rfl (by norm_num) ?_,
    (c51_floats_partial (counts := [10, 20, 30]) (l := [[1, 0], [1, 1], [2, 2]].map List.sum) rfl (by simp) 2).1 2 4 30 rfl
      (by norm_num) (by norm_num) ?_⟩
  · intro k y hk hy
    interval_cases k
    simp at hy
    linarith
  · intro k y hk hy
    interval_cases k <;> norm_num at hy <;> linarith

/-! ## C80: results -/

/-- C80: a recorded best fit is read back, alone and in the column of its
parameter; nothing else changes. -/
theorem c80_best_fit {r r' : LimitResults} {i : ℕ} {v : ℝ} {par : PyStr}
    (h : r.setBestFit i v par = .ok r') :
    r'.getBestFit i par = .ok v ∧
    (∀ k q, ¬ (k = i ∧ q = par) → r'.getBestFit k q = r.getBestFit k q) ∧
    (∀ k q, r'.getPenaltyTerm k q = r.getPenaltyTerm k q) ∧ r'.stats = r.stats ∧
    (∀ q l, r'.getBestFits q = .ok l →
      l.length = r'.scales ∧ ∀ k x, l[k]? = some x → r'.getBestFit k q = .ok x) := by
  unfold LimitResults.setBestFit at h
  cases hj : r.getIndex par with
  | error e => rw [hj] at h; cases h
  | ok j =>
    rw [hj] at h
    simp only [bind, Except.bind] at h
    by_cases hi : i < r.scales
    · rw [if_pos hi] at h
      injection h with h
      subst h
      have hidx : ∀ q, ({ r with bestFits := fun a b => if a = i ∧ b = j then v else r.bestFits a b }
          : LimitResults).getIndex q = r.getIndex q := fun _ => rfl
      refine ⟨?_, ?_, fun k q => rfl, rfl, ?_⟩
      · simp only [LimitResults.getBestFit, hidx, hj, bind, Except.bind, hi, if_true, and_self]
      · intro k q hkq
        simp only [LimitResults.getBestFit, hidx]
        cases hq : r.getIndex q with
        | error e => rfl
        | ok j' =>
          simp only [bind, Except.bind]
          have : ¬ (k = i ∧ j' = j) := by
            rintro ⟨rfl, rfl⟩
            refine hkq ⟨rfl, ?_⟩
            unfold LimitResults.getIndex at hq hj
            cases h1 : r.pars.findIdx? (fun p => p = q) with
            | none => rw [h1] at hq; cases hq
            | some a =>
              cases h2 : r.pars.findIdx? (fun p => p = par) with
              | none => rw [h2] at hj; cases hj
              | some b =>
                rw [h1] at hq
                rw [h2] at hj
                injection hq with hq
                injection hj with hj
                subst hq
                rw [← hj] at h1
                rw [List.findIdx?_eq_some_iff_getElem] at h1 h2
                obtain ⟨_, e1, _⟩ := h1
                obtain ⟨_, e2, _⟩ := h2
                simp only [decide_eq_true_eq] at e1 e2
                rw [← e1, e2]
          simp only [if_neg this]
      · intro q l hl
        simp only [LimitResults.getBestFits, hidx] at hl
        cases hq : r.getIndex q with
        | error e => rw [hq] at hl; cases hl
        | ok j' =>
          rw [hq] at hl
          simp only [bind, Except.bind] at hl
          injection hl with hl
          subst hl
          refine ⟨by simp, fun k x hk => ?_⟩
          obtain ⟨hk', hx⟩ := List.getElem?_eq_some_iff.1 hk
          simp only [List.getElem_map, List.getElem_range] at hx
          rw [List.length_map, List.length_range] at hk'
          simp only [LimitResults.getBestFit, hidx, hq, bind, Except.bind, if_pos hk', hx]
    · rw [if_neg hi] at h; cases h

/-- C80: the same for penalty terms. -/
theorem c80_penalty_term {r r' : LimitResults} {i : ℕ} {v : ℝ} {par : PyStr}
    (h : r.setPenaltyTerm i v par = .ok r') :
    r'.getPenaltyTerm i par = .ok v ∧
    (∀ k q, ¬ (k = i ∧ q = par) → r'.getPenaltyTerm k q = r.getPenaltyTerm k q) ∧
    (∀ k q, r'.getBestFit k q = r.getBestFit k q) ∧ r'.stats = r.stats ∧
    (∀ q l, r'.getPenaltyTerms q = .ok l →
      l.length = r'.scales ∧ ∀ k x, l[k]? = some x → r'.getPenaltyTerm k q = .ok x) := by
  have hsym := c80_best_fit (r := { r with bestFits := r.penaltyTerms, penaltyTerms := r.bestFits })
    (i := i) (v := v) (par := par)
    (r' := { r' with bestFits := r'.penaltyTerms, penaltyTerms := r'.bestFits }) (by
      unfold LimitResults.setPenaltyTerm at h
      unfold LimitResults.setBestFit
      have hidx : ({ r with bestFits := r.penaltyTerms, penaltyTerms := r.bestFits }
          : LimitResults).getIndex par = r.getIndex par := rfl
      rw [hidx]
      cases hj : r.getIndex par with
      | error e => rw [hj] at h; cases h
      | ok j =>
        rw [hj] at h
        simp only [bind, Except.bind] at h ⊢
        by_cases hi : i < r.scales
        · rw [if_pos hi] at h ⊢
          injection h with h
          subst h
          rfl
        · rw [if_neg hi] at h; cases h)
  exact hsym

theorem foldl_penalties (l : List ℝ) : ∀ a : ℝ, l.foldl (fun a b => a + b) a = a + l.sum := by
  induction l with
  | nil => intro a; simp
  | cons x l ih => intro a; rw [List.foldl_cons, ih, List.sum_cons, add_assoc]

theorem fullStatsFrom_spec (r : LimitResults) : ∀ (rows : List (List ℝ)) (n : ℕ),
    n + rows.length ≤ r.scales →
    ∃ fs, r.fullStatsFrom n rows = .ok fs ∧ fs.length = rows.length ∧
      ∀ i f row, fs[i]? = some f → rows[i]? = some row →
        f = List.replicate row.length (row.sum + (r.penaltyRow (n + i)).sum) := by
  intro rows
  induction rows with
  | nil => intro n _; exact ⟨[], rfl, rfl, by simp⟩
  | cons row rows ih =>
    intro n hn
    rw [List.length_cons] at hn
    obtain ⟨fs, h1, h2, h3⟩ := ih (n + 1) (by omega)
    refine ⟨List.replicate row.length (row.sum + (r.penaltyRow n).sum) :: fs, ?_, ?_, ?_⟩
    · simp only [LimitResults.fullStatsFrom, if_pos (show n < r.scales by omega), h1, bind,
        Except.bind, foldl_penalties]
    · simp [h2]
    · intro i f rw' hf hr
      cases i with
      | zero =>
        simp only [List.getElem?_cons_zero, Option.some.injEq] at hf hr
        subst hf; subst hr
        rfl
      | succ i =>
        simp only [List.getElem?_cons_succ] at hf hr
        rw [h3 i f rw' hf hr, show n + 1 + i = n + (i + 1) by omega]

/-- The penalty terms of a scaling, asked for parameter by parameter. -/
theorem getPenaltyTerm_row {r : LimitResults} (hn : r.pars.Nodup) {i : ℕ} (hi : i < r.scales) :
    r.pars.mapM (r.getPenaltyTerm i) = .ok (r.penaltyRow i) := by
  have key : ∀ (done rest : List PyStr), r.pars = done ++ rest →
      rest.mapM (r.getPenaltyTerm i) =
        .ok ((List.range' done.length rest.length).map (fun j => r.penaltyTerms i j)) := by
    intro done rest
    induction rest generalizing done with
    | nil => intro _; rfl
    | cons q rest ih =>
      intro h
      have hq : q ∉ done := by
        rw [h] at hn
        intro hm
        exact (List.nodup_append.1 hn).2.2 q hm q List.mem_cons_self rfl
      have hidx : r.getIndex q = .ok done.length := by
        have : r.pars.findIdx? (fun p => p = q) = some done.length := by
          rw [h, List.findIdx?_append, List.findIdx?_eq_none_iff.2 (fun x hx => by
            simp only [decide_eq_false_iff_not]
            rintro rfl
            exact hq hx), List.findIdx?_cons]
          simp
        unfold LimitResults.getIndex
        rw [this]
      have h1 : r.getPenaltyTerm i q = .ok (r.penaltyTerms i done.length) := by
        simp only [LimitResults.getPenaltyTerm, hidx, bind, Except.bind, if_pos hi]
      have h2 := ih (done ++ [q]) (by rw [h, List.append_assoc]; rfl)
      rw [List.mapM_cons]
      simp only [h1, h2, bind, Except.bind, pure, Except.pure, List.length_append,
        List.length_cons, List.length_nil, zero_add, List.range'_succ, List.map_cons]
  have := key [] r.pars rfl
  rw [this, LimitResults.penaltyRow, List.range_eq_range']
  rfl

theorem full_stats_rows {r : LimitResults} (hr : r.stats.length = r.scales) :
    ∃ fs, r.getFullStats = .ok fs ∧ fs.length = r.scales ∧
      ∀ i row, r.stats[i]? = some row →
        r.getFullStat i = .ok (row.sum + (r.penaltyRow i).sum) ∧
        fs[i]? = some (List.replicate row.length (row.sum + (r.penaltyRow i).sum)) := by
  obtain ⟨fs, h1, h2, h3⟩ := fullStatsFrom_spec r r.stats 0 (by omega)
  refine ⟨fs, h1, by omega, fun i row hrow => ?_⟩
  have hi := (List.getElem?_eq_some_iff.1 hrow).1
  refine ⟨?_, ?_⟩
  · simp only [LimitResults.getFullStat, hrow, if_pos (show i < r.scales by omega), foldl_penalties]
  · have hf : fs[i]? = some (fs[i]'(by omega)) := List.getElem?_eq_getElem _
    rw [hf, h3 i _ row hf hrow, zero_add]

/-- C80: the full statistic of a scaling is the sum of its statistic and of its
penalty terms, asked for alone or for all scalings together. -/
theorem c80_full_stats {r : LimitResults} (hr : r.stats.length = r.scales) (hn : r.pars.Nodup) :
    ∃ fs, r.getFullStats = .ok fs ∧ fs.length = r.scales ∧
      ∀ i row, r.stats[i]? = some row → ∃ pens, r.pars.mapM (r.getPenaltyTerm i) = .ok pens ∧
        r.getFullStat i = .ok (row.sum + pens.sum) ∧
        fs[i]? = some (List.replicate row.length (row.sum + pens.sum)) := by
  obtain ⟨fs, h1, h2, h3⟩ := full_stats_rows hr
  refine ⟨fs, h1, h2, fun i row hrow => ⟨_, getPenaltyTerm_row hn ?_, h3 i row hrow⟩⟩
  have := (List.getElem?_eq_some_iff.1 hrow).1
  omega

/-- C80 fails for the statistic of a scaling: it can be set but never be read
back. -/
theorem c80_limit_stat_negation :
    ∃ r r' : LimitResults, r.setLimitStat 1 7 = .ok r' ∧ r'.stats = [[0], [7], [0]] ∧
      r'.getLimitStat 1 = .error .attributeError :=
  ⟨LimitResults.new [lit "rate"] 3, _, rfl, rfl, rfl⟩

/-- C80 is not vacuous. -/
example : ∃ r r' r'' : LimitResults, r = LimitResults.new [lit "rate", lit "shift"] 3 ∧
    r.setBestFit 2 5 (lit "shift") = .ok r' ∧ r'.setPenaltyTerm 0 1 (lit "rate") = .ok r'' ∧
    r''.stats.length = r''.scales ∧ r''.pars.Nodup :=
  ⟨_, _, _, rfl, rfl, rfl, rfl, by decide⟩

end Verif
