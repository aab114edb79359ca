import Verif.Model.PlotChi
import Verif.Props.Decay

/-! # C145, C146: plots of chi-squareds -/

namespace Verif

open ChiTable DBIsotope

variable {c : DecayConst} {s : DBIsotope} {t p : ChiTable} {xs ys zs : List ℝ} {N : ℝ}

/-- Row `k` of the array, if there is one. -/
theorem row_ok {k : ℕ} (h : t.rows[k]? = some xs) : t.row k = .ok xs := by
  unfold row
  rw [h]

/-! ### C145 -/

/-- **C145, counts.** The graph of ROOT has one point for every count, in order: the count and its
chi-squared. So has the line of matplotlib; with a penalty there is a second line with the other
chi-squareds at the same counts. -/
theorem c145_counts (hx : t.rows[2]? = some xs) (hy : t.rows[0]? = some ys) (hl : xs.length = ys.length)
    (hz : p.rows[0]? = some zs) (hlz : xs.length = zs.length) (conv : Option DBIsotope) :
    t.rootVsSignal = .ok (xs.zip ys) ∧ t.mplVsSignal c conv none false false = .ok [xs.zip ys] ∧
    t.mplVsSignal c conv (some p) false false = .ok [xs.zip ys, xs.zip zs] := by
  replace hx := row_ok hx
  replace hy := row_ok hy
  replace hz := row_ok hz
  refine ⟨?_, ?_, ?_⟩
  · unfold rootVsSignal tgraph
    simp only [hx, hy, bind, Except.bind, hl, lt_irrefl, or_self, if_false]
    rw [← hl, List.take_length, hl, List.take_length]
  · unfold mplVsSignal axisValues mplLine
    simp [hx, hy, hl, bind, Except.bind]
  · unfold mplVsSignal axisValues mplLine
    simp [hx, hy, hz, hl, bind, Except.bind]
    simp [← hl, hlz]

theorem setPoints_ok {f : ℝ → Except PyErr ℝ} {g : ℝ → ℝ} (h : ∀ x ∈ xs, f x = .ok (g x))
    (hl : xs.length = ys.length) : setPoints f xs ys = .ok ((xs.map g).zip ys) := by
  induction xs generalizing ys with
  | nil => rfl
  | cons x xs ih =>
    cases ys with
    | nil => simp at hl
    | cons y ys =>
      unfold setPoints
      rw [h x (by simp)]
      have := ih (ys := ys) (fun x hx => h x (by simp [hx])) (by simpa using hl)
      simp only [bind, Except.bind, this]
      rfl

theorem inverseHalfLife_ok (h : s.Atoms c none N) (hN : 0 < N) (x : ℝ) :
    inverseHalfLife c s x = .ok (x / (5 * (Real.log 2 * N))) := by
  have hl := log_two_pos
  unfold inverseHalfLife
  rw [h.eq]
  simp only [bind, Except.bind]
  by_cases hx : x = 0
  · rw [if_pos hx, if_neg hN.ne', hx, zero_div]
  · rw [if_neg hx, countsToHalfLife_ok h hx (by norm_num)]
    dsimp only
    unfold realDiv
    rw [if_neg (by positivity)]
    congr 1
    field_simp

theorem massOf_ok (h : s.Atoms c none N) (hN : 0 < N) (he : 0 < c.electronMass)
    (hg : 0 < s.phaseSpace * s.matrixElement ^ 2) {x : ℝ} (hx : 0 ≤ x) :
    massOf c s x = .ok (c.electronMass *
      Real.sqrt (x / (5 * (Real.log 2 * N)) / (s.phaseSpace * s.matrixElement ^ 2))) := by
  have hl := log_two_pos
  unfold massOf
  rw [h.eq]
  simp only [bind, Except.bind]
  by_cases h0 : x = 0
  · rw [if_pos h0, if_neg (by rintro (h | h) <;> linarith), h0]
    simp
  · have hx' : 0 < x := lt_of_le_of_ne hx (Ne.symm h0)
    rw [if_neg h0, countsToEffMass_ok h hN hx' (by norm_num) hg]
    congr 1
    rw [← Real.sqrt_sq he.le, Real.sqrt_sq he.le, ← Real.sqrt_sq he.le, ← Real.sqrt_mul (sq_nonneg _),
      Real.sqrt_sq he.le]
    congr 1
    field_simp

/-- **C145, half-life.** The graph of ROOT against the inverse half-life has one point for every
count, in order. The inverse half-life is proportional to the counts (`N` atoms, five years), also for
no counts at all. -/
theorem c145_half_life (hx : t.rows[2]? = some xs) (hy : t.rows[0]? = some ys) (hl : xs.length = ys.length)
    (h : s.Atoms c none N) (hN : 0 < N) :
    t.rootVsHalfLife c s = .ok ((xs.map (fun x => x / (5 * (Real.log 2 * N)))).zip ys) := by
  unfold rootVsHalfLife
  rw [row_ok hx, row_ok hy]
  exact setPoints_ok (fun x _ => inverseHalfLife_ok h hN x) hl

/-- **C145, mass.** The graph of ROOT against the effective mass has one point for every count, in
order. The square of the mass is proportional to the inverse half-life, also for no counts. -/
theorem c145_mass (hx : t.rows[2]? = some xs) (hy : t.rows[0]? = some ys) (hl : xs.length = ys.length)
    (hpos : ∀ x ∈ xs, 0 ≤ x) (h : s.Atoms c none N) (hN : 0 < N) (he : 0 < c.electronMass)
    (hg : 0 < s.phaseSpace * s.matrixElement ^ 2) :
    ∃ ms : List ℝ, t.rootVsMass c s = .ok (ms.zip ys) ∧ List.Forall₂ (fun x m => 0 ≤ m ∧
      s.phaseSpace * s.matrixElement ^ 2 * (m ^ 2 / c.electronMass ^ 2) = x / (5 * (Real.log 2 * N)))
      xs ms := by
  have hlog := log_two_pos
  refine ⟨xs.map fun x => c.electronMass *
      Real.sqrt (x / (5 * (Real.log 2 * N)) / (s.phaseSpace * s.matrixElement ^ 2)), ?_, ?_⟩
  · unfold rootVsMass
    rw [row_ok hx, row_ok hy]
    exact setPoints_ok (fun x hm => massOf_ok h hN he hg (hpos x hm)) hl
  · rw [List.forall₂_map_right_iff, List.forall₂_same]
    intro x hm
    have := hpos x hm
    refine ⟨by positivity, ?_⟩
    rw [mul_pow, Real.sq_sqrt (by positivity), mul_div_cancel_left₀ _ (by positivity),
      mul_div_cancel₀ _ hg.ne']

/-- **C145, refused.** Without a converter matplotlib's plot against half-life or mass is refused. -/
theorem c145_refused_partial (penalty : Option ChiTable) (m h : Bool) (hmh : m = true ∨ h = true) :
    t.mplVsSignal c none penalty m h = .error .typeError := by
  unfold mplVsSignal
  rw [if_pos (by rcases hmh with rfl | rfl <;> simp)]

/-- **C145, mass with matplotlib** (violated). The plot against the mass is also refused when there is
a converter. -/
theorem c145_mass_negation (conv : DBIsotope) (penalty : Option ChiTable) (h : Bool) :
    t.mplVsSignal c (some conv) penalty true h = .error .typeError := by
  unfold mplVsSignal
  rw [if_pos (.inr rfl)]

/-- **C145, half-life with matplotlib** (violated). With a converter there is an `AttributeError` as
soon as there is one count. -/
theorem c145_half_life_negation (hx : t.rows[2]? = some xs) (hne : xs ≠ []) (h : s.Atoms c none N)
    (hN : 0 < N) (penalty : Option ChiTable) :
    t.mplVsSignal c (some s) penalty false true = .error .attributeError := by
  obtain ⟨x, xs, rfl⟩ := List.exists_cons_of_ne_nil hne
  unfold mplVsSignal axisValues
  rw [if_neg (by simp), row_ok hx]
  simp only [bind, Except.bind, Bool.false_eq_true, if_false, if_true, Option.map_some,
    inverseHalfLife_ok h hN]

theorem perBin_spec (chi : List ℝ) (h : TH1R) (k : ℕ) (hk : k + chi.length ≤ h.bins + 1) :
    let h' := (chi.foldl (fun (acc : TH1R × ℕ) x => (acc.1.setBinContent acc.2 x, acc.2 + 1)) (h, k)).1
    h'.bins = h.bins ∧ h'.low = h.low ∧ h'.high = h.high ∧
      (∀ j, j < k ∨ k + chi.length ≤ j → h'.content j = h.content j) ∧
      ∀ i x, chi[i]? = some x → h'.content (k + i) = x := by
  induction chi generalizing h k with
  | nil => simp
  | cons y chi ih =>
    rw [List.length_cons] at hk
    have hb : (h.setBinContent k y).bins = h.bins ∧ (h.setBinContent k y).low = h.low ∧
        (h.setBinContent k y).high = h.high ∧
        ∀ j, (h.setBinContent k y).content j = if j = k then y else h.content j := by
      unfold TH1R.setBinContent
      rw [if_pos (by omega)]
      exact ⟨rfl, rfl, rfl, fun _ => rfl⟩
    obtain ⟨b1, b2, b3, b4⟩ := hb
    obtain ⟨i1, i2, i3, i4, i5⟩ := ih (h.setBinContent k y) (k + 1) (by rw [b1]; omega)
    rw [List.foldl_cons]
    refine ⟨i1.trans b1, i2.trans b2, i3.trans b3, fun j hj => ?_, fun i x hx => ?_⟩
    · rw [i4 j (by rw [List.length_cons] at hj; omega), b4, if_neg (by
        rw [List.length_cons] at hj; omega)]
    · cases i with
      | zero =>
        rw [i4 _ (by omega), b4, if_pos (by omega)]
        simpa using hx
      | succ i =>
        rw [show k + (i + 1) = k + 1 + i by omega]
        exact i5 i x (by simpa using hx)

/-- **C145, chi-squared per bin.** The histogram has the bins and limits asked for and the chi-squared
of bin `i` in bin `i` (counted from one); underflow, overflow and the bins without a chi-squared are
empty. -/
theorem c145_per_bin (chi : List ℝ) (bins : ℕ) (low high : ℝ) (h : chi.length ≤ bins) :
    (rootPerBin chi bins low high).bins = bins ∧ (rootPerBin chi bins low high).low = low ∧
      (rootPerBin chi bins low high).high = high ∧
      (∀ i x, chi[i]? = some x → (rootPerBin chi bins low high).content (i + 1) = x) ∧
      ∀ j, j = 0 ∨ chi.length < j → (rootPerBin chi bins low high).content j = 0 := by
  obtain ⟨h1, h2, h3, h4, h5⟩ := perBin_spec chi ⟨bins, low, high, fun _ => 0⟩ 1 (by dsimp only; omega)
  exact ⟨h1, h2, h3, fun i x hx => by rw [Nat.add_comm]; exact h5 i x hx,
    fun j hj => h4 j (by omega)⟩

/-! ### C146 -/

variable {a : SystAnalyser}

theorem averaged_ok (ht : a.trials ≠ 0) (hc : a.counts ≠ []) (hv : a.values ≠ []) :
    a.averaged = .ok ⟨[a.values.length, a.counts.length], fun idx =>
      (∑ k ∈ Finset.range a.trials, a.chi (idx.getD 1 0) k (idx.getD 0 0)) / a.trials⟩ := by
  unfold SystAnalyser.averaged
  rw [if_neg (by simp [ht, hc, hv])]

/-- **C146, map.** The map has a row for every value of the systematic and a column for every count.
Each entry lies between the smallest and the largest chi-squared of the trials with this count and this
value; if all trials agree, it is their chi-squared. -/
theorem c146_map (ht : a.trials ≠ 0) (hc : a.counts ≠ []) (hv : a.values ≠ []) :
    ∃ m, a.chiSquaredMap = .ok m ∧ m.shape = [a.values.length, a.counts.length] ∧
      ∀ j i (lo hi : ℝ), (∀ k < a.trials, lo ≤ a.chi i k j ∧ a.chi i k j ≤ hi) →
        lo ≤ m.get [j, i] ∧ m.get [j, i] ≤ hi := by
  refine ⟨_, averaged_ok ht hc hv, rfl, fun j i lo hi h => ?_⟩
  have hpos : (0 : ℝ) < a.trials := by exact_mod_cast Nat.pos_of_ne_zero ht
  show lo ≤ (∑ k ∈ Finset.range a.trials, a.chi i k j) / a.trials ∧
    (∑ k ∈ Finset.range a.trials, a.chi i k j) / a.trials ≤ hi
  constructor
  · rw [le_div_iff₀ hpos]
    have := Finset.card_nsmul_le_sum (Finset.range a.trials) (fun k => a.chi i k j) lo
      fun k hk => (h k (Finset.mem_range.1 hk)).1
    rw [Finset.card_range, nsmul_eq_mul] at this
    linarith
  · rw [div_le_iff₀ hpos]
    have := Finset.sum_le_card_nsmul (Finset.range a.trials) (fun k => a.chi i k j) hi
      fun k hk => (h k (Finset.mem_range.1 hk)).2
    rw [Finset.card_range, nsmul_eq_mul] at this
    linarith

/-- **C146, turn on.** If floating the systematic adds `δ` to the chi-squareds without floating, for
every count, value and trial, then the entries of the map are the averages of `δ` (between its smallest
and largest value among the trials). -/
theorem c146_turn_on (ht : a.trials ≠ 0) (hc : a.counts ≠ []) (hv : a.values ≠ []) {chi : List ℝ}
    (hr : t.rows[0]? = some chi) (hl : chi.length = a.counts.length) {δ : ℕ → ℕ → ℕ → ℝ}
    (hδ : ∀ i x, chi[i]? = some x → ∀ k j, a.chi i k j = x + δ i k j) :
    ∃ m, a.turnOn t = .ok m ∧ m.shape = [a.values.length, a.counts.length] ∧
      ∀ j i, j < a.values.length → i < a.counts.length →
        m.get [j, i] = (∑ k ∈ Finset.range a.trials, δ i k j) / a.trials := by
  have hpos : (0 : ℝ) < a.trials := by exact_mod_cast Nat.pos_of_ne_zero ht
  refine ⟨⟨[a.values.length, a.counts.length], fun idx =>
    (∑ k ∈ Finset.range a.trials, a.chi (idx.getD 1 0) k (idx.getD 0 0)) / a.trials
      - chi.getD (idx.getD 1 0) 0⟩, ?_, rfl, ?_⟩
  · unfold SystAnalyser.turnOn SystAnalyser.unfloated
    rw [averaged_ok ht hc hv, row_ok hr]
    simp only [bind, Except.bind]
    rw [if_neg (by simp [hl])]
  · intro j i _ hi
    have hi' : i < chi.length := by rw [hl]; exact hi
    have hx : chi[i]? = some chi[i] := List.getElem?_eq_getElem hi'
    simp only [List.getD_cons_succ, List.getD_cons_zero]
    rw [List.getD_eq_getElem?_getD, hx, Option.getD_some]
    simp only [hδ i _ hx]
    rw [Finset.sum_add_distrib, Finset.sum_const, Finset.card_range, nsmul_eq_mul]
    field_simp
    ring

/-- **C146, turn on with missing chi-squareds** (violated). For counts that have no chi-squared without
floating nothing is subtracted, and the map shows the chi-squared itself. -/
theorem c146_turn_on_negation (ht : a.trials ≠ 0) (hc : a.counts ≠ []) (hv : a.values ≠ [])
    {chi : List ℝ} (hr : t.rows[0]? = some chi) (hl : chi.length < a.counts.length) :
    ∃ m d, a.turnOn t = .ok m ∧ a.chiSquaredMap = .ok d ∧
      ∀ j i, chi.length ≤ i → m.get [j, i] = d.get [j, i] := by
  refine ⟨⟨[a.values.length, a.counts.length], fun idx =>
    (∑ k ∈ Finset.range a.trials, a.chi (idx.getD 1 0) k (idx.getD 0 0)) / a.trials
      - chi.getD (idx.getD 1 0) 0⟩, _, ?_, averaged_ok ht hc hv, ?_⟩
  · unfold SystAnalyser.turnOn SystAnalyser.unfloated
    rw [averaged_ok ht hc hv, row_ok hr]
    simp only [bind, Except.bind]
    rw [if_neg (by simp [hl.le])]
  · intro j i hi
    simp only [List.getD_cons_succ, List.getD_cons_zero]
    rw [List.getD_eq_getElem?_getD, List.getElem?_eq_none hi, Option.getD_none, sub_zero]

/-- **C146, push and pull.** If the chi-squareds are the sum of a likelihood part `L` and of the penalty
of the value, then the entries of the map are the penalty minus the average likelihood part: positive
exactly where the penalty is larger. -/
theorem c146_push_pull (ht : a.trials ≠ 0) (hc : a.counts ≠ []) (hv : a.values ≠ [])
    {L : ℕ → ℕ → ℕ → ℝ}
    (hL : ∀ j x, a.penalty[j]? = some x → ∀ i k, a.chi i k j = L i k j + x) :
    ∃ m, a.pushPull = .ok m ∧ m.shape = [a.values.length, a.counts.length] ∧
      ∀ j i x, j < a.values.length → a.penalty[j]? = some x →
        m.get [j, i] = x - (∑ k ∈ Finset.range a.trials, L i k j) / a.trials := by
  have hpos : (0 : ℝ) < a.trials := by exact_mod_cast Nat.pos_of_ne_zero ht
  refine ⟨⟨[a.values.length, a.counts.length], fun idx =>
    2 * (a.penalty.take a.values.length).getD (idx.getD 0 0) 0 -
      (∑ k ∈ Finset.range a.trials, a.chi (idx.getD 1 0) k (idx.getD 0 0)) / a.trials⟩, ?_, rfl, ?_⟩
  · unfold SystAnalyser.pushPull
    rw [averaged_ok ht hc hv]
    simp only [bind, Except.bind]
  · intro j i x hj hx
    simp only [List.getD_cons_succ, List.getD_cons_zero]
    rw [List.getD_eq_getElem?_getD, List.getElem?_take_of_lt hj, hx, Option.getD_some]
    simp only [hL j x hx]
    rw [Finset.sum_add_distrib, Finset.sum_const, Finset.card_range, nsmul_eq_mul]
    field_simp
    ring

/-- **C146, saving** (violated). The plot of the penalty values cannot be saved. -/
theorem c146_save_negation (h : a.penaltyAt.length = a.penalty.length) :
    a.penaltyVsSystematic false = .ok (a.penaltyAt.zip a.penalty) ∧
      a.penaltyVsSystematic true = .error .nameError := by
  unfold SystAnalyser.penaltyVsSystematic mplLine
  rw [if_pos h]
  exact ⟨rfl, rfl⟩

/-! ### cases that meet the hypotheses -/

namespace Ex

/-- Three counts with their chi-squareds. -/
def chiTable : ChiTable := ⟨[[4, 1, 3], [0, 0, 0], [0, 5, 10]]⟩

/-- Three counts, two values of the systematic and two trials. -/
noncomputable def analyser : SystAnalyser where
  counts := [0, 5, 10]
  values := [9, 11]
  trials := 2
  chi := fun i k j => ([4, 1, 3] : List ℝ).getD i 0 + (k + j)
  penaltyAt := [9, 11]
  penalty := [0, 1]

end Ex

example := c145_counts (c := DecayConst.std) (t := Ex.chiTable) (p := Ex.chiTable) rfl rfl rfl rfl rfl
  (some exTe)

example : ∃ N, 0 < N ∧ Ex.chiTable.rootVsHalfLife DecayConst.std exTe =
    .ok [(0, 4), (5 / (5 * (Real.log 2 * N)), 1), (10 / (5 * (Real.log 2 * N)), 3)] ∧
    (∃ ms : List ℝ, Ex.chiTable.rootVsMass DecayConst.std exTe = .ok (ms.zip [4, 1, 3])) ∧
    Ex.chiTable.mplVsSignal DecayConst.std (some exTe) none false true = .error .attributeError := by
  obtain ⟨N, hN, h, _⟩ := c53_scaling (c := DecayConst.std)
      (s := exTe) (l := 0.003)
      (d := 862.8 / 10 ^ 9) (r := 5997) (k := 1) (by norm_num [DecayConst.std])
      (by norm_num [DecayConst.std]) (by norm_num [exTe]) (by norm_num [exTe]) (by norm_num [exTe])
      (by norm_num) (by norm_num) (by norm_num) (by norm_num) (by norm_num)
  have hA : exTe.Atoms DecayConst.std none N := .inr ⟨rfl, h⟩
  refine ⟨N, hN, ?_, ?_, ?_⟩
  · rw [c145_half_life (t := Ex.chiTable) rfl rfl rfl hA hN]
    simp
  · obtain ⟨ms, h1, -⟩ := c145_mass (t := Ex.chiTable) (xs := [0, 5, 10]) rfl rfl rfl (by simp)
      hA hN (by norm_num [DecayConst.std]) (by norm_num [exTe])
    exact ⟨ms, h1⟩
  · exact c145_half_life_negation (xs := [0, 5, 10]) rfl (by simp) hA hN none

example := c145_per_bin [4, 1, 3] 5 0 10 (by simp)

example := c145_mass_negation (c := DecayConst.std) (t := Ex.chiTable) exTe none false

example := c145_refused_partial (c := DecayConst.std) (t := Ex.chiTable) none false true (.inr rfl)

example := c146_map (a := Ex.analyser) (by simp [Ex.analyser]) (by simp [Ex.analyser])
  (by simp [Ex.analyser])

example := c146_turn_on (a := Ex.analyser) (t := Ex.chiTable) (by simp [Ex.analyser])
  (by simp [Ex.analyser]) (by simp [Ex.analyser]) rfl rfl (δ := fun _ k j => k + j) (by
    intro i x hx k j
    simp [Ex.analyser, List.getD_eq_getElem?_getD, hx])

example := c146_turn_on_negation (a := Ex.analyser) (t := ⟨[[4, 1]]⟩) (by simp [Ex.analyser])
  (by simp [Ex.analyser]) (by simp [Ex.analyser]) rfl (by simp [Ex.analyser])

example := c146_push_pull (a := { Ex.analyser with penalty := [0, 1] }) (by simp [Ex.analyser])
  (by simp [Ex.analyser]) (by simp [Ex.analyser])
  (L := fun i k _ => ([4, 1, 3] : List ℝ).getD i 0 + k) (by
    intro j x hx i k
    match j with
    | 0 =>
      obtain rfl : (0 : ℝ) = x := by simpa using hx
      simp [Ex.analyser]
    | 1 =>
      obtain rfl : (1 : ℝ) = x := by simpa using hx
      simp [Ex.analyser]; ring
    | j + 2 => simp at hx)

example := c146_save_negation (a := Ex.analyser) rfl

end Verif
