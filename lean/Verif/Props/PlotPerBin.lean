import Verif.Props.PlotResults

/-! # C108: statistics per bin of the spectrum -/

namespace Verif

theorem assoc_zip {α : Type} {pars : List FitPar} :
    ∀ {w : List α}, w.length = pars.length → (pars.map FitPar.name).Nodup →
    ∀ {kw : List (PyStr × α)}, (∀ p ∈ pars, assoc kw p.name = none) →
    List.Forall₂ (fun (p : FitPar) x => assoc (kw ++ (pars.map FitPar.name).zip w) p.name = some x)
      pars w := by
  induction pars with
  | nil => intro w hw _ kw _; cases w with | nil => exact .nil | cons => simp at hw
  | cons p pars ih =>
    intro w hw hn kw hkw
    cases w with
    | nil => simp at hw
    | cons x w =>
      rw [List.map_cons, List.nodup_cons] at hn
      have happ : ∀ (l : List (PyStr × α)) (r : List (PyStr × α)) (k : PyStr),
          assoc l k = none → assoc (l ++ r) k = assoc r k := by
        intro l r k
        unfold assoc
        intro h
        rw [List.find?_append]
        cases hf : l.find? (fun e => e.1 = k) with
        | none => rfl
        | some e => simp [hf] at h
      have h1 : assoc (kw ++ ((p :: pars).map FitPar.name).zip (x :: w)) p.name = some x := by
        rw [happ _ _ _ (hkw p List.mem_cons_self)]
        simp [assoc]
      refine .cons h1 ?_
      have := ih (w := w) (by simpa using hw) hn.2 (kw := kw ++ [(p.name, x)]) (fun q hq => by
        rw [happ _ _ _ (hkw q (List.mem_cons_of_mem _ hq))]
        have : p.name ≠ q.name := fun e => hn.1 (by rw [e]; exact List.mem_map.2 ⟨q, hq, rfl⟩)
        simp [assoc, this])
      simpa using this

theorem bestFitKw_ok {pars : List FitPar} {w : List ℝ}
    (h : List.Forall₂ (fun (p : FitPar) x => p.bestFit = some x ∧ p.penaltyTerm ≠ none) pars w) :
    pars.mapM (fun p => do
      let x ← p.getBestFit
      let _ ← p.getPenaltyTerm
      (.ok (p.name, x) : Except PyErr (PyStr × ℝ))) = .ok ((pars.map FitPar.name).zip w) := by
  induction h with
  | nil => rfl
  | @cons p x pars w hp _ ih =>
    obtain ⟨t, ht⟩ := Option.ne_none_iff_exists'.1 hp.2
    have h1 : p.getBestFit = .ok x := by simp [FitPar.getBestFit, hp.1]
    have h2 : p.getPenaltyTerm = .ok t := by simp [FitPar.getPenaltyTerm, ht]
    rw [List.mapM_cons, h1, h2, ih]
    rfl

theorem perBinStats_run {g : GridSearch} {idx : List ℕ} {w : List ℝ} (hg : g.OnGrid idx w)
    (hpb : g.perBin = true) {minChisq : Bool} {kw : List (PyStr × ℝ)}
    (ha : g.AsksFor minChisq kw w) :
    perBinStats g minChisq kw = (do
      let a ← GridSearch.dropLeading ⟨g.specShape, fun j => g.stats.get (idx ++ j)⟩
        (g.specShape.length + 1)
      GridSearch.dropTrailing a (a.ndim + 1)) := by
  obtain ⟨hr, vss, hv, hl, hn, hsep, hw⟩ := hg
  have hb : InB g.fitShape idx := by rw [← hl]; exact hw.inB
  have hs : g.stats.shape = g.fitShape ++ g.specShape := by
    have := hr.1
    simpa [GridSearch.cellShape, hpb] using this
  have ht := take_ok (a := g.stats) hs hb
  have key : ∀ kw, KwFor g.pars w kw → g.getRawStatsAt kw = (do
      let a ← GridSearch.dropLeading ⟨g.specShape, fun j => g.stats.get (idx ++ j)⟩
        (g.specShape.length + 1)
      GridSearch.dropTrailing a (a.ndim + 1)) := by
    intro kw hk
    unfold GridSearch.getRawStatsAt
    rw [bins_own hv hn hw hk hsep]
    simp only [bind, Except.bind, ht]
    rfl
  unfold GridSearch.AsksFor at ha
  unfold perBinStats
  cases minChisq with
  | false =>
    rw [if_neg (by decide)] at ha
    exact key kw ha
  | true =>
    rw [if_pos rfl] at ha
    rw [if_pos rfl]
    have h1 : bestFitKw g = .ok ((g.pars.map FitPar.name).zip w) := bestFitKw_ok ha.1
    rw [h1]
    refine key _ ?_
    exact assoc_zip (w := w) ha.1.length_eq.symm ha.2 (kw := []) (fun _ _ => rfl)

theorem perBinStats_ok {g : GridSearch} {idx : List ℕ} {w : List ℝ} (hg : g.OnGrid idx w)
    (hpb : g.perBin = true) {minChisq : Bool} {kw : List (PyStr × ℝ)}
    (ha : g.AsksFor minChisq kw w) {n m : ℕ} (h1 : g.specShape.head? = some n)
    (h2 : g.specShape.getLast? = some m) (hn : n ≠ 1) (hm : m ≠ 1) :
    perBinStats g minChisq kw = .ok ⟨g.specShape, fun j => g.stats.get (idx ++ j)⟩ := by
  rw [perBinStats_run hg hpb ha]
  have e1 : GridSearch.dropLeading ⟨g.specShape, fun j => g.stats.get (idx ++ j)⟩
      (g.specShape.length + 1) = .ok ⟨g.specShape, fun j => g.stats.get (idx ++ j)⟩ := by
    unfold GridSearch.dropLeading
    dsimp only
    cases hs : g.specShape with
    | nil => rw [hs] at h1; simp at h1
    | cons a t =>
      rw [hs] at h1
      simp at h1
      subst h1
      simp [hn]
  rw [e1]
  simp only [bind, Except.bind, GridSearch.dropTrailing]
  rw [h2]
  simp [hm]

theorem fillBins_spec (f : ℕ → ℝ) (n : ℕ) (h : TH1R) (hb : n ≤ h.bins) :
    ∀ k ≤ n, let h' := (List.range k).foldl (fun h i => h.setBinContent (i + 1) (f i)) h
    h'.bins = h.bins ∧ h'.low = h.low ∧ h'.high = h.high ∧
      ∀ a, h'.content a = if 1 ≤ a ∧ a ≤ k then f (a - 1) else h.content a := by
  intro k
  induction k with
  | zero =>
    intro _
    refine ⟨rfl, rfl, rfl, fun a => ?_⟩
    rw [if_neg (by omega)]
    rfl
  | succ k ih =>
    intro hk
    obtain ⟨i1, i2, i3, i4⟩ := ih (by omega)
    rw [List.range_succ, List.foldl_append]
    simp only [List.foldl_cons, List.foldl_nil]
    generalize (List.range k).foldl (fun h i => h.setBinContent (i + 1) (f i)) h = h0 at i1 i2 i3 i4
    unfold TH1R.setBinContent
    rw [if_pos (by rw [i1]; omega)]
    refine ⟨i1, i2, i3, fun a => ?_⟩
    dsimp only
    by_cases c : a = k + 1
    · rw [if_pos c, if_pos (by omega), c]
      rfl
    · rw [if_neg c, i4]
      by_cases c' : 1 ≤ a ∧ a ≤ k
      · rw [if_pos c', if_pos (by omega)]
      · rw [if_neg c', if_neg (by omega)]

/-- C108, for a spectrum with one dimension of at least two bins: the plot has the bins and the range
of the dimension, and the cell `i + 1` holds the statistic of bin `i` at the best fit or at the
values asked for. Underflow and overflow are empty. -/
theorem c108_one_partial {g : GridSearch} {idx : List ℕ} {w : List ℝ} (hg : g.OnGrid idx w)
    (hpb : g.perBin = true) {minChisq : Bool} {kw : List (PyStr × ℝ)}
    (ha : g.AsksFor minChisq kw w) {x : SPar} {n : ℕ} (hs : g.specShape = [n])
    (hx : x.bins.toNat = n) (hn : 2 ≤ n) :
    ∃ h, plotPerBin g [x] minChisq x.name kw = .ok h ∧ h.bins = n ∧ h.low = x.low ∧
      h.high = x.high ∧ (∀ i, i < n → h.content (i + 1) = g.stats.get (idx ++ [i])) ∧
      h.content 0 = 0 ∧ h.content (n + 1) = 0 := by
  have hp := perBinStats_ok hg hpb ha (n := n) (m := n) (by rw [hs]; rfl) (by rw [hs]; rfl)
    (by omega) (by omega)
  obtain ⟨f1, f2, f3, f4⟩ := fillBins_spec (fun i => g.stats.get (idx ++ [i])) n
    ⟨x.bins.toNat, x.low, x.high, fun _ => 0⟩ (by simp [hx]) n le_rfl
  refine ⟨_, ?_, f1.trans hx, f2, f3, fun i hi => ?_, ?_, ?_⟩
  · unfold plotPerBin specPar
    rw [hp]
    simp only [bind, Except.bind, List.find?_cons, decide_true]
    rw [hs]
  · rw [f4, if_pos (by omega)]
    rfl
  · rw [f4, if_neg (by omega)]
  · rw [f4, if_neg (by omega)]

theorem plotPerBin2_run {g : GridSearch} {idx : List ℕ} {w : List ℝ} (hg : g.OnGrid idx w)
    (hpb : g.perBin = true) {minChisq : Bool} {kw : List (PyStr × ℝ)}
    (ha : g.AsksFor minChisq kw w) {spec : List SPar} {x y : SPar} {n m : ℕ}
    (hs : g.specShape = [n, m]) (hn : 2 ≤ n) (hm : 2 ≤ m)
    (hx : specPar spec x.name = .ok x) (hy : specPar spec y.name = .ok y) :
    ∃ h, plotPerBin2 g spec minChisq x.name y.name kw = .ok h ∧
      h.xBins = x.bins.toNat ∧ h.xLow = x.low ∧ h.xHigh = x.high ∧
      h.yBins = y.bins.toNat ∧ h.yLow = y.low ∧ h.yHigh = y.high ∧
      (∀ i j, i < n → j < m → j ≤ x.bins.toNat → i ≤ y.bins.toNat →
        h.content (j + 1) (i + 1) = g.stats.get (idx ++ [i, j])) ∧
      (∀ a b, a = 0 ∨ m < a ∨ b = 0 ∨ n < b → h.content a b = 0) := by
  have hp := perBinStats_ok hg hpb ha (n := n) (m := m) (by rw [hs]; rfl) (by rw [hs]; rfl)
    (by omega) (by omega)
  obtain ⟨h', f1, ⟨e1, e2, e3, e4, e5, e6⟩, f3, f4⟩ := fillCells_spec (n := n) (m := m) false
    (value := fun e => .ok (g.stats.get (idx ++ [e.1, e.2])))
    (f := fun i j => g.stats.get (idx ++ [i, j]))
    ⟨x.bins.toNat, x.low, x.high, y.bins.toNat, y.low, y.high, fun _ _ => 0⟩
    (fun _ _ _ _ => rfl)
  refine ⟨h', ?_, e1, e2, e3, e4, e5, e6, fun i j hi hj c1 c2 => ?_, fun a b hab => ?_⟩
  · unfold plotPerBin2
    rw [hp, hx, hy]
    simp only [bind, Except.bind]
    rw [hs]
    exact f1
  · exact f3 i j hi hj (by simpa [drawnAt] using c1) (by simpa [drawnAt] using c2)
  · refine f4 a b (fun i j hi hj hc => ?_)
    simp [drawnAt] at hc
    omega

/-- C108, for two dimensions of at least two bins with the second one of the spectrum as horizontal
axis: the cell `(j + 1, i + 1)` holds the statistic of the bin `(i, j)` of the spectrum. -/
theorem c108_two_partial {g : GridSearch} {idx : List ℕ} {w : List ℝ} (hg : g.OnGrid idx w)
    (hpb : g.perBin = true) {minChisq : Bool} {kw : List (PyStr × ℝ)}
    (ha : g.AsksFor minChisq kw w) {a b : SPar} (hne : a.name ≠ b.name) {n m : ℕ}
    (hs : g.specShape = [n, m]) (han : a.bins.toNat = n) (hbm : b.bins.toNat = m) (hn : 2 ≤ n)
    (hm : 2 ≤ m) :
    ∃ h, plotPerBin2 g [a, b] minChisq b.name a.name kw = .ok h ∧
      h.xBins = m ∧ h.xLow = b.low ∧ h.xHigh = b.high ∧
      h.yBins = n ∧ h.yLow = a.low ∧ h.yHigh = a.high ∧
      (∀ i j, i < n → j < m → h.content (j + 1) (i + 1) = g.stats.get (idx ++ [i, j])) ∧
      (∀ c d, c = 0 ∨ m < c ∨ d = 0 ∨ n < d → h.content c d = 0) := by
  obtain ⟨h, h1, h2, h3, h4, h5, h6, h7, h8, h9⟩ := plotPerBin2_run hg hpb ha (spec := [a, b])
    (x := b) (y := a) hs hn hm (by simp [specPar, hne])
    (by simp [specPar])
  exact ⟨h, h1, h2.trans hbm, h3, h4, h5.trans han, h6, h7,
    fun i j hi hj => h8 i j hi hj (by omega) (by omega), h9⟩

/-- C108 fails with the first dimension of the spectrum as horizontal axis: the horizontal axis is
that of the first dimension, but the statistic of the bin `(i, j)` is drawn at `j + 1` on it and
not at `i + 1`. With more bins in the second dimension than fit on the axis, some are not drawn
at all. -/
theorem c108_two_negation {g : GridSearch} {idx : List ℕ} {w : List ℝ} (hg : g.OnGrid idx w)
    (hpb : g.perBin = true) {minChisq : Bool} {kw : List (PyStr × ℝ)}
    (ha : g.AsksFor minChisq kw w) {a b : SPar} (hne : a.name ≠ b.name) {n m : ℕ}
    (hs : g.specShape = [n, m]) (han : a.bins.toNat = n) (hbm : b.bins.toNat = m) (hn : 2 ≤ n)
    (hm : 2 ≤ m) :
    ∃ h, plotPerBin2 g [a, b] minChisq a.name b.name kw = .ok h ∧
      h.xBins = n ∧ h.xLow = a.low ∧ h.xHigh = a.high ∧
      h.yBins = m ∧ h.yLow = b.low ∧ h.yHigh = b.high ∧
      (∀ i j, i < n → j < m → j ≤ n → i ≤ m →
        h.content (j + 1) (i + 1) = g.stats.get (idx ++ [i, j])) ∧
      (∀ c d, m < c ∨ n < d → h.content c d = 0) := by
  obtain ⟨h, h1, h2, h3, h4, h5, h6, h7, h8, h9⟩ := plotPerBin2_run hg hpb ha (spec := [a, b])
    (x := a) (y := b) hs hn hm (by simp [specPar])
    (by simp [specPar, hne])
  exact ⟨h, h1, h2.trans han, h3, h4, h5.trans hbm, h6, h7,
    fun i j hi hj c1 c2 => h8 i j hi hj (by omega) (by omega), fun c d hcd => h9 c d (by omega)⟩

/-- C108 fails for a spectrum with a single bin, which cannot be plotted. -/
theorem c108_single_bin_negation {g : GridSearch} {idx : List ℕ} {w : List ℝ}
    (hg : g.OnGrid idx w) (hpb : g.perBin = true) {minChisq : Bool} {kw : List (PyStr × ℝ)}
    (ha : g.AsksFor minChisq kw w) (hs : g.specShape = [1]) (spec : List SPar) (dim : PyStr) :
    plotPerBin g spec minChisq dim kw = .error .indexError := by
  unfold plotPerBin
  rw [perBinStats_run hg hpb ha, hs]
  rfl

/-- C108: before a fit has been done, the plot at the best fit is refused. -/
theorem c108_before_fit {g : GridSearch} {p : FitPar} (hp : p ∈ g.pars) (hb : p.bestFit = none)
    (spec : List SPar) (kw : List (PyStr × ℝ)) (x y : PyStr) :
    plotPerBin g spec true x kw = .error .valueError ∧
    plotPerBin2 g spec true x y kw = .error .valueError := by
  have h : bestFitKw g = .error .valueError := by
    unfold bestFitKw
    generalize g.pars = l at hp
    induction l with
    | nil => cases hp
    | cons q l ih =>
      rw [List.mapM_cons]
      cases hq : q.bestFit with
      | none => simp [FitPar.getBestFit, hq, bind, Except.bind]
      | some v =>
        have hne : p ≠ q := by rintro rfl; rw [hb] at hq; cases hq
        rcases List.mem_cons.1 hp with h | h
        · exact absurd h hne
        · have h1 : q.getBestFit = .ok v := by simp [FitPar.getBestFit, hq]
          rw [h1, ih h]
          cases ht : q.penaltyTerm with
          | none =>
            have h2 : q.getPenaltyTerm = .error .valueError := by simp [FitPar.getPenaltyTerm, ht]
            rw [h2]
            rfl
          | some t =>
            have h2 : q.getPenaltyTerm = .ok t := by simp [FitPar.getPenaltyTerm, ht]
            rw [h2]
            rfl
  have h2 : perBinStats g true kw = .error .valueError := by
    unfold perBinStats
    rw [if_pos rfl, h]
    rfl
  unfold plotPerBin plotPerBin2
  rw [h2]
  exact ⟨rfl, rfl⟩

/-- A search per bin of two dimensions, with best fits. -/
def exPerBin : GridSearch :=
  { pars := exPars.map (fun p => { p with bestFit := some p.low, penaltyTerm := some 0 })
    specShape := [2, 3], name := none, perBin := true, useNumpy := true, resets := 0
    stats := ⟨[3, 2, 2, 3], fun idx => (idx.getD 2 0 : ℝ) + 10 * (idx.getD 3 0 : ℝ)⟩
    penalties := NdArray.zeros [3, 2] }

/-- C108 is not vacuous. -/
example : exPerBin.OnGrid [0, 0] [0, 5] ∧ exPerBin.AsksFor true [] [0, 5] ∧
    exPerBin.perBin = true ∧ exPerBin.specShape = [2, 3] := by
  refine ⟨⟨⟨rfl, rfl⟩, [[0, 1, 2], [5, 7]], .cons rfl (.cons rfl .nil), rfl, ?_, ?_,
    valuesAt_cons_iff.2 ⟨rfl, valuesAt_cons_iff.2 ⟨rfl, valuesAt_nil_iff.2 ⟨rfl, rfl⟩⟩⟩⟩, ?_, rfl,
    rfl⟩
  · intro vs h
    simp at h
    rcases h with rfl | rfl <;> norm_num
  · intro vs h x hx y hy hc
    simp at h
    unfold npCloseReal at hc
    rcases h with rfl | rfl
    · simp at hx hy
      rcases hx with rfl | rfl | rfl <;> rcases hy with rfl | rfl | rfl <;>
        first | rfl | (norm_num at hc)
    · simp at hx hy
      rcases hx with rfl | rfl <;> rcases hy with rfl | rfl <;>
        first | rfl | (norm_num at hc)
  · unfold GridSearch.AsksFor
    rw [if_pos rfl]
    exact ⟨.cons ⟨rfl, by simp⟩ (.cons ⟨rfl, by simp⟩ .nil), by decide⟩

end Verif
