import Verif.Props.PlotResults
import Verif.Props.Limit

/-! # C109: graphs of results against scalings -/

namespace Verif

theorem tgraph_ok {n : ℕ} {x y : List ℝ} (hx : x.length = n) (hy : n ≤ y.length) {f : ℕ → ℝ}
    (hf : ∀ i, i < n → y[i]? = some (f i)) :
    ∃ pts, tgraph n x y = .ok pts ∧ PointsAre pts n x f := by
  refine ⟨(x.take n).zip (y.take n), ?_, ?_, fun i v hi hv => ?_⟩
  · unfold tgraph
    rw [if_neg (by omega)]
  · simp [hx]
    omega
  · rw [List.getElem?_zip_eq_some]
    simp only
    rw [List.getElem?_take_of_lt hi, List.getElem?_take_of_lt hi]
    exact ⟨hv, hf i hi⟩

theorem ravel_getElem? {a : NdArray ℝ} {k : ℕ} (hk : k < a.shape.prod) :
    a.ravel[k]? = some (a.get (unravelIdx a.shape k)) := by
  unfold NdArray.ravel
  rw [List.getElem?_map, allIdx_getElem? hk]
  rfl

theorem length_ravel (a : NdArray ℝ) : a.ravel.length = a.shape.prod := by
  unfold NdArray.ravel
  rw [List.length_map, length_allIdx]

theorem graph_one {a : NdArray ℝ} {n : ℕ} (ha : a.shape = [n]) {vs : List ℝ} (hl : vs.length = n)
    {f : ℕ → ℝ} (hf : ∀ i, i < n → a.get [i] = f i) :
    ∃ pts, tgraph vs.length vs a.ravel = .ok pts ∧ PointsAre pts n vs f := by
  rw [hl]
  refine tgraph_ok hl (by rw [length_ravel, ha]; simp) (fun i hi => ?_)
  rw [ravel_getElem? (by rw [ha]; simpa using hi), ← hf i hi, ha]
  simp [unravelIdx]

/-- C109, for fits with one parameter: the graphs of the statistics, with and without penalty, and of
the penalty terms have one point for each value of the parameter, with the number stored for
it. -/
theorem c109_fit_partial {g : GridSearch} (hr : g.Ready) {p : FitPar} (hp : g.pars = [p])
    {vs : List ℝ} (hv : p.getValues = .ok vs) (hl : vs.length = p.bins) :
    ∃ a b c, plotStatsVsParScale g p.name = .ok a ∧
      PointsAre a p.bins vs (fun i => g.rawAt [i] + g.penalties.get [i]) ∧
      plotRawStatsVsParScale g p.name = .ok b ∧ PointsAre b p.bins vs (fun i => g.rawAt [i]) ∧
      plotPenaltyVsParScale g p.name = .ok c ∧
      PointsAre c p.bins vs (fun i => g.penalties.get [i]) := by
  have hfs : g.fitShape = [p.bins] := by simp [GridSearch.fitShape, hp]
  have hsc : g.getScales p.name = .ok vs := by
    simp [GridSearch.getScales, GridSearch.parNamed, hp, bind, Except.bind, hv]
  obtain ⟨m1, s1, s2, s3⟩ := getStats_ok hr
  obtain ⟨m2, r1, r2, r3⟩ := c106_raw_stats hr
  obtain ⟨m3, q1, q2, q3⟩ := c106_penalty_terms_partial hr hp p.name
  rw [hfs] at s2 s3 r2 r3
  obtain ⟨a, a1, a2⟩ := graph_one s2 hl (fun i hi => s3 [i] (by simpa using hi))
  obtain ⟨b, b1, b2⟩ := graph_one r2 hl (fun i hi => r3 [i] (by simpa using hi))
  obtain ⟨c, c1, c2⟩ := graph_one q2 hl (fun i _ => q3 i)
  refine ⟨a, b, c, ?_, a2, ?_, b2, ?_, c2⟩
  · unfold plotStatsVsParScale
    rw [hsc, s1]
    exact a1
  · unfold plotRawStatsVsParScale
    rw [hsc, r1]
    exact b1
  · unfold plotPenaltyVsParScale
    rw [hsc, q1]
    exact c1

/-- C109 fails for fits with two parameters: the graph against the first one shows, at its `i`-th
value, the statistic at its first value and the `i`-th value of the other parameter. -/
theorem c109_fit_negation {g : GridSearch} (hr : g.Ready) {p q : FitPar} (hp : g.pars = [p, q])
    {vs : List ℝ} (hv : p.getValues = .ok vs) (hl : vs.length = p.bins) (hq : 0 < q.bins) :
    ∃ pts, plotStatsVsParScale g p.name = .ok pts ∧ pts.length = p.bins ∧
      ∀ i x, i < p.bins → i < q.bins → vs[i]? = some x →
        pts[i]? = some (x, g.rawAt [0, i] + g.penalties.get [0, i]) := by
  have hfs : g.fitShape = [p.bins, q.bins] := by simp [GridSearch.fitShape, hp]
  have hsc : g.getScales p.name = .ok vs := by
    simp [GridSearch.getScales, GridSearch.parNamed, hp, bind, Except.bind, hv]
  obtain ⟨m, s1, s2, s3⟩ := getStats_ok hr
  rw [hfs] at s2 s3
  have hprod : m.shape.prod = p.bins * q.bins := by rw [s2]; simp
  have hle : p.bins ≤ p.bins * q.bins := Nat.le_mul_of_pos_right _ hq
  obtain ⟨pts, a1, a2, a3⟩ := tgraph_ok (n := p.bins) (x := vs) (y := m.ravel) hl
    (by rw [length_ravel, hprod]; exact hle)
    (f := fun i => m.get (unravelIdx m.shape i))
    (fun i hi => ravel_getElem? (by rw [hprod]; omega))
  refine ⟨pts, ?_, a2, fun i x hi hi' hx => ?_⟩
  · unfold plotStatsVsParScale
    rw [hsc, s1, ← a1, ← hl]
    rfl
  · rw [a3 i x hi hx]
    dsimp only
    rw [s2]
    have hu : unravelIdx [p.bins, q.bins] i = [0, i] := by
      simp [unravelIdx, Nat.div_eq_of_lt hi', Nat.mod_eq_of_lt hi']
    rw [hu, s3 [0, i] (by simp; omega)]
    rfl

/-! ### limits -/

theorem flatten_rows {α : Type} {k : ℕ} (hk : 0 < k) :
    ∀ (l : List (List α)), (∀ row ∈ l, row.length = k) →
    l.flatten.length = l.length * k ∧
    ∀ i, l.flatten[i]? = (l[i / k]?).bind (fun row => row[i % k]?) := by
  intro l
  induction l with
  | nil => intro _; simp
  | cons a l ih =>
    intro h
    obtain ⟨h1, h2⟩ := ih (fun row hr => h row (List.mem_cons_of_mem _ hr))
    have ha := h a List.mem_cons_self
    refine ⟨by simp [h1, ha]; ring, fun i => ?_⟩
    rw [List.flatten_cons]
    rcases Nat.lt_or_ge i k with hi | hi
    · rw [List.getElem?_append_left (by omega), Nat.div_eq_of_lt hi, Nat.mod_eq_of_lt hi]
      simp
    · rw [List.getElem?_append_right (by omega), ha, h2]
      have h3 : i / k = (i - k) / k + 1 := Nat.div_eq_sub_div hk hi
      rw [h3, Nat.mod_eq_sub_mod hi, List.getElem?_cons_succ]

/-- The full statistics of results with `k` numbers for each scaling. -/
theorem plotStats_run {r : LimitResults} (hr : r.stats.length = r.scales) {k : ℕ} (hk : 0 < k)
    (hrow : ∀ row ∈ r.stats, row.length = k) {rate : FitPar} {xs : List ℝ}
    (hv : rate.getValues = .ok xs) (hl : xs.length = r.scales) :
    ∃ pts, r.plotStats rate = .ok pts ∧ pts.length = r.scales ∧
      ∀ i x y, xs[i]? = some x → r.getFullStat (i / k) = .ok y → pts[i]? = some (x, y) := by
  obtain ⟨fs, f1, f2, f3⟩ := full_stats_rows hr
  have hrows : ∀ row ∈ fs, row.length = k := by
    intro row hmem
    obtain ⟨i, hi, rfl⟩ := List.getElem_of_mem hmem
    have hi' : i < r.stats.length := by omega
    have := (f3 i _ (List.getElem?_eq_getElem hi')).2
    rw [List.getElem?_eq_getElem hi] at this
    rw [Option.some.inj this, List.length_replicate]
    exact hrow _ (List.getElem_mem hi')
  obtain ⟨g1, g2⟩ := flatten_rows hk fs hrows
  have hle : r.scales ≤ r.scales * k := Nat.le_mul_of_pos_right _ hk
  have hel : ∀ i, i < r.scales → ∃ v, fs.flatten[i]? = some v ∧ r.getFullStat (i / k) = .ok v := by
    intro i hi
    have hd : i / k < r.stats.length := by
      have := Nat.div_le_self i k
      omega
    obtain ⟨e1, e2⟩ := f3 (i / k) _ (List.getElem?_eq_getElem hd)
    refine ⟨_, ?_, e1⟩
    rw [g2, e2]
    have hm : i % k < k := Nat.mod_lt _ hk
    rw [Option.bind_some, List.getElem?_replicate,
      if_pos (by rw [hrow _ (List.getElem_mem hd)]; exact hm)]
  obtain ⟨pts, a1, a2, a3⟩ := tgraph_ok (n := r.scales) (x := xs) (y := fs.flatten) hl
    (by rw [g1, f2]; exact hle) (f := fun i => (fs.flatten[i]?).getD 0) (fun i hi => by
      obtain ⟨v, h1, -⟩ := hel i hi
      simp [h1])
  refine ⟨pts, ?_, a2, fun i x y hx hy => ?_⟩
  · unfold LimitResults.plotStats
    rw [hv, f1, ← a1, ← hl]
    rfl
  · have hi : i < r.scales := by
      have := (List.getElem?_eq_some_iff.1 hx).1
      omega
    obtain ⟨v, h1, h2⟩ := hel i hi
    rw [a3 i x hi hx]
    dsimp only
    rw [h1]
    rw [h2] at hy
    injection hy with hy
    rw [← hy]
    rfl

/-- C109, for limits with one number for each scaling: the graph of the statistics has, at every
scaling, the statistic plus all penalty terms stored for it. -/
theorem c109_limit_stats_partial {r : LimitResults} (hr : r.stats.length = r.scales)
    (hn : r.pars.Nodup) (hrow : ∀ row ∈ r.stats, row.length = 1) {rate : FitPar} {xs : List ℝ}
    (hv : rate.getValues = .ok xs) (hl : xs.length = r.scales) :
    ∃ pts, r.plotStats rate = .ok pts ∧ pts.length = r.scales ∧
      ∀ i x, xs[i]? = some x →
        ∃ s pens, r.stats[i]? = some [s] ∧ r.pars.mapM (r.getPenaltyTerm i) = .ok pens ∧
          pts[i]? = some (x, s + pens.sum) := by
  obtain ⟨pts, h1, h2, h3⟩ := plotStats_run hr (k := 1) (by omega) hrow hv hl
  refine ⟨pts, h1, h2, fun i x hx => ?_⟩
  have hi : i < r.stats.length := by
    have := (List.getElem?_eq_some_iff.1 hx).1
    omega
  have e : r.stats[i]? = some r.stats[i] := List.getElem?_eq_getElem hi
  obtain ⟨s, hs⟩ := List.length_eq_one_iff.1 (hrow _ (List.getElem_mem hi))
  obtain ⟨fs, -, -, f3⟩ := full_stats_rows hr
  have := (f3 i _ e).1
  refine ⟨s, _, by rw [e, hs], getPenaltyTerm_row hn (by omega), h3 i x _ hx ?_⟩
  rw [Nat.div_one, this, hs]
  simp

/-- C109 fails for limits with several numbers for each scaling: at the `i`-th scaling the graph
shows the statistic of the scaling `i / k`, so all but the first point are in the wrong place. -/
theorem c109_limit_stats_negation {r : LimitResults} (hr : r.stats.length = r.scales) {k : ℕ}
    (hk : 2 ≤ k) (hrow : ∀ row ∈ r.stats, row.length = k) {rate : FitPar} {xs : List ℝ}
    (hv : rate.getValues = .ok xs) (hl : xs.length = r.scales) :
    ∃ pts, r.plotStats rate = .ok pts ∧
      ∀ i x y, xs[i]? = some x → r.getFullStat (i / k) = .ok y → pts[i]? = some (x, y) := by
  obtain ⟨pts, h1, -, h3⟩ := plotStats_run hr (k := k) (by omega) hrow hv hl
  exact ⟨pts, h1, h3⟩

theorem column_getElem? (t : ℕ → ℕ → ℝ) {n i : ℕ} (j : ℕ) (hi : i < n) :
    ((List.range n).map (fun i => t i j))[i]? = some (t i j) := by
  rw [List.getElem?_map, List.getElem?_range hi]
  rfl

/-- C109: the graphs of best fits and of penalty terms show, at every scaling, the best fit or
penalty term stored for it. -/
theorem c109_best_fit {r : LimitResults} {par : PyStr} (hp : par ∈ r.pars) {rate : FitPar}
    {xs : List ℝ} (hv : rate.getValues = .ok xs) (hl : xs.length = r.scales) :
    ∃ a b, r.plotBestFit rate par = .ok a ∧ r.plotPenaltyTerm rate par = .ok b ∧
      a.length = r.scales ∧ b.length = r.scales ∧
      ∀ i x, xs[i]? = some x →
        (∃ y, r.getBestFit i par = .ok y ∧ a[i]? = some (x, y)) ∧
        (∃ y, r.getPenaltyTerm i par = .ok y ∧ b[i]? = some (x, y)) := by
  obtain ⟨j, hj⟩ : ∃ j, r.getIndex par = .ok j := by
    unfold LimitResults.getIndex
    cases hf : r.pars.findIdx? (fun p => p = par) with
    | some j => exact ⟨j, rfl⟩
    | none =>
      rw [List.findIdx?_eq_none_iff] at hf
      have := hf par hp
      simp at this
  obtain ⟨a, a1, a2, a3⟩ := tgraph_ok (n := r.scales) (x := xs)
    (y := (List.range r.scales).map (fun i => r.bestFits i j)) hl (by simp)
    (fun i hi => column_getElem? r.bestFits j hi)
  obtain ⟨b, b1, b2, b3⟩ := tgraph_ok (n := r.scales) (x := xs)
    (y := (List.range r.scales).map (fun i => r.penaltyTerms i j)) hl (by simp)
    (fun i hi => column_getElem? r.penaltyTerms j hi)
  refine ⟨a, b, ?_, ?_, a2, b2, fun i x hx => ?_⟩
  · unfold LimitResults.plotBestFit LimitResults.getBestFits
    rw [hv, hj, ← a1, ← hl]
    rfl
  · unfold LimitResults.plotPenaltyTerm LimitResults.getPenaltyTerms
    rw [hv, hj, ← b1, ← hl]
    rfl
  · have hi : i < r.scales := by
      have := (List.getElem?_eq_some_iff.1 hx).1
      omega
    refine ⟨⟨_, ?_, a3 i x hi hx⟩, ⟨_, ?_, b3 i x hi hx⟩⟩
    · simp [LimitResults.getBestFit, hj, bind, Except.bind, hi]
    · simp [LimitResults.getPenaltyTerm, hj, bind, Except.bind, hi]

theorem getIndex_bestFits (r : LimitResults) (f : ℕ → ℕ → ℝ) (q : PyStr) :
    ({ r with bestFits := f } : LimitResults).getIndex q = r.getIndex q := rfl

theorem plotSigma_run {r : LimitResults} {par : PyStr} (hp : par ∈ r.pars) {conf : List FitPar}
    {p : FitPar} (hc : conf.find? (fun p => p.name = par) = some p) {sigma : ℝ}
    (hs : p.sigma = some sigma) (h0 : sigma ≠ 0) {rate : FitPar} {xs : List ℝ}
    (hv : rate.getValues = .ok xs) (hl : xs.length = r.scales) :
    ∃ j r' pts, r.getIndex par = .ok j ∧ r.plotSigmaBestFit conf rate par = (r', .ok pts) ∧
      pts.length = r.scales ∧ r'.pars = r.pars ∧ r'.scales = r.scales ∧
      (∀ a b, r'.bestFits a b =
        if b = j then (r.bestFits a b - p.prior) / sigma else r.bestFits a b) ∧
      (∀ i x, xs[i]? = some x → pts[i]? = some (x, (r.bestFits i j - p.prior) / sigma)) := by
  obtain ⟨j, hj⟩ : ∃ j, r.getIndex par = .ok j := by
    unfold LimitResults.getIndex
    cases hf : r.pars.findIdx? (fun p => p = par) with
    | some j => exact ⟨j, rfl⟩
    | none =>
      rw [List.findIdx?_eq_none_iff] at hf
      have := hf par hp
      simp at this
  let r' := (r.mapBestFits j (fun x => x - p.prior)).mapBestFits j (fun x => x / sigma)
  have hb : ∀ a b, r'.bestFits a b =
      if b = j then (r.bestFits a b - p.prior) / sigma else r.bestFits a b := by
    intro a b
    change (if b = j then (if b = j then r.bestFits a b - p.prior else r.bestFits a b) / sigma
      else (if b = j then r.bestFits a b - p.prior else r.bestFits a b)) = _
    by_cases c : b = j <;> simp [c]
  obtain ⟨a, a1, a2, a3⟩ := tgraph_ok (n := r.scales) (x := xs)
    (y := (List.range r.scales).map (fun i => r'.bestFits i j)) hl (by simp)
    (fun i hi => column_getElem? r'.bestFits j hi)
  refine ⟨j, r', a, hj, ?_, a2, rfl, rfl, hb, fun i x hx => ?_⟩
  · unfold LimitResults.plotSigmaBestFit
    rw [hj, hc]
    dsimp only
    rw [hs]
    dsimp only
    rw [if_neg h0, hv]
    refine Prod.ext rfl ?_
    change tgraph xs.length xs ((List.range r.scales).map (fun i => r'.bestFits i j)) = _
    rw [hl]
    exact a1
  · have hi : i < r.scales := by
      have := (List.getElem?_eq_some_iff.1 hx).1
      omega
    rw [a3 i x hi hx]
    dsimp only
    rw [hb, if_pos rfl]

/-- C109: the graph of best fits in units of sigma shows, at every scaling, how many sigma the best
fit stored for it is away from the prior. -/
theorem c109_sigma {r : LimitResults} {par : PyStr} (hp : par ∈ r.pars) {conf : List FitPar}
    {p : FitPar} (hc : conf.find? (fun p => p.name = par) = some p) {sigma : ℝ}
    (hs : p.sigma = some sigma) (h0 : sigma ≠ 0) {rate : FitPar} {xs : List ℝ}
    (hv : rate.getValues = .ok xs) (hl : xs.length = r.scales) :
    ∃ r' pts, r.plotSigmaBestFit conf rate par = (r', .ok pts) ∧ pts.length = r.scales ∧
      ∀ i x, xs[i]? = some x → ∃ y, r.getBestFit i par = .ok y ∧
        pts[i]? = some (x, (y - p.prior) / sigma) := by
  obtain ⟨j, r', pts, hj, h1, h2, -, -, -, h6⟩ := plotSigma_run hp hc hs h0 hv hl
  refine ⟨r', pts, h1, h2, fun i x hx => ⟨r.bestFits i j, ?_, h6 i x hx⟩⟩
  have hi : i < r.scales := by
    have := (List.getElem?_eq_some_iff.1 hx).1
    omega
  simp [LimitResults.getBestFit, hj, bind, Except.bind, hi]

/-- C109 fails for the results themselves: making that graph replaces the stored best fits by the
numbers of sigma, so a second graph shows something else. -/
theorem c109_sigma_negation {r : LimitResults} {par : PyStr} (hp : par ∈ r.pars)
    {conf : List FitPar} {p : FitPar} (hc : conf.find? (fun p => p.name = par) = some p) {sigma : ℝ}
    (hs : p.sigma = some sigma) (h0 : sigma ≠ 0) {rate : FitPar} {xs : List ℝ}
    (hv : rate.getValues = .ok xs) (hl : xs.length = r.scales) :
    ∃ r' r'' pts pts', r.plotSigmaBestFit conf rate par = (r', .ok pts) ∧
      r'.plotSigmaBestFit conf rate par = (r'', .ok pts') ∧
      ∀ i x, xs[i]? = some x → ∃ y, r.getBestFit i par = .ok y ∧
        r'.getBestFit i par = .ok ((y - p.prior) / sigma) ∧
        pts'[i]? = some (x, ((y - p.prior) / sigma - p.prior) / sigma) := by
  obtain ⟨j, r', pts, hj, h1, h2, h3, h4, h5, h6⟩ := plotSigma_run hp hc hs h0 hv hl
  obtain ⟨j', r'', pts', hj', g1, g2, -, -, g5, g6⟩ := plotSigma_run (r := r') (par := par)
    (by rw [h3]; exact hp) hc hs h0 hv (by rw [h4]; exact hl)
  have hjj : j' = j := by
    have : r'.getIndex par = r.getIndex par := by unfold LimitResults.getIndex; rw [h3]
    rw [this, hj] at hj'
    injection hj' with e
    exact e.symm
  subst hjj
  refine ⟨r', r'', pts, pts', h1, g1, fun i x hx => ⟨r.bestFits i j', ?_, ?_, ?_⟩⟩
  · have hi : i < r.scales := by
      have := (List.getElem?_eq_some_iff.1 hx).1
      omega
    simp [LimitResults.getBestFit, hj, bind, Except.bind, hi]
  · have hi : i < r'.scales := by
      have := (List.getElem?_eq_some_iff.1 hx).1
      omega
    simp [LimitResults.getBestFit, hj', bind, Except.bind, hi, h5]
  · rw [g6 i x hx, h5, if_pos rfl]

/-- C109 fails for a parameter without sigma: the graph is refused, but the prior has been
subtracted from the stored best fits by then. -/
theorem c109_no_sigma_negation {r : LimitResults} {par : PyStr} {j : ℕ}
    (hj : r.getIndex par = .ok j) {conf : List FitPar} {p : FitPar}
    (hc : conf.find? (fun p => p.name = par) = some p) (hs : p.sigma = none) (rate : FitPar) :
    ∃ r', r.plotSigmaBestFit conf rate par = (r', .error .typeError) ∧
      ∀ i, i < r.scales → ∃ y, r.getBestFit i par = .ok y ∧
        r'.getBestFit i par = .ok (y - p.prior) := by
  refine ⟨r.mapBestFits j (fun x => x - p.prior), ?_, fun i hi => ⟨r.bestFits i j, ?_, ?_⟩⟩
  · unfold LimitResults.plotSigmaBestFit
    rw [hj, hc]
    dsimp only
    rw [hs]
  · simp [LimitResults.getBestFit, hj, bind, Except.bind, hi]
  · unfold LimitResults.getBestFit
    rw [show (r.mapBestFits j (fun x => x - p.prior)).getIndex par = r.getIndex par from rfl, hj]
    simp [LimitResults.mapBestFits, bind, Except.bind, hi]

/-- C109 is not vacuous: a limit with three scalings and two fit parameters. -/
example : ∃ (r : LimitResults) (rate : FitPar) (p : FitPar),
    r = LimitResults.new [lit "rate", lit "shift"] 3 ∧ rate.getValues = .ok [0, 1, 2] ∧
    r.stats.length = r.scales ∧ (∀ row ∈ r.stats, row.length = 1) ∧ lit "rate" ∈ r.pars ∧
    exPars.find? (fun p => p.name = lit "rate") = some p ∧ p.sigma = some 1 ∧ p.prior = 1 := by
  refine ⟨_, exPars[0], exPars[0], rfl, rfl, rfl, ?_, by simp [LimitResults.new], rfl, rfl, rfl⟩
  intro row hrow
  rw [List.eq_of_mem_replicate hrow]
  rfl

example : (GridSearch.new [exSpaced] [4] none true).Ready ∧
    (GridSearch.new [exSpaced] [4] none true).pars = [exSpaced] ∧
    ∃ vs, exSpaced.getValues = .ok vs ∧ vs.length = exSpaced.bins :=
  ⟨⟨rfl, rfl⟩, rfl, _, rfl, length_npLinspace _ _ _⟩

end Verif
