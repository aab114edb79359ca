import Verif.Spec.PlotResults
import Verif.Props.Minimise
import Verif.Lemmas.FitParameter
import Mathlib.Data.List.ProdSigma
import Mathlib.Tactic.FieldSimp

/-! # C106, C107: statistics of fits by grid point and against two parameters -/

namespace Verif

/-! ## C106 -/

/-- C106: the raw statistics handed out have one entry for each combination of parameter values,
the stored statistic summed over the bins of the spectrum. -/
theorem c106_raw_stats {g : GridSearch} (hr : g.Ready) :
    ∃ m, g.getRawStats = .ok m ∧ m.shape = g.fitShape ∧
      ∀ idx, InB g.fitShape idx → m.get idx = g.rawAt idx := by
  have h := hr.1
  unfold GridSearch.getRawStats GridSearch.rawAt
  by_cases c : g.stats.shape = g.fitShape ++ g.specShape
  · obtain ⟨m, h1, h2, h3⟩ := sumLast_ok g.specShape c
    refine ⟨m, by rw [if_pos c, h1]; rfl, h2, fun idx hi => ?_⟩
    have hcs : g.cellShape = g.specShape := by
      rw [c] at h
      exact (List.append_cancel_left h).symm
    rw [h3 idx hi, hcs]
  · refine ⟨g.stats, by rw [if_neg c]; rfl, ?_⟩
    have hcs : g.cellShape = [] := by
      unfold GridSearch.cellShape at h ⊢
      cases hp : g.perBin with
      | false => rfl
      | true => rw [hp] at h; exact absurd h c
    rw [hcs] at h ⊢
    refine ⟨by simpa using h, fun idx _ => ?_⟩
    simp [sumIdx]

/-- C106 fails for parts of the grid: naming a parameter of the fit always raises an
`AttributeError`. -/
theorem c106_slice_negation {g : GridSearch} (hr : g.Ready) {p : FitPar} (hp : p ∈ g.pars) {x : ℝ}
    {kw : List (PyStr × ℝ)} (hk : assoc kw p.name = some x) :
    g.getRawStats kw = .error .attributeError := by
  have hne : kw ≠ [] := by rintro rfl; simp [assoc] at hk
  have hany : g.pars.any (fun p => (assoc kw p.name).isSome) = true :=
    List.any_eq_true.2 ⟨p, hp, by simp [hk]⟩
  obtain ⟨m, h1, -⟩ := c106_raw_stats hr
  unfold GridSearch.getRawStats at h1 ⊢
  generalize (if g.stats.shape = g.fitShape ++ g.specShape then
      g.stats.sumLast g.specShape.length else .ok g.stats : Except PyErr (NdArray ℝ)) = e at h1 ⊢
  cases e with
  | error e => cases h1
  | ok a =>
    simp only [bind, Except.bind]
    rw [if_neg hne, if_pos hany]

/-- C106, for a fit with one parameter: the penalty terms handed out for it are those of its
values. -/
theorem c106_penalty_terms_partial {g : GridSearch} (hr : g.Ready) {p : FitPar}
    (hp : g.pars = [p]) (par : PyStr) :
    ∃ m, g.getPenaltyTerms par = .ok m ∧ m.shape = [p.bins] ∧
      ∀ i, m.get [i] = g.penalties.get [i] := by
  refine ⟨g.penalties, ?_, ?_, fun _ => rfl⟩
  · unfold GridSearch.getPenaltyTerms
    rw [hp]
    rfl
  · have := hr.2
    simpa [GridSearch.fitShape, hp] using this

/-- C106 fails for two parameters: what is handed out for the first one is indexed by the second,
with the first parameter kept at its first value. -/
theorem c106_penalty_terms_negation {g : GridSearch} (hr : g.Ready) {p q : FitPar}
    (hp : g.pars = [p, q]) (hb : 0 < p.bins) :
    ∃ m, g.getPenaltyTerms p.name = .ok m ∧ m.shape = [q.bins] ∧
      ∀ j, m.get [j] = g.penalties.get [0, j] := by
  have hs : g.penalties.shape = [p.bins] ++ [q.bins] := by
    have := hr.2
    simpa [GridSearch.fitShape, hp] using this
  have ht := take_ok (p := [0]) hs (by simpa using hb)
  refine ⟨⟨[q.bins], fun j => g.penalties.get ([0] ++ j)⟩, ?_, rfl, fun j => rfl⟩
  unfold GridSearch.getPenaltyTerms GridSearch.parIndex
  rw [hp]
  simpa [bind, Except.bind, List.findIdx?_cons] using ht

/-- C106 fails for projections: projecting the statistics onto parameters never succeeds. -/
theorem c106_projection_negation (g : GridSearch) (pars : List PyStr) (idx : List ℤ)
    (m : NdArray ℝ) : g.ndProjectStats pars ≠ .ok m ∧ g.ndProjectStat idx pars ≠ .ok m := by
  constructor
  · unfold GridSearch.ndProjectStats
    split
    · simp
    · cases g.getRawStats <;> simp [bind, Except.bind]
  · unfold GridSearch.ndProjectStat
    split
    · simp
    · cases g.getRawStat idx <;> simp [bind, Except.bind]

/-- C106 is not vacuous: a search over three and two values, with four bins. -/
example : exSearch.Ready ∧ (GridSearch.new exPars [4] none true).Ready ∧
    InB exSearch.fitShape [2, 1] ∧ assoc [(lit "rate", (1 : ℝ))] (lit "rate") = some 1 :=
  ⟨exSearch_setup.1, ⟨rfl, rfl⟩, by simp [exSearch, GridSearch.fitShape, GridSearch.new, exPars],
    by simp [assoc]⟩

/-! ## C107 -/

/-- Same bins and ranges. -/
def TH2R.SameAxes (h h' : TH2R) : Prop :=
  h'.xBins = h.xBins ∧ h'.xLow = h.xLow ∧ h'.xHigh = h.xHigh ∧ h'.yBins = h.yBins ∧
  h'.yLow = h.yLow ∧ h'.yHigh = h.yHigh

theorem TH2R.SameAxes.trans {a b c : TH2R} (h : a.SameAxes b) (h' : b.SameAxes c) :
    a.SameAxes c := by
  obtain ⟨h1, h2, h3, h4, h5, h6⟩ := h
  obtain ⟨g1, g2, g3, g4, g5, g6⟩ := h'
  exact ⟨g1.trans h1, g2.trans h2, g3.trans h3, g4.trans h4, g5.trans h5, g6.trans h6⟩

theorem TH2R.setBinContent_axes (h : TH2R) (i j : ℕ) (v : ℝ) :
    h.SameAxes (h.setBinContent i j v) := by
  unfold TH2R.setBinContent
  split <;> exact ⟨rfl, rfl, rfl, rfl, rfl, rfl⟩

theorem TH2R.setBinContent_other (h : TH2R) {i j : ℕ} (v : ℝ) {a b : ℕ} (hne : (a, b) ≠ (i, j)) :
    (h.setBinContent i j v).content a b = h.content a b := by
  unfold TH2R.setBinContent
  split
  · dsimp only
    rw [if_neg (fun hc => hne (by rw [hc.1, hc.2]))]
  · rfl

theorem TH2R.setBinContent_same (h : TH2R) {i j : ℕ} (v : ℝ) (hi : i ≤ h.xBins + 1)
    (hj : j ≤ h.yBins + 1) : (h.setBinContent i j v).content i j = v := by
  unfold TH2R.setBinContent
  rw [if_pos ⟨hi, hj⟩]
  simp

theorem fillList_spec (k : ℕ × ℕ → ℕ × ℕ) (hk : Function.Injective k) (f : ℕ × ℕ → ℝ)
    (value : ℕ × ℕ → Except PyErr ℝ) :
    ∀ (l : List (ℕ × ℕ)) (h : TH2R), l.Nodup → (∀ e ∈ l, value e = .ok (f e)) →
    ∃ h', l.foldlM (fun h e => do
        let v ← value e
        pure (h.setBinContent (k e).1 (k e).2 v)) h = (.ok h' : Except PyErr TH2R) ∧
      h.SameAxes h' ∧
      (∀ e ∈ l, (k e).1 ≤ h.xBins + 1 → (k e).2 ≤ h.yBins + 1 →
        h'.content (k e).1 (k e).2 = f e) ∧
      (∀ a b, (∀ e ∈ l, k e ≠ (a, b)) → h'.content a b = h.content a b) := by
  intro l
  induction l with
  | nil =>
    intro h _ _
    exact ⟨h, rfl, ⟨rfl, rfl, rfl, rfl, rfl, rfl⟩, by simp, fun _ _ _ => rfl⟩
  | cons e l ih =>
    intro h hn hv
    rw [List.nodup_cons] at hn
    have hax := h.setBinContent_axes (k e).1 (k e).2 (f e)
    obtain ⟨h', h1, h2, h3, h4⟩ := ih (h.setBinContent (k e).1 (k e).2 (f e)) hn.2
      (fun e' he' => hv e' (List.mem_cons_of_mem _ he'))
    refine ⟨h', ?_, hax.trans h2, ?_, ?_⟩
    · rw [List.foldlM_cons, hv e List.mem_cons_self]
      exact h1
    · intro e' he' c1 c2
      rcases List.mem_cons.1 he' with rfl | he'
      · rw [h4 _ _ (fun e'' he'' hc => hn.1 (by rw [← hk (Prod.ext_iff.2 (Prod.ext_iff.1 hc))]; exact he''))]
        exact TH2R.setBinContent_same _ _ c1 c2
      · exact h3 e' he' (by rw [hax.1]; exact c1) (by rw [hax.2.2.2.1]; exact c2)
    · intro a b hab
      rw [h4 a b (fun e' he' => hab e' (List.mem_cons_of_mem _ he'))]
      exact TH2R.setBinContent_other _ _ (fun hc => hab e List.mem_cons_self hc.symm)

theorem mem_doubleLoop {n m : ℕ} {e : ℕ × ℕ} : e ∈ doubleLoop n m ↔ e.1 < n ∧ e.2 < m := by
  obtain ⟨i, j⟩ := e
  unfold doubleLoop
  simp

theorem doubleLoop_nodup (n m : ℕ) : (doubleLoop n m).Nodup :=
  List.Nodup.product (List.nodup_range (n := n)) (List.nodup_range (n := m))

/-- The cell in which the entry at `(i, j)` of the array is drawn. -/
def drawnAt (straight : Bool) (i j : ℕ) : ℕ × ℕ :=
  if straight then (i + 1, j + 1) else (j + 1, i + 1)

theorem fillCells_spec (straight : Bool) {n m : ℕ} {value : ℕ × ℕ → Except PyErr ℝ} {f : ℕ → ℕ → ℝ}
    (h : TH2R) (hv : ∀ i j, i < n → j < m → value (i, j) = .ok (f i j)) :
    ∃ h', fillCells straight [n, m] value h = .ok h' ∧ h.SameAxes h' ∧
      (∀ i j, i < n → j < m → (drawnAt straight i j).1 ≤ h.xBins + 1 →
        (drawnAt straight i j).2 ≤ h.yBins + 1 →
        h'.content (drawnAt straight i j).1 (drawnAt straight i j).2 = f i j) ∧
      (∀ a b, (∀ i j, i < n → j < m → drawnAt straight i j ≠ (a, b)) →
        h'.content a b = h.content a b) := by
  have hk : Function.Injective (fun e : ℕ × ℕ => drawnAt straight e.1 e.2) := by
    rintro ⟨a, b⟩ ⟨c, d⟩ he
    unfold drawnAt at he
    cases straight <;> simp at he <;> rw [Prod.mk.injEq] <;> omega
  obtain ⟨h', h1, h2, h3, h4⟩ := fillList_spec (fun e : ℕ × ℕ => drawnAt straight e.1 e.2) hk
    (fun e => f e.1 e.2) value (doubleLoop n m) h (doubleLoop_nodup n m)
    (fun e he => hv e.1 e.2 (mem_doubleLoop.1 he).1 (mem_doubleLoop.1 he).2)
  refine ⟨h', ?_, h2, ?_, ?_⟩
  · rw [← h1]
    cases straight <;> rfl
  · intro i j hi hj c1 c2
    exact h3 (i, j) (mem_doubleLoop.2 ⟨hi, hj⟩) c1 c2
  · intro a b hab
    refine h4 a b (fun e he => ?_)
    exact hab e.1 e.2 (mem_doubleLoop.1 he).1 (mem_doubleLoop.1 he).2

/-- Lookups in a fit with two parameters. -/
theorem twoPars_lookup {g : GridSearch} {p q : FitPar} (h : g.pars = [p, q])
    (hne : p.name ≠ q.name) :
    g.parNamed p.name = .ok p ∧ g.parNamed q.name = .ok q ∧ g.parIndex p.name = .ok 0 ∧
    g.parIndex q.name = .ok 1 ∧ g.fitShape = [p.bins, q.bins] ∧
    ∀ i j, g.posOf [(p.name, i), (q.name, j)] = [i, j] ∧
      g.posOf [(q.name, j), (p.name, i)] = [i, j] := by
  have hne' : q.name ≠ p.name := fun e => hne e.symm
  refine ⟨?_, ?_, ?_, ?_, ?_, fun i j => ⟨?_, ?_⟩⟩ <;>
    simp [GridSearch.parNamed, GridSearch.parIndex, GridSearch.fitShape, GridSearch.posOf, h,
      List.find?_cons, List.findIdx?_cons, assoc, hne, hne']

theorem plotRaw_run {g : GridSearch} (hr : g.Ready) {p q : FitPar} (h2 : g.TwoPars p q) :
    ∃ (m : NdArray ℝ) (a b : FitPar) (s : Bool), g.getRawStats = .ok m ∧ m.shape = [a.bins, b.bins] ∧
      (∀ idx, InB g.fitShape idx → m.get idx = g.rawAt idx) ∧ g.fitShape = [a.bins, b.bins] ∧
      g.parNamed p.name = .ok p ∧ g.parNamed q.name = .ok q ∧
      ((s = true ∧ a = p ∧ b = q ∧ g.parIndex p.name = .ok 0 ∧ g.parIndex q.name = .ok 1 ∧
        g.pars = [p, q] ∧ ∀ i j, g.posOf [(p.name, i), (q.name, j)] = [i, j]) ∨
       (s = false ∧ a = q ∧ b = p ∧ g.parIndex p.name = .ok 1 ∧ g.parIndex q.name = .ok 0 ∧
        g.pars = [q, p] ∧ ∀ i j, g.posOf [(p.name, i), (q.name, j)] = [j, i])) := by
  obtain ⟨m, m1, m2, m3⟩ := c106_raw_stats hr
  obtain ⟨h | h, hne⟩ := h2
  · obtain ⟨l1, l2, l3, l4, l5, l6⟩ := twoPars_lookup h hne
    exact ⟨m, p, q, true, m1, by rw [m2, l5], m3, l5, l1, l2,
      Or.inl ⟨rfl, rfl, rfl, l3, l4, h, fun i j => (l6 i j).1⟩⟩
  · obtain ⟨l1, l2, l3, l4, l5, l6⟩ := twoPars_lookup h (fun e => hne e.symm)
    exact ⟨m, q, p, false, m1, by rw [m2, l5], m3, l5, l2, l1,
      Or.inr ⟨rfl, rfl, rfl, l4, l3, h, fun i j => (l6 j i).2⟩⟩

/-- C107, for fits with two parameters: the plot of the raw statistics has the bins and ranges of
the two parameters, and the cell `(i + 1, j + 1)` holds the statistic at the `i`-th value of the
first and the `j`-th value of the second one, in whatever order the fit has them. All other
cells are empty. -/
theorem c107_raw_stats_partial {g : GridSearch} (hr : g.Ready) {p q : FitPar} (h2 : g.TwoPars p q) :
    ∃ h, plotRawStatsVsPars g p.name q.name = .ok h ∧ h.AxesOf p q ∧
      (∀ i j, i < p.bins → j < q.bins →
        h.content (i + 1) (j + 1) = g.rawAt (g.posOf [(p.name, i), (q.name, j)])) ∧
      (∀ a b, a = 0 ∨ p.bins < a ∨ b = 0 ∨ q.bins < b → h.content a b = 0) := by
  obtain ⟨m, a, b, s, m1, m2, m3, hfs, n1, n2, hcase⟩ := plotRaw_run hr h2
  obtain ⟨h', f1, f2, f3, f4⟩ := fillCells_spec (n := a.bins) (m := b.bins) s
    (value := fun e => .ok (m.get [e.1, e.2])) (f := fun i j => m.get [i, j]) (emptyTH2R p q)
    (fun _ _ _ _ => rfl)
  have hget : ∀ i j, i < a.bins → j < b.bins → m.get [i, j] = g.rawAt [i, j] := fun i j hi hj =>
    m3 _ (by rw [hfs]; simp [hi, hj])
  refine ⟨h', ?_, f2, ?_⟩
  · unfold plotRawStatsVsPars
    rw [n1, n2, m1]
    rcases hcase with ⟨rfl, rfl, rfl, i1, i2, -⟩ | ⟨rfl, rfl, rfl, i1, i2, -⟩
    · rw [i1, i2, ← f1]
      simp only [bind, Except.bind, m2]
      rfl
    · rw [i1, i2, ← f1]
      simp only [bind, Except.bind, m2]
      rfl
  · rcases hcase with ⟨rfl, rfl, rfl, -, -, -, hpos⟩ | ⟨rfl, rfl, rfl, -, -, -, hpos⟩
    · refine ⟨fun i j hi hj => ?_, fun x y hxy => ?_⟩
      · rw [hpos, ← hget i j hi hj]
        exact f3 i j hi hj (by simp [drawnAt, emptyTH2R]; omega) (by simp [drawnAt, emptyTH2R]; omega)
      · refine f4 x y (fun i j hi hj hc => ?_)
        simp [drawnAt] at hc
        omega
    · refine ⟨fun i j hi hj => ?_, fun x y hxy => ?_⟩
      · rw [hpos, ← hget j i hj hi]
        exact f3 j i hj hi (by simp [drawnAt, emptyTH2R]; omega) (by simp [drawnAt, emptyTH2R]; omega)
      · refine f4 x y (fun i j hi hj hc => ?_)
        simp [drawnAt] at hc
        omega

theorem statWithPenalty_ok {g : GridSearch} (hr : g.Ready) {p q : FitPar} (h2 : g.TwoPars p q)
    {vp vq : List ℝ} (hp : p.getValues = .ok vp) (hq : q.getValues = .ok vq)
    (lp : vp.length = p.bins) (lq : vq.length = q.bins) (np : vp.Nodup) (nq : vq.Nodup)
    (sp : ∀ x ∈ vp, ∀ y ∈ vp, npCloseReal y x → y = x)
    (sq : ∀ x ∈ vq, ∀ y ∈ vq, npCloseReal y x → y = x) {i j : ℕ} (hi : i < p.bins)
    (hj : j < q.bins) (datum : ℝ) :
    statWithPenalty g p q p.name q.name [] i j datum =
      .ok (datum + g.penalties.get (g.posOf [(p.name, i), (q.name, j)])) := by
  have ei : vp[i]? = some (vp[i]'(by omega)) := List.getElem?_eq_getElem _
  have ej : vq[j]? = some (vq[j]'(by omega)) := List.getElem?_eq_getElem _
  have hne := h2.2
  have hne' : q.name ≠ p.name := fun e => hne e.symm
  have hkw : dictSet (dictSet ([] : Dict ℝ) p.name (vp[i]'(by omega))) q.name (vq[j]'(by omega)) =
      [(p.name, vp[i]'(by omega)), (q.name, vq[j]'(by omega))] := by
    simp [dictSet, hne]
  have hpen : ∃ a, g.getPenaltyAt [(p.name, vp[i]'(by omega)), (q.name, vq[j]'(by omega))] = .ok a ∧
      a.get [] = g.penalties.get (g.posOf [(p.name, i), (q.name, j)]) := by
    rcases h2.1 with h | h
    · obtain ⟨a, a1, -, a3⟩ := c76_penalty_at_partial hr (vss := [vp, vq])
        (by rw [h]; exact .cons hp (.cons hq .nil))
        (by simp [GridSearch.fitShape, h, lp, lq]) (by simp [np, nq])
        (by
          intro vs hvs
          rcases List.mem_cons.1 hvs with rfl | hvs
          · exact sp
          · rw [List.mem_singleton.1 hvs]
            exact sq)
        (idx := [i, j]) (w := [vp[i]'(by omega), vq[j]'(by omega)])
        (valuesAt_cons_iff.2 ⟨ei, valuesAt_cons_iff.2 ⟨ej, valuesAt_nil_iff.2 ⟨rfl, rfl⟩⟩⟩)
        (kw := [(p.name, vp[i]'(by omega)), (q.name, vq[j]'(by omega))])
        (by rw [h]; exact .cons (by simp [assoc]) (.cons (by simp [assoc, hne]) .nil))
      exact ⟨a, a1, by rw [a3, ((twoPars_lookup h hne).2.2.2.2.2 i j).1]⟩
    · obtain ⟨a, a1, -, a3⟩ := c76_penalty_at_partial hr (vss := [vq, vp])
        (by rw [h]; exact .cons hq (.cons hp .nil))
        (by simp [GridSearch.fitShape, h, lp, lq]) (by simp [np, nq])
        (by
          intro vs hvs
          rcases List.mem_cons.1 hvs with rfl | hvs
          · exact sq
          · rw [List.mem_singleton.1 hvs]
            exact sp)
        (idx := [j, i]) (w := [vq[j]'(by omega), vp[i]'(by omega)])
        (valuesAt_cons_iff.2 ⟨ej, valuesAt_cons_iff.2 ⟨ei, valuesAt_nil_iff.2 ⟨rfl, rfl⟩⟩⟩)
        (kw := [(p.name, vp[i]'(by omega)), (q.name, vq[j]'(by omega))])
        (by rw [h]; exact .cons (by simp [assoc, hne]) (.cons (by simp [assoc]) .nil))
      exact ⟨a, a1, by rw [a3, ((twoPars_lookup h hne').2.2.2.2.2 j i).2]⟩
  obtain ⟨a, a1, a2⟩ := hpen
  unfold statWithPenalty FitPar.getValueAt
  rw [hp, hq]
  simp only [bind, Except.bind, ei, ej]
  rw [hkw, a1]
  simp only [a2]

/-- C107, for fits with two parameters whose values are further apart than numpy's tolerance: the
plot of the full statistics shows, in the cell `(i + 1, j + 1)`, statistic plus penalty at the
`i`-th value of the first and the `j`-th value of the second parameter. -/
theorem c107_stats_partial {g : GridSearch} (hr : g.Ready) {p q : FitPar} (h2 : g.TwoPars p q)
    {vp vq : List ℝ} (hp : p.getValues = .ok vp) (hq : q.getValues = .ok vq)
    (lp : vp.length = p.bins) (lq : vq.length = q.bins) (np : vp.Nodup) (nq : vq.Nodup)
    (sp : ∀ x ∈ vp, ∀ y ∈ vp, npCloseReal y x → y = x)
    (sq : ∀ x ∈ vq, ∀ y ∈ vq, npCloseReal y x → y = x) :
    ∃ h, plotStatsVsPars g p.name q.name = .ok h ∧ h.AxesOf p q ∧
      (∀ i j, i < p.bins → j < q.bins → h.content (i + 1) (j + 1) =
        g.rawAt (g.posOf [(p.name, i), (q.name, j)]) +
          g.penalties.get (g.posOf [(p.name, i), (q.name, j)])) ∧
      (∀ a b, a = 0 ∨ p.bins < a ∨ b = 0 ∨ q.bins < b → h.content a b = 0) := by
  obtain ⟨m, a, b, s, m1, m2, m3, hfs, n1, n2, hcase⟩ := plotRaw_run hr h2
  have hget : ∀ i j, i < a.bins → j < b.bins → m.get [i, j] = g.rawAt [i, j] := fun i j hi hj =>
    m3 _ (by rw [hfs]; simp [hi, hj])
  have hstat := fun i j hi hj => statWithPenalty_ok hr h2 hp hq lp lq np nq sp sq (i := i) (j := j)
    hi hj
  rcases hcase with ⟨rfl, rfl, rfl, i1, i2, -, hpos⟩ | ⟨rfl, rfl, rfl, i1, i2, -, hpos⟩
  · obtain ⟨h', f1, f2, f3, f4⟩ := fillCells_spec (n := a.bins) (m := b.bins) true
      (value := fun e => if 0 < 1 then statWithPenalty g a b a.name b.name [] e.1 e.2 (m.get [e.1, e.2])
        else statWithPenalty g a b a.name b.name [] e.2 e.1 (m.get [e.1, e.2]))
      (f := fun i j => m.get [i, j] + g.penalties.get (g.posOf [(a.name, i), (b.name, j)]))
      (emptyTH2R a b) (fun i j hi hj => by
        rw [if_pos (by omega)]
        exact hstat i j hi hj _)
    refine ⟨h', ?_, f2, fun i j hi hj => ?_, fun x y hxy => ?_⟩
    · unfold plotStatsVsPars
      rw [n1, n2, m1, i1, i2, ← f1]
      simp only [bind, Except.bind, m2]
      rfl
    · have := f3 i j hi hj (by simp [drawnAt, emptyTH2R]; omega)
        (by simp [drawnAt, emptyTH2R]; omega)
      rw [hget i j hi hj, ← hpos] at this
      exact this
    · refine f4 x y (fun i j hi hj hc => ?_)
      simp [drawnAt] at hc
      omega
  · obtain ⟨h', f1, f2, f3, f4⟩ := fillCells_spec (n := a.bins) (m := b.bins) false
      (value := fun e => if 1 < 0 then statWithPenalty g b a b.name a.name [] e.1 e.2 (m.get [e.1, e.2])
        else statWithPenalty g b a b.name a.name [] e.2 e.1 (m.get [e.1, e.2]))
      (f := fun i j => m.get [i, j] + g.penalties.get (g.posOf [(b.name, j), (a.name, i)]))
      (emptyTH2R b a) (fun i j hi hj => by
        rw [if_neg (by omega)]
        exact hstat j i hj hi _)
    refine ⟨h', ?_, f2, fun i j hi hj => ?_, fun x y hxy => ?_⟩
    · unfold plotStatsVsPars
      rw [n1, n2, m1, i1, i2, ← f1]
      simp only [bind, Except.bind, m2]
      rfl
    · have := f3 j i hj hi (by simp [drawnAt, emptyTH2R]; omega)
        (by simp [drawnAt, emptyTH2R]; omega)
      rw [hget j i hj hi, ← hpos] at this
      exact this
    · refine f4 x y (fun i j hi hj hc => ?_)
      simp [drawnAt] at hc
      omega

theorem getValues_linear {p : FitPar} (hp : p.Linear) :
    p.getValues = .ok (npLinspace p.low p.high p.bins) := by
  unfold FitPar.getValues FitPar.genValues
  rw [hp.1]
  dsimp only
  rw [if_neg hp.2.1, if_neg hp.2.2]

/-- C107: reading the plot at a value of a parameter with equally spaced values finds the cell of
that value, for every value but the last. -/
theorem c107_lookup_partial {p : FitPar} (hp : p.Linear) (hlow : p.low < p.high) {vs : List ℝ}
    (hv : p.getValues = .ok vs) {i : ℕ} (hi : i + 1 < p.bins) {x : ℝ} (hx : vs[i]? = some x) :
    rootFindBinR p.bins p.low p.high x = i + 1 := by
  rw [getValues_linear hp] at hv
  injection hv with hl
  rw [← hl,npLinspace_getElem? (by omega)] at hx
  injection hx with hx
  have hb : (i : ℝ) + 1 < p.bins := by exact_mod_cast hi
  have h0 : (0 : ℝ) ≤ i := Nat.cast_nonneg i
  have hn : (0 : ℝ) < (p.bins : ℝ) - 1 := by linarith
  have hd : 0 < p.high - p.low := by linarith
  have hxl : x - p.low = (i : ℝ) * ((p.high - p.low) / ((p.bins : ℝ) - 1)) := by rw [← hx]; ring
  have hq : (p.bins : ℝ) * (x - p.low) / (p.high - p.low) = i + i / ((p.bins : ℝ) - 1) := by
    rw [hxl]
    field_simp
    ring
  have hfrac : (i : ℝ) / ((p.bins : ℝ) - 1) < 1 := by rw [div_lt_one hn]; linarith
  have hfrac0 : (0 : ℝ) ≤ (i : ℝ) / ((p.bins : ℝ) - 1) := div_nonneg h0 hn.le
  have h1 : ¬ x < p.low := by
    have : 0 ≤ x - p.low := by rw [hxl]; positivity
    linarith
  have h2 : x < p.high := by
    have : x - p.low < p.high - p.low := by
      rw [hxl, mul_div_assoc', mul_comm, mul_div_assoc]
      nlinarith
    linarith
  unfold rootFindBinR
  rw [if_neg h1, if_neg (not_not.2 h2), hq]
  have : ⌊(i : ℝ) + i / ((p.bins : ℝ) - 1)⌋₊ = i := by
    rw [Nat.floor_eq_iff (by linarith)]
    exact ⟨by linarith, by linarith⟩
  rw [this, Nat.add_comm]

/-- C107 fails for the last value: reading the plot there finds the overflow, which is empty in both
plots, and not the cell of that value. -/
theorem c107_last_value_negation {p : FitPar} (hp : p.Linear) (hlow : p.low < p.high)
    (hb : 2 ≤ p.bins) {vs : List ℝ} (hv : p.getValues = .ok vs) {x : ℝ}
    (hx : vs.getLast? = some x) : rootFindBinR p.bins p.low p.high x = p.bins + 1 := by
  rw [getValues_linear hp] at hv
  injection hv with hl
  rw [← hl, npLinspace_last? hb] at hx
  injection hx with hx
  subst hx
  unfold rootFindBinR
  rw [if_neg (by linarith), if_pos (lt_irrefl _)]

theorem getRawStats_shape {g : GridSearch} (hr : g.Ready) {kw : List (PyStr × ℝ)} {m : NdArray ℝ}
    (h : g.getRawStats kw = .ok m) : m.shape = g.fitShape := by
  obtain ⟨m', h1, h2, -⟩ := c106_raw_stats hr
  unfold GridSearch.getRawStats at h h1
  generalize (if g.stats.shape = g.fitShape ++ g.specShape then
      g.stats.sumLast g.specShape.length else .ok g.stats : Except PyErr (NdArray ℝ)) = e at h h1
  cases e with
  | error e => cases h
  | ok a =>
    simp only [bind, Except.bind] at h h1
    rw [if_pos trivial] at h1
    injection h1 with h1
    subst h1
    split at h
    · injection h with h; rw [← h]; exact h2
    · split at h
      · cases h
      · split at h
        · cases h
        · split at h
          · cases h
          · injection h with h; rw [← h]; exact h2

theorem fillCells_shape {straight : Bool} {s : List ℕ} {value : ℕ × ℕ → Except PyErr ℝ}
    {h h' : TH2R} (e : fillCells straight s value h = .ok h') : s.length = 2 := by
  unfold fillCells at e
  split at e
  · rfl
  · cases e

/-- C107 fails for fits with three or more parameters: none of the two plots can be made, whether
or not values for the other parameters are given. -/
theorem c107_three_negation {g : GridSearch} (hr : g.Ready) (h3 : 3 ≤ g.pars.length)
    (par1 par2 : PyStr) (kw : List (PyStr × ℝ)) (h : TH2R) :
    plotRawStatsVsPars g par1 par2 kw ≠ .ok h ∧ plotStatsVsPars g par1 par2 kw ≠ .ok h := by
  have hl : g.fitShape.length = g.pars.length := by simp [GridSearch.fitShape]
  constructor
  · intro e
    unfold plotRawStatsVsPars at e
    cases h1 : g.parNamed par1 with
    | error _ => rw [h1] at e; cases e
    | ok p1 =>
    cases h2 : g.parNamed par2 with
    | error _ => rw [h1, h2] at e; cases e
    | ok p2 =>
    cases h4 : g.getRawStats kw with
    | error _ => rw [h1, h2, h4] at e; cases e
    | ok m =>
    cases h5 : g.parIndex par1 with
    | error _ => rw [h1, h2, h4, h5] at e; cases e
    | ok ix =>
    cases h6 : g.parIndex par2 with
    | error _ => rw [h1, h2, h4, h5, h6] at e; cases e
    | ok iy =>
    rw [h1, h2, h4, h5, h6] at e
    have := fillCells_shape e
    rw [getRawStats_shape hr h4] at this
    omega
  · intro e
    unfold plotStatsVsPars at e
    cases h1 : g.parNamed par1 with
    | error _ => rw [h1] at e; cases e
    | ok p1 =>
    cases h2 : g.parNamed par2 with
    | error _ => rw [h1, h2] at e; cases e
    | ok p2 =>
    cases h4 : g.getRawStats kw with
    | error _ => rw [h1, h2, h4] at e; cases e
    | ok m =>
    cases h5 : g.parIndex par1 with
    | error _ => rw [h1, h2, h4, h5] at e; cases e
    | ok ix =>
    cases h6 : g.parIndex par2 with
    | error _ => rw [h1, h2, h4, h5, h6] at e; cases e
    | ok iy =>
    rw [h1, h2, h4, h5, h6] at e
    have := fillCells_shape e
    rw [getRawStats_shape hr h4] at this
    omega

/-- A parameter with equally spaced values, for the examples. -/
def exSpaced : FitPar :=
  { name := lit "rate", prior := 1, sigma := some 1, low := 0, high := 2, bins := 3 }

/-- C107 is not vacuous: a search over `shift` and `rate`, plotted as `rate` against `shift`. -/
example : ∃ p q : FitPar, exSearch.TwoPars p q ∧ exSearch.TwoPars q p ∧ p.name = lit "rate" ∧
    p.getValues = .ok [0, 1, 2] ∧ q.getValues = .ok [5, 7] ∧ p.bins = 3 ∧ q.bins = 2 := by
  refine ⟨exPars[0], exPars[1], ⟨Or.inl rfl, by decide⟩, ⟨Or.inr rfl, by decide⟩, rfl, rfl, rfl,
    rfl, rfl⟩

example : exSpaced.Linear ∧ exSpaced.low < exSpaced.high ∧
    (GridSearch.new (exPars ++ [exSpaced]) [4] none false).Ready ∧
    3 ≤ (GridSearch.new (exPars ++ [exSpaced]) [4] none false).pars.length :=
  ⟨⟨rfl, by simp [exSpaced], by simp [exSpaced]⟩, by norm_num [exSpaced], ⟨rfl, rfl⟩, le_refl _⟩

end Verif
