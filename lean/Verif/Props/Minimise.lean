import Verif.Lemmas.GridMinimise
import Mathlib.Tactic.NormNum
import Mathlib.Tactic.Positivity

/-! # Properties of the grid search (C42–C46, C70, C75, C76) -/

namespace Verif

/-! ## C42 -/

/-- C42: the grid search tries every combination of parameter values exactly
once, in row-major (lexicographic) order of the positions, and passes the
position of every value along with it. -/
theorem c42_every_combination {pars : List FitPar} {vss : List (List ℝ)} (hv : HasValues pars vss)
    (hn : ∀ vs ∈ vss, vs.Nodup) :
    ∃ l, GridSearch.gridPoints pars = .ok l ∧ (l.map Prod.fst).Nodup ∧
      (∀ w, w ∈ l.map Prod.fst ↔ Combination vss w) ∧
      (∀ pt ∈ l, ValuesAt vss pt.2 pt.1) ∧ (l.map Prod.snd).Pairwise (· < ·) := by
  obtain ⟨l, hl, hval, hidx⟩ := gridPoints_ok hv
  have hs : (l.map Prod.snd).Pairwise (· < ·) := by rw [hidx hn]; exact allIdx_sorted _
  refine ⟨l, hl, ?_, fun w => ?_, hval, hs⟩
  · rw [List.Nodup, List.pairwise_map]
    rw [List.pairwise_map] at hs
    refine hs.imp_of_mem (fun {a b} ha hb hlt e => ?_)
    have h1 := hval a ha
    have h2 := hval b hb
    rw [e] at h1
    have := h1.idx_eq hn h2
    rw [this] at hlt
    exact absurd hlt (lt_irrefl _)
  · constructor
    · intro h
      obtain ⟨pt, hpt, rfl⟩ := List.mem_map.1 h
      exact (hval pt hpt).comb
    · intro h
      obtain ⟨idx, hw⟩ := h.exists
      have hm : idx ∈ l.map Prod.snd := by
        rw [hidx hn, mem_allIdx]; exact hw.inB
      obtain ⟨pt, hpt, rfl⟩ := List.mem_map.1 hm
      have := (hval pt hpt).eq hw
      exact List.mem_map.2 ⟨pt, hpt, this⟩

/-- Two parameters to scan, with the values given explicitly. -/
def exPars : List FitPar :=
  [{ name := lit "rate", prior := 1, sigma := some 1, low := 0, high := 2, bins := 3,
     values := some [0, 1, 2] },
   { name := lit "shift", prior := 0, sigma := none, low := 5, high := 7, bins := 2,
     values := some [5, 7] }]

/-- C42 is not vacuous. -/
example : HasValues exPars [[0, 1, 2], [5, 7]] ∧
    ∀ vs ∈ ([[0, 1, 2], [5, 7]] : List (List ℝ)), vs.Nodup := by
  refine ⟨.cons rfl (.cons rfl .nil), ?_⟩
  intro vs h
  simp at h
  rcases h with rfl | rfl <;> norm_num

/-! ## C43 -/

/-- C43, for parameters without repeated values: after `minimise` every grid
point holds the values which the function returned for its parameter values. -/
theorem c43_grid_partial {g : GridSearch} (hr : g.Ready) {vss : List (List ℝ)}
    {funct : List ℝ → Except PyErr (FitVal × ℝ)} {F : List ℝ → FitVal} {P : List ℝ → ℝ}
    (h : g.Setup vss funct F P) (hn : ∀ vs ∈ vss, vs.Nodup) (st : Stat) :
    ∃ g' raw pen, g.minimise funct st = .ok (g', raw, pen) ∧
      ∀ idx w, ValuesAt vss idx w →
        (∀ j, InB g.cellShape j → g'.stats.get (idx ++ j) = (F w).cells.get j) ∧
        g'.penalties.get idx = P w := by
  obtain ⟨pts, g₁, g', raw, pen, p, v, h1, h2, h3, h4, ⟨pars', h5, _⟩, _⟩ := minimise_ok hr h st
  refine ⟨g', raw, pen, h3, fun idx w hw => ?_⟩
  obtain ⟨pts', h6, hval, hidx⟩ := gridPoints_ok h.values
  rw [h1] at h6
  cases h6
  have hshape := (Setup.shape h).1
  have hin : ∀ pt ∈ pts, funct pt.1 = .ok (F pt.1, P pt.1) ∧ g.Fits (F pt.1) ∧
      InB g.fitShape pt.2 := by
    intro pt hpt
    have := h.returns _ (hval pt hpt).comb
    exact ⟨this.1, this.2, hshape ▸ (hval pt hpt).inB⟩
  obtain ⟨g₂, h7, _, _, _, h8⟩ := fillGrid_ok pts hr hin
  rw [h2] at h7
  cases h7
  have hm : idx ∈ pts.map Prod.snd := by rw [hidx hn, mem_allIdx]; exact hw.inB
  obtain ⟨pt, hpt, rfl⟩ := List.mem_map.1 hm
  have hnd : (pts.map Prod.snd).Nodup := by
    rw [hidx hn]; exact (allIdx_sorted _).imp (fun h => ne_of_lt h)
  have e := (hval pt hpt).eq hw
  have := h8 hnd pt hpt
  rw [e] at this
  rw [h5]
  exact this

/-- A grid search over one parameter whose two values are equal. -/
def exRepeated : GridSearch :=
  GridSearch.new
    [{ name := lit "rate", prior := 1, sigma := none, low := 1, high := 1, bins := 2,
       values := some [1, 1] }] [] none false

/-- C43 fails when a parameter has repeated values: the second of two equal
values is looked up at the position of the first, so its grid point keeps its
initial 0 although the function is 5 everywhere — and this 0 is then the minimum
that is returned. -/
theorem c43_repeated_negation :
    ∃ g' raw pen, exRepeated.minimise (fun _ => .ok (.scalar 5, 0)) .bcChi = .ok (g', raw, pen) ∧
      ValuesAt [[1, 1]] [1] [1] ∧ g'.stats.get [1] = 0 ∧ raw.get [] = 0 := by
  have hr : exRepeated.Ready := ⟨rfl, rfl⟩
  have hs : exRepeated.Setup [[1, 1]] (fun _ => .ok (.scalar 5, 0)) (fun _ => .scalar 5)
      (fun _ => 0) := by
    refine ⟨.cons rfl .nil, .cons ⟨rfl, by simp⟩ .nil, fun w _ => ⟨rfl, rfl⟩, ?_, Or.inl rfl⟩
    intro p hp
    simp [exRepeated, GridSearch.new] at hp
    subst hp
    simp
  obtain ⟨pts, g₁, g', raw, pen, p, v, h1, h2, h3, h4, ⟨pars', h5, _⟩, _, h7, h8, h9, _⟩ :=
    minimise_ok hr hs .bcChi
  have hpts : GridSearch.gridPoints exRepeated.pars = .ok [([1], [0]), ([1], [0])] := by
    simp [exRepeated, GridSearch.new, GridSearch.gridPoints, FitPar.getValues,
      FitPar.getValueIndex, List.findIdx?_cons, bind, Except.bind, pure, Except.pure]
  rw [hpts] at h1
  cases h1
  have hin : ∀ pt ∈ [(([1] : List ℝ), [0]), ([1], [0])],
      (fun _ : List ℝ => (.ok (.scalar 5, 0) : Except PyErr (FitVal × ℝ))) pt.1 =
        .ok ((fun _ => FitVal.scalar 5) pt.1, (fun _ => (0 : ℝ)) pt.1) ∧
      exRepeated.Fits ((fun _ => FitVal.scalar 5) pt.1) ∧ InB exRepeated.fitShape pt.2 := by
    intro pt hpt
    simp at hpt
    subst hpt
    exact ⟨rfl, rfl, by simp [exRepeated, GridSearch.new, GridSearch.fitShape]⟩
  obtain ⟨g₂, h6, _, _, hun, _⟩ := fillGrid_ok (funct := fun _ => .ok (.scalar 5, 0))
    (F := fun _ => .scalar 5) (P := fun _ => 0) _ hr hin
  have h2' : exRepeated.fillGrid (fun _ => .ok (.scalar 5, 0)) [([1], [0]), ([1], [0])] = .ok g₁ := h2
  rw [h2'] at h6
  cases h6
  have h10 := hun [1] (by simp [exRepeated, GridSearch.new, GridSearch.fitShape]) (by simp)
  have h11 := h10.1 []
  have hzero : exRepeated.stats.get [1] = 0 := rfl
  have hpz : exRepeated.penalties.get [1] = 0 := rfl
  have h12 : g₁.stats.get [0] = 5 := by
    have e : exRepeated.fillGrid (fun _ => .ok (.scalar 5, 0)) [([1], [0]), ([1], [0])] =
        .ok ((exRepeated.written (.scalar 5) 0 [0]).written (.scalar 5) 0 [0]) := by
      have a1 := fillPoint_ok (pt := (([1] : List ℝ), [0])) hr
        (funct := fun _ => .ok (.scalar 5, 0)) (r := .scalar 5) (x := 0) rfl rfl
        (by simp [exRepeated, GridSearch.new, GridSearch.fitShape])
      have a2 := fillPoint_ok (pt := (([1] : List ℝ), [0]))
        (written_ready hr (.scalar 5) 0 [0])
        (funct := fun _ => .ok (.scalar 5, 0)) (r := .scalar 5) (x := 0) rfl rfl
        (by simp [exRepeated, GridSearch.new, GridSearch.fitShape, GridSearch.written])
      simp only [GridSearch.fillGrid, bind, Except.bind, a1, a2]
    rw [e] at h2'
    cases h2'
    simp [GridSearch.written, FitVal.cells]
  have hp : p = [1] := by
    have hb := h8.1
    have hfit : exRepeated.fitShape = [2] := rfl
    have hcell : exRepeated.cellShape = [] := rfl
    rw [hfit] at hb h8
    rw [hcell] at h8
    cases p with
    | nil => simp at hb
    | cons i p =>
      simp only [inB_cons_cons, inB_nil_iff] at hb
      obtain ⟨hi, rfl⟩ := hb
      have h13 := (h8.2 [1] (by simp)).1
      simp only [sumIdx_nil, List.append_nil] at h13
      have : i = 0 ∨ i = 1 := by omega
      rcases this with rfl | rfl
      · exfalso
        have hpen0 : g₁.penalties.get [0] = 0 := by
          have e : exRepeated.fillGrid (fun _ => .ok (.scalar 5, 0)) [([1], [0]), ([1], [0])] =
              .ok ((exRepeated.written (.scalar 5) 0 [0]).written (.scalar 5) 0 [0]) := by
            have a1 := fillPoint_ok (pt := (([1] : List ℝ), [0])) hr
              (funct := fun _ => .ok (.scalar 5, 0)) (r := .scalar 5) (x := 0) rfl rfl
              (by simp [exRepeated, GridSearch.new, GridSearch.fitShape])
            have a2 := fillPoint_ok (pt := (([1] : List ℝ), [0]))
              (written_ready hr (.scalar 5) 0 [0])
              (funct := fun _ => .ok (.scalar 5, 0)) (r := .scalar 5) (x := 0) rfl rfl
              (by simp [exRepeated, GridSearch.new, GridSearch.fitShape, GridSearch.written])
            simp only [GridSearch.fillGrid, bind, Except.bind, a1, a2]
          rw [e] at h2'
          cases h2'
          simp [GridSearch.written]
        simp only [List.append_nil] at h11
        rw [h12, hpen0, h11, h10.2, hzero, hpz] at h13
        norm_num at h13
      · rfl
  refine ⟨g', raw, pen, h3, ?_, ?_, ?_⟩
  · exact valuesAt_cons_iff.2 ⟨rfl, valuesAt_nil_iff.2 ⟨rfl, rfl⟩⟩
  · rw [h5]; exact h11
  · rw [h9, hp]; exact h11

/-! ## C44 -/

/-- C44: `minimise` reports as best fit the first combination (in row-major
order) with the smallest statistic plus penalty, and returns the statistic and
the penalty found there. Both with numpy's minimum and with the search axis by
axis. -/
theorem c44_best_fit {g : GridSearch} (hr : g.Ready) {vss : List (List ℝ)}
    {funct : List ℝ → Except PyErr (FitVal × ℝ)} {F : List ℝ → FitVal} {P : List ℝ → ℝ}
    (h : g.Setup vss funct F P) (hn : ∀ vs ∈ vss, vs.Nodup) (st : Stat) :
    ∃ g' raw pen idx w, g.minimise funct st = .ok (g', raw, pen) ∧
      ValuesAt vss idx w ∧ g'.pars.map FitPar.bestFit = w.map some ∧
      raw.Eqv (F w).cells ∧ pen.shape = [] ∧ pen.get [] = P w ∧
      ∀ idx' w', ValuesAt vss idx' w' →
        objective F P w ≤ objective F P w' ∧ (objective F P w' = objective F P w → idx ≤ idx') := by
  obtain ⟨pts, g₁, g', raw, pen, p, v, h1, h2, h3, h4, ⟨pars', h5, _, h6, _⟩, _, h7, h8, h9, h10⟩ :=
    minimise_ok hr h st
  obtain ⟨g'', raw', pen', h3', hgrid⟩ := c43_grid_partial hr h hn st
  rw [h3] at h3'
  cases h3'
  have hobj : ∀ idx w, ValuesAt vss idx w →
      sumIdx g.cellShape (fun j => g₁.stats.get (idx ++ j)) + g₁.penalties.get idx =
        objective F P w := by
    intro idx w hw
    obtain ⟨a, b⟩ := hgrid idx w hw
    rw [h5] at a b
    unfold objective
    have hcs : (F w).cells.shape = g.cellShape := by
      have := (h.returns w hw.comb).2
      cases hF : F w with
      | scalar x =>
        rw [hF] at this
        have hpb : g.perBin = false := this
        simp [FitVal.cells, GridSearch.cellShape, hpb]
      | array c =>
        rw [hF] at this
        simp [FitVal.cells, GridSearch.cellShape, this.1, this.2]
    unfold NdArray.sum
    rw [hcs, sumIdx_congr a, b]
  refine ⟨g', raw, pen, p, v, h3, h7, ?_, ?_, ?_, ?_, ?_⟩
  · rw [h5]; exact h6
  · have hcs : (F v).cells.shape = g.cellShape := by
      have := (h.returns v h7.comb).2
      cases hF : F v with
      | scalar x =>
        rw [hF] at this
        have hpb : g.perBin = false := this
        simp [FitVal.cells, GridSearch.cellShape, hpb]
      | array c =>
        rw [hF] at this
        simp [FitVal.cells, GridSearch.cellShape, this.1, this.2]
    have := (hgrid p v h7).1
    rw [h5] at this
    rw [h9]
    exact ⟨hcs.symm, this⟩
  · rw [h10]
  · have := (hgrid p v h7).2
    rw [h5] at this
    rw [h10]
    simpa using this
  · intro idx' w' hw'
    have hb : InB g.fitShape idx' := by rw [← (Setup.shape h).1]; exact hw'.inB
    have := h8.2 idx' hb
    simp only [hobj p v h7, hobj idx' w' hw'] at this
    exact this

/-- C44, for every newly made grid search, with and without statistics per bin. -/
theorem c44_new_search {pars : List FitPar} {spec : List ℕ} {name : Option PyStr}
    {perBin useNumpy : Bool} {vss : List (List ℝ)} {funct : List ℝ → Except PyErr (FitVal × ℝ)}
    {F : List ℝ → FitVal} {P : List ℝ → ℝ}
    (h : (GridSearch.new pars spec name perBin useNumpy).Setup vss funct F P)
    (hn : ∀ vs ∈ vss, vs.Nodup) (st : Stat) :
    ∃ g' raw pen idx w,
      (GridSearch.new pars spec name perBin useNumpy).minimise funct st = .ok (g', raw, pen) ∧
      ValuesAt vss idx w ∧ g'.pars.map FitPar.bestFit = w.map some ∧
      raw.Eqv (F w).cells ∧ pen.shape = [] ∧ pen.get [] = P w ∧
      ∀ idx' w', ValuesAt vss idx' w' →
        objective F P w ≤ objective F P w' ∧ (objective F P w' = objective F P w → idx ≤ idx') := by
  refine c44_best_fit ⟨?_, rfl⟩ h hn st
  cases perBin
  · exact (List.append_nil _).symm
  · rfl

/-- C44: the penalty term reported for each parameter is the penalty of the
statistic at the best fit value, or 0 when the parameter has no sigma, and
nothing else about the parameter changes. -/
theorem c44_penalty_terms {g : GridSearch} (hr : g.Ready) {vss : List (List ℝ)}
    {funct : List ℝ → Except PyErr (FitVal × ℝ)} {F : List ℝ → FitVal} {P : List ℝ → ℝ}
    (h : g.Setup vss funct F P) (st : Stat) :
    ∃ g' raw pen, g.minimise funct st = .ok (g', raw, pen) ∧ g'.pars.length = g.pars.length ∧
      ∀ (i : ℕ) (p : FitPar), g.pars[i]? = some p → ∃ x t,
        g'.pars[i]? = some { p with bestFit := some x, penaltyTerm := some t } ∧
        (p.sigma = none → t = 0) ∧
        (∀ sigma, p.sigma = some sigma → st.penalty x p.prior sigma = .ok t) := by
  obtain ⟨pts, g₁, g', raw, pen, p, v, h1, h2, h3, h4, ⟨pars', h5, hl, h6, h6'⟩, _⟩ :=
    minimise_ok hr h st
  refine ⟨g', raw, pen, h3, by rw [h5]; exact hl, fun i p hp => ?_⟩
  have hi := (List.getElem?_eq_some_iff.1 hp).1
  have hv : v.length = g.pars.length := by
    have := congrArg List.length h6
    simp at this
    omega
  obtain ⟨p', hp', t, hpe, h8⟩ := h6' i p (v[i]'(by omega)) hp (List.getElem?_eq_getElem _)
  exact ⟨v[i]'(by omega), t, by rw [h5, ← hpe]; exact hp', h8⟩

/-- The grid search of the examples: `(x - 1)² + y` over the two parameters. -/
def exSearch : GridSearch := GridSearch.new exPars [4] (some (lit "fit")) false

/-- The function to minimise in the examples. -/
noncomputable def exFunct (w : List ℝ) : Except PyErr (FitVal × ℝ) :=
  .ok (.scalar ((w.headD 0 - 1) ^ 2 + w.getLastD 0), 0)

/-- C43, C44 and C75 are not vacuous. -/
theorem exSearch_setup : exSearch.Ready ∧ exSearch.Setup [[0, 1, 2], [5, 7]] exFunct
    (fun w => .scalar ((w.headD 0 - 1) ^ 2 + w.getLastD 0)) (fun _ => 0) := by
  refine ⟨⟨rfl, rfl⟩, .cons rfl (.cons rfl .nil), .cons ⟨rfl, by simp⟩ (.cons ⟨rfl, by simp⟩ .nil),
    fun w _ => ⟨rfl, rfl⟩, ?_, Or.inl rfl⟩
  intro p hp
  simp [exSearch, GridSearch.new, exPars] at hp
  rcases hp with rfl | rfl <;> simp

example : exSearch.Ready ∧ exSearch.Setup [[0, 1, 2], [5, 7]] exFunct
    (fun w => .scalar ((w.headD 0 - 1) ^ 2 + w.getLastD 0)) (fun _ => 0) := exSearch_setup

/-! ## C45 -/

/-- C45: the minimum finder working axis by axis returns the smallest entry of
an array of any dimension and its lexicographically lowest position. -/
theorem c45_find_minimum {α : Type} [LinearOrder α] [Inhabited α] (a : NdArray α)
    (hne : a.shape ≠ []) (hpos : ∀ n ∈ a.shape, 0 < n) :
    ∃ p, findMinimum a = .ok (a.get p, p) ∧ FirstMin a.shape a.get p :=
  findMinimum_ok a hne hpos

/-- C45: it agrees with numpy's `argmin` followed by `unravel_index`. -/
theorem c45_agrees_with_numpy {α : Type} [LinearOrder α] [Inhabited α] (a : NdArray α)
    (hne : a.shape ≠ []) (hpos : ∀ n ∈ a.shape, 0 < n) :
    ∃ k m, npArgmin a.ravel = .ok k ∧ findMinimum a = .ok (m, unravelIdx a.shape k) := by
  obtain ⟨p, h1, h2⟩ := findMinimum_ok a hne hpos
  obtain ⟨k, h3, h4⟩ := numpy_firstMin a hpos
  exact ⟨k, a.get p, h3, by rw [h1, h2.unique h4]⟩

/-- C45 is not vacuous: a 2 by 3 array with its minimum attained twice. -/
example : findMinimum (⟨[2, 3], fun i => if i = [0, 2] ∨ i = [1, 0] then 1 else 5⟩ : NdArray ℚ) =
    .ok (1, [0, 2]) := by decide +kernel

/-! ## C46 -/

/-- C46: indices inside the grid are never refused, and give the statistic
summed over spectral bins plus the penalty. -/
theorem c46_inside {g : GridSearch} (hr : g.Ready) {idx : List ℕ} (h : InB g.fitShape idx) :
    ∃ s p, g.getStat (idx.map (fun n : ℕ => (n : ℤ))) = .ok s ∧
      g.getPenaltyTerm (idx.map (fun n : ℕ => (n : ℤ))) = .ok p ∧
      s.shape = [] ∧ p.shape = [] ∧ p.get [] = g.penalties.get idx ∧
      s.get [] = sumIdx g.cellShape (fun j => g.stats.get (idx ++ j)) + g.penalties.get idx := by
  have hob : g.outOfBounds (idx.map (fun n : ℕ => (n : ℤ))) = false := tupleGt_inB h
  have hst := take_ok hr.1 h
  have hpt := take_ok (a := g.penalties) (s := g.fitShape) (c := []) (by simpa using hr.2) h
  have hsum : ∃ c, (if g.perBin then
      (⟨g.cellShape, fun j => g.stats.get (idx ++ j)⟩ : NdArray ℝ).sumLast g.specShape.length
      else .ok ⟨g.cellShape, fun j => g.stats.get (idx ++ j)⟩) = .ok c ∧ c.shape = [] ∧
      c.get [] = sumIdx g.cellShape (fun j => g.stats.get (idx ++ j)) := by
    cases hpb : g.perBin with
    | true =>
      have hc : g.cellShape = g.specShape := by simp [GridSearch.cellShape, hpb]
      obtain ⟨m, h1, h2, h3⟩ := sumLast_ok (a := (⟨g.cellShape, fun j => g.stats.get (idx ++ j)⟩ :
        NdArray ℝ)) (s := []) g.specShape (by simp [hc])
      refine ⟨m, by simpa using h1, h2, ?_⟩
      rw [h3 [] (by simp), hc]
      rfl
    | false =>
      have hc : g.cellShape = [] := by simp [GridSearch.cellShape, hpb]
      refine ⟨_, rfl, hc, ?_⟩
      simp [hc]
  obtain ⟨c, hc1, hc2, hc3⟩ := hsum
  obtain ⟨m, hm, hms, hmg⟩ := bcastAdd_ok (a := c)
    (b := ⟨[], fun j => g.penalties.get (idx ++ j)⟩) hc2
  refine ⟨m, ⟨[], fun j => g.penalties.get (idx ++ j)⟩, ?_, ?_, hms.trans hc2, rfl, by simp, ?_⟩
  · unfold GridSearch.getStat
    rw [hob]
    cases hpb : g.perBin with
    | true =>
      simp only [hpb, if_true] at hc1
      simp only [Bool.false_eq_true, if_false, if_true, bind, Except.bind, hst, hc1, hpt]
      exact hm
    | false =>
      simp only [hpb, Bool.false_eq_true, if_false] at hc1
      simp only [Bool.false_eq_true, if_false, bind, Except.bind, hst, hpt]
      rw [Except.ok.inj hc1]
      exact hm
  · unfold GridSearch.getPenaltyTerm
    rw [hob]
    exact hpt
  · rw [hmg [] (by rw [hc2]; simp), hc3]
    simp

/-- C46, for indices that are not negative: reading or writing outside the grid
raises an `IndexError`. -/
theorem c46_outside_partial {g : GridSearch} (hr : g.Ready) {idx : List ℕ}
    (hl : idx.length = g.pars.length) (h : ¬ InB g.fitShape idx) (a : NdArray ℝ) (x : ℝ) :
    g.getStat (idx.map (fun n : ℕ => (n : ℤ))) = .error .indexError ∧
    g.getPenaltyTerm (idx.map (fun n : ℕ => (n : ℤ))) = .error .indexError ∧
    g.setStat (.array a) (idx.map (fun n : ℕ => (n : ℤ))) = .error .indexError ∧
    g.setPenaltyTerm x (idx.map (fun n : ℕ => (n : ℤ))) = .error .indexError := by
  have hl' : idx.length = g.fitShape.length := by simpa [GridSearch.fitShape] using hl
  have h1 : npIndex g.penalties.shape (idx.map (fun n : ℕ => (n : ℤ))) = .error .indexError := by
    rw [hr.2]; exact npIndex_out hl' h
  have h2 : npIndex g.stats.shape (idx.map (fun n : ℕ => (n : ℤ))) = .error .indexError := by
    rw [hr.1]
    have gen : ∀ (s idx c : List ℕ), idx.length = s.length → ¬ InB s idx →
        npIndex (s ++ c) (idx.map (fun n : ℕ => (n : ℤ))) = .error .indexError := by
      intro s
      induction s with
      | nil =>
        intro idx c hl h
        have : idx = [] := List.eq_nil_of_length_eq_zero hl
        subst this
        simp at h
      | cons n s ih =>
        intro idx c hl h
        cases idx with
        | nil => simp at hl
        | cons i idx =>
          simp only [inB_cons_cons, not_and_or] at h
          have hneg : ¬ ((i : ℤ) < 0 ∧ -(n : ℤ) ≤ (i : ℤ)) := by omega
          by_cases hi : i < n
          · have h2 : ¬ InB s idx := by
              rcases h with h | h
              · exact absurd hi h
              · exact h
            have := ih idx c (by simpa using hl) h2
            simp only [List.cons_append, List.map_cons, npIndex, this, bind, Except.bind, hneg,
              if_false]
            split <;> rfl
          · have hc : ¬ (0 ≤ (i : ℤ) ∧ (i : ℤ) < (n : ℤ)) := by omega
            simp only [List.cons_append, List.map_cons, npIndex, hc, if_false, hneg]
    exact gen _ _ _ hl' h
  refine ⟨?_, ?_, ?_, ?_⟩
  · unfold GridSearch.getStat NdArray.take
    split
    · rfl
    · simp only [h2, bind, Except.bind]
  · unfold GridSearch.getPenaltyTerm NdArray.take
    split
    · rfl
    · simp only [h1, bind, Except.bind]
  · unfold GridSearch.setStat NdArray.assign
    split
    · rfl
    · simp only [h2, bind, Except.bind]
  · unfold GridSearch.setPenaltyTerm NdArray.assign
    split
    · rfl
    · simp only [h1, bind, Except.bind]

/-- C46 fails for negative indices: they are accepted, and `(i, -1)` reads the
last entry of row `i`. -/
theorem c46_negative_negation {g : GridSearch} (hr : g.Ready) {m n i : ℕ}
    (hs : g.fitShape = [m, n + 1]) (hi : i < m) :
    g.getPenaltyTerm [(i : ℤ), -1] = g.getPenaltyTerm [(i : ℤ), (n : ℤ)] ∧
    ∃ p, g.getPenaltyTerm [(i : ℤ), -1] = .ok p ∧ p.get [] = g.penalties.get [i, n] := by
  have e : ∀ j : ℤ, g.outOfBounds [(i : ℤ), j] = false := by
    intro j
    unfold GridSearch.outOfBounds
    rw [hs]
    have h1 : ¬ ((i : ℤ) = (m : ℤ)) := by omega
    have h2 : ¬ ((m : ℤ) < (i : ℤ)) := by omega
    simp [tupleGt, h1, h2]
  have h0 : (0 : ℤ) ≤ (i : ℤ) ∧ (i : ℤ) < (m : ℤ) := ⟨by omega, by omega⟩
  have h1 : npIndex [m, n + 1] [(i : ℤ), -1] = .ok [i, n] := by
    have h2 : ¬ ((0 : ℤ) ≤ -1 ∧ (-1 : ℤ) < ((n + 1 : ℕ) : ℤ)) := by omega
    have h3 : ((-1 : ℤ) < 0 ∧ -((n + 1 : ℕ) : ℤ) ≤ -1) := ⟨by omega, by omega⟩
    simp only [npIndex, h0, h2, h3, and_self, if_true, if_false, bind, Except.bind,
      Int.toNat_natCast]
    congr 2
    simp
  have h4 : npIndex [m, n + 1] [(i : ℤ), (n : ℤ)] = .ok [i, n] := by
    have := npIndex_ok (s := [m, n + 1]) (p := [i, n]) [] (by simp [hi])
    simpa using this
  have ha : g.getPenaltyTerm [(i : ℤ), -1] = .ok ⟨[], fun j => g.penalties.get ([i, n] ++ j)⟩ := by
    unfold GridSearch.getPenaltyTerm NdArray.take
    rw [e, hr.2, hs, h1]
    rfl
  have hb : g.getPenaltyTerm [(i : ℤ), (n : ℤ)] =
      .ok ⟨[], fun j => g.penalties.get ([i, n] ++ j)⟩ := by
    unfold GridSearch.getPenaltyTerm NdArray.take
    rw [e, hr.2, hs, h4]
    rfl
  exact ⟨ha.trans hb.symm, _, ha, by simp⟩

/-- C46 is not vacuous. -/
example : exSearch.Ready ∧ exSearch.fitShape = [3, 1 + 1] ∧ InB exSearch.fitShape [2, 1] ∧
    ¬ InB exSearch.fitShape [0, 2] ∧ [0, 2].length = exSearch.pars.length :=
  ⟨exSearch_setup.1, rfl, by simp [exSearch, GridSearch.fitShape, GridSearch.new, exPars],
    by simp [exSearch, GridSearch.fitShape, GridSearch.new, exPars], rfl⟩

/-! ## C70 -/

/-- C70: after `k ≥ 1` resets the name is the original one followed by an
underscore and `k`, whatever the original name contains. -/
theorem c70_reset_name {g : GridSearch} {name : PyStr} (hn : g.name = some name)
    (h0 : g.resets = 0) (k : ℕ) :
    (∃ g', ResetsTo g (k + 1) g') ∧
    ∀ g', ResetsTo g (k + 1) g' → g'.resets = k + 1 ∧
      g'.name = some (name ++ lit "_" ++ Nat.toDigits 10 (k + 1)) := by
  refine ⟨resetsTo_exists hn h0 k, fun g' h => ?_⟩
  rw [resetsTo_name hn h0 h]
  exact ⟨rfl, rfl⟩

/-- C70 fails for a search made without a name: the documented default name
(`<fit config name>_results`) is lost and the reset raises. -/
theorem c70_default_name_negation (pars : List FitPar) (spec : List ℕ) (perBin useNumpy : Bool) :
    (GridSearch.new pars spec none perBin useNumpy).name = none ∧
    (GridSearch.new pars spec none perBin useNumpy).resetGrids = .error .typeError := ⟨rfl, rfl⟩

/-- C70 is not vacuous. -/
example : exSearch.name = some (lit "fit") ∧ exSearch.resets = 0 := ⟨rfl, rfl⟩

/-! ## C75 -/

/-- C75, first part: a grid search can be used again. After `minimise` the
arrays have the right shapes and the parameters their values, so C43 and C44
hold for the next function as well. -/
theorem c75_reuse {g : GridSearch} (hr : g.Ready) {vss : List (List ℝ)}
    {funct : List ℝ → Except PyErr (FitVal × ℝ)} {F : List ℝ → FitVal} {P : List ℝ → ℝ}
    (h : g.Setup vss funct F P) (st : Stat)
    {funct' : List ℝ → Except PyErr (FitVal × ℝ)} {F' : List ℝ → FitVal} {P' : List ℝ → ℝ}
    (h' : ∀ w, Combination vss w → funct' w = .ok (F' w, P' w) ∧ g.Fits (F' w)) :
    ∃ g' raw pen, g.minimise funct st = .ok (g', raw, pen) ∧ g'.Ready ∧
      g'.Setup vss funct' F' P' := by
  obtain ⟨pts, g₁, g', raw, pen, p, v, h1, h2, h3, h4, ⟨pars', h5, hl, h6, h6'⟩, ⟨a, b, hab⟩, _⟩ :=
    minimise_ok hr h st
  have hvl : v.length = g.pars.length := by
    have := congrArg List.length h6
    simp at this
    omega
  have hpar : ∀ (i : ℕ) (q : FitPar), g.pars[i]? = some q → ∃ x t,
      pars'[i]? = some { q with bestFit := some x, penaltyTerm := some t } := by
    intro i q hq
    have hi := (List.getElem?_eq_some_iff.1 hq).1
    obtain ⟨p', hp', t, hpe, _⟩ := h6' i q (v[i]'(by omega)) hq (List.getElem?_eq_getElem _)
    exact ⟨_, t, by rw [hp', hpe]⟩
  have hrel : List.Forall₂ (fun (q q' : FitPar) => q'.getValues = q.getValues ∧ q'.bins = q.bins ∧
      q'.sigma = q.sigma) g.pars pars' := by
    rw [List.forall₂_iff_get]
    refine ⟨hl.symm, fun i hi hi' => ?_⟩
    obtain ⟨x, t, hx⟩ := hpar i g.pars[i] (List.getElem?_eq_getElem hi)
    rw [List.getElem?_eq_getElem hi'] at hx
    have := Option.some.inj hx
    simp only [List.get_eq_getElem, this]
    exact ⟨rfl, trivial, trivial⟩
  have trans2 : ∀ {R : FitPar → List ℝ → Prop} {l l' : List FitPar} {vss : List (List ℝ)},
      List.Forall₂ (fun (q q' : FitPar) => q'.getValues = q.getValues ∧ q'.bins = q.bins ∧
      q'.sigma = q.sigma) l l' → List.Forall₂ R l vss →
      (∀ (q q' : FitPar) (vs : List ℝ), q'.getValues = q.getValues → q'.bins = q.bins → R q vs → R q' vs) →
      List.Forall₂ R l' vss := by
    intro R l l' vss h1 h2 hR
    induction h1 generalizing vss with
    | nil => cases h2; exact .nil
    | cons ha _ ih =>
      cases h2 with
      | cons hb hc => exact .cons (hR _ _ _ ha.1 ha.2.1 hb) (ih hc)
  have hbins : pars'.map FitPar.bins = g.fitShape := by
    have : ∀ {l l' : List FitPar}, List.Forall₂ (fun (q q' : FitPar) =>
        q'.getValues = q.getValues ∧ q'.bins = q.bins ∧ q'.sigma = q.sigma) l l' →
        l'.map FitPar.bins = l.map FitPar.bins := by
      intro l l' h
      induction h with
      | nil => rfl
      | cons ha _ ih => simp [ha.2.1, ih]
    exact this hrel
  have hfs : g'.fitShape = g₁.fitShape := by
    rw [h5, hab]
    exact hbins
  refine ⟨g', raw, pen, h3, ?_, ?_, ?_, ?_, ?_, ?_⟩
  · unfold GridSearch.Ready
    rw [hfs, h5]
    exact h4
  · rw [h5]
    exact trans2 hrel h.values (fun q q' vs e1 _ hq => e1.trans hq)
  · rw [h5]
    exact trans2 hrel h.counts (fun q q' vs _ e2 hq => ⟨hq.1.trans e2.symm, hq.2⟩)
  · intro w hw
    have := h' w hw
    refine ⟨this.1, ?_⟩
    rw [h5, hab]
    exact this.2
  · intro q hq
    rw [h5] at hq
    obtain ⟨i, hi⟩ := List.getElem?_of_mem hq
    have hi' : i < g.pars.length := by rw [← hl]; exact (List.getElem?_eq_some_iff.1 hi).1
    obtain ⟨x, t, hx⟩ := hpar i g.pars[i] (List.getElem?_eq_getElem hi')
    rw [hi] at hx
    rw [Option.some.inj hx]
    have := h.sigmas _ (List.getElem_mem hi')
    exact this
  · rcases h.nonempty with h | h
    · left; rw [h5, hab]; exact h
    · right
      rw [h5]
      intro h0
      have h0' : pars' = [] := h0
      rw [h0'] at hl
      simp at hl
      exact h (List.eq_nil_of_length_eq_zero hl.symm)

/-- C75 for a search per bin: a reset leaves every entry 0 and the arrays ready
for the next `minimise` (C43 and C44 apply). -/
theorem c75_reset_partial {g g' : GridSearch} (hpb : g.perBin = true) {name : PyStr}
    (hn : g.name = some name) (h0 : g.resets = 0) {k : ℕ} (h : ResetsTo g (k + 1) g') :
    g'.Ready ∧ g'.pars = g.pars ∧ (∀ idx, g'.stats.get idx = 0) ∧ ∀ idx, g'.penalties.get idx = 0 := by
  rw [resetsTo_name hn h0 h]
  refine ⟨⟨?_, rfl⟩, rfl, fun _ => rfl, fun _ => rfl⟩
  show g.fitShape ++ g.specShape = g.fitShape ++ (if g.perBin then g.specShape else [])
  rw [hpb]
  rfl

/-- C75 fails for a search with one number per grid point: the reset gives the
statistics the axes of the spectrum all the same, and every later `minimise`
raises an exception, for every function. -/
theorem c75_reset_negation {g g' : GridSearch} (hpb : g.perBin = false) {name : PyStr}
    (hn : g.name = some name) (h0 : g.resets = 0) {k : ℕ} (h : ResetsTo g (k + 1) g')
    (hspec : g.specShape ≠ []) (hpos : ∀ n ∈ g.fitShape ++ g.specShape, 0 < n)
    (funct : List ℝ → Except PyErr (FitVal × ℝ)) (st : Stat) :
    ∃ e, g'.minimise funct st = .error e := by
  have hg' := resetsTo_name hn h0 h
  cases hm : g'.minimise funct st with
  | error e => exact ⟨e, rfl⟩
  | ok r =>
    exfalso
    unfold GridSearch.minimise at hm
    cases h1 : GridSearch.gridPoints g'.pars with
    | error e => simp [h1, bind, Except.bind] at hm
    | ok pts =>
    cases h2 : g'.fillGrid funct pts with
    | error e => simp [h1, h2, bind, Except.bind] at hm
    | ok g₁ =>
    cases h3 : g₁.bestPosition with
    | error e => simp [h1, h2, h3, bind, Except.bind] at hm
    | ok p =>
    cases h4 : GridSearch.setBests st p g₁.pars with
    | error e => simp [h1, h2, h3, h4, bind, Except.bind] at hm
    | ok pars' =>
    obtain ⟨a, b, hab, hsa, hsb⟩ := fillGrid_shape pts h2
    have hsa' : a.shape = g.fitShape ++ g.specShape := by rw [hsa, hg']; rfl
    have hsb' : b.shape = g.fitShape := by rw [hsb, hg']; rfl
    have hlen : p.length = (g.fitShape ++ g.specShape).length := by
      unfold GridSearch.bestPosition GridSearch.getStats at h3
      have hp1 : g₁.perBin = false := by rw [hab, hg']; exact hpb
      have hst : g₁.stats = a := by rw [hab]
      have hpe : g₁.penalties = b := by rw [hab]
      simp only [hp1, Bool.false_eq_true, if_false, bind, Except.bind, hst, hpe] at h3
      cases hadd : a.bcastAdd b with
      | error e => simp [hadd] at h3
      | ok m =>
        simp only [hadd] at h3
        have hms : m.shape.length = (g.fitShape ++ g.specShape).length ∧ ∀ n ∈ m.shape, 0 < n := by
          unfold NdArray.bcastAdd at hadd
          rw [hsa', hsb'] at hadd
          cases hb : bcast (g.fitShape ++ g.specShape) g.fitShape with
          | none => rw [hb] at hadd; cases hadd
          | some s =>
            rw [hb] at hadd
            cases hadd
            have := bcast_spec hb
            refine ⟨?_, ?_⟩
            · rw [this.1]; simp
            · exact this.2 hpos (fun n hn => hpos n (by simp [hn]))
        split at h3
        · cases hk : npArgmin m.ravel with
          | error e => simp [hk] at h3
          | ok k =>
            simp only [hk] at h3
            cases h3
            rw [length_unravelIdx, hms.1]
        · have hne : m.shape ≠ [] := by
            intro h0
            have := hms.1
            rw [h0] at this
            simp at this
            exact hspec (List.eq_nil_of_length_eq_zero (by omega))
          obtain ⟨q, hq1, hq2⟩ := findMinimum_ok m hne hms.2
          rw [hq1] at h3
          cases h3
          rw [hq2.1.length_eq, hms.1]
    have hlong : g.fitShape.length < (p.map (fun n : ℕ => (n : ℤ))).length := by
      have : 0 < g.specShape.length := List.length_pos_of_ne_nil hspec
      rw [List.length_map, hlen, List.length_append]
      omega
    have hpen : ({ g₁ with pars := pars' } : GridSearch).getPenaltyTerm
        (p.map (fun n : ℕ => (n : ℤ))) = .error .indexError := by
      unfold GridSearch.getPenaltyTerm NdArray.take
      split
      · rfl
      · have hpe : g₁.penalties = b := by rw [hab]
        simp only [hpe, hsb', npIndex_long hlong, bind, Except.bind]
    simp only [h1, h2, h3, h4, hpen, bind, Except.bind] at hm
    split at hm <;> cases hm

/-- C75 is not vacuous: the search of the examples is one of those that cannot be
used after a reset. -/
example : exSearch.perBin = false ∧ exSearch.specShape ≠ [] ∧
    ∀ n ∈ exSearch.fitShape ++ exSearch.specShape, 0 < n :=
  ⟨rfl, by simp [exSearch, GridSearch.new],
    by simp [exSearch, GridSearch.new, GridSearch.fitShape, exPars]⟩

/-! ## C76 -/

theorem getBin_own {p : FitPar} {vs : List ℝ} (hv : p.getValues = .ok vs) (hn : vs.Nodup) {x : ℝ}
    {i : ℕ} (hi : vs[i]? = some x) (hsep : ∀ y ∈ vs, npCloseReal y x → y = x) :
    p.getBin x = .ok (i : ℤ) := by
  classical
  have hx : x ∈ vs := List.mem_of_getElem? hi
  have hself : npCloseReal x x := by
    unfold npCloseReal
    have := abs_nonneg x
    simp only [sub_self, abs_zero]
    positivity
  have hf : vs.findIdx? (fun y => decide (npCloseReal y x)) = some i := by
    cases hf : vs.findIdx? (fun y => decide (npCloseReal y x)) with
    | none =>
      rw [List.findIdx?_eq_none_iff] at hf
      have := hf x hx
      simp [hself] at this
    | some j =>
      rw [List.findIdx?_eq_some_iff_getElem] at hf
      obtain ⟨hj, hp, _⟩ := hf
      have hy := hsep _ (List.getElem_mem hj) (by simpa using hp)
      have h1 : vs[j]? = vs[i]? := by rw [hi, List.getElem?_eq_getElem hj, hy]
      rw [(List.getElem?_inj hj hn).1 h1]
  unfold FitPar.getBin
  have hf' : vs.findIdx? (fun y => @decide (npCloseReal y x) (Classical.propDecidable _)) = some i := by
    convert hf
  simp only [hv, hf']

/-- The keyword arguments name every parameter and give it the value from `w`. -/
def KwFor (pars : List FitPar) (w : List ℝ) (kw : List (PyStr × ℝ)) : Prop :=
  List.Forall₂ (fun (p : FitPar) x => assoc kw p.name = some x) pars w

theorem bins_own {pars : List FitPar} {vss : List (List ℝ)} (hv : HasValues pars vss)
    (hn : ∀ vs ∈ vss, vs.Nodup) {kw : List (PyStr × ℝ)} :
    ∀ {idx : List ℕ} {w : List ℝ}, ValuesAt vss idx w → KwFor pars w kw →
    (∀ vs ∈ vss, ∀ x ∈ vs, ∀ y ∈ vs, npCloseReal y x → y = x) →
    pars.mapM (GridSearch.kwBin kw) = .ok (idx.map (fun n : ℕ => (n : ℤ))) := by
  induction hv with
  | nil =>
    intro idx w h _ _
    rw [valuesAt_nil_iff] at h
    rw [h.1]
    rfl
  | @cons p vs pars vss hp _ ih =>
    intro idx w h hk hsep
    cases idx with
    | nil => exact absurd h.2 (by simp)
    | cons i idx =>
      cases w with
      | nil => have := h.1; simp at this
      | cons x w =>
        rw [valuesAt_cons_iff] at h
        unfold KwFor at hk
        rw [List.forall₂_cons] at hk
        have h1 := getBin_own hp (hn vs List.mem_cons_self) h.1
          (fun y hy hc => hsep vs List.mem_cons_self x (List.mem_of_getElem? h.1) y hy hc)
        have h2 := ih (fun vs hvs => hn vs (List.mem_cons_of_mem _ hvs)) h.2 hk.2
          (fun vs hvs => hsep vs (List.mem_cons_of_mem _ hvs))
        have h3 : GridSearch.kwBin kw p = .ok (i : ℤ) := by
          simp only [GridSearch.kwBin, hk.1, h1]
        rw [List.mapM_cons]
        simp only [h3, h2, bind, Except.bind, pure, Except.pure, List.map_cons]

/-- C76, when no two values of a parameter are as close as numpy's tolerance:
asking for the penalty at parameter values on the grid gives the penalty stored
for that grid point. -/
theorem c76_penalty_at_partial {g : GridSearch} (hr : g.Ready) {vss : List (List ℝ)}
    (hv : HasValues g.pars vss) (hl : vss.map List.length = g.fitShape)
    (hn : ∀ vs ∈ vss, vs.Nodup)
    (hsep : ∀ vs ∈ vss, ∀ x ∈ vs, ∀ y ∈ vs, npCloseReal y x → y = x)
    {idx : List ℕ} {w : List ℝ} (hw : ValuesAt vss idx w) {kw : List (PyStr × ℝ)}
    (hk : KwFor g.pars w kw) :
    ∃ p, g.getPenaltyAt kw = .ok p ∧ p.shape = [] ∧ p.get [] = g.penalties.get idx := by
  have hb : InB g.fitShape idx := by rw [← hl]; exact hw.inB
  have ht := take_ok (a := g.penalties) (s := g.fitShape) (c := []) (by simpa using hr.2) hb
  refine ⟨⟨[], fun j => g.penalties.get (idx ++ j)⟩, ?_, rfl, by simp⟩
  unfold GridSearch.getPenaltyAt
  rw [bins_own hv hn hw hk hsep]
  exact ht

/-- C76 fails for values closer than the tolerance: with the values 10⁹ and
10⁹ + 1 the second one is looked up as the first. -/
theorem c76_close_negation :
    (FitPar.getBin { name := lit "rate", prior := 0, sigma := none, low := 0, high := 1, bins := 2,
                     values := some [10 ^ 9, 10 ^ 9 + 1] } (10 ^ 9 + 1)) = .ok 0 := by
  have h : npCloseReal (10 ^ 9) (10 ^ 9 + 1) := by
    unfold npCloseReal
    rw [abs_of_nonpos (by norm_num), abs_of_pos (by norm_num)]
    norm_num
  simp only [FitPar.getBin, FitPar.getValues]
  rw [List.findIdx?_cons]
  simp [h]

/-- C76: asking for the raw statistic by parameter values raises an `IndexError`
for every search with one number per grid point, even at values on the grid. -/
theorem c76_raw_stats_negation {g : GridSearch} (hr : g.Ready) (hpb : g.perBin = false)
    {vss : List (List ℝ)} (hv : HasValues g.pars vss) (hl : vss.map List.length = g.fitShape)
    (hn : ∀ vs ∈ vss, vs.Nodup)
    (hsep : ∀ vs ∈ vss, ∀ x ∈ vs, ∀ y ∈ vs, npCloseReal y x → y = x)
    {idx : List ℕ} {w : List ℝ} (hw : ValuesAt vss idx w) {kw : List (PyStr × ℝ)}
    (hk : KwFor g.pars w kw) : g.getRawStatsAt kw = .error .indexError := by
  have hb : InB g.fitShape idx := by rw [← hl]; exact hw.inB
  have hs : g.stats.shape = g.fitShape ++ [] := by
    have := hr.1
    simpa [GridSearch.cellShape, hpb] using this
  have ht := take_ok (a := g.stats) hs hb
  unfold GridSearch.getRawStatsAt
  rw [bins_own hv hn hw hk hsep]
  simp only [bind, Except.bind, ht]
  rfl

/-- C76 is not vacuous. -/
example : KwFor exSearch.pars [2, 5] [(lit "shift", 5), (lit "rate", 2)] ∧
    ValuesAt [[0, 1, 2], [5, 7]] [2, 0] [2, 5] := by
  refine ⟨.cons (by simp [assoc]) (.cons (by simp [assoc]) .nil), ?_⟩
  exact valuesAt_cons_iff.2 ⟨rfl, valuesAt_cons_iff.2 ⟨rfl, valuesAt_nil_iff.2 ⟨rfl, rfl⟩⟩⟩

end Verif
