import Verif.Props.Closure

/-! # C133: fits with the one-sided statistic -/

namespace Verif

variable {env : FitEnv} {f : Fit} {st : FitState} {rnd : ℝ → ℚ} {g : GridSearch}
  {vss : List (List ℝ)} {F : List ℝ → FitVal} {P : List ℝ → ℝ}

/-- Where the fit agrees with the data it expects nowhere more. -/
theorem Agrees.nowhereMore {args : List ℚ} (h : Agrees env f st args) : NowhereMore env f st args := by
  obtain ⟨⟨obs, e, h1, h2⟩, h3⟩ := h
  refine ⟨⟨obs, e, h1, fun b hb => ?_⟩, h3⟩
  rw [h2] at hb
  obtain ⟨i, hi, rfl⟩ := List.getElem_of_mem hb
  simp

/-- **C133, the one-sided statistic.** With the statistic that ignores bins with too few expected events,
a fit by grid search after any sequence of evaluations reports the first combination, in the order of
the grid, with the priors of the constrained parameters for which nowhere more is expected than
observed, if there is one. Statistic and penalty are zero. (Partial: the suppositions of C62.) -/
theorem c133_one_sided_partial (hr : FitReady env f st) (hist : List (List ℚ))
    (hh : ∀ a ∈ hist, FullArgs f a ∧ NonzeroRates f st a) (hg : g.Ready)
    (h : FitGridSetup env f st rnd g vss F P) (hn : ∀ vs ∈ vss, vs.Nodup)
    (hb : f.statPerBin = false) (hst : f.stat = .bcChiUp)
    (hs : ∀ p ∈ f.pars, (st.params p).sigma ≠ some 0)
    (hc : ∀ w, Combination vss w → AllCount env f st (w.map rnd))
    (hex : ∃ w₀, Combination vss w₀ ∧ NowhereMore env f st (w₀.map rnd)) :
    ∃ g' raw pen idx w,
      (fitGrid env f rnd g (afterEvaluations env f hist st)).2 = .ok (g', raw, pen) ∧
      ValuesAt vss idx w ∧ g'.pars.map FitPar.bestFit = w.map some ∧
      raw.shape = [] ∧ raw.get [] = 0 ∧ pen.shape = [] ∧ pen.get [] = 0 ∧
      NowhereMore env f st (w.map rnd) ∧
      ∀ idx' w', ValuesAt vss idx' w' → NowhereMore env f st (w'.map rnd) → idx ≤ idx' := by
  obtain ⟨g', raw, pen, idx, w, h1, h2, h3, h4, h5, h6, h7⟩ :=
    c93_best_fit_partial hr hist hh hg h hn
  have len : ∀ w, Combination vss w → (w.map rnd).length = f.pars.length := by
    intro w hw
    rw [List.length_map, hw.length_eq, h.number]
  -- the values at a combination
  have val : ∀ w, Combination vss w → ∃ v, F w = .scalar v ∧ 0 ≤ v ∧ 0 ≤ P w ∧
      (v + P w = 0 ↔ NowhereMore env f st (w.map rnd)) := by
    intro w hw
    obtain ⟨r, hr1, hr2, -⟩ := h.returns w hw
    obtain ⟨obs, e, v, a1, a2, a3, a4, a5⟩ := funct_parts hr.pars (len w hw) hb hr1
    obtain ⟨e1, e2⟩ := penalties_zero (s := f.stat) (params := st.params) (len w hw) hs
    rw [← a5] at e1 e2
    have hcount := hc w hw obs e a1
    rw [hst] at a3
    have hz := c74_zero_iff _ _ a2 (fun x hx => hcount x (by simp [hx]))
    have hv : 0 ≤ v := by
      obtain ⟨u, hu, h⟩ := c35_nonneg .bcChiUp (by simp) _ _ a2
      rw [total_iff _ a2] at hu a3
      rw [a3, ← hu]
      exact h
    refine ⟨v, by rw [hr2, a4], hv, e1, ?_⟩
    rw [add_eq_zero_iff_of_nonneg hv e1, e2]
    constructor
    · rintro ⟨rfl, hp⟩
      exact ⟨⟨obs, e, a1, hz.1 a3⟩, hp⟩
    · rintro ⟨⟨obs', e', b1, b2⟩, hp⟩
      rw [a1] at b1
      cases b1
      refine ⟨?_, hp⟩
      have := hz.2 b2
      rw [total_iff _ a2] at this a3
      rw [a3, ← this]
  have hobj : ∀ w v, F w = .scalar v → objective F P w = v + P w := by
    intro w v hv
    unfold objective
    rw [hv]
    simp [FitVal.cells, NdArray.sum]
  have key : ∀ w, Combination vss w → 0 ≤ objective F P w ∧
      (objective F P w = 0 ↔ NowhereMore env f st (w.map rnd)) := by
    intro w hw
    obtain ⟨v, k1, k2, k3, k4⟩ := val w hw
    rw [hobj w v k1]
    exact ⟨add_nonneg k2 k3, k4⟩
  obtain ⟨w₀, hw₀, hm₀⟩ := hex
  obtain ⟨idx₀, hidx₀⟩ := valuesAt_of_comb hw₀
  have h0 : objective F P w = 0 :=
    le_antisymm ((h7 _ _ hidx₀).1.trans ((key w₀ hw₀).2.2 hm₀).le) (key w h2.comb).1
  obtain ⟨v, k1, k2, k3, k4⟩ := val w h2.comb
  rw [hobj w v k1] at h0
  have hv : v = 0 := by linarith
  have hp : P w = 0 := by linarith
  rw [k1] at h4
  refine ⟨g', raw, pen, idx, w, h1, h2, h3, h4.1, ?_, h5, by rw [h6, hp], k4.1 h0, ?_⟩
  · rw [h4.2 [] (by rw [h4.1]; exact List.Forall₂.nil)]
    simp only [FitVal.cells]
    exact hv
  · intro idx' w' hv' hm
    refine (h7 _ _ hv').2 ?_
    rw [(key w' hv'.comb).2.2 hm, hobj w v k1, h0]

/-! ### a fit that does not find the truth -/

namespace Ex

/-- The fit of the examples with the one-sided statistic. -/
def oneSidedFit : Fit := { fit with stat := .bcChiUp }

/-- A grid search with increasing values of the second rate. -/
def risingSearch : GridSearch :=
  GridSearch.new [gridPar (lit "rate") (some 2) [8, 10], gridPar (lit "rate") none [3, 5, 7]] [4]
    (some (lit "fit")) false

/-- The value lists of the search. -/
def risingValues : List (List ℝ) := [[8, 10], [3, 5, 7]]

end Ex

theorem oneSided_ready : FitReady Ex.fitEnv Ex.oneSidedFit Ex.closedState where
  str := closed_ready.str
  cache := closed_ready.cache
  alloc := closed_ready.alloc
  apart := closed_ready.apart
  backgrounds := closed_ready.backgrounds
  axes := closed_ready.axes
  decays := closed_ready.decays
  pars := closed_ready.pars
  globals := closed_ready.globals
  rates := closed_ready.rates

theorem oneSided_contents : ∀ a ∈ [(8 : ℚ), 10], ∀ b ∈ [(3 : ℚ), 5, 7],
    ((evaluatedContents Ex.fitEnv Ex.oneSidedFit [a, b] Ex.closedState).toOption.map
      (fun c => (c.1.shape, c.2.map NdArray.shape)) = some ([4], some [4])) ∧
    (evaluatedContents Ex.fitEnv Ex.oneSidedFit [a, b] Ex.closedState).toOption.all
      (fun c => ((allIdx c.1.shape).all fun i => decide (1 ≤ c.1.get i)) &&
        c.2.all fun e => (allIdx e.shape).all fun i => decide (1 ≤ e.get i)) = true := by
  decide +kernel

theorem rising_combination {w : List ℝ} (h : Combination Ex.risingValues w) :
    ∃ a ∈ [(8 : ℚ), 10], ∃ b ∈ [(3 : ℚ), 5, 7], w = [(a : ℝ), (b : ℝ)] ∧
      w.map Ex.toInt = [a, b] := by
  obtain ⟨x, _, hx, h1, rfl⟩ := List.forall₂_cons_right_iff.1 h
  obtain ⟨y, _, hy, h2, rfl⟩ := List.forall₂_cons_right_iff.1 h1
  have hy : y = 3 ∨ y = 5 ∨ y = 7 := by simpa using hy
  obtain ⟨a, ha, b, hb, he⟩ := closed_combination (w := [x, y])
    (.cons hx (.cons (by rcases hy with rfl | rfl | rfl <;> simp) .nil))
  cases h2
  have hb : b = 7 ∨ b = 5 ∨ b = 3 := by simpa using hb
  exact ⟨a, ha, b, by rcases hb with rfl | rfl | rfl <;> simp, he⟩

/-- Where the example agrees with the data, and a place where it expects nowhere more. -/
theorem oneSided_compare : ∀ a ∈ [(8 : ℚ), 10], ∀ b ∈ [(3 : ℚ), 5, 7],
    (evaluatedContents Ex.fitEnv Ex.oneSidedFit [a, b] Ex.closedState).toOption.all
      (fun c => c.2.all fun e => decide (c.1.shape = [4] ∧ e.shape = [4]) &&
        (((allIdx [4]).all fun i => decide (e.get i = c.1.get i)) == decide (a = 10 ∧ b = 5)) &&
        (!decide (a = 10 ∧ b = 3) || (allIdx [4]).all fun i => decide (e.get i ≤ c.1.get i))) = true := by
  decide +kernel

/-- The same in words of the contents. -/
theorem oneSided_parts {a b : ℚ} (ha : a ∈ [(8 : ℚ), 10]) (hb : b ∈ [(3 : ℚ), 5, 7]) :
    ∃ obs e, evaluatedContents Ex.fitEnv Ex.oneSidedFit [a, b] Ex.closedState = .ok (obs, some e) ∧
      obs.shape = [4] ∧ e.shape = [4] ∧
      ((∀ i ∈ allIdx [4], e.get i = obs.get i) ↔ a = 10 ∧ b = 5) ∧
      (a = 10 → b = 3 → ∀ i ∈ allIdx [4], e.get i ≤ obs.get i) := by
  have h1 := (oneSided_contents a ha b hb).1
  have h2 := oneSided_compare a ha b hb
  cases hc : evaluatedContents Ex.fitEnv Ex.oneSidedFit [a, b] Ex.closedState with
  | error e => rw [hc] at h1; simp [Except.toOption] at h1
  | ok c =>
    obtain ⟨obs, e⟩ := c
    rw [hc] at h1 h2
    cases e with
    | none => simp [Except.toOption] at h1
    | some e =>
      simp only [Except.toOption, Option.all_some, Bool.and_eq_true, decide_eq_true_eq,
        beq_iff_eq, Bool.or_eq_true, Bool.not_eq_true', decide_eq_false_iff_not] at h2
      obtain ⟨⟨⟨k1, k2⟩, k3⟩, k4⟩ := h2
      refine ⟨obs, e, rfl, k1, k2, ?_, ?_⟩
      · rw [← decide_eq_true_iff (p := a = 10 ∧ b = 5), ← k3]
        simp only [List.all_eq_true, decide_eq_true_eq]
      · intro h3 h4
        rcases k4 with k4 | k4
        · exact absurd ⟨h3, h4⟩ k4
        · simpa only [List.all_eq_true, decide_eq_true_eq] using k4

theorem oneSided_setup : ∃ F P, FitGridSetup Ex.fitEnv Ex.oneSidedFit Ex.closedState Ex.toInt
    Ex.risingSearch Ex.risingValues F P := by
  have key : ∀ w, ∃ v p, Combination Ex.risingValues w →
      (funct Ex.fitEnv Ex.oneSidedFit (w.map Ex.toInt) Ex.closedState).2 =
        .ok ((.total v, none), p) := by
    intro w
    by_cases hw : Combination Ex.risingValues w
    · obtain ⟨a, ha, b, hb, -, e⟩ := rising_combination hw
      rw [e]
      obtain ⟨v, e⟩ := funct_total (env := Ex.fitEnv) (f := Ex.oneSidedFit) (st := Ex.closedState)
        (args := [a, b]) rfl rfl (by decide) rfl rfl closed_sigmas (oneSided_contents a ha b hb).1
      exact ⟨v, _, fun _ => e⟩
    · exact ⟨0, 0, fun h => absurd h hw⟩
  choose v p key using key
  refine ⟨fun w => .scalar (v w), p, ?_⟩
  exact {
    values := .cons rfl (.cons rfl .nil)
    counts := .cons ⟨rfl, by simp⟩ (.cons ⟨rfl, by simp⟩ .nil)
    number := rfl
    returns := fun w hw => ⟨_, key w hw, rfl, rfl⟩
    rates := by
      intro w hw
      obtain ⟨a, ha, b, hb, -, e⟩ := rising_combination hw
      rw [e]
      intro q hq _
      have : q = (0, a) ∨ q = (1, b) := by simpa [Ex.oneSidedFit, Ex.fit] using hq
      rcases this with rfl | rfl
      · rintro rfl; norm_num at ha
      · rintro rfl; norm_num at hb
    sigmas := by
      intro q hq
      have : q = Ex.gridPar (lit "rate") (some 2) [8, 10] ∨
          q = Ex.gridPar (lit "rate") none [3, 5, 7] := by
        simpa [Ex.risingSearch, GridSearch.new] using hq
      rcases this with rfl | rfl <;> simp [Ex.gridPar]
    nonempty := Or.inr (by simp [Ex.risingSearch, GridSearch.new]) }

/-- **C133, negation.** With the one-sided statistic a fit to data that the model describes does not always
find the truth: here the data are the model at the rates 10 and 5, and at no other rates on the grid,
but the fit reports the rates 10 and 3. -/
theorem c133_one_sided_negation :
    Agrees Ex.fitEnv Ex.oneSidedFit Ex.closedState [10, 5] ∧
    Combination Ex.risingValues [10, 5] ∧
    (∀ w, Combination Ex.risingValues w →
      Agrees Ex.fitEnv Ex.oneSidedFit Ex.closedState (w.map Ex.toInt) → w = [10, 5]) ∧
    ∃ g' raw pen, (fitGrid Ex.fitEnv Ex.oneSidedFit Ex.toInt Ex.risingSearch Ex.closedState).2 =
        .ok (g', raw, pen) ∧ g'.pars.map FitPar.bestFit = [some 10, some 3] := by
  obtain ⟨F, P, h⟩ := oneSided_setup
  have hpri : ∀ b : ℚ, List.Forall₂ (fun p v => (Ex.closedState.params p).sigma ≠ none →
      ((v : ℚ) : ℝ) = (Ex.closedState.params p).prior) Ex.oneSidedFit.pars [10, b] := fun b =>
    .cons (by simp [Ex.closedState, Ex.fitState, Ex.fitParam])
      (.cons (by simp [Ex.closedState, Ex.fitState, Ex.fitParam]) .nil)
  have hsb : Ex.oneSidedFit.singleBin = false := rfl
  have hcomp : ∀ {obs e : NdArray ℚ}, obs.shape = [4] → e.shape = [4] →
      comparedContents Ex.oneSidedFit.singleBin e = comparedContents Ex.oneSidedFit.singleBin obs →
      ∀ i ∈ allIdx [4], e.get i = obs.get i := by
    intro obs e h1 h2 heq
    simp only [comparedContents, hsb, Bool.false_eq_true, if_false, h1, h2] at heq
    intro i hi
    have := List.map_inj_left.1 heq i hi
    exact_mod_cast this
  have hw₁ : Combination Ex.risingValues [10, 3] := .cons (by simp) (.cons (by simp) .nil)
  have hm : ([10, 3] : List ℝ).map Ex.toInt = [10, 3] := by simp [Ex.toInt]
  have hmore : NowhereMore Ex.fitEnv Ex.oneSidedFit Ex.closedState [10, 3] := by
    obtain ⟨obs, e, k1, k2, k3, -, k5⟩ := oneSided_parts (a := 10) (b := 3) (by simp) (by simp)
    refine ⟨⟨obs, e, k1, ?_⟩, hpri 3⟩
    simp only [comparedContents, hsb, Bool.false_eq_true, if_false, k2, k3]
    intro b hb
    rw [List.zip_map'] at hb
    obtain ⟨i, hi, rfl⟩ := List.mem_map.1 hb
    dsimp only
    exact_mod_cast k5 rfl rfl i hi
  refine ⟨?_, .cons (by simp) (.cons (by simp) .nil), ?_, ?_⟩
  · obtain ⟨obs, e, k1, k2, k3, k4, -⟩ := oneSided_parts (a := 10) (b := 5) (by simp) (by simp)
    refine ⟨⟨obs, e, k1, ?_⟩, hpri 5⟩
    simp only [comparedContents, hsb, Bool.false_eq_true, if_false, k2, k3]
    refine List.map_congr_left fun i hi => ?_
    exact_mod_cast k4.2 ⟨rfl, rfl⟩ i hi
  · intro w hw hag
    obtain ⟨a, ha, b, hb, rfl, e⟩ := rising_combination hw
    rw [e] at hag
    obtain ⟨obs, e, k1, k2, k3, k4, -⟩ := oneSided_parts ha hb
    obtain ⟨⟨obs', e', l1, l2⟩, -⟩ := hag
    rw [k1] at l1
    cases l1
    obtain ⟨rfl, rfl⟩ := k4.1 (hcomp k2 k3 l2)
    norm_num
  · obtain ⟨g', raw, pen, idx, w, h1, h2, h3, -, -, -, -, h8, h9⟩ :=
      c133_one_sided_partial oneSided_ready [] (by simp) (g := Ex.risingSearch) ⟨rfl, rfl⟩ h
        (by
          intro vs hvs
          have : vs = [8, 10] ∨ vs = [3, 5, 7] := by simpa [Ex.risingValues] using hvs
          rcases this with rfl | rfl <;> norm_num)
        rfl rfl closed_sigmas
        (by
          intro w hw obs e he x hx
          obtain ⟨a, ha, b, hb, -, e'⟩ := rising_combination hw
          rw [e'] at he
          have hc := (oneSided_contents a ha b hb).2
          rw [he] at hc
          simp only [Except.toOption, Option.all_some, Bool.and_eq_true, List.all_eq_true,
            decide_eq_true_eq] at hc
          have h1 : zeroThreshold ≤ 1 := by unfold zeroThreshold; norm_num
          simp only [comparedContents, hsb, Bool.false_eq_true, if_false, List.mem_append,
            List.mem_map] at hx
          refine h1.trans ?_
          rcases hx with ⟨i, hi, rfl⟩ | ⟨i, hi, rfl⟩
          · exact_mod_cast hc.1 i hi
          · exact_mod_cast hc.2 i hi)
        ⟨_, hw₁, by rw [hm]; exact hmore⟩
    refine ⟨g', raw, pen, h1, ?_⟩
    rw [h3]
    have hle : idx ≤ [1, 0] := h9 [1, 0] [10, 3]
      (valuesAt_cons_iff.2 ⟨rfl, valuesAt_cons_iff.2 ⟨rfl, valuesAt_nil_iff.2 ⟨rfl, rfl⟩⟩⟩)
      (by rw [hm]; exact hmore)
    obtain ⟨a, ha, b, hb, rfl, e⟩ := rising_combination h2.comb
    rw [e] at h8
    have ha : a = 10 := by
      have := (List.forall₂_cons.1 h8.priors).1 (by simp [Ex.closedState, Ex.fitState, Ex.fitParam])
      simp only [Ex.closedState, Ex.fitState, Ex.fitParam] at this
      exact_mod_cast this
    subst ha
    match idx, h2, hle with
    | [], h2, _ => exact absurd h2.2 (by simp [Ex.risingValues])
    | i :: idx, h2, hle =>
      obtain ⟨hi, h2⟩ := valuesAt_cons_iff.1 h2
      match idx, h2, hle with
      | [], h2, _ => exact absurd h2.2 (by simp)
      | j :: idx, h2, hle =>
        obtain ⟨hj, -⟩ := valuesAt_cons_iff.1 h2
        have hi : i = 1 := by
          match i, hi with
          | 0, hi => norm_num at hi
          | 1, _ => rfl
          | i + 2, hi => simp at hi
        subst hi
        have hj0 : j = 0 := by
          by_contra hne
          refine absurd hle (not_le.2 ?_)
          exact List.Lex.cons (List.Lex.rel (Nat.pos_of_ne_zero hne))
        subst hj0
        have : (3 : ℝ) = b := by simpa using hj
        rw [List.map_cons, List.map_cons, List.map_nil, ← this]
        norm_num

end Verif
