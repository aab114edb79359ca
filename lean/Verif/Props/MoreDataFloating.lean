import Verif.Props.MoreData
import Verif.Props.LimitFloating

/-! # C168: with floating backgrounds more events can strengthen a limit -/

namespace Verif

open Session

namespace Ex

/-- The example with `n` observed events in the second bin of the region, where the signal has none. -/
noncomputable def sideState (n : ℚ) : FitState := { limitState with
  objs := fun r => if r = 0 then { limitState.objs 0 with data := four 5 6 7 n } else limitState.objs r }

/-- Contents of the region from 1 to 2. -/
def sideContents (n : ℚ) (r : ℕ) : NdArray ℚ :=
  if r = 0 then ⟨[2], fun idx => if idx = [0] then 7 else if idx = [1] then n else 0⟩ else limitContents r

/-- The first rate is 10, its prior; the second is 5 or 105. -/
def sideSearch : GridSearch :=
  GridSearch.new [gridPar (lit "rate") (some 2) [10], gridPar (lit "rate") none [5, 105]] [4]
    (some (lit "fit")) false

end Ex

theorem side_limitOn {n : ℚ} (hn : n = 8 ∨ n = 30) : (Ex.limitArgs [2, 3]).LimitOn 4 0
    [(((Ex.sideState n).view 1).shrink exFitKw).st.scale 20 |>.st] (Ex.sideState n) :=
  have h := ex_limitOn (.inr rfl)
  { given :=
      { region := h.given.region
        some := h.given.some
        alloc := h.given.alloc
        own := by
          show ([0, 4, 2, 3, 1] : List ℕ).Nodup
          decide
        able := by
          intro q hq
          have hm : q = 0 ∨ q = 4 ∨ q = 2 ∨ q = 3 ∨ q = 1 := by
            have : q ∈ [0, 4, 2, 3, 1] := hq
            simpa using this
          have h := h.given.able q hq
          rcases hm with rfl | rfl | rfl | rfl | rfl <;>
            exact ⟨⟨h.wf.axes, h.wf.names, h.wf.shape⟩, h.aligned, h.dims, h.edges, h.has⟩
        fixed := by
          have h := h.given.fixed
          refine ⟨h.alloc, h.own, h.region, h.dims, h.names, ?_, ?_⟩
          · refine .cons ⟨exFitKw, ?_, ?_, rfl, ?_⟩ .nil
            · show AsksRoi [Ex.fitAxis] (inOrder [(lit "energy", ((2 : ℚ), (1 : ℚ)))]) exFitKw
              rw [exInit_roi]
              exact exFit_asks
            · rcases hn with rfl | rfl <;> decide +kernel
            · rcases hn with rfl | rfl <;> decide +kernel
          · simp }
    settings := ⟨fun _ => .inr ⟨2, by simp [Ex.limitArgs], by simp [Ex.sideState, Ex.limitState, Ex.fitObj]⟩,
      by simp [Ex.limitArgs], by simp [Ex.limitArgs], by simp [Ex.limitArgs]⟩
    signal := rfl
    data := rfl
    axes := fun _ _ => rfl
    fit := by simp [Ex.sideState, Ex.limitState]
    decays := h.decays
    region := h.region }

theorem side_contents {n : ℚ} (hn : n = 8 ∨ n = 30) :
    ∀ q ∈ ((Ex.limitArgs [2, 3]).withSignal 4).kept ++ (Ex.limitArgs [2, 3]).fixed.map Prod.fst,
    RegionContents (inOrder (Ex.limitArgs [2, 3]).roi) [lit "energy_mc"] ((Ex.sideState n).view q)
      (Ex.sideContents n q) := by
  intro q hq
  have hq5 : q < 5 := by
    have : q ∈ [0, 4, 2, 3, 1] := hq
    simp only [List.mem_cons, List.not_mem_nil, or_false] at this
    omega
  have key : ∀ r < 5, (((Ex.sideState n).view r).shrink exFitKw).err = none ∧
      pick [lit "energy_mc"] ((((Ex.sideState n).view r).shrink exFitKw).st.cfg.map SPar.name)
        (((Ex.sideState n).view r).shrink exFitKw).st.data.shape = [2] ∧
      ∀ idx ∈ allIdx [2], (Ex.sideContents n r).get idx =
        sumIdx (((Ex.sideState n).view r).shrink exFitKw).st.data.shape (fun full =>
          if pick [lit "energy_mc"] ((((Ex.sideState n).view r).shrink exFitKw).st.cfg.map SPar.name) full =
            idx then (((Ex.sideState n).view r).shrink exFitKw).st.data.get full else 0) := by
    rcases hn with rfl | rfl <;> decide +kernel
  obtain ⟨k1, k2, k3⟩ := key q hq5
  refine ⟨(((Ex.sideState n).view q).shrink exFitKw).st, ⟨exFitKw, ?_, k1,
    ⟨⟨rfl, rfl, rfl, rfl, rfl⟩, rfl, fun _ _ => rfl⟩⟩, ?_, fun idx hi => ?_⟩
  · show AsksRoi [Ex.fitAxis] (inOrder [(lit "energy", ((2 : ℚ), (1 : ℚ)))]) exFitKw
    rw [exInit_roi]
    exact exFit_asks
  · rw [k2]
    unfold Ex.sideContents
    split <;> rfl
  · refine k3 idx (mem_allIdx.2 ?_)
    unfold Ex.sideContents at hi
    split at hi <;> exact hi

theorem side_evaluable (n : ℚ) : ((Ex.limitArgs [2, 3]).withSignal 4).Evaluable Ex.fitEnv Ex.keyOf 0
    (Ex.sideState n) :=
  have h := ex_floatEvaluable
  ⟨rfl, h.str, rfl, by
    have := h.backgrounds
    exact this, fun _ _ => rfl, h.dims, by
    intro r hr
    have : r = 2 ∨ r = 3 ∨ r = 4 := by simpa [Ex.limitArgs] using hr
    rcases this with rfl | rfl | rfl <;> simp [FitState.view, Ex.sideState, Ex.limitState, Ex.fitObj],
    h.names, h.pars, h.globals, h.rates⟩

theorem side_ownRates (n : ℚ) : (Ex.limitArgs [2, 3]).OwnRates (Ex.sideState n) :=
  have h := ex_floatRates
  ⟨h.floating, h.config, by
    intro r hr
    have : r = 2 ∨ r = 3 := by simpa [Ex.limitArgs] using hr
    rcases this with rfl | rfl
    · exact ⟨0, rfl⟩
    · exact ⟨1, rfl⟩, h.sigmas, h.statPerBin, h.perBin⟩

theorem side_search : RateSearch Ex.toInt Ex.sideSearch [[10], [5, 105]] 2 where
  ready := ⟨rfl, rfl⟩
  form := rfl
  values := .cons rfl (.cons rfl .nil)
  counts := .cons ⟨rfl, by simp⟩ (.cons ⟨rfl, by simp⟩ .nil)
  number := rfl
  nodup := by
    intro vs hvs
    have : vs = [10] ∨ vs = [5, 105] := by simpa using hvs
    rcases this with rfl | rfl <;> norm_num
  injective := by
    intro vs hvs x hx y hy
    have : vs = [10] ∨ vs = [5, 105] := by simpa using hvs
    rcases this with rfl | rfl
    · rw [List.mem_singleton.1 hx, List.mem_singleton.1 hy]
      exact fun _ => rfl
    · have hx : x = 5 ∨ x = 105 := by simpa using hx
      have hy : y = 5 ∨ y = 105 := by simpa using hy
      rcases hx with rfl | rfl <;> rcases hy with rfl | rfl <;> simp [Ex.toInt]
  nonzero := by
    intro vs hvs x hx
    have : vs = [10] ∨ vs = [5, 105] := by simpa using hvs
    rcases this with rfl | rfl
    · rw [List.mem_singleton.1 hx]
      simp [Ex.toInt]
    · have hx : x = 5 ∨ x = 105 := by simpa using hx
      rcases hx with rfl | rfl <;> simp [Ex.toInt]
  sigmas := by
    intro q hq
    have : q = Ex.gridPar (lit "rate") (some 2) [10] ∨ q = Ex.gridPar (lit "rate") none [5, 105] := by
      simpa [Ex.sideSearch, GridSearch.new] using hq
    rcases this with rfl | rfl <;> simp [Ex.gridPar]

theorem side_combination {u : List ℝ} (h : Combination [[10], [5, 105]] u) :
    ∃ y : ℚ, (y = 5 ∨ y = 105) ∧ u = [10, (y : ℝ)] ∧ u.map Ex.toInt = [10, y] := by
  obtain ⟨x, _, hx, h1, rfl⟩ := List.forall₂_cons_right_iff.1 h
  obtain ⟨y, _, hy, h2, rfl⟩ := List.forall₂_cons_right_iff.1 h1
  cases h2
  rw [List.mem_singleton.1 hx]
  have hy : y = 5 ∨ y = 105 := by simpa using hy
  rcases hy with rfl | rfl
  · exact ⟨5, .inl rfl, by norm_num, by simp [Ex.toInt]⟩
  · exact ⟨105, .inr rfl, by norm_num, by simp [Ex.toInt]⟩

/-- The statistic with `n` events in the second bin, at the second rate `y` and with the signal scaled to
`x` decays. -/
noncomputable def Ex.sideStat (n : ℚ) (x y : ℝ) : ℝ :=
  (7 - (8 + y / 5 + x / 2)) ^ 2 / (8 + y / 5 + x / 2) + ((n : ℝ) - (9 + y / 10)) ^ 2 / (9 + y / 10)

theorem side_total {n : ℚ} (hn : n = 8 ∨ n = 30) {e₁ e₂ : ℝ} (h₁ : 1 ≤ e₁) (h₂ : 1 ≤ e₂) :
    Stat.pearson.Total [7, (n : ℝ)] [e₁, e₂] ((7 - e₁) ^ 2 / e₁ + ((n : ℝ) - e₂) ^ 2 / e₂) := by
  have hlt : statEps < 1 := by unfold statEps; norm_num
  have h5 : ∀ y : ℝ, 1 ≤ y → ¬ y < statEps := fun y hy => not_lt.2 (hlt.le.trans hy)
  have hn1 : (1 : ℝ) ≤ n := by rcases hn with rfl | rfl <;> norm_num
  rw [total_iff _ (by simp)]
  simp only [List.zip_cons_cons, List.zip_nil_right, List.map_cons, List.map_nil, List.sum_cons,
    List.sum_nil, Stat.bin, pearsonBin, clampEps_of_ge (hlt.le.trans h₁),
    clampEps_of_ge (hlt.le.trans h₂)]
  rw [if_neg (h5 _ (by norm_num)), if_neg (h5 _ hn1), add_zero]

theorem side_compared (n y : ℚ) : comparedContents false (Ex.sideContents n 0) = [7, (n : ℝ)] ∧
    comparedContents false ((Ex.limitArgs [2, 3]).backgroundAt (Ex.sideState n) (Ex.sideContents n)
      (Ex.sideContents n 0).shape [10, y]) = [8 + (y : ℝ) / 5, 9 + (y : ℝ) / 10] ∧
    comparedContents false (Ex.sideContents n 4) = [1, 0] := by
  have e : allIdx [2] = [[0], [1]] := rfl
  refine ⟨?_, ?_, ?_⟩
  · simp [comparedContents, Ex.sideContents, e]
  · have h1 : ((Ex.sideState n).view 1).numDecays = 4 := rfl
    have h2 : ((Ex.sideState n).view 2).numDecays = 10 := rfl
    have h3 : ((Ex.sideState n).view 3).numDecays = 10 := rfl
    simp only [comparedContents, Bool.false_eq_true, if_false, FitArgs.backgroundAt]
    show (allIdx [2]).map _ = _
    rw [e]
    simp only [FitArgs.sumAt, Ex.limitArgs, Ex.sideContents, Ex.limitContents, h1, h2, h3, List.map_cons,
      List.map_nil, List.zipWith_cons_cons, List.zipWith_nil_right, List.sum_cons, List.sum_nil,
      Option.toList_none, OfNat.ofNat_ne_zero, one_ne_zero, if_false]
    push_cast
    refine congrArg₂ _ (by ring) (congrArg₂ _ (by ring) rfl)
  · simp [comparedContents, Ex.sideContents, Ex.limitContents, e]

theorem side_penalty (n : ℚ) (y : ℝ) :
    (Ex.limitArgs [2, 3]).penaltyAt (Ex.sideState n) [10, y] = 0 :=
  (ex_floatPenalty 10 y).trans (by norm_num)

/-- The limit with `n` events in the second bin, when the second rate is fitted to `y` for every scaling. -/
theorem side_limit {n : ℚ} (hn : n = 8 ∨ n = 30) {y y' : ℝ} (hy : (y = 5 ∧ y' = 105) ∨ (y = 105 ∧ y' = 5))
    (hbetter : ∀ x ∈ ([0, 4, 10, 20] : List ℝ), Ex.sideStat n x y < Ex.sideStat n x y') {l : ℝ}
    (hl : l = 4 ∨ l = 10) (hbest : ∀ x ∈ ([4, 10, 20] : List ℝ), Ex.sideStat n 0 y < Ex.sideStat n x y)
    (hover : 3 / 2 < Ex.sideStat n l y - Ex.sideStat n 0 y)
    (hunder : l = 10 → Ex.sideStat n 4 y - Ex.sideStat n 0 y ≤ 3 / 2) :
    ∃ ses st' w, init Ex.keyOf (Ex.limitArgs [2, 3]) (Ex.sideState n) = (st', .ok ses) ∧
      Fitter.limitInit ⟨ses, st', Ex.sideSearch⟩ 4 true = (w, .ok ()) ∧
      (w.limitOf Ex.fitEnv Ex.toInt 4 [0, 4, 10, 20] [] none (3 / 2)).2 = .ok l := by
  obtain ⟨ses, st', w, i1, i2, i3⟩ := c147_floating_partial (env := Ex.fitEnv) (keyOf := Ex.keyOf)
    (rnd := Ex.toInt) (vss := [[10], [5, 105]]) (search := Ex.sideSearch) (side_limitOn hn)
    (side_evaluable n) (side_ownRates n) ex_limitNames (side_contents hn) side_search
    (.cons ⟨rfl, rfl⟩ (.cons ⟨rfl, rfl⟩ .nil)) (by
      intro vs hvs x hx
      have : vs = [10] ∨ vs = [5, 105] := by simpa using hvs
      rcases this with rfl | rfl
      · rw [List.mem_singleton.1 hx]
        simp [Ex.toInt]
      · have hx : x = 5 ∨ x = 105 := by simpa using hx
        rcases hx with rfl | rfl <;> simp [Ex.toInt])
  refine ⟨ses, st', w, i1, i2, ?_⟩
  have hd : (((Ex.sideState n).view 4).numDecays : ℝ) = 2 := ex_limitDecays
  obtain ⟨u₀, u, m1, m2, b, hb, k1, -⟩ := i3 [] [0, 4, 10, 20] (ex_plain.2 [] (.inl rfl)) ex_plain.1.some
    ex_plain.1.increasing (fun u => Ex.sideStat n 0 (u.getD 1 0)) (fun x u => Ex.sideStat n x (u.getD 1 0))
    (by
      intro u hu
      obtain ⟨q, hq, rfl, e⟩ := side_combination hu
      obtain ⟨e1, e2, -⟩ := side_compared n q
      have hq0 : (0 : ℝ) ≤ q := by rcases hq with rfl | rfl <;> norm_num
      have := side_total hn (e₁ := 8 + (q : ℝ) / 5) (e₂ := 9 + (q : ℝ) / 10) (by linarith) (by linarith)
      rw [e, show (Ex.limitArgs [2, 3]).singleBin = false from rfl, e1, e2]
      simpa [Ex.sideStat, Ex.limitArgs] using this)
    (by
      intro x hx u hu
      obtain ⟨q, hq, rfl, e⟩ := side_combination hu
      obtain ⟨e1, e2, e3⟩ := side_compared n q
      have hq0 : (0 : ℝ) ≤ q := by rcases hq with rfl | rfl <;> norm_num
      have hx : x ∈ ([0, 4, 10, 20] : List ℝ) := hx
      have hx0 := ex_plain.1.nonneg x hx
      refine ⟨fun hcl => by rw [ex_plain.1.zero x hx hcl], fun hcl => ?_⟩
      have := side_total hn (e₁ := 8 + (q : ℝ) / 5 + x / 2) (e₂ := 9 + (q : ℝ) / 10) (by linarith)
        (by linarith)
      rw [e, show (Ex.limitArgs [2, 3]).singleBin = false from rfl, e1, e2, e3, hd,
        ex_plain.1.exact x hx hcl]
      simpa [expectedAt, Ex.sideStat, Ex.limitArgs] using this) [] (by simp) (3 / 2)
  -- the rate that fits best is `y`, with and without signal
  have hthe : ∀ (x : ℝ), x ∈ ([0, 4, 10, 20] : List ℝ) → ∀ w : List ℝ,
      FirstBest [[10], [5, 105]] (fun u => Ex.sideStat n x (u.getD 1 0) +
        (Ex.limitArgs [2, 3]).penaltyAt (Ex.sideState n) u) w → w = [10, y] := by
    intro x hx w hw
    obtain ⟨i, hi, hmin⟩ := hw
    obtain ⟨q, hq, rfl, -⟩ := side_combination hi.comb
    have hc : Combination [[(10 : ℝ)], [5, 105]] [10, y] :=
      .cons (by simp) (.cons (by rcases hy with ⟨rfl, -⟩ | ⟨rfl, -⟩ <;> simp) .nil)
    obtain ⟨j, hj⟩ := valuesAt_of_comb hc
    have h1 := (hmin j _ hj).1
    dsimp only at h1
    rw [side_penalty, side_penalty] at h1
    simp only [List.getD_cons_succ, List.getD_cons_zero, add_zero] at h1
    have h2 := hbetter x hx
    have : (q : ℝ) = y ∨ (q : ℝ) = y' := by
      rcases hy with ⟨rfl, rfl⟩ | ⟨rfl, rfl⟩ <;> rcases hq with rfl | rfl <;> norm_num
    rcases this with h | h
    · rw [h]
    · rw [h] at h1
      exact absurd h1 (not_le.2 h2)
  have e0 := hthe 0 (by simp) u₀ m1
  have eu : ∀ x ∈ ([0, 4, 10, 20] : List ℝ), u x = [10, y] := fun x hx => hthe x hx _ (m2 x hx)
  have hb0 : b = 0 := by
    have h1 := (hb.2 0 (by simp)).1
    dsimp only at h1
    rw [eu b hb.1, eu 0 (by simp)] at h1
    simp only [List.getD_cons_succ, List.getD_cons_zero] at h1
    by_contra hne
    have h4 : b = 0 ∨ b ∈ ([4, 10, 20] : List ℝ) := by simpa using hb.1
    exact absurd h1 (not_le.2 (hbest b (h4.resolve_left hne)))
  have hF : ∀ x ∈ ([0, 4, 10, 20] : List ℝ), Ex.sideStat n x ((u x).getD 1 0) -
      Ex.sideStat n 0 (u₀.getD 1 0) + (Ex.limitArgs [2, 3]).penaltyAt (Ex.sideState n) (u x) =
      Ex.sideStat n x y - Ex.sideStat n 0 y := by
    intro x hx
    rw [eu x hx, e0, side_penalty]
    simp
  have hlm : l ∈ ([0, 4, 10, 20] : List ℝ) := by rcases hl with rfl | rfl <;> simp
  refine (k1 l).2 ⟨hlm, by rw [hb0]; rcases hl with rfl | rfl <;> norm_num, ?_, fun z hz _ hlt => ?_⟩
  · dsimp only
    rw [hF l hlm]
    exact hover
  · dsimp only
    rw [hF z hz]
    have h4 : z = 0 ∨ z = 4 ∨ z = 10 ∨ z = 20 := by simpa using hz
    rcases h4 with rfl | rfl | rfl | rfl
    · norm_num
    · rcases hl with rfl | rfl
      · exact absurd hlt (lt_irrefl _)
      · exact hunder rfl
    all_goals rcases hl with rfl | rfl <;> norm_num at hlt

/-- **C168, negation with floating backgrounds.** More events can strengthen a limit: with 8 observed
events in the bin without signal the limit is 10, with 30 events there and all else the same it is 4. The
additional events are taken for background, which then leaves less room for the signal in the other bin.
(The penalties are zero in both programs.) -/
theorem c168_floating_negation : ∃ ses₁ st₁ w₁ ses₂ st₂ w₂,
    (Ex.sideState 30).objs 0 = { (Ex.sideState 8).objs 0 with data := Ex.four 5 6 7 30 } ∧
    (∀ r ≠ 0, (Ex.sideState 30).objs r = (Ex.sideState 8).objs r) ∧
    ((Ex.sideState 8).objs 0).data = Ex.four 5 6 7 8 ∧
    init Ex.keyOf (Ex.limitArgs [2, 3]) (Ex.sideState 8) = (st₁, .ok ses₁) ∧
    init Ex.keyOf (Ex.limitArgs [2, 3]) (Ex.sideState 30) = (st₂, .ok ses₂) ∧
    Fitter.limitInit ⟨ses₁, st₁, Ex.sideSearch⟩ 4 true = (w₁, .ok ()) ∧
    Fitter.limitInit ⟨ses₂, st₂, Ex.sideSearch⟩ 4 true = (w₂, .ok ()) ∧
    (w₁.limitOf Ex.fitEnv Ex.toInt 4 [0, 4, 10, 20] [] none (3 / 2)).2 = .ok 10 ∧
    (w₂.limitOf Ex.fitEnv Ex.toInt 4 [0, 4, 10, 20] [] none (3 / 2)).2 = .ok 4 := by
  obtain ⟨ses₁, st₁, w₁, h1, h2, h3⟩ := side_limit (n := 8) (.inl rfl) (y := 5) (y' := 105)
    (.inl ⟨rfl, rfl⟩) (by
      intro x hx
      have : x = 0 ∨ x = 4 ∨ x = 10 ∨ x = 20 := by simpa using hx
      rcases this with rfl | rfl | rfl | rfl <;> norm_num [Ex.sideStat]) (l := 10) (.inr rfl) (by
      intro x hx
      have : x = 4 ∨ x = 10 ∨ x = 20 := by simpa using hx
      rcases this with rfl | rfl | rfl <;> norm_num [Ex.sideStat]) (by norm_num [Ex.sideStat])
    (fun _ => by norm_num [Ex.sideStat])
  obtain ⟨ses₂, st₂, w₂, k1, k2, k3⟩ := side_limit (n := 30) (.inr rfl) (y := 105) (y' := 5)
    (.inr ⟨rfl, rfl⟩) (by
      intro x hx
      have : x = 0 ∨ x = 4 ∨ x = 10 ∨ x = 20 := by simpa using hx
      rcases this with rfl | rfl | rfl | rfl <;> norm_num [Ex.sideStat]) (l := 4) (.inl rfl) (by
      intro x hx
      have : x = 4 ∨ x = 10 ∨ x = 20 := by simpa using hx
      rcases this with rfl | rfl | rfl <;> norm_num [Ex.sideStat]) (by norm_num [Ex.sideStat])
    (fun h => by norm_num at h)
  refine ⟨ses₁, st₁, w₁, ses₂, st₂, w₂, rfl, fun r hr => ?_, rfl, h1, k1, h2, k2, h3, k3⟩
  simp [Ex.sideState, hr]

end Verif
