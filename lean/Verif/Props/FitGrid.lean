import Verif.Lemmas.FitGrid
import Verif.Spec.FitGrid
import Verif.Props.FitPenalty

/-!
# C93: fits by grid search

The loop of the grid search changes spectra, parameters and the cache while it runs; the result is
nevertheless that of evaluating the fresh fit at every combination.
-/

namespace Verif

variable {env : FitEnv} {f : Fit} {st : FitState} {rnd : ℝ → ℚ} {g : GridSearch}
  {vss : List (List ℝ)} {F : List ℝ → FitVal} {P : List ℝ → ℝ}

theorem FitGridSetup.floating (h : FitGridSetup env f st rnd g vss F P) : f.floating ≠ none := by
  have hne : ∀ vs ∈ vss, vs ≠ [] := by
    have hc := h.counts
    clear h
    generalize g.pars = ps at hc
    induction hc with
    | nil => simp
    | cons h1 _ ih =>
      intro vs hvs
      rcases List.mem_cons.1 hvs with rfl | hvs
      · exact h1.2
      · exact ih vs hvs
  have : ∃ w, Combination vss w := by
    clear h
    induction vss with
    | nil => exact ⟨[], .nil⟩
    | cons vs vss ih =>
      obtain ⟨w, hw⟩ := ih fun vs hvs => hne vs (by simp [hvs])
      obtain ⟨x, hx⟩ := List.exists_mem_of_ne_nil vs (hne vs (by simp))
      exact ⟨x :: w, .cons hx hw⟩
  obtain ⟨w, hw⟩ := this
  obtain ⟨r, hr, -⟩ := h.returns w hw
  intro hf
  rw [funct_none hf] at hr
  cases hr

theorem FitGridSetup.setup (h : FitGridSetup env f st rnd g vss F P) :
    g.Setup vss (freshValue env f rnd st) F P where
  values := h.values
  counts := h.counts
  returns w hw := by
    obtain ⟨r, h1, h2, h3⟩ := h.returns w hw
    refine ⟨?_, h3⟩
    unfold freshValue
    rw [h1, h2]
    rfl
  sigmas := h.sigmas
  nonempty := h.nonempty

theorem FitGridSetup.points (h : FitGridSetup env f st rnd g vss F P) {pts : List (List ℝ × List ℕ)}
    (hp : GridSearch.gridPoints g.pars = .ok pts) :
    ∀ pt ∈ pts, FullArgs f (pt.1.map rnd) ∧ NonzeroRates f st (pt.1.map rnd) := by
  obtain ⟨l, hl, hval, -⟩ := gridPoints_ok h.values
  rw [hp] at hl
  cases hl
  intro pt hpt
  have hc := (hval pt hpt).comb
  refine ⟨?_, h.rates _ hc⟩
  unfold FullArgs
  rw [List.length_map, ← h.number]
  exact hc.length_eq

theorem fitGrid_keeps {I : FitState → Prop} {fresh : List ℝ → Except PyErr (FitVal × ℝ)}
    (hv : HasValues g.pars vss) (hstep : ∀ pts, GridSearch.gridPoints g.pars = .ok pts →
      ∀ pt ∈ pts, ∀ s, I s → ∃ s', I s' ∧ functAt env f rnd pt.1 s = (s', fresh pt.1))
    {s : FitState} (hs : I s) :
    ∃ s', I s' ∧ fitGrid env f rnd g s = (s', g.minimise fresh f.stat) := by
  rw [minimise_eq]
  unfold fitGrid
  obtain ⟨pts, hpts, -, -⟩ := gridPoints_ok hv
  have hlift : ∀ {α : Type} (x : Except PyErr α) (s : FitState), FitM.lift x s = (s, x) :=
    fun _ _ => rfl
  rw [FitM.bind_ok (show FitM.lift (GridSearch.gridPoints g.pars) s = (s, .ok pts) by
    rw [hlift, hpts]), hpts]
  obtain ⟨s', i, e⟩ := fillGridM_keeps pts (hstep pts hpts) g s hs
  refine ⟨s', i, ?_⟩
  simp only [okBind]
  cases hg : g.fillGrid fresh pts with
  | error er =>
    rw [hg] at e
    rw [FitM.bind_error e]
    rfl
  | ok g' =>
    rw [hg] at e
    rw [FitM.bind_ok e]
    rfl

theorem fitGrid_run (hr : FitReady env f st) (h : FitGridSetup env f st rnd g vss F P)
    {s : FitState} (hs : Inv env f st (fun _ => False) s) :
    ∃ s', Inv env f st (fun _ => False) s' ∧
      fitGrid env f rnd g s = (s', g.minimise (freshValue env f rnd st) f.stat) := by
  refine fitGrid_keeps h.values (fun pts hpts pt hpt s hs => ?_) hs
  obtain ⟨h1, h2⟩ := h.points hpts pt hpt
  exact functAt_keeps hr h.floating h1 h2 hs

/-- **C93, best fit.** After any sequence of evaluations, a fit by grid search reports the first
combination of parameter values with the smallest statistic plus penalty, where statistic and
penalty of a combination are those of the fresh fit. (Partial: the suppositions of C62.) -/
theorem c93_best_fit_partial (hr : FitReady env f st) (hist : List (List ℚ))
    (hh : ∀ a ∈ hist, FullArgs f a ∧ NonzeroRates f st a) (hg : g.Ready)
    (h : FitGridSetup env f st rnd g vss F P) (hn : ∀ vs ∈ vss, vs.Nodup) :
    ∃ g' raw pen idx w,
      (fitGrid env f rnd g (afterEvaluations env f hist st)).2 = .ok (g', raw, pen) ∧
      ValuesAt vss idx w ∧ g'.pars.map FitPar.bestFit = w.map some ∧
      raw.Eqv (F w).cells ∧ pen.shape = [] ∧ pen.get [] = P w ∧
      ∀ idx' w', ValuesAt vss idx' w' →
        objective F P w ≤ objective F P w' ∧ (objective F P w' = objective F P w → idx ≤ idx') := by
  obtain ⟨_, -, e⟩ := fitGrid_run hr h (inv_after hr hh)
  rw [e]
  exact c44_best_fit hg h.setup hn f.stat

/-- **C93, grid.** Afterwards every point of the grid has the statistic and the penalty of the
fresh fit. -/
theorem c93_grid_partial (hr : FitReady env f st) (hist : List (List ℚ))
    (hh : ∀ a ∈ hist, FullArgs f a ∧ NonzeroRates f st a) (hg : g.Ready)
    (h : FitGridSetup env f st rnd g vss F P) (hn : ∀ vs ∈ vss, vs.Nodup) :
    ∃ g' raw pen, (fitGrid env f rnd g (afterEvaluations env f hist st)).2 = .ok (g', raw, pen) ∧
      ∀ idx w, ValuesAt vss idx w →
        (∀ j, InB g.cellShape j → g'.stats.get (idx ++ j) = (F w).cells.get j) ∧
        g'.penalties.get idx = P w := by
  obtain ⟨_, -, e⟩ := fitGrid_run hr h (inv_after hr hh)
  rw [e]
  exact c43_grid_partial hg h.setup hn f.stat

/-- **C93, again.** A second fit, with this or another grid search, gives what it would have given
as the first. -/
theorem c93_again_partial (hr : FitReady env f st) (h : FitGridSetup env f st rnd g vss F P)
    {g2 : GridSearch} {vss2 : List (List ℝ)} {F2 : List ℝ → FitVal} {P2 : List ℝ → ℝ}
    (h2 : FitGridSetup env f st rnd g2 vss2 F2 P2) :
    (fitGrid env f rnd g2 (fitGrid env f rnd g st).1).2 = (fitGrid env f rnd g2 st).2 := by
  obtain ⟨s, i, e⟩ := fitGrid_run hr h (inv_start hr)
  obtain ⟨_, -, e1⟩ := fitGrid_run hr h2 i
  obtain ⟨_, -, e2⟩ := fitGrid_run hr h2 (inv_start hr)
  rw [e, e1, e2]

/-! ### cases that meet the hypotheses -/

/-- An evaluation succeeds when the contents have been found, the statistic is a number and no
sigma is zero. -/
theorem funct_total {fl : List (ℕ × List PyStr)} {args : List ℚ} {shape : List ℕ}
    (hf : f.floating = some fl) (hl : args.length = f.pars.length) (hn : f.pars.Nodup)
    (hb : f.statPerBin = false) (hp : f.perBin = false)
    (hs : ∀ p ∈ f.pars, (st.params p).sigma ≠ some 0)
    (hsh : (evaluatedContents env f args st).toOption.map
      (fun c => (c.1.shape, c.2.map NdArray.shape)) = some (shape, some shape)) :
    ∃ v, (funct env f args st).2 =
      .ok ((.total v, none), (List.zipWith (penaltyOf f.stat)
        (List.zipWith (fun p v => { st.params p with value := some v }) f.pars args) args).sum) := by
  unfold evaluatedContents at hsh
  rw [FitM.bind_ok (setValues_ok _ _ hl.le _), hf, Option.getD_some] at hsh
  rw [funct_some hf, FitM.bind_ok (setValues_ok _ _ hl.le _)]
  rcases hc : contents env f fl { st with params := withValues f.pars args st.params } with
    ⟨st1, c | c⟩
  · rw [hc] at hsh; cases hsh
  · rw [hc] at hsh
    obtain ⟨obs, exp⟩ := c
    simp only [Except.toOption, Option.map_some, Option.some.injEq, Prod.mk.injEq] at hsh
    obtain ⟨h1, h2⟩ := hsh
    cases exp with
    | none => cases h2
    | some exp =>
      simp only [Option.map_some, Option.some.injEq] at h2
      have hk := keepsParams_contents env f fl
        { st with params := withValues f.pars args st.params }
      rw [hc] at hk
      dsimp only at hk
      rw [FitM.bind_ok hc, FitM.read_bind, FitM.read_bind, hk, withValues_map hn hl]
      have hF : List.Forall₂ (fun (p : Param) (v : ℚ) => p.value = some v ∧ p.sigma ≠ some 0)
          (List.zipWith (fun p v => { st.params p with value := some v }) f.pars args) args := by
        clear * - hs hl
        generalize f.pars = ps at hs hl
        induction ps generalizing args with
        | nil => cases args with
          | nil => exact .nil
          | cons _ _ => simp at hl
        | cons p ps ih =>
          cases args with
          | nil => simp at hl
          | cons v args =>
            rw [List.zipWith_cons_cons]
            exact .cons ⟨rfl, hs _ List.mem_cons_self⟩
              (ih (fun q hq => hs q (List.mem_cons_of_mem _ hq)) (by simpa using hl))
      obtain ⟨r, hr⟩ := evaluate_total (f := f) (shape := (st1.view f.data).data.shape) hb hp
        (h1.trans h2.symm) hF
      rw [hr]
      exact ⟨r, rfl⟩

/-- An error in finding the contents is the error of the evaluation. -/
theorem funct_error {fl : List (ℕ × List PyStr)} {args : List ℚ} {s : FitState} {er : PyErr}
    (hf : f.floating = some fl) (hl : args.length = f.pars.length)
    (h : expectedList (evaluatedContents env f args s) = .error er) :
    ∃ s2, funct env f args s = (s2, .error er) := by
  unfold evaluatedContents at h
  rw [FitM.bind_ok (setValues_ok _ _ hl.le _), hf, Option.getD_some] at h
  rw [funct_some hf, FitM.bind_ok (setValues_ok _ _ hl.le _)]
  rcases hc : contents env f fl { s with params := withValues f.pars args s.params } with
    ⟨s2, c | c⟩
  · rw [hc] at h
    cases h
    exact ⟨s2, by rw [FitM.bind_error hc]⟩
  · rw [hc] at h; cases h

namespace Ex

/-- Conversion of parameter values, for integers. -/
noncomputable def toInt (x : ℝ) : ℚ := (⌊x⌋ : ℚ)

/-- A parameter with the given values. -/
def gridPar (name : PyStr) (sigma : Option ℝ) (vs : List ℝ) : FitPar :=
  { name, prior := 10, sigma, low := 0, high := 20, bins := vs.length, values := some vs }

/-- A grid search over the parameters of `fitGlobal`: the values `vs` of the first rate, one value
for the others. -/
def fitSearch (vs : List ℝ) : GridSearch :=
  GridSearch.new [gridPar (lit "shift") none [20], gridPar (lit "rate") (some 2) vs,
    gridPar (lit "rate") none [7]] [4] (some (lit "fit")) false

end Ex

theorem ex_combination {vs w : List ℝ} (h : Combination [[20], vs, [7]] w) :
    ∃ x ∈ vs, w = [20, x, 7] := by
  obtain ⟨a, _, ha, h1, rfl⟩ := List.forall₂_cons_right_iff.1 h
  obtain ⟨x, _, hx, h2, rfl⟩ := List.forall₂_cons_right_iff.1 h1
  obtain ⟨b, _, hb, h3, rfl⟩ := List.forall₂_cons_right_iff.1 h2
  cases h3
  simp only [List.mem_singleton] at ha hb
  subst ha hb
  exact ⟨x, hx, rfl⟩

theorem ex_search {vs : List ℝ} (hne : vs ≠ [])
    (hv : ∀ x ∈ vs, Ex.toInt x ≠ 0 ∧ (evaluatedContents Ex.fitEnv Ex.fitGlobal [20, Ex.toInt x, 7]
      Ex.fitState).toOption.map (fun c => (c.1.shape, c.2.map NdArray.shape)) =
        some ([4], some [4])) :
    ∃ F P, FitGridSetup Ex.fitEnv Ex.fitGlobal Ex.fitState Ex.toInt (Ex.fitSearch vs)
      [[20], vs, [7]] F P := by
  have hi : ∀ x, [20, x, 7].map Ex.toInt = [20, Ex.toInt x, 7] := by
    intro x; simp [Ex.toInt]
  have key : ∀ w, ∃ v p, Combination [[20], vs, [7]] w →
      (funct Ex.fitEnv Ex.fitGlobal (w.map Ex.toInt) Ex.fitState).2 = .ok ((.total v, none), p) := by
    intro w
    by_cases hw : Combination [[20], vs, [7]] w
    · obtain ⟨x, hx, rfl⟩ := ex_combination hw
      rw [hi]
      obtain ⟨v, e⟩ := funct_total (env := Ex.fitEnv) (f := Ex.fitGlobal) (st := Ex.fitState)
        (args := [20, Ex.toInt x, 7]) rfl rfl (by decide) rfl rfl
        (by
          intro p hp
          have : p = 2 ∨ p = 0 ∨ p = 1 := by simpa [Ex.fitGlobal] using hp
          rcases this with rfl | rfl | rfl <;> simp [Ex.fitState, Ex.fitParam])
        (hv x hx).2
      exact ⟨v, _, fun _ => e⟩
    · exact ⟨0, 0, fun h => absurd h hw⟩
  choose v p key using key
  refine ⟨fun w => .scalar (v w), p, ?_⟩
  exact {
    values := .cons rfl (.cons rfl (.cons rfl .nil))
    counts := .cons ⟨rfl, by simp⟩ (.cons ⟨rfl, hne⟩ (.cons ⟨rfl, by simp⟩ .nil))
    number := rfl
    returns := fun w hw => ⟨_, key w hw, rfl, rfl⟩
    rates := by
      intro w hw
      obtain ⟨x, hx, rfl⟩ := ex_combination hw
      rw [hi]
      exact (ex_nonzero _ _ _ (hv x hx).1 (by norm_num)).2
    sigmas := by
      intro q hq
      have : q = Ex.gridPar (lit "shift") none [20] ∨ q = Ex.gridPar (lit "rate") (some 2) vs ∨
          q = Ex.gridPar (lit "rate") none [7] := by
        simpa [Ex.fitSearch, GridSearch.new] using hq
      rcases this with rfl | rfl | rfl <;> simp [Ex.gridPar]
    nonempty := Or.inr (by simp [Ex.fitSearch, GridSearch.new]) }

theorem ex_shapes :
    (evaluatedContents Ex.fitEnv Ex.fitGlobal [20, 5, 7] Ex.fitState).toOption.map
      (fun c => (c.1.shape, c.2.map NdArray.shape)) = some ([4], some [4]) ∧
    (evaluatedContents Ex.fitEnv Ex.fitGlobal [20, 3, 7] Ex.fitState).toOption.map
      (fun c => (c.1.shape, c.2.map NdArray.shape)) = some ([4], some [4]) ∧
    (evaluatedContents Ex.fitEnv Ex.fitGlobal [20, 0, 7] Ex.fitState).toOption.map
      (fun c => (c.1.shape, c.2.map NdArray.shape)) = some ([4], some [4]) := by
  decide +kernel

theorem ex_setup : ∃ F P, FitGridSetup Ex.fitEnv Ex.fitGlobal Ex.fitState Ex.toInt
    (Ex.fitSearch [5, 3]) [[20], [5, 3], [7]] F P := by
  refine ex_search (by simp) ?_
  intro x hx
  have : x = 5 ∨ x = 3 := by simpa using hx
  rcases this with rfl | rfl
  · rw [show Ex.toInt 5 = 5 by simp [Ex.toInt]]
    exact ⟨by norm_num, ex_shapes.1⟩
  · rw [show Ex.toInt 3 = 3 by simp [Ex.toInt]]
    exact ⟨by norm_num, ex_shapes.2.1⟩

example : FitReady Ex.fitEnv Ex.fitGlobal Ex.fitState ∧ (Ex.fitSearch [5, 3]).Ready ∧
    (∃ F P, FitGridSetup Ex.fitEnv Ex.fitGlobal Ex.fitState Ex.toInt (Ex.fitSearch [5, 3])
      [[20], [5, 3], [7]] F P) ∧ ∀ vs ∈ ([[20], [5, 3], [7]] : List (List ℝ)), vs.Nodup := by
  refine ⟨ex_ready, ⟨rfl, rfl⟩, ex_setup, ?_⟩
  intro vs h
  simp at h
  rcases h with rfl | rfl | rfl <;> norm_num

/-! ### fits that return -/

/-- A grid search that can be filled was given a function that returns at every point. -/
theorem fillGrid_returns {fn : List ℝ → Except PyErr (FitVal × ℝ)} {pts : List (List ℝ × List ℕ)}
    {g g' : GridSearch} (h : g.fillGrid fn pts = .ok g') : ∀ pt ∈ pts, ∃ r, fn pt.1 = .ok r := by
  induction pts generalizing g with
  | nil => simp
  | cons pt pts ih =>
    unfold GridSearch.fillGrid at h
    cases hp : g.fillPoint fn pt with
    | error e => rw [hp] at h; cases h
    | ok g1 =>
      rw [hp] at h
      intro q hq
      rcases List.mem_cons.1 hq with rfl | hq
      · unfold GridSearch.fillPoint at hp
        cases hf : fn q.1 with
        | error e => rw [hf] at hp; cases hp
        | ok r => exact ⟨r, rfl⟩
      · exact ih h q hq

theorem FitSearch.run (hr : FitReady env f st) (h : FitSearch env f st rnd g vss)
    {s : FitState} (hs : Inv env f st (fun _ => False) s) :
    ∃ s', Inv env f st (fun _ => False) s' ∧
      fitGrid env f rnd g s = (s', g.minimise (freshValue env f rnd st) f.stat) := by
  refine fitGrid_keeps h.values (fun pts hpts pt hpt s hs => ?_) hs
  obtain ⟨l, hl, hval, -⟩ := gridPoints_ok h.values
  rw [hpts] at hl
  cases hl
  have hc := (hval pt hpt).comb
  refine functAt_keeps hr h.floating ?_ (h.rates _ hc) hs
  unfold FullArgs
  rw [List.length_map, ← h.number]
  exact hc.length_eq

/-- Evaluations that return make a set-up. -/
theorem FitSearch.setup (h : FitSearch env f st rnd g vss)
    (he : ∀ w, Combination vss w → ∃ r, (funct env f (w.map rnd) st).2 = .ok r) :
    ∃ F P, FitGridSetup env f st rnd g vss F P := by
  have key : ∀ w, ∃ r : (StatValue × Option (List ℕ)) × ℝ, Combination vss w →
      (funct env f (w.map rnd) st).2 = .ok r := by
    intro w
    by_cases hw : Combination vss w
    · obtain ⟨r, hr⟩ := he w hw
      exact ⟨r, fun _ => hr⟩
    · exact ⟨((.total 0, none), 0), fun h => absurd h hw⟩
  choose r hr using key
  exact ⟨fun w => toFitVal (r w).1, fun w => (r w).2,
    { values := h.values, counts := h.counts, number := h.number
      returns := fun w hw => ⟨(r w).1, hr w hw, rfl, h.form w (r w) hw (hr w hw)⟩
      rates := h.rates, sigmas := h.sigmas, nonempty := h.nonempty }⟩

/-- **C93, fits that return.** After any sequence of evaluations, a fit by grid search returns
exactly if the fresh fit can be evaluated at every combination of the values. (Partial: the
suppositions of C62.) -/
theorem c93_returns_partial (hr : FitReady env f st) (hist : List (List ℚ))
    (hh : ∀ a ∈ hist, FullArgs f a ∧ NonzeroRates f st a) (hg : g.Ready)
    (h : FitSearch env f st rnd g vss) (hn : ∀ vs ∈ vss, vs.Nodup) :
    (∃ res, (fitGrid env f rnd g (afterEvaluations env f hist st)).2 = .ok res) ↔
      ∀ w, Combination vss w → ∃ r, (funct env f (w.map rnd) st).2 = .ok r := by
  constructor
  · rintro ⟨res, hres⟩ w hw
    obtain ⟨_, -, e⟩ := h.run hr (inv_after hr hh)
    rw [e, minimise_eq] at hres
    obtain ⟨l, hl, -, hmem, -⟩ := c42_every_combination h.values hn
    rw [hl] at hres
    simp only [okBind] at hres
    cases hfg : g.fillGrid (freshValue env f rnd st) l with
    | error er => rw [hfg] at hres; cases hres
    | ok g' =>
      obtain ⟨pt, hpt, rfl⟩ := List.mem_map.1 ((hmem w).2 hw)
      obtain ⟨r, hr'⟩ := fillGrid_returns hfg pt hpt
      unfold freshValue at hr'
      cases hx : (funct env f (pt.1.map rnd) st).2 with
      | error er => rw [hx] at hr'; cases hr'
      | ok r => exact ⟨r, rfl⟩
  · intro he
    obtain ⟨F, P, hs⟩ := h.setup he
    obtain ⟨g', raw, pen, -, -, h1, -⟩ := c93_best_fit_partial hr hist hh hg hs hn
    exact ⟨_, h1⟩

/-- **C93, best fit of a fit that returns.** The best fit that is reported is a combination of
parameter values at which statistic plus penalty of the fresh fit are smallest, and the first such
combination; statistic and penalty reported are those of the fresh fit there. -/
theorem c93_returned_partial (hr : FitReady env f st) (hist : List (List ℚ))
    (hh : ∀ a ∈ hist, FullArgs f a ∧ NonzeroRates f st a) (hg : g.Ready)
    (h : FitSearch env f st rnd g vss) (hn : ∀ vs ∈ vss, vs.Nodup)
    {g' : GridSearch} {raw pen : NdArray ℝ}
    (hok : (fitGrid env f rnd g (afterEvaluations env f hist st)).2 = .ok (g', raw, pen)) :
    ∃ idx w s p, ValuesAt vss idx w ∧ g'.pars.map FitPar.bestFit = w.map some ∧
      (funct env f (w.map rnd) st).2 = .ok (s, p) ∧ raw.Eqv (toFitVal s).cells ∧
      pen.shape = [] ∧ pen.get [] = p ∧
      ∀ idx' w', ValuesAt vss idx' w' → ∃ s' p', (funct env f (w'.map rnd) st).2 = .ok (s', p') ∧
        (toFitVal s).cells.sum + p ≤ (toFitVal s').cells.sum + p' ∧
        ((toFitVal s').cells.sum + p' = (toFitVal s).cells.sum + p → idx ≤ idx') := by
  obtain ⟨F, P, hs⟩ := h.setup ((c93_returns_partial hr hist hh hg h hn).1 ⟨_, hok⟩)
  obtain ⟨g1, raw1, pen1, idx, w, h1, h2, h3, h4, h5, h6, h7⟩ :=
    c93_best_fit_partial hr hist hh hg hs hn
  rw [hok] at h1
  cases h1
  obtain ⟨s, e1, e2, -⟩ := hs.returns w h2.comb
  refine ⟨idx, w, s, P w, h2, h3, e1, e2 ▸ h4, h5, h6, fun idx' w' hw' => ?_⟩
  obtain ⟨s', e1', e2', -⟩ := hs.returns w' hw'.comb
  have := h7 idx' w' hw'
  unfold objective at this
  rw [e2, e2'] at this
  exact ⟨s', P w', e1', this⟩

/-- A total is what a search for totals expects. -/
theorem form_total (hg : g.perBin = false) (hb : f.statPerBin = false) (hp : f.perBin = false)
    {args : List ℚ} {r : (StatValue × Option (List ℕ)) × ℝ}
    (h : (funct env f args st).2 = .ok r) : g.Fits (toFitVal r.1) := by
  have inv : ∀ {α β : Type} (m : FitM α) (k : α → FitM β) (s : FitState) (b : β),
      ((m >>= k) s).2 = .ok b → ∃ s1 a, (k a s1).2 = .ok b := by
    intro α β m k s b hb
    rw [FitM.bind_run] at hb
    rcases hm : m s with ⟨s1, e | a⟩ <;> rw [hm] at hb
    · cases hb
    · exact ⟨s1, a, hb⟩
  cases hfl : f.floating with
  | none => rw [funct_none hfl] at h; cases h
  | some fl =>
    rw [funct_some hfl] at h
    obtain ⟨_, _, h⟩ := inv _ _ _ _ h
    obtain ⟨_, c, h⟩ := inv _ _ _ _ h
    obtain ⟨_, ps, h⟩ := inv _ _ _ _ h
    obtain ⟨_, d, h⟩ := inv _ _ _ _ h
    have h : evaluate f ps d.data.shape c = .ok r := h
    unfold evaluate at h
    cases hc : c.2 with
    | none => rw [hc] at h; cases h
    | some e =>
      rw [hc] at h
      dsimp only at h
      cases ho : f.stat.computeStatistic f.statPerBin (flatten f.singleBin c.1)
          (flatten f.singleBin e) with
      | error er => rw [ho] at h; cases h
      | ok out =>
        rw [ho, hp] at h
        cases ht : totalPenalty f.stat ps with
        | error er => rw [ht] at h; cases h
        | ok p =>
          rw [ht] at h
          cases h
          unfold Stat.computeStatistic at ho
          rw [hb] at ho
          split at ho
          · cases ho
          split at ho
          · cases ho
          split at ho
          · cases ho
          cases ho
          exact hg

theorem ex_fitSearch : FitSearch Ex.fitEnv Ex.fitGlobal Ex.fitState Ex.toInt
    (Ex.fitSearch [5, 3]) [[20], [5, 3], [7]] := by
  obtain ⟨F, P, h⟩ := ex_setup
  exact { values := h.values, counts := h.counts, number := h.number, rates := h.rates
          sigmas := h.sigmas, nonempty := h.nonempty, floating := h.floating
          form := fun w r _ hr => form_total rfl rfl rfl hr }

/-- The fit of the example above returns. -/
example : ∃ res, (fitGrid Ex.fitEnv Ex.fitGlobal Ex.toInt (Ex.fitSearch [5, 3])
    (afterEvaluations Ex.fitEnv Ex.fitGlobal [] Ex.fitState)).2 = .ok res := by
  obtain ⟨F, P, h⟩ := ex_setup
  refine (c93_returns_partial ex_ready [] (by simp) ⟨rfl, rfl⟩ ex_fitSearch ?_).2
    fun w hw => ⟨_, (h.returns w hw).choose_spec.1⟩
  intro vs h
  simp at h
  rcases h with rfl | rfl | rfl <;> norm_num

/-! ### where it fails -/

/-- **C93, zero rates.** With a rate of zero among the values the search is aborted at the next
value, although the fit can be evaluated at each of them. -/
theorem c93_zero_negation :
    (∀ w, Combination [[20], [0, 5], [7]] w → ∃ r,
      (funct Ex.fitEnv Ex.fitGlobal (w.map Ex.toInt) Ex.fitState).2 = .ok r) ∧
    (fitGrid Ex.fitEnv Ex.fitGlobal Ex.toInt (Ex.fitSearch [0, 5]) Ex.fitState).2 =
      .error .zeroDivision := by
  have hi : ∀ x, [20, x, 7].map Ex.toInt = [20, Ex.toInt x, 7] := by
    intro x; simp [Ex.toInt]
  have h0 : Ex.toInt 0 = 0 := by simp [Ex.toInt]
  have h5 : Ex.toInt 5 = 5 := by simp [Ex.toInt]
  have hval : ∀ x, (evaluatedContents Ex.fitEnv Ex.fitGlobal [20, x, 7] Ex.fitState).toOption.map
      (fun c => (c.1.shape, c.2.map NdArray.shape)) = some ([4], some [4]) →
      ∃ v p, (funct Ex.fitEnv Ex.fitGlobal [20, x, 7] Ex.fitState).2 =
        .ok ((.total v, none), p) := by
    intro x hx
    obtain ⟨v, e⟩ := funct_total (env := Ex.fitEnv) (f := Ex.fitGlobal) (st := Ex.fitState)
      (args := [20, x, 7]) rfl rfl (by decide) rfl rfl
      (by
        intro p hp
        have : p = 2 ∨ p = 0 ∨ p = 1 := by simpa [Ex.fitGlobal] using hp
        rcases this with rfl | rfl | rfl <;> simp [Ex.fitState, Ex.fitParam]) hx
    exact ⟨v, _, e⟩
  refine ⟨?_, ?_⟩
  · intro w hw
    obtain ⟨x, hx, rfl⟩ := ex_combination hw
    rw [hi]
    have : x = 0 ∨ x = 5 := by simpa using hx
    rcases this with rfl | rfl
    · rw [h0]
      obtain ⟨v, p, e⟩ := hval 0 ex_shapes.2.2
      exact ⟨_, e⟩
    · rw [h5]
      obtain ⟨v, p, e⟩ := hval 5 ex_shapes.1
      exact ⟨_, e⟩
  have hpts : GridSearch.gridPoints (Ex.fitSearch [0, 5]).pars =
      .ok [([20, 0, 7], [0, 0, 0]), ([20, 5, 7], [0, 1, 0])] := by
    have h05 : ¬ (0 : ℝ) = 5 := by norm_num
    simp [GridSearch.gridPoints, Ex.fitSearch, GridSearch.new, Ex.gridPar, FitPar.getValues,
      FitPar.getValueIndex, List.findIdx?_cons, h05, bind, Except.bind, pure, Except.pure]
  obtain ⟨v, p, e⟩ := hval 0 ex_shapes.2.2
  unfold fitGrid
  rw [FitM.bind_ok (show FitM.lift (GridSearch.gridPoints (Ex.fitSearch [0, 5]).pars) Ex.fitState =
    (Ex.fitState, .ok _) from congrArg (Prod.mk Ex.fitState) hpts)]
  rcases hx : funct Ex.fitEnv Ex.fitGlobal [20, 0, 7] Ex.fitState with ⟨s1, r⟩
  rw [hx] at e
  subst e
  have e1 : functAt Ex.fitEnv Ex.fitGlobal Ex.toInt [20, 0, 7] Ex.fitState =
      (s1, .ok (.scalar v, p)) := by
    unfold functAt
    rw [hi, h0, FitM.bind_ok hx]
    rfl
  have e2 : ((Ex.fitSearch [0, 5]).fillPoint (fun _ => .ok (.scalar v, p))
      ([20, 0, 7], [0, 0, 0])) = .ok ((Ex.fitSearch [0, 5]).written (.scalar v) p [0, 0, 0]) :=
    fillPoint_ok ⟨rfl, rfl⟩ rfl rfl (by
      simp [Ex.fitSearch, GridSearch.fitShape, GridSearch.new, Ex.gridPar])
  have hz := c62_zero_negation.2
  have hs1 : afterEvaluations Ex.fitEnv Ex.fitGlobal [[20, 0, 7]] Ex.fitState = s1 := by
    unfold afterEvaluations afterEvaluations
    rw [hx]
  rw [hs1] at hz
  have e3 : ∃ s2, functAt Ex.fitEnv Ex.fitGlobal Ex.toInt [20, 5, 7] s1 =
      (s2, .error .zeroDivision) := by
    unfold functAt
    rw [hi, h5]
    obtain ⟨s2, e⟩ := funct_error (f := Ex.fitGlobal) (args := [20, 5, 7]) (s := s1) rfl rfl hz
    exact ⟨s2, by rw [FitM.bind_error e]⟩
  obtain ⟨s2, e3⟩ := e3
  have : (fillGridM (functAt Ex.fitEnv Ex.fitGlobal Ex.toInt) (Ex.fitSearch [0, 5])
      [([20, 0, 7], [0, 0, 0]), ([20, 5, 7], [0, 1, 0])] Ex.fitState) =
      (s2, .error .zeroDivision) := by
    unfold fillGridM
    rw [FitM.bind_ok e1, FitM.bind_ok (show FitM.lift _ s1 = (s1, .ok _) from
      congrArg (Prod.mk s1) e2)]
    unfold fillGridM
    rw [FitM.bind_error e3]
  rw [FitM.bind_error this]

end Verif
