import Verif.Spec.Looser
import Verif.Lemmas.Reach
import Verif.Props.SensitivityLimit

/-! # C175: weaker constraints and finer grids never give stronger expected limits -/

namespace Verif

open Session

variable {env : FitEnv} {keyOf : ℕ → PyStr} {a : FitArgs} {ts : List Spectrum} {r d : ℕ}
  {st : FitState} {rnd : ℝ → ℚ} {rateOf : ℕ → Option ℕ} {par : ℕ → ℕ} {vss wss : List (List ℝ)}
  {params : ℕ → Param}

theorem Finer.comb (h : Finer vss wss) {u : List ℝ} (hu : Combination vss u) : Combination wss u := by
  unfold Combination at hu ⊢
  induction h generalizing u with
  | nil => exact hu
  | cons h _ ih =>
    obtain ⟨x, v, hx, hv, rfl⟩ := List.forall₂_cons_right_iff.1 hu
    exact .cons (h x hx) (ih hv)

theorem pull_looser (s : Stat) {x m σ σ' : ℝ} (h : 0 < σ) (hle : σ ≤ σ') : pull s x m σ' ≤ pull s x m σ := by
  unfold pull
  refine mul_le_mul_of_nonneg_left ?_ (by split <;> norm_num)
  rw [div_pow, div_pow]
  exact div_le_div_of_nonneg_left (sq_nonneg _) (by positivity) (by gcongr)

theorem penaltyAt_looser (h : ∀ p, (st.params p).Looser (params p)) (u : List ℝ) :
    a.penaltyAt { st with params := params } u ≤ a.penaltyAt st u := by
  unfold FitArgs.penaltyAt
  rw [show a.parameters { st with params := params } = a.parameters st from rfl]
  generalize a.parameters st = ps
  induction ps generalizing u with
  | nil => simp
  | cons p ps ih =>
    cases u with
    | nil => simp
    | cons x u =>
      simp only [List.zipWith_cons_cons, List.sum_cons]
      refine add_le_add ?_ (ih u)
      obtain ⟨h1, h2⟩ := h p
      rcases h2 with h2 | ⟨s, s', e, e', h0, hle⟩
      · rw [h2]
        cases (st.params p).sigma with
        | none => exact le_rfl
        | some s => exact mul_nonneg (by split <;> norm_num) (sq_nonneg _)
      · rw [e, e', h1]
        exact pull_looser _ h0 hle

/-- **C175.** The expected limit is set twice, by sensitivity study and limit: with the grid of rates `vss`, and,
in a second program, with a grid `wss` that has all values of the first and perhaps more, and with priors
that are the same but have sigmas that are not smaller, or none. The data hold nothing in the region; the
priors are values of the grid; the expected background is at or above the threshold; the statistic is not the extended
likelihood. Then a limit of the second program is never smaller: if it finds one, the first program finds one
that is not larger; and if the first fails with `LimitError`, so does the second. (Partial: as C152.) -/
theorem c175_looser_partial (h : a.LimitOn r d ts st) (h' : a.LimitOn r d ts { st with params := params })
    (he : (a.withSignal r).Evaluable env keyOf d st)
    (he' : (a.withSignal r).Evaluable env keyOf d { st with params := params }) (ho : a.OwnRates st)
    (ho' : a.OwnRates { st with params := params }) (hfx : a.fixed ≠ [])
    (hrate : ∀ q ∈ a.floating, (st.objs q).fit = some [par q] ∧ rateOf q = some (par q))
    {ns : List PyStr} (hns : RoiNames (st.view d).cfg (inOrder a.roi) ns) {c : ℕ → NdArray ℚ}
    (hc : ∀ q ∈ (a.withSignal r).kept ++ a.fixed.map Prod.fst,
      RegionContents (inOrder a.roi) ns (st.view q) (c q)) {search search' : GridSearch}
    (hsearch : RateSearch rnd search vss a.floating.length)
    (hsearch' : RateSearch rnd search' wss a.floating.length)
    (hsame : List.Forall₂ (fun p (q : FitPar) => q.prior = (st.params p).prior ∧
      q.sigma = (st.params p).sigma) (a.parameters st) search.pars)
    (hsame' : List.Forall₂ (fun p (q : FitPar) => q.prior = (params p).prior ∧
      q.sigma = (params p).sigma) (a.parameters st) search'.pars)
    (hex : ∀ vs ∈ vss, ∀ x ∈ vs, ((rnd x : ℚ) : ℝ) = x) (hex' : ∀ vs ∈ wss, ∀ x ∈ vs, ((rnd x : ℚ) : ℝ) = x)
    (hstat : a.stat ≠ .extLL) (hblank : ∀ idx, InB (c d).shape idx → (c d).get idx = 0)
    (hprior : Combination vss (a.floating.map (fun q => (st.params (par q)).prior)))
    (hcount : ∀ v ∈ comparedContents a.singleBin (a.backgroundAt st c (c d).shape
      (a.floating.map (fun q => rnd (st.params (par q)).prior))), zeroThreshold ≤ v)
    (hfiner : Finer vss wss) (hloose : ∀ p, (st.params p).Looser (params p)) :
    ∃ ses st₁ u₁ w ses' st₂ u₂ w', init keyOf a st = (st₁, .ok ses) ∧
      init keyOf a { st with params := params } = (st₂, .ok ses') ∧
      ses.study rnd rateOf st₁ = ((ses, u₁), .ok ()) ∧ ses'.study rnd rateOf st₂ = ((ses', u₂), .ok ()) ∧
      Fitter.limitInit ⟨ses, u₁, search⟩ r true = (w, .ok ()) ∧
      Fitter.limitInit ⟨ses', u₂, search'⟩ r true = (w', .ok ()) ∧
      ∀ (calls calls' : List LimitCall) (scales : List ℝ), Testable rnd (allScales calls ++ scales) →
      Testable rnd (allScales calls' ++ scales) → 0 ∈ scales → (∀ x ∈ scales, 0 ≤ x) →
      scales.Pairwise (· < ·) → ∀ (sigmas : List (Option ℝ)), (∀ s ∈ sigmas, s ≠ none) → ∀ (limit : ℝ),
      (∀ x', ((w'.afterCalls env rnd r calls').limitOf env rnd r scales sigmas none limit).2 = .ok x' →
        ∃ x ≤ x', ((w.afterCalls env rnd r calls).limitOf env rnd r scales sigmas none limit).2 = .ok x) ∧
      (((w.afterCalls env rnd r calls).limitOf env rnd r scales sigmas none limit).2 =
          .error .limitError →
        ((w'.afterCalls env rnd r calls').limitOf env rnd r scales sigmas none limit).2 =
          .error .limitError) := by
  classical
  have hreg := inOrder_isDict h.given.region
  have hdm : d ∈ (a.withSignal r).kept ++ a.fixed.map Prod.fst := by simp [FitArgs.kept, h.data]
  have hrm : r ∈ (a.withSignal r).kept ++ a.fixed.map Prod.fst := by simp [FitArgs.kept]
  have hshape : (c r).shape = (c d).shape :=
    same_shape hreg (h.given.able d hdm) (h.given.able r hrm) (h.axes r hrm) (hc d hdm) (hc r hrm)
  set B : List ℝ → List ℝ := fun u => comparedContents a.singleBin
    (a.backgroundAt st c (c d).shape (u.map rnd)) with hB
  set S := comparedContents a.singleBin (c r) with hS
  have hpr : (fun q => (params (par q)).prior) = fun q => (st.params (par q)).prior :=
    funext fun q => (hloose (par q)).1
  have hcount' : ∀ v ∈ B (a.floating.map (fun q => (st.params (par q)).prior)), zeroThreshold ≤ v := by
    intro v hv
    rw [hB] at hv
    simp only [List.map_map] at hv
    exact hcount v hv
  have hl : ∀ u v, (B u).length = (B v).length := fun u v =>
    compared_length _ (a := a.backgroundAt st c (c d).shape (v.map rnd))
      (b := a.backgroundAt st c (c d).shape (u.map rnd)) rfl
  have hl2 : ∀ u, (B u).length = S.length := fun u =>
    (compared_length _ (a := a.backgroundAt st c (c d).shape (u.map rnd)) (b := c r) hshape).symm
  obtain ⟨ses, st₁, u₁, w, i1, i2, i3, i4⟩ := c152_expected_partial (env := env) (keyOf := keyOf) (rnd := rnd)
    (rateOf := rateOf) (par := par) h he ho hfx hrate hns hc hsearch hsame hex hstat hblank hprior
    (B := B) (fun _ => rfl) rfl hcount'
  obtain ⟨ses', st₂, u₂, w', j1, j2, j3, j4⟩ := c152_expected_partial (env := env) (keyOf := keyOf)
    (rnd := rnd) (rateOf := rateOf) (par := par) (st := { st with params := params }) h' he' ho' hfx hrate hns
    hc hsearch' hsame' hex' hstat hblank
    (show Combination wss (a.floating.map (fun q => (params (par q)).prior)) by
      rw [hpr]; exact hfiner.comb hprior) (B := B) (fun _ => rfl) (by rw [hpr]) hcount'
  refine ⟨ses, st₁, u₁, w, ses', st₂, u₂, w', i1, j1, i2, j2, i3, j3, ?_⟩
  intro calls calls' scales ht ht' h0 hpos hinc sigmas hsg limit
  set o := B (a.floating.map (fun q => (st.params (par q)).prior)) with hob
  set G : ℝ → List ℝ → ℝ := fun x u => if npCloseReal x 0 then a.stat.sumBins o (B u) else
    a.stat.sumBins o (expectedAt (B u) S ((rnd x : ℝ) / ((st.view r).numDecays : ℝ))) with hG
  have total : ∀ x u, (npCloseReal x 0 → a.stat.Total o (B u) (G x u)) ∧ (¬ npCloseReal x 0 →
      a.stat.Total o (expectedAt (B u) S ((rnd x : ℝ) / ((st.view r).numDecays : ℝ))) (G x u)) := fun x u =>
    ⟨fun hcl => (total_iff _ (hl _ u) _).2 (if_pos hcl), fun hcl => (total_iff _ (by
      simp only [expectedAt, List.length_zipWith, ← hl2 u, Nat.min_self]
      exact hl _ u) _).2 (if_neg hcl)⟩
  obtain ⟨M, m1, -, m3, m4⟩ := i4 calls scales ht h0 hpos hinc G (fun x _ u _ => total x u) sigmas hsg limit
  obtain ⟨M', n1, -, n3, n4⟩ := j4 calls' scales ht' h0 hpos hinc G (fun x _ u _ => total x u) sigmas hsg limit
  have hle : ∀ x ∈ scales, M' x ≤ M x := by
    intro x hx
    obtain ⟨⟨u, hu, hMu⟩, -⟩ := m1 x hx
    have k1 := (n1 x hx).2 u (hfiner.comb hu)
    have k2 := penaltyAt_looser (a := a) hloose u
    dsimp only at k1 hMu
    linarith
  refine ⟨fun x' hx' => ?_, fun herr => ?_⟩
  · obtain ⟨g1, g2, -⟩ := (n3 x').1 hx'
    obtain ⟨x, c1, c2, c3, c4⟩ := firstCrossing_exists (scales := scales) (F := M) (b := 0) (limit := limit)
      ⟨x', g1, hpos x' g1, g2.trans_le (hle x' g1)⟩
    refine ⟨x, not_lt.1 fun hlt => ?_, (m3 x).2 ⟨c1, c3, fun y hy hyx => c4 y hy (hpos y hy) hyx⟩⟩
    exact absurd (g2.trans_le (hle x' g1)) (not_lt.2 (c4 x' g1 (hpos x' g1) hlt))
  · exact n4.2 fun y hy => (hle y hy).trans (m4.1 herr y hy)

namespace Ex

/-- The sigma of the first rate is 4 instead of 2. -/
noncomputable def looseParam (p : ℕ) : Param :=
  if p = 0 then { expectedState.params 0 with sigma := some 4 } else expectedState.params p

/-- The first rate has another value. -/
def looseSearch : GridSearch :=
  GridSearch.new [gridPar (lit "rate") (some 4) [6, 8, 10], gridPar (lit "rate") none [7, 10]] [4]
    (some (lit "fit")) false

/-- The value lists of the search. -/
def looseValues : List (List ℝ) := [[6, 8, 10], [7, 10]]

end Ex

theorem loose_limitOn : (Ex.limitArgs [2, 3]).LimitOn 4 0
    [(((Ex.expectedState.view 1).shrink exFitKw).st.scale 20).st]
    { Ex.expectedState with params := Ex.looseParam } :=
  have h := ex_expectedOn
  { given :=
      { region := h.given.region
        some := h.given.some
        alloc := h.given.alloc
        own := h.given.own
        able := h.given.able
        fixed :=
          have k := h.given.fixed
          ⟨k.1, k.2, k.3, k.4, k.5, k.6, k.7⟩ }
    settings := ⟨h.settings.floating, h.settings.fixed, by simp [Ex.limitArgs], h.settings.perBin⟩
    signal := rfl
    data := rfl
    axes := h.axes
    fit := h.fit
    decays := h.decays
    region := h.region }

theorem loose_parameters {p : ℕ} (hp : p ∈ ([0, 1] : List ℕ)) :
    (Ex.looseParam p).kind = .rate ∧ (Ex.looseParam p).sigma ≠ some 0 := by
  have : p = 0 ∨ p = 1 := by simpa using hp
  rcases this with rfl | rfl
  · refine ⟨rfl, fun h => ?_⟩
    have : (4 : ℝ) = 0 := Option.some.inj h
    norm_num at this
  · exact ⟨rfl, fun h => nomatch h⟩

theorem loose_evaluable : ((Ex.limitArgs [2, 3]).withSignal 4).Evaluable Ex.fitEnv Ex.keyOf 0
    { Ex.expectedState with params := Ex.looseParam } :=
  have h := ex_expectedEvaluable
  ⟨rfl, h.str, rfl, h.backgrounds, h.axes, h.dims, h.decays, h.names, h.pars, by simp [Ex.limitArgs],
    fun p hp => (loose_parameters (show p ∈ [0, 1] from hp)).1⟩

theorem loose_own : (Ex.limitArgs [2, 3]).OwnRates { Ex.expectedState with params := Ex.looseParam } where
  floating := by simp [Ex.limitArgs]
  config := rfl
  one := ex_expectedOwn.one
  sigmas := fun p hp => (loose_parameters (show p ∈ [0, 1] from hp)).2
  statPerBin := rfl
  perBin := rfl

theorem loose_values {vs : List ℝ} (hvs : vs ∈ Ex.looseValues) {x : ℝ} (hx : x ∈ vs) :
    x = 6 ∨ x = 7 ∨ x = 8 ∨ x = 10 := by
  have : vs = [6, 8, 10] ∨ vs = [7, 10] := by simpa [Ex.looseValues] using hvs
  rcases this with rfl | rfl
  · have : x = 6 ∨ x = 8 ∨ x = 10 := by simpa using hx
    tauto
  · have : x = 7 ∨ x = 10 := by simpa using hx
    tauto

theorem loose_exact : ∀ vs ∈ Ex.looseValues, ∀ x ∈ vs, ((Ex.toInt x : ℚ) : ℝ) = x := by
  intro vs hvs x hx
  rcases loose_values hvs hx with rfl | rfl | rfl | rfl <;> simp [Ex.toInt]

theorem loose_search : RateSearch Ex.toInt Ex.looseSearch Ex.looseValues
    (Ex.limitArgs [2, 3]).floating.length where
  ready := ⟨rfl, rfl⟩
  form := rfl
  values := .cons rfl (.cons rfl .nil)
  counts := .cons ⟨rfl, by simp⟩ (.cons ⟨rfl, by simp⟩ .nil)
  number := rfl
  nodup := by
    intro vs hvs
    have : vs = [6, 8, 10] ∨ vs = [7, 10] := by simpa [Ex.looseValues] using hvs
    rcases this with rfl | rfl <;> norm_num
  injective := by
    intro vs hvs x hx y hy he
    have := loose_exact vs hvs x hx
    rw [he, loose_exact vs hvs y hy] at this
    exact this.symm
  nonzero := by
    intro vs hvs x hx
    rcases loose_values hvs hx with rfl | rfl | rfl | rfl <;> simp [Ex.toInt]
  sigmas := by
    intro q hq
    have : q = Ex.gridPar (lit "rate") (some 4) [6, 8, 10] ∨
        q = Ex.gridPar (lit "rate") none [7, 10] := by
      simpa [Ex.looseSearch, GridSearch.new] using hq
    rcases this with rfl | rfl <;> simp [Ex.gridPar]

/-- With twice the sigma, and more values of the rate. -/
example : ∃ ses st₁ u₁ w ses' st₂ u₂ w', init Ex.keyOf (Ex.limitArgs [2, 3]) Ex.expectedState = (st₁, .ok ses) ∧
    init Ex.keyOf (Ex.limitArgs [2, 3]) { Ex.expectedState with params := Ex.looseParam } = (st₂, .ok ses') ∧
    ses.study Ex.toInt Ex.studyRate st₁ = ((ses, u₁), .ok ()) ∧
    ses'.study Ex.toInt Ex.studyRate st₂ = ((ses', u₂), .ok ()) ∧
    Fitter.limitInit ⟨ses, u₁, Ex.expectedSearch⟩ 4 true = (w, .ok ()) ∧
    Fitter.limitInit ⟨ses', u₂, Ex.looseSearch⟩ 4 true = (w', .ok ()) ∧
    ∀ x', (w'.limitOf Ex.fitEnv Ex.toInt 4 [0, 4, 10, 20] [] none 2).2 = .ok x' →
      ∃ x ≤ x', (w.limitOf Ex.fitEnv Ex.toInt 4 [0, 4, 10, 20] [] none 2).2 = .ok x := by
  obtain ⟨ses, st₁, u₁, w, ses', st₂, u₂, w', h1, h2, h3, h4, h5, h6, h7⟩ := c175_looser_partial
    (env := Ex.fitEnv) (keyOf := Ex.keyOf) (rnd := Ex.toInt) (par := fun q => q - 2) ex_expectedOn
    loose_limitOn ex_expectedEvaluable loose_evaluable ex_expectedOwn loose_own (by simp [Ex.limitArgs])
    ex_expectedRates ex_limitNames ex_expectedContents ex_expectedSearch loose_search
    (.cons ⟨rfl, rfl⟩ (.cons ⟨rfl, rfl⟩ .nil)) (.cons ⟨rfl, rfl⟩ (.cons ⟨rfl, rfl⟩ .nil)) ex_expectedExact
    loose_exact (by simp [Ex.limitArgs]) (fun _ _ => rfl)
    (by rw [ex_expectedPriors]; exact .cons (by simp) (.cons (by simp) .nil))
    (by
      rw [show (Ex.limitArgs [2, 3]).floating.map (fun q => Ex.toInt (Ex.expectedState.params (q - 2)).prior) =
        [10, 10] by simp [Ex.limitArgs, Ex.expectedState, Ex.limitState, Ex.fitState, Ex.fitParam, Ex.toInt],
        show (Ex.limitArgs [2, 3]).singleBin = false from rfl, ex_expectedBackground]
      intro v hv
      simp only [List.mem_cons, List.not_mem_nil, or_false] at hv
      rcases hv with rfl | rfl <;> norm_num [zeroThreshold])
    (.cons (by simp) (.cons (by simp) .nil))
    (fun p => by
      by_cases hp : p = 0
      · subst hp
        exact ⟨rfl, .inr ⟨2, 4, rfl, rfl, by norm_num, by norm_num⟩⟩
      · have e : Ex.looseParam p = Ex.expectedState.params p := if_neg hp
        rw [e]
        refine ⟨rfl, ?_⟩
        match p, hp with
        | 1, _ => exact .inl rfl
        | p + 2, _ => exact .inr ⟨2, 2, rfl, rfl, by norm_num, le_rfl⟩)
  exact ⟨ses, st₁, u₁, w, ses', st₂, u₂, w', h1, h2, h3, h4, h5, h6, (h7 [] [] [0, 4, 10, 20]
    (ex_plain.2 [] (.inl rfl)) (ex_plain.2 [] (.inl rfl)) (by simp) ex_plain.1.nonneg ex_plain.1.increasing []
    (by simp) 2).1⟩

end Verif
