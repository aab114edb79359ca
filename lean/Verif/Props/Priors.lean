import Verif.Spec.Priors
import Verif.Props.FitGrid
import Verif.Props.Closure

/-! # C134: priors and value lists of a fit -/

namespace Verif

variable {env : FitEnv} {f : Fit} {st : FitState} {rnd : ℝ → ℚ}

theorem withPriors_ready (hr : FitReady env f st) (pr : ℕ → ℝ) (sg : ℕ → Option ℝ) :
    FitReady env f (st.withPriors pr sg) where
  str := hr.str
  cache := hr.cache
  alloc := hr.alloc
  apart := hr.apart
  backgrounds := hr.backgrounds
  axes := hr.axes
  decays := hr.decays
  pars := hr.pars
  globals := hr.globals
  rates := hr.rates

/-- Two parameters that differ at most in prior and sigma. -/
def PriorsApart (p q : Param) : Prop :=
  p.kind = q.kind ∧ p.dimension = q.dimension ∧ p.value = q.value

theorem convP_apart {p q : Param} (h : PriorsApart p q) (s : Spectrum) : convP env p s = convP env q s := by
  unfold convP
  rw [h.1, h.2.1, h.2.2]

theorem rateP_apart {p q : Param} (h : PriorsApart p q) (s : Spectrum) : rateP p s = rateP q s := by
  unfold rateP
  rw [h.2.2]

theorem foldlM_params {P Q : ℕ → Param} (h : ∀ p, PriorsApart (P p) (Q p))
    {β : Type} (g : β → Param → Except PyErr β)
    (hg : ∀ p q : Param, PriorsApart p q → ∀ b, g b p = g b q) (ps : List ℕ) (b : β) :
    (ps.map P).foldlM g b = (ps.map Q).foldlM g b := by
  induction ps generalizing b with
  | nil => rfl
  | cons p ps ih =>
    rw [List.map_cons, List.map_cons, List.foldlM_cons, List.foldlM_cons, hg _ _ (h p)]
    congr 1
    funext c
    exact ih c

theorem contentsValue_apart {P Q : ℕ → Param} (h : ∀ p, PriorsApart (P p) (Q p))
    {fl : List (ℕ × List PyStr)} (pr : ℕ → ℝ) (sg : ℕ → Option ℝ) :
    contentsValue env f (st.withPriors pr sg) P fl = contentsValue env f st Q fl := by
  have hview : ∀ r, (st.withPriors pr sg).view r = st.view r := fun _ => rfl
  have hc : ∀ r, convFrom env f (st.withPriors pr sg) r P = convFrom env f st r Q := by
    intro r
    unfold convFrom convFold
    rw [hview]
    exact foldlM_params h (fun a p => convP env p (bif isBg f r then a else st.view r))
      (fun p q hpq b => convP_apart hpq _) _ _
  have hround : ∀ b e, roundValue env f (st.withPriors pr sg) P e b = roundValue env f st Q e b := by
    intro b e
    unfold roundValue bgValue
    rw [hc]
    have ho : ((st.withPriors pr sg).objs b.1).fit = (st.objs b.1).fit := rfl
    have hra : ∀ t, rateAll (((st.objs b.1).fit.getD []).map P) t =
        rateAll (((st.objs b.1).fit.getD []).map Q) t := by
      intro t
      unfold rateAll
      exact foldlM_params h (fun s p => rateP p s) (fun p q hpq b => rateP_apart hpq _) _ _
    simp only [ho, hra]
  have hf : (roundValue env f (st.withPriors pr sg) P) = roundValue env f st Q := by
    funext e b
    exact hround b e
  have hsig : ∀ e, signalValue env f (st.withPriors pr sg) P e = signalValue env f st Q e := by
    intro e
    unfold signalValue
    simp only [hc]
  unfold contentsValue fixedValue
  simp only [hf, hsig, hview]

theorem withValues_apart (ps : List ℕ) (a : List ℚ) {P Q : ℕ → Param}
    (h : ∀ p, PriorsApart (P p) (Q p)) : ∀ p, PriorsApart (withValues ps a P p) (withValues ps a Q p) := by
  induction ps generalizing a P Q with
  | nil => cases a <;> exact h
  | cons p ps ih =>
    cases a with
    | nil => exact h
    | cons v a =>
      refine ih a fun q => ?_
      by_cases hq : q = p
      · subst hq
        rw [Function.update_self, Function.update_self]
        exact ⟨(h q).1, (h q).2.1, rfl⟩
      · rw [Function.update_of_ne hq, Function.update_of_ne hq]
        exact h q

/-- **C134, contents.** Priors and sigmas do not enter the observed and expected contents, after
any evaluations. (Partial: the suppositions of C62.) -/
theorem c134_contents_partial (hr : FitReady env f st) (pr : ℕ → ℝ) (sg : ℕ → Option ℝ)
    (hist hist' : List (List ℚ)) (hh : ∀ a ∈ hist, FullArgs f a ∧ NonzeroRates f st a)
    (hh' : ∀ a ∈ hist', FullArgs f a ∧ NonzeroRates f st a) (args : List ℚ) (hl : FullArgs f args)
    (hf : f.floating ≠ none) :
    evaluatedContents env f args (afterEvaluations env f hist (st.withPriors pr sg)) =
      evaluatedContents env f args (afterEvaluations env f hist' st) := by
  obtain ⟨fl, hf⟩ := Option.ne_none_iff_exists'.1 hf
  rw [evaluatedContents_value (withPriors_ready hr pr sg)
      (inv_after (withPriors_ready hr pr sg) hh) hf hl,
    evaluatedContents_value hr (inv_after hr hh') hf hl]
  exact contentsValue_apart (withValues_apart f.pars args (P := (st.withPriors pr sg).params)
    (Q := st.params) fun p => ⟨rfl, rfl, rfl⟩) pr sg

/-- The statistic does not depend on the priors. -/
theorem funct_priors (hr : FitReady env f st) (pr : ℕ → ℝ) (sg sg' : ℕ → Option ℝ) {args : List ℚ}
    (hl : args.length = f.pars.length) {r r' : StatValue × Option (List ℕ)} {p p' : ℝ}
    (h : (funct env f args (st.withPriors pr sg)).2 = .ok (r, p))
    (h' : (funct env f args (st.withPriors pr sg')).2 = .ok (r', p')) : r' = r := by
  rcases hfl : f.floating with _ | fl
  · rw [funct_none hfl] at h; cases h
  · have key : ∀ sg r p, (funct env f args (st.withPriors pr sg)).2 = .ok (r, p) →
        ∃ c e out, contentsValue env f st (withValues f.pars args st.params) fl = .ok (c, some e) ∧
          f.stat.computeStatistic f.statPerBin (flatten f.singleBin c) (flatten f.singleBin e) = .ok out ∧
          reshapeStat f.perBin (st.view f.data).data.shape out.value = .ok r := by
      intro sg r p h
      obtain ⟨_, -, -, e⟩ := funct_run (withPriors_ready hr pr sg) (inv_start (withPriors_ready hr pr sg))
        hfl hl
      rw [e] at h
      unfold functValue at h
      rw [contentsValue_apart (P := withValues f.pars args (st.withPriors pr sg).params)
        (Q := withValues f.pars args st.params)
        (withValues_apart f.pars args fun p => ⟨rfl, rfl, rfl⟩) pr sg] at h
      cases hc : contentsValue env f st (withValues f.pars args st.params) fl with
      | error e => rw [hc] at h; cases h
      | ok c =>
        rw [hc] at h
        obtain ⟨obs, e⟩ := c
        cases e with
        | none => cases h
        | some e =>
          simp only [evaluate, bind, Except.bind] at h
          split at h
          · cases h
          · rename_i out ho
            split at h
            · cases h
            · split at h
              · cases h
              · rename_i r' hr'
                cases h
                exact ⟨obs, e, out, rfl, ho, hr'⟩
    obtain ⟨c, e, out, a1, a2, a3⟩ := key _ _ _ h
    obtain ⟨c', e', out', b1, b2, b3⟩ := key _ _ _ h'
    rw [a1] at b1
    cases b1
    rw [a2] at b2
    cases b2
    rw [a3] at b3
    cases b3
    rfl

/-- Changing one parameter changes one term of the penalty. -/
theorem penalty_one {s : Stat} {P Q : ℕ → Param} {ps : List ℕ} {args : List ℚ} (hn : ps.Nodup)
    {p : ℕ} {v : ℚ} (hp : (p, v) ∈ ps.zip args) (h : ∀ q, q ≠ p → P q = Q q) :
    (List.zipWith (penaltyOf s) (ps.map P) args).sum - penaltyOf s (P p) v =
      (List.zipWith (penaltyOf s) (ps.map Q) args).sum - penaltyOf s (Q p) v := by
  induction ps generalizing args with
  | nil => simp at hp
  | cons q ps ih =>
    cases args with
    | nil => simp at hp
    | cons u args =>
      rw [List.nodup_cons] at hn
      simp only [List.map_cons, List.zipWith_cons_cons, List.sum_cons]
      rw [List.zip_cons_cons, List.mem_cons] at hp
      rcases hp with hp | hp
      · cases hp
        have : ps.map P = ps.map Q := List.map_congr_left fun q hq => h q fun e => hn.1 (e ▸ hq)
        rw [this]
        ring
      · have hq : q ≠ p := fun e => hn.1 (e ▸ (List.of_mem_zip hp).1)
        have := ih hn.2 hp
        rw [h q hq]
        linarith

theorem eqv_sum {a b : NdArray ℝ} (h : a.Eqv b) : a.sum = b.sum := by
  unfold NdArray.sum
  rw [← h.1]
  exact sumIdx_congr fun idx hi => h.2 idx hi

/-- **C134, tighter constraints.** Two fits by grid search, after any evaluations, differ only in
the constraint of one parameter: the second has a smaller sigma, or a sigma where the first has
none. Then the best fit of the second has this parameter at most as far from its prior, and the
smallest statistic plus penalty is at least that of the first. (Partial: the suppositions of
C62.) -/
theorem c134_tighter_partial {pr : ℕ → ℝ} {sg₁ sg₂ : ℕ → Option ℝ} {g₁ g₂ : GridSearch}
    {vss : List (List ℝ)} {F₁ F₂ : List ℝ → FitVal} {P₁ P₂ : List ℝ → ℝ}
    (hr : FitReady env f st) (hist₁ hist₂ : List (List ℚ))
    (hh₁ : ∀ a ∈ hist₁, FullArgs f a ∧ NonzeroRates f st a)
    (hh₂ : ∀ a ∈ hist₂, FullArgs f a ∧ NonzeroRates f st a) (hg₁ : g₁.Ready) (hg₂ : g₂.Ready)
    (h₁ : FitGridSetup env f (st.withPriors pr sg₁) rnd g₁ vss F₁ P₁)
    (h₂ : FitGridSetup env f (st.withPriors pr sg₂) rnd g₂ vss F₂ P₂)
    (hn : ∀ vs ∈ vss, vs.Nodup) (p : ℕ) (hp : p ∈ f.pars) (hsame : ∀ q, q ≠ p → sg₂ q = sg₁ q)
    (ht : Tighter (sg₁ p) (sg₂ p)) :
    ∃ g₁' raw₁ pen₁ g₂' raw₂ pen₂ w₁ w₂,
      (fitGrid env f rnd g₁ (afterEvaluations env f hist₁ (st.withPriors pr sg₁))).2 =
        .ok (g₁', raw₁, pen₁) ∧
      (fitGrid env f rnd g₂ (afterEvaluations env f hist₂ (st.withPriors pr sg₂))).2 =
        .ok (g₂', raw₂, pen₂) ∧
      g₁'.pars.map FitPar.bestFit = w₁.map some ∧ g₂'.pars.map FitPar.bestFit = w₂.map some ∧
      (∃ x₁ x₂, ValueOf f.pars w₁ p x₁ ∧ ValueOf f.pars w₂ p x₂ ∧
        |((rnd x₂ : ℚ) : ℝ) - pr p| ≤ |((rnd x₁ : ℚ) : ℝ) - pr p|) ∧
      raw₁.sum + pen₁.get [] ≤ raw₂.sum + pen₂.get [] := by
  obtain ⟨g₁', raw₁, pen₁, idx₁, w₁, a1, a2, a3, a4, a5, a6, a7⟩ :=
    c93_best_fit_partial (withPriors_ready hr pr sg₁) hist₁ hh₁ hg₁ h₁ hn
  obtain ⟨g₂', raw₂, pen₂, idx₂, w₂, b1, b2, b3, b4, b5, b6, b7⟩ :=
    c93_best_fit_partial (withPriors_ready hr pr sg₂) hist₂ hh₂ hg₂ h₂ hn
  have len : ∀ w, Combination vss w → (w.map rnd).length = f.pars.length := by
    intro w hw
    rw [List.length_map, hw.length_eq, h₁.number]
  have hF : ∀ w, Combination vss w → F₂ w = F₁ w := by
    intro w hw
    obtain ⟨r, hr1, hr2, -⟩ := h₁.returns w hw
    obtain ⟨r', hr1', hr2', -⟩ := h₂.returns w hw
    rw [hr2, hr2', funct_priors hr pr sg₁ sg₂ (len w hw) hr1 hr1']
  have pen : ∀ {sg : ℕ → Option ℝ} {g : GridSearch} {F : List ℝ → FitVal} {P : List ℝ → ℝ},
      FitGridSetup env f (st.withPriors pr sg) rnd g vss F P → ∀ w, Combination vss w →
      P w = (List.zipWith (penaltyOf f.stat) (f.pars.map (st.withPriors pr sg).params)
        (w.map rnd)).sum := by
    intro sg g F P h w hw
    obtain ⟨r, hr1, -, -⟩ := h.returns w hw
    exact c65_evaluation env f _ _ (funct env f (w.map rnd) (st.withPriors pr sg)).1 hr.pars
      (len w hw) r (P w) (by rw [← hr1])
  -- the values of the parameter
  obtain ⟨i, hi, rfl⟩ := List.getElem_of_mem hp
  have val : ∀ w, Combination vss w → ∃ x, ValueOf f.pars w f.pars[i] x ∧
      (f.pars[i], rnd x) ∈ f.pars.zip (w.map rnd) := by
    intro w hw
    have hlw : w.length = f.pars.length := by simpa using len w hw
    refine ⟨w[i]'(by omega), ?_, ?_⟩
    · unfold ValueOf
      rw [← List.getElem_zip (h := by rw [List.length_zip]; omega)]
      exact List.getElem_mem _
    · have : (f.pars[i], rnd (w[i]'(by omega))) =
          (f.pars.zip (w.map rnd))[i]'(by rw [List.length_zip, List.length_map]; omega) := by
        rw [List.getElem_zip, List.getElem_map]
      rw [this]
      exact List.getElem_mem _
  obtain ⟨x₁, v1, v2⟩ := val w₁ a2.comb
  obtain ⟨x₂, u1, u2⟩ := val w₂ b2.comb
  -- the term of the parameter
  have hc : ∃ c : ℝ, 0 < c ∧ ∀ x y z, pull f.stat x y z = c * ((x - y) / z) ^ 2 := by
    unfold pull
    exact ⟨_, by split <;> norm_num, fun _ _ _ => rfl⟩
  obtain ⟨c, hc0, hc⟩ := hc
  obtain ⟨y, hy, hy0, hlt⟩ := ht
  obtain ⟨k₁, k₂, hk, hk1, e1, e2⟩ : ∃ k₁ k₂ : ℝ, k₁ < k₂ ∧ 0 ≤ k₁ ∧
      (∀ v : ℚ, penaltyOf f.stat ((st.withPriors pr sg₁).params f.pars[i]) v =
        k₁ * ((v : ℝ) - pr f.pars[i]) ^ 2) ∧
      ∀ v : ℚ, penaltyOf f.stat ((st.withPriors pr sg₂).params f.pars[i]) v =
        k₂ * ((v : ℝ) - pr f.pars[i]) ^ 2 := by
    have h2 : ∀ v : ℚ, penaltyOf f.stat ((st.withPriors pr sg₂).params f.pars[i]) v =
        c / y ^ 2 * ((v : ℝ) - pr f.pars[i]) ^ 2 := by
      intro v
      simp only [penaltyOf, FitState.withPriors, hy, hc]
      rw [div_pow]
      ring
    cases hx : sg₁ f.pars[i] with
    | none =>
      refine ⟨0, c / y ^ 2, by positivity, le_rfl, fun v => ?_, h2⟩
      simp only [penaltyOf, FitState.withPriors, hx, zero_mul]
    | some x =>
      have hyx := hlt x hx
      have hx0 : 0 < x := hy0.trans hyx
      refine ⟨c / x ^ 2, c / y ^ 2, ?_, by positivity, fun v => ?_, h2⟩
      · exact div_lt_div_of_pos_left hc0 (by positivity) (by gcongr)
      · simp only [penaltyOf, FitState.withPriors, hx, hc]
        rw [div_pow]
        ring
  have hone : ∀ (w : List ℝ) (v : ℚ), (f.pars[i], v) ∈ f.pars.zip (w.map rnd) → Combination vss w →
      P₁ w - k₁ * ((v : ℝ) - pr f.pars[i]) ^ 2 = P₂ w - k₂ * ((v : ℝ) - pr f.pars[i]) ^ 2 := by
    intro w v hv hw
    rw [pen h₁ w hw, pen h₂ w hw, ← e1 v, ← e2 v]
    refine penalty_one hr.pars hv fun q hq => ?_
    simp only [FitState.withPriors, hsame q hq]
  have o1 := (a7 _ _ b2).1
  have o2 := (b7 _ _ a2).1
  have p1 := hone w₁ _ v2 a2.comb
  have p2 := hone w₂ _ u2 b2.comb
  unfold objective at o1 o2
  rw [hF w₁ a2.comb, hF w₂ b2.comb] at o2
  refine ⟨g₁', raw₁, pen₁, g₂', raw₂, pen₂, w₁, w₂, a1, b1, a3, b3, ⟨x₁, x₂, v1, u1, ?_⟩, ?_⟩
  · rw [← sq_le_sq]
    have : (k₂ - k₁) * ((((rnd x₂ : ℚ) : ℝ) - pr f.pars[i]) ^ 2 -
        (((rnd x₁ : ℚ) : ℝ) - pr f.pars[i]) ^ 2) ≤ 0 := by linarith
    have h3 : 0 < k₂ - k₁ := by linarith
    by_contra hcon
    have h4 := not_le.1 hcon
    have := mul_pos h3 (sub_pos.2 h4)
    linarith
  · rw [eqv_sum a4, eqv_sum b4, a6, b6, hF w₂ b2.comb]
    have : 0 ≤ (k₂ - k₁) * (((rnd x₂ : ℚ) : ℝ) - pr f.pars[i]) ^ 2 :=
      mul_nonneg (by linarith) (sq_nonneg _)
    linarith

/-- **C134, more values.** Trying more values of the parameters never gives a larger smallest
statistic plus penalty, whatever was evaluated before. (Partial: the suppositions of C62.) -/
theorem c134_more_values_partial {g₁ g₂ : GridSearch} {vss₁ vss₂ : List (List ℝ)}
    {F₁ F₂ : List ℝ → FitVal} {P₁ P₂ : List ℝ → ℝ} (hr : FitReady env f st)
    (hist₁ hist₂ : List (List ℚ)) (hh₁ : ∀ a ∈ hist₁, FullArgs f a ∧ NonzeroRates f st a)
    (hh₂ : ∀ a ∈ hist₂, FullArgs f a ∧ NonzeroRates f st a) (hg₁ : g₁.Ready) (hg₂ : g₂.Ready)
    (h₁ : FitGridSetup env f st rnd g₁ vss₁ F₁ P₁) (h₂ : FitGridSetup env f st rnd g₂ vss₂ F₂ P₂)
    (hn₁ : ∀ vs ∈ vss₁, vs.Nodup) (hn₂ : ∀ vs ∈ vss₂, vs.Nodup)
    (hsub : List.Forall₂ (fun vs ws => ∀ x ∈ vs, x ∈ ws) vss₁ vss₂) :
    ∃ g₁' raw₁ pen₁ g₂' raw₂ pen₂,
      (fitGrid env f rnd g₁ (afterEvaluations env f hist₁ st)).2 = .ok (g₁', raw₁, pen₁) ∧
      (fitGrid env f rnd g₂ (afterEvaluations env f hist₂ st)).2 = .ok (g₂', raw₂, pen₂) ∧
      raw₂.sum + pen₂.get [] ≤ raw₁.sum + pen₁.get [] := by
  obtain ⟨g₁', raw₁, pen₁, idx₁, w₁, a1, a2, a3, a4, a5, a6, a7⟩ :=
    c93_best_fit_partial hr hist₁ hh₁ hg₁ h₁ hn₁
  obtain ⟨g₂', raw₂, pen₂, idx₂, w₂, b1, b2, b3, b4, b5, b6, b7⟩ :=
    c93_best_fit_partial hr hist₂ hh₂ hg₂ h₂ hn₂
  refine ⟨g₁', raw₁, pen₁, g₂', raw₂, pen₂, a1, b1, ?_⟩
  have hw : Combination vss₂ w₁ := by
    have := a2.comb
    clear * - this hsub
    induction hsub generalizing w₁ with
    | nil => exact this
    | cons h _ ih =>
      cases this with
      | cons h1 h2 => exact .cons (h _ h1) (ih _ h2)
  obtain ⟨idx, hidx⟩ := valuesAt_of_comb hw
  have := (b7 _ _ hidx).1
  unfold objective at this
  obtain ⟨r, hr1, hr2, -⟩ := h₁.returns w₁ a2.comb
  obtain ⟨r', hr1', hr2', -⟩ := h₂.returns w₁ hw
  rw [hr1] at hr1'
  have hPF : F₂ w₁ = F₁ w₁ ∧ P₂ w₁ = P₁ w₁ := by
    have h3 := Except.ok.inj hr1'
    rw [Prod.mk.injEq] at h3
    exact ⟨by rw [hr2, hr2', h3.1], h3.2.symm⟩
  rw [hPF.1, hPF.2] at this
  rw [eqv_sum a4, eqv_sum b4, a6, b6]
  exact this

/-! ### example -/

theorem closed_full (x y : ℚ) (hx : x ≠ 0) (hy : y ≠ 0) :
    FullArgs Ex.fit [x, y] ∧ NonzeroRates Ex.fit Ex.closedState [x, y] := by
  refine ⟨rfl, ?_⟩
  intro q hq _
  have : q = (0, x) ∨ q = (1, y) := by simpa [Ex.fit] using hq
  rcases this with rfl | rfl
  · exact hx
  · exact hy

/-- The grid search of `Ex.closedState` over some of the values, with other priors. -/
theorem closed_setup_priors (pr : ℕ → ℝ) (sg : ℕ → Option ℝ) (hsg : ∀ p, sg p ≠ some 0)
    {xs ys : List ℝ} (hxs : xs ≠ []) (hys : ys ≠ []) (hx : ∀ x ∈ xs, x ∈ [(8 : ℝ), 10])
    (hy : ∀ y ∈ ys, y ∈ [(7 : ℝ), 5, 3]) :
    ∃ F P, FitGridSetup Ex.fitEnv Ex.fit (Ex.closedState.withPriors pr sg) Ex.toInt
      (GridSearch.new [Ex.gridPar (lit "rate") (some 2) xs, Ex.gridPar (lit "rate") none ys] [4]
        (some (lit "fit")) false) [xs, ys] F P := by
  have hcomb : ∀ {w}, Combination [xs, ys] w → ∃ a ∈ [(8 : ℚ), 10], ∃ b ∈ [(7 : ℚ), 5, 3],
      w = [(a : ℝ), (b : ℝ)] ∧ w.map Ex.toInt = [a, b] := by
    intro w h
    obtain ⟨x, _, hx1, h1, rfl⟩ := List.forall₂_cons_right_iff.1 h
    obtain ⟨y, _, hy1, h2, rfl⟩ := List.forall₂_cons_right_iff.1 h1
    cases h2
    exact closed_combination (.cons (hx x hx1) (.cons (hy y hy1) .nil))
  have key : ∀ w, ∃ v p, Combination [xs, ys] w →
      (funct Ex.fitEnv Ex.fit (w.map Ex.toInt) (Ex.closedState.withPriors pr sg)).2 =
        .ok ((.total v, none), p) := by
    intro w
    by_cases hw : Combination [xs, ys] w
    · obtain ⟨a, ha, b, hb, -, e⟩ := hcomb hw
      rw [e]
      have hc := c134_contents_partial closed_ready pr sg [] [] (by simp) (by simp) [a, b] rfl
        (by simp [Ex.fit])
      obtain ⟨v, e⟩ := funct_total (env := Ex.fitEnv) (f := Ex.fit)
        (st := Ex.closedState.withPriors pr sg)
        (args := [a, b]) rfl rfl (by decide) rfl rfl (fun p _ => hsg p)
        ((congrArg (fun c => c.toOption.map fun c => (c.1.shape, c.2.map NdArray.shape)) hc).trans
          (closed_contents a ha b hb).1)
      exact ⟨v, _, fun _ => e⟩
    · exact ⟨0, 0, fun h => absurd h hw⟩
  choose v p key using key
  refine ⟨fun w => .scalar (v w), p, ?_⟩
  exact {
    values := .cons rfl (.cons rfl .nil)
    counts := .cons ⟨rfl, hxs⟩ (.cons ⟨rfl, hys⟩ .nil)
    number := rfl
    returns := fun w hw => ⟨_, key w hw, rfl, rfl⟩
    rates := by
      intro w hw
      obtain ⟨a, ha, b, hb, -, e⟩ := hcomb hw
      rw [e]
      refine (closed_full a b ?_ ?_).2
      · rintro rfl; norm_num at ha
      · rintro rfl; norm_num at hb
    sigmas := by
      intro q hq
      have : q = Ex.gridPar (lit "rate") (some 2) xs ∨ q = Ex.gridPar (lit "rate") none ys := by
        simpa [GridSearch.new] using hq
      rcases this with rfl | rfl <;> simp [Ex.gridPar]
    nonempty := Or.inr (by simp [GridSearch.new]) }

/-- The first rate is constrained to 12 ± 3, then to 12 ± 1; the second rate is free. -/
example : ∃ g₁' raw₁ pen₁ g₂' raw₂ pen₂ w₁ w₂,
    (fitGrid Ex.fitEnv Ex.fit Ex.toInt Ex.closedSearch (afterEvaluations Ex.fitEnv Ex.fit [[8, 3]]
      (Ex.closedState.withPriors (fun _ => 12) (fun p => if p = 0 then some 3 else none)))).2 =
        .ok (g₁', raw₁, pen₁) ∧
    (fitGrid Ex.fitEnv Ex.fit Ex.toInt Ex.closedSearch (afterEvaluations Ex.fitEnv Ex.fit []
      (Ex.closedState.withPriors (fun _ => 12) (fun p => if p = 0 then some 1 else none)))).2 =
        .ok (g₂', raw₂, pen₂) ∧
    g₁'.pars.map FitPar.bestFit = w₁.map some ∧ g₂'.pars.map FitPar.bestFit = w₂.map some ∧
    (∃ x₁ x₂, ValueOf Ex.fit.pars w₁ 0 x₁ ∧ ValueOf Ex.fit.pars w₂ 0 x₂ ∧
      |((Ex.toInt x₂ : ℚ) : ℝ) - 12| ≤ |((Ex.toInt x₁ : ℚ) : ℝ) - 12|) ∧
    raw₁.sum + pen₁.get [] ≤ raw₂.sum + pen₂.get [] := by
  obtain ⟨F₁, P₁, h₁⟩ := closed_setup_priors (fun _ => 12) (fun p => if p = 0 then some 3 else none)
    (by intro p; split <;> simp) (xs := [8, 10]) (ys := [7, 5, 3]) (by simp) (by simp)
    (fun _ h => h) (fun _ h => h)
  obtain ⟨F₂, P₂, h₂⟩ := closed_setup_priors (fun _ => 12) (fun p => if p = 0 then some 1 else none)
    (by intro p; split <;> simp) (xs := [8, 10]) (ys := [7, 5, 3]) (by simp) (by simp)
    (fun _ h => h) (fun _ h => h)
  refine c134_tighter_partial closed_ready [[8, 3]] [] ?_ (by simp) (g₁ := Ex.closedSearch)
    (g₂ := Ex.closedSearch) ⟨rfl, rfl⟩ ⟨rfl, rfl⟩ h₁ h₂ ?_ 0 (by simp [Ex.fit]) ?_
    ⟨1, rfl, one_pos, ?_⟩
  · intro a ha
    obtain rfl := List.mem_singleton.1 ha
    exact closed_full _ _ (by norm_num) (by norm_num)
  · intro vs hvs
    have : vs = [8, 10] ∨ vs = [7, 5, 3] := by simpa using hvs
    rcases this with rfl | rfl <;> norm_num
  · intro q hq
    simp [hq]
  · intro x hx
    obtain rfl : 3 = x := by simpa using hx
    norm_num

/-- Two more values of the second rate. -/
example : ∃ g₁' raw₁ pen₁ g₂' raw₂ pen₂,
    (fitGrid Ex.fitEnv Ex.fit Ex.toInt
      (GridSearch.new [Ex.gridPar (lit "rate") (some 2) [8, 10], Ex.gridPar (lit "rate") none [7]]
        [4] (some (lit "fit")) false) (afterEvaluations Ex.fitEnv Ex.fit [[8, 3]]
      (Ex.closedState.withPriors (fun _ => 12) (fun _ => some 3)))).2 = .ok (g₁', raw₁, pen₁) ∧
    (fitGrid Ex.fitEnv Ex.fit Ex.toInt Ex.closedSearch (afterEvaluations Ex.fitEnv Ex.fit []
      (Ex.closedState.withPriors (fun _ => 12) (fun _ => some 3)))).2 = .ok (g₂', raw₂, pen₂) ∧
    raw₂.sum + pen₂.get [] ≤ raw₁.sum + pen₁.get [] := by
  obtain ⟨F₁, P₁, h₁⟩ := closed_setup_priors (fun _ => 12) (fun _ => some 3) (by simp)
    (xs := [8, 10]) (ys := [7]) (by simp) (by simp) (fun _ h => h) (by simp)
  obtain ⟨F₂, P₂, h₂⟩ := closed_setup_priors (fun _ => 12) (fun _ => some 3) (by simp)
    (xs := [8, 10]) (ys := [7, 5, 3]) (by simp) (by simp) (fun _ h => h) (fun _ h => h)
  exact c134_more_values_partial (withPriors_ready closed_ready _ _) [[8, 3]] []
    (by
      intro a ha
      obtain rfl := List.mem_singleton.1 ha
      exact closed_full _ _ (by norm_num) (by norm_num)) (by simp) ⟨rfl, rfl⟩ ⟨rfl, rfl⟩ h₁ h₂
    (by
      intro vs hvs
      have : vs = [8, 10] ∨ vs = [7] := by simpa using hvs
      rcases this with rfl | rfl <;> norm_num)
    (by
      intro vs hvs
      have : vs = [8, 10] ∨ vs = [7, 5, 3] := by simpa using hvs
      rcases this with rfl | rfl <;> norm_num)
    (.cons (fun _ h => h) (.cons (by simp) .nil))

example := c134_contents_partial closed_ready (fun _ => 12) (fun _ => some 3) [[8, 3]] [] (by
      intro a ha
      obtain rfl := List.mem_singleton.1 ha
      exact closed_full _ _ (by norm_num) (by norm_num)) (by simp) [10, 7] rfl (by simp [Ex.fit])

end Verif
