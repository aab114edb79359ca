import Verif.Spec.Expects
import Verif.Lemmas.Reach
import Verif.Props.SensitivityLimit
import Verif.Props.Exposure

/-! # C173: more exposure never weakens expected limits over floating backgrounds -/

namespace Verif

open Session

variable {env : FitEnv} {keyOf : ℕ → PyStr} {a a' : FitArgs} {ts ts' : List Spectrum} {r d r' d' : ℕ}
  {st st' : FitState} {rnd : ℝ → ℚ} {rateOf rateOf' : ℕ → Option ℕ} {par par' : ℕ → ℕ} {vss : List (List ℝ)}
  {B B' : List ℝ → List ℝ} {sig : List ℝ} {search search' : GridSearch} {k : ℝ}

theorem expectedAt_perDecay (bkg s : List ℝ) (x n : ℝ) :
    expectedAt bkg s (x / n) = expectedAt bkg (s.map (fun y => y / n)) x := by
  unfold expectedAt
  rw [List.zipWith_map_right]
  congr 1
  funext b y
  ring

theorem expectedAt_times (bkg s : List ℝ) (x : ℝ) :
    expectedAt (bkg.map (k * ·)) (s.map (k * ·)) x = (expectedAt bkg s x).map (k * ·) := by
  unfold expectedAt
  rw [List.zipWith_map, List.map_zipWith]
  congr 1
  funext b y
  ring

theorem combination_times {u' : List ℝ} (h : Combination (vss.map (·.map (k * ·))) u') :
    ∃ u, Combination vss u ∧ u' = u.map (k * ·) := by
  induction vss generalizing u' with
  | nil =>
    cases h
    exact ⟨[], .nil, rfl⟩
  | cons vs vss ih =>
    obtain ⟨x, v, hx, hv, rfl⟩ := List.forall₂_cons_right_iff.1 h
    obtain ⟨y, hy, rfl⟩ := List.mem_map.1 hx
    obtain ⟨u, hu, rfl⟩ := ih hv
    exact ⟨y :: u, .cons hy hu, rfl⟩

theorem penalty_times (s : Stat) (hk : 0 < k) {ps ps' : List ℕ}
    (h : List.Forall₂ (fun p p' => (st.params p).Times k (st'.params p')) ps ps') (u : List ℝ) :
    (List.zipWith (fun p x => match (st.params p).sigma with
      | none => 0
      | some sigma => pull s x (st.params p).prior sigma) ps u).sum ≤
    (List.zipWith (fun p x => match (st'.params p).sigma with
      | none => 0
      | some sigma => pull s x (st'.params p).prior sigma) ps' (u.map (k * ·))).sum := by
  have pull_nonneg : ∀ x m σ : ℝ, 0 ≤ pull s x m σ := fun x m σ =>
    mul_nonneg (by split <;> norm_num) (sq_nonneg _)
  induction h generalizing u with
  | nil => simp
  | @cons p p' ps ps' h1 _ ih =>
    cases u with
    | nil => simp
    | cons x u =>
      simp only [List.map_cons, List.zipWith_cons_cons, List.sum_cons]
      refine add_le_add ?_ (ih u)
      obtain ⟨hp, hs⟩ := h1
      rcases hs with hs | ⟨t, t', e, e', h0, hle⟩
      · rw [hs]
        dsimp only
        split
        · exact le_rfl
        · exact pull_nonneg _ _ _
      · rw [e, e', hp]
        unfold pull
        refine mul_le_mul_of_nonneg_left ?_ (by split <;> norm_num)
        have ht : 0 < t := by
          by_contra hn
          nlinarith [mul_nonneg hk.le (sub_nonneg.2 (not_lt.1 hn))]
        rw [div_pow, div_pow, ← mul_sub, mul_pow, div_le_div_iff₀ (by positivity) (by positivity)]
        have : t' ^ 2 ≤ (k * t) ^ 2 := by gcongr
        nlinarith [mul_le_mul_of_nonneg_left this (sq_nonneg (x - (st.params p).prior))]

theorem FitArgs.Expects.priors (h : a.Expects env keyOf rnd rateOf par r d ts st search vss B sig) :
    a.floating.map (fun q => (st.params (par q)).prior) = (a.parameters st).map (fun p => (st.params p).prior) := by
  have : a.parameters st = a.floating.map par := by
    unfold FitArgs.parameters FitArgs.ownPars
    rw [h.own.config, List.map_nil, List.nil_append]
    have hr := h.rates
    generalize a.floating = l at hr
    induction l with
    | nil => rfl
    | cons q l ih =>
      rw [List.flatMap_cons, (hr q (by simp)).1, ih fun q hq => hr q (by simp [hq])]
      rfl
  rw [this, List.map_map]
  rfl

/-- The outcome of an expected limit. -/
theorem FitArgs.Expects.outcome (h : a.Expects env keyOf rnd rateOf par r d ts st search vss B sig)
    (hcount : ∀ u, Combination vss u → ∀ v ∈ B u, zeroThreshold ≤ v) :
    ∃ ses st₁ u₁ w, init keyOf a st = (st₁, .ok ses) ∧ ses.study rnd rateOf st₁ = ((ses, u₁), .ok ()) ∧
      Fitter.limitInit ⟨ses, u₁, search⟩ r true = (w, .ok ()) ∧ (∀ u, (B u).length = sig.length) ∧
      ∀ (calls : List LimitCall) (scales : List ℝ), Testable rnd (allScales calls ++ scales) →
      0 ∈ scales → PlainScales rnd scales →
      ∀ (sigmas : List (Option ℝ)), (∀ s ∈ sigmas, s ≠ none) → ∀ (limit : ℝ),
      ∃ M : ℝ → ℝ, (∀ x ∈ scales, SmallestOf vss (fun u =>
          a.stat.sumBins (B (a.floating.map (fun q => (st.params (par q)).prior))) (expectedAt (B u) sig x) +
            a.penaltyAt st u) (M x)) ∧
        (∀ x, ((w.afterCalls env rnd r calls).limitOf env rnd r scales sigmas none limit).2 = .ok x ↔
          x ∈ scales ∧ limit < M x ∧ ∀ y ∈ scales, y < x → M y ≤ limit) ∧
        (((w.afterCalls env rnd r calls).limitOf env rnd r scales sigmas none limit).2 =
            .error .limitError ↔ ∀ y ∈ scales, M y ≤ limit) := by
  classical
  obtain ⟨ns, c, hns, hc, hblank, hB, hS⟩ := h.contents
  have hl := h.limit
  have hreg := inOrder_isDict hl.given.region
  have hdm : d ∈ (a.withSignal r).kept ++ a.fixed.map Prod.fst := by simp [FitArgs.kept, hl.data]
  have hrm : r ∈ (a.withSignal r).kept ++ a.fixed.map Prod.fst := by simp [FitArgs.kept]
  have hshape : (c r).shape = (c d).shape :=
    same_shape hreg (hl.given.able d hdm) (hl.given.able r hrm) (hl.axes r hrm) (hc d hdm) (hc r hrm)
  have hl1 : ∀ u v, (B u).length = (B v).length := fun u v => by
    rw [hB, hB]
    exact compared_length _ (a := a.backgroundAt st c (c d).shape (v.map rnd))
      (b := a.backgroundAt st c (c d).shape (u.map rnd)) rfl
  have hl2 : ∀ u, (B u).length = sig.length := fun u => by
    rw [hB, hS, List.length_map]
    exact (compared_length _ (a := a.backgroundAt st c (c d).shape (u.map rnd)) (b := c r) hshape).symm
  obtain ⟨ses, st₁, u₁, w, i1, i2, i3, i4⟩ := c152_expected_partial (env := env) (keyOf := keyOf) (rnd := rnd)
    (rateOf := rateOf) (par := par) hl h.evaluable h.own h.fixed h.rates hns hc h.grid h.same h.exact h.stat
    hblank h.prior hB rfl (hcount _ h.prior)
  refine ⟨ses, st₁, u₁, w, i1, i2, i3, hl2, fun calls scales ht h0 hp sigmas hsg limit => ?_⟩
  set o := B (a.floating.map (fun q => (st.params (par q)).prior)) with ho
  have len : ∀ u x, o.length = (expectedAt (B u) sig x).length := fun u x => by
    simp only [expectedAt, List.length_zipWith, ← hl2 u, Nat.min_self]
    exact hl1 _ u
  have zero : ∀ u, expectedAt (B u) sig 0 = B u := fun u => by
    unfold expectedAt
    refine List.ext_getElem (by rw [List.length_zipWith, ← hl2 u, Nat.min_self]) fun i h₁ h₂ => ?_
    rw [List.getElem_zipWith]
    ring
  set G : ℝ → List ℝ → ℝ := fun x u => if npCloseReal x 0 then a.stat.sumBins o (B u) else
    a.stat.sumBins o (expectedAt (B u) sig (rnd x)) with hG
  obtain ⟨M, m1, -, m3, m4⟩ := i4 calls scales ht h0 hp.nonneg hp.increasing G
    (fun x _ u _ => ⟨fun hcl => (total_iff _ (hl1 _ u) _).2 (if_pos hcl), fun hcl => by
      rw [expectedAt_perDecay, ← hS]
      exact (total_iff _ (len u _) _).2 (if_neg hcl)⟩) sigmas hsg limit
  refine ⟨M, fun x hx => ?_, m3, m4⟩
  have e : ∀ u, G x u = a.stat.sumBins o (expectedAt (B u) sig x) := fun u => by
    by_cases hcl : npCloseReal x 0
    · rw [hp.zero x hx hcl, zero]
      exact if_pos (by unfold npCloseReal; norm_num)
    · rw [← hp.exact x hx hcl]
      simp only [hG, hp.exact x hx hcl, if_neg hcl]
  have := m1 x hx
  simp only [e] at this
  exact this

/-- **C173, exposure, with floating backgrounds.** Two expected limits are set by sensitivity study and limit. In the second program
the background at `k` times the rates, and the signal for each decay, are those of the first times `k`, which is
at least one; values and priors of the rates are multiplied by `k`, the sigmas by `k` or less. Then the
second limit is not larger: if the first program finds one, so does the second; and if the second fails with
`LimitError`, so does the first. (Partial: as C152; the expected background is at or above the threshold for all
values of the rates, and the signal is not negative.) -/
theorem c173_exposure_floating_partial (hk : 1 ≤ k)
    (h : a.Expects env keyOf rnd rateOf par r d ts st search vss B sig)
    (h' : a'.Expects env keyOf rnd rateOf' par' r' d' ts' st' search' (vss.map (·.map (k * ·))) B'
      (sig.map (k * ·)))
    (hstat : a'.stat = a.stat) (hB : ∀ u, Combination vss u → B' (u.map (k * ·)) = (B u).map (k * ·))
    (hpar : List.Forall₂ (fun p p' => (st.params p).Times k (st'.params p')) (a.parameters st)
      (a'.parameters st'))
    (hcount : ∀ u, Combination vss u → ∀ v ∈ B u, zeroThreshold ≤ v) (hsig : ∀ s ∈ sig, 0 ≤ s) :
    ∃ ses st₁ u₁ w ses' st₂ u₂ w', init keyOf a st = (st₁, .ok ses) ∧ init keyOf a' st' = (st₂, .ok ses') ∧
      ses.study rnd rateOf st₁ = ((ses, u₁), .ok ()) ∧ ses'.study rnd rateOf' st₂ = ((ses', u₂), .ok ()) ∧
      Fitter.limitInit ⟨ses, u₁, search⟩ r true = (w, .ok ()) ∧
      Fitter.limitInit ⟨ses', u₂, search'⟩ r' true = (w', .ok ()) ∧
      ∀ (calls calls' : List LimitCall) (scales : List ℝ), Testable rnd (allScales calls ++ scales) →
      Testable rnd (allScales calls' ++ scales) → 0 ∈ scales → PlainScales rnd scales →
      ∀ (sigmas : List (Option ℝ)), (∀ s ∈ sigmas, s ≠ none) → ∀ (limit : ℝ),
      (∀ x, ((w.afterCalls env rnd r calls).limitOf env rnd r scales sigmas none limit).2 = .ok x →
        ∃ x' ≤ x, ((w'.afterCalls env rnd r' calls').limitOf env rnd r' scales sigmas none limit).2 = .ok x') ∧
      (((w'.afterCalls env rnd r' calls').limitOf env rnd r' scales sigmas none limit).2 =
          .error .limitError →
        ((w.afterCalls env rnd r calls).limitOf env rnd r scales sigmas none limit).2 =
          .error .limitError) := by
  have hk0 : 0 < k := by linarith
  have h0 : 0 < zeroThreshold := statEps_pos
  have grow : ∀ v : ℝ, zeroThreshold ≤ v → zeroThreshold ≤ k * v := fun v hv =>
    hv.trans (le_mul_of_one_le_left (h0.le.trans hv) hk)
  have hcount' : ∀ u', Combination (vss.map (·.map (k * ·))) u' → ∀ v ∈ B' u', zeroThreshold ≤ v := by
    intro u' hu' v hv
    obtain ⟨u, hu, rfl⟩ := combination_times hu'
    rw [hB u hu] at hv
    obtain ⟨y, hy, rfl⟩ := List.mem_map.1 hv
    exact grow y (hcount u hu y hy)
  have hpri : a'.floating.map (fun q => (st'.params (par' q)).prior) =
      (a.floating.map (fun q => (st.params (par q)).prior)).map (k * ·) := by
    rw [h.priors, h'.priors]
    generalize a.parameters st = ps at hpar
    generalize a'.parameters st' = ps' at hpar
    clear * - hpar
    induction hpar with
    | nil => rfl
    | cons h1 _ ih => simp only [List.map_cons, ih, h1.1]
  obtain ⟨ses, st₁, u₁, w, i1, i2, i3, il, i4⟩ := h.outcome hcount
  obtain ⟨ses', st₂, u₂, w', j1, j2, j3, -, j4⟩ := h'.outcome hcount'
  refine ⟨ses, st₁, u₁, w, ses', st₂, u₂, w', i1, j1, i2, j2, i3, j3, ?_⟩
  intro calls calls' scales ht ht' hz hp sigmas hsg limit
  obtain ⟨M, m1, m3, m4⟩ := i4 calls scales ht hz hp sigmas hsg limit
  obtain ⟨M', n1, n3, n4⟩ := j4 calls' scales ht' hz hp sigmas hsg limit
  set o := B (a.floating.map (fun q => (st.params (par q)).prior)) with ho
  have hle : ∀ x ∈ scales, M x ≤ M' x := by
    intro x hx
    obtain ⟨⟨u', hu', hMu⟩, -⟩ := n1 x hx
    obtain ⟨u, hu, rfl⟩ := combination_times hu'
    have k1 := (m1 x hx).2 u hu
    dsimp only at k1 hMu
    rw [hpri, hB _ h.prior, hB u hu, expectedAt_times, hstat, ← ho] at hMu
    have hlen : o.length = (expectedAt (B u) sig x).length := by
      simp only [expectedAt, List.length_zipWith, il, Nat.min_self, ho]
    have hexp : ∀ e ∈ expectedAt (B u) sig x, zeroThreshold ≤ e := by
      intro e he
      unfold expectedAt at he
      obtain ⟨i, hi, rfl⟩ := List.getElem_of_mem he
      rw [List.getElem_zipWith]
      have g1 := hcount u hu _ (List.getElem_mem (n := i) (by simp at hi; omega))
      have g2 := hsig _ (List.getElem_mem (n := i) (by simp at hi; omega))
      have g3 := mul_nonneg (hp.nonneg x hx) g2
      linarith
    have htot : a.stat.Total o (expectedAt (B u) sig x) (a.stat.sumBins o (expectedAt (B u) sig x)) :=
      (total_iff _ hlen _).2 rfl
    have k2 := c131_exposure a.stat h.stat k hk0 (o.zip (expectedAt (B u) sig x))
      (fun b hb => by
        have b1 := hcount _ h.prior b.1 (List.of_mem_zip hb).1
        have b2 := hexp b.2 (List.of_mem_zip hb).2
        exact ⟨.inr ⟨b1, grow _ b1⟩, b2, grow _ b2⟩) (a.stat.sumBins o (expectedAt (B u) sig x))
      (by
        rw [List.map_fst_zip hlen.le, List.map_snd_zip hlen.ge]
        exact htot)
    have e1 : (o.zip (expectedAt (B u) sig x)).map (fun b => k * b.1) = o.map (k * ·) := by
      rw [show (fun b : ℝ × ℝ => k * b.1) = (k * ·) ∘ Prod.fst from rfl, ← List.map_map,
        List.map_fst_zip hlen.le]
    have e2 : (o.zip (expectedAt (B u) sig x)).map (fun b => k * b.2) = (expectedAt (B u) sig x).map (k * ·) := by
      rw [show (fun b : ℝ × ℝ => k * b.2) = (k * ·) ∘ Prod.snd from rfl, ← List.map_map,
        List.map_snd_zip hlen.ge]
    rw [e1, e2, total_iff _ (by simp [hlen])] at k2
    have k3 : a.stat.sumBins (o.map (k * ·)) ((expectedAt (B u) sig x).map (k * ·)) =
        k * a.stat.sumBins o (expectedAt (B u) sig x) := k2.symm
    rw [k3] at hMu
    have k4 : a.penaltyAt st u ≤ a'.penaltyAt st' (u.map (k * ·)) := by
      unfold FitArgs.penaltyAt
      rw [hstat]
      exact penalty_times a.stat hk0 hpar u
    have k5 := le_mul_of_one_le_left (total_nonneg h.stat htot) hk
    linarith
  refine ⟨fun x hx => ?_, fun herr => ?_⟩
  · obtain ⟨g1, g2, -⟩ := (m3 x).1 hx
    obtain ⟨x', c1, c2, c3, c4⟩ := firstCrossing_exists (scales := scales) (F := M') (b := 0) (limit := limit)
      ⟨x, g1, hp.nonneg x g1, g2.trans_le (hle x g1)⟩
    refine ⟨x', not_lt.1 fun hlt => ?_, (n3 x').2 ⟨c1, c3, fun y hy hyx => c4 y hy (hp.nonneg y hy) hyx⟩⟩
    exact absurd (g2.trans_le (hle x g1)) (not_lt.2 (c4 x g1 (hp.nonneg x g1) hlt))
  · exact m4.2 fun y hy => (hle y hy).trans (n4.1 herr y hy)

/-! ### a case that meets the hypotheses -/

namespace Ex

/-- Twice the exposure: priors and sigmas are doubled, and the signal's contents stand for half as many decays. -/
noncomputable def doubleState : FitState := { expectedState with
  objs := fun r => if r = 4 then { expectedState.objs 4 with numDecays := 1 } else expectedState.objs r
  params := fun p => { expectedState.params p with
    prior := 2 * (expectedState.params p).prior
    sigma := (expectedState.params p).sigma.map (2 * ·) } }

/-- The fixed background is doubled. -/
def doubleArgs : FitArgs := { limitArgs [2, 3] with fixed := [(1, 40)] }

/-- The values of the rates are doubled. -/
def doubleSearch : GridSearch :=
  { GridSearch.new [gridPar (lit "rate") (some 4) [16, 20], gridPar (lit "rate") none [14, 20]] [4]
    (some (lit "fit")) false with
    pars := [{ gridPar (lit "rate") (some 4) [16, 20] with prior := 20 },
      { gridPar (lit "rate") none [14, 20] with prior := 20 }] }

end Ex

theorem double_limitOn : Ex.doubleArgs.LimitOn 4 0
    [(((Ex.doubleState.view 1).shrink exFitKw).st.scale 40).st] Ex.doubleState :=
  have h := ex_expectedOn
  { given :=
      { region := h.given.region
        some := h.given.some
        alloc := h.given.alloc
        own := by
          show (([0, 4, 2, 3] ++ [1]).map (fun r => (Ex.doubleState.objs r).cfg)).Nodup
          decide
        able := by
          intro q hq
          have hm : q = 0 ∨ q = 4 ∨ q = 2 ∨ q = 3 ∨ q = 1 := by
            have : q ∈ [0, 4, 2, 3, 1] := hq
            simpa using this
          have h := h.given.able q hq
          rcases hm with rfl | rfl | rfl | rfl | rfl <;>
            exact ⟨⟨h.wf.axes, h.wf.names, h.wf.shape⟩, h.aligned, h.dims, h.edges, h.has⟩
        fixed := by
          show Suppliable (inOrder [(lit "energy", ((2 : ℚ), (1 : ℚ)))]) [(1, 40)] _ Ex.doubleState
          rw [exInit_roi]
          refine ⟨fun q hq => ?_, ?_, by unfold IsDict; decide, fun e he => fitAxis_dims, fun e he => by
            simp [FitState.view, Ex.doubleState, Ex.expectedState, Ex.limitState, Ex.fitState], .cons ?_ .nil, ?_⟩
          · have : q = 1 := by simpa using hq
            rw [this, show Ex.doubleState.next = 5 from rfl]
            omega
          · simp
          · exact ⟨exFitKw, exFit_asks, by decide +kernel, rfl, by decide +kernel⟩
          · simp }
    settings := ⟨fun _ => .inr ⟨2, by simp [Ex.doubleArgs, Ex.limitArgs], by
        simp [Ex.doubleState, Ex.expectedState, Ex.limitState, Ex.fitObj]⟩,
      by simp [Ex.doubleArgs, Ex.limitArgs], by simp [Ex.doubleArgs, Ex.limitArgs],
      by simp [Ex.doubleArgs, Ex.limitArgs]⟩
    signal := rfl
    data := rfl
    axes := fun _ _ => rfl
    fit := by simp [Ex.doubleState, Ex.expectedState, Ex.limitState]
    decays := by simp [FitState.view, Ex.doubleState]
    region := h.region }

theorem double_sigmas {p : ℕ} (hp : p ∈ ([0, 1] : List ℕ)) :
    (Ex.doubleState.params p).kind = .rate ∧ (Ex.doubleState.params p).sigma ≠ some 0 := by
  have : p = 0 ∨ p = 1 := by simpa using hp
  rcases this with rfl | rfl
  · refine ⟨rfl, fun h => ?_⟩
    have : (2 * 2 : ℝ) = 0 := Option.some.inj h
    norm_num at this
  · exact ⟨rfl, fun h => nomatch h⟩

theorem double_evaluable : (Ex.doubleArgs.withSignal 4).Evaluable Ex.fitEnv Ex.keyOf 0 Ex.doubleState :=
  have h := ex_expectedEvaluable
  ⟨rfl, h.str, rfl, by
    have := h.backgrounds
    exact this, fun _ _ => rfl, h.dims, by
    intro r hr
    have : r = 2 ∨ r = 3 ∨ r = 4 := by simpa [Ex.doubleArgs, Ex.limitArgs] using hr
    rcases this with rfl | rfl | rfl <;>
      simp [FitState.view, Ex.doubleState, Ex.expectedState, Ex.limitState, Ex.fitObj],
    h.names, h.pars, by simp [Ex.doubleArgs, Ex.limitArgs],
    fun p hp => (double_sigmas (show p ∈ [0, 1] from hp)).1⟩

theorem double_own : Ex.doubleArgs.OwnRates Ex.doubleState where
  floating := by simp [Ex.doubleArgs, Ex.limitArgs]
  config := rfl
  one := by
    intro r hr
    have : r = 2 ∨ r = 3 := by simpa [Ex.doubleArgs, Ex.limitArgs] using hr
    rcases this with rfl | rfl
    · exact ⟨0, rfl⟩
    · exact ⟨1, rfl⟩
  sigmas := fun p hp => (double_sigmas (show p ∈ [0, 1] from hp)).2
  statPerBin := rfl
  perBin := rfl

theorem double_values {vs : List ℝ} (hvs : vs ∈ Ex.expectedValues.map (·.map (2 * ·))) {x : ℝ} (hx : x ∈ vs) :
    x = 14 ∨ x = 16 ∨ x = 20 := by
  have : vs = [2 * 8, 2 * 10] ∨ vs = [2 * 7, 2 * 10] := by simpa [Ex.expectedValues] using hvs
  rcases this with rfl | rfl
  · have : x = 2 * 8 ∨ x = 2 * 10 := by simpa using hx
    rcases this with rfl | rfl <;> norm_num
  · have : x = 2 * 7 ∨ x = 2 * 10 := by simpa using hx
    rcases this with rfl | rfl <;> norm_num

theorem double_exact : ∀ vs ∈ Ex.expectedValues.map (·.map (2 * ·)), ∀ x ∈ vs, ((Ex.toInt x : ℚ) : ℝ) = x := by
  intro vs hvs x hx
  rcases double_values hvs hx with rfl | rfl | rfl <;> simp [Ex.toInt]

theorem double_lists : Ex.expectedValues.map (·.map (2 * ·)) = [[16, 20], [14, 20]] := by
  norm_num [Ex.expectedValues]

theorem double_search : RateSearch Ex.toInt Ex.doubleSearch (Ex.expectedValues.map (·.map (2 * ·)))
    Ex.doubleArgs.floating.length where
  ready := ⟨rfl, rfl⟩
  form := rfl
  values := by rw [double_lists]; exact .cons rfl (.cons rfl .nil)
  counts := by rw [double_lists]; exact .cons ⟨rfl, by simp⟩ (.cons ⟨rfl, by simp⟩ .nil)
  number := rfl
  nodup := by
    intro vs hvs
    rw [double_lists] at hvs
    have : vs = [16, 20] ∨ vs = [14, 20] := by simpa using hvs
    rcases this with rfl | rfl <;> norm_num
  injective := by
    intro vs hvs x hx y hy he
    have := double_exact vs hvs x hx
    rw [he, double_exact vs hvs y hy] at this
    exact this.symm
  nonzero := by
    intro vs hvs x hx
    rcases double_values hvs hx with rfl | rfl | rfl <;> simp [Ex.toInt]
  sigmas := by
    intro q hq
    simp only [Ex.doubleSearch, List.mem_cons, List.not_mem_nil, or_false] at hq
    rcases hq with rfl | rfl <;> simp [Ex.gridPar]

theorem double_contents : ∀ q ∈ (Ex.doubleArgs.withSignal 4).kept ++ Ex.doubleArgs.fixed.map Prod.fst,
    RegionContents (inOrder Ex.doubleArgs.roi) [lit "energy_mc"] (Ex.doubleState.view q) (Ex.expectedContents q) := by
  intro q hq
  have hm : q ∈ [0, 4, 2, 3, 1] := hq
  by_cases h4 : q = 4
  · subst h4
    have key : ((Ex.doubleState.view 4).shrink exFitKw).err = none ∧
        pick [lit "energy_mc"] (((Ex.doubleState.view 4).shrink exFitKw).st.cfg.map SPar.name)
          ((Ex.doubleState.view 4).shrink exFitKw).st.data.shape = [2] ∧
        ∀ idx ∈ allIdx [2], (Ex.expectedContents 4).get idx =
          sumIdx ((Ex.doubleState.view 4).shrink exFitKw).st.data.shape (fun full =>
            if pick [lit "energy_mc"] (((Ex.doubleState.view 4).shrink exFitKw).st.cfg.map SPar.name) full =
              idx then ((Ex.doubleState.view 4).shrink exFitKw).st.data.get full else 0) := by
      decide +kernel
    obtain ⟨k1, k2, k3⟩ := key
    refine ⟨((Ex.doubleState.view 4).shrink exFitKw).st, ⟨exFitKw, ?_, k1,
      ⟨⟨rfl, rfl, rfl, rfl, rfl⟩, rfl, fun _ _ => rfl⟩⟩, ?_, fun idx hi => k3 idx (mem_allIdx.2 hi)⟩
    · show AsksRoi [Ex.fitAxis] (inOrder [(lit "energy", ((2 : ℚ), (1 : ℚ)))]) exFitKw
      rw [exInit_roi]
      exact exFit_asks
    · rw [k2]
      rfl
  · have h := ex_expectedContents q hq
    have e : Ex.doubleState.view q = Ex.expectedState.view q := by
      unfold FitState.view Ex.doubleState
      simp only [if_neg h4]
    rw [e]
    exact h

theorem expected_expects : (Ex.limitArgs [2, 3]).Expects Ex.fitEnv Ex.keyOf Ex.toInt Ex.studyRate (fun q => q - 2)
    4 0 [(((Ex.expectedState.view 1).shrink exFitKw).st.scale 20).st] Ex.expectedState Ex.expectedSearch
    Ex.expectedValues (fun u => comparedContents false ((Ex.limitArgs [2, 3]).backgroundAt Ex.expectedState
      Ex.expectedContents (Ex.expectedContents 0).shape (u.map Ex.toInt))) [1 / 2, 0] where
  limit := ex_expectedOn
  evaluable := ex_expectedEvaluable
  own := ex_expectedOwn
  fixed := by simp [Ex.limitArgs]
  rates := ex_expectedRates
  grid := ex_expectedSearch
  same := .cons ⟨rfl, rfl⟩ (.cons ⟨rfl, rfl⟩ .nil)
  exact := ex_expectedExact
  stat := by simp [Ex.limitArgs]
  prior := by rw [ex_expectedPriors]; exact .cons (by simp) (.cons (by simp) .nil)
  contents := ⟨_, Ex.expectedContents, ex_limitNames, ex_expectedContents, fun _ _ => rfl, fun _ => rfl, by
    have e : comparedContents (Ex.limitArgs [2, 3]).singleBin (Ex.expectedContents 4) = [1, 0] :=
      ex_limitCompared.2.2
    have hd : ((Ex.expectedState.view 4).numDecays : ℝ) = 2 := ex_limitDecays
    rw [e, hd]
    norm_num⟩

theorem double_expects : Ex.doubleArgs.Expects Ex.fitEnv Ex.keyOf Ex.toInt Ex.studyRate (fun q => q - 2)
    4 0 [(((Ex.doubleState.view 1).shrink exFitKw).st.scale 40).st] Ex.doubleState Ex.doubleSearch
    (Ex.expectedValues.map (·.map (2 * ·))) (fun u => comparedContents false (Ex.doubleArgs.backgroundAt
      Ex.doubleState Ex.expectedContents (Ex.expectedContents 0).shape (u.map Ex.toInt)))
    (([1 / 2, 0] : List ℝ).map (2 * ·)) where
  limit := double_limitOn
  evaluable := double_evaluable
  own := double_own
  fixed := by simp [Ex.doubleArgs]
  rates := by
    intro r hr
    have : r = 2 ∨ r = 3 := by simpa [Ex.doubleArgs, Ex.limitArgs] using hr
    rcases this with rfl | rfl <;> exact ⟨rfl, rfl⟩
  grid := double_search
  same := by
    have e : (2 : ℝ) * 10 = 20 := by norm_num
    have e' : (2 : ℝ) * 2 = 4 := by norm_num
    refine .cons ⟨?_, ?_⟩ (.cons ⟨?_, rfl⟩ .nil)
    · exact e.symm
    · show some (4 : ℝ) = some (2 * 2)
      rw [e']
    · exact e.symm
  exact := double_exact
  stat := by simp [Ex.doubleArgs, Ex.limitArgs]
  prior := by
    show Combination _ [2 * 10, 2 * 10]
    exact .cons (by simp) (.cons (by simp) .nil)
  contents := ⟨_, Ex.expectedContents, ex_limitNames, double_contents, fun _ _ => rfl, fun _ => rfl, by
    have e : comparedContents Ex.doubleArgs.singleBin (Ex.expectedContents 4) = [1, 0] := ex_limitCompared.2.2
    have hd : ((Ex.doubleState.view 4).numDecays : ℝ) = 1 := by
      rw [show (Ex.doubleState.view 4).numDecays = 1 from rfl]
      norm_num
    rw [e, hd]
    norm_num⟩

theorem double_background (x y : ℚ) : comparedContents false (Ex.doubleArgs.backgroundAt Ex.doubleState
      Ex.expectedContents (Ex.expectedContents 0).shape [x, y]) =
    [10 + 3 * (x : ℝ) / 10 + 2 * (y : ℝ) / 10, 10 + 4 * (x : ℝ) / 10 + (y : ℝ) / 10] := by
  have e : allIdx [2] = [[0], [1]] := rfl
  have h1 : (Ex.doubleState.view 1).numDecays = 4 := rfl
  have h2 : (Ex.doubleState.view 2).numDecays = 10 := rfl
  have h3 : (Ex.doubleState.view 3).numDecays = 10 := rfl
  simp only [comparedContents, Bool.false_eq_true, if_false, FitArgs.backgroundAt]
  show (allIdx [2]).map _ = _
  rw [e]
  simp [FitArgs.sumAt, Ex.doubleArgs, Ex.limitArgs, Ex.expectedContents, Ex.limitContents, h1, h2, h3]
  constructor <;> ring

/-- Twice the exposure. -/
example : ∃ ses st₁ u₁ w ses' st₂ u₂ w', init Ex.keyOf (Ex.limitArgs [2, 3]) Ex.expectedState = (st₁, .ok ses) ∧
    init Ex.keyOf Ex.doubleArgs Ex.doubleState = (st₂, .ok ses') ∧
    ses.study Ex.toInt Ex.studyRate st₁ = ((ses, u₁), .ok ()) ∧
    ses'.study Ex.toInt Ex.studyRate st₂ = ((ses', u₂), .ok ()) ∧
    Fitter.limitInit ⟨ses, u₁, Ex.expectedSearch⟩ 4 true = (w, .ok ()) ∧
    Fitter.limitInit ⟨ses', u₂, Ex.doubleSearch⟩ 4 true = (w', .ok ()) ∧
    ∀ x, (w.limitOf Ex.fitEnv Ex.toInt 4 [0, 4, 10, 20] [] none 2).2 = .ok x →
      ∃ x' ≤ x, (w'.limitOf Ex.fitEnv Ex.toInt 4 [0, 4, 10, 20] [] none 2).2 = .ok x' := by
  have comb : ∀ u, Combination Ex.expectedValues u → ∃ x y : ℚ, (7 ≤ x ∧ 7 ≤ y) ∧ u = [(x : ℝ), (y : ℝ)] ∧
      u.map Ex.toInt = [x, y] ∧ (u.map (2 * ·)).map Ex.toInt = [2 * x, 2 * y] := by
    intro u hu
    obtain ⟨x, _, hx, h1, rfl⟩ := List.forall₂_cons_right_iff.1 hu
    obtain ⟨y, _, hy, h2, rfl⟩ := List.forall₂_cons_right_iff.1 h1
    cases h2
    have hx : x = 8 ∨ x = 10 := by simpa using hx
    have hy : y = 7 ∨ y = 10 := by simpa using hy
    refine ⟨Ex.toInt x, Ex.toInt y, ?_, ?_, rfl, ?_⟩ <;>
      rcases hx with rfl | rfl <;> rcases hy with rfl | rfl <;> norm_num [Ex.toInt]
  obtain ⟨ses, st₁, u₁, w, ses', st₂, u₂, w', h1, h2, h3, h4, h5, h6, h7⟩ := c173_exposure_floating_partial
    (k := 2) (by norm_num) expected_expects double_expects rfl
    (fun u hu => by
      obtain ⟨x, y, -, -, e1, e2⟩ := comb u hu
      rw [e1, e2, double_background, ex_expectedBackground]
      push_cast
      simp only [List.map_cons, List.map_nil, List.cons.injEq, and_true]
      constructor <;> ring)
    (.cons ⟨rfl, .inr ⟨2, 2 * 2, rfl, rfl, by norm_num, le_rfl⟩⟩ (.cons ⟨rfl, .inl rfl⟩ .nil))
    (fun u hu v hv => by
      obtain ⟨x, y, ⟨hx, hy⟩, -, e1, -⟩ := comb u hu
      rw [e1, ex_expectedBackground] at hv
      have hx' : (7 : ℝ) ≤ x := by exact_mod_cast hx
      have hy' : (7 : ℝ) ≤ y := by exact_mod_cast hy
      have h1' : zeroThreshold ≤ 1 := by unfold zeroThreshold; norm_num
      refine h1'.trans ?_
      simp only [List.mem_cons, List.not_mem_nil, or_false] at hv
      rcases hv with rfl | rfl <;> linarith)
    (by
      intro s hs
      simp only [List.mem_cons, List.not_mem_nil, or_false] at hs
      rcases hs with rfl | rfl <;> norm_num)
  exact ⟨ses, st₁, u₁, w, ses', st₂, u₂, w', h1, h2, h3, h4, h5, h6, (h7 [] [] [0, 4, 10, 20]
    (ex_plain.2 [] (.inl rfl)) (ex_plain.2 [] (.inl rfl)) (by simp) ex_plain.1 [] (by simp) 2).1⟩

end Verif
