import Verif.Lemmas.LimitSystematic
import Verif.Props.FitSystematic
import Verif.Props.LimitFloating

/-! # C159: limits with systematic parameters -/

namespace Verif

open Session

variable {env : FitEnv} {keyOf : ℕ → PyStr} {a : FitArgs} {ts : List Spectrum} {r d : ℕ}
  {st : FitState} {rnd : ℝ → ℚ} {vss : List (List ℝ)}

/-- **C159.** A fit by grid search is made from data, floating backgrounds with one rate each, global
parameters (scale, shift or resolution) and perhaps fixed backgrounds, and a limit from it and a signal.
At the values `u`, `x u` are the contents of the region of the floating backgrounds, with all global
parameters applied, one after the other, and of the signal, with the last of them applied; `G₀ u` is
the statistic of the data and the sum of the fixed backgrounds and the floating ones scaled to their
rates, and `G s u` that with the signal scaled to `s` decays added (without it when `s` is zero, or
close to zero). Then both constructors succeed, and whatever limits have been set or statistics asked
for before: all parameters are fitted anew for every scaling, at the first of the combinations of their
values with the smallest sum of statistic and penalty; the limit is the first tested scaling from the
best one on at which the statistic there, with the penalty there, exceeds that of the best fit without
signal by more than the threshold; and when there is none the limit fails with `LimitError`. (Partial:
the suppositions of C99 and C62; at most one axis is projected out; the values are not rounded; with
global parameters interpolations follow multiplied contents, and decays and scalings are positive.) -/
theorem c159_limit_partial (h : a.LimitOn r d ts st)
    (he : (a.withSignal r).Evaluable env keyOf d st) (hy : a.Systematic st) {ns : List PyStr}
    (hns : RoiNames (st.view d).cfg (inOrder a.roi) ns) {c : ℕ → NdArray ℚ}
    (hc : ∀ q ∈ d :: a.fixed.map Prod.fst, RegionContents (inOrder a.roi) ns (st.view q) (c q))
    {search : GridSearch}
    (hsearch : SystematicSearch rnd search vss a.globalPars.length a.floating.length)
    (hsame : List.Forall₂ (fun p (q : FitPar) => q.prior = (st.params p).prior ∧
      q.sigma = (st.params p).sigma) (a.parameters st) search.pars)
    (hex : ∀ vs ∈ vss, ∀ x ∈ vs, ((rnd x : ℚ) : ℝ) = x) {x : List ℝ → ℕ → NdArray ℚ}
    (hx : ∀ u, Combination vss u → ∀ q ∈ a.floating,
      SystematicContents env st (inOrder a.roi) ns a.globalPars (a.globalPars.zip (u.map rnd))
        (st.view q) (x u q))
    (hxr : ∀ u, Combination vss u → LastContents env st (inOrder a.roi) ns a.globalPars
      (a.globalPars.zip (u.map rnd)) (st.view r) (x u r))
    (hhom : a.globalPars ≠ [] → SplineHom env.spline ∧ 0 < (st.view r).numDecays) :
    ∃ ses st' w, init keyOf a st = (st', .ok ses) ∧
      Fitter.limitInit ⟨ses, st', search⟩ r true = (w, .ok ()) ∧
      ∀ (calls : List LimitCall) (scales : List ℝ), Testable rnd (allScales calls ++ scales) →
      (a.globalPars ≠ [] → ∀ s ∈ allScales calls ++ scales, ¬ npCloseReal s 0 → 0 < rnd s) →
      scales ≠ [] → scales.Pairwise (· < ·) → ∀ (G₀ : List ℝ → ℝ) (G : ℝ → List ℝ → ℝ),
      (∀ u, Combination vss u → a.stat.Total (comparedContents a.singleBin (c d))
        (comparedContents a.singleBin (a.systematicAt st c (x u) (c d).shape
          ((u.map rnd).drop a.globalPars.length))) (G₀ u)) →
      (∀ s ∈ allScales calls ++ scales, ∀ u, Combination vss u → (npCloseReal s 0 → G s u = G₀ u) ∧
        (¬ npCloseReal s 0 → a.stat.Total (comparedContents a.singleBin (c d))
          (expectedAt (comparedContents a.singleBin (a.systematicAt st c (x u) (c d).shape
              ((u.map rnd).drop a.globalPars.length)))
            (comparedContents a.singleBin (x u r)) ((rnd s : ℝ) / ((st.view r).numDecays : ℝ)))
          (G s u))) →
      ∀ (sigmas : List (Option ℝ)), (∀ s ∈ sigmas, s ≠ none) → ∀ (limit : ℝ),
      ∃ (best₀ : List ℝ) (best : ℝ → List ℝ),
        FirstBest vss (fun u => G₀ u + a.penaltyAt st u) best₀ ∧
        (∀ s ∈ scales, FirstBest vss (fun u => G s u + a.penaltyAt st u) (best s)) ∧
        ∃ b, BestScale scales (fun s => G s (best s)) b ∧
          (∀ s, ((w.afterCalls env rnd r calls).limitOf env rnd r scales sigmas none limit).2 = .ok s ↔
            FirstCrossing scales (fun y => G y (best y) - G₀ best₀ + a.penaltyAt st (best y))
              b limit s) ∧
          (((w.afterCalls env rnd r calls).limitOf env rnd r scales sigmas none limit).2 =
              .error .limitError ↔
            ∀ y ∈ scales, b ≤ y → G y (best y) - G₀ best₀ + a.penaltyAt st (best y) ≤ limit) := by
  obtain ⟨ses, st', w, h1, h2, h3, h4, h5, h6, h7, h8, h9, f, f1, f2, f3, f4, f5, f6, f7, hev⟩ :=
    limit_systematic_evaluated h he hy hns hc search
  refine ⟨ses, st', w, h1, h2, fun calls scales ht hpos => ?_⟩
  have hone : ∀ q, ∃ p, q ∈ a.floating → (st.objs q).fit = some [p] := fun q => by
    by_cases hm : q ∈ a.floating
    · obtain ⟨p, hp⟩ := hy.one q hm
      exact ⟨p, fun _ => hp⟩
    · exact ⟨0, fun h => absurd h hm⟩
  choose par hp using hone
  have hpars := hy.parameters hp
  have hnum := hy.number
  have len : ∀ u, Combination vss u → (u.map rnd).length = (a.parameters st).length := fun u hu => by
    rw [List.length_map, hu.length_eq, hsearch.number, hnum]
  exact limit_searched (B := fun u => a.systematicAt st c (x u) (c d).shape
      ((u.map rnd).drop a.globalPars.length)) (T := fun u => x u r)
    (fun h0 => hy.floating (by
      rw [h0] at hnum
      exact List.length_eq_zero_iff.1 (by simp at hnum; omega)))
    hy.sigmas hy.statPerBin hy.perBin hsearch.ready hsearch.form hsearch.values hsearch.counts
    (hsearch.number.trans hnum.symm) hsearch.nodup hsearch.sigmas
    (fun u hu e hm hk => by
      rw [hpars, zip_append_drop _ _ _ (by rw [len u hu, hnum]; omega)] at hm
      rcases List.mem_append.1 hm with hm | hm
      · have hmem := (List.of_mem_zip hm).1
        obtain ⟨y, hy1, hy2⟩ := List.mem_map.1 hmem
        obtain ⟨hy3, hy4⟩ := List.mem_filter.1 hy1
        have := he.globals y hy3 hy4
        rw [hy2] at this
        exact absurd hk this
      · have hmem := (List.of_mem_zip hm).2
        rw [← List.map_drop] at hmem
        obtain ⟨y, hy1, hy2⟩ := List.mem_map.1 hmem
        obtain ⟨vs, hvs, hyv⟩ := forall₂_mem_left (List.forall₂_drop a.globalPars.length hu) hy1
        rw [← hy2]
        exact hsearch.nonzero vs hvs y hyv)
    hsame hex h3 h4 h5 h6 h8 f1 f2 f3 f4 f5 f6 f7
    (fun u hu => (hev _ (len u hu) (x u) (hx u hu) (hxr u hu)).1)
    (fun m hm hm' u hu => (hev _ (len u hu) (x u) (hx u hu) (hxr u hu)).2 m hm fun hne =>
      ⟨(hhom hne).1, div_pos (hm' (by rw [h7]; exact hne)) (hhom hne).2⟩)
    calls scales ht (fun hne => by
      rw [h7] at hne
      exact ⟨(hhom hne).1, by rw [h9]; exact (hhom hne).2, hpos hne⟩)

/-! ### a case that meets the hypotheses -/

namespace Ex

/-- The state with data of 10 and 5 in the region, and a fit configuration for the signal. -/
noncomputable def systematicLimitState : FitState := { fitState with
  objs := fun r => if r = 0 then { fitObj 0 with data := four 8 (19 / 2) 10 5 }
    else if r = 4 then { fitObj 4 with fit := some [2] } else fitObj r }

/-- Data, a fixed background, two floating ones and a global parameter for the resolution. -/
def systematicLimitArgs : FitArgs :=
  { limitArgs [2, 3] with config := [(lit "global", (2, true))] }

/-- What is expected in the first bin at these values, with the signal scaled to `x` decays. -/
noncomputable def systematicExpected (x v p q : ℝ) : ℝ :=
  (if v = 20 then 5 + 7 / 10 * p + 3 / 10 * q else 5 + 3 / 10 * p + 2 / 10 * q) + x / 2

/-- The statistic there. -/
noncomputable def systematicStat (x : ℝ) (u : List ℝ) : ℝ :=
  (10 - systematicExpected x (u.getD 0 0) (u.getD 1 0) (u.getD 2 0)) ^ 2 /
    systematicExpected x (u.getD 0 0) (u.getD 1 0) (u.getD 2 0)

end Ex

theorem ex_systematicView (r : ℕ) :
    Ex.systematicLimitState.view r = Ex.resolutionState.view r := by
  unfold FitState.view Ex.systematicLimitState Ex.resolutionState
  by_cases h0 : r = 0
  · subst h0; rfl
  · by_cases h4 : r = 4
    · subst h4; rfl
    · simp [h0, h4]

theorem ex_systematicLimitOn : Ex.systematicLimitArgs.LimitOn 4 0
    [(((Ex.systematicLimitState.view 1).shrink exFitKw).st.scale 20).st]
    Ex.systematicLimitState where
  given :=
    { region := (exWhole_given []).region
      some := by simp [Ex.systematicLimitArgs, Ex.limitArgs]
      alloc := resolution_given.alloc
      own := by
        show (([0, 4, 2, 3] ++ [1]).map (fun r => (Ex.systematicLimitState.objs r).cfg)).Nodup
        decide
      able := by
        intro r hr
        rw [ex_systematicView]
        exact resolution_given.able r hr
      fixed := by
        have h := (exWhole_given []).fixed
        refine ⟨h.alloc, h.own, h.region, h.dims, h.names, ?_, h.axes⟩
        refine .cons ⟨exFitKw, ?_, by decide +kernel, rfl, by decide +kernel⟩ .nil
        show AsksRoi [Ex.fitAxis] (inOrder [(lit "energy", ((2 : ℚ), (1 : ℚ)))]) exFitKw
        rw [exInit_roi]
        exact exFit_asks }
  settings :=
    { floating := fun _ => .inl (by simp [Ex.systematicLimitArgs])
      fixed := (fun h => by cases h)
      dimension := by simp [Ex.systematicLimitArgs, Ex.systematicLimitState, Ex.fitState, Ex.fitParam]
      perBin := by simp [Ex.systematicLimitArgs, Ex.limitArgs] }
  signal := rfl
  data := rfl
  axes := fun _ _ => rfl
  fit := by simp [Ex.systematicLimitState]
  decays := by simp [FitState.view, Ex.systematicLimitState, Ex.fitObj]
  region := by simp [FitState.view, Ex.systematicLimitState, Ex.fitState, Ex.systematicLimitArgs,
    Ex.limitArgs]

theorem ex_systematicEvaluable : (Ex.systematicLimitArgs.withSignal 4).Evaluable Ex.resolutionEnv
    Ex.keyOf 0 Ex.systematicLimitState := by
  have h := exWhole_evaluable (config := [(lit "global", (2, true))]) (.inr rfl)
  refine ⟨rfl, h.str, rfl, h.backgrounds, fun _ _ => rfl, h.dims, ?_, h.names, h.pars, h.globals,
    h.rates⟩
  intro r hr
  have : r = 2 ∨ r = 3 ∨ r = 4 := by simpa [Ex.systematicLimitArgs, Ex.limitArgs] using hr
  rcases this with rfl | rfl | rfl <;> simp [FitState.view, Ex.systematicLimitState, Ex.fitObj]

theorem ex_systematicLimit : Ex.systematicLimitArgs.Systematic Ex.systematicLimitState where
  floating := by simp [Ex.systematicLimitArgs, Ex.limitArgs]
  global := by simp [Ex.systematicLimitArgs]
  one := by
    intro r hr
    have : r = 2 ∨ r = 3 := by simpa [Ex.systematicLimitArgs, Ex.limitArgs] using hr
    rcases this with rfl | rfl
    · exact ⟨0, rfl⟩
    · exact ⟨1, rfl⟩
  sigmas := ex_systematic.sigmas
  statPerBin := rfl
  perBin := rfl

theorem ex_systematicPenalty (v p q : ℝ) :
    Ex.systematicLimitArgs.penaltyAt Ex.systematicLimitState [v, p, q] =
      ((v - 10) / 2) ^ 2 + ((p - 10) / 2) ^ 2 := by
  unfold FitArgs.penaltyAt
  rw [show Ex.systematicLimitArgs.parameters Ex.systematicLimitState = [2, 0, 1] from rfl]
  simp [Ex.systematicLimitState, Ex.fitState, Ex.fitParam, pull, Ex.systematicLimitArgs, Ex.limitArgs]

/-- The backgrounds in the region. -/
theorem ex_systematicBackground {v p q : ℝ} (hv : v = 10 ∨ v = 20) (hp : p = 8 ∨ p = 10)
    (hq : q = 7 ∨ q = 5 ∨ q = 3) :
    comparedContents false (Ex.systematicLimitArgs.systematicAt Ex.systematicLimitState
      Ex.resolutionContents (Ex.smearedContents [v, p, q]) [2] (([v, p, q].map Ex.toInt).drop 1)) =
    [Ex.systematicExpected 0 v p q, 5] := by
  have e : ∀ a : NdArray ℚ, a.shape = [2] → comparedContents false a =
      [((a.get [0] : ℚ) : ℝ), ((a.get [1] : ℚ) : ℝ)] := fun a ha => by
    unfold comparedContents
    rw [ha]
    rfl
  have d1 : (Ex.systematicLimitState.view 1).numDecays = 4 := rfl
  have d2 : (Ex.systematicLimitState.view 2).numDecays = 10 := rfl
  have d3 : (Ex.systematicLimitState.view 3).numDecays = 10 := rfl
  rw [e _ rfl]
  rcases hv with rfl | rfl <;> rcases hp with rfl | rfl <;> rcases hq with rfl | rfl | rfl <;>
    simp [FitArgs.systematicAt, Ex.systematicLimitArgs, Ex.limitArgs, Ex.resolutionContents,
      Ex.smearedContents, Ex.toInt, d1, d2, d3, Ex.systematicExpected] <;> norm_num

theorem ex_systematicTotal {e : ℝ} (h : 1 ≤ e) :
    Stat.pearson.Total [10, 5] [e, 5] ((10 - e) ^ 2 / e) := by
  have hlt : statEps < 1 := by unfold statEps; norm_num
  have h5 : ∀ y : ℝ, 1 ≤ y → ¬ y < statEps := fun y hy => not_lt.2 (hlt.le.trans hy)
  rw [total_iff _ (by simp)]
  simp only [List.zip_cons_cons, List.zip_nil_right, List.map_cons, List.map_nil, List.sum_cons,
    List.sum_nil, Stat.bin, pearsonBin, clampEps_of_ge (hlt.le.trans h),
    clampEps_of_ge (hlt.le.trans (show (1 : ℝ) ≤ 5 by norm_num))]
  rw [if_neg (h5 _ (by norm_num)), if_neg (h5 _ (by norm_num))]
  norm_num

theorem ex_systematicBounds {x v p q : ℝ} (hp : p = 8 ∨ p = 10) (hq : q = 7 ∨ q = 5 ∨ q = 3) :
    8 + x / 2 ≤ Ex.systematicExpected x v p q := by
  unfold Ex.systematicExpected
  rcases hp with rfl | rfl <;> rcases hq with rfl | rfl | rfl <;> split <;> linarith

/-- The limit for the threshold 3 is 20, after an earlier call; the resolution and the rates of the two
backgrounds are searched for on a grid of 2 times 2 times 3 values. -/
example : ∃ ses st' w, init Ex.keyOf Ex.systematicLimitArgs Ex.systematicLimitState = (st', .ok ses) ∧
    Fitter.limitInit ⟨ses, st', Ex.resolutionSearch⟩ 4 true = (w, .ok ()) ∧
    ((w.afterCalls Ex.resolutionEnv Ex.toInt 4 [.statistics [4]]).limitOf Ex.resolutionEnv Ex.toInt 4
      [0, 4, 20] [] none 3).2 = .ok 20 := by
  have hc : ∀ y : ℝ, 1 ≤ y → ¬ npCloseReal y 0 := by
    intro y hy
    unfold npCloseReal
    rw [sub_zero, abs_of_nonneg (by linarith)]
    norm_num
    linarith
  have hsm : ∀ u, Combination Ex.resolutionValues u → ∀ q, q = 2 ∨ q = 3 ∨ q = 4 →
      SystematicContents Ex.resolutionEnv Ex.systematicLimitState (inOrder Ex.systematicLimitArgs.roi)
        [lit "energy_mc"] Ex.systematicLimitArgs.globalPars
        (Ex.systematicLimitArgs.globalPars.zip (u.map Ex.toInt))
        (Ex.systematicLimitState.view q) (Ex.smearedContents u q) := by
    intro u hu q hq
    obtain ⟨t, w, t1, t2, t3, t4⟩ := resolution_smeared hu hq
    exact ⟨t, w, by rw [ex_systematicView]; exact t1, t2, t3.transfer (fun _ h => h) (fun _ => rfl), t4⟩
  obtain ⟨ses, st', w, h1, h2, h3⟩ := c159_limit_partial (env := Ex.resolutionEnv) (keyOf := Ex.keyOf)
    (rnd := Ex.toInt) (vss := Ex.resolutionValues) (search := Ex.resolutionSearch)
    (c := Ex.resolutionContents) (x := Ex.smearedContents) (ns := [lit "energy_mc"])
    ex_systematicLimitOn ex_systematicEvaluable ex_systematicLimit
    (by rw [ex_systematicView]; exact made_names)
    (by
      intro q hq
      rw [ex_systematicView]
      exact resolution_contents q hq)
    resolution_search (.cons ⟨rfl, rfl⟩ (.cons ⟨rfl, rfl⟩ (.cons ⟨rfl, rfl⟩ .nil))) (by
      intro vs hvs x hx
      have : vs = [10, 20] ∨ vs = [8, 10] ∨ vs = [7, 5, 3] := by
        simpa [Ex.resolutionValues] using hvs
      rcases this with rfl | rfl | rfl
      · have hx : x = 10 ∨ x = 20 := by simpa using hx
        rcases hx with rfl | rfl <;> simp [Ex.toInt]
      · have hx : x = 8 ∨ x = 10 := by simpa using hx
        rcases hx with rfl | rfl <;> simp [Ex.toInt]
      · have hx : x = 7 ∨ x = 5 ∨ x = 3 := by simpa using hx
        rcases hx with rfl | rfl | rfl <;> simp [Ex.toInt])
    (fun u hu q hq => hsm u hu q (by
      have : q = 2 ∨ q = 3 := by simpa [Ex.systematicLimitArgs, Ex.limitArgs] using hq
      tauto))
    (fun u hu => by
      obtain ⟨t, w, t1, t2, t3, t4⟩ := hsm u hu 4 (by simp)
      exact ⟨t, w, t1, t2, .inr ⟨[], 2, rfl, by simp, t3⟩, t4⟩)
    (fun _ => ⟨fun _ _ _ _ => rfl, by
      simp [FitState.view, Ex.systematicLimitState, Ex.fitObj]⟩)
  refine ⟨ses, st', w, h1, h2, ?_⟩
  have hsub : ∀ x ∈ allScales [.statistics [4]] ++ ([0, 4, 20] : List ℝ), x = 0 ∨ x = 4 ∨ x = 20 := by
    intro x hx
    have : x = 4 ∨ x = 0 ∨ x = 4 ∨ x = 20 := by simpa [allScales, LimitCall.scales] using hx
    tauto
  have hint : ∀ x : ℝ, x = 0 ∨ x = 4 ∨ x = 20 → ((Ex.toInt x : ℚ) : ℝ) = x := by
    rintro x (rfl | rfl | rfl) <;> simp [Ex.toInt]
  have hpos : ∀ x ∈ allScales [.statistics [4]] ++ ([0, 4, 20] : List ℝ), ¬ npCloseReal x 0 →
      0 < Ex.toInt x := by
    intro x hx hcl
    rcases hsub x hx with rfl | rfl | rfl
    · exact absurd (by unfold npCloseReal; norm_num) hcl
    · simp [Ex.toInt]
    · simp [Ex.toInt]
  have hdec : ((Ex.systematicLimitState.view 4).numDecays : ℝ) = 2 := by
    change (((2 : ℚ) : ℝ)) = 2
    norm_num
  have hdata : comparedContents false (Ex.resolutionContents 0) = [10, 5] := by
    show [(((10 : ℚ)) : ℝ), ((5 : ℚ) : ℝ)] = _
    norm_num
  have hsigc : ∀ u, comparedContents false (Ex.smearedContents u 4) = [1, 0] := fun u => by
    show [(((1 : ℚ)) : ℝ), ((0 : ℚ) : ℝ)] = _
    norm_num
  obtain ⟨u₀, best, k1, k2, b, hb, hiff, -⟩ := h3 [.statistics [4]] [0, 4, 20]
    (fun x hx hcl => (hpos x hx hcl).ne') (fun _ => hpos) (by simp) (by norm_num)
    (Ex.systematicStat 0) Ex.systematicStat
    (by
      intro u hu
      obtain ⟨v, p, q, rfl, hv, hp, hq⟩ := resolution_comb hu
      have := ex_systematicTotal (e := Ex.systematicExpected 0 v p q) (by
        have := ex_systematicBounds (x := 0) (v := v) hp hq
        linarith)
      have e := ex_systematicBackground hv hp hq
      rw [show Ex.systematicLimitArgs.singleBin = false from rfl, hdata,
        show (Ex.resolutionContents 0).shape = [2] from rfl,
        show Ex.systematicLimitArgs.globalPars.length = 1 from rfl, e]
      exact this)
    (by
      intro x hx u hu
      obtain ⟨v, p, q, rfl, hv, hp, hq⟩ := resolution_comb hu
      have hx := hsub x hx
      refine ⟨fun hcl => ?_, fun _ => ?_⟩
      · rcases hx with rfl | rfl | rfl
        · rfl
        · exact absurd hcl (hc _ (by norm_num))
        · exact absurd hcl (hc _ (by norm_num))
      have hx0 : 0 ≤ x := by rcases hx with rfl | rfl | rfl <;> norm_num
      have := ex_systematicTotal (e := Ex.systematicExpected x v p q) (by
        have := ex_systematicBounds (x := x) (v := v) hp hq
        linarith)
      have e := ex_systematicBackground hv hp hq
      have e' : expectedAt [Ex.systematicExpected 0 v p q, 5] [1, 0] (x / 2) =
          [Ex.systematicExpected x v p q, 5] := by
        simp [expectedAt, Ex.systematicExpected]
      rw [show Ex.systematicLimitArgs.singleBin = false from rfl, hdata,
        show (Ex.resolutionContents 0).shape = [2] from rfl,
        show Ex.systematicLimitArgs.globalPars.length = 1 from rfl, e, hsigc, hdec, hint x hx, e']
      exact this) [] (by simp) 3
  rw [hiff]
  have hb' : b ≤ 20 := by
    have h4 : b = 0 ∨ b = 4 ∨ b = 20 := by simpa using hb.1
    rcases h4 with rfl | rfl | rfl <;> norm_num
  have hat : ValuesAt Ex.resolutionValues [0, 1, 1] [10, 10, 5] :=
    ⟨.cons rfl (.cons rfl (.cons rfl .nil)), rfl⟩
  have hpen : ∀ u, Combination Ex.resolutionValues u →
      0 ≤ Ex.systematicLimitArgs.penaltyAt Ex.systematicLimitState u := by
    intro u hu
    obtain ⟨v, p, q, rfl, -, -, -⟩ := resolution_comb hu
    rw [ex_systematicPenalty]
    positivity
  have hnear : ∀ x : ℝ, x = 0 ∨ x = 4 → Ex.systematicStat x [10, 10, 5] +
      Ex.systematicLimitArgs.penaltyAt Ex.systematicLimitState [10, 10, 5] ≤ 1 / 9 := by
    intro x hx
    rw [ex_systematicPenalty]
    simp only [Ex.systematicStat, Ex.systematicExpected, List.getD_cons_zero, List.getD_cons_succ]
    rcases hx with rfl | rfl <;> norm_num
  obtain ⟨i₀, j1, j2⟩ := k1
  have hlow : 0 ≤ Ex.systematicStat 0 u₀ := by
    obtain ⟨v, p, q, rfl, -, hp, hq⟩ := resolution_comb j1.comb
    have := ex_systematicBounds (x := 0) (v := v) hp hq
    simp only [Ex.systematicStat, List.getD_cons_zero, List.getD_cons_succ]
    exact div_nonneg (sq_nonneg _) (by linarith)
  have hup : Ex.systematicStat 0 u₀ ≤ 1 / 9 := by
    have h1 := (j2 _ _ hat).1
    have h2 := hpen u₀ j1.comb
    have h3 := hnear 0 (.inl rfl)
    dsimp only at h1
    linarith
  have hsmall : ∀ x, (x = 0 ∨ x = 4) → x ∈ ([0, 4, 20] : List ℝ) →
      Ex.systematicStat x (best x) - Ex.systematicStat 0 u₀ +
        Ex.systematicLimitArgs.penaltyAt Ex.systematicLimitState (best x) ≤ 3 := by
    intro x hx hm
    obtain ⟨i, g1, g2⟩ := k2 x hm
    have h1 := (g2 _ _ hat).1
    have h3 := hnear x hx
    dsimp only at h1
    linarith
  refine ⟨by simp, hb', ?_, fun y hy _ hlt => ?_⟩
  · obtain ⟨i, g1, g2⟩ := k2 20 (by simp)
    have h2 := hpen _ g1.comb
    obtain ⟨v, p, q, e, -, hp, hq⟩ := resolution_comb g1.comb
    have h18 := ex_systematicBounds (x := 20) (v := v) hp hq
    have h5 : 7 / 2 ≤ Ex.systematicStat 20 (best 20) := by
      rw [e]
      simp only [Ex.systematicStat, List.getD_cons_zero, List.getD_cons_succ]
      generalize Ex.systematicExpected 20 v p q = y at h18 ⊢
      rw [le_div_iff₀ (by linarith)]
      nlinarith
    dsimp only
    linarith
  · have h4 : y = 0 ∨ y = 4 ∨ y = 20 := by simpa using hy
    rcases h4 with rfl | rfl | rfl
    · exact hsmall 0 (.inl rfl) hy
    · exact hsmall 4 (.inr rfl) hy
    · exact absurd hlt (lt_irrefl _)

end Verif
