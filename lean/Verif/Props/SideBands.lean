import Verif.Spec.SideBands
import Verif.Lemmas.Ranking
import Verif.Props.MoreDataFloating

/-! # C172: bins without signal do not matter for limits over fixed backgrounds -/

namespace Verif

open Session

variable {env : FitEnv} {keyOf : ℕ → PyStr} {a a' : FitArgs} {ts ts' : List Spectrum} {r d r' d' : ℕ}
  {st st' : FitState} {rnd : ℝ → ℚ} {obs bkg sig obs' bkg' sig' : List ℝ}

theorem expected_bins (s : Stat) (x : ℝ) : s.sumBins obs (expectedAt bkg sig x) =
    ((obs.zip (bkg.zip sig)).map (fun b => s.bin b.1 (b.2.1 + x * b.2.2))).sum := by
  unfold Stat.sumBins expectedAt
  congr 1
  induction obs generalizing bkg sig with
  | nil => simp
  | cons o obs ih =>
    cases bkg with
    | nil => simp
    | cons b bkg =>
      cases sig with
      | nil => simp
      | cons k sig => simp [ih]

/-- The bins without signal add the same for all scalings. -/
theorem sumBins_split (s : Stat) (x : ℝ) : s.sumBins obs (expectedAt bkg sig x) =
    ((signalBins obs bkg sig).map (fun b => s.bin b.1 (b.2.1 + x * b.2.2))).sum +
      (((obs.zip (bkg.zip sig)).filter (fun b => ¬ decide (b.2.2 ≠ 0))).map
        (fun b => s.bin b.1 b.2.1)).sum := by
  rw [expected_bins]
  unfold signalBins
  generalize obs.zip (bkg.zip sig) = L
  induction L with
  | nil => simp
  | cons b L ih =>
    rw [List.map_cons, List.sum_cons, ih]
    by_cases h : b.2.2 = 0
    · simp [h]
      ring
    · simp [h]
      ring

/-- **C172.** Two limits are set with the same statistic on signals over fixed backgrounds. The bins with
signal of the two hold the same observed events, background and signal, in whatever order; the bins without
signal may be any, in number and contents. Then the outcome, a limit or `LimitError`, is the same, for every
threshold and whatever limits have been set before. (Partial: as C168, but observed events, background and
signal may be any numbers.) -/
theorem c172_limit_partial (h : a.Counts r d ts st obs bkg sig)
    (h' : a'.Counts r' d' ts' st' obs' bkg' sig') (hstat : a'.stat = a.stat)
    (hbins : (signalBins obs' bkg' sig').Perm (signalBins obs bkg sig))
    (search search' : GridSearch) (hpars : search.pars = []) (hpars' : search'.pars = []) :
    ∃ ses₁ st₁ w₁ ses₂ st₂ w₂,
      init keyOf a st = (st₁, .ok ses₁) ∧ init keyOf a' st' = (st₂, .ok ses₂) ∧
      Fitter.limitInit ⟨ses₁, st₁, search⟩ r true = (w₁, .ok ()) ∧
      Fitter.limitInit ⟨ses₂, st₂, search'⟩ r' true = (w₂, .ok ()) ∧
      ∀ (calls calls' : List LimitCall) (scales : List ℝ), Testable rnd (allScales calls ++ scales) →
      Testable rnd (allScales calls' ++ scales) → PlainScales rnd scales →
      ∀ (sigmas : List (Option ℝ)), (∀ s ∈ sigmas, s ≠ none) → ∀ (limit : ℝ),
      ((w₂.afterCalls env rnd r' calls').limitOf env rnd r' scales sigmas none limit).2 =
        ((w₁.afterCalls env rnd r calls).limitOf env rnd r scales sigmas none limit).2 := by
  obtain ⟨ses₁, st₁, w₁, i1, i2, i3⟩ := h.outcome (env := env) (keyOf := keyOf) (rnd := rnd) search hpars
  obtain ⟨ses₂, st₂, w₂, j1, j2, j3⟩ := h'.outcome (env := env) (keyOf := keyOf) (rnd := rnd) search' hpars'
  refine ⟨ses₁, st₁, w₁, ses₂, st₂, w₂, i1, j1, i2, j2, ?_⟩
  intro calls calls' scales ht ht' hp sigmas hsg limit
  obtain ⟨b, hb, b1, b2⟩ := i3 calls scales ht hp sigmas hsg limit
  obtain ⟨b', hb', b1', b2'⟩ := j3 calls' scales ht' hp sigmas hsg limit
  rw [hstat] at hb' b1' b2'
  have same : ∀ x : ℝ,
      ((signalBins obs' bkg' sig').map (fun b => a.stat.bin b.1 (b.2.1 + x * b.2.2))).sum =
        ((signalBins obs bkg sig).map (fun b => a.stat.bin b.1 (b.2.1 + x * b.2.2))).sum := fun x =>
    (hbins.map _).sum_eq
  have diff : ∀ x y : ℝ, a.stat.sumBins obs' (expectedAt bkg' sig' x) -
        a.stat.sumBins obs' (expectedAt bkg' sig' y) =
      a.stat.sumBins obs (expectedAt bkg sig x) - a.stat.sumBins obs (expectedAt bkg sig y) := fun x y => by
    rw [sumBins_split, sumBins_split, sumBins_split (obs := obs), sumBins_split (obs := obs), same x, same y]
    ring
  have e0 := expectedAt_zero h.lengths.2
  have e0' := expectedAt_zero h'.lengths.2
  have hbb : b' = b := bestScale_affine (F := fun x => a.stat.sumBins obs' (expectedAt bkg' sig' x))
    (F' := fun x => a.stat.sumBins obs (expectedAt bkg sig x)) (k := 1)
    (m := a.stat.sumBins obs' (expectedAt bkg' sig' 0) - a.stat.sumBins obs (expectedAt bkg sig 0)) one_pos
    (fun y _ => by
      have := diff y 0
      linarith) hb' hb
  refine outcome_affine (k := 1) (limit := limit) one_pos (fun y _ => ?_) hbb
    (fun x => by rw [one_mul]; exact b1' x) (by rw [one_mul]; exact b2') b1 b2 hp.increasing
    hb.1
  have := diff y 0
  rw [e0, e0'] at this
  linarith

/-- With `n` events observed in the bin without signal. -/
theorem side_counts {n : ℚ} (hn : n = 8 ∨ n = 30) : (Ex.limitArgs []).Counts 4 0
    [(((Ex.sideState n).view 1).shrink exFitKw).st.scale 20 |>.st] (Ex.sideState n) [7, (n : ℝ)] [5, 5]
      [1 / 2, 0] where
  limitOn :=
    have h := ex_limitOn (.inl rfl)
    have h' := side_limitOn hn
    have hk : ∀ q ∈ ((Ex.limitArgs []).withSignal 4).kept ++ (Ex.limitArgs []).fixed.map Prod.fst,
        q ∈ ((Ex.limitArgs [2, 3]).withSignal 4).kept ++ (Ex.limitArgs [2, 3]).fixed.map Prod.fst := by
      intro q hq
      have : q ∈ [0, 4, 1] := hq
      show q ∈ [0, 4, 2, 3, 1]
      simp only [List.mem_cons, List.not_mem_nil, or_false] at this ⊢
      tauto
    { given :=
        { region := h.given.region
          some := h.given.some
          alloc := h.given.alloc
          own := by
            show ([0, 4, 1] : List ℕ).Nodup
            decide
          able := fun q hq => h'.given.able q (hk q hq)
          fixed := h'.given.fixed }
      settings := ⟨by simp [Ex.limitArgs], by simp [Ex.limitArgs], by simp [Ex.limitArgs],
        by simp [Ex.limitArgs]⟩
      signal := rfl
      data := rfl
      axes := fun _ _ => rfl
      fit := h'.fit
      decays := h.decays
      region := h.region }
  fixed := by simp [Ex.limitArgs]
  floating := rfl
  statPerBin := rfl
  contents := by
    have e : allIdx [2] = [[0], [1]] := rfl
    have h1 : ((Ex.sideState n).view 1).numDecays = 4 := rfl
    have hd : ((((Ex.sideState n).view 4).numDecays : ℚ) : ℝ) = 2 := ex_limitDecays
    refine ⟨_, Ex.sideContents n, ex_limitNames, fun q hq => side_contents hn q ?_, ?_, ?_, ?_⟩
    · have : q ∈ [0, 4, 1] := hq
      show q ∈ [0, 4, 2, 3, 1]
      simp only [List.mem_cons, List.not_mem_nil, or_false] at this ⊢
      tauto
    · rw [show (Ex.limitArgs []).singleBin = false from rfl]
      simp [comparedContents, Ex.sideContents, e]
    · rw [show (Ex.limitArgs []).singleBin = false from rfl]
      simp only [comparedContents, FitArgs.fixedTotal, Bool.false_eq_true, if_false]
      show _ = (allIdx [2]).map _
      rw [e]
      simp [Ex.limitArgs, Ex.sideContents, Ex.limitContents, h1]
      norm_num
    · rw [show (Ex.limitArgs []).singleBin = false from rfl, hd]
      show _ = (comparedContents false (Ex.limitContents 4)).map _
      rw [ex_limitCompared.2.2]
      norm_num

theorem side_bins (n : ℝ) : signalBins [7, n] [5, 5] [1 / 2, 0] = [(7, 5, 1 / 2)] := by
  simp [signalBins]

/-- With 8 or 30 events in the bin without signal, the outcomes are the same. -/
example : ∃ ses₁ st₁ w₁ ses₂ st₂ w₂,
    init Ex.keyOf (Ex.limitArgs []) (Ex.sideState 8) = (st₁, .ok ses₁) ∧
    init Ex.keyOf (Ex.limitArgs []) (Ex.sideState 30) = (st₂, .ok ses₂) ∧
    Fitter.limitInit ⟨ses₁, st₁, GridSearch.new [] [] none false⟩ 4 true = (w₁, .ok ()) ∧
    Fitter.limitInit ⟨ses₂, st₂, GridSearch.new [] [] none false⟩ 4 true = (w₂, .ok ()) ∧
    ((w₂.afterCalls Ex.fitEnv Ex.toInt 4 [.statistics [4]]).limitOf Ex.fitEnv Ex.toInt 4
      [0, 4, 10, 20] [] none 3).2 =
      ((w₁.afterCalls Ex.fitEnv Ex.toInt 4 []).limitOf Ex.fitEnv Ex.toInt 4 [0, 4, 10, 20] [] none 3).2 := by
  obtain ⟨ses₁, st₁, w₁, ses₂, st₂, w₂, h1, h2, h3, h4, h5⟩ := c172_limit_partial (env := Ex.fitEnv)
    (keyOf := Ex.keyOf) (rnd := Ex.toInt) (side_counts (n := 8) (.inl rfl)) (side_counts (n := 30) (.inr rfl))
    rfl (by rw [side_bins, side_bins]) (GridSearch.new [] [] none false) (GridSearch.new [] [] none false)
    rfl rfl
  exact ⟨ses₁, st₁, w₁, ses₂, st₂, w₂, h1, h2, h3, h4, h5 _ _ _ (ex_plain.2 _ (.inl rfl))
    (ex_plain.2 _ (.inr rfl)) ex_plain.1 [] (by simp) 3⟩

/-- **C172, negation with floating backgrounds.** There the bins without signal do matter: two programs that
differ in nothing but the number of events observed in a bin without signal have different limits, as that
bin decides about the rate of a background. -/
theorem c172_floating_negation : ∃ ses₁ st₁ w₁ ses₂ st₂ w₂,
    (Ex.sideState 30).objs 0 = { (Ex.sideState 8).objs 0 with data := Ex.four 5 6 7 30 } ∧
    (∀ r ≠ 0, (Ex.sideState 30).objs r = (Ex.sideState 8).objs r) ∧
    ((Ex.sideState 8).objs 0).data = Ex.four 5 6 7 8 ∧
    comparedContents false (Ex.sideContents 8 4) = [1, 0] ∧
    init Ex.keyOf (Ex.limitArgs [2, 3]) (Ex.sideState 8) = (st₁, .ok ses₁) ∧
    init Ex.keyOf (Ex.limitArgs [2, 3]) (Ex.sideState 30) = (st₂, .ok ses₂) ∧
    Fitter.limitInit ⟨ses₁, st₁, Ex.sideSearch⟩ 4 true = (w₁, .ok ()) ∧
    Fitter.limitInit ⟨ses₂, st₂, Ex.sideSearch⟩ 4 true = (w₂, .ok ()) ∧
    (w₁.limitOf Ex.fitEnv Ex.toInt 4 [0, 4, 10, 20] [] none (3 / 2)).2 ≠
      (w₂.limitOf Ex.fitEnv Ex.toInt 4 [0, 4, 10, 20] [] none (3 / 2)).2 := by
  obtain ⟨ses₁, st₁, w₁, ses₂, st₂, w₂, h1, h2, h3, h4, h5, h6, h7, h8, h9⟩ := c168_floating_negation
  refine ⟨ses₁, st₁, w₁, ses₂, st₂, w₂, h1, h2, h3, ex_limitCompared.2.2, h4, h5, h6, h7, ?_⟩
  rw [h8, h9]
  intro h
  have := Except.ok.inj h
  norm_num at this

end Verif
