import Verif.Lemmas.Expected
import Verif.Props.Coarser

/-! # C173: expected limits with more background, signal or exposure -/

namespace Verif

open Session

variable {env : FitEnv} {keyOf : ℕ → PyStr} {a a' : FitArgs} {ts ts' : List Spectrum} {r d r' d' : ℕ}
  {st st' : FitState} {rnd : ℝ → ℚ} {bkg sig bkg' sig' : List ℝ}

/-- **C173, background.** Two limits are set with the same statistic on a signal over fixed backgrounds, and
in both the expected background is observed. It is at or above the threshold in all bins, the signal is not
negative, and scaling zero is tested. In the second program more background is expected (or the same) in
every bin. Then, whatever limits have been set before, the expected limit of the second is not smaller: if
it is `x'`, that of the first is some `x` that is not larger; and if the first fails with `LimitError`, so
does the second. (Partial: as C168. There, with the same events observed, more background strengthens the
limit.) -/
theorem c173_background_partial (h : a.Counts r d ts st bkg bkg sig)
    (h' : a'.Counts r' d' ts' st' bkg' bkg' sig) (hstat : a'.stat = a.stat)
    (hbb : List.Forall₂ (· ≤ ·) bkg bkg') (hb : ∀ b ∈ bkg, zeroThreshold ≤ b) (hs : ∀ k ∈ sig, 0 ≤ k)
    (search search' : GridSearch) (hpars : search.pars = []) (hpars' : search'.pars = []) :
    ∃ ses₁ st₁ w₁ ses₂ st₂ w₂,
      init keyOf a st = (st₁, .ok ses₁) ∧ init keyOf a' st' = (st₂, .ok ses₂) ∧
      Fitter.limitInit ⟨ses₁, st₁, search⟩ r true = (w₁, .ok ()) ∧
      Fitter.limitInit ⟨ses₂, st₂, search'⟩ r' true = (w₂, .ok ()) ∧
      ∀ (calls calls' : List LimitCall) (scales : List ℝ), Testable rnd (allScales calls ++ scales) →
      Testable rnd (allScales calls' ++ scales) → PlainScales rnd scales → 0 ∈ scales →
      ∀ (sigmas : List (Option ℝ)), (∀ s ∈ sigmas, s ≠ none) → ∀ (limit : ℝ),
      (∀ x', ((w₂.afterCalls env rnd r' calls').limitOf env rnd r' scales sigmas none limit).2 = .ok x' →
        ∃ x, x ≤ x' ∧
          ((w₁.afterCalls env rnd r calls).limitOf env rnd r scales sigmas none limit).2 = .ok x) ∧
      (((w₁.afterCalls env rnd r calls).limitOf env rnd r scales sigmas none limit).2 =
          .error .limitError →
        ((w₂.afterCalls env rnd r' calls').limitOf env rnd r' scales sigmas none limit).2 =
          .error .limitError) := by
  refine asimov_ordered h h' hb hs ?_ hs ?_ search search' hpars hpars'
  · clear * - hbb hb
    induction hbb with
    | nil => simp
    | cons h1 _ ih =>
      intro b hm
      rcases List.mem_cons.1 hm with rfl | hm
      · exact (hb _ (by simp)).trans h1
      · exact ih (fun b hb' => hb b (by simp [hb'])) b hm
  · intro x hx
    rw [sumBins_bins, sumBins_bins, hstat]
    clear * - hbb hb hs hx
    induction hbb generalizing sig with
    | nil => simp
    | cons h1 _ ih =>
      cases sig with
      | nil => simp
      | cons k sig =>
        simp only [List.zip_cons_cons, List.map_cons, List.sum_cons]
        exact add_le_add (excess_background _ (hb _ (by simp)) h1 (mul_nonneg hx (hs k (by simp))))
          (ih (fun b hb' => hb b (by simp [hb'])) (fun k hk => hs k (by simp [hk])))

/-- **C173, signal.** As before, but with the same background, and in the first program more signal for each
decay (or the same) in every bin. Then the expected limit of the first is not larger. (Partial: as C168,
where the signal has to grow by one factor.) -/
theorem c173_signal_partial (h : a.Counts r d ts st bkg bkg sig)
    (h' : a'.Counts r' d' ts' st' bkg bkg sig') (hstat : a'.stat = a.stat)
    (hss : List.Forall₂ (· ≤ ·) sig' sig) (hb : ∀ b ∈ bkg, zeroThreshold ≤ b) (hs : ∀ k ∈ sig', 0 ≤ k)
    (search search' : GridSearch) (hpars : search.pars = []) (hpars' : search'.pars = []) :
    ∃ ses₁ st₁ w₁ ses₂ st₂ w₂,
      init keyOf a st = (st₁, .ok ses₁) ∧ init keyOf a' st' = (st₂, .ok ses₂) ∧
      Fitter.limitInit ⟨ses₁, st₁, search⟩ r true = (w₁, .ok ()) ∧
      Fitter.limitInit ⟨ses₂, st₂, search'⟩ r' true = (w₂, .ok ()) ∧
      ∀ (calls calls' : List LimitCall) (scales : List ℝ), Testable rnd (allScales calls ++ scales) →
      Testable rnd (allScales calls' ++ scales) → PlainScales rnd scales → 0 ∈ scales →
      ∀ (sigmas : List (Option ℝ)), (∀ s ∈ sigmas, s ≠ none) → ∀ (limit : ℝ),
      (∀ x', ((w₂.afterCalls env rnd r' calls').limitOf env rnd r' scales sigmas none limit).2 = .ok x' →
        ∃ x, x ≤ x' ∧
          ((w₁.afterCalls env rnd r calls).limitOf env rnd r scales sigmas none limit).2 = .ok x) ∧
      (((w₁.afterCalls env rnd r calls).limitOf env rnd r scales sigmas none limit).2 =
          .error .limitError →
        ((w₂.afterCalls env rnd r' calls').limitOf env rnd r' scales sigmas none limit).2 =
          .error .limitError) := by
  refine asimov_ordered h h' hb ?_ hb hs ?_ search search' hpars hpars'
  · clear * - hss hs
    induction hss with
    | nil => simp
    | cons h1 _ ih =>
      intro b hm
      rcases List.mem_cons.1 hm with rfl | hm
      · exact (hs _ (by simp)).trans h1
      · exact ih (fun b hb' => hs b (by simp [hb'])) b hm
  · intro x hx
    rw [sumBins_bins, sumBins_bins, hstat]
    clear * - hss hb hs hx
    induction hss generalizing bkg with
    | nil => simp
    | cons h1 _ ih =>
      cases bkg with
      | nil => simp
      | cons b bkg =>
        simp only [List.zip_cons_cons, List.map_cons, List.sum_cons]
        exact add_le_add (excess_signal _ (hb _ (by simp)) (mul_nonneg hx (hs _ (by simp)))
          (mul_le_mul_of_nonneg_left h1 hx))
          (ih (fun b hb' => hb b (by simp [hb'])) (fun k hk => hs k (by simp [hk])))

/-- **C173, exposure.** As before, but in the first program background and signal are those of the second
times a factor that is at least one. Then the expected limit of the first is not larger. (Partial: as
C168.) -/
theorem c173_exposure_partial {k : ℝ} (hk : 1 ≤ k)
    (h : a.Counts r d ts st (bkg.map (fun b => k * b)) (bkg.map (fun b => k * b)) (sig.map (fun s => k * s)))
    (h' : a'.Counts r' d' ts' st' bkg bkg sig) (hstat : a'.stat = a.stat)
    (hb : ∀ b ∈ bkg, zeroThreshold ≤ b) (hs : ∀ s ∈ sig, 0 ≤ s)
    (search search' : GridSearch) (hpars : search.pars = []) (hpars' : search'.pars = []) :
    ∃ ses₁ st₁ w₁ ses₂ st₂ w₂,
      init keyOf a st = (st₁, .ok ses₁) ∧ init keyOf a' st' = (st₂, .ok ses₂) ∧
      Fitter.limitInit ⟨ses₁, st₁, search⟩ r true = (w₁, .ok ()) ∧
      Fitter.limitInit ⟨ses₂, st₂, search'⟩ r' true = (w₂, .ok ()) ∧
      ∀ (calls calls' : List LimitCall) (scales : List ℝ), Testable rnd (allScales calls ++ scales) →
      Testable rnd (allScales calls' ++ scales) → PlainScales rnd scales → 0 ∈ scales →
      ∀ (sigmas : List (Option ℝ)), (∀ s ∈ sigmas, s ≠ none) → ∀ (limit : ℝ),
      (∀ x', ((w₂.afterCalls env rnd r' calls').limitOf env rnd r' scales sigmas none limit).2 = .ok x' →
        ∃ x, x ≤ x' ∧
          ((w₁.afterCalls env rnd r calls).limitOf env rnd r scales sigmas none limit).2 = .ok x) ∧
      (((w₁.afterCalls env rnd r calls).limitOf env rnd r scales sigmas none limit).2 =
          .error .limitError →
        ((w₂.afterCalls env rnd r' calls').limitOf env rnd r' scales sigmas none limit).2 =
          .error .limitError) := by
  have h0 : 0 < zeroThreshold := statEps_pos
  refine asimov_ordered h h' (fun b hm => ?_) (fun s hm => ?_) hb hs ?_ search search' hpars hpars'
  · obtain ⟨b, hm', rfl⟩ := List.mem_map.1 hm
    have := hb b hm'
    exact this.trans (le_mul_of_one_le_left (h0.le.trans this) hk)
  · obtain ⟨s, hm', rfl⟩ := List.mem_map.1 hm
    exact mul_nonneg (by linarith) (hs s hm')
  · intro x hx
    rw [sumBins_bins, sumBins_bins, hstat]
    clear * - hb hs hx hk
    induction bkg generalizing sig with
    | nil => simp
    | cons b bkg ih =>
      cases sig with
      | nil => simp
      | cons s sig =>
        simp only [List.map_cons, List.zip_cons_cons, List.sum_cons]
        refine add_le_add ?_ (ih (fun b hb' => hb b (by simp [hb'])) (fun k hk => hs k (by simp [hk])))
        rw [mul_left_comm x k s, excess_exposure _ (hb b (by simp)) (mul_nonneg hx (hs s (by simp))) hk]
        exact le_mul_of_one_le_left (bin_nonneg (Stat.core_ne _) _ _) hk

/-! ### cases that meet the hypotheses -/

namespace Ex

/-- The data hold `m` events in each bin, and the contents of the signal stand for `n` decays. -/
noncomputable def levelState (m n : ℚ) : FitState := { limitState with
  objs := fun r => if r = 0 then { limitState.objs 0 with data := four m m m m }
    else if r = 4 then { limitState.objs 4 with numDecays := n } else limitState.objs r }

/-- Contents of the region from 1 to 2. -/
def levelContents (m : ℚ) (r : ℕ) : NdArray ℚ :=
  if r = 0 then ⟨[2], fun _ => m⟩ else limitContents r

end Ex

theorem level_contents {m n : ℚ} (hm : m = 1 ∨ m = 2) (hn : n = 1 ∨ n = 2) : ∀ r < 5,
    RegionContents (inOrder (Ex.limitArgs []).roi) [lit "energy_mc"] ((Ex.levelState m n).view r)
      (Ex.levelContents m r) := by
  intro r hr
  have key : ∀ r < 5, (((Ex.levelState m n).view r).shrink exFitKw).err = none ∧
      pick [lit "energy_mc"] ((((Ex.levelState m n).view r).shrink exFitKw).st.cfg.map SPar.name)
        (((Ex.levelState m n).view r).shrink exFitKw).st.data.shape = [2] ∧
      ∀ idx ∈ allIdx [2], (Ex.levelContents m r).get idx =
        sumIdx (((Ex.levelState m n).view r).shrink exFitKw).st.data.shape (fun full =>
          if pick [lit "energy_mc"] ((((Ex.levelState m n).view r).shrink exFitKw).st.cfg.map SPar.name) full =
            idx then (((Ex.levelState m n).view r).shrink exFitKw).st.data.get full else 0) := by
    rcases hm with rfl | rfl <;> rcases hn with rfl | rfl <;> decide +kernel
  obtain ⟨k1, k2, k3⟩ := key r hr
  refine ⟨(((Ex.levelState m n).view r).shrink exFitKw).st, ⟨exFitKw, ?_, k1,
    ⟨⟨rfl, rfl, rfl, rfl, rfl⟩, rfl, fun _ _ => rfl⟩⟩, ?_, fun idx hi => ?_⟩
  · show AsksRoi [Ex.fitAxis] (inOrder [(lit "energy", ((2 : ℚ), (1 : ℚ)))]) exFitKw
    rw [exInit_roi]
    exact exFit_asks
  · rw [k2]
    unfold Ex.levelContents
    split <;> rfl
  · refine k3 idx (mem_allIdx.2 ?_)
    unfold Ex.levelContents at hi
    split at hi <;> exact hi

theorem level_counts {m n : ℚ} (hm : m = 1 ∨ m = 2) (hn : n = 1 ∨ n = 2) :
    (Ex.heldArgs (4 * m)).Counts 4 0
    [((((Ex.levelState m n).view 1).shrink exFitKw).st.scale (4 * m)).st] (Ex.levelState m n)
      [(m : ℝ), (m : ℝ)] [(m : ℝ), (m : ℝ)] [1 / (n : ℝ), 0] where
  limitOn :=
    have h := ex_limitOn (.inl rfl)
    { given :=
        { region := h.given.region
          some := h.given.some
          alloc := h.given.alloc
          own := by
            show ([0, 4, 1] : List ℕ).Nodup
            decide
          able := by
            intro q hq
            have hm : q = 0 ∨ q = 4 ∨ q = 1 := by
              have : q ∈ [0, 4, 1] := hq
              simpa using this
            have h := h.given.able q hq
            rcases hm with rfl | rfl | rfl <;>
              exact ⟨⟨h.wf.axes, h.wf.names, h.wf.shape⟩, h.aligned, h.dims, h.edges, h.has⟩
          fixed := by
            have h := h.given.fixed
            refine ⟨h.alloc, h.own, h.region, fun e he => ?_, fun e he => ?_, ?_, ?_⟩
            · obtain rfl : e = (1, 4 * m) := List.mem_singleton.1 he
              exact h.dims (1, 20) (List.mem_singleton_self _)
            · obtain rfl : e = (1, 4 * m) := List.mem_singleton.1 he
              exact h.names (1, 20) (List.mem_singleton_self _)
            · refine .cons ⟨exFitKw, ?_, ?_, rfl, ?_⟩ .nil
              · show AsksRoi [Ex.fitAxis] (inOrder [(lit "energy", ((2 : ℚ), (1 : ℚ)))]) exFitKw
                rw [exInit_roi]
                exact exFit_asks
              · rcases hm with rfl | rfl <;> rcases hn with rfl | rfl <;> decide +kernel
              · rcases hm with rfl | rfl <;> rcases hn with rfl | rfl <;> decide +kernel
            · simp }
      settings := ⟨by simp [Ex.heldArgs, Ex.limitArgs], by simp [Ex.heldArgs, Ex.limitArgs],
        by simp [Ex.heldArgs, Ex.limitArgs], by simp [Ex.heldArgs, Ex.limitArgs]⟩
      signal := rfl
      data := rfl
      axes := fun _ _ => rfl
      fit := by simp [Ex.levelState, Ex.limitState]
      decays := by
        show n ≠ 0
        rcases hn with rfl | rfl <;> norm_num
      region := h.region }
  fixed := by simp [Ex.heldArgs]
  floating := rfl
  statPerBin := rfl
  contents := by
    have e : allIdx [2] = [[0], [1]] := rfl
    have hd : ((Ex.levelState m n).view 4).numDecays = n := rfl
    have h1 : ((Ex.levelState m n).view 1).numDecays = 4 := rfl
    refine ⟨_, Ex.levelContents m, ex_limitNames, fun q hq => ?_, ?_, ?_, ?_⟩
    · have : q ∈ [0, 4, 1] := hq
      refine level_contents hm hn q ?_
      simp only [List.mem_cons, List.not_mem_nil, or_false] at this
      omega
    · rw [show (Ex.heldArgs (4 * m)).singleBin = false from rfl]
      simp [comparedContents, Ex.levelContents, e]
    · rw [show (Ex.heldArgs (4 * m)).singleBin = false from rfl]
      simp only [comparedContents, FitArgs.fixedTotal, Bool.false_eq_true, if_false]
      show _ = (allIdx [2]).map _
      rw [e]
      simp [Ex.heldArgs, Ex.levelContents, Ex.limitContents, h1]
    · rw [show (Ex.heldArgs (4 * m)).singleBin = false from rfl, hd]
      show _ = (comparedContents false (Ex.limitContents 4)).map _
      rw [ex_limitCompared.2.2]
      simp

/-- One expected event in each bin instead of two. -/
example : ∃ ses₁ st₁ w₁ ses₂ st₂ w₂,
    init Ex.keyOf (Ex.heldArgs (4 * 1)) (Ex.levelState 1 2) = (st₁, .ok ses₁) ∧
    init Ex.keyOf (Ex.heldArgs (4 * 2)) (Ex.levelState 2 2) = (st₂, .ok ses₂) ∧
    Fitter.limitInit ⟨ses₁, st₁, GridSearch.new [] [] none false⟩ 4 true = (w₁, .ok ()) ∧
    Fitter.limitInit ⟨ses₂, st₂, GridSearch.new [] [] none false⟩ 4 true = (w₂, .ok ()) ∧
    (((w₂.afterCalls Ex.fitEnv Ex.toInt 4 [.statistics [4]]).limitOf Ex.fitEnv Ex.toInt 4
      [0, 4, 10, 20] [] none 3).2 = .ok 10 → ∃ x ≤ 10,
      ((w₁.afterCalls Ex.fitEnv Ex.toInt 4 []).limitOf Ex.fitEnv Ex.toInt 4 [0, 4, 10, 20] [] none 3).2 =
        .ok x) := by
  have h := level_counts (m := 1) (n := 2) (by norm_num) (by norm_num)
  have h' := level_counts (m := 2) (n := 2) (by norm_num) (by norm_num)
  obtain ⟨ses₁, st₁, w₁, ses₂, st₂, w₂, h1, h2, h3, h4, h5⟩ := c173_background_partial (env := Ex.fitEnv)
    (keyOf := Ex.keyOf) (rnd := Ex.toInt) h h' rfl (.cons (by norm_num) (.cons (by norm_num) .nil))
    (by norm_num [zeroThreshold]) (by norm_num)
    (GridSearch.new [] [] none false) (GridSearch.new [] [] none false) rfl rfl
  exact ⟨ses₁, st₁, w₁, ses₂, st₂, w₂, h1, h2, h3, h4, fun h => (h5 [] _ _ (ex_plain.2 _ (.inl rfl))
    (ex_plain.2 _ (.inr rfl)) ex_plain.1 (by simp) [] (by simp) 3).1 10 h⟩

/-- Twice as much signal for each decay. -/
example : ∃ ses₁ st₁ w₁ ses₂ st₂ w₂,
    init Ex.keyOf (Ex.heldArgs (4 * 1)) (Ex.levelState 1 1) = (st₁, .ok ses₁) ∧
    init Ex.keyOf (Ex.heldArgs (4 * 1)) (Ex.levelState 1 2) = (st₂, .ok ses₂) ∧
    Fitter.limitInit ⟨ses₁, st₁, GridSearch.new [] [] none false⟩ 4 true = (w₁, .ok ()) ∧
    Fitter.limitInit ⟨ses₂, st₂, GridSearch.new [] [] none false⟩ 4 true = (w₂, .ok ()) ∧
    (((w₂.afterCalls Ex.fitEnv Ex.toInt 4 [.statistics [4]]).limitOf Ex.fitEnv Ex.toInt 4
      [0, 4, 10, 20] [] none 3).2 = .ok 10 → ∃ x ≤ 10,
      ((w₁.afterCalls Ex.fitEnv Ex.toInt 4 []).limitOf Ex.fitEnv Ex.toInt 4 [0, 4, 10, 20] [] none 3).2 =
        .ok x) := by
  have h := level_counts (m := 1) (n := 1) (by norm_num) (by norm_num)
  have h' := level_counts (m := 1) (n := 2) (by norm_num) (by norm_num)
  obtain ⟨ses₁, st₁, w₁, ses₂, st₂, w₂, h1, h2, h3, h4, h5⟩ := c173_signal_partial (env := Ex.fitEnv)
    (keyOf := Ex.keyOf) (rnd := Ex.toInt) h h' rfl (.cons (by norm_num) (.cons (by norm_num) .nil))
    (by norm_num [zeroThreshold]) (by norm_num)
    (GridSearch.new [] [] none false) (GridSearch.new [] [] none false) rfl rfl
  exact ⟨ses₁, st₁, w₁, ses₂, st₂, w₂, h1, h2, h3, h4, fun h => (h5 [] _ _ (ex_plain.2 _ (.inl rfl))
    (ex_plain.2 _ (.inr rfl)) ex_plain.1 (by simp) [] (by simp) 3).1 10 h⟩

/-- Twice the exposure. -/
example : ∃ ses₁ st₁ w₁ ses₂ st₂ w₂,
    init Ex.keyOf (Ex.heldArgs (4 * 2)) (Ex.levelState 2 1) = (st₁, .ok ses₁) ∧
    init Ex.keyOf (Ex.heldArgs (4 * 1)) (Ex.levelState 1 2) = (st₂, .ok ses₂) ∧
    Fitter.limitInit ⟨ses₁, st₁, GridSearch.new [] [] none false⟩ 4 true = (w₁, .ok ()) ∧
    Fitter.limitInit ⟨ses₂, st₂, GridSearch.new [] [] none false⟩ 4 true = (w₂, .ok ()) ∧
    (((w₂.afterCalls Ex.fitEnv Ex.toInt 4 [.statistics [4]]).limitOf Ex.fitEnv Ex.toInt 4
      [0, 4, 10, 20] [] none 3).2 = .ok 10 → ∃ x ≤ 10,
      ((w₁.afterCalls Ex.fitEnv Ex.toInt 4 []).limitOf Ex.fitEnv Ex.toInt 4 [0, 4, 10, 20] [] none 3).2 =
        .ok x) := by
  have h := level_counts (m := 2) (n := 1) (by norm_num) (by norm_num)
  have h' := level_counts (m := 1) (n := 2) (by norm_num) (by norm_num)
  rw [show [((2 : ℚ) : ℝ), ((2 : ℚ) : ℝ)] = [((1 : ℚ) : ℝ), ((1 : ℚ) : ℝ)].map (fun b => 2 * b) by norm_num,
    show [1 / ((1 : ℚ) : ℝ), 0] = [1 / ((2 : ℚ) : ℝ), 0].map (fun s => 2 * s) by norm_num] at h
  obtain ⟨ses₁, st₁, w₁, ses₂, st₂, w₂, h1, h2, h3, h4, h5⟩ := c173_exposure_partial (env := Ex.fitEnv)
    (keyOf := Ex.keyOf) (rnd := Ex.toInt) (k := 2) (by norm_num) h h' rfl
    (by norm_num [zeroThreshold]) (by norm_num)
    (GridSearch.new [] [] none false) (GridSearch.new [] [] none false) rfl rfl
  exact ⟨ses₁, st₁, w₁, ses₂, st₂, w₂, h1, h2, h3, h4, fun h => (h5 [] _ _ (ex_plain.2 _ (.inl rfl))
    (ex_plain.2 _ (.inr rfl)) ex_plain.1 (by simp) [] (by simp) 3).1 10 h⟩

end Verif
