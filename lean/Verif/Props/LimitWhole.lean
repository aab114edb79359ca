import Verif.Lemmas.LimitWhole
import Verif.Props.ConvexFit
import Verif.Props.Recover

/-! # C147: limits set with a fit made from its arguments -/

namespace Verif

open Session

variable {env : FitEnv} {keyOf : ℕ → PyStr} {a : FitArgs} {ts : List Spectrum} {r d : ℕ}
  {st : FitState} {rnd : ℝ → ℚ}

theorem compared_congr (sb : Bool) {x y : NdArray ℚ} (h : y.shape = x.shape)
    (hg : ∀ idx, InB x.shape idx → y.get idx = x.get idx) :
    comparedContents sb y = comparedContents sb x := by
  unfold comparedContents
  cases sb with
  | true =>
    have : y.sum = x.sum := by
      unfold NdArray.sum
      rw [h]
      exact sumIdx_congr hg
    simp [this]
  | false =>
    simp only [Bool.false_eq_true, if_false, h]
    exact List.map_congr_left fun idx hi => by rw [hg idx (mem_allIdx.1 hi)]

/-- The fit and the limit without floating backgrounds: what is compared. -/
theorem limit_counting (h : a.LimitOn r d ts st) (hfx : a.fixed ≠ []) (hfl : a.floating = [])
    {ns : List PyStr} (hns : RoiNames (st.view d).cfg (inOrder a.roi) ns) {c : ℕ → NdArray ℚ}
    (hc : ∀ q ∈ (a.withSignal r).kept ++ a.fixed.map Prod.fst,
      RegionContents (inOrder a.roi) ns (st.view q) (c q)) (search : GridSearch) :
    ∃ ses st' w, init keyOf a st = (st', .ok ses) ∧
      Fitter.limitInit ⟨ses, st', search⟩ r true = (w, .ok ()) ∧ w.search = search ∧
      LimitSignal r w ∧ w.ses.floating.getD [] = [] ∧ w.ses.statPerBin = a.statPerBin ∧
      w.ses.stat = a.stat ∧ w.ses.singleBin = a.singleBin ∧
      (w.st.view r).numDecays = (st.view r).numDecays ∧
      ∃ x b s, ComparedProjections w r x b s ∧
        comparedContents a.singleBin x = comparedContents a.singleBin (c d) ∧
        comparedContents a.singleBin b = comparedContents a.singleBin (a.fixedTotal st c (c d).shape) ∧
        comparedContents a.singleBin s = comparedContents a.singleBin (c r) := by
  have hg := h.given
  have hreg := inOrder_isDict hg.region
  have hdk : d ∈ (a.withSignal r).kept := by simp [FitArgs.kept, h.data]
  have hrk : r ∈ (a.withSignal r).kept := by simp [FitArgs.kept]
  obtain ⟨ses, ses', ses'', st', st'', h1, h2, h3, h4, -, h6, h7⟩ := limit_run hg h.signal keyOf
    (by rw [h.data]; simp) (.inl hfx) h.settings h.fit search
  have hls := limit_signal hg h.data (.inl hfx) h.settings h.decays h3 h4 h6 h7 search
  obtain ⟨ns', n2, n1, n3, n4, -⟩ := names_run hg h.data (fun q hq => h.axes q (by
    simp only [FitArgs.kept, List.mem_append] at hq ⊢
    tauto)) h3
  obtain rfl : ns' = ns := roiNames_unique (hg.able d (List.mem_append_left _ hdk)).dims hns n2
  obtain ⟨c', k1⟩ := region_run hg h.data h.axes h4 n2 h.region
  obtain ⟨t, ht⟩ : ∃ t, ses''.fixed = some t := by
    cases hb : ses''.fixed with
    | none => rw [hb] at h3; exact absurd (h3.nofixed.1 rfl) hfx
    | some t => exact ⟨t, rfl⟩
  obtain ⟨p, p1, p2, p3⟩ := fixed_run hg hfx h.axes n2 h.region (h4.total t ht) k1
  have hcc : ∀ q ∈ (a.withSignal r).kept ++ a.fixed.map Prod.fst, (c' q).shape = (c q).shape ∧
      ∀ idx, InB (c q).shape idx → (c' q).get idx = (c q).get idx := fun q hm =>
    regionContents_unique hreg (hg.able q hm) (hc q hm) (k1 q hm).1
  have hcd := hcc d (List.mem_append_left _ hdk)
  have hcr := hcc r (List.mem_append_left _ hrk)
  have hshape : ∀ q ∈ (a.withSignal r).kept ++ a.fixed.map Prod.fst, (c q).shape = (c d).shape :=
    fun q hm => by rw [← (hcc q hm).1, (k1 q hm).2.2, hcd.1]
  refine ⟨ses, st', ⟨ses'', st'', search⟩, h1, h2, rfl, hls, ?_, ?_, ?_, ?_, ?_, c' d, p, c' r, ?_, ?_,
    ?_, ?_⟩
  · show ses''.floating.getD [] = []
    rw [h6]
    show ses'.floating.getD [] = []
    rw [h3.floating]
    show (nonEmpty a.floating).getD [] = []
    rw [nonEmpty, if_pos hfl]; rfl
  · show ses''.statPerBin = _
    rw [h6]; exact h3.statPerBin
  · show ses''.stat = _
    rw [h6]; exact h3.stat
  · show ses''.singleBin = _
    rw [h6]
  · have hR := hg.able r (List.mem_append_left _ hrk)
    exact (shrunkTo_same_axes hreg hR hR rfl (h4.shrunk r hrk) (h4.shrunk r hrk)).2.2
  · have e1 : ses''.data = some d := by rw [h6]; exact h3.data.trans h.data
    refine ⟨⟨d, ns', e1, by rw [h6]; exact n1, (k1 d (List.mem_append_left _ hdk)).2.1 hdk⟩,
      ⟨t, ns', ht, by rw [h6]; exact n3 hfx, p1⟩,
      ⟨ns', by rw [h6]; exact n4 r rfl, (k1 r (List.mem_append_left _ hrk)).2.1 hrk⟩, p2,
      (k1 r (List.mem_append_left _ hrk)).2.2⟩
  · exact compared_congr _ hcd.1 hcd.2
  · refine compared_congr _ (p2.trans hcd.1) fun idx hi => ?_
    have hi : InB (c d).shape idx := hi
    rw [p3 idx (by rw [hcd.1]; exact hi)]
    unfold FitArgs.fixedTotal
    dsimp only
    congr 1
    refine List.map_congr_left fun e he => ?_
    have hm : e.1 ∈ (a.withSignal r).kept ++ a.fixed.map Prod.fst :=
      List.mem_append_right _ (List.mem_map_of_mem he)
    rw [(hcc e.1 hm).2 idx (by rw [hshape e.1 hm]; exact hi)]
  · exact compared_congr _ hcr.1 hcr.2

/-- **C147, counting.** A fit is made from data and fixed backgrounds, and a limit from it and a
signal. `F₀` is the statistic of the data and the fixed backgrounds in the region, and `F x` that
with the signal scaled to `x` decays added (without it when `x` is zero, or close to zero). Then both
constructors succeed, and whatever limits have been set or statistics asked for before, the limit is
the first tested scaling from the best one on at which the statistic exceeds `F₀` by more than the
threshold; and when there is none the limit fails with `LimitError`. (Partial: the suppositions of
C99; at most one axis is projected out, see C11.) -/
theorem c147_counting_partial (h : a.LimitOn r d ts st) (hfx : a.fixed ≠ []) (hfl : a.floating = [])
    (hstat : a.statPerBin = false) {ns : List PyStr}
    (hns : RoiNames (st.view d).cfg (inOrder a.roi) ns) {c : ℕ → NdArray ℚ}
    (hc : ∀ q ∈ (a.withSignal r).kept ++ a.fixed.map Prod.fst,
      RegionContents (inOrder a.roi) ns (st.view q) (c q)) (search : GridSearch)
    (hpars : search.pars = []) :
    ∃ ses st' w, init keyOf a st = (st', .ok ses) ∧
      Fitter.limitInit ⟨ses, st', search⟩ r true = (w, .ok ()) ∧
      ∀ (calls : List LimitCall) (scales : List ℝ), Testable rnd (allScales calls ++ scales) →
      scales ≠ [] → scales.Pairwise (· < ·) → ∀ (F₀ : ℝ) (F : ℝ → ℝ),
      a.stat.Total (comparedContents a.singleBin (c d))
        (comparedContents a.singleBin (a.fixedTotal st c (c d).shape)) F₀ →
      (∀ x ∈ scales, (npCloseReal x 0 → F x = F₀) ∧ (¬ npCloseReal x 0 →
        a.stat.Total (comparedContents a.singleBin (c d))
          (expectedAt (comparedContents a.singleBin (a.fixedTotal st c (c d).shape))
            (comparedContents a.singleBin (c r)) ((rnd x : ℝ) / ((st.view r).numDecays : ℝ))) (F x))) →
      ∀ (sigmas : List (Option ℝ)), (∀ s ∈ sigmas, s ≠ none) → ∀ (limit : ℝ),
      ∃ b, BestScale scales F b ∧
        (∀ x, ((w.afterCalls env rnd r calls).limitOf env rnd r scales sigmas none limit).2 = .ok x ↔
          FirstCrossing scales (fun y => F y - F₀) b limit x) ∧
        (((w.afterCalls env rnd r calls).limitOf env rnd r scales sigmas none limit).2 =
            .error .limitError ↔
          ∀ y ∈ scales, b ≤ y → F y - F₀ ≤ limit) := by
  obtain ⟨ses, st', w, h1, h2, h3, h4, h5, h6, h7, h8, h9, x, b, s, h10, e1, e2, e3⟩ :=
    limit_counting h hfx hfl hns hc search
  refine ⟨ses, st', w, h1, h2, ?_⟩
  intro calls scales ht hne hs F₀ F hF₀ hF sigmas hsig limit
  obtain ⟨g1, g2⟩ := fresh_fixed (env := env) (rnd := rnd) h4 h5 (by rw [h3]; exact hpars)
    (h6.trans hstat) h10
  rw [h7, h8, e1, e2] at g1
  rw [h7, h8, e1, e2, e3, h9] at g2
  have hz := g1 F₀ hF₀
  have := c100_crossing_partial h4 calls scales (env := env) (.inl h5) ht (st := F) (m := F₀)
    (pens := fun _ => []) (sigmas := sigmas) (minStat := none) limit ?_ ?_ hne hs hsig
  · simpa using this
  · intro y hy
    refine ⟨fun hcl => ?_, fun hcl => ?_⟩
    · rw [(hF y hy).1 hcl]; exact hz
    · exact g2 y _ (ht y (List.mem_append_right _ hy) hcl) ((hF y hy).2 hcl)
  · exact .inr ⟨.inl rfl, [], hz⟩

/-- **C147, exclusion.** Let the signal have no negative contents and represent a positive number of
decays, let contents count at the tested scalings and let one of these be allowed: the statistic
exceeds the one without signal by no more than the threshold. Then every real scaling from the limit
on is excluded, not only the tested ones, and the tested scaling directly below the limit is
allowed. (Partial: as above; the tested scalings are not rounded, and zero is the only one that is
close to zero.) -/
theorem c147_excluded_partial (h : a.LimitOn r d ts st) (hfx : a.fixed ≠ []) (hfl : a.floating = [])
    (hstat : a.statPerBin = false) {ns : List PyStr}
    (hns : RoiNames (st.view d).cfg (inOrder a.roi) ns) {c : ℕ → NdArray ℚ}
    (hc : ∀ q ∈ (a.withSignal r).kept ++ a.fixed.map Prod.fst,
      RegionContents (inOrder a.roi) ns (st.view q) (c q)) (search : GridSearch)
    (hpars : search.pars = []) (hdec : 0 < (st.view r).numDecays)
    (hpos : ∀ x ∈ comparedContents a.singleBin (c r), 0 ≤ x) {obs bkg : List ℝ}
    (hobs : obs = comparedContents a.singleBin (c d))
    (hbkg : bkg = comparedContents a.singleBin (a.fixedTotal st c (c d).shape)) {E : ℝ → List ℝ}
    (hE : ∀ x, E x = expectedAt bkg (comparedContents a.singleBin (c r))
      (x / ((st.view r).numDecays : ℝ))) :
    ∃ ses st' w, init keyOf a st = (st', .ok ses) ∧
      Fitter.limitInit ⟨ses, st', search⟩ r true = (w, .ok ()) ∧
      ∀ (calls : List LimitCall) (scales : List ℝ), Testable rnd (allScales calls ++ scales) →
      (∀ x ∈ scales, ¬ npCloseReal x 0 → ((rnd x : ℚ) : ℝ) = x) →
      (∀ x ∈ scales, npCloseReal x 0 → x = 0) → scales.Pairwise (· < ·) →
      (∀ x ∈ scales, a.stat.Sound obs (E x)) →
      ∀ F₀, a.stat.Total obs (E 0) F₀ → ∀ limit : ℝ,
      (∃ z ∈ scales, ∃ v, a.stat.Total obs (E z) v ∧ v - F₀ ≤ limit) →
      ∀ (sigmas : List (Option ℝ)) (x : ℝ),
      ((w.afterCalls env rnd r calls).limitOf env rnd r scales sigmas none limit).2 = .ok x →
      (∀ y v, x ≤ y → a.stat.Total obs (E y) v → limit < v - F₀) ∧
      ∃ z ∈ scales, z < x ∧ (∀ y ∈ scales, y ≤ z ∨ x ≤ y) ∧
        ∀ v, a.stat.Total obs (E z) v → v - F₀ ≤ limit := by
  obtain ⟨ses, st', w, h1, h2, h3, h4, h5, h6, h7, h8, h9, x, b, s, h10, e1, e2, e3⟩ :=
    limit_counting h hfx hfl hns hc search
  refine ⟨ses, st', w, h1, h2, ?_⟩
  intro calls scales ht hrnd hzero hs hsound F₀ hF₀ limit hal sigmas y hy
  refine c132_fit h4 calls scales ht h5 (by rw [h3]; exact hpars) (h6.trans hstat) h10
    (by rw [h9]; exact hdec) (by rw [h8, e3]; exact hpos) hrnd hzero hs
    (by rw [h7, h8, e1, e2, e3, h9]; simpa only [hE, ← hobs, ← hbkg] using hsound)
    (fun y v => a.stat.Total obs (E y) v)
    (by rw [h7, h8, e1, e2, e3, h9]; intro y v; simp only [hE, ← hobs, ← hbkg]) F₀ hF₀ limit hal
    sigmas y hy

/-! ### a case that meets the hypotheses -/

namespace Ex

/-- The state of the examples, with a fit configuration for the signal. -/
noncomputable def limitState : FitState := { fitState with
  objs := fun r => if r = 4 then { fitObj 4 with fit := some [2] } else fitObj r }

/-- Data, a fixed background and some floating ones. -/
def limitArgs (floating : List ℕ) : FitArgs where
  roi := [(lit "energy", (2, 1))]
  stat := .pearson
  data := some 0
  fixed := [(1, 20)]
  floating := floating

/-- Contents of the region from 1 to 2. -/
def limitContents (r : ℕ) : NdArray ℚ := ⟨[2], fun idx => match r, idx with
  | 0, [0] => 7
  | 0, [1] => 8
  | 1, [0] => 1
  | 1, [1] => 1
  | 2, [0] => 3
  | 2, [1] => 4
  | 3, [0] => 2
  | 3, [1] => 1
  | 4, [0] => 1
  | _, _ => 0⟩

end Ex

theorem ex_limitOn {floating : List ℕ} (hf : floating = [] ∨ floating = [2, 3]) :
    (Ex.limitArgs floating).LimitOn 4 0
      [(((Ex.limitState.view 1).shrink exFitKw).st.scale 20).st] Ex.limitState where
  given :=
    { region := (exWhole_given []).region
      some := by simp [Ex.limitArgs]
      alloc := by
        intro r hr
        have : r ∈ exWhole.kept := by
          rcases hf with rfl | rfl <;> simp [FitArgs.kept, Ex.limitArgs, exWhole] at hr ⊢ <;> omega
        exact (exWhole_given []).alloc r this
      own := by
        rcases hf with rfl | rfl
        · show (([0, 4] ++ [1]).map (fun r => (Ex.limitState.objs r).cfg)).Nodup
          decide
        · show (([0, 4, 2, 3] ++ [1]).map (fun r => (Ex.limitState.objs r).cfg)).Nodup
          decide
      able := by
        intro r hr
        have hm : r = 0 ∨ r = 4 ∨ r = 2 ∨ r = 3 ∨ r = 1 := by
          rcases hf with rfl | rfl <;> simp [FitArgs.kept, Ex.limitArgs] at hr ⊢ <;> omega
        have h := (exWhole_given []).able r (by simp [FitArgs.kept, exWhole]; omega)
        rcases hm with rfl | rfl | rfl | rfl | rfl <;>
          exact ⟨⟨h.wf.axes, h.wf.names, h.wf.shape⟩, h.aligned, h.dims, h.edges, h.has⟩
      fixed := by
        have h := (exWhole_given []).fixed
        refine ⟨h.alloc, h.own, h.region, h.dims, h.names, ?_, h.axes⟩
        refine .cons ⟨exFitKw, ?_, by decide +kernel, rfl, by decide +kernel⟩ .nil
        show AsksRoi [Ex.fitAxis] (inOrder [(lit "energy", ((2 : ℚ), (1 : ℚ)))]) exFitKw
        rw [exInit_roi]
        exact exFit_asks }
  settings :=
    { floating := by
        rcases hf with rfl | rfl
        · simp [Ex.limitArgs]
        · exact fun _ => .inr ⟨2, by simp [Ex.limitArgs], by simp [Ex.limitState, Ex.fitObj]⟩
      fixed := by simp [Ex.limitArgs]
      dimension := by simp [Ex.limitArgs]
      perBin := by simp [Ex.limitArgs] }
  signal := rfl
  data := rfl
  axes := fun _ _ => rfl
  fit := by simp [Ex.limitState]
  decays := by simp [FitState.view, Ex.limitState, Ex.fitObj]
  region := by simp [FitState.view, Ex.limitState, Ex.fitState, Ex.limitArgs]

theorem ex_limitNames : RoiNames (Ex.limitState.view 0).cfg (inOrder (Ex.limitArgs []).roi)
    [lit "energy_mc"] :=
  .cons ⟨⟨lit "mc", by decide, rfl⟩, Ex.fitAxis, by simp [FitState.view, Ex.limitState, Ex.fitState],
    rfl⟩ .nil

theorem ex_limitContents : ∀ r < 5,
    RegionContents (inOrder (Ex.limitArgs []).roi) [lit "energy_mc"] (Ex.limitState.view r)
      (Ex.limitContents r) := by
  intro r hr
  have key : ∀ r < 5, ((Ex.limitState.view r).shrink exFitKw).err = none ∧
      pick [lit "energy_mc"] (((Ex.limitState.view r).shrink exFitKw).st.cfg.map SPar.name)
        ((Ex.limitState.view r).shrink exFitKw).st.data.shape = [2] ∧
      ∀ idx ∈ allIdx [2], (Ex.limitContents r).get idx =
        sumIdx ((Ex.limitState.view r).shrink exFitKw).st.data.shape (fun full =>
          if pick [lit "energy_mc"] (((Ex.limitState.view r).shrink exFitKw).st.cfg.map SPar.name) full =
            idx then ((Ex.limitState.view r).shrink exFitKw).st.data.get full else 0) := by
    decide +kernel
  obtain ⟨k1, k2, k3⟩ := key r hr
  refine ⟨((Ex.limitState.view r).shrink exFitKw).st, ⟨exFitKw, ?_, k1,
    ⟨⟨rfl, rfl, rfl, rfl, rfl⟩, rfl, fun _ _ => rfl⟩⟩, k2.symm, fun idx hi => ?_⟩
  · show AsksRoi [Ex.fitAxis] (inOrder [(lit "energy", ((2 : ℚ), (1 : ℚ)))]) exFitKw
    rw [exInit_roi]
    exact exFit_asks
  · exact k3 idx (mem_allIdx.2 hi)

theorem ex_limitContents' {floating : List ℕ} (hf : floating = [] ∨ floating = [2, 3]) :
    ∀ q ∈ ((Ex.limitArgs floating).withSignal 4).kept ++ (Ex.limitArgs floating).fixed.map Prod.fst,
    RegionContents (inOrder (Ex.limitArgs floating).roi) [lit "energy_mc"] (Ex.limitState.view q)
      (Ex.limitContents q) := by
  intro q hq
  refine ex_limitContents q ?_
  rcases hf with rfl | rfl <;> simp [FitArgs.kept, Ex.limitArgs] at hq <;> omega

/-- Data, fixed background and signal in the region. -/
theorem ex_limitCompared :
    comparedContents false (Ex.limitContents 0) = [7, 8] ∧
    comparedContents false ((Ex.limitArgs []).fixedTotal Ex.limitState Ex.limitContents
      (Ex.limitContents 0).shape) = [5, 5] ∧
    comparedContents false (Ex.limitContents 4) = [1, 0] := by
  have e : allIdx [2] = [[0], [1]] := rfl
  refine ⟨?_, ?_, ?_⟩
  · simp [comparedContents, Ex.limitContents, e]
  · have h1 : (Ex.limitState.view 1).numDecays = 4 := rfl
    simp only [comparedContents, Bool.false_eq_true, if_false, FitArgs.fixedTotal]
    show (allIdx [2]).map _ = _
    rw [e]
    simp [Ex.limitArgs, Ex.limitContents, h1]
    norm_num
  · simp [comparedContents, Ex.limitContents, e]

theorem ex_limitDecays : ((Ex.limitState.view 4).numDecays : ℝ) = 2 := by
  change (((2 : ℚ) : ℝ)) = 2
  norm_num

theorem ex_limitExpected (x : ℝ) : expectedAt [5, 5] [1, 0] (x / 2) = [5 + x / 2, 5] := by
  simp [expectedAt]

theorem ex_limitTotal {x : ℝ} (hx : 0 ≤ x) (v : ℝ) : Stat.pearson.Total [7, 8] [5 + x / 2, 5] v ↔
    v = (2 - x / 2) ^ 2 / (5 + x / 2) + 9 / 5 := by
  have hlt : statEps < 1 := by unfold statEps; norm_num
  have h1 : statEps ≤ 5 + x / 2 := by linarith
  have h5 : ∀ y : ℝ, 1 ≤ y → ¬ y < statEps := fun y hy => not_lt.2 (hlt.le.trans hy)
  rw [total_iff _ (by simp)]
  simp only [List.zip_cons_cons, List.zip_nil_right, List.map_cons, List.map_nil, List.sum_cons,
    List.sum_nil, Stat.bin, pearsonBin, clampEps_of_ge h1,
    clampEps_of_ge (hlt.le.trans (by norm_num : (1 : ℝ) ≤ 5))]
  rw [if_neg (h5 _ (by norm_num)), if_neg (h5 _ (by norm_num))]
  have e : (7 - (5 + x / 2)) ^ 2 = (2 - x / 2) ^ 2 := by ring
  rw [e]
  norm_num

theorem ex_limitScales {x : ℝ} (hx : x ∈ [(4 : ℝ)] ++ [0, 4, 10, 20]) (h : ¬ npCloseReal x 0) :
    ((Ex.toInt x : ℚ) : ℝ) = x ∧ Ex.toInt x ≠ 0 := by
  have h3 : x = 4 ∨ x = 0 ∨ x = 4 ∨ x = 10 ∨ x = 20 := by simpa using hx
  rcases h3 with rfl | rfl | rfl | rfl | rfl
  · simp [Ex.toInt]
  · exact absurd (by unfold npCloseReal; norm_num) h
  · simp [Ex.toInt]
  · simp [Ex.toInt]
  · simp [Ex.toInt]

/-- The limit for the threshold 3 is 20, after an earlier call: the statistic is 13 / 5 without the
signal, smallest for 4 decays, and exceeds 13 / 5 by 1 / 10 for 10 decays and by 52 / 15 for 20. -/
example : ∃ ses st' w, init Ex.keyOf (Ex.limitArgs []) Ex.limitState = (st', .ok ses) ∧
    Fitter.limitInit ⟨ses, st', GridSearch.new [] [] none false⟩ 4 true = (w, .ok ()) ∧
    ((w.afterCalls Ex.fitEnv Ex.toInt 4 [.statistics [4]]).limitOf Ex.fitEnv Ex.toInt 4
      [0, 4, 10, 20] [] none 3).2 = .ok 20 := by
  obtain ⟨e1, e2, e3⟩ := ex_limitCompared
  have hc : ∀ y : ℝ, 1 ≤ y → ¬ npCloseReal y 0 := by
    intro y hy
    unfold npCloseReal
    rw [sub_zero, abs_of_nonneg (by linarith)]
    norm_num
    linarith
  obtain ⟨ses, st', w, h1, h2, h3⟩ := c147_counting_partial (env := Ex.fitEnv) (keyOf := Ex.keyOf)
    (rnd := Ex.toInt) (ex_limitOn (.inl rfl)) (by simp [Ex.limitArgs]) rfl rfl ex_limitNames
    (ex_limitContents' (.inl rfl)) (GridSearch.new [] [] none false) rfl
  refine ⟨ses, st', w, h1, h2, ?_⟩
  have hpair : ([0, 4, 10, 20] : List ℝ).Pairwise (· < ·) := by norm_num
  obtain ⟨b, hb, hiff, -⟩ := h3 [.statistics [4]] [0, 4, 10, 20]
    (fun x hx h => (ex_limitScales hx h).2) (by simp) hpair (13 / 5)
    (fun x => (2 - x / 2) ^ 2 / (5 + x / 2) + 9 / 5) (by
      rw [show (Ex.limitArgs []).singleBin = false from rfl, e1, e2]
      have := (ex_limitTotal (x := 0) le_rfl (13 / 5)).2 (by norm_num)
      rw [zero_div, add_zero] at this
      exact this)
    (by
      intro x hx
      rw [show (Ex.limitArgs []).singleBin = false from rfl, e1, e2, e3, ex_limitDecays,
        ex_limitExpected]
      have h4 : x = 0 ∨ x = 4 ∨ x = 10 ∨ x = 20 := by simpa using hx
      refine ⟨fun h0 => ?_, fun h0 => ?_⟩
      · rcases h4 with rfl | rfl | rfl | rfl
        · norm_num
        · exact absurd h0 (hc _ (by norm_num))
        · exact absurd h0 (hc _ (by norm_num))
        · exact absurd h0 (hc _ (by norm_num))
      · rw [(ex_limitScales (List.mem_append_right _ hx) h0).1]
        refine (ex_limitTotal ?_ _).2 rfl
        rcases h4 with rfl | rfl | rfl | rfl <;> norm_num) [] (by simp) 3
  rw [hiff]
  have hb' : b ≤ 20 := by
    have hm := hb.1
    have h4 : b = 0 ∨ b = 4 ∨ b = 10 ∨ b = 20 := by simpa using hm
    rcases h4 with rfl | rfl | rfl | rfl <;> norm_num
  refine ⟨by simp, hb', by norm_num, fun y hy _ hlt => ?_⟩
  have h4 : y = 0 ∨ y = 4 ∨ y = 10 ∨ y = 20 := by simpa using hy
  rcases h4 with rfl | rfl | rfl | rfl
  · norm_num
  · norm_num
  · norm_num
  · exact absurd hlt (lt_irrefl _)

/-- Every scaling from 20 on is then excluded. -/
example : ∃ ses st' w, init Ex.keyOf (Ex.limitArgs []) Ex.limitState = (st', .ok ses) ∧
    Fitter.limitInit ⟨ses, st', GridSearch.new [] [] none false⟩ 4 true = (w, .ok ()) ∧
    (((w.afterCalls Ex.fitEnv Ex.toInt 4 [.statistics [4]]).limitOf Ex.fitEnv Ex.toInt 4
      [0, 4, 10, 20] [] none 3).2 = .ok 20 →
      ∀ y v, 20 ≤ y → Stat.pearson.Total [7, 8] [5 + y / 2, 5] v → 3 < v - 13 / 5) := by
  obtain ⟨e1, e2, e3⟩ := ex_limitCompared
  have h1' : zeroThreshold ≤ 1 := by unfold zeroThreshold; norm_num
  obtain ⟨ses, st', w, h1, h2, h3⟩ := c147_excluded_partial (env := Ex.fitEnv) (keyOf := Ex.keyOf)
    (rnd := Ex.toInt) (ex_limitOn (.inl rfl)) (by simp [Ex.limitArgs]) rfl rfl ex_limitNames
    (ex_limitContents' (.inl rfl)) (GridSearch.new [] [] none false) rfl (by change (0 : ℚ) < 2; norm_num)
    (by rw [show (Ex.limitArgs []).singleBin = false from rfl, e3]; simp) e1.symm e2.symm
    (E := fun y => [5 + y / 2, 5])
    (fun x => by
      rw [show (Ex.limitArgs []).singleBin = false from rfl, e3, ex_limitDecays, ex_limitExpected])
  refine ⟨ses, st', w, h1, h2, fun hlim => ?_⟩
  have hsc : ∀ x ∈ ([0, 4, 10, 20] : List ℝ), x = 0 ∨ x = 4 ∨ x = 10 ∨ x = 20 := by simp
  refine (h3 [.statistics [4]] [0, 4, 10, 20] (fun x hx h => (ex_limitScales hx h).2)
    (fun x hx h => (ex_limitScales (List.mem_append_right _ hx) h).1) ?_ (by norm_num) ?_ (13 / 5)
    ?_ 3 ?_ [] 20 hlim).1
  · intro x hx h0
    rcases hsc x hx with rfl | rfl | rfl | rfl
    · rfl
    all_goals (unfold npCloseReal at h0; norm_num at h0)
  · intro x hx
    have hx0 : 0 ≤ x := by rcases hsc x hx with rfl | rfl | rfl | rfl <;> norm_num
    have hb : ∀ o e : ℝ, 1 ≤ o → 1 ≤ e → Stat.pearson.SoundBin o e := fun o e ho he =>
      ⟨.inr (h1'.trans ho), by linarith, .inr (h1'.trans he)⟩
    exact .cons (hb _ _ (by norm_num) (by linarith)) (.cons (hb _ _ (by norm_num) (by norm_num)) .nil)
  · exact (ex_limitTotal (x := 0) le_rfl (13 / 5)).2 (by norm_num)
  · exact ⟨0, by simp, 13 / 5, (ex_limitTotal (x := 0) le_rfl (13 / 5)).2 (by norm_num), by norm_num⟩

end Verif
