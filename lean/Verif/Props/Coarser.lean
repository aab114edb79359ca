import Verif.Lemmas.Coarser

/-! # C171: expected limits are never stronger with coarser bins -/

namespace Verif

open Session

variable {env : FitEnv} {keyOf : ℕ → PyStr} {a a' : FitArgs} {ts ts' : List Spectrum} {r d r' d' : ℕ}
  {st st' : FitState} {rnd : ℝ → ℚ} {obs bkg sig : List ℝ}

/-- **C171, merged bins.** Two limits are set with the same statistic on a signal over fixed backgrounds.
The bins of the first come in groups (background and signal in each bin), and each bin of the second holds
what a group of the first holds together. In both the expected background is observed; it is at or above the
threshold in all bins of the first, and the signal is not negative there; and scaling zero is tested. Then,
whatever limits have been set before: if the limit with the merged bins is `x'`, that with the bins of the
first is some `x` that is not larger; and if the first fails with `LimitError`, so does the second.
(Partial: as C168.) -/
theorem c171_merged_partial (groups : List (List (ℝ × ℝ))) (hne : ∀ g ∈ groups, g ≠ [])
    (hb : ∀ g ∈ groups, ∀ b ∈ g, zeroThreshold ≤ b.1 ∧ 0 ≤ b.2)
    (h : a.Counts r d ts st (groups.flatten.map Prod.fst) (groups.flatten.map Prod.fst)
      (groups.flatten.map Prod.snd))
    (h' : a'.Counts r' d' ts' st' ((groups.map groupSum).map Prod.fst)
      ((groups.map groupSum).map Prod.fst) ((groups.map groupSum).map Prod.snd))
    (hstat : a'.stat = a.stat) (search search' : GridSearch) (hpars : search.pars = [])
    (hpars' : search'.pars = []) :
    ∃ ses₁ st₁ w₁ ses₂ st₂ w₂,
      init keyOf a st = (st₁, .ok ses₁) ∧ init keyOf a' st' = (st₂, .ok ses₂) ∧
      Fitter.limitInit ⟨ses₁, st₁, search⟩ r true = (w₁, .ok ()) ∧
      Fitter.limitInit ⟨ses₂, st₂, search'⟩ r' true = (w₂, .ok ()) ∧
      ∀ (calls calls' : List LimitCall) (scales : List ℝ), Testable rnd (allScales calls ++ scales) →
      Testable rnd (allScales calls' ++ scales) → PlainScales rnd scales → 0 ∈ scales →
      ∀ (sigmas : List (Option ℝ)), (∀ s ∈ sigmas, s ≠ none) → ∀ (limit : ℝ),
      (∀ x', ((w₂.afterCalls env rnd r' calls').limitOf env rnd r' scales sigmas none limit).2 = .ok x' →
        ∃ x, x ≤ x' ∧
          ((w₁.afterCalls env rnd r calls).limitOf env rnd r scales sigmas none limit).2 = .ok x) ∧
      (((w₁.afterCalls env rnd r calls).limitOf env rnd r scales sigmas none limit).2 =
          .error .limitError →
        ((w₂.afterCalls env rnd r' calls').limitOf env rnd r' scales sigmas none limit).2 =
          .error .limitError) := by
  have fine : ∀ b ∈ groups.flatten, zeroThreshold ≤ b.1 ∧ 0 ≤ b.2 := fun b hb' => by
    obtain ⟨g, hg, hbg⟩ := List.mem_flatten.1 hb'
    exact hb g hg b hbg
  have coarse : ∀ b ∈ groups.map groupSum, zeroThreshold ≤ b.1 ∧ 0 ≤ b.2 := fun b hb' => by
    obtain ⟨g, hg, rfl⟩ := List.mem_map.1 hb'
    exact groupSum_counts (hne g hg) (hb g hg)
  have split : ∀ {L : List (ℝ × ℝ)}, (∀ b ∈ L, zeroThreshold ≤ b.1 ∧ 0 ≤ b.2) →
      (∀ b ∈ L.map Prod.fst, zeroThreshold ≤ b) ∧ ∀ k ∈ L.map Prod.snd, 0 ≤ k := fun {L} hL => by
    constructor <;> intro v hv <;> obtain ⟨b, hb', rfl⟩ := List.mem_map.1 hv
    · exact (hL b hb').1
    · exact (hL b hb').2
  obtain ⟨ses₁, st₁, w₁, i1, i2, i3⟩ := h.asimov (env := env) (keyOf := keyOf) (rnd := rnd)
    (split fine).1 (split fine).2 search hpars
  obtain ⟨ses₂, st₂, w₂, j1, j2, j3⟩ := h'.asimov (env := env) (keyOf := keyOf) (rnd := rnd)
    (split coarse).1 (split coarse).2 search' hpars'
  refine ⟨ses₁, st₁, w₁, ses₂, st₂, w₂, i1, j1, i2, j2, ?_⟩
  intro calls calls' scales ht ht' hp hz sigmas hsg limit
  obtain ⟨k1, k2⟩ := i3 calls scales ht hp hz sigmas hsg limit
  obtain ⟨l1, l2⟩ := j3 calls' scales ht' hp hz sigmas hsg limit
  rw [hstat] at l1 l2
  obtain ⟨m1, m2⟩ := crossing_larger (limit := limit)
    (fun y _ h0 => sumBins_merge a.stat groups hne hb (x := y) h0) (scales := scales)
  refine ⟨fun x' hx' => ?_, fun he => l2.2 (m2 (k2.1 he))⟩
  obtain ⟨x, hle, hx⟩ := m1 x' ((l1 x').1 hx')
  exact ⟨x, hle, (k1 x).2 hx⟩

/-- **C171, `single_bin`.** A limit on a signal over fixed backgrounds is set bin by bin, and once more from
the same spectra with `single_bin`. The expected background is observed; it is at or above the threshold in
all bins, of which there is at least one, and the signal is not negative; and scaling zero is tested. Then
the limit bin by bin is not larger than that with `single_bin`: if the latter is `x'`, the former is some
`x` that is not larger; and if the former fails with `LimitError`, so does the latter. (Partial: as C168.) -/
theorem c171_single_partial (h : a.Counts r d ts st bkg bkg sig) (hs : a.singleBin = false)
    (hne : bkg ≠ []) (hb : ∀ b ∈ bkg, zeroThreshold ≤ b) (hsig : ∀ k ∈ sig, 0 ≤ k)
    (search : GridSearch) (hpars : search.pars = []) :
    ∃ ses₁ st₁ w₁ ses₂ st₂ w₂,
      init keyOf a st = (st₁, .ok ses₁) ∧ init keyOf a.inOneBin st = (st₂, .ok ses₂) ∧
      Fitter.limitInit ⟨ses₁, st₁, search⟩ r true = (w₁, .ok ()) ∧
      Fitter.limitInit ⟨ses₂, st₂, search⟩ r true = (w₂, .ok ()) ∧
      ∀ (calls calls' : List LimitCall) (scales : List ℝ), Testable rnd (allScales calls ++ scales) →
      Testable rnd (allScales calls' ++ scales) → PlainScales rnd scales → 0 ∈ scales →
      ∀ (sigmas : List (Option ℝ)), (∀ s ∈ sigmas, s ≠ none) → ∀ (limit : ℝ),
      (∀ x', ((w₂.afterCalls env rnd r calls').limitOf env rnd r scales sigmas none limit).2 = .ok x' →
        ∃ x, x ≤ x' ∧
          ((w₁.afterCalls env rnd r calls).limitOf env rnd r scales sigmas none limit).2 = .ok x) ∧
      (((w₁.afterCalls env rnd r calls).limitOf env rnd r scales sigmas none limit).2 =
          .error .limitError →
        ((w₂.afterCalls env rnd r calls').limitOf env rnd r scales sigmas none limit).2 =
          .error .limitError) := by
  have hl := h.lengths.2
  have e1 : (bkg.zip sig).map Prod.fst = bkg := List.map_fst_zip hl.le
  have e2 : (bkg.zip sig).map Prod.snd = sig := List.map_snd_zip hl.ge
  have h' := h.inOneBin hs
  refine c171_merged_partial (a := a) (a' := a.inOneBin) (d := d)
    (d' := d) (ts := ts) (ts' := ts) [bkg.zip sig] (fun g hg => ?_)
    (fun g hg b hbg => ?_) ?_ ?_ rfl search search hpars hpars
  · rw [List.mem_singleton.1 hg]
    intro hz
    rw [hz] at e1
    exact hne e1.symm
  · rw [List.mem_singleton.1 hg] at hbg
    exact ⟨hb _ (e1 ▸ List.mem_map_of_mem (f := Prod.fst) hbg),
      hsig _ (e2 ▸ List.mem_map_of_mem (f := Prod.snd) hbg)⟩
  · rw [List.flatten_cons, List.flatten_nil, List.append_nil, e1, e2]
    exact h
  · simp only [List.map_cons, List.map_nil, groupSum]
    rw [e1, e2]
    exact h'

/-- **C171, fits.** A fit by grid search is made from data, floating backgrounds with one rate each, and
perhaps fixed backgrounds and a signal, bin by bin; and once more with `single_bin`. `c q` are the contents
of the spectrum `q` in the region, which has at least one bin. For all combinations of values of the rates
the contents of data and backgrounds count in every bin. Then the sum of statistic and penalty that the
fit with `single_bin` finds is not larger than that of the fit bin by bin. (Partial: the suppositions of
C62 and C99; at most one axis is projected out; the values of the rates are not rounded.) -/
theorem c171_fit_partial (hg : a.Given ts st) (he : a.Evaluable env keyOf d st) (hs : a.Settings st)
    (ho : a.OwnRates st) (hl : (st.view d).cfg.length ≤ a.roi.length + 1) (hsb : a.singleBin = false)
    {ns : List PyStr} (hns : RoiNames (st.view d).cfg (inOrder a.roi) ns) {c : ℕ → NdArray ℚ}
    (hc : ∀ q ∈ a.kept ++ a.fixed.map Prod.fst, RegionContents (inOrder a.roi) ns (st.view q) (c q))
    {g : GridSearch} {vss : List (List ℝ)} (hsearch : RateSearch rnd g vss a.floating.length)
    (hex : ∀ vs ∈ vss, ∀ x ∈ vs, ((rnd x : ℚ) : ℝ) = x) (hne : ∃ idx, InB (c d).shape idx)
    (hm : ∀ u, Combination vss u →
      a.stat.MergeableArrays (c d) (a.backgroundAt st c (c d).shape (u.map rnd))) :
    ∃ ses₁ st₁ g₁ raw₁ pen₁ ses₂ st₂ g₂ raw₂ pen₂ s₁ p₁ s₂ p₂,
      init keyOf a st = (st₁, .ok ses₁) ∧ init keyOf a.inOneBin st = (st₂, .ok ses₂) ∧
      (ses₁.fit (fun f => fitGrid env f rnd g) st₁).2 = .ok (.inr (g₁, raw₁, pen₁)) ∧
      (ses₂.fit (fun f => fitGrid env f rnd g) st₂).2 = .ok (.inr (g₂, raw₂, pen₂)) ∧
      raw₁.ravel = [s₁] ∧ pen₁.ravel = [p₁] ∧ raw₂.ravel = [s₂] ∧ pen₂.ravel = [p₂] ∧
      s₂ + p₂ ≤ s₁ + p₁ := by
  obtain ⟨G, hG⟩ := exists_statistics a.stat false a st c d rnd
  obtain ⟨G', hG'⟩ := exists_statistics a.stat true a st c d rnd
  obtain ⟨ses₁, st₁, g₁, raw₁, pen₁, u₁, i1, i2, i3, -, i5, i6⟩ :=
    fit_found hg he hs ho hl hns hc hsearch hex (G := G) fun u _ => by rw [hsb]; exact hG u
  obtain ⟨ses₂, st₂, g₂, raw₂, pen₂, u₂, j1, j2, j3, -, j5, j6⟩ :=
    fit_found hg.inOneBin he.inOneBin hs.inOneBin ho.inOneBin hl hns hc hsearch hex (G := G')
      fun u _ => hG' u
  refine ⟨ses₁, st₁, g₁, raw₁, pen₁, ses₂, st₂, g₂, raw₂, pen₂, _, _, _, _, i1, j1, i2, j2, i5, i6, j5, j6,
    ?_⟩
  obtain ⟨idx, hidx, -⟩ := i3
  obtain ⟨_, _, hbest⟩ := j3
  refine (hbest idx u₁ hidx).1.trans ?_
  have hu : Combination vss u₁ := hidx.comb
  have := total_inOneBin (o := c d) (e := a.backgroundAt st c (c d).shape (u₁.map rnd)) rfl hne
    (hm u₁ hu) (hG u₁) (hG' u₁)
  show G' u₁ + a.penaltyAt st u₁ ≤ G u₁ + a.penaltyAt st u₁
  linarith

/-! ### cases that meet the hypotheses -/

namespace Ex

/-- The data hold what the spectrum `n` holds. -/
noncomputable def heldState (n : ℕ) : FitState := { limitState with
  objs := fun r => if r = 0 then { limitState.objs n with cfg := (limitState.objs 0).cfg }
    else limitState.objs r }

/-- A fixed background with `k` decays. -/
def heldArgs (k : ℚ) : FitArgs := { limitArgs [] with fixed := [(1, k)] }

/-- The contents of the region. -/
def heldContents (n r : ℕ) : NdArray ℚ := if r = 0 then limitContents n else limitContents r

end Ex

theorem held_contents : ∀ n < 5, ∀ r < 5,
    RegionContents (inOrder (Ex.limitArgs []).roi) [lit "energy_mc"] ((Ex.heldState n).view r)
      (Ex.heldContents n r) := by
  intro n hn r hr
  have key : ∀ n < 5, ∀ r < 5, (((Ex.heldState n).view r).shrink exFitKw).err = none ∧
      pick [lit "energy_mc"] ((((Ex.heldState n).view r).shrink exFitKw).st.cfg.map SPar.name)
        (((Ex.heldState n).view r).shrink exFitKw).st.data.shape = (Ex.heldContents n r).shape ∧
      (Ex.heldContents n r).shape = [2] ∧
      ∀ idx ∈ allIdx [2], (Ex.heldContents n r).get idx =
        sumIdx (((Ex.heldState n).view r).shrink exFitKw).st.data.shape (fun full =>
          if pick [lit "energy_mc"] ((((Ex.heldState n).view r).shrink exFitKw).st.cfg.map SPar.name) full =
            idx then (((Ex.heldState n).view r).shrink exFitKw).st.data.get full else 0) := by
    decide +kernel
  obtain ⟨k1, k2, k4, k3⟩ := key n hn r hr
  refine ⟨(((Ex.heldState n).view r).shrink exFitKw).st, ⟨exFitKw, ?_, k1,
    ⟨⟨rfl, rfl, rfl, rfl, rfl⟩, rfl, fun _ _ => rfl⟩⟩, k2.symm, fun idx hi => ?_⟩
  · have : ((Ex.heldState n).view r).cfg = [Ex.fitAxis] := rfl
    rw [this]
    show AsksRoi [Ex.fitAxis] (inOrder [(lit "energy", ((2 : ℚ), (1 : ℚ)))]) exFitKw
    rw [exInit_roi]
    exact exFit_asks
  · rw [k4] at hi
    exact k3 idx (mem_allIdx.2 hi)

theorem held_counts {n : ℕ} (hn : n = 1 ∨ n = 3) {k : ℚ} (hk : k = 4 ∨ k = 6) :
    (Ex.heldArgs k).Counts 4 0
    [((((Ex.heldState n).view 1).shrink exFitKw).st.scale k).st] (Ex.heldState n)
      (if n = 1 then [1, 1] else [2, 1]) [(k / 4 : ℝ), (k / 4 : ℝ)] [1 / 2, 0] where
  limitOn :=
    have h := ex_limitOn (.inl rfl)
    { given :=
        { region := h.given.region
          some := h.given.some
          alloc := h.given.alloc
          own := by
            show (([0, 4] ++ [1]).map (fun r => ((Ex.heldState n).objs r).cfg)).Nodup
            rcases hn with rfl | rfl <;> decide
          able := by
            intro q hq
            have hm : q = 0 ∨ q = 4 ∨ q = 1 := by
              have : q ∈ [0, 4, 1] := hq
              simpa using this
            have h := h.given.able q hq
            rcases hn with rfl | rfl <;> rcases hm with rfl | rfl | rfl <;>
              exact ⟨⟨h.wf.axes, h.wf.names, h.wf.shape⟩, h.aligned, h.dims, h.edges, h.has⟩
          fixed := by
            have h := h.given.fixed
            refine ⟨h.alloc, h.own, h.region, fun e he => ?_, fun e he => ?_, ?_, ?_⟩
            · obtain rfl : e = (1, k) := List.mem_singleton.1 he
              exact h.dims (1, 20) (List.mem_singleton_self _)
            · obtain rfl : e = (1, k) := List.mem_singleton.1 he
              exact h.names (1, 20) (List.mem_singleton_self _)
            · refine .cons ⟨exFitKw, ?_, ?_, rfl, ?_⟩ .nil
              · show AsksRoi [Ex.fitAxis] (inOrder [(lit "energy", ((2 : ℚ), (1 : ℚ)))]) exFitKw
                rw [exInit_roi]
                exact exFit_asks
              · rcases hn with rfl | rfl <;> rcases hk with rfl | rfl <;> decide +kernel
              · rcases hn with rfl | rfl <;> rcases hk with rfl | rfl <;> decide +kernel
            · simp }
      settings := ⟨by simp [Ex.heldArgs, Ex.limitArgs], by simp [Ex.heldArgs, Ex.limitArgs],
        by simp [Ex.heldArgs, Ex.limitArgs], by simp [Ex.heldArgs, Ex.limitArgs]⟩
      signal := rfl
      data := rfl
      axes := fun _ _ => rfl
      fit := h.fit
      decays := h.decays
      region := h.region }
  fixed := by simp [Ex.heldArgs]
  floating := rfl
  statPerBin := rfl
  contents := by
    have e : allIdx [2] = [[0], [1]] := rfl
    have hd : ((((Ex.heldState n).view 4).numDecays : ℚ) : ℝ) = 2 := ex_limitDecays
    have h1 : ((Ex.heldState n).view 1).numDecays = 4 := rfl
    refine ⟨_, Ex.heldContents n, ex_limitNames, fun q hq => ?_, ?_, ?_, ?_⟩
    · have : q ∈ [0, 4, 1] := hq
      refine held_contents n (by omega) q ?_
      simp only [List.mem_cons, List.not_mem_nil, or_false] at this
      omega
    · rw [show (Ex.heldArgs k).singleBin = false from rfl]
      rcases hn with rfl | rfl <;>
        simp [comparedContents, Ex.heldContents, Ex.limitContents, e]
    · rw [show (Ex.heldArgs k).singleBin = false from rfl]
      simp only [comparedContents, FitArgs.fixedTotal, Bool.false_eq_true, if_false]
      show _ = (allIdx (if (0 : ℕ) = 0 then Ex.limitContents n else Ex.limitContents 0).shape).map _
      rw [if_pos rfl]
      show _ = (allIdx [2]).map _
      rw [e]
      simp [Ex.heldArgs, Ex.heldContents, Ex.limitContents, h1]
    · rw [show (Ex.heldArgs k).singleBin = false from rfl, hd]
      show _ = (comparedContents false (Ex.limitContents 4)).map _
      rw [ex_limitCompared.2.2]
      norm_num

/-- The expected background of one event in each bin is observed. If the limit with `single_bin` is 10,
that bin by bin is no larger. (`c171_single_partial` follows from `c171_merged_partial`, so that the
hypotheses of that are met, too.) -/
example : ∃ ses₁ st₁ w₁ ses₂ st₂ w₂,
    init Ex.keyOf (Ex.heldArgs 4) (Ex.heldState 1) = (st₁, .ok ses₁) ∧
    init Ex.keyOf (Ex.heldArgs 4).inOneBin (Ex.heldState 1) = (st₂, .ok ses₂) ∧
    Fitter.limitInit ⟨ses₁, st₁, GridSearch.new [] [] none false⟩ 4 true = (w₁, .ok ()) ∧
    Fitter.limitInit ⟨ses₂, st₂, GridSearch.new [] [] none false⟩ 4 true = (w₂, .ok ()) ∧
    (((w₂.afterCalls Ex.fitEnv Ex.toInt 4 [.statistics [4]]).limitOf Ex.fitEnv Ex.toInt 4
      [0, 4, 10, 20] [] none 3).2 = .ok 10 → ∃ x ≤ 10,
      ((w₁.afterCalls Ex.fitEnv Ex.toInt 4 []).limitOf Ex.fitEnv Ex.toInt 4 [0, 4, 10, 20] [] none 3).2 =
        .ok x) := by
  have h := held_counts (n := 1) (.inl rfl) (k := 4) (.inl rfl)
  rw [if_pos rfl, show (((4 : ℚ) : ℝ) / 4) = 1 by norm_num] at h
  obtain ⟨ses₁, st₁, w₁, ses₂, st₂, w₂, h1, h2, h3, h4, h5⟩ := c171_single_partial (env := Ex.fitEnv)
    (keyOf := Ex.keyOf) (rnd := Ex.toInt) h rfl (by simp) (by norm_num [zeroThreshold]) (by norm_num)
    (GridSearch.new [] [] none false) rfl
  exact ⟨ses₁, st₁, w₁, ses₂, st₂, w₂, h1, h2, h3, h4, fun h => (h5 [] _ _ (ex_plain.2 _ (.inl rfl))
    (ex_plain.2 _ (.inr rfl)) ex_plain.1 (by simp) [] (by simp) 3).1 10 h⟩

theorem made_background (a b : ℚ) :
    (exWhole.backgroundAt Ex.madeState Ex.madeContents (Ex.madeContents 0).shape [a, b]).get [0] =
      6 + 3 * a / 10 + 2 * b / 10 ∧
    (exWhole.backgroundAt Ex.madeState Ex.madeContents (Ex.madeContents 0).shape [a, b]).get [1] =
      5 + 4 * a / 10 + b / 10 := by
  have h2 : (Ex.madeState.view 1).numDecays = 4 := rfl
  have h3 : (Ex.madeState.view 2).numDecays = 10 := rfl
  have h4 : (Ex.madeState.view 3).numDecays = 10 := rfl
  simp only [FitArgs.backgroundAt, FitArgs.sumAt, exWhole, Ex.madeContents, h2, h3, h4, List.map_cons,
    List.map_nil, List.zipWith_cons_cons, List.zipWith_nil_right, List.sum_cons, List.sum_nil,
    Option.toList_some]
  exact ⟨by ring, by ring⟩

theorem made_mergeable {u : List ℝ} (hu : Combination Ex.closedValues u) :
    exWhole.stat.MergeableArrays (Ex.madeContents 0) (exWhole.backgroundAt Ex.madeState Ex.madeContents
      (Ex.madeContents 0).shape (u.map Ex.toInt)) := by
  have hpos : ∀ x ∈ u.map Ex.toInt, (0 : ℚ) ≤ x := by
    intro x hx
    obtain ⟨y, hy, rfl⟩ := List.mem_map.1 hx
    obtain ⟨vs, hvs, hyv⟩ : ∃ vs ∈ Ex.closedValues, y ∈ vs := by
      clear * - hu hy
      generalize Ex.closedValues = vss at hu
      induction hu with
      | nil => simp at hy
      | cons h _ ih =>
        rcases List.mem_cons.1 hy with rfl | hy
        · exact ⟨_, by simp, h⟩
        · obtain ⟨vs, h1, h2⟩ := ih hy
          exact ⟨vs, by simp [h1], h2⟩
    have e := made_unrounded vs hvs y hyv
    have : vs = [8, 10] ∨ vs = [7, 5, 3] := by simpa [Ex.closedValues] using hvs
    have h0 : (0 : ℝ) ≤ y := by
      rcases this with rfl | rfl <;> simp at hyv
      · rcases hyv with rfl | rfl <;> norm_num
      · rcases hyv with rfl | rfl | rfl <;> norm_num
    rw [← e] at h0
    exact_mod_cast h0
  have hlen : (u.map Ex.toInt).length = 2 := by rw [List.length_map, hu.length_eq]; rfl
  obtain ⟨a, b, hab⟩ := List.length_eq_two.1 hlen
  rw [hab] at hpos ⊢
  have ha := hpos a (by simp)
  have hb := hpos b (by simp)
  obtain ⟨m1, m2⟩ := made_background a b
  have hz : zeroThreshold ≤ ((5 : ℚ) : ℝ) := by norm_num [zeroThreshold]
  have key : ∀ v w : ℚ, 5 ≤ v → 5 ≤ w → exWhole.stat.Mergeable ((v : ℝ), (w : ℝ)) := fun v w hv hw => by
    have h1 : ((5 : ℚ) : ℝ) ≤ v := Rat.cast_le.2 hv
    have h2 : ((5 : ℚ) : ℝ) ≤ w := Rat.cast_le.2 hw
    have h3 : (0 : ℝ) ≤ ((5 : ℚ) : ℝ) := by norm_num
    exact ⟨.inr (hz.trans h1), h3.trans h2, .inr (hz.trans h2)⟩
  intro idx hi
  have hidx : idx = [0] ∨ idx = [1] := by
    have := mem_allIdx.2 hi
    have e : allIdx [2] = [[0], [1]] := rfl
    have : idx ∈ [[0], [1]] := e ▸ this
    simpa using this
  rcases hidx with rfl | rfl
  · exact key _ _ (by norm_num [Ex.madeContents]) (by rw [m1]; linarith)
  · exact key _ _ (by norm_num [Ex.madeContents]) (by rw [m2]; linarith)

example : ∃ ses₁ st₁ g₁ raw₁ pen₁ ses₂ st₂ g₂ raw₂ pen₂ s₁ p₁ s₂ p₂,
    init Ex.keyOf exWhole Ex.madeState = (st₁, .ok ses₁) ∧
    init Ex.keyOf exWhole.inOneBin Ex.madeState = (st₂, .ok ses₂) ∧
    (ses₁.fit (fun f => fitGrid Ex.fitEnv f Ex.toInt Ex.closedSearch) st₁).2 =
      .ok (.inr (g₁, raw₁, pen₁)) ∧
    (ses₂.fit (fun f => fitGrid Ex.fitEnv f Ex.toInt Ex.closedSearch) st₂).2 =
      .ok (.inr (g₂, raw₂, pen₂)) ∧
    raw₁.ravel = [s₁] ∧ pen₁.ravel = [p₁] ∧ raw₂.ravel = [s₂] ∧ pen₂.ravel = [p₂] ∧ s₂ + p₂ ≤ s₁ + p₁ :=
  c171_fit_partial made_given made_evaluable made_settings made_ratesOnly.toOwnRates
    (by simp [FitState.view, Ex.madeState, Ex.fitState, exWhole]) rfl made_names made_contents made_search
    made_unrounded ⟨[0], mem_allIdx.1 (show [0] ∈ allIdx [2] from List.mem_cons_self ..)⟩
    fun _ hu => made_mergeable hu

theorem held_fine {t : ℝ} (ht : 0 ≤ t) : Stat.pearson.sumBins [2, 1]
    (expectedAt [3 / 2, 3 / 2] [1 / 2, 0] t) = (1 / 2 - t / 2) ^ 2 / (3 / 2 + t / 2) + 1 / 6 := by
  have hlt : statEps < 1 := by unfold statEps; norm_num
  have h1 : statEps ≤ 3 / 2 + t * (1 / 2) := by linarith
  simp only [Stat.sumBins, expectedAt, List.zipWith_cons_cons, List.zipWith_nil_right, List.zip_cons_cons,
    List.zip_nil_right, List.map_cons, List.map_nil, List.sum_cons, List.sum_nil, Stat.bin, pearsonBin,
    clampEps_of_ge h1]
  rw [clampEps_of_ge (by linarith), if_neg (by linarith), if_neg (by linarith)]
  have e : (2 - (3 / 2 + t * (1 / 2))) = (1 / 2 - t / 2) := by ring
  have e' : 3 / 2 + t * (1 / 2) = 3 / 2 + t / 2 := by ring
  rw [e, e']
  norm_num

theorem held_coarse {t : ℝ} (ht : 0 ≤ t) : Stat.pearson.sumBins [3] (expectedAt [3] [1 / 2] t) =
    (t / 2) ^ 2 / (3 + t / 2) := by
  have hlt : statEps < 1 := by unfold statEps; norm_num
  have h1 : statEps ≤ 3 + t * (1 / 2) := by linarith
  simp only [Stat.sumBins, expectedAt, List.zipWith_cons_cons, List.zipWith_nil_right, List.zip_cons_cons,
    List.zip_nil_right, List.map_cons, List.map_nil, List.sum_cons, List.sum_nil, Stat.bin, pearsonBin,
    clampEps_of_ge h1]
  rw [if_neg (by linarith)]
  have e : (3 - (3 + t * (1 / 2))) ^ 2 = (t / 2) ^ 2 := by ring
  have e' : 3 + t * (1 / 2) = 3 + t / 2 := by ring
  rw [e, e', add_zero]

/-- **C171, not for other data.** When 2 and 1 events are observed where 3/2 are expected in each bin, and
the signal is in the first bin, the limit with `single_bin` is 4, while that bin by bin is 10: the first bin
alone looks like some signal, both together do not. -/
theorem c171_observed_negation : ∃ ses₁ st₁ w₁ ses₂ st₂ w₂,
    init Ex.keyOf (Ex.heldArgs 6) (Ex.heldState 3) = (st₁, .ok ses₁) ∧
    init Ex.keyOf (Ex.heldArgs 6).inOneBin (Ex.heldState 3) = (st₂, .ok ses₂) ∧
    Fitter.limitInit ⟨ses₁, st₁, GridSearch.new [] [] none false⟩ 4 true = (w₁, .ok ()) ∧
    Fitter.limitInit ⟨ses₂, st₂, GridSearch.new [] [] none false⟩ 4 true = (w₂, .ok ()) ∧
    (w₁.limitOf Ex.fitEnv Ex.toInt 4 [0, 4, 10, 20] [] none (3 / 5)).2 = .ok 10 ∧
    (w₂.limitOf Ex.fitEnv Ex.toInt 4 [0, 4, 10, 20] [] none (3 / 5)).2 = .ok 4 := by
  have h := held_counts (n := 3) (.inr rfl) (k := 6) (.inr rfl)
  rw [if_neg (by norm_num), show (((6 : ℚ) : ℝ) / 4) = 3 / 2 by norm_num] at h
  have h' := h.inOneBin rfl
  rw [show ([2, 1] : List ℝ).sum = 3 by norm_num, show ([3 / 2, 3 / 2] : List ℝ).sum = 3 by norm_num,
    show ([1 / 2, 0] : List ℝ).sum = 1 / 2 by norm_num] at h'
  obtain ⟨ses₁, st₁, w₁, i1, i2, i3⟩ := h.outcome (env := Ex.fitEnv) (keyOf := Ex.keyOf)
    (rnd := Ex.toInt) (GridSearch.new [] [] none false) rfl
  obtain ⟨ses₂, st₂, w₂, j1, j2, j3⟩ := h'.outcome (env := Ex.fitEnv) (keyOf := Ex.keyOf)
    (rnd := Ex.toInt) (GridSearch.new [] [] none false) rfl
  have hsc : ∀ x ∈ ([0, 4, 10, 20] : List ℝ), x = 0 ∨ x = 4 ∨ x = 10 ∨ x = 20 := by
    intro x hx
    simpa using hx
  have e0 := expectedAt_zero (bkg := [3 / 2, 3 / 2]) (sig := [1 / 2, 0]) rfl
  have e0' := expectedAt_zero (bkg := [3]) (sig := [1 / 2]) rfl
  obtain ⟨b, hb, k1, -⟩ := i3 [] [0, 4, 10, 20] (ex_plain.2 [] (.inl rfl)) ex_plain.1 [] (by simp) (3 / 5)
  obtain ⟨b', hb', l1, -⟩ := j3 [] [0, 4, 10, 20] (ex_plain.2 [] (.inl rfl)) ex_plain.1 [] (by simp) (3 / 5)
  have s1 : (Ex.heldArgs 6).stat = .pearson := rfl
  have s2 : (Ex.heldArgs 6).inOneBin.stat = .pearson := rfl
  rw [s1] at hb k1
  rw [s2] at hb' l1
  have f0 := (held_fine (t := 0) le_rfl).trans (show _ = (1 / 3 : ℝ) by norm_num)
  have f4 := (held_fine (t := 4) (by norm_num)).trans (show _ = (17 / 21 : ℝ) by norm_num)
  have f10 := (held_fine (t := 10) (by norm_num)).trans (show _ = (128 / 39 : ℝ) by norm_num)
  have f20 := (held_fine (t := 20) (by norm_num)).trans (show _ = (553 / 69 : ℝ) by norm_num)
  have g0 := (held_coarse (t := 0) le_rfl).trans (show _ = (0 : ℝ) by norm_num)
  have g4 := (held_coarse (t := 4) (by norm_num)).trans (show _ = (4 / 5 : ℝ) by norm_num)
  have f0' := f0
  have g0' := g0
  rw [e0] at f0'
  rw [e0'] at g0'
  rw [f0'] at k1
  rw [g0'] at l1
  obtain rfl : b = 0 := by
    have := (hb.2 0 (by simp)).1
    dsimp only at this
    rw [f0] at this
    rcases hsc b hb.1 with rfl | rfl | rfl | rfl
    · rfl
    · rw [f4] at this; norm_num at this
    · rw [f10] at this; norm_num at this
    · rw [f20] at this; norm_num at this
  obtain rfl : b' = 0 := by
    have hz := ex_plain.1.nonneg b' hb'.1
    refine le_antisymm ((hb'.2 0 (by simp)).2 ?_) hz
    have := (hb'.2 0 (by simp)).1
    have hge := held_coarse hz
    have h0 : 0 ≤ (b' / 2) ^ 2 / (3 + b' / 2) := by positivity
    dsimp only at this ⊢
    rw [g0] at this ⊢
    linarith
  refine ⟨ses₁, st₁, w₁, ses₂, st₂, w₂, i1, j1, i2, j2, (k1 _).2 ⟨by simp, by norm_num, ?_, ?_⟩,
    (l1 _).2 ⟨by simp, by norm_num, ?_, ?_⟩⟩
  · dsimp only; rw [f10]; norm_num
  · intro y hy _ hlt
    rcases hsc y hy with rfl | rfl | rfl | rfl
    · dsimp only; rw [f0]; norm_num
    · dsimp only; rw [f4]; norm_num
    all_goals norm_num at hlt
  · dsimp only; rw [g4]; norm_num
  · intro y hy _ hlt
    rcases hsc y hy with rfl | rfl | rfl | rfl
    · dsimp only; rw [g0]; norm_num
    all_goals norm_num at hlt

end Verif
