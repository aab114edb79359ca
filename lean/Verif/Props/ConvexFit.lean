import Verif.Props.Convex
import Verif.Spec.ConvexFit
import Verif.Props.FitLimit
import Verif.Lemmas.FitExpected
import Mathlib.Data.Rat.BigOperators
import Verif.Lemmas.Smear

/-! # C132 for limits set with a fit without floating backgrounds -/

namespace Verif

variable {env : FitEnv} {rnd : ℝ → ℚ} {r : ℕ} {w : Fitter}

theorem compared_length (sb : Bool) {a b : NdArray ℚ} (h : b.shape = a.shape) :
    (comparedContents sb b).length = (comparedContents sb a).length := by
  unfold comparedContents
  cases sb <;> simp [h]

/-- The expected contents with the signal times a factor. -/
theorem compared_add {sb : Bool} {b s t : NdArray ℚ} {c : ℚ} (hs : s.shape = b.shape)
    (ht : IsTimes c s t) :
    comparedContents sb (b.add t) =
      expectedAt (comparedContents sb b) (comparedContents sb s) (c : ℝ) := by
  unfold comparedContents expectedAt
  cases sb with
  | true =>
    have e : (b.add t).sum = b.sum + c * s.sum := by
      unfold NdArray.sum NdArray.add
      dsimp only
      rw [sumIdx_add, hs]
      congr 1
      rw [mul_comm, ← sumIdx_mul]
      exact sumIdx_congr fun idx hi => by rw [ht.2 idx (by rw [hs]; exact hi)]; ring
    simp [e]
  | false =>
    simp only [Bool.false_eq_true, if_false, NdArray.add, hs]
    have h : ∀ idx ∈ allIdx b.shape, t.get idx = c * s.get idx := fun idx hi =>
      ht.2 idx (by rw [hs]; exact mem_allIdx.1 hi)
    generalize allIdx b.shape = L at h
    induction L with
    | nil => rfl
    | cons x L ih =>
      simp only [List.map_cons, List.zipWith_cons_cons]
      rw [ih fun i hi => h i (by simp [hi]), h x (by simp)]
      push_cast
      rfl

theorem flatten_arr (sb : Bool) (a : NdArray ℚ) : flatten sb a = arr (comparedContents sb a) := by
  unfold flatten comparedContents arr
  cases sb with
  | true => simp
  | false => simp [length_allIdx]

theorem fit_of_fixed (h : LimitSignal r w) (hf : w.ses.floating.getD [] = []) {v : Fitter}
    (hses : SesLike r w v.ses) (hbase : Base w.st r v.st) (hsearch : v.search = w.search)
    (hpars : w.search.pars = []) (hper : w.ses.statPerBin = false) {a e : NdArray ℚ}
    (hc : Session.fixedOnly v.ses v.st = .ok (a, e)) {x : ℝ}
    (hx : w.ses.stat.Total (comparedContents w.ses.singleBin a)
      (comparedContents w.ses.singleBin e) x) :
    (v.fit env rnd).2 = .ok ⟨[x], []⟩ := by
  obtain ⟨o, e', hx⟩ := hx
  have hsame : v.ses.stat = w.ses.stat ∧ v.ses.statPerBin = w.ses.statPerBin ∧
      v.ses.singleBin = w.ses.singleBin := by
    obtain ⟨s, c, -, -, e⟩ := hses
    rw [e]; exact ⟨rfl, rfl, rfl⟩
  unfold Fitter.fit
  rw [call_fixed h hf hses hbase, hc]
  simp only [okBind, hsame.1, hsame.2.1, hsame.2.2, hper, flatten_arr, hx, StatValue.row,
    Fitter.summaryPens, hsearch, hpars]
  rfl

/-- The fits of a limit without floating backgrounds. -/
theorem fresh_fixed (h : LimitSignal r w) (hf : w.ses.floating.getD [] = [])
    (hpars : w.search.pars = []) (hper : w.ses.statPerBin = false) {a b s : NdArray ℚ}
    (hp : ComparedProjections w r a b s) :
    (∀ x, w.ses.stat.Total (comparedContents w.ses.singleBin a)
        (comparedContents w.ses.singleBin b) x → w.fresh env rnd r none = .ok ⟨[x], []⟩) ∧
    ∀ y x, rnd y ≠ 0 → w.ses.stat.Total (comparedContents w.ses.singleBin a)
        (expectedAt (comparedContents w.ses.singleBin b) (comparedContents w.ses.singleBin s)
          ((rnd y : ℝ) / ((w.st.view r).numDecays : ℝ))) x →
      w.fresh env rnd r (some y) = .ok ⟨[x], []⟩ := by
  obtain ⟨d, ps, hd1, hd2, hd3⟩ := hp.data
  obtain ⟨q, qs, hq1, hq2, hq3⟩ := hp.fixed
  obtain ⟨rs, hr1, hr2⟩ := hp.signal
  obtain ⟨⟨d', hd', hdr⟩, hqr⟩ := h.apart
  rw [hd1] at hd'
  cases hd'
  have hqr : q ≠ r := fun he => hqr (by rw [hq1, he])
  have hl := SesLike.self h
  constructor
  · intro x hx
    refine fit_of_fixed h hf (v := w.without) hl.without (.inl rfl) rfl hpars hper (a := a) (e := b)
      ?_ hx
    unfold Session.fixedOnly
    simp only [Fitter.without, hd1, hq1, hd2, hq2, Session.fixedOnly.optionOr, okBind,
      Option.getD_some, hd3, hq3]
  · intro y x hy hx
    have hview : ((w.st.scaled r (rnd y)).view r).cfg = (w.st.view r).cfg ∧
        IsTimes (rnd y / (w.st.view r).numDecays) (w.st.view r).data
          ((w.st.scaled r (rnd y)).view r).data := by
      refine ⟨scaled_cfg h.decays _ _, ?_⟩
      simp only [FitState.view, scaled_self h.decays, (scaled_rest h.decays _).1]
      refine ⟨rfl, fun idx hi => ?_⟩
      simp only [NdArray.norm, NdArray.smul]
      have hi' : InB (w.st.objs r).data.shape idx := hi
      rw [if_pos hi']
      refine Eq.trans (if_pos hi') ?_
      ring
    obtain ⟨t, ht1, ht2⟩ := ndProject_times hview.1 hview.2 hr2
    refine fit_of_fixed h hf (v := w.withScaled r (rnd y)) hl.on (.inr ⟨_, hy, rfl⟩) rfl hpars hper
      (a := a) (e := b.add t) ?_ ?_
    · unfold Session.fixedOnly
      have hbt : b.shape = t.shape := by rw [ht2.1, hp.shape.1, hp.shape.2]
      simp only [Fitter.withScaled, Fitter.with, hd1, hq1, hd2, hq2, hr1,
        Session.fixedOnly.optionOr, okBind, Option.getD_some,
        scaled_view h.decays (rnd y) hdr, scaled_view h.decays (rnd y) hqr, hd3, hq3, ht1,
        addProjection, if_pos hbt]
    · rw [compared_add (by rw [hp.shape.1, hp.shape.2]) ht2]
      push_cast
      exact hx

/-- **C132, limits of a fit.** A limit is set with a fit without floating backgrounds, after any
earlier calls. `T y v` says that background plus signal scaled to `y` decays give the statistic
`v`; the signal has no negative contents, contents count at the tested scalings, one of the
tested scalings is allowed. Then every real scaling from the limit on is excluded, and a tested
scaling directly below the limit is allowed. -/
theorem c132_fit (h : LimitSignal r w) (calls : List LimitCall) (scales : List ℝ)
    (ht : Testable rnd (allScales calls ++ scales))
    (hf : w.ses.floating.getD [] = []) (hpars : w.search.pars = [])
    (hper : w.ses.statPerBin = false) {a b s : NdArray ℚ} (hp : ComparedProjections w r a b s)
    (hdec : 0 < (w.st.view r).numDecays) (hpos : ∀ x ∈ comparedContents w.ses.singleBin s, 0 ≤ x)
    (hrnd : ∀ x ∈ scales, ¬ npCloseReal x 0 → ((rnd x : ℚ) : ℝ) = x)
    (hzero : ∀ x ∈ scales, npCloseReal x 0 → x = 0) (hs : scales.Pairwise (· < ·))
    (hsound : ∀ x ∈ scales, w.ses.stat.Sound (comparedContents w.ses.singleBin a)
      (expectedAt (comparedContents w.ses.singleBin b) (comparedContents w.ses.singleBin s)
        (x / ((w.st.view r).numDecays : ℝ))))
    (T : ℝ → ℝ → Prop) (hT : ∀ y v, T y v ↔ w.ses.stat.Total (comparedContents w.ses.singleBin a)
      (expectedAt (comparedContents w.ses.singleBin b) (comparedContents w.ses.singleBin s)
        (y / ((w.st.view r).numDecays : ℝ))) v)
    (m : ℝ) (hm : T 0 m) (limit : ℝ) (hallowed : ∃ z ∈ scales, ∃ v, T z v ∧ v - m ≤ limit)
    (sigmas : List (Option ℝ)) (x : ℝ)
    (hx : ((w.afterCalls env rnd r calls).limitOf env rnd r scales sigmas none limit).2 = .ok x) :
    (∀ y v, x ≤ y → T y v → limit < v - m) ∧
    ∃ z ∈ scales, z < x ∧ (∀ y ∈ scales, y ≤ z ∨ x ≤ y) ∧ ∀ v, T z v → v - m ≤ limit := by
  rw [c100_limit_partial h calls scales (.inl hf) ht] at hx
  obtain ⟨hnone, hsome⟩ := fresh_fixed (env := env) (rnd := rnd) h hf hpars hper hp
  have hlens := compared_length w.ses.singleBin hp.shape.1
  have hlens' := compared_length w.ses.singleBin hp.shape.2
  have hn : (0 : ℝ) < ((w.st.view r).numDecays : ℝ) := by exact_mod_cast hdec
  generalize comparedContents w.ses.singleBin a = obs at *
  generalize comparedContents w.ses.singleBin b = bkg at *
  generalize comparedContents w.ses.singleBin s = sig at *
  generalize ((w.st.view r).numDecays : ℝ) = n at *
  have hE : ∀ y, expectedAt bkg sig (y / n) = expectedAt bkg (sig.map (fun c => c / n)) y := by
    intro y
    unfold expectedAt
    rw [List.zipWith_map_right]
    congr 1
    funext p c
    ring
  simp only [hE] at hsome hsound hT
  have hlen : bkg.length = (sig.map (fun c => c / n)).length := by
    rw [List.length_map, hlens, hlens']
  have hsig : ∀ c ∈ sig.map (fun c => c / n), 0 ≤ c := by
    intro c hc
    obtain ⟨c', hc', rfl⟩ := List.mem_map.1 hc
    exact div_nonneg (hpos c' hc') hn.le
  generalize sig.map (fun c => c / n) = sig' at *
  have hT0 : expectedAt bkg sig' 0 = bkg := by
    clear * - hlen
    unfold expectedAt
    induction bkg generalizing sig' with
    | nil => rfl
    | cons p bkg ih =>
      cases sig' with
      | nil => simp at hlen
      | cons c sig' => simpa using ih sig' (by simpa using hlen)
  have hstat : ∀ y v, T y v ↔
      v = ((obs.zip (expectedAt bkg sig' y)).map (fun b => w.ses.stat.bin b.1 b.2)).sum := by
    intro y v
    rw [hT, total_iff]
    simp [expectedAt, ← hlen, hlens]
  generalize hst : (fun y => ((obs.zip (expectedAt bkg sig' y)).map
    (fun b => w.ses.stat.bin b.1 b.2)).sum) = stat
  have hstat' : ∀ y v, T y v ↔ v = stat y := by
    intro y v; rw [hstat, ← hst]
  have hfits : ScalarFits (w.fresh env rnd r) scales stat (fun _ => []) := by
    intro z hz
    refine ⟨fun hc => ?_, fun hc => ?_⟩
    · have h0 := hzero z hz hc
      refine hnone _ ?_
      have := (hT z (stat z)).1 ((hstat' _ _).2 rfl)
      rwa [h0, hT0, ← h0] at this
    · have hr := hrnd z hz hc
      refine hsome z _ (ht z (List.mem_append_right _ hz) hc) ?_
      rw [hr]
      exact (hT z (stat z)).1 ((hstat' _ _).2 rfl)
  have hrel : RelativeTo (w.fresh env rnd r) none m := by
    refine .inr ⟨.inl rfl, [], hnone _ ?_⟩
    have := (hT 0 m).1 hm
    rwa [hT0] at this
  obtain ⟨z, hz, v, hv, hvm⟩ := hallowed
  obtain ⟨h1, b, hb1, z, h2, hb2, h3, h4, h5, h6⟩ := c132_limit w.ses.stat obs bkg sig' hlen hsig hfits (fun _ _ => rfl)
    (fun y hy => ⟨hsound y hy, (hT y _).1 ((hstat' _ _).2 rfl)⟩) hrel hs
    ⟨z, hz, by rw [← (hstat' z v).1 hv]; exact hvm⟩ x hx
  exact ⟨fun y v hy hv => h1 y v hy ((hT y v).1 hv), z, h2, h4, h5,
    fun v hv => h6 z v h3 le_rfl ((hT z v).1 hv)⟩

namespace Ex

/-- The fit with a fixed background, with Pearson's statistic. -/
noncomputable def pearsonFitter : Fitter :=
  { fixedFitter with ses := { fixedFitter.ses with stat := .pearson } }

theorem pearson_signal : LimitSignal 4 pearsonFitter := by
  refine ⟨.inr rfl, ⟨_, rfl, rfl⟩, ?_, ⟨⟨0, rfl, by decide⟩, by decide⟩,
    .inr (ok_of_some (by decide +kernel)), .inr (ok_of_some (by decide +kernel))⟩
  change (2 : ℚ) ≠ 0
  norm_num

theorem pearson_compared : ComparedProjections pearsonFitter 4 (four 5 6 7 8).norm
    (four 1 1 1 1).norm (four 0 1 1 0).norm :=
  ⟨⟨0, _, rfl, rfl, rfl⟩, ⟨1, _, rfl, rfl, rfl⟩, ⟨_, rfl, rfl⟩, rfl, rfl⟩

theorem four_contents (a b c d : ℚ) :
    comparedContents false (four a b c d).norm = [(a : ℝ), (b : ℝ), (c : ℝ), (d : ℝ)] := by
  have e : allIdx (four a b c d).norm.shape = [[0], [1], [2], [3]] := rfl
  unfold comparedContents
  rw [if_neg (by simp), e]
  rfl

theorem pearson_expected (x : ℝ) :
    expectedAt [((1 : ℚ) : ℝ), ((1 : ℚ) : ℝ), ((1 : ℚ) : ℝ), ((1 : ℚ) : ℝ)]
      [((0 : ℚ) : ℝ), ((1 : ℚ) : ℝ), ((1 : ℚ) : ℝ), ((0 : ℚ) : ℝ)] x = [1, 1 + x, 1 + x, 1] := by
  simp [expectedAt]

theorem pearson_total {x : ℝ} (hx : 0 ≤ x) (v : ℝ) :
    Stat.pearson.Total [((5 : ℚ) : ℝ), ((6 : ℚ) : ℝ), ((7 : ℚ) : ℝ), ((8 : ℚ) : ℝ)]
      [1, 1 + x, 1 + x, 1] v ↔ v = 65 + (6 - (1 + x)) ^ 2 / (1 + x) + (7 - (1 + x)) ^ 2 / (1 + x) := by
  have hlt : statEps < 1 := by unfold statEps; norm_num
  have h1 : statEps ≤ 1 + x := by linarith
  have h5 : ∀ y : ℝ, 1 ≤ y → ¬ y < statEps := fun y hy => not_lt.2 (hlt.le.trans hy)
  rw [total_iff _ (by simp)]
  simp only [List.zip_cons_cons, List.zip_nil_right, List.map_cons, List.map_nil, List.sum_cons,
    List.sum_nil, Stat.bin, pearsonBin, clampEps_of_ge h1, clampEps_of_ge hlt.le]
  rw [if_neg (h5 _ (by norm_num)), if_neg (h5 _ (by norm_num)), if_neg (h5 _ (by norm_num)),
    if_neg (h5 _ (by norm_num))]
  norm_num
  constructor <;> intro h <;> rw [h] <;> ring

/-- All hypotheses of `c132_fit` hold for the scalings 0, 12 and 100 and the threshold 10, after
an earlier call; and the limit is then 100. -/
example : ((pearsonFitter.afterCalls fitEnv toInt 4 [.statistics [12]]).limitOf fitEnv toInt 4
      [0, 12, 100] [] none 10).2 = .ok 100 ∧
    ∀ y v, 100 ≤ y → Stat.pearson.Total [((5 : ℚ) : ℝ), ((6 : ℚ) : ℝ), ((7 : ℚ) : ℝ), ((8 : ℚ) : ℝ)]
      [1, 1 + y / 2, 1 + y / 2, 1] v → 10 < v - 126 := by
  have c12 : ¬ npCloseReal 12 0 := by unfold npCloseReal; norm_num
  have c100 : ¬ npCloseReal 100 0 := by unfold npCloseReal; norm_num
  have r12 : toInt 12 = 12 := by simp [toInt]
  have r100 : toInt 100 = 100 := by simp [toInt]
  have hn : ((pearsonFitter.st.view 4).numDecays : ℝ) = 2 := by
    change (((2 : ℚ) : ℝ)) = 2
    norm_num
  have htest : Testable toInt (allScales [.statistics [12]] ++ [0, 12, 100]) := by
    intro x hx h0
    have : x = 12 ∨ x = 0 ∨ x = 12 ∨ x = 100 := by
      simpa [allScales, LimitCall.scales] using hx
    rcases this with rfl | rfl | rfl | rfl
    · rw [r12]; norm_num
    · exact absurd (by unfold npCloseReal; norm_num) h0
    · rw [r12]; norm_num
    · rw [r100]; norm_num
  have hobs : comparedContents pearsonFitter.ses.singleBin (four 5 6 7 8).norm =
      [((5 : ℚ) : ℝ), ((6 : ℚ) : ℝ), ((7 : ℚ) : ℝ), ((8 : ℚ) : ℝ)] := four_contents 5 6 7 8
  have hbkg : comparedContents pearsonFitter.ses.singleBin (four 1 1 1 1).norm =
      [((1 : ℚ) : ℝ), ((1 : ℚ) : ℝ), ((1 : ℚ) : ℝ), ((1 : ℚ) : ℝ)] := four_contents 1 1 1 1
  have hsig : comparedContents pearsonFitter.ses.singleBin (four 0 1 1 0).norm =
      [((0 : ℚ) : ℝ), ((1 : ℚ) : ℝ), ((1 : ℚ) : ℝ), ((0 : ℚ) : ℝ)] := four_contents 0 1 1 0
  have hst : pearsonFitter.ses.stat = .pearson := rfl
  have hpair : ([0, 12, 100] : List ℝ).Pairwise (· < ·) := by norm_num
  obtain ⟨hnone, hsome⟩ := fresh_fixed (env := fitEnv) (rnd := toInt) pearson_signal rfl rfl rfl
    pearson_compared
  rw [hobs, hbkg, hst] at hnone
  rw [hobs, hbkg, hsig, hst] at hsome
  simp only [hn, pearson_expected] at hsome
  have f0 : pearsonFitter.fresh fitEnv toInt 4 none = .ok ⟨[126], []⟩ := by
    refine hnone 126 ?_
    have := (pearson_total (x := 0) le_rfl 126).2 (by norm_num)
    simpa using this
  have f12 : pearsonFitter.fresh fitEnv toInt 4 (some 12) = .ok ⟨[65 + 1 / 7], []⟩ := by
    refine hsome 12 _ (by rw [r12]; norm_num) ?_
    rw [r12]
    exact (pearson_total (by norm_num) _).2 (by norm_num)
  have f100 : pearsonFitter.fresh fitEnv toInt 4 (some 100) = .ok ⟨[65 + 2025 / 51 + 1936 / 51], []⟩ := by
    refine hsome 100 _ (by rw [r100]; norm_num) ?_
    rw [r100]
    exact (pearson_total (by norm_num) _).2 (by norm_num)
  have hlim : ((pearsonFitter.afterCalls fitEnv toInt 4 [.statistics [12]]).limitOf fitEnv toInt 4
      [0, 12, 100] [] none 10).2 = .ok 100 := by
    rw [c100_limit_partial pearson_signal _ _ (.inl rfl) htest]
    have c0 : npCloseReal 0 0 := by unfold npCloseReal; norm_num
    norm_num [getLimit, minStatOf, Except.map, bind, Except.bind, List.mapM_cons, limitRow, signalAt,
      c0, c12, c100, f0, f12, f100, setRow, pure, Except.pure, npArgmin, argminAux, readLimit,
      List.findIdx?_cons]
  refine ⟨hlim, ?_⟩
  have main := c132_fit pearson_signal [.statistics [12]] [0, 12, 100] htest rfl rfl rfl pearson_compared
    (by change (0 : ℚ) < 2; norm_num)
    (by rw [hsig]; intro x hx; simp at hx; rcases hx with rfl | rfl | rfl <;> norm_num)
    (by
      intro x hx hc
      have : x = 0 ∨ x = 12 ∨ x = 100 := by simpa using hx
      rcases this with rfl | rfl | rfl
      · exact absurd (by unfold npCloseReal; norm_num) hc
      · rw [r12]; norm_num
      · rw [r100]; norm_num)
    (by
      intro x hx hc
      have : x = 0 ∨ x = 12 ∨ x = 100 := by simpa using hx
      rcases this with rfl | rfl | rfl
      · rfl
      · exact absurd hc c12
      · exact absurd hc c100)
    hpair
    (by
      intro x hx
      rw [hobs, hbkg, hsig, hn, pearson_expected]
      have hx0 : 0 ≤ x := by
        have : x = 0 ∨ x = 12 ∨ x = 100 := by simpa using hx
        rcases this with rfl | rfl | rfl <;> norm_num
      have ht : zeroThreshold ≤ 1 := by unfold zeroThreshold; norm_num
      have hb : ∀ o e : ℝ, 1 ≤ o → 1 ≤ e → Stat.pearson.SoundBin o e := fun o e ho he =>
        ⟨.inr (ht.trans ho), by linarith, .inr (ht.trans he)⟩
      exact .cons (hb _ _ (by norm_num) le_rfl) (.cons (hb _ _ (by norm_num) (by linarith))
        (.cons (hb _ _ (by norm_num) (by linarith)) (.cons (hb _ _ (by norm_num) le_rfl) .nil))))
    (fun y v => Stat.pearson.Total [((5 : ℚ) : ℝ), ((6 : ℚ) : ℝ), ((7 : ℚ) : ℝ), ((8 : ℚ) : ℝ)]
      [1, 1 + y / 2, 1 + y / 2, 1] v)
    (by intro y v; rw [hobs, hbkg, hsig, hn, pearson_expected]; rfl)
    126 ((pearson_total (by norm_num) _).2 (by norm_num)) 10
    ⟨0, by simp, 126, (pearson_total (by norm_num) _).2 (by norm_num), by norm_num⟩ [] 100 hlim
  exact main.1

end Ex

end Verif
