import Verif.Lemmas.FitLimitGrid
import Verif.Props.Limit
import Verif.Props.FitFixedOnly

/-!
# C100: limits set with a fit

`get_limit` and `get_statistics` of a `Limit` change the signal of the fit, its objects and its
grid search at every scaling. Each scaling is nevertheless judged as by a fit for which nothing
else has been done before.
-/

namespace Verif

variable {env : FitEnv} {rnd : ℝ → ℚ} {r : ℕ} {w : Fitter}

/-- All scalings of some calls. -/
def allScales (calls : List LimitCall) : List ℝ := calls.flatMap LimitCall.scales

theorem refines_exists (h : LimitSignal r w) {scales : List ℝ} (hf : LimitFit env rnd r w scales) :
    ∃ I : Fitter → Prop, I w ∧
      (∀ v, I v → SesLike r w v.ses ∧ (∀ q, w.ses.data = some q ∨ w.ses.fixed = some q →
        v.st.view q = w.st.view q) ∧ ∃ b, Base w.st r b ∧ v.st.view r = b.view r) ∧
      Refines env rnd r (Tested rnd scales) I (w.fresh env rnd r) (w.freshReturn env rnd r) := by
  rcases hf with hf | ⟨vss, hg⟩
  · refine ⟨FixedInv r w, ⟨SesLike.self h, rfl, .inl rfl⟩, ?_, refines_fixed h hf scales⟩
    intro v hv
    refine ⟨hv.ses, fun q hq => ?_, v.st, hv.base, rfl⟩
    refine hv.base.view h.decays ?_
    rintro rfl
    obtain ⟨⟨d, h1, h2⟩, h3⟩ := h.apart
    rcases hq with hq | hq
    · rw [h1] at hq; exact h2 (Option.some.inj hq)
    · exact h3 hq
  · refine ⟨GridInv env r w, GridInv.self h hg, ?_, refines_grid h hg⟩
    intro v hv
    obtain ⟨b, hb, -, ho⟩ := hv.objs
    have hrest := hb.rest h.decays
    have hview : ∀ q, q ∉ (w.with r).ses.toFit.floatingRefs → q < w.st.next →
        v.st.view q = b.view q := by
      intro q h1 h2
      have ho' := ho.old q (by rw [hrest.2.1]; exact h2) (.inr h1)
      simp only [FitState.view, ho', ho.cfgs]
    refine ⟨hv.ses, fun q hq => ?_, b, hb, hview r hg.apart hg.lt⟩
    obtain ⟨⟨d, h1, h2⟩, h3⟩ := h.apart
    rcases hq with hq | hq
    · have hq' : (w.with r).ses.toFit.data = q := by
        change w.ses.data.getD 0 = q
        rw [hq]; rfl
      rw [hview q (hq' ▸ hg.ready.apart.1) (hq' ▸ hg.ready.alloc.1)]
      refine hb.view h.decays ?_
      rintro rfl
      rw [h1] at hq; exact h2 (Option.some.inj hq)
    · have hq' : (q, w.ses.fixedPars.getD []) ∈ (w.with r).ses.toFit.fixed := by
        change _ ∈ w.ses.fixed.map _
        rw [hq]; rfl
      rw [hview q (hg.ready.apart.2 _ hq') (hg.ready.alloc.2.1 _ hq')]
      exact hb.view h.decays fun he => h3 (he ▸ hq)

theorem tested_of {scales l : List ℝ} (hl : ∀ x ∈ l, x ∈ scales) (ht : Testable rnd scales) :
    ∀ x ∈ l, Tested rnd scales x := fun x hx => ⟨hl x hx, ht x (hl x hx)⟩

/-- **C100.** After any earlier calls, whether they raised or not, the limit is the one read off
from the fits, each done first: without signal, and with the signal scaled to each of the values.
Partial: for fits with floating backgrounds the evaluations must succeed; with global parameters
decays must be positive and interpolations follow multiplied contents (`GridLimit`). -/
theorem c100_limit_partial (h : LimitSignal r w) (calls : List LimitCall) (scales : List ℝ)
    (hf : LimitFit env rnd r w (allScales calls ++ scales))
    (ht : Testable rnd (allScales calls ++ scales)) (sigmas : List (Option ℝ))
    (minStat : Option (List ℝ)) (limit : ℝ) :
    ((w.afterCalls env rnd r calls).limitOf env rnd r scales sigmas minStat limit).2 =
      getLimit scales sigmas (w.fresh env rnd r) minStat limit := by
  obtain ⟨I, hi, -, hR⟩ := refines_exists h hf
  have ha := hR.after calls (fun c hc => tested_of (fun x hx =>
    List.mem_append_left _ (List.mem_flatMap.2 ⟨c, hc, hx⟩)) ht) w hi
  obtain ⟨w', -, e⟩ := hR.limitOf scales (tested_of (fun x hx => List.mem_append_right _ hx) ht)
    sigmas _ ha minStat limit
  rw [e]

/-- **C100, first crossing.** When the fits give numbers, and all parameters have a sigma, the
limit is the first scaling from the best one on where the statistic, relative to the one without
signal and with the penalties of the fit at this scaling, is above the threshold; after any earlier
calls. Partial as `c100_limit_partial`. -/
theorem c100_crossing_partial (h : LimitSignal r w) (calls : List LimitCall) (scales : List ℝ)
    (hf : LimitFit env rnd r w (allScales calls ++ scales))
    (ht : Testable rnd (allScales calls ++ scales)) {sigmas : List (Option ℝ)}
    {minStat : Option (List ℝ)} {st : ℝ → ℝ} {pens : ℝ → List ℝ} {m : ℝ} (limit : ℝ)
    (hst : ScalarFits (w.fresh env rnd r) scales st pens)
    (hm : RelativeTo (w.fresh env rnd r) minStat m) (hn : scales ≠ [])
    (hs : scales.Pairwise (· < ·)) (hsig : ∀ s ∈ sigmas, s ≠ none) :
    ∃ b, BestScale scales st b ∧
      (∀ x, ((w.afterCalls env rnd r calls).limitOf env rnd r scales sigmas minStat limit).2 = .ok x ↔
        FirstCrossing scales (fun x => st x - m + (pens x).sum) b limit x) ∧
      (((w.afterCalls env rnd r calls).limitOf env rnd r scales sigmas minStat limit).2 =
          .error .limitError ↔
        ∀ y ∈ scales, b ≤ y → st y - m + (pens y).sum ≤ limit) := by
  rw [c100_limit_partial h calls scales hf ht]
  exact c49_limit_partial limit hst hm hn hs hsig

/-- **C100, statistics.** After any earlier calls `get_statistics` gives for every scaling what
the first fit with the signal scaled so returns, and without signal for a scaling close to zero;
it raises what the first failing of these fits raises. Partial as `c100_limit_partial`. -/
theorem c100_statistics_partial (h : LimitSignal r w) (calls : List LimitCall) (scales : List ℝ)
    (hf : LimitFit env rnd r w (allScales calls ++ scales))
    (ht : Testable rnd (allScales calls ++ scales)) :
    ((w.afterCalls env rnd r calls).statistics env rnd r scales).2 =
      scales.mapM (fun x => w.freshReturn env rnd r (decaysFor x)) := by
  have hd : ∀ x, decaysFor x = signalAt x := fun x => by
    unfold decaysFor signalAt npCloseReal
    norm_num
  simp only [hd]
  obtain ⟨I, hi, -, hR⟩ := refines_exists h hf
  have ha := hR.after calls (fun c hc => tested_of (fun x hx =>
    List.mem_append_left _ (List.mem_flatMap.2 ⟨c, hc, hx⟩)) ht) w hi
  obtain ⟨w', -, e⟩ := hR.statistics scales (tested_of (fun x hx => List.mem_append_right _ hx) ht)
    _ ha
  rw [e]

/-- **C100, objects.** Setting limits leaves data and fixed background alone, and of the settings
of the fit it changes only the signal; the signal's spectrum is the original one or the original
one scaled to a number of decays. Partial as `c100_limit_partial`. -/
theorem c100_objects_partial (h : LimitSignal r w) (calls : List LimitCall)
    (hf : LimitFit env rnd r w (allScales calls)) (ht : Testable rnd (allScales calls)) :
    (∀ q, w.ses.data = some q ∨ w.ses.fixed = some q →
      (w.afterCalls env rnd r calls).st.view q = w.st.view q) ∧
    (((w.afterCalls env rnd r calls).st.view r = w.st.view r) ∨ ∃ n, n ≠ 0 ∧
      ((w.afterCalls env rnd r calls).st.view r) = { w.st.view r with
        data := ((w.st.view r).data.smul (n / (w.st.view r).numDecays)), numDecays := n }) ∧
    ∃ s c, (s = none ∨ s = some r) ∧
      (w.afterCalls env rnd r calls).ses = { w.ses with signal := s, checked := c } := by
  obtain ⟨I, hi, hI, hR⟩ := refines_exists h hf
  have ha := hR.after calls (fun c hc => tested_of (fun x hx =>
    List.mem_flatMap.2 ⟨c, hc, hx⟩) ht) w hi
  obtain ⟨⟨s, c, h1, -, h2⟩, h3, b, hb, h4⟩ := hI _ ha
  refine ⟨h3, ?_, s, c, h1, h2⟩
  rw [h4]
  rcases hb with rfl | ⟨n, hn, rfl⟩
  · exact .inl rfl
  · refine .inr ⟨n, hn, ?_⟩
    simp only [FitState.view, scaled_self h.decays n, (scaled_rest h.decays n).1]
    congr 1
    simp only [NdArray.smul, NdArray.norm]
    congr 1
    funext idx
    split <;> simp_all

/-- **C100, constructor.** A signal without fit configuration is refused and nothing changes;
otherwise, when it is accepted, it is the signal of the fit and its parameters of interest are
those of the region. -/
theorem c100_init (w : Fitter) (r : ℕ) (shrink : Bool) :
    ((w.st.objs r).fit = none → w.limitInit r shrink = (w, .error .compatibility)) ∧
    ((w.limitInit r shrink).2 = .ok () → (w.st.objs r).fit ≠ none ∧
      (w.limitInit r shrink).1.ses.signal = some r ∧
      ∃ ps, (w.limitInit r shrink).1.ses.signalPars = some ps ∧
        roiPars w.ses.roi ((w.limitInit r shrink).1.st.view r) = .ok ps) := by
  constructor
  · intro h
    unfold Fitter.limitInit
    rw [if_pos h]
  · intro h
    unfold Fitter.limitInit at h ⊢
    by_cases hf : (w.st.objs r).fit = none
    · rw [if_pos hf] at h; cases h
    · rw [if_neg hf] at h ⊢
      refine ⟨hf, ?_⟩
      unfold Session.setSignal at h ⊢
      rcases hs : shrinkIf w.ses.roi shrink r w.st with ⟨st, e | u⟩
      · simp only [hs] at h; cases h
      · simp only [hs] at h ⊢
        cases hp : roiPars w.ses.roi (st.view r) with
        | error e => simp only [hp] at h; cases h
        | ok ps =>
          simp only [hp]
          exact ⟨trivial, ps, rfl, rfl⟩

/-! ### examples -/

/-- The background of `fitState` has a fit configuration, the data have none. -/
example : (Ex.fitState.objs 2).fit ≠ none ∧ (Ex.fitState.objs 0).fit = none := ⟨by decide, rfl⟩

namespace Ex

/-- A fit of data, fixed background and signal. -/
noncomputable def fixedFitter : Fitter where
  ses := { ses with
    roi := [(lit "energy", (0, 2))]
    signal := some 4
    signalPars := some [lit "energy_mc"] }
  st := fitState
  search := GridSearch.new [] [4] (some (lit "fit")) false

/-- The search for the rates of two backgrounds. -/
def rateSearch : GridSearch :=
  GridSearch.new [gridPar (lit "rate") (some 2) [5, 3], gridPar (lit "rate") none [7]] [4]
    (some (lit "fit")) false

/-- A fit with two floating backgrounds. -/
noncomputable def gridFitter : Fitter where
  ses := { fixedFitter.ses with
    floating := some [2, 3]
    floatingPars := some [[lit "energy_mc"], [lit "energy_mc"]]
    config := [(lit "bkg_rate", (0, false)), (lit "other_rate", (1, false))] }
  st := fitState
  search := rateSearch

end Ex

theorem ok_of_some {x : Except PyErr Unit} (h : x.toOption = some ()) : x = .ok () := by
  cases x with
  | error e => cases h
  | ok u => rfl

theorem ex_limit_signal : LimitSignal 4 Ex.fixedFitter ∧ LimitSignal 4 Ex.gridFitter := by
  refine ⟨⟨.inr rfl, ⟨_, rfl, rfl⟩, ?_, ⟨⟨0, rfl, by decide⟩, by decide⟩,
      .inr (ok_of_some (by decide +kernel)), .inr (ok_of_some (by decide +kernel))⟩,
    ⟨.inr rfl, ⟨_, rfl, rfl⟩, ?_, ⟨⟨0, rfl, by decide⟩, by decide⟩,
      .inr (ok_of_some (by decide +kernel)), .inr (ok_of_some (by decide +kernel))⟩⟩ <;>
  · change (2 : ℚ) ≠ 0
    norm_num

theorem ex_testable : Testable Ex.toInt [0, 2, 4] := by
  intro x hx h0
  have : x = 0 ∨ x = 2 ∨ x = 4 := by simpa using hx
  rcases this with rfl | rfl | rfl
  · exact absurd (by unfold npCloseReal; norm_num) h0
  · simp [Ex.toInt]
  · simp [Ex.toInt]

/-- Three scalings with the fixed background, after statistics and a limit. -/
example := c100_limit_partial (env := Ex.fitEnv) ex_limit_signal.1
  [.statistics [2], .limit [0, 4] [] none 3] [0, 2, 4] (.inl rfl)
  (fun x hx => ex_testable x (by
    simp [allScales, LimitCall.scales] at hx
    rcases hx with rfl | rfl | rfl | rfl | rfl | rfl <;> simp))

theorem ex_fixed_stat {v : Fitter} (hb : v.ses.statPerBin = false) (hpars : v.search.pars = [])
    (hses : SesLike 4 Ex.fixedFitter v.ses) (hbase : Base Ex.fixedFitter.st 4 v.st)
    (hc : (Session.fixedOnly v.ses v.st).toOption.map (fun c => (c.1.shape, c.2.shape)) =
      some ([4], [4])) : ∃ x, (v.fit Ex.fitEnv Ex.toInt).2 = .ok ⟨[x], []⟩ := by
  cases ho : Session.fixedOnly v.ses v.st with
  | error e => rw [ho] at hc; cases hc
  | ok c =>
    rw [ho] at hc
    obtain ⟨obs, exp⟩ := c
    simp only [Except.toOption, Option.map_some, Option.some.injEq, Prod.mk.injEq] at hc
    have hlen : (flatten v.ses.singleBin obs).vals.length =
        (flatten v.ses.singleBin exp).vals.length := by
      rw [flatten_vals_length, flatten_vals_length, hc.1, hc.2]
    have hdim : ∀ a, (flatten v.ses.singleBin a).shape.length = 1 := by
      intro a; unfold flatten; cases v.ses.singleBin <;> rfl
    have hstat : ∃ o x, v.ses.stat.computeStatistic v.ses.statPerBin (flatten v.ses.singleBin obs)
        (flatten v.ses.singleBin exp) = .ok o ∧ o.value = .total x := by
      unfold Stat.computeStatistic
      rw [if_neg (by rw [hdim]; simp), if_neg (by rw [hdim]; simp), if_neg (by simp [hlen]), hb]
      exact ⟨_, _, rfl, rfl⟩
    obtain ⟨o, x, h1, h2⟩ := hstat
    refine ⟨x, ?_⟩
    unfold Fitter.fit
    rw [call_fixed ex_limit_signal.1 rfl hses hbase, ho]
    simp only [okBind, h1, h2, StatValue.row, Fitter.summaryPens, hpars]
    rfl

theorem ex_fixed_fits : ∃ st m, ScalarFits (Ex.fixedFitter.fresh Ex.fitEnv Ex.toInt 4) [0, 2, 4] st
    (fun _ => []) ∧ RelativeTo (Ex.fixedFitter.fresh Ex.fitEnv Ex.toInt 4) none m := by
  have hl := SesLike.self ex_limit_signal.1
  obtain ⟨m, hm⟩ := ex_fixed_stat (v := Ex.fixedFitter.without) rfl rfl hl.without (.inl rfl)
    (by decide +kernel)
  obtain ⟨a, ha⟩ := ex_fixed_stat (v := Ex.fixedFitter.withScaled 4 2) rfl rfl hl.on
    (.inr ⟨2, by norm_num, rfl⟩) (by decide +kernel)
  obtain ⟨b, hb⟩ := ex_fixed_stat (v := Ex.fixedFitter.withScaled 4 4) rfl rfl hl.on
    (.inr ⟨4, by norm_num, rfl⟩) (by decide +kernel)
  refine ⟨fun x => if x = 0 then m else if x = 2 then a else b, m, ?_, .inr ⟨.inl rfl, [], hm⟩⟩
  intro x hx
  have : x = 0 ∨ x = 2 ∨ x = 4 := by simpa using hx
  rcases this with rfl | rfl | rfl
  · exact ⟨fun _ => by dsimp only; rw [if_pos rfl]; exact hm,
      fun h => absurd (by unfold npCloseReal; norm_num) h⟩
  · refine ⟨fun h => absurd h (by unfold npCloseReal; norm_num), fun _ => ?_⟩
    dsimp only
    rw [if_neg (by norm_num), if_pos rfl]
    have : Ex.toInt 2 = 2 := by simp [Ex.toInt]
    unfold Fitter.fresh
    dsimp only
    rw [this]; exact ha
  · refine ⟨fun h => absurd h (by unfold npCloseReal; norm_num), fun _ => ?_⟩
    dsimp only
    rw [if_neg (by norm_num), if_neg (by norm_num)]
    have : Ex.toInt 4 = 4 := by simp [Ex.toInt]
    unfold Fitter.fresh
    dsimp only
    rw [this]; exact hb

/-- A limit with the fixed background, after a limit. -/
example (limit : ℝ) : ∃ b, ∃ st : ℝ → ℝ, BestScale [0, 2, 4] st b := by
  obtain ⟨st, m, h1, h2⟩ := ex_fixed_fits
  obtain ⟨b, hb, -⟩ := c100_crossing_partial (env := Ex.fitEnv) ex_limit_signal.1
    [.limit [0, 2] [] none 3] [0, 2, 4] (.inl rfl)
    (fun x hx => ex_testable x (by
      simp [allScales, LimitCall.scales] at hx
      rcases hx with rfl | rfl | rfl | rfl | rfl <;> simp)) (sigmas := []) limit h1 h2 (by simp)
    (by norm_num) (by simp)
  exact ⟨b, st, hb⟩

theorem ex_limit_ready : FitReady Ex.fitEnv Ex.fit Ex.fitState where
  str := ex_ready.str
  cache := rfl
  alloc := ex_ready.alloc
  apart := ex_ready.apart
  backgrounds := ex_ready.backgrounds
  axes := ex_ready.axes
  decays := ex_ready.decays
  pars := by decide
  globals := by intro p hp; cases hp
  rates := by
    intro r hr p hp
    have h := (ex_ready.rates r hr p hp).2
    refine ⟨?_, h⟩
    have : r = 2 ∨ r = 3 := by simpa [Fit.floatingRefs, Ex.fit] using hr
    rcases this with rfl | rfl
    · have : p = 0 := by simpa [Ex.fitState, Ex.fitObj] using hp
      subst this; decide
    · have : p = 1 := by simpa [Ex.fitState, Ex.fitObj] using hp
      subst this; decide

/-- The searches of the example: without signal or with the signal scaled. -/
theorem ex_rate_setup {f : Fit} {st : FitState} (hf : f = Ex.fit ∨ f = { Ex.fit with signal := none })
    (hp : st.params = Ex.fitState.params)
    (hv : ∀ x : ℚ, x = 5 ∨ x = 3 → (evaluatedContents Ex.fitEnv f [x, 7] st).toOption.map
      (fun c => (c.1.shape, c.2.map NdArray.shape)) = some ([4], some [4])) :
    ∃ F P, FitGridSetup Ex.fitEnv f st Ex.toInt Ex.rateSearch [[5, 3], [7]] F P := by
  have hpars : f.pars = [0, 1] := by rcases hf with rfl | rfl <;> rfl
  have hfl : f.floating = Ex.fit.floating := by rcases hf with rfl | rfl <;> rfl
  have hcomb : ∀ w, Combination [[5, 3], [7]] w →
      ∃ y, (y = 5 ∨ y = 3) ∧ w.map Ex.toInt = [y, 7] := by
    intro w h
    obtain ⟨a, _, ha, h1, rfl⟩ := List.forall₂_cons_right_iff.1 h
    obtain ⟨b, _, hb, h2, rfl⟩ := List.forall₂_cons_right_iff.1 h1
    cases h2
    simp only [List.mem_cons, List.not_mem_nil, or_false] at ha hb
    subst hb
    rcases ha with rfl | rfl
    · exact ⟨5, .inl rfl, by simp [Ex.toInt]⟩
    · exact ⟨3, .inr rfl, by simp [Ex.toInt]⟩
  have key : ∀ w, ∃ v p, Combination [[5, 3], [7]] w →
      (funct Ex.fitEnv f (w.map Ex.toInt) st).2 = .ok ((.total v, none), p) := by
    intro w
    by_cases hw : Combination [[5, 3], [7]] w
    · obtain ⟨y, hy, e⟩ := hcomb w hw
      rw [e]
      obtain ⟨v, e⟩ := funct_total (env := Ex.fitEnv) (f := f) (st := st)
        (args := [y, 7]) hfl (by rw [hpars]; rfl) (by rw [hpars]; decide)
        (by rcases hf with rfl | rfl <;> rfl) (by rcases hf with rfl | rfl <;> rfl)
        (by
          intro p hp'
          have : p = 0 ∨ p = 1 := by simpa [hpars] using hp'
          rw [hp]
          rcases this with rfl | rfl <;> simp [Ex.fitState, Ex.fitParam])
        (hv y hy)
      exact ⟨v, _, fun _ => e⟩
    · exact ⟨0, 0, fun h => absurd h hw⟩
  choose v p key using key
  refine ⟨fun w => .scalar (v w), p, ?_⟩
  exact {
    values := .cons rfl (.cons rfl .nil)
    counts := .cons ⟨rfl, by simp⟩ (.cons ⟨rfl, by simp⟩ .nil)
    number := by rw [hpars]; rfl
    returns := fun w hw => ⟨_, key w hw, rfl, rfl⟩
    rates := by
      intro w hw e he _
      obtain ⟨y, hy, e'⟩ := hcomb w hw
      rw [hpars, e'] at he
      have : e = (0, y) ∨ e = (1, 7) := by simpa using he
      rcases this with rfl | rfl
      · rcases hy with rfl | rfl <;> norm_num
      · norm_num
    sigmas := by
      intro q hq
      have : q = Ex.gridPar (lit "rate") (some 2) [5, 3] ∨ q = Ex.gridPar (lit "rate") none [7] := by
        simpa [Ex.rateSearch, GridSearch.new] using hq
      rcases this with rfl | rfl <;> simp [Ex.gridPar]
    nonempty := Or.inr (by simp [Ex.rateSearch, GridSearch.new]) }

theorem ex_rate_shapes :
    (∀ x ∈ ([5, 3] : List ℚ), (evaluatedContents Ex.fitEnv { Ex.fit with signal := none } [x, 7]
      Ex.fitState).toOption.map (fun c => (c.1.shape, c.2.map NdArray.shape)) =
        some ([4], some [4])) ∧
    ∀ n ∈ ([2, 4] : List ℚ), ∀ x ∈ ([5, 3] : List ℚ), (evaluatedContents Ex.fitEnv Ex.fit [x, 7]
      (Ex.fitState.scaled 4 n)).toOption.map (fun c => (c.1.shape, c.2.map NdArray.shape)) =
        some ([4], some [4]) := by
  decide +kernel

theorem ex_grid_limit : GridLimit Ex.fitEnv Ex.toInt 4 Ex.gridFitter [[5, 3], [7]] [0, 2, 4] where
  floating := by decide
  minimiser := by decide
  ready := ex_limit_ready
  globals := fun h => absurd rfl h
  search := ⟨rfl, rfl⟩
  nodup := by
    intro vs h
    simp at h
    rcases h with rfl | rfl <;> norm_num
  off := ex_rate_setup (.inr rfl) rfl fun x hx =>
    ex_rate_shapes.1 x (by rcases hx with rfl | rfl <;> simp)
  on := by
    intro x hx h0
    have h4 : (Ex.fitState.view 4).numDecays ≠ 0 := by
      change (2 : ℚ) ≠ 0
      norm_num
    refine ex_rate_setup (.inl rfl) (scaled_rest h4 _).2.2.1 fun y hy => ?_
    have hn : Ex.toInt x ∈ ([2, 4] : List ℚ) := by
      have : x = 0 ∨ x = 2 ∨ x = 4 := by simpa using hx
      rcases this with rfl | rfl | rfl
      · exact absurd (by unfold npCloseReal; norm_num) h0
      · simp [Ex.toInt]
      · simp [Ex.toInt]
    exact ex_rate_shapes.2 _ hn y (by rcases hy with rfl | rfl <;> simp)

/-- The same with floating backgrounds. -/
example := c100_limit_partial ex_limit_signal.2 [] [0, 2, 4] (.inr ⟨_, ex_grid_limit⟩) ex_testable
example := c100_statistics_partial ex_limit_signal.2 [.limit [0, 2, 4] [] none 3] []
  (.inr ⟨_, ex_grid_limit⟩) ex_testable
example := c100_objects_partial ex_limit_signal.2 [.limit [0, 2, 4] [] none 3]
  (.inr ⟨_, ex_grid_limit⟩) ex_testable

/-! with a global parameter -/

namespace Ex

/-- The fit with a global resolution. -/
noncomputable def globalFitter : Fitter where
  ses := { gridFitter.ses with
    config := [(lit "global", (2, true)), (lit "bkg_rate", (0, false)), (lit "other_rate", (1, false))] }
  st := fitState
  search := fitSearch [5, 3]

end Ex

theorem ex_global_signal : LimitSignal 4 Ex.globalFitter := by
  refine ⟨.inr rfl, ⟨_, rfl, rfl⟩, ?_, ⟨⟨0, rfl, by decide⟩, by decide⟩,
      .inr (ok_of_some (by decide +kernel)), .inr (ok_of_some (by decide +kernel))⟩
  change (2 : ℚ) ≠ 0
  norm_num

theorem ex_global_setup {f : Fit} {st : FitState}
    (hf : f = Ex.fitGlobal ∨ f = { Ex.fitGlobal with signal := none })
    (hp : st.params = Ex.fitState.params)
    (hv : ∀ x : ℚ, x = 5 ∨ x = 3 → (evaluatedContents Ex.fitEnv f [20, x, 7] st).toOption.map
      (fun c => (c.1.shape, c.2.map NdArray.shape)) = some ([4], some [4])) :
    ∃ F P, FitGridSetup Ex.fitEnv f st Ex.toInt (Ex.fitSearch [5, 3]) [[20], [5, 3], [7]] F P := by
  have hpars : f.pars = [2, 0, 1] := by rcases hf with rfl | rfl <;> rfl
  have hfl : f.floating = Ex.fit.floating := by rcases hf with rfl | rfl <;> rfl
  have hcomb : ∀ w, Combination [[20], [5, 3], [7]] w →
      ∃ y, (y = 5 ∨ y = 3) ∧ w.map Ex.toInt = [20, y, 7] := by
    intro w h
    obtain ⟨x, hx, rfl⟩ := ex_combination h
    have : x = 5 ∨ x = 3 := by simpa using hx
    rcases this with rfl | rfl
    · exact ⟨5, .inl rfl, by simp [Ex.toInt]⟩
    · exact ⟨3, .inr rfl, by simp [Ex.toInt]⟩
  have key : ∀ w, ∃ v p, Combination [[20], [5, 3], [7]] w →
      (funct Ex.fitEnv f (w.map Ex.toInt) st).2 = .ok ((.total v, none), p) := by
    intro w
    by_cases hw : Combination [[20], [5, 3], [7]] w
    · obtain ⟨y, hy, e⟩ := hcomb w hw
      rw [e]
      obtain ⟨v, e⟩ := funct_total (env := Ex.fitEnv) (f := f) (st := st)
        (args := [20, y, 7]) hfl (by rw [hpars]; rfl) (by rw [hpars]; decide)
        (by rcases hf with rfl | rfl <;> rfl) (by rcases hf with rfl | rfl <;> rfl)
        (by
          intro p hp'
          have : p = 2 ∨ p = 0 ∨ p = 1 := by simpa [hpars] using hp'
          rw [hp]
          rcases this with rfl | rfl | rfl <;> simp [Ex.fitState, Ex.fitParam])
        (hv y hy)
      exact ⟨v, _, fun _ => e⟩
    · exact ⟨0, 0, fun h => absurd h hw⟩
  choose v p key using key
  refine ⟨fun w => .scalar (v w), p, ?_⟩
  exact {
    values := .cons rfl (.cons rfl (.cons rfl .nil))
    counts := .cons ⟨rfl, by simp⟩ (.cons ⟨rfl, by simp⟩ (.cons ⟨rfl, by simp⟩ .nil))
    number := by rw [hpars]; rfl
    returns := fun w hw => ⟨_, key w hw, rfl, rfl⟩
    rates := by
      intro w hw e he _
      obtain ⟨y, hy, e'⟩ := hcomb w hw
      rw [hpars, e'] at he
      have : e = (2, 20) ∨ e = (0, y) ∨ e = (1, 7) := by simpa using he
      rcases this with rfl | rfl | rfl
      · norm_num
      · rcases hy with rfl | rfl <;> norm_num
      · norm_num
    sigmas := by
      intro q hq
      have : q = Ex.gridPar (lit "shift") none [20] ∨
          q = Ex.gridPar (lit "rate") (some 2) [5, 3] ∨ q = Ex.gridPar (lit "rate") none [7] := by
        simpa [Ex.fitSearch, GridSearch.new] using hq
      rcases this with rfl | rfl | rfl <;> simp [Ex.gridPar]
    nonempty := Or.inr (by simp [Ex.fitSearch, GridSearch.new]) }

theorem ex_global_shapes :
    (∀ x ∈ ([5, 3] : List ℚ), (evaluatedContents Ex.fitEnv { Ex.fitGlobal with signal := none }
      [20, x, 7] Ex.fitState).toOption.map (fun c => (c.1.shape, c.2.map NdArray.shape)) =
        some ([4], some [4])) ∧
    ∀ n ∈ ([2, 4] : List ℚ), ∀ x ∈ ([5, 3] : List ℚ), (evaluatedContents Ex.fitEnv Ex.fitGlobal
      [20, x, 7] (Ex.fitState.scaled 4 n)).toOption.map
        (fun c => (c.1.shape, c.2.map NdArray.shape)) = some ([4], some [4]) := by
  decide +kernel

theorem ex_global_limit :
    GridLimit Ex.fitEnv Ex.toInt 4 Ex.globalFitter [[20], [5, 3], [7]] [0, 2, 4] := by
  have hn : ∀ x ∈ ([0, 2, 4] : List ℝ), ¬ npCloseReal x 0 → Ex.toInt x ∈ ([2, 4] : List ℚ) := by
    intro x hx h0
    have : x = 0 ∨ x = 2 ∨ x = 4 := by simpa using hx
    rcases this with rfl | rfl | rfl
    · exact absurd (by unfold npCloseReal; norm_num) h0
    · simp [Ex.toInt]
    · simp [Ex.toInt]
  exact {
    floating := by decide
    minimiser := by decide
    ready := ex_ready
    globals := fun _ => ⟨fun _ _ _ _ => rfl, by change (0 : ℚ) < 2; norm_num, fun x hx h0 => by
      have := hn x hx h0
      simp only [List.mem_cons, List.not_mem_nil, or_false] at this
      rcases this with h | h <;> rw [h] <;> norm_num⟩
    search := ⟨rfl, rfl⟩
    nodup := by
      intro vs h
      simp at h
      rcases h with rfl | rfl | rfl <;> norm_num
    off := ex_global_setup (.inr rfl) rfl fun x hx =>
      ex_global_shapes.1 x (by rcases hx with rfl | rfl <;> simp)
    on := by
      intro x hx h0
      have h4 : (Ex.fitState.view 4).numDecays ≠ 0 := by
        change (2 : ℚ) ≠ 0
        norm_num
      refine ex_global_setup (.inl rfl) (scaled_rest h4 _).2.2.1 fun y hy => ?_
      exact ex_global_shapes.2 _ (hn x hx h0) y (by rcases hy with rfl | rfl <;> simp) }

example := c100_limit_partial ex_global_signal [.limit [0, 2, 4] [] none 3] []
  (.inr ⟨_, ex_global_limit⟩) ex_testable
example := c100_statistics_partial ex_global_signal [.statistics [0, 2, 4]] []
  (.inr ⟨_, ex_global_limit⟩) ex_testable

end Verif
