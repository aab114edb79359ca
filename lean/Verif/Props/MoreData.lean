import Verif.Lemmas.MoreData
import Verif.Spec.MoreData
import Verif.Props.Normalise

/-! # C168: limits with more observed events, more background or more signal -/

namespace Verif

open Session

/-- **C168, observed events.** Let no bin of the second observation have fewer events than the first, and
no bin of the second expectation fewer than the first. The difference between the statistics of the two
expectations is no larger for the second observation: more events make the larger expectation look
better. This holds for all six statistics; for the one-sided one all contents must count. -/
theorem c168_observed (s : Stat) (obs obs' exp exp' : List ℝ) (ho : List.Forall₂ (· ≤ ·) obs obs')
    (he : List.Forall₂ (· ≤ ·) exp exp') (hup : s = .bcChiUp → s.Sound obs exp ∧ s.Sound obs' exp)
    (u v u' v' : ℝ) (hu : s.Total obs exp u) (hv : s.Total obs exp' v) (hu' : s.Total obs' exp u')
    (hv' : s.Total obs' exp' v') (hlen : obs.length = exp.length) : v' - u' ≤ v - u := by
  rw [total_iff s hlen] at hu
  rw [total_iff s (hlen.trans he.length_eq)] at hv
  rw [total_iff s (ho.length_eq.symm.trans hlen)] at hu'
  rw [total_iff s (ho.length_eq.symm.trans (hlen.trans he.length_eq))] at hv'
  rw [hu, hv, hu', hv']
  exact sumBins_observed ho he hup

example : List.Forall₂ (· ≤ ·) [(1 : ℝ), 0] [1, 2] ∧ List.Forall₂ (· ≤ ·) [(1 : ℝ), 1] [1, 3] ∧
    Stat.bcChiUp.Sound [1, 0] [1, 1] ∧ Stat.bcChiUp.Sound [1, 2] [1, 1] := by
  simp only [Stat.Sound, Stat.SoundBin, List.forall₂_cons]
  norm_num [zeroThreshold]

/-- **C168, background.** Adding background to both of two expectations with more and less of a signal
makes the difference between their statistics no smaller: more background makes the larger expectation
look worse. -/
theorem c168_background (s : Stat) (obs bkg bkg' sig : List ℝ) (hb : List.Forall₂ (· ≤ ·) bkg bkg')
    (hsig : ∀ k ∈ sig, 0 ≤ k) (hlen : bkg.length = sig.length) (x y : ℝ) (hxy : y ≤ x)
    (hs : s.Sound obs (expectedAt bkg sig y)) (u v u' v' : ℝ)
    (hu : s.Total obs (expectedAt bkg sig y) u) (hv : s.Total obs (expectedAt bkg sig x) v)
    (hu' : s.Total obs (expectedAt bkg' sig y) u') (hv' : s.Total obs (expectedAt bkg' sig x) v') :
    v - u ≤ v' - u' := by
  have hl : ∀ z, (expectedAt bkg sig z).length = bkg.length := fun z => by simp [expectedAt, hlen]
  have hl' : ∀ z, (expectedAt bkg' sig z).length = bkg.length := fun z => by
    simp [expectedAt, ← hb.length_eq, hlen]
  have hlo : obs.length = bkg.length := by rw [hs.length_eq, hl]
  rw [total_iff s (hlo.trans (hl _).symm)] at hu hv
  rw [total_iff s (hlo.trans (hl' _).symm)] at hu' hv'
  rw [hu, hv, hu', hv']
  exact sumBins_expected hxy hsig hb hs

example : List.Forall₂ (· ≤ ·) [(1 : ℝ), 2] [1, 5] ∧ (∀ k ∈ [(0 : ℝ), 1], 0 ≤ k) ∧
    Stat.neyman.Sound [1, 3] (expectedAt [1, 2] [0, 1] 4) := by
  simp only [Stat.Sound, Stat.SoundBin, expectedAt, List.zipWith_cons_cons, List.zipWith_nil_right,
    List.forall₂_cons]
  norm_num [zeroThreshold]

variable {env : FitEnv} {keyOf : ℕ → PyStr} {a a' : FitArgs} {ts ts' : List Spectrum} {r d r' d' : ℕ}
  {st st' : FitState} {rnd : ℝ → ℚ} {obs obs' bkg bkg' sig sig' : List ℝ}

theorem expectedAt_map (bkg sig : List ℝ) (n x : ℝ) :
    expectedAt bkg (sig.map (fun s => s / n)) x = expectedAt bkg sig (x / n) := by
  unfold expectedAt
  rw [List.zipWith_map_right]
  congr 1
  funext b s
  ring

theorem expectedAt_zero (h : bkg.length = sig.length) : expectedAt bkg sig 0 = bkg := by
  unfold expectedAt
  refine List.ext_getElem (by rw [List.length_zipWith, ← h, Nat.min_self]) fun i h₁ h₂ => ?_
  rw [List.getElem_zipWith]
  ring

theorem FitArgs.Counts.lengths (h : a.Counts r d ts st obs bkg sig) :
    obs.length = bkg.length ∧ bkg.length = sig.length := by
  obtain ⟨ns, c, hns, hc, rfl, rfl, rfl⟩ := h.contents
  have hg := h.limitOn.given
  have hreg := inOrder_isDict hg.region
  have hdm : d ∈ (a.withSignal r).kept ++ a.fixed.map Prod.fst := by simp [FitArgs.kept, h.limitOn.data]
  have hrm : r ∈ (a.withSignal r).kept ++ a.fixed.map Prod.fst := by simp [FitArgs.kept]
  have hshape : (c r).shape = (c d).shape :=
    same_shape hreg (hg.able d hdm) (hg.able r hrm) (h.limitOn.axes r hrm) (hc d hdm) (hc r hrm)
  refine ⟨(compared_length _ (a := c d) (b := a.fixedTotal st c (c d).shape) rfl).symm, ?_⟩
  rw [List.length_map]
  exact (compared_length _ (a := a.fixedTotal st c (c d).shape) (b := c r) hshape).symm

/-- The outcome of a limit in terms of the three lists. -/
theorem FitArgs.Counts.outcome (h : a.Counts r d ts st obs bkg sig) (search : GridSearch)
    (hpars : search.pars = []) :
    ∃ ses st' w, init keyOf a st = (st', .ok ses) ∧
      Fitter.limitInit ⟨ses, st', search⟩ r true = (w, .ok ()) ∧
      ∀ (calls : List LimitCall) (scales : List ℝ), Testable rnd (allScales calls ++ scales) →
      PlainScales rnd scales → ∀ (sigmas : List (Option ℝ)), (∀ s ∈ sigmas, s ≠ none) → ∀ (limit : ℝ),
      ∃ b, BestScale scales (fun x => a.stat.sumBins obs (expectedAt bkg sig x)) b ∧
        (∀ x, ((w.afterCalls env rnd r calls).limitOf env rnd r scales sigmas none limit).2 = .ok x ↔
          FirstCrossing scales (fun y => a.stat.sumBins obs (expectedAt bkg sig y) -
            a.stat.sumBins obs bkg) b limit x) ∧
        (((w.afterCalls env rnd r calls).limitOf env rnd r scales sigmas none limit).2 =
            .error .limitError ↔
          ∀ y ∈ scales, b ≤ y → a.stat.sumBins obs (expectedAt bkg sig y) - a.stat.sumBins obs bkg ≤
            limit) := by
  obtain ⟨hl1, hl2⟩ := h.lengths
  have hlx : ∀ x, obs.length = (expectedAt bkg sig x).length := fun x => by
    simp [expectedAt, hl1, hl2]
  obtain ⟨ns, c, hns, hc, rfl, rfl, hsig⟩ := h.contents
  obtain ⟨ses, st', w, h1, h2, h3⟩ := c147_counting_partial (env := env) (keyOf := keyOf) (rnd := rnd)
    h.limitOn h.fixed h.floating h.statPerBin hns hc search hpars
  refine ⟨ses, st', w, h1, h2, fun calls scales ht hp sigmas hsg limit => ?_⟩
  refine h3 calls scales ht hp.some hp.increasing _
    (fun x => a.stat.sumBins _ (expectedAt _ sig x)) ((total_iff _ hl1 _).2 rfl) (fun x hx => ⟨fun hcl => ?_,
      fun hcl => ?_⟩) sigmas hsg limit
  · rw [hp.zero x hx hcl]
    rw [expectedAt_zero hl2]
    rfl
  · rw [hp.exact x hx hcl, ← expectedAt_map, ← hsig]
    exact (total_iff _ (hlx x) _).2 rfl

/-- Limits of two programs, when the statistic of the first grows faster with the scaling. -/
theorem limits_ordered (h : a.Counts r d ts st obs bkg sig) (h' : a'.Counts r' d' ts' st' obs' bkg' sig')
    (search search' : GridSearch) (hpars : search.pars = []) (hpars' : search'.pars = []) :
    ∃ ses₁ st₁ w₁ ses₂ st₂ w₂,
      init keyOf a st = (st₁, .ok ses₁) ∧ init keyOf a' st' = (st₂, .ok ses₂) ∧
      Fitter.limitInit ⟨ses₁, st₁, search⟩ r true = (w₁, .ok ()) ∧
      Fitter.limitInit ⟨ses₂, st₂, search'⟩ r' true = (w₂, .ok ()) ∧
      ∀ (calls calls' : List LimitCall) (scales : List ℝ), Testable rnd (allScales calls ++ scales) →
      Testable rnd (allScales calls' ++ scales) → PlainScales rnd scales →
      (∀ x ∈ scales, ∀ y : ℝ, 0 ≤ y → y < x →
        a'.stat.sumBins obs' (expectedAt bkg' sig' x) - a'.stat.sumBins obs' (expectedAt bkg' sig' y) ≤
        a.stat.sumBins obs (expectedAt bkg sig x) - a.stat.sumBins obs (expectedAt bkg sig y)) →
      ∀ (sigmas : List (Option ℝ)), (∀ s ∈ sigmas, s ≠ none) → ∀ (limit : ℝ),
      (∀ x', ((w₂.afterCalls env rnd r' calls').limitOf env rnd r' scales sigmas none limit).2 = .ok x' →
        ∃ x, x ≤ x' ∧
          ((w₁.afterCalls env rnd r calls).limitOf env rnd r scales sigmas none limit).2 = .ok x) ∧
      (((w₁.afterCalls env rnd r calls).limitOf env rnd r scales sigmas none limit).2 =
          .error .limitError →
        ((w₂.afterCalls env rnd r' calls').limitOf env rnd r' scales sigmas none limit).2 =
          .error .limitError) := by
  obtain ⟨ses₁, st₁, w₁, i1, i2, i3⟩ := h.outcome (env := env) (keyOf := keyOf) (rnd := rnd) search hpars
  obtain ⟨ses₂, st₂, w₂, j1, j2, j3⟩ := h'.outcome (env := env) (keyOf := keyOf) (rnd := rnd) search' hpars'
  refine ⟨ses₁, st₁, w₁, ses₂, st₂, w₂, i1, j1, i2, j2, ?_⟩
  intro calls calls' scales ht ht' hp hD sigmas hsg limit
  obtain ⟨b, hb, b1, b2⟩ := i3 calls scales ht hp sigmas hsg limit
  obtain ⟨b', hb', b1', b2'⟩ := j3 calls' scales ht' hp sigmas hsg limit
  obtain ⟨-, k1, k2⟩ := crossing_earlier hb hb' (fun x hx y hy hyx => hD x hx y (hp.nonneg y hy) hyx)
    (F₀ := a.stat.sumBins obs bkg) (F₀' := a'.stat.sumBins obs' bkg') (fun x hx => by
      rcases (hp.nonneg x hx).eq_or_lt with h0 | h0
      · rw [← h0, expectedAt_zero h.lengths.2, expectedAt_zero h'.lengths.2, sub_self, sub_self]
      · have := hD x hx 0 le_rfl h0
        rwa [expectedAt_zero h.lengths.2, expectedAt_zero h'.lengths.2] at this) limit
  refine ⟨fun x' hx' => ?_, fun he => b2'.2 (k2 (b2.1 he))⟩
  obtain ⟨x, hle, hx⟩ := k1 x' ((b1' x').1 hx')
  exact ⟨x, hle, (b1 x).2 hx⟩

theorem expected_mono (hsig : ∀ s ∈ sig, 0 ≤ s) {x y : ℝ} (h : y ≤ x) :
    List.Forall₂ (· ≤ ·) (expectedAt bkg sig y) (expectedAt bkg sig x) := by
  unfold expectedAt
  induction bkg generalizing sig with
  | nil => simp
  | cons b bkg ih =>
    cases sig with
    | nil => simp
    | cons s sig =>
      exact .cons (by linarith [mul_le_mul_of_nonneg_right h (hsig s (by simp))])
        (ih fun s hs => hsig s (by simp [hs]))

/-- **C168, limits with more events.** Two limits are set with the same statistic, for signals without
negative contents and the same expected contents of background and signal; the second program observes at
least as many events in every bin. Then the second limit is not below the first: when the second is found,
so is the first, and it is not larger; when the first raises `LimitError`, so does the second. (Partial:
the suppositions of C147; for the one-sided statistic all contents must count; no floating backgrounds,
for which more events may mean more background.) -/
theorem c168_events_partial (h : a.Counts r d ts st obs bkg sig)
    (h' : a'.Counts r' d' ts' st' obs' bkg sig) (hstat : a'.stat = a.stat)
    (ho : List.Forall₂ (· ≤ ·) obs obs') (hsig : ∀ s ∈ sig, 0 ≤ s)
    (hup : a.stat = .bcChiUp → a.stat.Sound obs bkg ∧ a.stat.Sound obs' bkg)
    (search search' : GridSearch) (hpars : search.pars = []) (hpars' : search'.pars = []) :
    ∃ ses₁ st₁ w₁ ses₂ st₂ w₂,
      init keyOf a st = (st₁, .ok ses₁) ∧ init keyOf a' st' = (st₂, .ok ses₂) ∧
      Fitter.limitInit ⟨ses₁, st₁, search⟩ r true = (w₁, .ok ()) ∧
      Fitter.limitInit ⟨ses₂, st₂, search'⟩ r' true = (w₂, .ok ()) ∧
      ∀ (calls calls' : List LimitCall) (scales : List ℝ), Testable rnd (allScales calls ++ scales) →
      Testable rnd (allScales calls' ++ scales) → PlainScales rnd scales →
      ∀ (sigmas : List (Option ℝ)), (∀ s ∈ sigmas, s ≠ none) → ∀ (limit : ℝ),
      (∀ x', ((w₂.afterCalls env rnd r' calls').limitOf env rnd r' scales sigmas none limit).2 = .ok x' →
        ∃ x, x ≤ x' ∧
          ((w₁.afterCalls env rnd r calls).limitOf env rnd r scales sigmas none limit).2 = .ok x) ∧
      (((w₁.afterCalls env rnd r calls).limitOf env rnd r scales sigmas none limit).2 =
          .error .limitError →
        ((w₂.afterCalls env rnd r' calls').limitOf env rnd r' scales sigmas none limit).2 =
          .error .limitError) := by
  obtain ⟨ses₁, st₁, w₁, ses₂, st₂, w₂, h1, h2, h3, h4, h5⟩ := limits_ordered (env := env) (keyOf := keyOf)
    (rnd := rnd) h h' search search' hpars hpars'
  refine ⟨ses₁, st₁, w₁, ses₂, st₂, w₂, h1, h2, h3, h4, ?_⟩
  intro calls calls' scales ht ht' hp
  refine h5 calls calls' scales ht ht' hp fun x hx y hy hyx => ?_
  rw [hstat]
  have e0 := expectedAt_zero h.lengths.2
  refine sumBins_observed ho (expected_mono hsig hyx.le) fun hc => ⟨?_, ?_⟩
  · exact sound_above hy hsig (by rw [e0]; exact (hup hc).1)
  · exact sound_above hy hsig (by rw [e0]; exact (hup hc).2)

/-- **C168, limits with more background.** Now the observed events are the same, and the second program
expects at least as much background in every bin. Then the second limit is not above the first. (Partial:
the suppositions of C147, and the contents must count.) -/
theorem c168_backgrounds_partial (h : a.Counts r d ts st obs bkg sig)
    (h' : a'.Counts r' d' ts' st' obs bkg' sig) (hstat : a'.stat = a.stat)
    (hb : List.Forall₂ (· ≤ ·) bkg bkg') (hsig : ∀ s ∈ sig, 0 ≤ s) (hs : a.stat.Sound obs bkg)
    (search search' : GridSearch) (hpars : search.pars = []) (hpars' : search'.pars = []) :
    ∃ ses₁ st₁ w₁ ses₂ st₂ w₂,
      init keyOf a st = (st₁, .ok ses₁) ∧ init keyOf a' st' = (st₂, .ok ses₂) ∧
      Fitter.limitInit ⟨ses₁, st₁, search⟩ r true = (w₁, .ok ()) ∧
      Fitter.limitInit ⟨ses₂, st₂, search'⟩ r' true = (w₂, .ok ()) ∧
      ∀ (calls calls' : List LimitCall) (scales : List ℝ), Testable rnd (allScales calls ++ scales) →
      Testable rnd (allScales calls' ++ scales) → PlainScales rnd scales →
      ∀ (sigmas : List (Option ℝ)), (∀ s ∈ sigmas, s ≠ none) → ∀ (limit : ℝ),
      (∀ x, ((w₁.afterCalls env rnd r calls).limitOf env rnd r scales sigmas none limit).2 = .ok x →
        ∃ x', x' ≤ x ∧
          ((w₂.afterCalls env rnd r' calls').limitOf env rnd r' scales sigmas none limit).2 = .ok x') ∧
      (((w₂.afterCalls env rnd r' calls').limitOf env rnd r' scales sigmas none limit).2 =
          .error .limitError →
        ((w₁.afterCalls env rnd r calls).limitOf env rnd r scales sigmas none limit).2 =
          .error .limitError) := by
  obtain ⟨ses₂, st₂, w₂, ses₁, st₁, w₁, h2, h1, h4, h3, h5⟩ := limits_ordered (env := env) (keyOf := keyOf)
    (rnd := rnd) h' h search' search hpars' hpars
  refine ⟨ses₁, st₁, w₁, ses₂, st₂, w₂, h1, h2, h3, h4, ?_⟩
  intro calls calls' scales ht ht' hp
  refine h5 calls' calls scales ht' ht hp fun x hx y hy hyx => ?_
  rw [hstat]
  exact sumBins_expected hyx.le hsig hb
    (sound_above hy hsig (by rw [expectedAt_zero h.lengths.2]; exact hs))

/-- **C168, limits with more signal.** Now the second program expects `k ≥ 1` times as many events for
each decay of the signal, and the rest is the same; one of the scalings is zero, and the threshold is not
negative. Then the second limit is not above the first. (Partial: the suppositions of C147, and the
contents must count.) -/
theorem c168_signals_partial {k : ℝ} (hk : 1 ≤ k) (h : a.Counts r d ts st obs bkg sig)
    (h' : a'.Counts r' d' ts' st' obs bkg (sig.map (fun s => k * s))) (hstat : a'.stat = a.stat)
    (hsig : ∀ s ∈ sig, 0 ≤ s) (hs : a.stat.Sound obs bkg)
    (search search' : GridSearch) (hpars : search.pars = []) (hpars' : search'.pars = []) :
    ∃ ses₁ st₁ w₁ ses₂ st₂ w₂,
      init keyOf a st = (st₁, .ok ses₁) ∧ init keyOf a' st' = (st₂, .ok ses₂) ∧
      Fitter.limitInit ⟨ses₁, st₁, search⟩ r true = (w₁, .ok ()) ∧
      Fitter.limitInit ⟨ses₂, st₂, search'⟩ r' true = (w₂, .ok ()) ∧
      ∀ (calls calls' : List LimitCall) (scales : List ℝ), Testable rnd (allScales calls ++ scales) →
      Testable rnd (allScales calls' ++ scales) → PlainScales rnd scales → 0 ∈ scales →
      ∀ (sigmas : List (Option ℝ)), (∀ s ∈ sigmas, s ≠ none) → ∀ (limit : ℝ), 0 ≤ limit →
      (∀ x, ((w₁.afterCalls env rnd r calls).limitOf env rnd r scales sigmas none limit).2 = .ok x →
        ∃ x', x' ≤ x ∧
          ((w₂.afterCalls env rnd r' calls').limitOf env rnd r' scales sigmas none limit).2 = .ok x') ∧
      (((w₂.afterCalls env rnd r' calls').limitOf env rnd r' scales sigmas none limit).2 =
          .error .limitError →
        ((w₁.afterCalls env rnd r calls).limitOf env rnd r scales sigmas none limit).2 =
          .error .limitError) := by
  obtain ⟨ses₁, st₁, w₁, i1, i2, i3⟩ := h.outcome (env := env) (keyOf := keyOf) (rnd := rnd) search hpars
  obtain ⟨ses₂, st₂, w₂, j1, j2, j3⟩ := h'.outcome (env := env) (keyOf := keyOf) (rnd := rnd) search' hpars'
  refine ⟨ses₁, st₁, w₁, ses₂, st₂, w₂, i1, j1, i2, j2, ?_⟩
  intro calls calls' scales ht ht' hp hz sigmas hsg limit hlim
  obtain ⟨b, hb, b1, b2⟩ := i3 calls scales ht hp sigmas hsg limit
  obtain ⟨b', hb', b1', b2'⟩ := j3 calls' scales ht' hp sigmas hsg limit
  have e0 := expectedAt_zero h.lengths.2
  have ek : ∀ x, expectedAt bkg (sig.map (fun s => k * s)) x = expectedAt bkg sig (k * x) := fun x => by
    unfold expectedAt
    rw [List.zipWith_map_right]
    congr 1
    funext b s
    ring
  simp only [ek, hstat] at hb' b1' b2'
  have hl : ∀ x, obs.length = (expectedAt bkg sig x).length := fun x => by
    simp [expectedAt, h.lengths.1, h.lengths.2]
  set F : ℝ → ℝ := fun x => a.stat.sumBins obs (expectedAt bkg sig x) with hF
  have hF0 : F 0 = a.stat.sumBins obs bkg := by rw [hF]; dsimp only; rw [e0]
  rw [← hF0] at b1 b2 b1' b2'
  -- from a scaling on that is worse than none, the statistic grows
  have up : ∀ x y : ℝ, 0 ≤ x → x ≤ y → F 0 < F x → F x ≤ F y := by
    intro x y hx hxy h0
    have hx0 : 0 < x := lt_of_le_of_ne hx (by rintro rfl; exact lt_irrefl _ h0)
    exact c132_above a.stat obs bkg sig h.lengths.2 hsig 0 x y hx0 hxy (by rw [e0]; exact hs) _ _ _
      ((total_iff _ (hl 0) _).2 rfl) ((total_iff _ (hl x) _).2 rfl) ((total_iff _ (hl y) _).2 rfl) h0.le
  have below : ∀ x ∈ scales, limit < F x - F 0 → b' ≤ x ∧ limit < F (k * x) - F 0 := by
    intro x hx hcr
    have hx0 := hp.nonneg x hx
    have hkx : x ≤ k * x := le_mul_of_one_le_left hx0 hk
    have h1 := up x (k * x) hx0 hkx (by linarith)
    refine ⟨?_, by linarith⟩
    by_contra hcon
    have hlt := not_le.1 hcon
    have h2 := up (k * x) (k * b') (mul_nonneg (by linarith) hx0)
      (mul_le_mul_of_nonneg_left hlt.le (by linarith)) (by linarith)
    have h3 := (hb'.2 0 hz).1
    dsimp only at h3
    rw [mul_zero] at h3
    change F (k * b') ≤ F 0 at h3
    linarith
  refine ⟨fun x hx => ?_, fun he => ?_⟩
  · obtain ⟨f1, f2, f3, -⟩ := (b1 x).1 hx
    obtain ⟨g1, g2⟩ := below x f1 f3
    classical
    obtain ⟨y, hy, hmin⟩ := Finset.exists_min_image
      (scales.toFinset.filter fun y => b' ≤ y ∧ limit < F (k * y) - F 0) id
      ⟨x, by simp only [Finset.mem_filter, List.mem_toFinset]; exact ⟨f1, g1, g2⟩⟩
    simp only [Finset.mem_filter, List.mem_toFinset, id] at hy hmin
    refine ⟨y, hmin x ⟨f1, g1, g2⟩, (b1' y).2 ⟨hy.1, hy.2.1, hy.2.2, fun z hz' hbz hzy => ?_⟩⟩
    by_contra hcon
    exact absurd (hmin z ⟨hz', hbz, not_le.1 hcon⟩) (not_le.2 hzy)
  · rw [b2]
    intro y hy hby
    by_contra hcon
    obtain ⟨g1, g2⟩ := below y hy (not_le.1 hcon)
    have := b2'.1 he y hy g1
    change F (k * y) - F 0 ≤ limit at this
    linarith

/-! ### cases that meet the hypotheses -/

namespace Ex

/-- Another spectrum as data. -/
def fewArgs : FitArgs := { limitArgs [] with data := some 2 }

/-- The fixed background with a larger number of decays. -/
def richArgs : FitArgs := { limitArgs [] with fixed := [(1, 28)] }

/-- The contents of the signal stand for half the number of decays. -/
noncomputable def denseState : FitState := { limitState with
  objs := fun r => if r = 4 then { limitState.objs 4 with numDecays := 1 } else limitState.objs r }

end Ex

theorem ex_counts : (Ex.limitArgs []).Counts 4 0
    [(((Ex.limitState.view 1).shrink exFitKw).st.scale 20).st] Ex.limitState [7, 8] [5, 5] [1 / 2, 0] where
  limitOn := ex_limitOn (.inl rfl)
  fixed := by simp [Ex.limitArgs]
  floating := rfl
  statPerBin := rfl
  contents := by
    obtain ⟨e1, e2, e3⟩ := ex_limitCompared
    refine ⟨_, _, ex_limitNames, ex_limitContents' (.inl rfl), e1.symm, e2.symm, ?_⟩
    rw [show (Ex.limitArgs []).singleBin = false from rfl, e3, ex_limitDecays]
    norm_num

/-- With fewer observed events. -/
theorem few_counts : Ex.fewArgs.Counts 4 2
    [(((Ex.limitState.view 1).shrink exFitKw).st.scale 20).st] Ex.limitState [3, 4] [5, 5] [1 / 2, 0] where
  limitOn :=
    have h := ex_limitOn (.inr rfl)
    have hk : ∀ q ∈ (Ex.fewArgs.withSignal 4).kept ++ Ex.fewArgs.fixed.map Prod.fst,
        q ∈ ((Ex.limitArgs [2, 3]).withSignal 4).kept ++ (Ex.limitArgs [2, 3]).fixed.map Prod.fst := by
      intro q hq
      have : q ∈ [2, 4, 1] := hq
      show q ∈ [0, 4, 2, 3, 1]
      simp only [List.mem_cons, List.not_mem_nil, or_false] at this ⊢
      tauto
    { given :=
        { region := h.given.region
          some := h.given.some
          alloc := fun q hq => h.given.alloc q (by
            have : q ∈ [2, 4] := hq
            show q ∈ [0, 4, 2, 3]
            simp only [List.mem_cons, List.not_mem_nil, or_false] at this ⊢
            tauto)
          own := by
            show (([2, 4] ++ [1]).map (fun r => (Ex.limitState.objs r).cfg)).Nodup
            decide
          able := fun q hq => h.given.able q (hk q hq)
          fixed := h.given.fixed }
      settings := ⟨by simp [Ex.fewArgs, Ex.limitArgs], by simp [Ex.fewArgs, Ex.limitArgs],
        by simp [Ex.fewArgs, Ex.limitArgs], by simp [Ex.fewArgs, Ex.limitArgs]⟩
      signal := rfl
      data := rfl
      axes := fun _ _ => rfl
      fit := h.fit
      decays := h.decays
      region := h.region }
  fixed := by simp [Ex.fewArgs, Ex.limitArgs]
  floating := rfl
  statPerBin := rfl
  contents := by
    obtain ⟨-, e2, e3⟩ := ex_limitCompared
    refine ⟨_, Ex.limitContents, ex_limitNames, fun q hq => ?_, ?_, e2.symm, ?_⟩
    · have : q ∈ [2, 4, 1] := hq
      refine ex_limitContents q ?_
      simp only [List.mem_cons, List.not_mem_nil, or_false] at this
      omega
    · have e : allIdx [2] = [[0], [1]] := rfl
      simp [comparedContents, Ex.fewArgs, Ex.limitArgs, Ex.limitContents, e]
    · rw [show Ex.fewArgs.singleBin = false from rfl, e3, ex_limitDecays]
      norm_num

/-- With more background. -/
theorem rich_counts : Ex.richArgs.Counts 4 0
    [(((Ex.limitState.view 1).shrink exFitKw).st.scale 28).st] Ex.limitState [7, 8] [7, 7] [1 / 2, 0] where
  limitOn :=
    have h := ex_limitOn (.inl rfl)
    { given := ⟨h.given.region, h.given.some, h.given.alloc, h.given.own, h.given.able, by
        have h := h.given.fixed
        refine ⟨h.alloc, h.own, h.region, fun e he => ?_, fun e he => ?_, ?_, ?_⟩
        · obtain rfl : e = (1, 28) := List.mem_singleton.1 he
          exact h.dims (1, 20) (List.mem_singleton_self _)
        · obtain rfl : e = (1, 28) := List.mem_singleton.1 he
          exact h.names (1, 20) (List.mem_singleton_self _)
        · refine .cons ⟨exFitKw, ?_, by decide +kernel, rfl, by decide +kernel⟩ .nil
          show AsksRoi [Ex.fitAxis] (inOrder [(lit "energy", ((2 : ℚ), (1 : ℚ)))]) exFitKw
          rw [exInit_roi]
          exact exFit_asks
        · simp⟩
      settings := ⟨h.settings.1, h.settings.2, h.settings.3, h.settings.4⟩
      signal := rfl
      data := rfl
      axes := fun _ _ => rfl
      fit := h.fit
      decays := h.decays
      region := h.region }
  fixed := by simp [Ex.richArgs]
  floating := rfl
  statPerBin := rfl
  contents := by
    obtain ⟨e1, -, e3⟩ := ex_limitCompared
    refine ⟨_, _, ex_limitNames, ex_limitContents' (.inl rfl), e1.symm, ?_, ?_⟩
    · have e : allIdx [2] = [[0], [1]] := rfl
      have h1 : (Ex.limitState.view 1).numDecays = 4 := rfl
      simp only [comparedContents, FitArgs.fixedTotal]
      rw [show Ex.richArgs.singleBin = false from rfl]
      simp only [Bool.false_eq_true, if_false]
      show _ = (allIdx [2]).map _
      rw [e]
      simp [Ex.richArgs, Ex.limitContents, h1]
      norm_num
    · rw [show Ex.richArgs.singleBin = false from rfl, e3, ex_limitDecays]
      norm_num

/-- With twice as much signal. -/
theorem dense_counts : (Ex.limitArgs []).Counts 4 0
    [(((Ex.denseState.view 1).shrink exFitKw).st.scale 20).st] Ex.denseState [7, 8] [5, 5] [1, 0] where
  limitOn :=
    have h := ex_limitOn (.inl rfl)
    { given :=
        { region := h.given.region
          some := h.given.some
          alloc := h.given.alloc
          own := by
            show (([0, 4] ++ [1]).map (fun r => (Ex.denseState.objs r).cfg)).Nodup
            decide
          able := by
            intro q hq
            have hm : q = 0 ∨ q = 4 ∨ q = 1 := by
              have : q ∈ [0, 4, 1] := hq
              simpa using this
            have h := h.given.able q hq
            rcases hm with rfl | rfl | rfl <;>
              exact ⟨⟨h.wf.axes, h.wf.names, h.wf.shape⟩, h.aligned, h.dims, h.edges, h.has⟩
          fixed := by
            have h := h.given.fixed
            refine ⟨h.alloc, h.own, h.region, h.dims, h.names, ?_, ?_⟩
            · refine .cons ⟨exFitKw, ?_, by decide +kernel, rfl, by decide +kernel⟩ .nil
              show AsksRoi [Ex.fitAxis] (inOrder [(lit "energy", ((2 : ℚ), (1 : ℚ)))]) exFitKw
              rw [exInit_roi]
              exact exFit_asks
            · simp }
      settings := ⟨by simp [Ex.limitArgs], by simp [Ex.limitArgs], by simp [Ex.limitArgs],
        by simp [Ex.limitArgs]⟩
      signal := rfl
      data := rfl
      axes := fun _ _ => rfl
      fit := by simp [Ex.denseState, Ex.limitState]
      decays := by simp [FitState.view, Ex.denseState]
      region := h.region }
  fixed := by simp [Ex.limitArgs]
  floating := rfl
  statPerBin := rfl
  contents := by
    obtain ⟨e1, e2, e3⟩ := ex_limitCompared
    have key : ∀ r < 5, ((Ex.denseState.view r).shrink exFitKw).err = none ∧
        pick [lit "energy_mc"] (((Ex.denseState.view r).shrink exFitKw).st.cfg.map SPar.name)
          ((Ex.denseState.view r).shrink exFitKw).st.data.shape = [2] ∧
        ∀ idx ∈ allIdx [2], (Ex.limitContents r).get idx =
          sumIdx ((Ex.denseState.view r).shrink exFitKw).st.data.shape (fun full =>
            if pick [lit "energy_mc"] (((Ex.denseState.view r).shrink exFitKw).st.cfg.map SPar.name) full =
              idx then ((Ex.denseState.view r).shrink exFitKw).st.data.get full else 0) := by
      decide +kernel
    refine ⟨_, Ex.limitContents, ex_limitNames, fun q hq => ?_, e1.symm, e2.symm, ?_⟩
    · have hq5 : q < 5 := by
        have : q ∈ [0, 4, 1] := hq
        simp only [List.mem_cons, List.not_mem_nil, or_false] at this
        omega
      obtain ⟨k1, k2, k3⟩ := key q hq5
      refine ⟨((Ex.denseState.view q).shrink exFitKw).st, ⟨exFitKw, ?_, k1,
        ⟨⟨rfl, rfl, rfl, rfl, rfl⟩, rfl, fun _ _ => rfl⟩⟩, k2.symm, fun idx hi => ?_⟩
      · show AsksRoi [Ex.fitAxis] (inOrder [(lit "energy", ((2 : ℚ), (1 : ℚ)))]) exFitKw
        rw [exInit_roi]
        exact exFit_asks
      · exact k3 idx (mem_allIdx.2 hi)
    · rw [show (Ex.limitArgs []).singleBin = false from rfl, e3,
        show (Ex.denseState.view 4).numDecays = 1 from rfl]
      norm_num

theorem ex_plain : PlainScales Ex.toInt [0, 4, 10, 20] ∧
    ∀ calls, calls = [] ∨ calls = [LimitCall.statistics [4]] →
      Testable Ex.toInt (allScales calls ++ [0, 4, 10, 20]) := by
  have hsc : ∀ x ∈ ([0, 4, 10, 20] : List ℝ), x = 0 ∨ x = 4 ∨ x = 10 ∨ x = 20 := by
    intro x hx
    simpa using hx
  refine ⟨⟨by simp, by norm_num, fun x hx => ?_, fun x hx h0 => ?_, fun x hx h => ?_⟩, ?_⟩
  · rcases hsc x hx with rfl | rfl | rfl | rfl <;> norm_num
  · rcases hsc x hx with rfl | rfl | rfl | rfl
    · rfl
    all_goals (unfold npCloseReal at h0; norm_num at h0)
  · exact (ex_limitScales (List.mem_append_right _ hx) h).1
  · rintro calls (rfl | rfl)
    · exact fun x hx h => (ex_limitScales (List.mem_append_right _ hx) h).2
    · exact fun x hx h => (ex_limitScales hx h).2

theorem ex_soundBkg : Stat.pearson.Sound [7, 8] [5, 5] := by
  simp only [Stat.Sound, Stat.SoundBin, List.forall₂_cons]
  norm_num [zeroThreshold]

/-- The limit for 7 and 8 observed events is 20 (see C147). For 3 and 4 events it is no larger. -/
example : ∃ ses₁ st₁ w₁ ses₂ st₂ w₂,
    init Ex.keyOf Ex.fewArgs Ex.limitState = (st₁, .ok ses₁) ∧
    init Ex.keyOf (Ex.limitArgs []) Ex.limitState = (st₂, .ok ses₂) ∧
    Fitter.limitInit ⟨ses₁, st₁, GridSearch.new [] [] none false⟩ 4 true = (w₁, .ok ()) ∧
    Fitter.limitInit ⟨ses₂, st₂, GridSearch.new [] [] none false⟩ 4 true = (w₂, .ok ()) ∧
    (((w₂.afterCalls Ex.fitEnv Ex.toInt 4 [.statistics [4]]).limitOf Ex.fitEnv Ex.toInt 4
      [0, 4, 10, 20] [] none 3).2 = .ok 20 → ∃ x ≤ 20,
      ((w₁.afterCalls Ex.fitEnv Ex.toInt 4 []).limitOf Ex.fitEnv Ex.toInt 4 [0, 4, 10, 20] [] none 3).2 =
        .ok x) := by
  obtain ⟨ses₁, st₁, w₁, ses₂, st₂, w₂, h1, h2, h3, h4, h5⟩ := c168_events_partial (env := Ex.fitEnv)
    (keyOf := Ex.keyOf) (rnd := Ex.toInt) few_counts ex_counts rfl
    (.cons (by norm_num) (.cons (by norm_num) .nil)) (by norm_num) (fun h => by cases h)
    (GridSearch.new [] [] none false) (GridSearch.new [] [] none false) rfl rfl
  exact ⟨ses₁, st₁, w₁, ses₂, st₂, w₂, h1, h2, h3, h4, fun h => (h5 [] _ _ (ex_plain.2 _ (.inl rfl))
    (ex_plain.2 _ (.inr rfl)) ex_plain.1 [] (by simp) 3).1 20 h⟩

/-- With 7 instead of 5 expected background events in each bin the limit is no larger than 20. -/
example : ∃ ses₁ st₁ w₁ ses₂ st₂ w₂,
    init Ex.keyOf (Ex.limitArgs []) Ex.limitState = (st₁, .ok ses₁) ∧
    init Ex.keyOf Ex.richArgs Ex.limitState = (st₂, .ok ses₂) ∧
    Fitter.limitInit ⟨ses₁, st₁, GridSearch.new [] [] none false⟩ 4 true = (w₁, .ok ()) ∧
    Fitter.limitInit ⟨ses₂, st₂, GridSearch.new [] [] none false⟩ 4 true = (w₂, .ok ()) ∧
    (((w₁.afterCalls Ex.fitEnv Ex.toInt 4 [.statistics [4]]).limitOf Ex.fitEnv Ex.toInt 4
      [0, 4, 10, 20] [] none 3).2 = .ok 20 → ∃ x ≤ 20,
      ((w₂.afterCalls Ex.fitEnv Ex.toInt 4 []).limitOf Ex.fitEnv Ex.toInt 4 [0, 4, 10, 20] [] none 3).2 =
        .ok x) := by
  obtain ⟨ses₁, st₁, w₁, ses₂, st₂, w₂, h1, h2, h3, h4, h5⟩ := c168_backgrounds_partial (env := Ex.fitEnv)
    (keyOf := Ex.keyOf) (rnd := Ex.toInt) ex_counts rich_counts rfl
    (.cons (by norm_num) (.cons (by norm_num) .nil)) (by norm_num) ex_soundBkg
    (GridSearch.new [] [] none false) (GridSearch.new [] [] none false) rfl rfl
  exact ⟨ses₁, st₁, w₁, ses₂, st₂, w₂, h1, h2, h3, h4, fun h => (h5 _ [] _ (ex_plain.2 _ (.inr rfl))
    (ex_plain.2 _ (.inl rfl)) ex_plain.1 [] (by simp) 3).1 20 h⟩

/-- With twice as many events for each decay of the signal the limit is no larger than 20. -/
example : ∃ ses₁ st₁ w₁ ses₂ st₂ w₂,
    init Ex.keyOf (Ex.limitArgs []) Ex.limitState = (st₁, .ok ses₁) ∧
    init Ex.keyOf (Ex.limitArgs []) Ex.denseState = (st₂, .ok ses₂) ∧
    Fitter.limitInit ⟨ses₁, st₁, GridSearch.new [] [] none false⟩ 4 true = (w₁, .ok ()) ∧
    Fitter.limitInit ⟨ses₂, st₂, GridSearch.new [] [] none false⟩ 4 true = (w₂, .ok ()) ∧
    (((w₁.afterCalls Ex.fitEnv Ex.toInt 4 [.statistics [4]]).limitOf Ex.fitEnv Ex.toInt 4
      [0, 4, 10, 20] [] none 3).2 = .ok 20 → ∃ x ≤ 20,
      ((w₂.afterCalls Ex.fitEnv Ex.toInt 4 []).limitOf Ex.fitEnv Ex.toInt 4 [0, 4, 10, 20] [] none 3).2 =
        .ok x) := by
  obtain ⟨ses₁, st₁, w₁, ses₂, st₂, w₂, h1, h2, h3, h4, h5⟩ := c168_signals_partial (env := Ex.fitEnv)
    (keyOf := Ex.keyOf) (rnd := Ex.toInt) (k := 2) (by norm_num) ex_counts
    (by have := dense_counts; norm_num; exact this) rfl (by norm_num) ex_soundBkg
    (GridSearch.new [] [] none false) (GridSearch.new [] [] none false) rfl rfl
  exact ⟨ses₁, st₁, w₁, ses₂, st₂, w₂, h1, h2, h3, h4, fun h => (h5 _ [] _ (ex_plain.2 _ (.inr rfl))
    (ex_plain.2 _ (.inl rfl)) ex_plain.1 (by simp) [] (by simp) 3 (by norm_num)).1 20 h⟩

end Verif
