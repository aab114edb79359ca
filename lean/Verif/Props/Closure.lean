import Verif.Spec.Closure
import Verif.Props.FitGrid
import Verif.Props.FitExpected
import Verif.Props.TestStatistic

/-! # C133: a fit to data that the model describes finds the true values -/

namespace Verif

variable {env : FitEnv} {f : Fit} {st : FitState} {rnd : ℝ → ℚ} {g : GridSearch}
  {vss : List (List ℝ)} {F : List ℝ → FitVal} {P : List ℝ → ℝ}

theorem flatten_compared (sb : Bool) (a : NdArray ℚ) :
    flatten sb a = arr (comparedContents sb a) := by
  unfold flatten comparedContents arr
  cases sb with
  | true => simp
  | false => simp [length_allIdx]

theorem computeStatistic_length {s : Stat} {b : Bool} {o e : List ℝ} {out : StatOut StatValue}
    (h : s.computeStatistic b (arr o) (arr e) = .ok out) : o.length = e.length := by
  unfold Stat.computeStatistic at h
  split at h
  · cases h
  split at h
  · cases h
  split at h
  · cases h
  · rename_i h1
    simpa [arr] using h1

/-- What an evaluation that succeeds gives. -/
theorem funct_parts {args : List ℚ} (hn : f.pars.Nodup) (hl : args.length = f.pars.length)
    (hb : f.statPerBin = false) {r : StatValue × Option (List ℕ)} {p : ℝ}
    (h : (funct env f args st).2 = .ok (r, p)) :
    ∃ obs e v, evaluatedContents env f args st = .ok (obs, some e) ∧
      (comparedContents f.singleBin obs).length = (comparedContents f.singleBin e).length ∧
      f.stat.Total (comparedContents f.singleBin obs) (comparedContents f.singleBin e) v ∧
      toFitVal r = .scalar v ∧
      p = (List.zipWith (penaltyOf f.stat) (f.pars.map st.params) args).sum := by
  have hp := c65_evaluation env f args st (funct env f args st).1 hn hl r p (by
    rw [← h])
  rcases hfl : f.floating with _ | fl
  · rw [funct_none hfl] at h; cases h
  · have hev : evaluatedContents env f args st =
        (contents env f fl { st with params := withValues f.pars args st.params }).2 := by
      unfold evaluatedContents
      rw [FitM.bind_ok (setValues_ok _ _ hl.le st), hfl, Option.getD_some]
    rw [funct_some hfl, FitM.bind_ok (setValues_ok _ _ hl.le st)] at h
    rcases hc : contents env f fl { st with params := withValues f.pars args st.params } with
      ⟨st1, c | c⟩
    · rw [FitM.bind_error hc] at h; cases h
    · rw [FitM.bind_ok hc, FitM.read_bind, FitM.read_bind] at h
      obtain ⟨obs, e⟩ := c
      rw [hev, hc]
      cases e with
      | none => cases h
      | some e =>
        simp only [evaluate, FitM.lift, bind, Except.bind] at h
        split at h
        · cases h
        · rename_i out ho
          split at h
          · cases h
          · split at h
            · cases h
            · rename_i r' hr'
              cases h
              rw [hb, flatten_compared, flatten_compared] at ho
              have hv : ∃ v, out.value = .total v := by
                unfold Stat.computeStatistic at ho
                split at ho
                · cases ho
                split at ho
                · cases ho
                split at ho
                · cases ho
                · simp only [Bool.false_eq_true, if_false] at ho
                  cases ho
                  exact ⟨_, rfl⟩
              obtain ⟨v, hv⟩ := hv
              refine ⟨obs, e, v, rfl, computeStatistic_length ho, ⟨out.observed, out.expected, ?_⟩,
                ?_, hp⟩
              · rw [ho, ← hv]
              · unfold reshapeStat at hr'
                rw [hv] at hr'
                split at hr'
                · cases hr'
                · cases hr'
                  rfl

/-- Data are described best by themselves. -/
theorem agreement_best {s : Stat} (hs : s ≠ .bcChiUp) {o e : List ℝ} (hl : o.length = e.length)
    (ho : ∀ x ∈ o, zeroThreshold ≤ x) (he : ∀ x ∈ e, zeroThreshold ≤ x) {v v₀ : ℝ}
    (hv : s.Total o e v) (hv₀ : s.Total o o v₀) :
    v₀ ≤ v ∧ (v ≤ v₀ → e = o) ∧ (s ≠ .extLL → v₀ = 0) := by
  have four : ∀ s : Stat, (s = .bcChi ∨ s = .bcLL ∨ s = .pearson ∨ s = .neyman) → ∀ v v₀,
      s.Total o e v → s.Total o o v₀ → v₀ = 0 ∧ 0 ≤ v ∧ (v = 0 → e = o) := by
    intro s hs v v₀ hv hv₀
    have hne : s ≠ .extLL := by rcases hs with rfl | rfl | rfl | rfl <;> simp
    have h0 := (c35_zero_iff s hs o o rfl ho ho).2 rfl
    rw [total_iff s rfl] at h0 hv₀
    refine ⟨by rw [hv₀, ← h0], ?_, ?_⟩
    · obtain ⟨u, hu, h⟩ := c35_nonneg s hne o e hl
      rw [total_iff s hl] at hu hv
      rw [hv, ← hu]
      exact h
    · rintro rfl
      exact ((c35_zero_iff s hs o e hl ho he).1 hv).symm
  by_cases hx : s = .extLL
  · subst hx
    have T : ∀ s : Stat, ∀ e : List ℝ, o.length = e.length → ∃ v, s.Total o e v :=
      fun s e h => ⟨_, (total_iff s h _).2 rfl⟩
    obtain ⟨c, hc⟩ := T .bcChi e hl
    obtain ⟨c₀, hc₀⟩ := T .bcChi o rfl
    obtain ⟨l, hl'⟩ := T .bcLL e hl
    obtain ⟨l₀, hl₀⟩ := T .bcLL o rfl
    obtain ⟨-, h1, -⟩ := c38_ranking o e o hl rfl (fun x hx => .inr (ho x hx)) he ho c c₀ l l₀ v v₀
      hc hc₀ hl' hl₀ hv hv₀
    obtain ⟨h2, h3, h4⟩ := four .bcChi (.inl rfl) c c₀ hc hc₀
    refine ⟨by linarith, fun h => h4 (by linarith), fun h => absurd rfl h⟩
  · have h4 : s = .bcChi ∨ s = .bcLL ∨ s = .pearson ∨ s = .neyman := by
      cases s <;> simp at hs hx ⊢
    obtain ⟨h2, h3, h5⟩ := four s h4 v v₀ hv hv₀
    exact ⟨by linarith, fun h => h5 (by linarith), fun _ => h2⟩

theorem pull_nonneg (s : Stat) (v prior sigma : ℝ) : 0 ≤ pull s v prior sigma := by
  unfold pull
  split <;> positivity

theorem penaltyOf_nonneg (s : Stat) (p : Param) (v : ℚ) : 0 ≤ penaltyOf s p v := by
  unfold penaltyOf
  split
  · exact le_rfl
  · exact pull_nonneg ..

/-- The penalties vanish exactly when each parameter with a sigma has its prior. -/
theorem penalties_zero {s : Stat} {params : ℕ → Param} {ps : List ℕ} {args : List ℚ}
    (hl : args.length = ps.length) (hs : ∀ p ∈ ps, (params p).sigma ≠ some 0) :
    0 ≤ (List.zipWith (penaltyOf s) (ps.map params) args).sum ∧
    ((List.zipWith (penaltyOf s) (ps.map params) args).sum = 0 ↔
      List.Forall₂ (fun p v => (params p).sigma ≠ none → ((v : ℚ) : ℝ) = (params p).prior) ps args) := by
  induction ps generalizing args with
  | nil =>
    cases args with
    | nil => simp
    | cons _ _ => simp at hl
  | cons p ps ih =>
    cases args with
    | nil => simp at hl
    | cons v args =>
      obtain ⟨h1, h2⟩ := ih (args := args) (by simpa using hl) fun q hq => hs q (by simp [hq])
      have h3 := penaltyOf_nonneg s (params p) v
      have h4 : penaltyOf s (params p) v = 0 ↔
          ((params p).sigma ≠ none → ((v : ℚ) : ℝ) = (params p).prior) := by
        have hp := hs p (by simp)
        unfold penaltyOf
        cases hσ : (params p).sigma with
        | none => simp
        | some σ =>
          have : σ ≠ 0 := fun h => hp (by rw [hσ, h])
          simp only [ne_eq, reduceCtorEq, not_false_eq_true, forall_const]
          have hc : (if s = Stat.bcLL then (1 / 2 : ℝ) else 1) ≠ 0 := by split <;> norm_num
          unfold pull
          rw [mul_eq_zero, or_iff_right hc, sq_eq_zero_iff, div_eq_zero_iff, or_iff_left this,
            sub_eq_zero]
      simp only [List.map_cons, List.zipWith_cons_cons, List.sum_cons, List.forall₂_cons]
      refine ⟨add_nonneg h3 h1, ?_⟩
      rw [add_eq_zero_iff_of_nonneg h3 h1, h4, h2]

theorem valuesAt_of_comb {vss : List (List ℝ)} {w : List ℝ} (h : Combination vss w) :
    ∃ idx, ValuesAt vss idx w := by
  induction h with
  | nil => exact ⟨[], valuesAt_nil_iff.2 ⟨rfl, rfl⟩⟩
  | cons hx _ ih =>
    obtain ⟨idx, hi⟩ := ih
    obtain ⟨i, hlt, he⟩ := List.getElem_of_mem hx
    exact ⟨i :: idx, valuesAt_cons_iff.2 ⟨by rw [← he]; exact List.getElem?_eq_getElem hlt, hi⟩⟩

/-- The observed contents do not depend on the values. -/
theorem evaluated_observed {a b : List ℚ} {obs obs' : NdArray ℚ} {e e' : Option (NdArray ℚ)}
    (ha : a.length = f.pars.length) (hb : b.length = f.pars.length)
    (h : evaluatedContents env f a st = .ok (obs, e))
    (h' : evaluatedContents env f b st = .ok (obs', e')) : obs = obs' := by
  have key : ∀ {a : List ℚ} {obs e}, a.length = f.pars.length →
      evaluatedContents env f a st = .ok (obs, e) → (st.view f.data).ndProject f.dataPars = .ok obs := by
    intro a obs e ha h
    unfold evaluatedContents at h
    rw [FitM.bind_ok (setValues_ok _ _ ha.le st)] at h
    unfold contents at h
    rw [FitM.read_bind] at h
    have hv : ({ st with params := withValues f.pars a st.params } : FitState).view f.data =
        st.view f.data := rfl
    rw [hv] at h
    cases hp : (st.view f.data).ndProject f.dataPars with
    | error er => rw [hp] at h; cases h
    | ok o =>
      rw [hp] at h
      rw [FitM.lift_bind] at h
      dsimp only at h
      rcases h1 : fixedContents f { st with params := withValues f.pars a st.params } with
        ⟨s1, x | x⟩
      · rw [FitM.bind_error h1] at h; cases h
      rw [FitM.bind_ok h1] at h
      rcases h2 : (f.floating.getD []).foldlM (floatingRound env f) x s1 with ⟨s2, y | y⟩
      · rw [FitM.bind_error h2] at h; cases h
      rw [FitM.bind_ok h2] at h
      rcases h3 : addSignal env f y s2 with ⟨s3, z | z⟩
      · rw [FitM.bind_error h3] at h; cases h
      rw [FitM.bind_ok h3] at h
      cases h
      rfl
  have h1 := key ha h
  rw [key hb h'] at h1
  exact (Except.ok.inj h1).symm

/-- **C133.** A fit by grid search after any sequence of evaluations: if for some combination
`w₀` of the values the fit agrees with the data, then it agrees with the data for the combination
reported as best fit; statistic and penalty are zero (for the extended likelihood only the
penalty). So if it agrees for no other combination, the fit finds `w₀`. (Partial: the
suppositions of C62; not for the statistic that ignores bins with too few expected events.) -/
theorem c133_closure_partial (hr : FitReady env f st) (hist : List (List ℚ))
    (hh : ∀ a ∈ hist, FullArgs f a ∧ NonzeroRates f st a) (hg : g.Ready)
    (h : FitGridSetup env f st rnd g vss F P) (hn : ∀ vs ∈ vss, vs.Nodup)
    (hb : f.statPerBin = false) (hst : f.stat ≠ .bcChiUp)
    (hs : ∀ p ∈ f.pars, (st.params p).sigma ≠ some 0)
    (hc : ∀ w, Combination vss w → AllCount env f st (w.map rnd))
    (w₀ : List ℝ) (hw₀ : Combination vss w₀) (hag : Agrees env f st (w₀.map rnd)) :
    ∃ g' raw pen w,
      (fitGrid env f rnd g (afterEvaluations env f hist st)).2 = .ok (g', raw, pen) ∧
      Combination vss w ∧ g'.pars.map FitPar.bestFit = w.map some ∧
      Agrees env f st (w.map rnd) ∧ (f.stat ≠ .extLL → raw.shape = [] ∧ raw.get [] = 0) ∧
      pen.shape = [] ∧ pen.get [] = 0 ∧
      ((∀ w', Combination vss w' → Agrees env f st (w'.map rnd) → w' = w₀) → w = w₀) := by
  obtain ⟨g', raw, pen, idx, w, h1, h2, h3, h4, h5, h6, h7⟩ :=
    c93_best_fit_partial hr hist hh hg h hn
  obtain ⟨idx₀, hidx₀⟩ : ∃ idx₀, ValuesAt vss idx₀ w₀ := valuesAt_of_comb hw₀
  have hle := (h7 _ _ hidx₀).1
  have len : ∀ w, Combination vss w → (w.map rnd).length = f.pars.length := by
    intro w hw
    rw [List.length_map, hw.length_eq, h.number]
  -- the values at a combination
  have val : ∀ w, Combination vss w → ∃ obs e v,
      evaluatedContents env f (w.map rnd) st = .ok (obs, some e) ∧
      (comparedContents f.singleBin obs).length = (comparedContents f.singleBin e).length ∧
      f.stat.Total (comparedContents f.singleBin obs) (comparedContents f.singleBin e) v ∧
      F w = .scalar v ∧
      P w = (List.zipWith (penaltyOf f.stat) (f.pars.map st.params) (w.map rnd)).sum := by
    intro w hw
    obtain ⟨r, hr1, hr2, -⟩ := h.returns w hw
    obtain ⟨obs, e, v, a1, a2, a3, a4, a5⟩ := funct_parts hr.pars (len w hw) hb hr1
    exact ⟨obs, e, v, a1, a2, a3, by rw [hr2, a4], a5⟩
  have hobj : ∀ w v, F w = .scalar v → objective F P w = v + P w := by
    intro w v hv
    unfold objective
    rw [hv]
    simp [FitVal.cells, NdArray.sum]
  obtain ⟨obs, e, v, a1, a2, a3, a4, a5⟩ := val w h2.comb
  obtain ⟨obs₀, e₀, v₀, b1, b2, b3, b4, b5⟩ := val w₀ hw₀
  obtain ⟨⟨obs₀', e₀', c1, c2⟩, c3⟩ := hag
  rw [b1] at c1
  cases c1
  have hobs : obs = obs₀ := evaluated_observed (len w h2.comb) (len w₀ hw₀) a1 b1
  subst hobs
  rw [c2] at b3
  have hcount := hc w h2.comb obs e a1
  obtain ⟨d1, d2, d3⟩ := agreement_best hst a2 (fun x hx => hcount x (by simp [hx]))
    (fun x hx => hcount x (by simp [hx])) a3 b3
  obtain ⟨e1, e2⟩ := penalties_zero (s := f.stat) (params := st.params) (len w h2.comb) hs
  obtain ⟨f1, f2⟩ := penalties_zero (s := f.stat) (params := st.params) (len w₀ hw₀) hs
  rw [hobj w v a4, hobj w₀ v₀ b4, b5, f2.2 c3, a5] at hle
  have hpen : (List.zipWith (penaltyOf f.stat) (f.pars.map st.params) (w.map rnd)).sum = 0 := by
    linarith
  have hv : v = v₀ := by linarith
  have hw : Agrees env f st (w.map rnd) := ⟨⟨obs, e, a1, d2 hv.le⟩, e2.1 hpen⟩
  refine ⟨g', raw, pen, w, h1, h2.comb, h3, hw, fun hx => ?_, h5, by rw [h6, a5, hpen],
    fun hu => hu w h2.comb hw⟩
  rw [a4] at h4
  refine ⟨h4.1, ?_⟩
  rw [h4.2 [] (by rw [h4.1]; exact List.Forall₂.nil)]
  simp only [FitVal.cells]
  rw [hv, d3 hx]

/-- The values at two lists of arguments that agree on all parameters. -/
theorem args_ext {ps : List ℕ} {a b : List ℚ} (hn : ps.Nodup) (ha : a.length = ps.length)
    (hb : b.length = ps.length)
    (h : ∀ p ∈ ps, ∃ x, (p, x) ∈ ps.zip a ∧ (p, x) ∈ ps.zip b) : a = b := by
  induction ps generalizing a b with
  | nil =>
    rw [List.length_nil, List.length_eq_zero_iff] at ha hb
    rw [ha, hb]
  | cons p ps ih =>
    cases a with
    | nil => simp at ha
    | cons x a =>
      cases b with
      | nil => simp at hb
      | cons y b =>
        have hp : ∀ {z : ℚ} {c : List ℚ}, (p, z) ∉ ps.zip c := by
          intro z c hz
          exact (List.nodup_cons.1 hn).1 (List.of_mem_zip hz).1
        obtain ⟨z, h1, h2⟩ := h p (by simp)
        simp only [List.zip_cons_cons, List.mem_cons, Prod.mk.injEq, true_and] at h1 h2
        have h1 := h1.resolve_right hp
        have h2 := h2.resolve_right hp
        rw [← h1, ← h2]
        congr 1
        refine ih (List.nodup_cons.1 hn).2 (by simpa using ha) (by simpa using hb) fun q hq => ?_
        obtain ⟨u, h3, h4⟩ := h q (by simp [hq])
        have hqp : q ≠ p := fun e => (List.nodup_cons.1 hn).1 (e ▸ hq)
        simp only [List.zip_cons_cons, List.mem_cons, Prod.mk.injEq, hqp, false_and, false_or] at h3 h4
        exact ⟨u, h3, h4⟩

/-- **C133, rates.** A fit of rates without global parameters: the data are the fixed background,
each floating background scaled to its true rate, and the signal. If the projections of the
floating backgrounds are linearly independent, the fit finds exactly the true rates. -/
theorem c133_rates_partial (hr : FitReady env f st) (hist : List (List ℚ))
    (hh : ∀ a ∈ hist, FullArgs f a ∧ NonzeroRates f st a) (hg : g.Ready)
    (h : FitSearch env f st rnd g vss) (hn : ∀ vs ∈ vss, vs.Nodup)
    (hb : f.statPerBin = false) (hpb : f.perBin = false)
    (hst : f.stat ≠ .bcChiUp) (hsb : f.singleBin = false)
    (hs : ∀ p ∈ f.pars, (st.params p).sigma ≠ some 0)
    (hc : ∀ w, Combination vss w → AllCount env f st (w.map rnd))
    (hglob : f.globals = []) {fl : List (ℕ × List PyStr)} (hf : f.floating = some fl)
    (hcover : ∀ p ∈ f.pars, ∃ b ∈ fl, (st.objs b.1).fit = some [p])
    (hrnd : ∀ w w', Combination vss w → Combination vss w' → w.map rnd = w'.map rnd → w = w')
    {obs : NdArray ℚ} (hobs : (st.view f.data).ndProject f.dataPars = .ok obs)
    {fixed : List (NdArray ℚ)}
    (hfix : List.Forall₂ (fun b p => (st.view b.1).ndProject b.2 = .ok p) f.fixed.toList fixed)
    (w₀ : List ℝ) (hw₀ : Combination vss w₀)
    {xs : List BgTerm} (hx : List.Forall₂ (IsBgTerm env f st (w₀.map rnd)) fl xs)
    {signal : List (NdArray ℚ)}
    (hsig : List.Forall₂ (fun b p => (st.view b.1).ndProject b.2 = .ok p) f.signal.toList signal)
    {sh : List ℕ} (hsh : ∀ p ∈ obs :: fixed ++ xs.map BgTerm.proj ++ signal, p.shape = sh)
    (hne : f.fixed ≠ none ∨ fl ≠ [])
    (htruth : ∀ idx, InB sh idx → obs.get idx = (fixed.map (fun p => p.get idx)).sum +
      (List.zipWith (fun b x => x.rate / (st.view b.1).numDecays * x.proj.get idx) fl xs).sum +
      (signal.map (fun p => p.get idx)).sum)
    (hpri : List.Forall₂ (fun p v => (st.params p).sigma ≠ none → ((v : ℚ) : ℝ) = (st.params p).prior)
      f.pars (w₀.map rnd))
    (hind : Independent sh (xs.map BgTerm.proj)) :
    ∃ g' raw pen,
      (fitGrid env f rnd g (afterEvaluations env f hist st)).2 = .ok (g', raw, pen) ∧
      g'.pars.map FitPar.bestFit = w₀.map some ∧
      (f.stat ≠ .extLL → raw.shape = [] ∧ raw.get [] = 0) ∧ pen.shape = [] ∧ pen.get [] = 0 := by
  have len : ∀ w, Combination vss w → (w.map rnd).length = f.pars.length := by
    intro w hw
    rw [List.length_map, hw.length_eq, h.number]
  have hsig' : ∀ args, List.Forall₂ (IsSignalTerm env f st args) f.signal.toList signal :=
    fun args => hsig.imp fun b p hp => ⟨_, .inl ⟨hglob, rfl⟩, hp⟩
  -- the terms at another combination
  have terms : ∀ w, Combination vss w → ∃ ys : List BgTerm,
      List.Forall₂ (IsBgTerm env f st (w.map rnd)) fl ys ∧ ys.map BgTerm.proj = xs.map BgTerm.proj ∧
      List.Forall₂ (fun (b : ℕ × List PyStr) (e : BgTerm × BgTerm) => ∃ p,
        (st.objs b.1).fit = some [p] ∧ (p, e.1.rate) ∈ f.pars.zip (w₀.map rnd) ∧
        (p, e.2.rate) ∈ f.pars.zip (w.map rnd)) fl (xs.zip ys) := by
    intro w hw
    have hfl : ∀ b ∈ fl, b.1 ∈ f.floatingRefs := fun b hb => by
      simp only [Fit.floatingRefs, hf, Option.getD_some]
      exact List.mem_map_of_mem hb
    clear hsh hne htruth hind hf hcover
    induction hx with
    | nil => exact ⟨[], .nil, rfl, .nil⟩
    | @cons b x fl xs hbx _ ih =>
      obtain ⟨ys, i1, i2, i3⟩ := ih fun b hb => hfl b (by simp [hb])
      obtain ⟨c1, ⟨p, c2, c3⟩, c4⟩ := hbx
      have hp := (List.of_mem_zip c3).1
      obtain ⟨i, hi, rfl⟩ := List.getElem_of_mem hp
      have hi' : i < (w.map rnd).length := by rw [len w hw]; exact hi
      have hmem : (f.pars[i], (w.map rnd)[i]) ∈ f.pars.zip (w.map rnd) := by
        rw [← List.getElem_zip (h := by rw [List.length_zip, len w hw]; simpa using hi)]
        exact List.getElem_mem _
      refine ⟨⟨x.spectrum, (w.map rnd)[i], x.proj⟩ :: ys, .cons ⟨?_, ⟨_, c2, hmem⟩, c4⟩ i1,
        by simp [i2], .cons ⟨_, c2, c3, hmem⟩ i3⟩
      rw [hglob] at c1 ⊢
      generalize st.view b.1 = u, x.spectrum = t at c1
      cases c1
      exact .nil _
  have hcontents : ∀ w ys, Combination vss w → List.Forall₂ (IsBgTerm env f st (w.map rnd)) fl ys →
      ys.map BgTerm.proj = xs.map BgTerm.proj → ∃ e,
        evaluatedContents env f (w.map rnd) st = .ok (obs, some e) ∧ e.shape = sh ∧
        ∀ idx, InB sh idx → e.get idx = (fixed.map (fun p => p.get idx)).sum +
          (List.zipWith (fun b x => x.rate / (st.view b.1).numDecays * x.proj.get idx) fl ys).sum +
          (signal.map (fun p => p.get idx)).sum := by
    intro w ys hw hys hpr
    exact c91_expected_partial env f st hr [] (by simp) (w.map rnd) (len w hw) hf hobs hfix hys
      (hsig' _) (by
        rw [hpr]
        intro p hp
        exact hsh p (by simp only [List.cons_append, List.mem_cons]; exact .inr hp)) hne
  have hcomp : ∀ e : NdArray ℚ, e.shape = sh → (comparedContents f.singleBin e =
      comparedContents f.singleBin obs ↔ ∀ idx, InB sh idx → e.get idx = obs.get idx) := by
    intro e he
    have ho : obs.shape = sh := hsh obs (by simp)
    simp only [comparedContents, hsb, Bool.false_eq_true, if_false, he, ho]
    rw [List.map_inj_left]
    simp only [Rat.cast_inj, mem_allIdx]
  have hag : Agrees env f st (w₀.map rnd) := by
    obtain ⟨e, e1, e2, e3⟩ := hcontents w₀ xs hw₀ hx rfl
    exact ⟨⟨obs, e, e1, (hcomp e e2).2 fun idx hi => by rw [e3 idx hi, htruth idx hi]⟩, hpri⟩
  obtain ⟨F, P, h⟩ := h.setup fun w hw => by
    obtain ⟨ys, y1, y2, -⟩ := terms w hw
    obtain ⟨e, e1, e2, -⟩ := hcontents w ys hw y1 y2
    obtain ⟨v, hv⟩ := funct_total (shape := sh) hf (len w hw) hr.pars hb hpb hs (by
      rw [e1]
      show some (obs.shape, some e.shape) = _
      rw [e2, hsh obs (by simp)])
    exact ⟨_, hv⟩
  obtain ⟨g', raw, pen, w, h1, h2, h3, -, h5, h6, h7, h8⟩ :=
    c133_closure_partial hr hist hh hg h hn hb hst hs hc w₀ hw₀ hag
  have hw : w = w₀ := by
    refine h8 fun w hw hagw => hrnd _ _ hw hw₀ ?_
    obtain ⟨ys, y1, y2, y3⟩ := terms w hw
    obtain ⟨e, e1, e2, e3⟩ := hcontents w ys hw y1 y2
    obtain ⟨⟨obs', e', a1, a2⟩, -⟩ := hagw
    rw [e1] at a1
    cases a1
    have heq := (hcomp e e2).1 a2
    -- the differences of the rates
    have hdiff : ∀ x ∈ List.zipWith (fun (b : ℕ × List PyStr) (e : BgTerm × BgTerm) =>
        (e.1.rate - e.2.rate) / (st.view b.1).numDecays) fl (xs.zip ys), x = 0 := by
      have hlen : fl.length = (xs.zip ys).length := y3.length_eq
      have hly : ys.length = xs.length := by simpa using congrArg List.length y2
      refine hind _ (by simp [hlen, hly]) fun idx hi => ?_
      have h1 := htruth idx hi
      rw [← heq idx hi, e3 idx hi] at h1
      have h2 : (List.zipWith (fun b x => x.rate / (st.view b.1).numDecays * x.proj.get idx) fl xs).sum
          - (List.zipWith (fun b x => x.rate / (st.view b.1).numDecays * x.proj.get idx) fl ys).sum
          = 0 := by linarith
      rw [← h2]
      clear * - y2 hlen hly
      induction xs generalizing fl ys with
      | nil =>
        cases ys with
        | nil => simp
        | cons _ _ => simp at hly
      | cons x xs ih =>
        cases ys with
        | nil => simp at hly
        | cons y ys =>
          cases fl with
          | nil => simp at hlen
          | cons b fl =>
            simp only [List.map_cons, List.cons.injEq] at y2
            simp only [List.zip_cons_cons, List.zipWith_cons_cons, List.map_cons, List.sum_cons]
            rw [ih (fl := fl) (ys := ys) y2.2 (by simpa using hlen) (by simpa using hly), y2.1]
            ring
    refine args_ext hr.pars (len w hw) (len w₀ hw₀) fun p hp => ?_
    obtain ⟨b, hb1, hb2⟩ := hcover p hp
    obtain ⟨i, hi, rfl⟩ := List.getElem_of_mem hb1
    have hi' : i < (xs.zip ys).length := by rw [← y3.length_eq]; exact hi
    obtain ⟨q, q1, q2, q3⟩ := List.forall₂_iff_get.1 y3 |>.2 i hi hi'
    simp only [List.get_eq_getElem] at q1 q2 q3
    rw [hb2] at q1
    cases q1
    have hz : ((xs.zip ys)[i].1.rate - (xs.zip ys)[i].2.rate) / (st.view fl[i].1).numDecays = 0 := by
      refine hdiff _ ?_
      rw [← List.getElem_zipWith (f := fun (b : ℕ × List PyStr) (e : BgTerm × BgTerm) =>
        (e.1.rate - e.2.rate) / (st.view b.1).numDecays) (l := fl) (l' := xs.zip ys)
        (h := by rw [List.length_zipWith]; exact lt_min hi hi')]
      exact List.getElem_mem _
    have hd : (st.view fl[i].1).numDecays ≠ 0 := hr.decays _ (by
      simp only [Fit.moving, Fit.floatingRefs, hf, Option.getD_some, List.mem_append]
      exact .inl (List.mem_map_of_mem (List.getElem_mem _)))
    rw [div_eq_zero_iff, or_iff_left hd, sub_eq_zero] at hz
    exact ⟨_, q3, by rw [← hz]; exact q2⟩
  subst hw
  exact ⟨g', raw, pen, h1, h3, h5, h6, h7⟩

/-! ### a case that meets the hypotheses -/

namespace Ex

/-- The state of the examples, with data that are the model at the rates 10 and 5. -/
noncomputable def closedState : FitState := { fitState with
  objs := fun r => if r = 0 then { fitObj 0 with data := four 4 (11 / 2) 6 (11 / 2) } else fitObj r }

/-- A grid search over the two rates; the truth is neither first nor last. -/
def closedSearch : GridSearch :=
  GridSearch.new [gridPar (lit "rate") (some 2) [8, 10], gridPar (lit "rate") none [7, 5, 3]] [4]
    (some (lit "fit")) false

/-- The value lists of the search. -/
def closedValues : List (List ℝ) := [[8, 10], [7, 5, 3]]

end Ex

theorem closed_ready : FitReady Ex.fitEnv Ex.fit Ex.closedState where
  str := ex_ready.str
  cache := rfl
  alloc := by
    refine ⟨by decide, ?_, ?_⟩
    · intro b hb
      obtain rfl : b = (1, [lit "energy_mc"]) := by simpa [Ex.fit, eq_comm] using hb
      decide
    · intro r hr
      have : r = 2 ∨ r = 3 ∨ r = 4 := by simpa [Fit.moving, Fit.floatingRefs, Ex.fit] using hr
      rcases this with rfl | rfl | rfl <;> decide
  apart := by
    refine ⟨by decide, ?_⟩
    intro b hb
    obtain rfl : b = (1, [lit "energy_mc"]) := by simpa [Ex.fit, eq_comm] using hb
    decide
  backgrounds := by decide
  axes := by
    intro r hr
    have : r = 2 ∨ r = 3 ∨ r = 4 := by simpa [Fit.moving, Fit.floatingRefs, Ex.fit] using hr
    rcases this with rfl | rfl | rfl <;> exact ex_onDataAxes _ _ _ _ _ _ _ rfl _ rfl
  decays := by
    intro r hr
    have : r = 2 ∨ r = 3 ∨ r = 4 := by simpa [Fit.moving, Fit.floatingRefs, Ex.fit] using hr
    rcases this with rfl | rfl | rfl <;>
      simp [FitState.view, Ex.closedState, Ex.fitObj]
  pars := by decide
  globals := by intro p hp; simp [Ex.fit] at hp
  rates := by
    intro r hr p hp
    have : r = 2 ∨ r = 3 := by simpa [Fit.floatingRefs, Ex.fit] using hr
    rcases this with rfl | rfl
    · obtain rfl : p = 0 := by simpa [Ex.closedState, Ex.fitObj] using hp
      exact ⟨by decide, rfl⟩
    · obtain rfl : p = 1 := by simpa [Ex.closedState, Ex.fitObj] using hp
      exact ⟨by decide, rfl⟩

theorem closed_contents : ∀ a ∈ [(8 : ℚ), 10], ∀ b ∈ [(7 : ℚ), 5, 3],
    ((evaluatedContents Ex.fitEnv Ex.fit [a, b] Ex.closedState).toOption.map
      (fun c => (c.1.shape, c.2.map NdArray.shape)) = some ([4], some [4])) ∧
    (evaluatedContents Ex.fitEnv Ex.fit [a, b] Ex.closedState).toOption.all
      (fun c => ((allIdx c.1.shape).all fun i => decide (1 ≤ c.1.get i)) &&
        c.2.all fun e => (allIdx e.shape).all fun i => decide (1 ≤ e.get i)) = true := by
  decide +kernel

theorem closed_combination {w : List ℝ} (h : Combination Ex.closedValues w) :
    ∃ a ∈ [(8 : ℚ), 10], ∃ b ∈ [(7 : ℚ), 5, 3], w = [(a : ℝ), (b : ℝ)] ∧
      w.map Ex.toInt = [a, b] := by
  obtain ⟨x, _, hx, h1, rfl⟩ := List.forall₂_cons_right_iff.1 h
  obtain ⟨y, _, hy, h2, rfl⟩ := List.forall₂_cons_right_iff.1 h1
  cases h2
  have hx : x = 8 ∨ x = 10 := by simpa using hx
  have hy : y = 7 ∨ y = 5 ∨ y = 3 := by simpa using hy
  rcases hx with rfl | rfl <;> rcases hy with rfl | rfl | rfl
  · exact ⟨8, by simp, 7, by simp, by norm_num, by simp [Ex.toInt]⟩
  · exact ⟨8, by simp, 5, by simp, by norm_num, by simp [Ex.toInt]⟩
  · exact ⟨8, by simp, 3, by simp, by norm_num, by simp [Ex.toInt]⟩
  · exact ⟨10, by simp, 7, by simp, by norm_num, by simp [Ex.toInt]⟩
  · exact ⟨10, by simp, 5, by simp, by norm_num, by simp [Ex.toInt]⟩
  · exact ⟨10, by simp, 3, by simp, by norm_num, by simp [Ex.toInt]⟩

theorem closed_sigmas : ∀ p ∈ Ex.fit.pars, (Ex.closedState.params p).sigma ≠ some 0 := by
  intro p hp
  have : p = 0 ∨ p = 1 := by simpa [Ex.fit] using hp
  rcases this with rfl | rfl <;> simp [Ex.closedState, Ex.fitState, Ex.fitParam]

theorem closed_setup : ∃ F P, FitGridSetup Ex.fitEnv Ex.fit Ex.closedState Ex.toInt Ex.closedSearch
    Ex.closedValues F P := by
  have key : ∀ w, ∃ v p, Combination Ex.closedValues w →
      (funct Ex.fitEnv Ex.fit (w.map Ex.toInt) Ex.closedState).2 = .ok ((.total v, none), p) := by
    intro w
    by_cases hw : Combination Ex.closedValues w
    · obtain ⟨a, ha, b, hb, -, e⟩ := closed_combination hw
      rw [e]
      obtain ⟨v, e⟩ := funct_total (env := Ex.fitEnv) (f := Ex.fit) (st := Ex.closedState)
        (args := [a, b]) rfl rfl (by decide) rfl rfl closed_sigmas (closed_contents a ha b hb).1
      exact ⟨v, _, fun _ => e⟩
    · exact ⟨0, 0, fun h => absurd h hw⟩
  choose v p key using key
  refine ⟨fun w => .scalar (v w), p, ?_⟩
  exact {
    values := .cons rfl (.cons rfl .nil)
    counts := .cons ⟨rfl, by simp⟩ (.cons ⟨rfl, by simp⟩ .nil)
    number := rfl
    returns := fun w hw => ⟨_, key w hw, rfl, rfl⟩
    rates := by
      intro w hw
      obtain ⟨a, ha, b, hb, -, e⟩ := closed_combination hw
      rw [e]
      intro q hq _
      have : q = (0, a) ∨ q = (1, b) := by simpa [Ex.fit] using hq
      rcases this with rfl | rfl
      · rintro rfl; norm_num at ha
      · rintro rfl; norm_num at hb
    sigmas := by
      intro q hq
      have : q = Ex.gridPar (lit "rate") (some 2) [8, 10] ∨
          q = Ex.gridPar (lit "rate") none [7, 5, 3] := by
        simpa [Ex.closedSearch, GridSearch.new] using hq
      rcases this with rfl | rfl <;> simp [Ex.gridPar]
    nonempty := Or.inr (by simp [Ex.closedSearch, GridSearch.new]) }

/-- After three evaluations the fit finds the rates 10 and 5. -/
example : ∃ g' raw pen, (fitGrid Ex.fitEnv Ex.fit Ex.toInt Ex.closedSearch
      (afterEvaluations Ex.fitEnv Ex.fit [[8, 3], [1, 1], [8, 3]] Ex.closedState)).2 =
        .ok (g', raw, pen) ∧ g'.pars.map FitPar.bestFit = [some 10, some 5] ∧
      raw.get [] = 0 ∧ pen.get [] = 0 := by
  obtain ⟨F, P, h⟩ := closed_setup
  have hw₀ : Combination Ex.closedValues [10, 5] := .cons (by simp) (.cons (by simp) .nil)
  have hm : ([10, 5] : List ℝ).map Ex.toInt = [10, 5] := by simp [Ex.toInt]
  obtain ⟨g', raw, pen, h1, h2, h3, h4, h5⟩ := c133_rates_partial (f := Ex.fit) closed_ready
    [[8, 3], [1, 1], [8, 3]]
    (by
      intro a ha
      have : a = [8, 3] ∨ a = [1, 1] := by simpa [or_comm, or_left_comm] using ha
      have nz : ∀ x y : ℚ, x ≠ 0 → y ≠ 0 → FullArgs Ex.fit [x, y] ∧
          NonzeroRates Ex.fit Ex.closedState [x, y] := by
        intro x y hx hy
        refine ⟨rfl, ?_⟩
        intro q hq _
        have : q = (0, x) ∨ q = (1, y) := by simpa [Ex.fit] using hq
        rcases this with rfl | rfl
        · exact hx
        · exact hy
      rcases this with rfl | rfl <;> exact nz _ _ (by norm_num) (by norm_num))
    (g := Ex.closedSearch) ⟨rfl, rfl⟩
    { values := h.values, counts := h.counts, number := h.number, rates := h.rates
      sigmas := h.sigmas, nonempty := h.nonempty, floating := h.floating
      form := fun w r _ hr => form_total rfl rfl rfl hr }
    (by
      intro vs hvs
      have : vs = [8, 10] ∨ vs = [7, 5, 3] := by simpa [Ex.closedValues] using hvs
      rcases this with rfl | rfl <;> norm_num)
    rfl rfl (by simp [Ex.fit]) rfl closed_sigmas
    (by
      intro w hw obs e he x hx
      obtain ⟨a, ha, b, hb, -, e'⟩ := closed_combination hw
      rw [e'] at he
      have hc := (closed_contents a ha b hb).2
      rw [he] at hc
      simp only [Except.toOption, Option.all_some, Bool.and_eq_true, List.all_eq_true,
        decide_eq_true_eq] at hc
      have h1 : zeroThreshold ≤ 1 := by unfold zeroThreshold; norm_num
      have hsb : Ex.fit.singleBin = false := rfl
      simp only [comparedContents, hsb, Bool.false_eq_true, if_false, List.mem_append,
        List.mem_map] at hx
      refine h1.trans ?_
      rcases hx with ⟨i, hi, rfl⟩ | ⟨i, hi, rfl⟩
      · exact_mod_cast hc.1 i hi
      · exact_mod_cast hc.2 i hi)
    rfl (fl := [(2, [lit "energy_mc"]), (3, [lit "energy_mc"])]) rfl
    (by
      intro p hp
      have : p = 0 ∨ p = 1 := by simpa [Ex.fit] using hp
      rcases this with rfl | rfl
      · exact ⟨(2, [lit "energy_mc"]), by simp, rfl⟩
      · exact ⟨(3, [lit "energy_mc"]), by simp, rfl⟩)
    (by
      intro w w' hw hw' e
      obtain ⟨a, ha, b, hb, rfl, e1⟩ := closed_combination hw
      obtain ⟨a', ha', b', hb', rfl, e2⟩ := closed_combination hw'
      rw [e1, e2] at e
      cases e
      rfl)
    (obs := (Ex.closedState.view 0).data) rfl
    (fixed := [(Ex.closedState.view 1).data]) (.cons rfl .nil)
    [10, 5] hw₀
    (xs := [⟨Ex.closedState.view 2, 10, (Ex.closedState.view 2).data⟩,
      ⟨Ex.closedState.view 3, 5, (Ex.closedState.view 3).data⟩])
    (by
      rw [hm]
      exact .cons ⟨.nil _, ⟨0, rfl, by simp [Ex.fit]⟩, rfl⟩
        (.cons ⟨.nil _, ⟨1, rfl, by simp [Ex.fit]⟩, rfl⟩ .nil))
    (signal := [(Ex.closedState.view 4).data]) (.cons rfl .nil) (sh := [4])
    (by
      intro p hp
      simp only [List.map_cons, List.map_nil, List.cons_append, List.nil_append, List.mem_cons,
        List.not_mem_nil, or_false] at hp
      rcases hp with rfl | rfl | rfl | rfl | rfl <;> rfl)
    (.inl (by simp [Ex.fit]))
    (by
      have : ∀ idx ∈ allIdx [4], (Ex.closedState.view 0).data.get idx =
          (Ex.closedState.view 1).data.get idx +
          (10 / (Ex.closedState.view 2).numDecays * (Ex.closedState.view 2).data.get idx +
            5 / (Ex.closedState.view 3).numDecays * (Ex.closedState.view 3).data.get idx) +
          (Ex.closedState.view 4).data.get idx := by decide +kernel
      intro idx hi
      rw [this idx (mem_allIdx.2 hi)]
      simp)
    (by
      rw [hm]
      exact .cons (by simp [Ex.closedState, Ex.fitState, Ex.fitParam])
        (.cons (by simp [Ex.closedState, Ex.fitState, Ex.fitParam]) .nil))
    (by
      intro c hc h x hx
      match c, hc with
      | [a, b], _ =>
        have h0 := h [0] (by decide)
        have h3 := h [3] (by decide)
        have v2 : (Ex.closedState.view 2).data.get [0] = 1 ∧ (Ex.closedState.view 2).data.get [3] = 4 ∧
            (Ex.closedState.view 3).data.get [0] = 4 ∧ (Ex.closedState.view 3).data.get [3] = 1 := by
          decide +kernel
        simp only [List.map_cons, List.map_nil, List.zipWith_cons_cons, List.zipWith_nil_right,
          List.sum_cons, List.sum_nil, v2.1, v2.2.1, v2.2.2.1, v2.2.2.2] at h0 h3
        have : x = a ∨ x = b := by simpa using hx
        rcases this with rfl | rfl <;> linarith)
  exact ⟨g', raw, pen, h1, by simpa using h2, (h3 (by simp [Ex.fit])).2, h5⟩

end Verif
