import Verif.Props.FixingAll
import Verif.Props.FitFixedOnly

/-! # C137, C161: fits in which nothing floats -/

namespace Verif

open Session

variable {env : FitEnv} {keyOf : ℕ → PyStr} {a b : FitArgs} {ts ts' : List Spectrum} {d : ℕ}
  {st : FitState} {rnd : ℝ → ℚ} {v : List ℝ}

/-- The comparison of a fit without floating backgrounds. -/
theorem fixedOnly_run {ses : Session} {st' : FitState} {x p : NdArray ℚ} {ns : List PyStr} {t : ℕ}
    {c : ℕ → NdArray ℚ} (hd : ses.data = some d) (hdp : ses.dataPars = some ns)
    (hx : (st'.view d).ndProject ns = .ok x) (hb : ses.fixed = some t) (hbp : ses.fixedPars = some ns)
    (hp : (st'.view t).ndProject ns = .ok p)
    (hs : ∀ r, ses.signal = some r → ses.signalPars = some ns ∧ (st'.view r).ndProject ns = .ok (c r) ∧
      (c r).shape = p.shape) :
    ∃ e, Session.fixedOnly ses st' = .ok (x, e) ∧ e.shape = p.shape ∧
      ∀ idx, e.get idx = p.get idx + (ses.signal.toList.map (fun r => (c r).get idx)).sum := by
  unfold Session.fixedOnly
  rw [hd, hb, hdp, hbp]
  simp only [Session.fixedOnly.optionOr, bind, Except.bind, Option.getD_some, hx, hp]
  cases h : ses.signal with
  | none => exact ⟨p, rfl, rfl, fun idx => by simp⟩
  | some r =>
    obtain ⟨h1, h2, h3⟩ := hs r h
    simp only [h1, Option.getD_some, h2, addProjection]
    rw [if_pos h3.symm]
    exact ⟨p.add (c r), rfl, rfl, fun idx => by simp [NdArray.add]⟩

theorem fit_fixed_run {ρ : Type} (mini : Fit → FitM ρ) {ses : Session} {st' : FitState} {x e : NdArray ℚ}
    (hchk : ses.checked = true) (hf : ses.floating.getD [] = [])
    (hc : Session.fixedOnly ses st' = .ok (x, e)) :
    ses.fit mini st' = ((ses, st'), (ses.stat.computeStatistic ses.statPerBin
      (arr (comparedContents ses.singleBin x)) (arr (comparedContents ses.singleBin e))).map
        (fun out => .inl out.value)) := by
  unfold Session.fit runFit
  rw [if_pos hchk, if_pos hf, hc]
  simp only [bind, Except.bind, flatten_arr]
  cases ses.stat.computeStatistic ses.statPerBin (arr (comparedContents ses.singleBin x))
    (arr (comparedContents ses.singleBin e)) <;> rfl

/-- **C137, nothing floats.** A fit is made from data, fixed backgrounds and perhaps a signal. Then the
constructor accepts its arguments, and `fit()` returns the statistic of the data and the sum of the
spectra in the region: the fixed backgrounds each scaled to the given number of decays, the signal as it
is; the number for a statistic that is one, the numbers of the bins for one per bin. No object changes,
and the minimiser has no influence. (Partial: the suppositions of C99; at most one axis is projected
out.) -/
theorem c137_fixed_partial (hg : a.Given ts st) (hd : a.data = some d) (hs : a.Settings st)
    (haxes : ∀ r ∈ a.kept ++ a.fixed.map Prod.fst, (st.view r).cfg = (st.view d).cfg)
    (hfx : a.fixed ≠ []) (hfl : a.floating = []) (hl : (st.view d).cfg.length ≤ a.roi.length + 1)
    {ns : List PyStr} (hns : RoiNames (st.view d).cfg (inOrder a.roi) ns) {c : ℕ → NdArray ℚ}
    (hc : ∀ r ∈ a.kept ++ a.fixed.map Prod.fst,
      RegionContents (inOrder a.roi) ns (st.view r) (c r)) :
    ∃ ses st', init keyOf a st = (st', .ok ses) ∧ ∀ (ρ : Type) (mini : Fit → FitM ρ),
      (ses.fit mini st').1.2 = st' ∧
      (a.statPerBin = false → ∀ x, a.stat.Total (comparedContents a.singleBin (c d))
        (comparedContents a.singleBin (a.backgroundAt st c (c d).shape [])) x →
        (ses.fit mini st').2 = .ok (.inl (.total x))) ∧
      (a.statPerBin = true → ∀ l, a.stat.PerBin (comparedContents a.singleBin (c d))
        (comparedContents a.singleBin (a.backgroundAt st c (c d).shape [])) l →
        (ses.fit mini st').2 = .ok (.inl (.bins l))) := by
  have hreg := inOrder_isDict hg.region
  have hdk : d ∈ a.kept := by simp [FitArgs.kept, hd]
  obtain ⟨_, st₀, h1, -, -, -, -, -, hchk⟩ := c99_ready_partial keyOf a ts st hg (by rw [hd]; simp)
    (.inl hfx) hs
  obtain ⟨ses, ses', st', t, i1, i2, i3, i4⟩ := init_run hg keyOf
  rw [h1] at i1
  obtain ⟨rfl, e⟩ := Prod.mk.inj i1
  obtain rfl := Except.ok.inj e
  obtain ⟨ns', n2, n1, n3, n4, -⟩ := names_run hg hd (fun q hq => haxes q (by
    simp only [FitArgs.kept, List.mem_append] at hq ⊢
    tauto)) i2
  obtain rfl : ns' = ns := roiNames_unique (hg.able d (List.mem_append_left _ hdk)).dims hns n2
  obtain ⟨c', k1⟩ := region_run hg hd haxes i3 n2 hl
  obtain ⟨t, rfl⟩ : ∃ t', t = some t' := by
    cases t with
    | none => exact absurd (i2.nofixed.1 rfl) hfx
    | some t => exact ⟨t, rfl⟩
  obtain ⟨p, p1, p2, p3⟩ := fixed_run hg hfx haxes n2 hl (i3.total t rfl) k1
  have hcc : ∀ q ∈ a.kept ++ a.fixed.map Prod.fst, (c' q).shape = (c q).shape ∧
      ∀ idx, InB (c q).shape idx → (c' q).get idx = (c q).get idx := fun q hm =>
    regionContents_unique hreg (hg.able q hm) (hc q hm) (k1 q hm).1
  have hcd := hcc d (List.mem_append_left _ hdk)
  have hshape : ∀ q ∈ a.kept ++ a.fixed.map Prod.fst, (c q).shape = (c d).shape :=
    fun q hm => by rw [← (hcc q hm).1, (k1 q hm).2.2, hcd.1]
  have hsk : ∀ r, a.signal = some r → r ∈ a.kept := fun r hr => by simp [FitArgs.kept, hr]
  obtain ⟨e, f1, f2, f3⟩ := fixedOnly_run (ses := ses') (st' := st₀) (c := c') (i2.data.trans hd) n1
    ((k1 d (List.mem_append_left _ hdk)).2.1 hdk) i2.fixed (n3 hfx) p1 (fun r hr => by
      have hr' : a.signal = some r := i2.signal.symm.trans hr
      have hk := hsk r hr'
      have hm := List.mem_append_left (a.fixed.map Prod.fst) hk
      exact ⟨n4 r hr', (k1 r hm).2.1 hk, (k1 r hm).2.2.trans p2.symm⟩)
  have hex : comparedContents a.singleBin e =
      comparedContents a.singleBin (a.backgroundAt st c (c d).shape []) := by
    refine compared_congr _ (f2.trans (p2.trans hcd.1)) fun idx hi => ?_
    have hi : InB (c d).shape idx := hi
    rw [f3 idx, p3 idx (by rw [hcd.1]; exact hi)]
    unfold FitArgs.backgroundAt FitArgs.sumAt
    dsimp only
    rw [List.zipWith_nil_right, List.sum_nil, add_zero, i2.signal]
    congr 2
    · refine List.map_congr_left fun q hq => ?_
      have hm : q.1 ∈ a.kept ++ a.fixed.map Prod.fst :=
        List.mem_append_right _ (List.mem_map_of_mem hq)
      rw [(hcc q.1 hm).2 idx (by rw [hshape q.1 hm]; exact hi)]
    · refine List.map_congr_left fun q hq => ?_
      have hm : q ∈ a.kept ++ a.fixed.map Prod.fst :=
        List.mem_append_left _ (hsk q (Option.mem_toList.1 hq))
      rw [(hcc q hm).2 idx (by rw [hshape q hm]; exact hi)]
  have hda : comparedContents a.singleBin (c' d) = comparedContents a.singleBin (c d) :=
    compared_congr _ hcd.1 hcd.2
  have hnof : ses'.floating.getD [] = [] := by
    rw [i2.floating, nonEmpty, if_pos hfl]; rfl
  rw [if_pos ⟨by rw [hd]; simp, .inl hfx⟩] at i4
  subst i4
  refine ⟨_, st₀, h1, fun ρ mini => ?_⟩
  rw [hchk ρ mini]
  have hrun := fit_fixed_run (ses := { ses' with
      perBin := a.perBin, singleBin := a.singleBin,
      minimiser := some (a.minimiser.getD a.perBin), checked := true }) mini rfl hnof f1
  have e1 : ses'.stat = a.stat := i2.stat
  have e2 : ses'.statPerBin = a.statPerBin := i2.statPerBin
  rw [hrun]
  dsimp only
  rw [e1, e2, hda, hex]
  refine ⟨rfl, fun hp x hx => ?_, fun hp x hx => ?_⟩
  · obtain ⟨o, e', hx⟩ := hx
    rw [hp, hx]; rfl
  · obtain ⟨o, e', hx⟩ := hx
    rw [hp, hx]; rfl

/-- What the two fits find. -/
theorem fixingAll_found (hf : a.FixingAll b (v.map rnd)) (hg : a.Given ts st) (hg' : b.Given ts' st)
    (he : a.Evaluable env keyOf d st) (hs : a.Settings st) (ho : a.OwnRates st)
    (hl : (st.view d).cfg.length ≤ a.roi.length + 1) {vss : List (List ℝ)} (hv : Combination vss v)
    {g : GridSearch} (hsearch : RateSearch rnd g vss a.floating.length)
    (hex : ∀ vs ∈ vss, ∀ y ∈ vs, ((rnd y : ℚ) : ℝ) = y) :
    ∃ G : List ℝ → ℝ, ∃ ses₁ st₁ g₁ raw₁ pen₁ u ses₂ st₂,
      init keyOf a st = (st₁, .ok ses₁) ∧ init keyOf b st = (st₂, .ok ses₂) ∧
      (ses₁.fit (fun f => fitGrid env f rnd g) st₁).2 = .ok (.inr (g₁, raw₁, pen₁)) ∧
      (∀ (ρ : Type) (mini : Fit → FitM ρ), (ses₂.fit mini st₂).2 = .ok (.inl (.total (G v)))) ∧
      FirstBest vss (fun u => G u + a.penaltyAt st u) u ∧
      g₁.pars.map FitPar.bestFit = u.map some ∧ raw₁.ravel = [G u] ∧
      pen₁.ravel = [a.penaltyAt st u] := by
  have hreg := inOrder_isDict hg.region
  have hdk : d ∈ a.kept := by simp [FitArgs.kept, he.data]
  obtain ⟨ns, hns⟩ := exists_roiNames (hg.able d (List.mem_append_left _ hdk))
  obtain ⟨c, hc⟩ := exists_contents hreg hg.able ns
  obtain ⟨G, hG⟩ := exists_statistics a.stat a.singleBin a st c d rnd
  have e1 : b.roi = a.roi := by rw [hf.rest]
  have e2 : b.stat = a.stat := by rw [hf.rest]
  have e3 : b.singleBin = a.singleBin := by rw [hf.rest]
  have hnum : v.length = a.floating.length := hv.length_eq.trans hsearch.number
  have hfix : b.fixed ≠ [] := by
    intro h0
    have hp := hf.fixed
    rw [h0] at hp
    have := List.nil_perm.1 hp
    rw [List.append_eq_nil_iff, List.zip_eq_nil_iff, List.map_eq_nil_iff] at this
    rcases this.1 with h1 | h1
    · exact ho.floating h1
    · rw [h1, List.length_nil] at hnum
      exact ho.floating (List.length_eq_zero_iff.1 hnum.symm)
  have haxes : ∀ r ∈ a.kept ++ a.fixed.map Prod.fst, (st.view r).cfg = (st.view d).cfg := fun r hr => by
    simp only [FitArgs.kept, he.data, List.mem_append, Option.mem_toList] at hr
    by_cases hrd : r = d
    · rw [hrd]
    refine he.axes r ?_
    simp only [List.mem_append, Option.mem_toList]
    have : ¬ (r ∈ some d) := fun h => hrd (Option.some.inj h).symm
    tauto
  obtain ⟨ses₁, st₁, g₁, raw₁, pen₁, u, i1, i2, i3, i4, i5, i6⟩ :=
    fit_found hg he hs ho hl hns hc hsearch hex fun u _ => hG u
  obtain ⟨ses₂, st₂, j1, j2⟩ := c137_fixed_partial (keyOf := keyOf) (d := d) hg'
    (by rw [hf.rest]; exact he.data)
    { floating := fun h => absurd (by rw [hf.rest]) h
      fixed := fun _ e h => by
        rw [hf.rest] at h
        exact absurd (ho.config ▸ h) (List.not_mem_nil)
      dimension := fun e h => by
        rw [hf.rest] at h
        exact absurd (ho.config ▸ h) (List.not_mem_nil)
      perBin := by rw [hf.rest]; exact hs.perBin }
    (fun r hr => haxes r (hf.mem_spectra hr)) hfix (by rw [hf.rest]) (by rw [e1]; exact hl)
    (by rw [e1]; exact hns) (fun r hr => by rw [e1]; exact hc r (hf.mem_spectra hr))
  refine ⟨G, ses₁, st₁, g₁, raw₁, pen₁, u, ses₂, st₂, i1, j1, i2, fun ρ mini => ?_, i3, i4, i5, i6⟩
  refine (j2 ρ mini).2.1 (by rw [hf.rest]; exact ho.statPerBin) _ ?_
  rw [e2, e3, hf.background]
  exact hG v

/-- **C161, fits, all backgrounds.** Every floating background has a rate with one value, and a second fit
is given all of them as fixed backgrounds with as many decays, so that nothing floats. Then the first fit
finds these values, and both have the same statistic; the first one returns the penalties of the rates
besides. (Partial: the suppositions of C62 and C99; at most one axis is projected out; the values of the
rates are not rounded.) -/
theorem c161_all_fit_partial (hf : a.FixingAll b (v.map rnd)) (hg : a.Given ts st) (hg' : b.Given ts' st)
    (he : a.Evaluable env keyOf d st) (hs : a.Settings st) (ho : a.OwnRates st)
    (hl : (st.view d).cfg.length ≤ a.roi.length + 1) {g : GridSearch}
    (hsearch : RateSearch rnd g (v.map fun x => [x]) a.floating.length)
    (hex : ∀ x ∈ v, ((rnd x : ℚ) : ℝ) = x) :
    ∃ ses₁ st₁ g₁ raw₁ pen₁ ses₂ st₂ t,
      init keyOf a st = (st₁, .ok ses₁) ∧ init keyOf b st = (st₂, .ok ses₂) ∧
      (ses₁.fit (fun f => fitGrid env f rnd g) st₁).2 = .ok (.inr (g₁, raw₁, pen₁)) ∧
      (∀ (ρ : Type) (mini : Fit → FitM ρ), (ses₂.fit mini st₂).2 = .ok (.inl (.total t))) ∧
      g₁.pars.map FitPar.bestFit = v.map some ∧ raw₁.ravel = [t] ∧
      pen₁.ravel = [a.penaltyAt st v] := by
  obtain ⟨G, ses₁, st₁, g₁, raw₁, pen₁, u, ses₂, st₂, i1, i2, i3, i4, ⟨i, hi, -⟩, i6, i7, i8⟩ :=
    fixingAll_found hf hg hg' he hs ho hl (combination_singles v) hsearch (fun vs hvs x hx => by
      obtain ⟨y, hy, rfl⟩ := List.mem_map.1 hvs
      rw [List.mem_singleton.1 hx]
      exact hex y hy)
  obtain rfl := combination_single hi.comb
  exact ⟨ses₁, st₁, g₁, raw₁, pen₁, ses₂, st₂, _, i1, i2, i3, i4, i6, i7, i8⟩

/-- **C161, fits with floating backgrounds are not worse.** The rates may have any values, among them `v`,
and a second fit is given all floating backgrounds as fixed ones with `v` decays. Then statistic and
penalty of the first fit are at most the statistic of the second and the penalties of the rates at `v`.
(Partial: as above.) -/
theorem c161_all_better_partial (hf : a.FixingAll b (v.map rnd)) (hg : a.Given ts st)
    (hg' : b.Given ts' st) (he : a.Evaluable env keyOf d st) (hs : a.Settings st) (ho : a.OwnRates st)
    (hl : (st.view d).cfg.length ≤ a.roi.length + 1) {vss : List (List ℝ)} (hv : Combination vss v)
    {g : GridSearch} (hsearch : RateSearch rnd g vss a.floating.length)
    (hex : ∀ vs ∈ vss, ∀ y ∈ vs, ((rnd y : ℚ) : ℝ) = y) :
    ∃ ses₁ st₁ g₁ raw₁ pen₁ ses₂ st₂ t₁ p₁ t₂,
      init keyOf a st = (st₁, .ok ses₁) ∧ init keyOf b st = (st₂, .ok ses₂) ∧
      (ses₁.fit (fun f => fitGrid env f rnd g) st₁).2 = .ok (.inr (g₁, raw₁, pen₁)) ∧
      (∀ (ρ : Type) (mini : Fit → FitM ρ), (ses₂.fit mini st₂).2 = .ok (.inl (.total t₂))) ∧
      raw₁.ravel = [t₁] ∧ pen₁.ravel = [p₁] ∧ t₁ + p₁ ≤ t₂ + a.penaltyAt st v := by
  obtain ⟨G, ses₁, st₁, g₁, raw₁, pen₁, u, ses₂, st₂, i1, i2, i3, i4, ⟨i, hi, hmin⟩, i6, i7, i8⟩ :=
    fixingAll_found hf hg hg' he hs ho hl hv hsearch hex
  obtain ⟨j, hj⟩ := valuesAt_of_comb hv
  exact ⟨ses₁, st₁, g₁, raw₁, pen₁, ses₂, st₂, _, _, _, i1, i2, i3, i4, i7, i8, (hmin j _ hj).1⟩

/-! ### a case that meets the hypotheses -/

theorem ex_signalRates : ((Ex.limitArgs [2, 3]).withSignal 4).OwnRates Ex.limitState :=
  ⟨ex_floatRates.floating, ex_floatRates.config, ex_floatRates.one, ex_floatRates.sigmas,
    ex_floatRates.statPerBin, ex_floatRates.perBin⟩

theorem ex_signalSettings : ((Ex.limitArgs [2, 3]).withSignal 4).Settings Ex.limitState :=
  have h := (ex_limitOn (floating := [2, 3]) (.inr rfl)).settings
  ⟨h.floating, h.fixed, h.dimension, h.perBin⟩

/-- The signal is part of both fits; the rates are 8 and 3, with the penalty 1. -/
example : ∃ ses₁ st₁ g₁ raw₁ pen₁ ses₂ st₂ t,
    init Ex.keyOf ((Ex.limitArgs [2, 3]).withSignal 4) Ex.limitState = (st₁, .ok ses₁) ∧
    init Ex.keyOf ((Ex.allFixed 8).withSignal 4) Ex.limitState = (st₂, .ok ses₂) ∧
    (ses₁.fit (fun f => fitGrid Ex.fitEnv f Ex.toInt Ex.onlySearch) st₁).2 = .ok (.inr (g₁, raw₁, pen₁)) ∧
    (∀ (ρ : Type) (mini : Fit → FitM ρ), (ses₂.fit mini st₂).2 = .ok (.inl (.total t))) ∧
    g₁.pars.map FitPar.bestFit = [some 8, some 3] ∧ raw₁.ravel = [t] ∧
    pen₁.ravel = [((Ex.limitArgs [2, 3]).withSignal 4).penaltyAt Ex.limitState [8, 3]] := by
  have hall := (ex_allFixed 8).withSignal 4
  rw [show Ex.toInt 8 = 8 by simp [Ex.toInt]] at hall
  exact c161_all_fit_partial (env := Ex.fitEnv) (keyOf := Ex.keyOf) (d := 0) (rnd := Ex.toInt) (v := [8, 3])
    (g := Ex.onlySearch) hall (ex_limitOn (.inr rfl)).given (allFixed_limitOn (.inl rfl)).given
    ex_floatEvaluable ex_signalSettings ex_signalRates (ex_limitOn (floating := [2, 3]) (.inr rfl)).region
    ex_onlySearch (by
      intro x hx
      have : x = 8 ∨ x = 3 := by simpa using hx
      rcases this with rfl | rfl <;> simp [Ex.toInt])

/-- The rates may be 8 or 10 and 7, 5 or 3; the second fit has 10 and 3 decays. -/
example : ∃ ses₁ st₁ g₁ raw₁ pen₁ ses₂ st₂ t₁ p₁ t₂,
    init Ex.keyOf ((Ex.limitArgs [2, 3]).withSignal 4) Ex.limitState = (st₁, .ok ses₁) ∧
    init Ex.keyOf ((Ex.allFixed 10).withSignal 4) Ex.limitState = (st₂, .ok ses₂) ∧
    (ses₁.fit (fun f => fitGrid Ex.fitEnv f Ex.toInt Ex.closedSearch) st₁).2 =
      .ok (.inr (g₁, raw₁, pen₁)) ∧
    (∀ (ρ : Type) (mini : Fit → FitM ρ), (ses₂.fit mini st₂).2 = .ok (.inl (.total t₂))) ∧
    raw₁.ravel = [t₁] ∧ pen₁.ravel = [p₁] ∧
    t₁ + p₁ ≤ t₂ + ((Ex.limitArgs [2, 3]).withSignal 4).penaltyAt Ex.limitState [10, 3] := by
  have hall := (ex_allFixed 10).withSignal 4
  rw [show Ex.toInt 10 = 10 by simp [Ex.toInt]] at hall
  exact c161_all_better_partial (env := Ex.fitEnv) (keyOf := Ex.keyOf) (d := 0) (rnd := Ex.toInt)
    (v := [10, 3]) (g := Ex.closedSearch) hall (ex_limitOn (.inr rfl)).given
    (allFixed_limitOn (.inr rfl)).given ex_floatEvaluable ex_signalSettings ex_signalRates
    (ex_limitOn (floating := [2, 3]) (.inr rfl)).region
    (.cons (by simp) (.cons (by simp) .nil)) made_search made_unrounded

/-- Expected are 9 and 17/2 events, observed 7 and 8. -/
example : ∃ ses st', init Ex.keyOf ((Ex.allFixed 8).withSignal 4) Ex.limitState = (st', .ok ses) ∧
    ∀ (ρ : Type) (mini : Fit → FitM ρ), (ses.fit mini st').1.2 = st' ∧
      (ses.fit mini st').2 = .ok (.inl (.total ((7 - 9) ^ 2 / 9 + (8 - 17 / 2) ^ 2 / (17 / 2)))) := by
  have h := allFixed_limitOn (x := 8) (.inl rfl)
  have hall := ex_allFixed 8
  rw [show Ex.toInt 8 = 8 by simp [Ex.toInt]] at hall
  obtain ⟨ses, st', h1, h2⟩ := c137_fixed_partial (keyOf := Ex.keyOf) h.given rfl
    ⟨h.settings.floating, h.settings.fixed, h.settings.dimension, h.settings.perBin⟩ h.axes
    (by simp [Ex.allFixed]) rfl h.region ex_limitNames
    (fun q hq => ex_limitContents' (.inr rfl) q ((hall.withSignal 4).mem_spectra hq))
  refine ⟨ses, st', h1, fun ρ mini => ⟨(h2 ρ mini).1, (h2 ρ mini).2.1 rfl _ ?_⟩⟩
  have hb : comparedContents ((Ex.allFixed 8).withSignal 4).singleBin
      (((Ex.allFixed 8).withSignal 4).backgroundAt Ex.limitState Ex.limitContents
        (Ex.limitContents 0).shape []) = [9, 17 / 2] := by
    have h1 : (Ex.limitState.view 1).numDecays = 4 := rfl
    have h2 : (Ex.limitState.view 2).numDecays = 10 := rfl
    have h3 : (Ex.limitState.view 3).numDecays = 10 := rfl
    rw [show ((Ex.allFixed 8).withSignal 4).singleBin = false from rfl]
    simp only [comparedContents, Bool.false_eq_true, if_false, FitArgs.backgroundAt]
    show (allIdx [2]).map _ = _
    rw [show allIdx [2] = [[0], [1]] from rfl]
    simp only [FitArgs.sumAt, Ex.allFixed, Ex.limitArgs,
      Ex.limitContents, h1, h2, h3, List.map_cons, List.map_nil, List.zipWith_nil_right, List.sum_cons,
      List.sum_nil, Option.toList_some]
    norm_num
  rw [hb, show ((Ex.allFixed 8).withSignal 4).singleBin = false from rfl, ex_limitCompared.1]
  exact ex_floatTotal (by norm_num) (by norm_num)

end Verif
