import Verif.Lemmas.LimitFloating

/-! Helper lemmas: what a fit by grid search finds that is made from its arguments. -/

namespace Verif

open Session

variable {env : FitEnv} {keyOf : ℕ → PyStr} {a : FitArgs} {ts : List Spectrum} {d : ℕ} {st : FitState}
  {rnd : ℝ → ℚ} {g : GridSearch} {vss : List (List ℝ)}

theorem FitArgs.OwnRates.number (ho : a.OwnRates st) :
    (a.parameters st).length = a.floating.length := by
  have hone : ∀ q, ∃ p, q ∈ a.floating → (st.objs q).fit = some [p] := fun q => by
    by_cases hm : q ∈ a.floating
    · obtain ⟨p, hp⟩ := ho.one q hm
      exact ⟨p, fun _ => hp⟩
    · exact ⟨0, fun h => absurd h hm⟩
  choose par hp using hone
  rw [ratesOnly_parameters ho hp, List.length_map]

/-- A fit made from its arguments: what it evaluates. -/
theorem fit_evaluated (hg : a.Given ts st) (he : a.Evaluable env keyOf d st) (hs : a.Settings st)
    (ho : a.OwnRates st) (hl : (st.view d).cfg.length ≤ a.roi.length + 1) {ns : List PyStr}
    (hns : RoiNames (st.view d).cfg (inOrder a.roi) ns) {c : ℕ → NdArray ℚ}
    (hc : ∀ r ∈ a.kept ++ a.fixed.map Prod.fst,
      RegionContents (inOrder a.roi) ns (st.view r) (c r)) :
    ∃ ses st' f, init keyOf a st = (st', .ok ses) ∧
      (∀ (ρ : Type) (mini : Fit → FitM ρ), (ses.fit mini st').2 = (mini f st').2.map .inr) ∧
      FitReady env f st' ∧ f.pars = a.parameters st ∧ f.stat = a.stat ∧
      f.statPerBin = a.statPerBin ∧ f.perBin = a.perBin ∧ f.singleBin = a.singleBin ∧
      f.floating ≠ none ∧
      (∀ p, st'.params p = { st.params p with name := (st'.params p).name }) ∧
      ∀ args, args.length = (a.parameters st).length →
        ∃ obs e, evaluatedContents env f args st' = .ok (obs, some e) ∧ e.shape = obs.shape ∧
          comparedContents a.singleBin obs = comparedContents a.singleBin (c d) ∧
          comparedContents a.singleBin e =
            comparedContents a.singleBin (a.backgroundAt st c (c d).shape args) := by
  have hreg := inOrder_isDict hg.region
  have hdk : d ∈ a.kept := by simp [FitArgs.kept, he.data]
  obtain ⟨ses, st', n1, i1, i2, i3⟩ := c137_fit_partial hg he ho.floating hs
  obtain ⟨ses₂, st₂, n2, j1, -, j2, j3, j4⟩ := c137_ready_partial hg he ho.floating
  obtain ⟨ses₃, st₃, n3, k1, k2, c', k3, k4⟩ := c137_contents_partial hg he ho.floating
    (by rw [ho.config]; simp) hl
  rw [i1] at j1 k1
  cases j1
  cases k1
  have hdims := (hg.able d (List.mem_append_left _ hdk)).dims
  obtain rfl : n1 = ns := roiNames_unique hdims hns i2
  obtain rfl : n2 = n1 := roiNames_unique hdims i2 j2
  obtain rfl : n3 = n2 := roiNames_unique hdims i2 k2
  have hmade := made_init keyOf a st
  rw [i1] at hmade
  have hpar := hmade.params
  dsimp only at hpar
  have hcc : ∀ r ∈ a.kept ++ a.fixed.map Prod.fst, (c' r).shape = (c r).shape ∧
      ∀ idx, InB (c r).shape idx → (c' r).get idx = (c r).get idx := fun r hm =>
    regionContents_unique hreg (hg.able r hm) (hc r hm) (k3 r hm).1
  have hcd := hcc d (List.mem_append_left _ hdk)
  have hshape : ∀ r ∈ a.kept ++ a.fixed.map Prod.fst, (c r).shape = (c d).shape := fun r hm => by
    rw [← (hcc r hm).1, (k3 r hm).2, hcd.1]
  have hget : ∀ r ∈ a.kept ++ a.fixed.map Prod.fst, ∀ idx, InB (c d).shape idx →
      (c' r).get idx = (c r).get idx := fun r hm idx hi =>
    (hcc r hm).2 idx (by rw [hshape r hm]; exact hi)
  have hone : ∀ r, ∃ p, r ∈ a.floating → (st.objs r).fit = some [p] := fun r => by
    by_cases hm : r ∈ a.floating
    · obtain ⟨p, hp⟩ := ho.one r hm
      exact ⟨p, fun _ => hp⟩
    · exact ⟨0, fun h => absurd h hm⟩
  choose par hp using hone
  have hpars := ratesOnly_parameters ho hp
  have hfn : a.floating.Nodup := by
    have := he.pars
    rw [hpars] at this
    exact this.of_map _
  rw [j3] at j4 k4
  refine ⟨ses, st', a.read st d ses.fixed n3, i1, fun ρ mini => by rw [i3], j4, rfl, rfl, rfl, rfl, rfl,
    (fun h => by cases h), hpar, fun args hargs => ?_⟩
  obtain ⟨rate, hrate⟩ := exists_map_eq hfn (by rw [hargs, hpars, List.length_map])
  obtain ⟨e, e1, e2, e3⟩ := k4 [] (by simp) args hargs rate fun r hm => by
    refine ⟨par r, hp r hm, ?_⟩
    rw [hpars, ← hrate, List.zip_map', List.mem_map]
    exact ⟨r, hm, rfl⟩
  refine ⟨c' d, e, e1, e2, compared_congr _ hcd.1 hcd.2,
    compared_congr _ (e2.trans hcd.1) fun idx hi => ?_⟩
  have hi : InB (c d).shape idx := hi
  rw [e3 idx (by rw [hcd.1]; exact hi)]
  unfold FitArgs.backgroundAt FitArgs.sumAt
  dsimp only
  rw [← hrate, List.zipWith_map_right, List.zipWith_self]
  congr 1
  · congr 1
    · congr 1
      refine List.map_congr_left fun x hx => ?_
      rw [hget _ (List.mem_append_right _ (List.mem_map_of_mem hx)) idx hi]
    · congr 1
      refine List.map_congr_left fun r hm => ?_
      rw [hget _ (by simp only [FitArgs.kept, List.mem_append]; tauto) idx hi]
  · congr 1
    refine List.map_congr_left fun r hm => ?_
    rw [hget _ (by simp only [FitArgs.kept, List.mem_append]; tauto) idx hi]

theorem penalties_unrounded {s : Stat} {ps : List Param} {u : List ℝ}
    (hv : ∀ x ∈ u, ((rnd x : ℚ) : ℝ) = x) :
    (List.zipWith (penaltyOf s) ps (u.map rnd)).sum = (List.zipWith (penaltyTerm s) ps u).sum := by
  induction u generalizing ps with
  | nil => simp
  | cons x u ih =>
    cases ps with
    | nil => rfl
    | cons p ps =>
      rw [List.map_cons, List.zipWith_cons_cons, List.zipWith_cons_cons, List.sum_cons, List.sum_cons,
        ih (fun y hy => hv y (List.mem_cons_of_mem _ hy))]
      congr 1
      unfold penaltyOf penaltyTerm
      rw [hv x List.mem_cons_self]
      cases p.sigma <;> rfl

/-- A grid search of a fit made from its arguments, when `G` are the statistics on the grid. -/
theorem grid_found {f : Fit} {st' : FitState} (f0 : FitReady env f st')
    (f1 : f.pars = a.parameters st) (f2 : f.stat = a.stat) (f3 : f.statPerBin = false)
    (f4 : f.perBin = false) (f5 : f.singleBin = a.singleBin) (f6 : f.floating ≠ none)
    (hpar : ∀ p, st'.params p = { st.params p with name := (st'.params p).name })
    (hsigmas : ∀ p ∈ a.parameters st, (st.params p).sigma ≠ some 0) (hready : g.Ready)
    (hnodup : ∀ vs ∈ vss, vs.Nodup) (hFS : FitSearch env f st' rnd g vss)
    (hex : ∀ vs ∈ vss, ∀ x ∈ vs, ((rnd x : ℚ) : ℝ) = x) {O : List ℝ} {E : List ℝ → List ℝ}
    (hev : ∀ u, Combination vss u → ∃ obs e,
      evaluatedContents env f (u.map rnd) st' = .ok (obs, some e) ∧ e.shape = obs.shape ∧
        comparedContents a.singleBin obs = O ∧ comparedContents a.singleBin e = E u)
    {G : List ℝ → ℝ} (hG : ∀ u, Combination vss u → a.stat.Total O (E u) (G u)) :
    ∃ g' raw pen u, (fitGrid env f rnd g st').2 = .ok (g', raw, pen) ∧
      FirstBest vss (fun u => G u + a.penaltyAt st u) u ∧
      g'.pars.map FitPar.bestFit = u.map some ∧ raw.ravel = [G u] ∧
      pen.ravel = [a.penaltyAt st u] := by
  obtain ⟨fl, hfl⟩ := Option.ne_none_iff_exists'.1 f6
  have len' : ∀ u, Combination vss u → (u.map rnd).length = f.pars.length := fun u hu => by
    rw [List.length_map, hu.length_eq, hFS.number]
  have hsig : ∀ p ∈ f.pars, (st'.params p).sigma ≠ some 0 := fun p hm => by
    rw [hpar]; exact hsigmas p (f1 ▸ hm)
  have hpen : ∀ u, Combination vss u → (List.zipWith (penaltyOf f.stat) (f.pars.map st'.params)
      (u.map rnd)).sum = a.penaltyAt st u := by
    intro u hu
    rw [penalties_unrounded fun x hx => by
      obtain ⟨vs, hvs, hm⟩ := forall₂_mem_left hu hx
      exact hex vs hvs x hm]
    unfold FitArgs.penaltyAt
    rw [f1, f2, List.zipWith_map_left]
    congr 2
    funext p x
    unfold penaltyTerm
    rw [hpar p]
    cases (st.params p).sigma <;> rfl
  have hok : ∀ u, Combination vss u → ∃ o, (funct env f (u.map rnd) st').2 =
      .ok ((.total (G u), o), a.penaltyAt st u) := by
    intro u hu
    obtain ⟨obs, e, e1, e2, e3, e4⟩ := hev u hu
    obtain ⟨v, hv⟩ := funct_total (shape := obs.shape) hfl (len' u hu) f0.pars f3 f4 hsig (by
      rw [e1]
      show some (obs.shape, some e.shape) = _
      rw [e2])
    obtain ⟨obs', e', v', k1, -, k3, k4, k5⟩ := funct_parts f0.pars (len' u hu) f3 hv
    rw [e1] at k1
    cases k1
    obtain rfl : v = v' := by
      simp only [toFitVal, FitVal.scalar.injEq] at k4
      exact k4
    rw [f2, f5, e3, e4] at k3
    obtain rfl := total_unique (hG u hu) k3
    refine ⟨none, ?_⟩
    rw [hv, k5, hpen u hu]
  obtain ⟨⟨g', raw, pen⟩, hres⟩ := (c93_returns_partial f0 [] (by simp) hready hFS
    hnodup).2 fun u hu => by
      obtain ⟨o, ho⟩ := hok u hu
      exact ⟨_, ho⟩
  obtain ⟨u, s, p, ⟨idx, b1, ⟨o', b2⟩, b3⟩, m1, m2, m3⟩ := c93_numbers_partial f0 [] (by simp)
    hready hFS hnodup hres
  have hres : (fitGrid env f rnd g st').2 = .ok (g', raw, pen) := hres
  obtain ⟨o'', h3⟩ := hok u b1.comb
  rw [h3] at b2
  cases b2
  refine ⟨g', raw, pen, u, hres, ⟨idx, b1, fun idx' u' hu' => ?_⟩, m1, m2, m3⟩
  · obtain ⟨s', o₁, p', g1, g2, g3⟩ := b3 idx' u' hu'
    obtain ⟨o₂, g4⟩ := hok u' hu'.comb
    rw [g4] at g1
    cases g1
    exact ⟨g2, g3⟩

/-- The first `fit()` by grid search over rates, of a fit made from its arguments, when `G` are the
statistics on the grid. -/
theorem fit_found (hg : a.Given ts st) (he : a.Evaluable env keyOf d st) (hs : a.Settings st)
    (ho : a.OwnRates st) (hl : (st.view d).cfg.length ≤ a.roi.length + 1) {ns : List PyStr}
    (hns : RoiNames (st.view d).cfg (inOrder a.roi) ns) {c : ℕ → NdArray ℚ}
    (hc : ∀ r ∈ a.kept ++ a.fixed.map Prod.fst,
      RegionContents (inOrder a.roi) ns (st.view r) (c r))
    (hsearch : RateSearch rnd g vss a.floating.length)
    (hex : ∀ vs ∈ vss, ∀ x ∈ vs, ((rnd x : ℚ) : ℝ) = x) {G : List ℝ → ℝ}
    (hG : ∀ u, Combination vss u → a.stat.Total (comparedContents a.singleBin (c d))
      (comparedContents a.singleBin (a.backgroundAt st c (c d).shape (u.map rnd))) (G u)) :
    ∃ ses st' g' raw pen u, init keyOf a st = (st', .ok ses) ∧
      (ses.fit (fun f => fitGrid env f rnd g) st').2 = .ok (.inr (g', raw, pen)) ∧
      FirstBest vss (fun u => G u + a.penaltyAt st u) u ∧
      g'.pars.map FitPar.bestFit = u.map some ∧ raw.ravel = [G u] ∧
      pen.ravel = [a.penaltyAt st u] := by
  obtain ⟨ses, st', f, i1, i2, f0, f1, f2, f3, f4, f5, f6, hpar, hev⟩ :=
    fit_evaluated hg he hs ho hl hns hc
  rw [ho.statPerBin] at f3
  rw [ho.perBin] at f4
  have hnum := ho.number
  have len : ∀ u, Combination vss u → (u.map rnd).length = (a.parameters st).length := fun u hu => by
    rw [List.length_map, hu.length_eq, hsearch.number, hnum]
  have hFS : FitSearch env f st' rnd g vss :=
    { values := hsearch.values
      counts := hsearch.counts
      number := by rw [hsearch.number, f1, hnum]
      floating := f6
      form := fun u r _ h => form_total hsearch.form f3 f4 h
      rates := fun u hu e hm _ => hsearch.nonzero_comb hu _ (List.of_mem_zip hm).2
      sigmas := hsearch.sigmas
      nonempty := .inr fun h0 => by
        have := hsearch.counts.length_eq
        rw [h0, hsearch.number] at this
        exact ho.floating (List.length_eq_zero_iff.1 this.symm) }
  obtain ⟨g', raw, pen, u, hres, r⟩ := grid_found f0 f1 f2 f3 f4 f5 f6 hpar ho.sigmas hsearch.ready
    hsearch.nodup hFS hex (fun u hu => hev (u.map rnd) (len u hu)) hG
  exact ⟨ses, st', g', raw, pen, u, i1, by rw [i2, hres]; rfl, r⟩

theorem exists_total (s : Stat) {o e : List ℝ} (h : o.length = e.length) : ∃ v, s.Total o e v :=
  ⟨_, (total_iff s h _).2 rfl⟩

theorem ValuesAt.unique {idx : List ℕ} {u u' : List ℝ} (h : ValuesAt vss idx u)
    (h' : ValuesAt vss idx u') : u = u' := by
  replace h := h.1
  replace h' := h'.1
  generalize vss.zip idx = l at h h'
  induction h generalizing u' with
  | nil => cases h'; rfl
  | cons h1 _ ih =>
    obtain ⟨y, w, h2, h3, rfl⟩ := List.forall₂_cons_left_iff.1 h'
    rw [h1] at h2
    cases h2
    rw [ih h3]

theorem FirstBest.unique {F F' : List ℝ → ℝ} (hF : ∀ u, Combination vss u → F' u = F u)
    {u u' : List ℝ} (h : FirstBest vss F u) (h' : FirstBest vss F' u') : u' = u := by
  obtain ⟨idx, h1, h2⟩ := h
  obtain ⟨idx', h1', h2'⟩ := h'
  obtain ⟨a1, a2⟩ := h2 idx' u' h1'
  obtain ⟨b1, b2⟩ := h2' idx u h1
  rw [hF _ h1.comb, hF _ h1'.comb] at b1 b2
  have e := le_antisymm a1 b1
  obtain rfl := le_antisymm (a2 e.symm) (b2 e)
  exact h1'.unique h1

end Verif
