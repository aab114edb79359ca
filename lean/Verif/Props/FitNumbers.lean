import Verif.Spec.FitNumbers
import Verif.Props.FitLimit

/-!
# C93, C100: the numbers that fits by grid search return

The statistic is returned as an array; here are its entries, for totals and for statistics per bin,
and the penalty terms which `Limit.get_limit` reads afterwards.
-/

namespace Verif

variable {env : FitEnv} {f : Fit} {st : FitState} {rnd : ℝ → ℚ} {g : GridSearch}
  {vss : List (List ℝ)}

theorem sum_ravel (a : NdArray ℝ) : a.ravel.sum = a.sum := by
  unfold NdArray.ravel NdArray.sum
  generalize a.shape = s
  generalize a.get = h
  induction s generalizing h with
  | nil => simp [allIdx]
  | cons n s ih =>
    have key : ∀ l : List ℕ, ((l.flatMap (fun i => (allIdx s).map (i :: ·))).map h).sum =
        (l.map (fun i => sumIdx s (fun idx => h (i :: idx)))).sum := by
      intro l
      induction l with
      | nil => rfl
      | cons i l ihl =>
        rw [List.flatMap_cons, List.map_append, List.sum_append, ihl, List.map_cons, List.sum_cons,
          List.map_map]
        congr 1
        exact ih (fun idx => h (i :: idx))
    rw [sumIdx_cons, allIdx, key, Finset.sum_eq_multiset_sum, Finset.range_val, Multiset.range,
      Multiset.map_coe, Multiset.sum_coe]

theorem ravel_of_list {shape : List ℕ} {l : List ℝ} (h : l.length = shape.prod) :
    (⟨shape, fun idx => l.getD (ravelIdx shape idx) 0⟩ : NdArray ℝ).ravel = l := by
  refine List.ext_getElem? fun k => ?_
  unfold NdArray.ravel
  rw [List.getElem?_map]
  by_cases hk : k < shape.prod
  · rw [allIdx_getElem? hk]
    simp only [Option.map_some, ravel_unravel hk]
    rw [List.getElem?_eq_getElem (by omega)]
    simp [List.getD, List.getElem?_eq_getElem (show k < l.length by omega)]
  · rw [List.getElem?_eq_none (by rw [length_allIdx]; dsimp only; omega), List.getElem?_eq_none (by omega)]
    rfl

/-- What evaluations return can be given the shape they say. -/
theorem funct_reshaped {args : List ℚ} {r : (StatValue × Option (List ℕ)) × ℝ}
    (h : (funct env f args st).2 = .ok r) :
    ∀ shape, r.1.2 = some shape → ∃ l, r.1.1 = .bins l ∧ l.length = shape.prod := by
  have inv : ∀ {α β : Type} (m : FitM α) (k : α → FitM β) (s : FitState) (b : β),
      ((m >>= k) s).2 = .ok b → ∃ s1 a, (k a s1).2 = .ok b := by
    intro α β m k s b hb
    rw [FitM.bind_run] at hb
    rcases hm : m s with ⟨s1, e | a⟩ <;> rw [hm] at hb
    · cases hb
    · exact ⟨s1, a, hb⟩
  cases hfl : f.floating with
  | none => rw [funct_none hfl] at h; cases h
  | some fl =>
    rw [funct_some hfl] at h
    obtain ⟨_, _, h⟩ := inv _ _ _ _ h
    obtain ⟨_, c, h⟩ := inv _ _ _ _ h
    obtain ⟨_, ps, h⟩ := inv _ _ _ _ h
    obtain ⟨_, d, h⟩ := inv _ _ _ _ h
    have h : evaluate f ps d.data.shape c = .ok r := h
    unfold evaluate at h
    cases hc : c.2 with
    | none => rw [hc] at h; cases h
    | some e =>
      rw [hc] at h
      dsimp only at h
      cases ho : f.stat.computeStatistic f.statPerBin (flatten f.singleBin c.1)
          (flatten f.singleBin e) with
      | error er => rw [ho] at h; cases h
      | ok out =>
        rw [ho] at h
        cases ht : totalPenalty f.stat ps with
        | error er => rw [ht] at h; cases h
        | ok p =>
          rw [ht] at h
          simp only [okBind] at h
          unfold reshapeStat at h
          cases hp : f.perBin with
          | false =>
            rw [hp] at h
            cases h
            intro shape hs
            cases hs
          | true =>
            rw [hp] at h
            cases hv : out.value with
            | total v => rw [hv] at h; cases h
            | bins l =>
              rw [hv] at h
              by_cases hl : l.length = d.data.shape.prod
              · simp only [if_true, if_pos hl, okBind] at h
                cases h
                intro shape hs
                cases hs
                exact ⟨l, rfl, hl⟩
              · simp only [if_true, if_neg hl] at h
                cases h

theorem toFitVal_numbers {args : List ℚ} {s : StatValue} {o : Option (List ℕ)} {p : ℝ}
    (h : (funct env f args st).2 = .ok ((s, o), p)) :
    (toFitVal (s, o)).cells.ravel = s.row ∧ (toFitVal (s, o)).cells.sum = s.sum := by
  have key : (toFitVal (s, o)).cells.ravel = s.row := by
    have hr := funct_reshaped h
    cases s with
    | total v => rfl
    | bins l =>
      cases o with
      | none => exact ravel_of_list (by simp)
      | some shape =>
        obtain ⟨l', e, hl⟩ := hr shape rfl
        cases e
        exact ravel_of_list hl
  refine ⟨key, ?_⟩
  rw [← sum_ravel, key]
  cases s <;> simp [StatValue.row, StatValue.sum]

/-- **C93, numbers.** After any sequence of evaluations, a fit by grid search that returns has
found the first of the combinations of values with the smallest sum of statistic and penalty; its
values are the best fits, and statistic (total, or of every bin) and penalty there are returned.
(Partial: the suppositions of C62.) -/
theorem c93_numbers_partial (hr : FitReady env f st) (hist : List (List ℚ))
    (hh : ∀ a ∈ hist, FullArgs f a ∧ NonzeroRates f st a) (hg : g.Ready)
    (h : FitSearch env f st rnd g vss) (hn : ∀ vs ∈ vss, vs.Nodup)
    {g' : GridSearch} {raw pen : NdArray ℝ}
    (hok : (fitGrid env f rnd g (afterEvaluations env f hist st)).2 = .ok (g', raw, pen)) :
    ∃ u s p, BestValues env f st rnd vss u s p ∧ g'.pars.map FitPar.bestFit = u.map some ∧
      raw.ravel = s.row ∧ pen.ravel = [p] := by
  obtain ⟨idx, u, ⟨s, o⟩, p, h1, h2, h3, h4, h5, h6, h7⟩ :=
    c93_returned_partial hr hist hh hg h hn hok
  have hs := toFitVal_numbers h3
  refine ⟨u, s, p, ⟨idx, h1, ⟨o, h3⟩, fun idx' u' hu' => ?_⟩, h2, (ravel_eqv h4).trans hs.1, ?_⟩
  · obtain ⟨⟨s', o'⟩, p', a, b, c⟩ := h7 idx' u' hu'
    have hs' := toFitVal_numbers a
    rw [hs.2, hs'.2] at b c
    exact ⟨s', o', p', a, b, c⟩
  · unfold NdArray.ravel
    rw [h5]
    simp [allIdx, h6]

theorem summaryPens_ok {ps : List FitPar} {ts : List ℝ} {g : GridSearch} (hg : g.pars = ps)
    (h : List.Forall₂ (fun (p : FitPar) t => p.penaltyTerm = some t) ps ts) :
    Fitter.summaryPens g = .ok ts := by
  unfold Fitter.summaryPens
  rw [hg]
  clear hg
  induction h with
  | nil => rfl
  | cons hp _ ih => rw [List.mapM_cons, hp, ih]; rfl

/-- The penalty terms after the search. -/
theorem pens_after (hr : FitReady env f st) (hg : g.Ready) (h : FitSearch env f st rnd g vss)
    {g' : GridSearch} {raw pen : NdArray ℝ} (hn : ∀ vs ∈ vss, vs.Nodup)
    (hok : (fitGrid env f rnd g st).2 = .ok (g', raw, pen)) :
    ∃ ts, Fitter.summaryPens g' = .ok ts ∧ ts.length = g.pars.length ∧
      ∀ (i : ℕ) p x, g.pars[i]? = some p → (g'.pars.map FitPar.bestFit)[i]? = some (some x) →
        ∃ t, ts[i]? = some t ∧ PenaltyIs f.stat p x t := by
  have hok' : (fitGrid env f rnd g (afterEvaluations env f [] st)).2 = .ok (g', raw, pen) := hok
  obtain ⟨F, P, hs⟩ := h.setup ((c93_returns_partial hr [] (by simp) hg h hn).1 ⟨_, hok'⟩)
  obtain ⟨_, -, e⟩ := fitGrid_run hr hs (inv_start hr)
  obtain ⟨g1, raw1, pen1, h1, h2, h3⟩ := c44_penalty_terms hg hs.setup f.stat
  rw [e, h1] at hok
  cases hok
  have key : ∀ i, i < g.pars.length → ∃ q x t, g'.pars[i]? =
      some { q with bestFit := some x, penaltyTerm := some t } ∧ g.pars[i]? = some q ∧
        PenaltyIs f.stat q x t := by
    intro i hi
    obtain ⟨x, t, a, b, c⟩ := h3 i _ (List.getElem?_eq_getElem hi)
    exact ⟨_, x, t, a, List.getElem?_eq_getElem hi, b, c⟩
  refine ⟨g'.pars.map (fun p => p.penaltyTerm.getD 0), summaryPens_ok rfl ?_, by simpa using h2, ?_⟩
  · rw [List.forall₂_map_right_iff, List.forall₂_same]
    intro p hp
    obtain ⟨i, hi, rfl⟩ := List.getElem_of_mem hp
    obtain ⟨q, x, t, a, -⟩ := key i (by omega)
    rw [List.getElem?_eq_getElem hi, Option.some.injEq] at a
    rw [a]
    rfl
  · intro i p x hp hx
    obtain ⟨q, y, t, a, b, c⟩ := key i (List.getElem?_eq_some_iff.1 hp).1
    rw [hp] at b
    cases b
    rw [List.getElem?_map, a] at hx
    simp only [Option.map_some, Option.some.injEq] at hx
    subst hx
    exact ⟨t, by rw [List.getElem?_map, a]; rfl, c⟩

/-- **C100, fits.** The fits that limits are read off from, when they are by grid search: they
return exactly if the fit can be evaluated at every combination of the values. The statistic is then
that at the first combination with the smallest sum of statistic and penalty, and the penalty terms
are those of the parameters there. (Partial: the suppositions of C62.) -/
theorem c100_fit_partial {w : Fitter} (hfl : w.ses.floating.getD [] ≠ [])
    (hmin : w.ses.minimiser ≠ none) (hp : w.Passes) (hr : FitReady env w.ses.toFit w.st)
    (hg : w.search.Ready) (h : FitSearch env w.ses.toFit w.st rnd w.search vss)
    (hn : ∀ vs ∈ vss, vs.Nodup) :
    ((∃ o, (w.fit env rnd).2 = .ok o) ↔
      ∀ u, Combination vss u → ∃ x, (funct env w.ses.toFit (u.map rnd) w.st).2 = .ok x) ∧
    ∀ o, (w.fit env rnd).2 = .ok o →
      ∃ u s p, BestValues env w.ses.toFit w.st rnd vss u s p ∧ o.stat = s.row ∧
        PenaltiesAre w.ses.stat w.search.pars u o.pens := by
  have hrun : w.ses.fit (fun f => fitGrid env f rnd w.search) w.st =
      (({ w.ses with checked := true }, (fitGrid env w.ses.toFit rnd w.search w.st).1),
        (fitGrid env w.ses.toFit rnd w.search w.st).2.map .inr) := by
    rw [fit_passes _ hp]
    have e : Session.runFit (fun f => fitGrid env f rnd w.search) w.ses w.st =
        ((fitGrid env w.ses.toFit rnd w.search w.st).1,
          (fitGrid env w.ses.toFit rnd w.search w.st).2.map .inr) := by
      unfold Session.runFit
      rw [if_neg hfl, if_neg hmin]
      dsimp only
      rcases fitGrid env w.ses.toFit rnd w.search w.st with ⟨s, e | x⟩ <;> rfl
    rw [e]
  have hiff := c93_returns_partial hr [] (by simp) hg h hn
  change (∃ res, (fitGrid env w.ses.toFit rnd w.search w.st).2 = .ok res) ↔ _ at hiff
  rcases hgr : fitGrid env w.ses.toFit rnd w.search w.st with ⟨s, e | ⟨g', raw, pen⟩⟩
  · have hf : (w.fit env rnd).2 = .error e := by
      unfold Fitter.fit Fitter.call
      rw [hrun, hgr]
      rfl
    rw [hgr] at hiff
    rw [hf]
    refine ⟨⟨fun ho => (by obtain ⟨o, ho⟩ := ho; cases ho), fun hc => ?_⟩, fun o ho => (by cases ho)⟩
    obtain ⟨_, hx⟩ := hiff.2 hc
    cases hx
  · have hok : (fitGrid env w.ses.toFit rnd w.search w.st).2 = .ok (g', raw, pen) := by rw [hgr]
    obtain ⟨ts, hts, hl, hpen⟩ := pens_after hr hg h hn hok
    obtain ⟨u, s', p, hb, hbest, hraw, -⟩ := c93_numbers_partial hr [] (by simp) hg h hn hok
    have hf : (w.fit env rnd).2 = .ok ⟨raw.ravel, ts⟩ := by
      unfold Fitter.fit Fitter.call
      rw [hrun, hgr]
      simp only [Except.map, hts, okBind]
    rw [hgr] at hiff
    rw [hf]
    refine ⟨⟨fun _ => hiff.1 ⟨_, rfl⟩, fun _ => ⟨_, rfl⟩⟩, fun o ho => ?_⟩
    cases ho
    refine ⟨u, s', p, hb, hraw, hl, fun i q x t hq hx ht => ?_⟩
    obtain ⟨t', ht', hpi⟩ := hpen i q x hq (by rw [hbest, List.getElem?_map, hx]; rfl)
    rw [ht] at ht'
    cases ht'
    exact hpi

/-! ### examples -/

/-- The fit with two floating backgrounds returns, and the best of two values is found. -/
example : (∃ o, (Ex.gridFitter.fit Ex.fitEnv Ex.toInt).2 = .ok o) ∧
    ∀ o, (Ex.gridFitter.fit Ex.fitEnv Ex.toInt).2 = .ok o →
      ∃ u s p, BestValues Ex.fitEnv Ex.gridFitter.ses.toFit Ex.gridFitter.st Ex.toInt
          [[5, 3], [7]] u s p ∧ o.stat = s.row ∧
        PenaltiesAre Ex.gridFitter.ses.stat Ex.gridFitter.search.pars u o.pens := by
  have hv : ∀ x : ℚ, x = 5 ∨ x = 3 → (evaluatedContents Ex.fitEnv Ex.fit [x, 7]
      Ex.fitState).toOption.map (fun c => (c.1.shape, c.2.map NdArray.shape)) =
        some ([4], some [4]) := by
    have : ∀ x ∈ ([5, 3] : List ℚ), (evaluatedContents Ex.fitEnv Ex.fit [x, 7]
      Ex.fitState).toOption.map (fun c => (c.1.shape, c.2.map NdArray.shape)) =
        some ([4], some [4]) := by decide +kernel
    intro x hx
    exact this x (by rcases hx with rfl | rfl <;> simp)
  obtain ⟨F, P, h⟩ := ex_rate_setup (f := Ex.fit) (.inl rfl) rfl hv
  have hs : FitSearch Ex.fitEnv Ex.fit Ex.fitState Ex.toInt Ex.rateSearch [[5, 3], [7]] :=
    { values := h.values, counts := h.counts, number := h.number, rates := h.rates
      sigmas := h.sigmas, nonempty := h.nonempty, floating := h.floating
      form := fun w r _ hr => form_total rfl rfl rfl hr }
  obtain ⟨h1, h2⟩ := c100_fit_partial (w := Ex.gridFitter) (vss := [[5, 3], [7]]) (by decide)
    (by decide) ex_limit_signal.2.passes.2 ex_limit_ready ⟨rfl, rfl⟩ hs
    ex_grid_limit.nodup
  exact ⟨h1.2 fun u hu => ⟨_, (h.returns u hu).choose_spec.1⟩, h2⟩

end Verif
