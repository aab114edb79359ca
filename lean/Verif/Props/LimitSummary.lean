import Verif.Lemmas.LimitSummary

/-!
# The summary of a limit

C155, `/repo/echidna/limit/limit.py:199-222` and `265-300`.
-/

namespace Verif

variable {fit : Option ℝ → Except PyErr FitOut} {found : Option ℝ → List ℝ} {scales : List ℝ}
  {pars : List SummaryPar} {st : ℝ → ℝ} {best pens : ℝ → List ℝ} {m : ℝ}
  {minStat : Option (List ℝ)}

/-- **C155, a limit is found.** `get_limit` returns the limit and shows it in the summary, together
with name, prior and sigma of every parameter. But best fits, penalty terms and test statistic are
those of another scaling `y`: as many places after the first scaling as the limit is after the best
scaling `b`. -/
theorem c155_found {x b : ℝ} (limit : ℝ) (h : SummaryFits fit found scales pars st best pens)
    (hm : RelativeTo fit minStat m) (hs : scales.Pairwise (· < ·)) (hb : BestScale scales st b)
    (hx : getLimit scales (pars.map SummaryPar.sigma) fit minStat limit = .ok x) :
    ∃ (s : LimitSummary) (y : ℝ) (p n : ℕ),
      getLimitLog scales pars fit minStat limit found = ⟨some s, none, .ok x⟩ ∧
      s.found = true ∧ s.decays = x ∧
      scales[p]? = some b ∧ scales[p + n]? = some x ∧ scales[n]? = some y ∧
      s.About pars best pens (fun x => st x - m + (pens x).sum) y := by
  have hn : scales ≠ [] := List.ne_nil_of_mem hb.1
  obtain ⟨j, b', hb', hbest, ⟨i, x', y, s, h1, h2, -, h4, h5, h6, h7, h8⟩ |
    ⟨i, x', y, s, M, h1, h2, -, -, -, h4, h5, h6, h7, h8⟩⟩ := getLimitLog_scalar limit h hm hn hs
  · rw [hx] at h7
    cases h7
    obtain rfl := hb.unique hbest
    exact ⟨s, y, j, i, h8, h4, h5, hb', h1, h2, h6⟩
  · rw [hx] at h7
    cases h7

/-- **C155, no limit is found.** `get_limit` raises a `LimitError`. The summary shows the smallest
scaling from the best one `b` on with the largest test statistic, but best fits, penalty terms and
test statistic of another scaling `y`, as before. The message has the largest test statistic of all
scalings, also those before `b`, and the number of decays in the summary. -/
theorem c155_none {b : ℝ} (limit : ℝ) (h : SummaryFits fit found scales pars st best pens)
    (hm : RelativeTo fit minStat m) (hs : scales.Pairwise (· < ·)) (hb : BestScale scales st b)
    (hx : getLimit scales (pars.map SummaryPar.sigma) fit minStat limit = .error .limitError) :
    ∃ (s : LimitSummary) (M z y : ℝ) (p n : ℕ),
      getLimitLog scales pars fit minStat limit found = ⟨some s, some (M, z), .error .limitError⟩ ∧
      s.found = false ∧ s.decays = z ∧
      LargestFrom scales (fun x => st x - m + (pens x).sum) b z ∧
      LargestValue scales (fun x => st x - m + (pens x).sum) M ∧
      scales[p]? = some b ∧ scales[p + n]? = some z ∧ scales[n]? = some y ∧
      s.About pars best pens (fun x => st x - m + (pens x).sum) y := by
  have hn : scales ≠ [] := List.ne_nil_of_mem hb.1
  obtain ⟨j, b', hb', hbest, ⟨i, x', y, s, h1, h2, -, h4, h5, h6, h7, h8⟩ |
    ⟨i, x', y, s, M, h1, h2, -, hz, hM, h4, h5, h6, h7, h8⟩⟩ := getLimitLog_scalar limit h hm hn hs
  · rw [hx] at h7
    cases h7
  · obtain rfl := hb.unique hbest
    exact ⟨s, M, x', y, j, i, h8, h4, h5, hz, hM, hb', h1, h2, h6⟩

/-- **C155, the part that holds.** When the lowest statistic is that of the first scaling, the
summary is about the scaling it shows: the limit, or without one the smallest scaling with the
largest test statistic; and then the message has the largest test statistic. -/
theorem c155_first_partial {b : ℝ} (limit : ℝ) (h : SummaryFits fit found scales pars st best pens)
    (hm : RelativeTo fit minStat m) (hs : scales.Pairwise (· < ·)) (hb : BestScale scales st b)
    (hfirst : scales.head? = some b) :
    (∀ x, getLimit scales (pars.map SummaryPar.sigma) fit minStat limit = .ok x →
      ∃ s, getLimitLog scales pars fit minStat limit found = ⟨some s, none, .ok x⟩ ∧
        s.found = true ∧ s.decays = x ∧
        s.About pars best pens (fun x => st x - m + (pens x).sum) x) ∧
    (getLimit scales (pars.map SummaryPar.sigma) fit minStat limit = .error .limitError →
      ∃ s z, getLimitLog scales pars fit minStat limit found =
          ⟨some s, some (st z - m + (pens z).sum, z), .error .limitError⟩ ∧
        s.found = false ∧ s.decays = z ∧ LargestFrom scales (fun x => st x - m + (pens x).sum) b z ∧
        s.About pars best pens (fun x => st x - m + (pens x).sum) z) := by
  have h0 : scales[0]? = some b := by rw [← List.head?_eq_getElem?]; exact hfirst
  refine ⟨fun x hx => ?_, fun hx => ?_⟩
  · obtain ⟨s, y, p, n, h1, h2, h3, h4, h5, h6, h7⟩ := c155_found limit h hm hs hb hx
    obtain rfl := index_unique hs h0 h4
    rw [zero_add, h6] at h5
    cases h5
    exact ⟨s, h1, h2, h3, h7⟩
  · obtain ⟨s, M, z, y, p, n, h1, h2, h3, hz, hM, h4, h5, h6, h7⟩ := c155_none limit h hm hs hb hx
    obtain rfl := index_unique hs h0 h4
    rw [zero_add, h6] at h5
    cases h5
    refine ⟨s, z, ?_, h2, h3, hz, h7⟩
    obtain ⟨w, hw, rfl⟩ := hM.1
    have hle : ∀ w ∈ scales, b ≤ w := by
      intro w hw
      obtain ⟨k, hk⟩ := List.mem_iff_getElem?.1 hw
      exact (index_le hs h0 hk).1.2 (Nat.zero_le _)
    have e : st w - m + (pens w).sum = st z - m + (pens z).sum :=
      le_antisymm (hz.2.2 w hw (hle w hw)).1 (hM.2 z hz.1)
    dsimp only at h1
    rw [h1, e]

/-- **C155, negation: the results in the summary.** Whenever the lowest statistic is not that of the
first scaling, the summary of a limit shows the results of a smaller scaling `y` than the one it
names. If `y` is at or above the best scaling, then the test statistic shown is not even above the
threshold, so it is not the one at the limit. -/
theorem c155_results_negation {x b : ℝ} (limit : ℝ)
    (h : SummaryFits fit found scales pars st best pens) (hm : RelativeTo fit minStat m)
    (hs : scales.Pairwise (· < ·)) (hb : BestScale scales st b) (hfirst : scales.head? ≠ some b)
    (hx : getLimit scales (pars.map SummaryPar.sigma) fit minStat limit = .ok x) :
    ∃ s y, getLimitLog scales pars fit minStat limit found = ⟨some s, none, .ok x⟩ ∧
      s.decays = x ∧ s.About pars best pens (fun x => st x - m + (pens x).sum) y ∧
      y ∈ scales ∧ y < x ∧
      (b ≤ y → s.statistic ≤ limit ∧
        ¬ s.About pars best pens (fun x => st x - m + (pens x).sum) x) := by
  obtain ⟨s, y, p, n, h1, h2, h3, h4, h5, h6, h7⟩ := c155_found limit h hm hs hb hx
  have hp : p ≠ 0 := by
    rintro rfl
    exact hfirst (by rw [List.head?_eq_getElem?]; exact h4)
  have hyx : y < x := (index_le hs h6 h5).2.2 (by omega)
  refine ⟨s, y, h1, h3, h7, List.mem_of_getElem? h6, hyx, fun hby => ?_⟩
  have hn : scales ≠ [] := List.ne_nil_of_mem hb.1
  obtain ⟨j, b', hb', hbest, ⟨i, x', y', s', -, -, hc, -, -, -, h8, -⟩ |
    ⟨i, x', y', s', M, -, -, -, -, -, -, -, -, h8, -⟩⟩ := getLimitLog_scalar limit h hm hn hs
  · rw [hx] at h8
    cases h8
    obtain rfl := hb.unique hbest
    have hle := hc.2.2.2 y (List.mem_of_getElem? h6) hby hyx
    have e := h7.2.2
    dsimp only at e hle
    refine ⟨by rw [e]; exact hle, fun ha => ?_⟩
    have e' := ha.2.2
    have := hc.2.2.1
    dsimp only at e' this
    linarith
  · rw [hx] at h8
    cases h8

/-- **C155, negation: the message.** The message of the `LimitError` says "Limit" and a number, but
this is not the threshold: for all thresholds without a limit the message is the same. -/
theorem c155_message_negation {limit limit' b : ℝ}
    (h : SummaryFits fit found scales pars st best pens) (hm : RelativeTo fit minStat m)
    (hs : scales.Pairwise (· < ·)) (hb : BestScale scales st b)
    (hx : getLimit scales (pars.map SummaryPar.sigma) fit minStat limit = .error .limitError)
    (hx' : getLimit scales (pars.map SummaryPar.sigma) fit minStat limit' = .error .limitError) :
    (getLimitLog scales pars fit minStat limit found).message ≠ none ∧
    (getLimitLog scales pars fit minStat limit found).message =
      (getLimitLog scales pars fit minStat limit' found).message := by
  obtain ⟨s, M, z, y, p, n, h1, -, -, hz, hM, -⟩ := c155_none limit h hm hs hb hx
  obtain ⟨s', M', z', y', p', n', h1', -, -, hz', hM', -⟩ := c155_none limit' h hm hs hb hx'
  have eM : M = M' := by
    obtain ⟨w, hw, rfl⟩ := hM.1
    obtain ⟨w', hw', rfl⟩ := hM'.1
    exact le_antisymm (hM'.2 w hw) (hM.2 w' hw')
  have ez : z = z' := by
    have e := le_antisymm (hz'.2.2 z hz.1 hz.2.1).1 (hz.2.2 z' hz'.1 hz'.2.1).1
    exact le_antisymm ((hz.2.2 z' hz'.1 hz'.2.1).2 e.symm) ((hz'.2.2 z hz.1 hz.2.1).2 e)
  rw [h1, h1', eM, ez]
  exact ⟨by simp, rfl⟩

/-- **C155, negation: parameters without sigma.** When a parameter has no sigma, `get_limit` writes no
summary and raises a `TypeError`, whatever the statistics: also when there is a limit. -/
theorem c155_sigma_negation (limit : ℝ) (h : SummaryResults fit found scales pars st best pens)
    (hm : RelativeTo fit minStat m) (hn : scales ≠ []) (hsig : ∃ p ∈ pars, p.sigma = none) :
    getLimitLog scales pars fit minStat limit found = ⟨none, none, .error .typeError⟩ :=
  getLimitLog_error limit h hm hn hsig

/-! ### the hypotheses can be met -/

/-- One parameter, with the best fit 10 larger than the scaling. -/
noncomputable def exFound : Option ℝ → List ℝ
  | none => [10]
  | some x => [10 + x]

theorem ex_summaryFits : SummaryFits exFit exFound [0, 1, 2, 4] [⟨lit "rate", 10, some 3⟩]
    (fun x => (x - 1) ^ 2 + 2) (fun x => [10 + x]) (fun _ => [1 / 2]) := by
  have c1 : ¬ npCloseReal 1 0 := by unfold npCloseReal; norm_num
  have c2 : ¬ npCloseReal 2 0 := by unfold npCloseReal; norm_num
  have c4 : ¬ npCloseReal 4 0 := by unfold npCloseReal; norm_num
  have c0 : npCloseReal 0 0 := by unfold npCloseReal; norm_num
  refine ⟨⟨?_, ?_, fun _ _ => rfl, fun _ _ => rfl, by simp⟩, by simp⟩
  · intro x hx
    simp only [List.mem_cons, List.not_mem_nil, or_false] at hx
    rcases hx with rfl | rfl | rfl | rfl
    · exact ⟨fun _ => by norm_num [exFit], fun h => absurd c0 h⟩
    · exact ⟨fun h => absurd h c1, fun _ => rfl⟩
    · exact ⟨fun h => absurd h c2, fun _ => rfl⟩
    · exact ⟨fun h => absurd h c4, fun _ => rfl⟩
  · intro x hx
    simp only [List.mem_cons, List.not_mem_nil, or_false] at hx
    rcases hx with rfl | rfl | rfl | rfl
    · exact ⟨fun _ => by norm_num [exFound], fun h => absurd c0 h⟩
    · exact ⟨fun h => absurd h c1, fun _ => rfl⟩
    · exact ⟨fun h => absurd h c2, fun _ => rfl⟩
    · exact ⟨fun h => absurd h c4, fun _ => rfl⟩

/-- C155 is not vacuous, nor is its negation: the lowest statistic is at the scaling 1, with the
threshold 2 the limit is 4, and the summary shows statistic 1/2 and best fit 12, both of the scaling
2. -/
example : BestScale [0, 1, 2, 4] (fun x : ℝ => (x - 1) ^ 2 + 2) 1 ∧
    ([0, 1, 2, 4] : List ℝ).head? ≠ some 1 ∧
    getLimit [0, 1, 2, 4] [some 3] exFit none 2 = .ok 4 ∧
    ∃ s, getLimitLog [0, 1, 2, 4] [⟨lit "rate", 10, some 3⟩] exFit none 2 exFound =
      ⟨some s, none, .ok 4⟩ ∧ s.decays = 4 ∧ s.statistic = 1 / 2 ∧
      s.lines.map SummaryLine.bestFit = [12] := by
  have hb : BestScale [0, 1, 2, 4] (fun x : ℝ => (x - 1) ^ 2 + 2) 1 := by
    unfold BestScale
    norm_num
  have hm : RelativeTo exFit none 3 := .inr ⟨.inl rfl, _, rfl⟩
  have hs : ([0, 1, 2, 4] : List ℝ).Pairwise (· < ·) := by norm_num
  have hl : getLimit [0, 1, 2, 4] [some 3] exFit none 2 = .ok 4 := by
    obtain ⟨b, h1, h2, -⟩ := c49_limit_partial (sigmas := [some 3]) 2 ex_summaryFits.fits hm
      (by simp) hs (by simp)
    obtain rfl := hb.unique h1
    rw [h2]
    unfold FirstCrossing
    norm_num
  refine ⟨hb, by norm_num, hl, ?_⟩
  obtain ⟨s, y, p, n, h1, -, h3, h4, h5, h6, h7⟩ := c155_found 2 ex_summaryFits hm hs hb hl
  obtain rfl := index_unique hs h4 (j := 1) rfl
  have hn : n = 2 := by
    have := index_unique hs h5 (j := 3) rfl
    omega
  subst hn
  obtain rfl : y = 2 := by simpa using h6.symm
  refine ⟨s, h1, h3, ?_, ?_⟩
  · rw [h7.2.2]
    norm_num
  · obtain ⟨l, hl, -, -, -, hbf, -⟩ := h7.2.1 0 _ rfl
    have hlen := h7.1
    match hls : s.lines with
    | [a] =>
      rw [hls] at hl
      simp only [List.getElem?_cons_zero, Option.some.injEq] at hl hbf
      subst hl
      simp only [List.map_cons, List.map_nil, ← hbf]
      norm_num
    | [] => rw [hls] at hlen; simp at hlen
    | _ :: _ :: _ => rw [hls] at hlen; simp at hlen

/-- The part of C155 that holds is not vacuous: without the first scaling, the best one is the
first; with the threshold 20 there is no limit. -/
example : BestScale [1, 2, 4] (fun x : ℝ => (x - 1) ^ 2 + 2) 1 ∧
    ([1, 2, 4] : List ℝ).head? = some 1 ∧
    SummaryFits exFit exFound [1, 2, 4] [⟨lit "rate", 10, some 3⟩]
      (fun x => (x - 1) ^ 2 + 2) (fun x => [10 + x]) (fun _ => [1 / 2]) ∧
    getLimit [1, 2, 4] [some 3] exFit none 20 = .error .limitError := by
  have hsub : ∀ x ∈ ([1, 2, 4] : List ℝ), x ∈ ([0, 1, 2, 4] : List ℝ) := by simp
  have hf : SummaryFits exFit exFound [1, 2, 4] [⟨lit "rate", 10, some 3⟩]
      (fun x => (x - 1) ^ 2 + 2) (fun x => [10 + x]) (fun _ => [1 / 2]) :=
    ⟨⟨fun x hx => ex_summaryFits.fits x (hsub x hx), fun x hx => ex_summaryFits.found x (hsub x hx),
      fun _ _ => rfl, fun _ _ => rfl, ex_summaryFits.names⟩, ex_summaryFits.sigmas⟩
  have hb : BestScale [1, 2, 4] (fun x : ℝ => (x - 1) ^ 2 + 2) 1 := by
    unfold BestScale
    norm_num
  refine ⟨hb, rfl, hf, ?_⟩
  obtain ⟨b, h1, -, h3⟩ := c49_limit_partial (sigmas := [some 3]) (minStat := none) (m := 3) 20
    hf.fits (.inr ⟨.inl rfl, _, rfl⟩) (by simp) (by norm_num) (by simp)
  obtain rfl := hb.unique h1
  rw [h3]
  norm_num

/-- The negation about sigmas is not vacuous: the same fits, of a parameter without sigma and with a
threshold that is exceeded (the limit is 4 when the parameter has a sigma). -/
example : SummaryResults exFit exFound [0, 1, 2, 4] [⟨lit "rate", 10, none⟩]
      (fun x => (x - 1) ^ 2 + 2) (fun x => [10 + x]) (fun _ => [1 / 2]) ∧
    getLimitLog [0, 1, 2, 4] [⟨lit "rate", 10, none⟩] exFit none 2 exFound =
      ⟨none, none, .error .typeError⟩ := by
  have h : SummaryResults exFit exFound [0, 1, 2, 4] [⟨lit "rate", 10, none⟩]
      (fun x => (x - 1) ^ 2 + 2) (fun x => [10 + x]) (fun _ => [1 / 2]) :=
    ⟨ex_summaryFits.fits, ex_summaryFits.found, fun _ _ => rfl, fun _ _ => rfl, by simp⟩
  exact ⟨h, c155_sigma_negation (m := 3) 2 h (.inr ⟨.inl rfl, _, rfl⟩) (by simp) (by simp)⟩

end Verif
