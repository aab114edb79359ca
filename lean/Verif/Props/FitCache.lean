import Verif.Lemmas.FitEval
import Verif.Spec.FitExamples

/-!
# C62: evaluations of a fit do not depend on earlier ones

The expected spectrum is compared with that of the first evaluation, when nothing is cached.
-/

namespace Verif

theorem no_zeroRate {env : FitEnv} {f : Fit} {st : FitState} (hr : FitReady env f st) {a : List ℚ}
    (h1 : FullArgs f a) (h2 : NonzeroRates f st a) (P : ℕ → Param) (q : ℕ) :
    ¬ (q ∈ f.floatingRefs ∧ ZeroRate st (withValues f.pars a P) q) := by
  rintro ⟨hq, p, hp, hz⟩
  obtain ⟨hpp, hk⟩ := hr.rates q hq p hp
  -- the value of `p` is one of the arguments
  have key : ∀ (ps : List ℕ) (as : List ℚ) (P : ℕ → Param), ps.Nodup →
      as.length = ps.length → p ∈ ps → (withValues ps as P p).value = some 0 →
      (p, 0) ∈ ps.zip as := by
    intro ps
    induction ps with
    | nil => intro _ _ _ _ hx; cases hx
    | cons x ps ih =>
      intro as P hn hl hx hv
      cases as with
      | nil => simp at hl
      | cons v as =>
        rw [List.nodup_cons] at hn
        simp only [withValues] at hv
        rcases List.mem_cons.1 hx with rfl | hx
        · rw [withValues_not_mem hn.1, Function.update_self] at hv
          simp only [Option.some.injEq] at hv
          simp [hv]
        · exact List.mem_cons_of_mem _ (ih as _ hn.2 (by simpa using hl) hx hv)
  exact h2 _ (key f.pars a P hr.pars h1 hpp hz) hk rfl

theorem funct_keeps {env : FitEnv} {f : Fit} {st s : FitState} (hr : FitReady env f st)
    (hs : Inv env f st (fun _ => False) s) {a : List ℚ} (h1 : FullArgs f a)
    (h2 : NonzeroRates f st a) :
    ∃ s', Inv env f st (fun _ => False) s' ∧ (funct env f a s).1 = s' := by
  cases hf : f.floating with
  | none => rw [funct_none hf]; exact ⟨s, hs, rfl⟩
  | some fl =>
    obtain ⟨s', i, -, e⟩ := funct_run hr hs hf h1
    rw [e]
    exact ⟨s', i.mono fun q hq => no_zeroRate hr h1 h2 _ q hq, rfl⟩

theorem inv_after {env : FitEnv} {f : Fit} {st : FitState} (hr : FitReady env f st)
    {hist : List (List ℚ)} (hh : ∀ a ∈ hist, FullArgs f a ∧ NonzeroRates f st a) :
    Inv env f st (fun _ => False) (afterEvaluations env f hist st) := by
  have key : ∀ (hist : List (List ℚ)), (∀ a ∈ hist, FullArgs f a ∧ NonzeroRates f st a) →
      ∀ s, Inv env f st (fun _ => False) s →
      Inv env f st (fun _ => False) (afterEvaluations env f hist s) := by
    intro hist
    induction hist with
    | nil => intro _ s hs; exact hs
    | cons a hist ih =>
      intro hh s hs
      refine ih (fun b hb => hh b (by simp [hb])) _ ?_
      obtain ⟨h1, h2⟩ := hh a (by simp)
      obtain ⟨s', i, e⟩ := funct_keeps hr hs h1 h2
      rw [e]
      exact i
  exact key hist hh st (inv_start hr)

/-- **C62.** After any sequence of evaluations with nonzero rates, an evaluation has the same
result as on the fresh fit. (Partial: floating backgrounds and signal have the axes of the data
and background names of their own, texts of values are different, only rates belong to one
background; see the negations.) -/
theorem c62_result_partial (env : FitEnv) (f : Fit) (st : FitState) (hr : FitReady env f st)
    (hist : List (List ℚ)) (hh : ∀ a ∈ hist, FullArgs f a ∧ NonzeroRates f st a)
    (args : List ℚ) (hl : FullArgs f args) :
    (funct env f args (afterEvaluations env f hist st)).2 = (funct env f args st).2 := by
  cases hf : f.floating with
  | none => rw [funct_none hf]; rfl
  | some fl =>
    obtain ⟨_, -, -, e1⟩ := funct_run hr (inv_after hr hh) hf hl
    obtain ⟨_, -, -, e2⟩ := funct_run hr (inv_start hr) hf hl
    rw [e1, e2]

/-- **C62, expected spectrum.** Likewise the observed and expected contents. -/
theorem c62_contents_partial (env : FitEnv) (f : Fit) (st : FitState) (hr : FitReady env f st)
    (hf : f.floating ≠ none)
    (hist : List (List ℚ)) (hh : ∀ a ∈ hist, FullArgs f a ∧ NonzeroRates f st a)
    (args : List ℚ) (hl : FullArgs f args) :
    evaluatedContents env f args (afterEvaluations env f hist st) =
      evaluatedContents env f args st := by
  obtain ⟨fl, hf⟩ := Option.ne_none_iff_exists'.1 hf
  rw [evaluatedContents_value hr (inv_after hr hh) hf hl,
    evaluatedContents_value hr (inv_start hr) hf hl]

/-! ### cases that meet the hypotheses -/

theorem ex_onDataAxes (a : NdArray ℚ) (n m : PyStr) (x y : ℚ) (i j : ℤ)
    (ha : a.shape = [4]) (b : NdArray ℚ) (hb : b.shape = [4]) :
    OnDataAxes ⟨n, [Ex.fitAxis], a, x, i, []⟩ ⟨m, [Ex.fitAxis], b, y, j, []⟩ where
  wf := ⟨by simp [SPar.WF, Ex.fitAxis], by simp, by simp [hb, Ex.fitAxis]⟩
  aligned := by
    intro p hp
    rw [List.mem_singleton.1 hp]
    exact ⟨0, by simp [Ex.fitAxis]⟩
  dims := by
    intro p hp q hq _ _ _
    rw [List.mem_singleton.1 hp, List.mem_singleton.1 hq]
  same := .cons ⟨⟨lit "energy", ⟨lit "mc", by decide, rfl⟩, ⟨lit "mc", by decide, rfl⟩⟩, rfl, rfl, rfl⟩
    .nil
  shape := by simp only [ha, hb]

theorem ex_str_injective : Function.Injective Ex.fitEnv.str := by
  intro v w h
  simp only [Ex.fitEnv, List.append_assoc, List.cons_append, List.nil_append] at h
  have h1 : ∀ (m n : ℕ) (x y : List Char), List.replicate m '1' ++ '/' :: x =
      List.replicate n '1' ++ '/' :: y → m = n ∧ x = y := by
    intro m
    induction m with
    | zero =>
      intro n x y h
      cases n with
      | zero => exact ⟨rfl, by simpa using h⟩
      | succ n => simp [List.replicate_succ] at h
    | succ m ih =>
      intro n x y h
      cases n with
      | zero => simp [List.replicate_succ] at h
      | succ n =>
        obtain ⟨a, b⟩ := ih n x y (by simpa [List.replicate_succ] using h)
        exact ⟨by rw [a], b⟩
  obtain ⟨h2, h3⟩ := h1 _ _ _ _ h
  have h4 : v.den = w.den := by
    have := congrArg (List.count '1') h3
    rw [List.count_append, List.count_append,
      List.count_replicate_self, List.count_replicate_self] at this
    split at this <;> split at this <;> simpa using this
  have h5 : v < 0 ↔ w < 0 := by
    have := congrArg (List.count '-') h3
    rw [List.count_append, List.count_append,
      List.count_replicate, List.count_replicate] at this
    by_cases a : v < 0 <;> by_cases b : w < 0 <;> simp [a, b] at this ⊢
  have h6 : v.num = w.num := by
    rw [← Rat.num_neg, ← Rat.num_neg] at h5
    omega
  exact Rat.ext h6 h4

theorem ex_ready : FitReady Ex.fitEnv Ex.fitGlobal Ex.fitState where
  str := ⟨ex_str_injective, by
    intro v
    simp only [Ex.fitEnv, List.mem_append, List.mem_replicate]
    split <;> simp⟩
  cache := rfl
  alloc := by
    refine ⟨by decide, ?_, ?_⟩
    · intro b hb
      obtain rfl : b = (1, [lit "energy_mc"]) := by
        simpa [Ex.fitGlobal, Ex.fit, eq_comm] using hb
      decide
    · intro r hr
      have : r = 2 ∨ r = 3 ∨ r = 4 := by
        simpa [Fit.moving, Fit.floatingRefs, Ex.fitGlobal, Ex.fit] using hr
      rcases this with rfl | rfl | rfl <;> decide
  apart := by
    refine ⟨by decide, ?_⟩
    intro b hb
    obtain rfl : b = (1, [lit "energy_mc"]) := by
      simpa [Ex.fitGlobal, Ex.fit, eq_comm] using hb
    decide
  backgrounds := by decide
  axes := by
    intro r hr
    have : r = 2 ∨ r = 3 ∨ r = 4 := by
      simpa [Fit.moving, Fit.floatingRefs, Ex.fitGlobal, Ex.fit] using hr
    rcases this with rfl | rfl | rfl <;> exact ex_onDataAxes _ _ _ _ _ _ _ rfl _ rfl
  decays := by
    intro r hr
    have : r = 2 ∨ r = 3 ∨ r = 4 := by
      simpa [Fit.moving, Fit.floatingRefs, Ex.fitGlobal, Ex.fit] using hr
    rcases this with rfl | rfl | rfl <;> simp [FitState.view, Ex.fitState, Ex.fitObj]
  pars := by decide
  globals := by
    intro p hp
    obtain rfl : p = 2 := by simpa [Ex.fitGlobal] using hp
    exact ⟨by decide, by simp [Ex.fitState, Ex.fitParam]⟩
  rates := by
    intro r hr p hp
    have : r = 2 ∨ r = 3 := by
      simpa [Fit.floatingRefs, Ex.fitGlobal, Ex.fit] using hr
    rcases this with rfl | rfl
    · obtain rfl : p = 0 := by simpa [Ex.fitState, Ex.fitObj] using hp
      exact ⟨by decide, rfl⟩
    · obtain rfl : p = 1 := by simpa [Ex.fitState, Ex.fitObj] using hp
      exact ⟨by decide, rfl⟩

theorem ex_nonzero (a b c : ℚ) (hb : b ≠ 0) (hc : c ≠ 0) :
    FullArgs Ex.fitGlobal [a, b, c] ∧ NonzeroRates Ex.fitGlobal Ex.fitState [a, b, c] := by
  refine ⟨rfl, ?_⟩
  intro e he hk
  have : e = (2, a) ∨ e = (0, b) ∨ e = (1, c) := by simpa [Ex.fitGlobal] using he
  rcases this with rfl | rfl | rfl
  · simp [Ex.fitState, Ex.fitParam] at hk
  · exact hb
  · exact hc

example := c62_result_partial _ _ _ ex_ready [[20, 5, 7], [8, 1, 2], [20, 3, 3]]
  (by
    intro a ha
    have : a = [20, 5, 7] ∨ a = [8, 1, 2] ∨ a = [20, 3, 3] := by simpa using ha
    rcases this with rfl | rfl | rfl <;> exact ex_nonzero _ _ _ (by norm_num) (by norm_num))
  [20, 0, 1] rfl

/-- The evaluation in this case succeeds, and the third evaluation finds its spectra in the
cache. -/
example : expectedList (evaluatedContents Ex.fitEnv Ex.fitGlobal [20, 5, 7] Ex.fitState) =
    .ok (some [241 / 60, 179 / 30, 421 / 60, 1]) ∧
    (afterEvaluations Ex.fitEnv Ex.fitGlobal [[20, 5, 7], [8, 1, 2], [20, 3, 3]]
      Ex.fitState).cache.length = 6 := by
  decide +kernel

/-! ### where it fails -/

/-- **C62, zero rates.** Once a background has been scaled to zero, evaluations at values tried
before raise. -/
theorem c62_zero_negation :
    expectedList (evaluatedContents Ex.fitEnv Ex.fitGlobal [20, 5, 7] Ex.fitState) =
      .ok (some [241 / 60, 179 / 30, 421 / 60, 1]) ∧
    expectedList (evaluatedContents Ex.fitEnv Ex.fitGlobal [20, 5, 7]
      (afterEvaluations Ex.fitEnv Ex.fitGlobal [[20, 0, 7]] Ex.fitState)) =
      .error .zeroDivision := by
  decide +kernel

/-- **C62, background names.** Two backgrounds with the same background name are given the same
spectrum: renaming changes the expectation. -/
theorem c62_names_negation :
    expectedList (evaluatedContents Ex.fitEnv Ex.fitGlobal [20, 5, 7] Ex.fitState) =
      .ok (some [241 / 60, 179 / 30, 421 / 60, 1]) ∧
    expectedList (evaluatedContents Ex.fitEnv Ex.fitGlobal [20, 5, 7] Ex.sameName) =
      .ok (some [5 / 2, 9 / 2, 8, 1]) := by
  decide +kernel

/-- **C62, texts.** A value with the text of an earlier value is given the spectra of the earlier
value. -/
theorem c62_texts_negation :
    expectedList (evaluatedContents Ex.roundedEnv Ex.fitGlobal [20, 5, 7] Ex.fitState) =
      .ok (some [241 / 60, 179 / 30, 421 / 60, 1]) ∧
    expectedList (evaluatedContents Ex.roundedEnv Ex.fitGlobal [20, 5, 7]
      (afterEvaluations Ex.roundedEnv Ex.fitGlobal [[5, 5, 7]] Ex.fitState)) =
      .ok (some [43 / 10, 51 / 10, 49 / 10, 1]) := by
  decide +kernel

/-- **C62, bins.** Rebinning to the bins of the data changes the axes of the supplied spectra
(copies share the configuration): the next evaluation smears only some of their bins. -/
theorem c62_bins_negation :
    expectedList (evaluatedContents Ex.fitEnv Ex.fitGlobal [20, 5, 7] Ex.coarseData) =
      .ok (some [1139 / 60, 1261 / 60]) ∧
    expectedList (evaluatedContents Ex.fitEnv Ex.fitGlobal [20, 5, 7]
      (afterEvaluations Ex.fitEnv Ex.fitGlobal [[8, 5, 7]] Ex.coarseData)) =
      .ok (some [143 / 10, 15]) := by
  decide +kernel

end Verif
