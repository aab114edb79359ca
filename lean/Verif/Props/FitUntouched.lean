import Verif.Props.FitCache

/-!
# C92: what evaluations of a fit do to the spectra and parameters
-/

namespace Verif

/-- **C92, data, fixed background and signal.** Evaluations do not change them. (Partial: the
suppositions of C62; spectra on other axes than the data are changed, see the negation.) -/
theorem c92_untouched_partial (env : FitEnv) (f : Fit) (st : FitState) (hr : FitReady env f st)
    (hist : List (List ℚ)) (hh : ∀ a ∈ hist, FullArgs f a ∧ NonzeroRates f st a) :
    (afterEvaluations env f hist st).view f.data = st.view f.data ∧
    (∀ b ∈ f.fixed, (afterEvaluations env f hist st).view b.1 = st.view b.1) ∧
    (∀ b ∈ f.signal, (afterEvaluations env f hist st).view b.1 = st.view b.1) := by
  have h := inv_after hr hh
  refine ⟨h.view_old hr.alloc.1 (.inr hr.apart.1),
    fun b hb => h.view_old (hr.alloc.2.1 b hb) (.inr (hr.apart.2 b hb)), fun b hb => ?_⟩
  have hm : b.1 ∈ f.moving := by
    rw [Option.mem_def] at hb
    simp [Fit.moving, hb]
  refine h.view_old (hr.alloc.2.2 _ hm) (.inr fun hf => ?_)
  have := isBg_floating hr hf
  rw [Option.mem_def] at hb
  simp [isBg, hb] at this

/-- **C92, floating backgrounds.** With global parameters the supplied floating backgrounds are
not changed, without they are at most scaled. -/
theorem c92_floating_partial (env : FitEnv) (f : Fit) (st : FitState) (hr : FitReady env f st)
    (hist : List (List ℚ)) (hh : ∀ a ∈ hist, FullArgs f a ∧ NonzeroRates f st a)
    (r : ℕ) (hf : r ∈ f.floatingRefs) :
    (f.globals ≠ [] → (afterEvaluations env f hist st).view r = st.view r) ∧
    ((afterEvaluations env f hist st).view r).cfg = (st.view r).cfg ∧
    ((afterEvaluations env f hist st).view r).data.shape = (st.view r).data.shape ∧
    ∃ c : ℚ, c ≠ 0 ∧
      ((afterEvaluations env f hist st).view r).numDecays = c * (st.view r).numDecays ∧
      ∀ idx, InB (st.view r).data.shape idx →
        ((afterEvaluations env f hist st).view r).data.get idx = c * (st.view r).data.get idx := by
  have h := inv_after hr hh
  have hm : r ∈ f.moving := by simp [Fit.moving, hf]
  have hd := hr.decays r hm
  by_cases hg : f.globals = []
  · have ho := h.orig hg r hf
    refine ⟨fun hn => absurd hg hn, ?_⟩
    have hal := ho.alive (fun h => h)
    rcases ho.resc with hu | ⟨_, m, hu⟩
    · rw [hu]
      exact ⟨rfl, rfl, 1, one_ne_zero, by ring, fun _ _ => by ring⟩
    · rw [hu] at hal ⊢
      change m ≠ 0 at hal
      refine ⟨rfl, rfl, m / (st.view r).numDecays, div_ne_zero hal hd, ?_, ?_⟩
      · change m = _
        field_simp
      · intro idx hi
        have := NdArray.norm_get (a := (st.view r).data.smul (m / (st.view r).numDecays)) hi
        change NdArray.get (NdArray.norm _) idx = _
        rw [this]
        simp only [NdArray.smul]
        ring
  · have hv := h.view_old (moving_lt hr hm) (.inl hg)
    rw [hv]
    exact ⟨fun _ => rfl, rfl, rfl, 1, one_ne_zero, by ring, fun _ _ => by ring⟩

/-- **C92, parameters.** After an evaluation the parameters have the values it was given, and
everything else about parameters is as before. -/
theorem c92_parameters_partial (env : FitEnv) (f : Fit) (st : FitState) (hr : FitReady env f st)
    (hf : f.floating ≠ none)
    (hist : List (List ℚ)) (hh : ∀ a ∈ hist, FullArgs f a ∧ NonzeroRates f st a)
    (args : List ℚ) (hl : FullArgs f args) (p : ℕ) :
    (∀ v, (p, v) ∈ f.pars.zip args →
      (funct env f args (afterEvaluations env f hist st)).1.params p =
        { st.params p with value := some v }) ∧
    { (funct env f args (afterEvaluations env f hist st)).1.params p with value := none } =
      { st.params p with value := none } := by
  obtain ⟨fl, hf⟩ := Option.ne_none_iff_exists'.1 hf
  have hi := inv_after hr hh
  obtain ⟨st', i, hp, e⟩ := funct_run hr hi hf hl
  rw [e]
  refine ⟨fun v hv => ?_, i.params p⟩
  simp only [hp]
  rw [withValues_mem hr.pars hv]
  have := hi.params p
  have h2 := congrArg (fun q : Param => { q with value := some v }) this
  exact h2

/-! ### cases that meet the hypotheses -/

theorem ex_hist : ∀ a ∈ [[20, 5, 7], [8, 1, 2], [20, 3, 3]],
    FullArgs Ex.fitGlobal a ∧ NonzeroRates Ex.fitGlobal Ex.fitState a := by
  intro a ha
  have : a = [20, 5, 7] ∨ a = [8, 1, 2] ∨ a = [20, 3, 3] := by simpa using ha
  rcases this with rfl | rfl | rfl <;> exact ex_nonzero _ _ _ (by norm_num) (by norm_num)

example := c92_untouched_partial _ _ _ ex_ready _ ex_hist
example := c92_floating_partial _ _ _ ex_ready _ ex_hist 3 (by decide)
example := (c92_parameters_partial _ _ _ ex_ready (by simp [Ex.fitGlobal, Ex.fit]) _ ex_hist
  [20, 0, 1] rfl 1).1 1 (by simp [Ex.fitGlobal])

/-- Without global parameters the supplied backgrounds are scaled. -/
example : ((afterEvaluations Ex.fitEnv Ex.fit [[5, 7]] Ex.fitState).view 2).numDecays = 5 ∧
    (allIdx [4]).map ((afterEvaluations Ex.fitEnv Ex.fit [[5, 7]] Ex.fitState).view 2).data.get =
      [1 / 2, 1, 3 / 2, 2] := by
  decide +kernel

/-! ### where it fails -/

/-- **C92, bins.** With a signal or floating backgrounds in finer bins than the data, an
evaluation changes the axes of the supplied spectra, but not their contents. -/
theorem c92_bins_negation :
    ((Ex.coarseData.view 4).cfg.map SPar.bins = [4] ∧ (Ex.coarseData.view 4).data.shape = [4]) ∧
    ((afterEvaluations Ex.fitEnv Ex.fitGlobal [[20, 5, 7]] Ex.coarseData).view 4).cfg.map SPar.bins =
      [2] ∧
    ((afterEvaluations Ex.fitEnv Ex.fitGlobal [[20, 5, 7]] Ex.coarseData).view 4).data.shape = [4] := by
  decide +kernel

end Verif
