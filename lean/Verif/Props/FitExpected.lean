import Verif.Lemmas.FitExpected
import Verif.Props.FitCache

/-!
# C91: what the expected spectrum of a fit is

A formula for the expected contents, at any point of any sequence of evaluations.
-/

namespace Verif

/-- **C91.** The expected contents are the sum of the fixed background, each floating background
(with the global parameters applied in turn) scaled from its number of decays to the value of its
rate, and the signal. (Partial: the signal has only the last global parameter applied, see the
negation; and the suppositions of C62.) -/
theorem c91_expected_partial (env : FitEnv) (f : Fit) (st : FitState) (hr : FitReady env f st)
    (hist : List (List ℚ)) (hh : ∀ a ∈ hist, FullArgs f a ∧ NonzeroRates f st a)
    (args : List ℚ) (hl : FullArgs f args)
    {fl : List (ℕ × List PyStr)} (hf : f.floating = some fl)
    {obs : NdArray ℚ} (hobs : (st.view f.data).ndProject f.dataPars = .ok obs)
    {fixed : List (NdArray ℚ)}
    (hfix : List.Forall₂ (fun b p => (st.view b.1).ndProject b.2 = .ok p) f.fixed.toList fixed)
    {xs : List BgTerm} (hx : List.Forall₂ (IsBgTerm env f st args) fl xs)
    {signal : List (NdArray ℚ)}
    (hsig : List.Forall₂ (IsSignalTerm env f st args) f.signal.toList signal)
    {sh : List ℕ} (hsh : ∀ p ∈ fixed ++ xs.map BgTerm.proj ++ signal, p.shape = sh)
    (hne : f.fixed ≠ none ∨ fl ≠ []) :
    ∃ e, evaluatedContents env f args (afterEvaluations env f hist st) = .ok (obs, some e) ∧
      e.shape = sh ∧ ∀ idx, InB sh idx →
        e.get idx = (fixed.map (fun p => p.get idx)).sum +
          (List.zipWith (fun b x => x.rate / (st.view b.1).numDecays * x.proj.get idx) fl xs).sum +
          (signal.map (fun p => p.get idx)).sum := by
  rw [evaluatedContents_value hr (inv_after hr hh) hf hl]
  have hfl : f.floatingRefs = fl.map Prod.fst := by simp [Fit.floatingRefs, hf]
  -- the fixed background
  obtain ⟨e0, he0, hs0, hn0⟩ : ∃ e0, fixedValue f st = .ok e0 ∧
      Sums sh e0 (fixed.map (fun p idx => p.get idx)) ∧ (f.fixed ≠ none → e0 ≠ none) := by
    unfold fixedValue
    cases hb : f.fixed with
    | none =>
      rw [hb] at hfix
      cases hfix
      exact ⟨none, rfl, rfl, fun h => absurd rfl h⟩
    | some b =>
      rw [hb] at hfix
      cases hfix with
      | cons h1 h2 =>
        cases h2
        rename_i p
        refine ⟨some p, by simp only [h1]; rfl, ⟨hsh p (by simp), ?_⟩, fun _ h => by cases h⟩
        intro idx _; simp
  -- the floating backgrounds
  obtain ⟨e1, he1, hs1, hn1, hn1'⟩ := loopValue_of hr hx
    (fun b hb => by rw [hfl]; exact List.mem_map_of_mem hb)
    (fun x hx => hsh x.proj (by simp only [List.mem_append, List.mem_map]; exact .inl (.inr ⟨x, hx, rfl⟩)))
    hs0
  have hne1 : e1 ≠ none := hne.elim (fun h => hn1' (hn0 h)) hn1
  -- the signal
  obtain ⟨e2, he2, hs2⟩ : ∃ e2, signalValue env f st (withValues f.pars args st.params) e1 =
      .ok (some e2) ∧ Sums sh (some e2) ((fixed.map (fun p idx => p.get idx) ++
        List.zipWith (fun b x idx => x.rate / (st.view b.1).numDecays * x.proj.get idx) fl xs) ++
        signal.map (fun p idx => p.get idx)) := by
    obtain ⟨a, rfl⟩ := Option.ne_none_iff_exists'.1 hne1
    unfold signalValue
    cases hb : f.signal with
    | none =>
      rw [hb] at hsig
      cases hsig
      exact ⟨a, rfl, by simpa using hs1⟩
    | some b =>
      rw [hb] at hsig
      cases hsig with
      | cons h1 h2 =>
        cases h2
        rename_i p
        obtain ⟨t, ht, hp⟩ := h1
        have hc : convFrom env f st b.1 (withValues f.pars args st.params) = .ok t := by
          unfold convFrom
          rw [isBg_signal hb]
          exact convFold_last hr.pars ht
        obtain ⟨a', ha, hs⟩ := addProjection_sums hs1 (hsh p (by simp)) (g := fun idx => p.get idx)
          (fun _ _ => rfl)
        refine ⟨a', ?_, by simpa using hs⟩
        simp only [hc, hp, ha]
        rfl
  refine ⟨e2, ?_, hs2.1, fun idx hi => ?_⟩
  · unfold contentsValue
    rw [hobs, okBind, he0, okBind, he1, okBind, he2]
    rfl
  · rw [hs2.2 idx hi]
    simp only [List.map_append, List.map_map, List.sum_append, List.map_zipWith]
    rfl

/-! ### cases that meet the hypotheses -/

theorem ex_convolved {r : ℕ} {v : ℚ} {vals : List (ℕ × ℚ)} (hv : (2, v) ∈ vals)
    (hok : (convolve Ex.fitEnv .resolution (some (lit "energy_mc")) v (Ex.fitState.view r)).toBool =
      true) :
    ∃ t, Convolved Ex.fitEnv Ex.fitState vals [2] (Ex.fitState.view r) t ∧
      t.ndProject [lit "energy_mc"] = .ok t.data ∧ t.data.shape = [4] := by
  cases h : convolve Ex.fitEnv .resolution (some (lit "energy_mc")) v (Ex.fitState.view r) with
  | error e => rw [h] at hok; cases hok
  | ok t =>
    have hal := convolve_alike h
    refine ⟨_, .cons 2 v [] _ t _ hv (appliedTo_iff.2 h) (.nil _), ?_, ?_⟩
    · unfold Spectrum.ndProject Spectrum.getIndex Spectrum.pars
      simp only [hal.cfg]
      rfl
    · have h4 : (Ex.fitState.view r).data.shape = [4] := by
        unfold FitState.view Ex.fitState Ex.fitObj
        simp only
        split <;> rfl
      exact hal.shape.trans h4

/-- Fixed background, two floating backgrounds, signal, and a global parameter; after three
evaluations. -/
example : ∃ e xs signal, evaluatedContents Ex.fitEnv Ex.fitGlobal [20, 5, 0] (afterEvaluations
      Ex.fitEnv Ex.fitGlobal [[20, 5, 7], [8, 1, 2], [20, 3, 3]] Ex.fitState) =
      .ok ((Ex.fitState.view 0).data, some e) ∧
    List.Forall₂ (IsBgTerm Ex.fitEnv Ex.fitGlobal Ex.fitState [20, 5, 0])
      [(2, [lit "energy_mc"]), (3, [lit "energy_mc"])] xs ∧
    IsSignalTerm Ex.fitEnv Ex.fitGlobal Ex.fitState [20, 5, 0] (4, [lit "energy_mc"]) signal ∧
    e.shape = [4] ∧ ∀ idx, InB [4] idx → e.get idx =
      (Ex.fitState.view 1).data.get idx +
      (List.zipWith (fun b x => x.rate / (Ex.fitState.view b.1).numDecays * x.proj.get idx)
        [(2, [lit "energy_mc"]), (3, [lit "energy_mc"])] xs).sum + signal.get idx := by
  obtain ⟨t2, c2, p2, s2⟩ := ex_convolved (r := 2) (v := 20) (vals := [(2, 20), (0, 5), (1, 0)])
    (by simp) (by decide +kernel)
  obtain ⟨t3, c3, p3, s3⟩ := ex_convolved (r := 3) (v := 20) (vals := [(2, 20), (0, 5), (1, 0)])
    (by simp) (by decide +kernel)
  obtain ⟨t4, c4, p4, s4⟩ := ex_convolved (r := 4) (v := 20) (vals := [(2, 20), (0, 5), (1, 0)])
    (by simp) (by decide +kernel)
  have hx : List.Forall₂ (IsBgTerm Ex.fitEnv Ex.fitGlobal Ex.fitState [20, 5, 0])
      [(2, [lit "energy_mc"]), (3, [lit "energy_mc"])] [⟨t2, 5, t2.data⟩, ⟨t3, 0, t3.data⟩] :=
    .cons ⟨c2, ⟨0, rfl, by simp [Ex.fitGlobal]⟩, p2⟩ (.cons ⟨c3, ⟨1, rfl, by simp [Ex.fitGlobal]⟩, p3⟩ .nil)
  have hs : IsSignalTerm Ex.fitEnv Ex.fitGlobal Ex.fitState [20, 5, 0] (4, [lit "energy_mc"])
      t4.data :=
    ⟨t4, .inr ⟨[], 2, rfl, fun p hp => absurd hp (by simp), c4⟩, p4⟩
  obtain ⟨e, he, hsh, hg⟩ := c91_expected_partial _ _ _ ex_ready
    [[20, 5, 7], [8, 1, 2], [20, 3, 3]]
    (by
      intro a ha
      have : a = [20, 5, 7] ∨ a = [8, 1, 2] ∨ a = [20, 3, 3] := by simpa using ha
      rcases this with rfl | rfl | rfl <;> exact ex_nonzero _ _ _ (by norm_num) (by norm_num))
    [20, 5, 0] rfl (fl := [(2, [lit "energy_mc"]), (3, [lit "energy_mc"])]) rfl
    (obs := (Ex.fitState.view 0).data) rfl
    (fixed := [(Ex.fitState.view 1).data]) (.cons rfl .nil) hx (signal := [t4.data])
    (.cons hs .nil) (sh := [4])
    (by
      intro p hp
      have : p = (Ex.fitState.view 1).data ∨ p = t2.data ∨ p = t3.data ∨ p = t4.data := by
        simpa using hp
      rcases this with rfl | rfl | rfl | rfl
      · rfl
      all_goals assumption)
    (.inr (by simp))
  refine ⟨e, _, _, ?_, hx, hs, hsh, ?_⟩
  · exact he
  · intro idx hi
    rw [hg idx hi]
    simp

/-! ### where it fails -/

/-- **C91, two global parameters.** Applying both parameters to the signal would give other
contents than those which the signal adds to the expectation: it has only the second one. -/
theorem c91_signal_negation : ∃ f : Fit, f = { Ex.fit with pars := [2, 3, 0, 1], globals := [2, 3] } ∧
    (∀ t, Convolved Ex.fitEnv Ex.fitState (f.pars.zip [20, 20, 5, 7]) f.globals
      (Ex.fitState.view 4) t → (allIdx [4]).map t.data.get = [4 / 9, 31 / 36, 25 / 36, 0]) ∧
    (∃ t, Convolved Ex.fitEnv Ex.fitState (f.pars.zip [20, 20, 5, 7]) f.globals
      (Ex.fitState.view 4) t) ∧
    expectedList (evaluatedContents Ex.fitEnv { f with signal := none } [20, 20, 5, 7]
      Ex.fitState) = .ok (some [1339 / 360, 284 / 45, 1789 / 360, 1]) ∧
    expectedList (evaluatedContents Ex.fitEnv f [20, 20, 5, 7] Ex.fitState) =
      .ok (some [1339 / 360 + 1 / 3, 284 / 45 + 5 / 6, 1789 / 360 + 5 / 6, 1]) := by
  refine ⟨_, rfl, ?_, ?_, by decide +kernel, by decide +kernel⟩
  · intro t ht
    have h := convFold_of (by decide) ht (Ex.fitState.view 4)
    have h2 : (convFold Ex.fitEnv true (Ex.fitState.view 4) ([2, 3].map (withValues [2, 3, 0, 1]
        [20, 20, 5, 7] Ex.fitState.params)) (Ex.fitState.view 4)).map
        (fun t => (allIdx [4]).map t.data.get) = .ok [4 / 9, 31 / 36, 25 / 36, 0] := by
      decide +kernel
    rw [h] at h2
    exact Except.ok.inj h2
  · have hok : (convFold Ex.fitEnv true (Ex.fitState.view 4) ([2, 3].map (withValues [2, 3, 0, 1]
        [20, 20, 5, 7] Ex.fitState.params)) (Ex.fitState.view 4)).toBool = true := by
      decide +kernel
    cases h : convFold Ex.fitEnv true (Ex.fitState.view 4) ([2, 3].map (withValues [2, 3, 0, 1]
        [20, 20, 5, 7] Ex.fitState.params)) (Ex.fitState.view 4) with
    | error e => rw [h] at hok; cases hok
    | ok t => exact ⟨t, convolved_of_convFold (by decide) (by simp) h⟩

end Verif
