import Verif.Props.Freedom
import Verif.Props.Fixing

/-! # C161: floating backgrounds with one possible rate each, all of them fixed -/

namespace Verif

open Session

variable {env : FitEnv} {keyOf : ℕ → PyStr} {a b : FitArgs} {ts ts' : List Spectrum} {r d : ℕ}
  {st : FitState} {rnd : ℝ → ℚ} {v : List ℝ}

theorem combination_single {u : List ℝ} (h : Combination (v.map fun x => [x]) u) : u = v := by
  induction v generalizing u with
  | nil => cases h; rfl
  | cons x v ih =>
    obtain ⟨y, w, hy, hw, rfl⟩ := List.forall₂_cons_right_iff.1 h
    rw [List.mem_singleton.1 hy, ih hw]

theorem combination_singles (v : List ℝ) : Combination (v.map fun x => [x]) v := by
  induction v with
  | nil => exact .nil
  | cons x v ih => exact .cons (by simp) ih

/-- **C161, limits, all backgrounds.** Every floating background has a rate with one value, and a second
program is given all of them as fixed backgrounds with as many decays, so that nothing floats. Then a limit
set with the first and a limit set with the second have the same outcome, when the threshold of the first
is larger by the penalties of the rates. (Partial: the suppositions of C147.) -/
theorem c161_all_partial (hf : a.FixingAll b (v.map rnd)) (h : a.LimitOn r d ts st)
    (h' : b.LimitOn r d ts' st) (he : (a.withSignal r).Evaluable env keyOf d st) (ho : a.OwnRates st)
    {g g' : GridSearch} (hsearch : RateSearch rnd g (v.map fun x => [x]) a.floating.length)
    (hsame : List.Forall₂ (fun p (q : FitPar) => q.prior = (st.params p).prior ∧
      q.sigma = (st.params p).sigma) (a.parameters st) g.pars)
    (hex : ∀ x ∈ v, ((rnd x : ℚ) : ℝ) = x) (hpars' : g'.pars = []) :
    ∃ ses₁ st₁ f₁ ses₂ st₂ f₂,
      init keyOf a st = (st₁, .ok ses₁) ∧ init keyOf b st = (st₂, .ok ses₂) ∧
      Fitter.limitInit ⟨ses₁, st₁, g⟩ r true = (f₁, .ok ()) ∧
      Fitter.limitInit ⟨ses₂, st₂, g'⟩ r true = (f₂, .ok ()) ∧
      ∀ (calls₁ calls₂ : List LimitCall) (scales : List ℝ), Testable rnd (allScales calls₁ ++ scales) →
      Testable rnd (allScales calls₂ ++ scales) → scales ≠ [] → scales.Pairwise (· < ·) →
      ∀ (sigmas : List (Option ℝ)), (∀ s ∈ sigmas, s ≠ none) → ∀ (limit : ℝ),
      ((f₁.afterCalls env rnd r calls₁).limitOf env rnd r scales sigmas none
          (limit + a.penaltyAt st v)).2 =
        ((f₂.afterCalls env rnd r calls₂).limitOf env rnd r scales sigmas none limit).2 := by
  have hg := h.given
  have hreg := inOrder_isDict hg.region
  have hdm : d ∈ (a.withSignal r).kept ++ a.fixed.map Prod.fst := by simp [FitArgs.kept, h.data]
  have hrm : r ∈ (a.withSignal r).kept ++ a.fixed.map Prod.fst := by simp [FitArgs.kept]
  obtain ⟨ns, hns⟩ := exists_roiNames (hg.able d hdm)
  obtain ⟨c, hc⟩ := exists_contents hreg hg.able ns
  have hshape : (c r).shape = (c d).shape :=
    same_shape hreg (hg.able d hdm) (hg.able r hrm) (h.axes r hrm) (hc d hdm) (hc r hrm)
  have e1 : b.roi = a.roi := by rw [hf.rest]
  have e2 : b.stat = a.stat := by rw [hf.rest]
  have e3 : b.singleBin = a.singleBin := by rw [hf.rest]
  have hfix : b.fixed ≠ [] := by
    intro h0
    have hp := hf.fixed
    rw [h0] at hp
    have := List.nil_perm.1 hp
    rw [List.append_eq_nil_iff, List.zip_eq_nil_iff, List.map_eq_nil_iff] at this
    rcases this.1 with h1 | h1
    · exact ho.floating h1
    · have := hsearch.number
      rw [h1, List.map_nil, List.length_nil] at this
      exact ho.floating (List.length_eq_zero_iff.1 this.symm)
  obtain ⟨ses₁, st₁, f₁, i1, i2, i3⟩ := c147_floating_partial (rnd := rnd) h he ho hns hc hsearch hsame
    (fun vs hvs x hx => by
      obtain ⟨y, hy, rfl⟩ := List.mem_map.1 hvs
      rw [List.mem_singleton.1 hx]
      exact hex y hy)
  obtain ⟨ses₂, st₂, f₂, j1, j2, j3⟩ := c147_counting_partial (env := env) (keyOf := keyOf) (rnd := rnd) h'
    hfix (by rw [hf.rest]) (by rw [hf.rest]; exact ho.statPerBin) (by rw [e1]; exact hns)
    (fun q hq => by rw [e1]; exact hc q ((hf.withSignal r).mem_spectra hq)) g' hpars'
  refine ⟨ses₁, st₁, f₁, ses₂, st₂, f₂, i1, j1, i2, j2, ?_⟩
  intro calls₁ calls₂ scales ht₁ ht₂ hsc hs sigmas hsig limit
  obtain ⟨G₀, hG₀⟩ := exists_statistics a.stat a.singleBin a st c d rnd
  have hG : ∀ (x : ℝ) (u : List ℝ), ∃ t, (npCloseReal x 0 → t = G₀ u) ∧ (¬ npCloseReal x 0 →
      a.stat.Total (comparedContents a.singleBin (c d))
        (expectedAt (comparedContents a.singleBin (a.backgroundAt st c (c d).shape (u.map rnd)))
          (comparedContents a.singleBin (c r)) ((rnd x : ℝ) / ((st.view r).numDecays : ℝ))) t) := by
    intro x u
    by_cases hx : npCloseReal x 0
    · exact ⟨G₀ u, fun _ => rfl, fun h => absurd hx h⟩
    · obtain ⟨t, ht⟩ := exists_total a.stat (expected_length (sb := a.singleBin) (o := c d)
        (b := a.backgroundAt st c (c d).shape (u.map rnd)) rfl hshape
        ((rnd x : ℝ) / ((st.view r).numDecays : ℝ)))
      exact ⟨t, fun h => absurd h hx, fun _ => ht⟩
  choose G hG using hG
  obtain ⟨u₀, u, m1, m2, t, ht, k1, k2⟩ := i3 calls₁ scales ht₁ hsc hs G₀ G (fun u _ => hG₀ u)
    (fun x _ u _ => hG x u) sigmas hsig (limit + a.penaltyAt st v)
  obtain ⟨t', ht', k1', k2'⟩ := j3 calls₂ scales ht₂ hsc hs (G₀ v) (fun x => G x v)
    (by rw [e2, e3, hf.fixedTotal h.signal]; exact hG₀ v)
    (fun x _ => by rw [e2, e3, hf.fixedTotal h.signal]; exact hG x v) sigmas hsig limit
  have only : ∀ {F : List ℝ → ℝ} {w : List ℝ}, FirstBest (v.map fun x => [x]) F w → w = v := by
    rintro F w ⟨i, hi, -⟩
    exact combination_single hi.comb
  obtain rfl := only m1
  have hu : ∀ y ∈ scales, u y = u₀ := fun y hy => only (m2 y hy)
  have htt : t = t' := by
    obtain ⟨n1, n2⟩ := ht.2 t' ht'.1
    obtain ⟨o1, o2⟩ := ht'.2 t ht.1
    dsimp only at n1 n2 o1 o2
    rw [hu t ht.1, hu t' ht'.1] at n1 n2
    have e := le_antisymm n1 o1
    exact le_antisymm (n2 e.symm) (o2 e)
  refine outcome_eq (F := fun y => G y u₀ - G₀ u₀)
    (F' := fun y => G y (u y) - G₀ u₀ + a.penaltyAt st (u y) - a.penaltyAt st u₀)
    (fun y hy => ?_) htt k1' k2' (fun y => ?_) ?_ hs ht'.1
  · rw [hu y hy]
    ring
  · rw [k1 y]
    unfold FirstCrossing
    simp only [lt_sub_iff_add_lt, sub_le_iff_le_add]
  · rw [k2]
    simp only [sub_le_iff_le_add]

/-- The rates are 8 and 3, with the penalty 1; the threshold is 4 with and 3 without floating backgrounds. -/
example : ∃ ses₁ st₁ f₁ ses₂ st₂ f₂,
    init Ex.keyOf (Ex.limitArgs [2, 3]) Ex.limitState = (st₁, .ok ses₁) ∧
    init Ex.keyOf (Ex.allFixed 8) Ex.limitState = (st₂, .ok ses₂) ∧
    Fitter.limitInit ⟨ses₁, st₁, Ex.onlySearch⟩ 4 true = (f₁, .ok ()) ∧
    Fitter.limitInit ⟨ses₂, st₂, GridSearch.new [] [] none false⟩ 4 true = (f₂, .ok ()) ∧
    ((f₁.afterCalls Ex.fitEnv Ex.toInt 4 [.statistics [4]]).limitOf Ex.fitEnv Ex.toInt 4
        [0, 4, 10, 20] [] none 4).2 =
      ((f₂.afterCalls Ex.fitEnv Ex.toInt 4 []).limitOf Ex.fitEnv Ex.toInt 4 [0, 4, 10, 20] [] none 3).2 := by
  have hall := ex_allFixed 8
  rw [show Ex.toInt 8 = 8 by simp [Ex.toInt]] at hall
  obtain ⟨ses₁, st₁, f₁, ses₂, st₂, f₂, h1, h2, h3, h4, h5⟩ := c161_all_partial (env := Ex.fitEnv)
    (keyOf := Ex.keyOf) (rnd := Ex.toInt) (v := [8, 3]) (g := Ex.onlySearch)
    (g' := GridSearch.new [] [] none false) hall (ex_limitOn (.inr rfl)) (allFixed_limitOn (.inl rfl))
    ex_floatEvaluable ex_floatRates ex_onlySearch (.cons ⟨rfl, rfl⟩ (.cons ⟨rfl, rfl⟩ .nil)) (by
      intro x hx
      have : x = 8 ∨ x = 3 := by simpa using hx
      rcases this with rfl | rfl <;> simp [Ex.toInt]) rfl
  refine ⟨ses₁, st₁, f₁, ses₂, st₂, f₂, h1, h2, h3, h4, ?_⟩
  have := h5 [.statistics [4]] [] [0, 4, 10, 20] (ex_plain.2 _ (.inr rfl)) (ex_plain.2 _ (.inl rfl))
    ex_plain.1.some ex_plain.1.increasing [] (by simp) 3
  rw [ex_floatPenalty] at this
  norm_num at this
  exact this

end Verif
