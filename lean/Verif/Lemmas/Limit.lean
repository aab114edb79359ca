import Verif.Spec.Limit
import Verif.Lemmas.Minimise
import Mathlib.Tactic.Linarith

/-!
# Lemmas about limit setting
-/

namespace Verif

theorem FirstCrossing.unique {scales : List ℝ} {F : ℝ → ℝ} {b limit x x' : ℝ}
    (h : FirstCrossing scales F b limit x) (h' : FirstCrossing scales F b limit x') : x = x' := by
  rcases lt_trichotomy x x' with hlt | heq | hlt
  · have := h'.2.2.2 x h.1 h.2.1 hlt
    have := h.2.2.1
    linarith
  · exact heq
  · have := h.2.2.2 x' h'.1 h'.2.1 hlt
    have := h'.2.2.1
    linarith

theorem minStatOf_ok {fit : Option ℝ → Except PyErr FitOut} {minStat : Option (List ℝ)} {m : ℝ}
    (h : RelativeTo fit minStat m) : minStatOf fit minStat = .ok [m] := by
  rcases h with ⟨rfl, h⟩ | ⟨rfl | rfl, pens, h⟩
  · simp only [minStatOf, if_neg h]
  · simp only [minStatOf, h, Except.map]
  · simp only [minStatOf, if_true, h, Except.map]

theorem rows_ok {fit : Option ℝ → Except PyErr FitOut} {st : ℝ → ℝ} {pens : ℝ → List ℝ} (m : ℝ) :
    ∀ {scales : List ℝ}, ScalarFits fit scales st pens →
    scales.mapM (limitRow fit [m]) =
      Except.ok (ε := PyErr) (scales.map (fun x => ([st x - m], pens x))) := by
  intro scales
  induction scales with
  | nil => intro _; rfl
  | cons x l ih =>
    intro h
    have hx : fit (signalAt x) = .ok ⟨[st x], pens x⟩ := by
      unfold signalAt
      split
      · exact (h x List.mem_cons_self).1 (by assumption)
      · exact (h x List.mem_cons_self).2 (by assumption)
    have hl := ih (fun y hy => h y (List.mem_cons_of_mem _ hy))
    rw [List.mapM_cons, hl]
    simp only [limitRow, hx, bind, Except.bind, setRow, List.length_cons, List.length_nil, if_true,
      List.zipWith_cons_cons, List.zipWith_nil_left, pure, Except.pure, List.map_cons]

theorem getLimit_scalar {fit : Option ℝ → Except PyErr FitOut} {st : ℝ → ℝ} {pens : ℝ → List ℝ}
    {m : ℝ} {scales : List ℝ} {minStat : Option (List ℝ)} (sigmas : List (Option ℝ)) (limit : ℝ)
    (hf : ScalarFits fit scales st pens) (hm : RelativeTo fit minStat m) (hn : scales ≠ []) :
    ∃ j b, scales[j]? = some b ∧
      (∀ k y, scales[k]? = some y → st b ≤ st y ∧ (k < j → st b < st y)) ∧
      getLimit scales sigmas fit minStat limit =
        readLimit scales sigmas 1 (scales.map (fun x => st x - m + (pens x).sum)) j limit := by
  have hne : scales.map (fun x => st x - m) ≠ [] := by simpa using hn
  obtain ⟨j, v, hj, hv, hmin⟩ := npArgmin_spec hne
  rw [List.getElem?_map, Option.map_eq_some_iff] at hv
  obtain ⟨b, hb, rfl⟩ := hv
  refine ⟨j, b, hb, ?_, ?_⟩
  · intro k y hk
    have := hmin k (st y - m) (by rw [List.getElem?_map, hk]; rfl)
    exact ⟨by linarith [this.1], fun h => by linarith [this.2 h]⟩
  · unfold getLimit
    rw [minStatOf_ok hm]
    simp only [bind, Except.bind]
    rw [rows_ok m hf]
    simp only [List.map_map]
    have e1 : (scales.map (Prod.fst ∘ fun x => ([st x - m], pens x))).flatten =
        scales.map (fun x => st x - m) := by
      clear * -
      induction scales with
      | nil => rfl
      | cons a l ih => simp [ih]
    rw [e1, hj]
    simp only [Function.comp_def, List.sum_cons, List.sum_nil, add_zero, List.length_cons,
      List.length_nil, zero_add]

theorem index_le {scales : List ℝ} (hs : scales.Pairwise (· < ·)) {j k : ℕ} {b y : ℝ}
    (hj : scales[j]? = some b) (hk : scales[k]? = some y) : (b ≤ y ↔ j ≤ k) ∧ (b < y ↔ j < k) := by
  obtain ⟨hj', rfl⟩ := List.getElem?_eq_some_iff.1 hj
  obtain ⟨hk', rfl⟩ := List.getElem?_eq_some_iff.1 hk
  rw [List.pairwise_iff_getElem] at hs
  rcases lt_trichotomy j k with h | rfl | h
  · have := hs j k hj' hk' h
    exact ⟨⟨fun _ => h.le, fun _ => this.le⟩, ⟨fun _ => h, fun _ => this⟩⟩
  · simp
  · have := hs k j hk' hj' h
    exact ⟨⟨fun h2 => absurd h2 (not_le.2 this), fun h2 => absurd h2 (not_le.2 h)⟩,
      ⟨fun h2 => absurd h2 (not_lt.2 this.le), fun h2 => absurd h2 (not_lt.2 h.le)⟩⟩

theorem readLimit_spec {scales : List ℝ} (hs : scales.Pairwise (· < ·)) {sigmas : List (Option ℝ)}
    (F : ℝ → ℝ) {j : ℕ} {b : ℝ} (hb : scales[j]? = some b) (limit : ℝ) :
    (∃ x, FirstCrossing scales F b limit x ∧
      readLimit scales sigmas 1 (scales.map F) j limit =
        if sigmas.any Option.isNone then .error .typeError else .ok x) ∨
    ((∀ y ∈ scales, b ≤ y → F y ≤ limit) ∧
      readLimit scales sigmas 1 (scales.map F) j limit =
        if sigmas.any Option.isNone then .error .typeError else .error .limitError) := by
  have hjl := (List.getElem?_eq_some_iff.1 hb).1
  unfold readLimit
  cases hf : ((scales.map F).drop j).findIdx?
      (fun x => @decide (limit < x) (Classical.propDecidable _)) with
  | some i =>
    left
    rw [List.findIdx?_eq_some_iff_getElem] at hf
    obtain ⟨hi, hp, hlt⟩ := hf
    rw [List.length_drop, List.length_map] at hi
    have hx : scales[j + i]? = some (scales[j + i]'(by omega)) := List.getElem?_eq_getElem _
    refine ⟨scales[j + i]'(by omega), ⟨List.getElem_mem _, ?_, ?_, ?_⟩, ?_⟩
    · exact (index_le hs hb hx).1.2 (by omega)
    · simpa using hp
    · intro y hy hby hyx
      obtain ⟨k, hk, rfl⟩ := List.getElem_of_mem hy
      have hk? : scales[k]? = some scales[k] := List.getElem?_eq_getElem hk
      have h1 := (index_le hs hb hk?).1.1 hby
      have h2 := (index_le hs hk? hx).2.1 hyx
      have := hlt (k - j) (by omega)
      simp only [List.getElem_drop, List.getElem_map, decide_eq_true_eq, not_lt,
        show j + (k - j) = k by omega] at this
      exact this
    · simp only [hx]
  | none =>
    right
    rw [List.findIdx?_eq_none_iff] at hf
    have hall : ∀ y ∈ scales, b ≤ y → F y ≤ limit := by
      intro y hy hby
      obtain ⟨k, hk, rfl⟩ := List.getElem_of_mem hy
      have hk? : scales[k]? = some scales[k] := List.getElem?_eq_getElem hk
      have h1 := (index_le hs hb hk?).1.1 hby
      have := hf (F scales[k]) (by
        rw [List.mem_iff_getElem?]
        refine ⟨k - j, ?_⟩
        rw [List.getElem?_drop, List.getElem?_map, show j + (k - j) = k by omega, hk?]
        rfl)
      simpa using this
    refine ⟨hall, ?_⟩
    have hne : ((scales.map F).drop j).map (fun x => -x) ≠ [] := by
      intro h
      have := congrArg List.length h
      simp at this
      omega
    obtain ⟨i, v, hi, hv, _⟩ := npArgmin_spec hne
    have hil : i < scales.length - j := by
      have := (List.getElem?_eq_some_iff.1 hv).1
      simpa using this
    have hx : scales[j + i * 1]? = some (scales[j + i * 1]'(by omega)) := List.getElem?_eq_getElem _
    simp only [npArgmax, hi, bind, Except.bind, hx]

end Verif
