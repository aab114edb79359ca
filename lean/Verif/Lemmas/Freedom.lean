import Verif.Spec.Freedom
import Verif.Lemmas.Fixing

/-! # Lemmas about limits with fixed and with floating backgrounds -/

namespace Verif

namespace FitArgs.FixingAll

variable {a b : FitArgs} {rates : List ℚ} {st : FitState} (h : a.FixingAll b rates)
include h

theorem fixedTotal (hsig : a.signal = none) (c : ℕ → NdArray ℚ) (shape : List ℕ) :
    b.fixedTotal st c shape = a.backgroundAt st c shape rates := by
  unfold FitArgs.fixedTotal FitArgs.backgroundAt
  congr 1
  funext idx
  unfold FitArgs.sumAt
  rw [(h.fixed.map _).sum_eq, List.map_append, List.sum_append, hsig, List.map_zip_eq_zipWith]
  simp only [Option.toList_none, List.map_nil, List.sum_nil, add_zero]
  exact add_comm _ _

theorem background (c : ℕ → NdArray ℚ) (shape : List ℕ) :
    b.backgroundAt st c shape [] = a.backgroundAt st c shape rates := by
  have e : b.signal = a.signal := by rw [h.rest]
  unfold FitArgs.backgroundAt
  congr 1
  funext idx
  unfold FitArgs.sumAt
  rw [(h.fixed.map _).sum_eq, List.map_append, List.sum_append, e, List.map_zip_eq_zipWith,
    List.zipWith_nil_right, List.sum_nil, add_zero]
  congr 1
  exact add_comm _ _

theorem mem_spectra {r : ℕ} (hr : r ∈ b.kept ++ b.fixed.map Prod.fst) :
    r ∈ a.kept ++ a.fixed.map Prod.fst := by
  have e1 : b.floating = [] := by rw [h.rest]
  have e2 : b.signal = a.signal := by rw [h.rest]
  have e4 : b.data = a.data := by rw [h.rest]
  have e5 : ∀ r ∈ b.fixed.map Prod.fst, r ∈ a.floating ∨ r ∈ a.fixed.map Prod.fst := fun r hr => by
    have := (h.fixed.map Prod.fst).subset hr
    rw [List.map_append, List.mem_append] at this
    refine this.imp_left fun hm => ?_
    obtain ⟨e, he, rfl⟩ := List.mem_map.1 hm
    exact (List.of_mem_zip (a := e.1) (b := e.2) he).1
  unfold FitArgs.kept at hr ⊢
  rw [e1, e2, e4] at hr
  simp only [List.mem_append, List.not_mem_nil, or_false] at hr ⊢
  rcases hr with hr | hr
  · tauto
  · have := e5 r hr
    tauto

theorem withSignal (r : ℕ) : (a.withSignal r).FixingAll (b.withSignal r) rates where
  fixed := h.fixed
  rest := by
    unfold FitArgs.withSignal
    rw [h.rest]

end FitArgs.FixingAll

end Verif
