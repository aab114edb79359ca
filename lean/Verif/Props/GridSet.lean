import Verif.Props.Minimise
import Verif.Spec.GridSet

/-! # C158: results put into a grid as a whole or point by point -/

namespace Verif

theorem Ready.shows {g : GridSearch} (hr : g.Ready) {S P : NdArray ℝ}
    (hS : ∀ idx, InB g.fitShape idx → ∀ j, InB g.cellShape j → g.stats.get (idx ++ j) = S.get (idx ++ j))
    (hP : ∀ idx, InB g.fitShape idx → g.penalties.get idx = P.get idx) : g.Shows S P := by
  have hsum : ∀ idx, InB g.fitShape idx → sumIdx g.cellShape (fun j => g.stats.get (idx ++ j)) =
      sumIdx g.cellShape (fun j => S.get (idx ++ j)) :=
    fun idx hi => sumIdx_congr fun j hj => hS idx hi j hj
  constructor
  · obtain ⟨m, h1, h2, h3⟩ := getStats_ok hr
    exact ⟨m, h1, h2, fun idx hi => by rw [h3 idx hi, hsum idx hi, hP idx hi]⟩
  · intro idx hi
    obtain ⟨s, p, h1, h2, h3, h4, h5, h6⟩ := c46_inside hr hi
    exact ⟨s, p, h1, h2, h3, h4, by rw [h6, hsum idx hi, hP idx hi], by rw [h5, hP idx hi]⟩

/-- **C158, as a whole.** A grid takes arrays of statistics exactly when they have an axis for every
parameter and, with one number per bin, for every axis of the spectrum; arrays of penalties exactly
when they have an axis for every parameter. Others raise a `ValueError`. Afterwards it answers with
these numbers. -/
theorem c158_whole {g : GridSearch} (hr : g.Ready) (S P : NdArray ℝ) :
    (S.shape ≠ g.pars.map FitPar.bins ++ g.cellShape → g.setStats S = .error .valueError) ∧
    (P.shape ≠ g.pars.map FitPar.bins → g.setPenaltyTerms P = .error .valueError) ∧
    (S.shape = g.pars.map FitPar.bins ++ g.cellShape → P.shape = g.pars.map FitPar.bins →
      ∃ g₁ g₂, g.setStats S = .ok g₁ ∧ g₁.setPenaltyTerms P = .ok g₂ ∧ g₂.Ready ∧ g₂.pars = g.pars ∧
        g₂.cellShape = g.cellShape ∧ g₂.Shows S P) := by
  have hs : g.stats.shape = g.pars.map FitPar.bins ++ g.cellShape := hr.1
  refine ⟨fun h => ?_, fun h => ?_, fun h1 h2 => ?_⟩
  · unfold GridSearch.setStats
    rw [hs, if_pos h]
  · unfold GridSearch.setPenaltyTerms
    rw [show g.fitShape = g.pars.map FitPar.bins from rfl, if_pos h]
  · have e1 : g.setStats S = .ok { g with stats := S } := by
      unfold GridSearch.setStats
      rw [hs, h1, if_neg (by simp)]
    have e2 : ({ g with stats := S } : GridSearch).setPenaltyTerms P =
        .ok { g with stats := S, penalties := P } := by
      unfold GridSearch.setPenaltyTerms
      rw [show ({ g with stats := S } : GridSearch).fitShape = g.pars.map FitPar.bins from rfl, h2,
        if_neg (by simp)]
    refine ⟨_, _, e1, e2, ⟨h1, h2⟩, rfl, rfl, ?_⟩
    exact Ready.shows (g := { g with stats := S, penalties := P }) ⟨h1, h2⟩ (fun _ _ _ _ => rfl)
      (fun _ _ => rfl)

theorem setGridPoint_ok {g : GridSearch} (hr : g.Ready) (S P : NdArray ℝ) {idx : List ℕ}
    (hi : InB g.fitShape idx) :
    ∃ st pe, g.setPoint S P idx = .ok { g with stats := st, penalties := pe } ∧
      st.shape = g.stats.shape ∧ pe.shape = g.penalties.shape ∧
      (∀ k, InB g.fitShape k → ∀ j, InB g.cellShape j →
        st.get (k ++ j) = if k = idx then S.get (k ++ j) else g.stats.get (k ++ j)) ∧
      (∀ k, InB g.fitShape k → pe.get k = if k = idx then P.get k else g.penalties.get k) := by
  have hob : tupleGt (idx.map (fun n : ℕ => (n : ℤ))) (g.fitShape.map (fun n : ℕ => (n : ℤ))) = false :=
    tupleGt_inB hi
  have h1 := assign_ok (b := (⟨g.cellShape, fun j => S.get (idx ++ j)⟩ : NdArray ℝ)) hr.1 hi (Or.inl rfl)
  have h2 := assign_ok (a := g.penalties) (b := (⟨[], fun _ => P.get idx⟩ : NdArray ℝ)) (s := g.fitShape)
    (c := []) (by simpa using hr.2) hi (Or.inl rfl)
  obtain ⟨st, hst⟩ : ∃ st, st = (⟨g.fitShape ++ g.cellShape, fun j => if j.take idx.length = idx then
      S.get (idx ++ bcastIdx g.cellShape (j.drop idx.length)) else g.stats.get j⟩ : NdArray ℝ) := ⟨_, rfl⟩
  obtain ⟨pe, hpe⟩ : ∃ pe, pe = (⟨g.fitShape ++ [], fun j => if j.take idx.length = idx then P.get idx
      else g.penalties.get j⟩ : NdArray ℝ) := ⟨_, rfl⟩
  refine ⟨st, pe, ?_, ?_, ?_, ?_, ?_⟩
  · unfold GridSearch.setPoint GridSearch.setStat GridSearch.setPenaltyTerm GridSearch.outOfBounds
    rw [hob]
    simp only [Bool.false_eq_true, if_false, bind, Except.bind, h1]
    rw [show ∀ st, ({ g with stats := st } : GridSearch).fitShape = g.fitShape from fun _ => rfl, hob]
    simp only [Bool.false_eq_true, if_false, h2]
    rw [hst, hpe]
  · rw [hst]; exact hr.1.symm
  · rw [hpe, hr.2]; simp
  · intro k hk j hj
    have hl : k.length = idx.length := by rw [hk.length_eq, hi.length_eq]
    rw [hst]
    dsimp only
    rw [← hl, List.take_left', List.drop_left' rfl, bcastIdx_self hj]
    · by_cases h : k = idx
      · rw [if_pos h, if_pos h, h]
      · rw [if_neg h, if_neg h]
    · rfl
  · intro k hk
    have hl : k.length = idx.length := by rw [hk.length_eq, hi.length_eq]
    rw [hpe]
    dsimp only
    rw [← hl, List.take_length]
    by_cases h : k = idx
    · rw [if_pos h, if_pos h, h]
    · rw [if_neg h, if_neg h]

theorem setGridPoints_ok (S P : NdArray ℝ) (order : List (List ℕ)) :
    ∀ {g : GridSearch}, g.Ready → (∀ idx ∈ order, InB g.fitShape idx) →
    ∃ g', order.foldlM (GridSearch.setPoint S P) g = .ok g' ∧ g'.Ready ∧ g'.pars = g.pars ∧
      g'.cellShape = g.cellShape ∧
      (∀ k, InB g.fitShape k → ∀ j, InB g.cellShape j →
        g'.stats.get (k ++ j) = if k ∈ order then S.get (k ++ j) else g.stats.get (k ++ j)) ∧
      (∀ k, InB g.fitShape k → g'.penalties.get k =
        if k ∈ order then P.get k else g.penalties.get k) := by
  induction order with
  | nil => intro g hr _; exact ⟨g, rfl, hr, rfl, rfl, by simp, by simp⟩
  | cons idx order ih =>
    intro g hr h
    obtain ⟨st, pe, h1, h2, h3, h4, h5⟩ := setGridPoint_ok hr S P (h idx List.mem_cons_self)
    obtain ⟨g', i1, i2, i3, i4, i5, i6⟩ := ih (g := { g with stats := st, penalties := pe })
      ⟨h2.trans hr.1, h3.trans hr.2⟩ (fun k hk => h k (List.mem_cons_of_mem _ hk))
    refine ⟨g', ?_, i2, i3, i4, fun k hk j hj => ?_, fun k hk => ?_⟩
    · rw [List.foldlM_cons, h1]
      exact i1
    · rw [i5 k hk j hj]
      dsimp only
      rw [h4 k hk j hj]
      by_cases h6 : k ∈ order
      · rw [if_pos h6, if_pos (List.mem_cons_of_mem _ h6)]
      · rw [if_neg h6]
        by_cases h7 : k = idx
        · rw [if_pos h7, if_pos (by rw [h7]; exact List.mem_cons_self)]
        · rw [if_neg h7, if_neg (by simp [h6, h7])]
    · rw [i6 k hk]
      dsimp only
      rw [h5 k hk]
      by_cases h6 : k ∈ order
      · rw [if_pos h6, if_pos (List.mem_cons_of_mem _ h6)]
      · rw [if_neg h6]
        by_cases h7 : k = idx
        · rw [if_pos h7, if_pos (by rw [h7]; exact List.mem_cons_self)]
        · rw [if_neg h7, if_neg (by simp [h6, h7])]

/-- **C158, point by point.** Setting statistic and penalty at every point of the grid, in any order and
perhaps more than once, gives a grid with the same answers as setting the arrays as a whole. -/
theorem c158_point_by_point {g : GridSearch} (hr : g.Ready) (S P : NdArray ℝ) {order : List (List ℕ)}
    (ho : ∀ idx, idx ∈ order ↔ InB (g.pars.map FitPar.bins) idx) :
    ∃ g', order.foldlM (GridSearch.setPoint S P) g = .ok g' ∧ g'.Ready ∧ g'.pars = g.pars ∧
      g'.cellShape = g.cellShape ∧ g'.Shows S P := by
  obtain ⟨g', h1, h2, h3, h4, h5, h6⟩ := setGridPoints_ok S P order hr (fun idx hi => (ho idx).1 hi)
  have hf : g'.fitShape = g.fitShape := by unfold GridSearch.fitShape; rw [h3]
  refine ⟨g', h1, h2, h3, h4, Ready.shows h2 ?_ ?_⟩
  · intro idx hi j hj
    rw [hf] at hi
    rw [h4] at hj
    rw [h5 idx hi j hj, if_pos ((ho idx).2 hi)]
  · intro idx hi
    rw [hf] at hi
    rw [h6 idx hi, if_pos ((ho idx).2 hi)]

/-- The points of a grid of three by two values in an order of their own; a grid with four bins per point
and one without. -/
example : exSearch.Ready ∧ (GridSearch.new exPars [4] none true).Ready ∧
    (GridSearch.new exPars [4] none true).cellShape = [4] ∧
    ∀ idx, idx ∈ [[2, 1], [0, 0], [1, 0], [0, 1], [2, 0], [1, 1], [0, 0]] ↔
      InB (exSearch.pars.map FitPar.bins) idx := by
  refine ⟨exSearch_setup.1, ⟨rfl, rfl⟩, rfl, fun idx => ?_⟩
  rw [← mem_allIdx, show allIdx (exSearch.pars.map FitPar.bins) =
    [[0, 0], [0, 1], [1, 0], [1, 1], [2, 0], [2, 1]] from rfl]
  simp only [List.mem_cons, List.not_mem_nil, or_false]
  tauto

end Verif
