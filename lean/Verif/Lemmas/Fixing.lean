import Verif.Spec.Fixing
import Verif.Lemmas.FitFound

/-! Helper lemmas: a floating background with one possible rate, and a fixed one. -/

namespace Verif

theorem valuesAt_append {vs₁ vs₂ : List (List ℝ)} {i₁ i₂ : List ℕ} {w₁ w₂ : List ℝ}
    (h₁ : ValuesAt vs₁ i₁ w₁) (h₂ : ValuesAt vs₂ i₂ w₂) : ValuesAt (vs₁ ++ vs₂) (i₁ ++ i₂) (w₁ ++ w₂) := by
  induction vs₁ generalizing i₁ w₁ with
  | nil =>
    rw [valuesAt_nil_iff] at h₁
    obtain ⟨rfl, rfl⟩ := h₁
    exact h₂
  | cons vs vss ih =>
    cases i₁ with
    | nil => exact absurd h₁.2 (by simp)
    | cons i idx =>
      cases w₁ with
      | nil => have := h₁.1; simp at this
      | cons x w =>
        rw [valuesAt_cons_iff] at h₁
        exact valuesAt_cons_iff.2 ⟨h₁.1, ih h₁.2⟩

theorem valuesAt_split {vs₁ vs₂ : List (List ℝ)} {idx : List ℕ} {w : List ℝ}
    (h : ValuesAt (vs₁ ++ vs₂) idx w) : ∃ i₁ i₂ w₁ w₂, idx = i₁ ++ i₂ ∧ w = w₁ ++ w₂ ∧
      ValuesAt vs₁ i₁ w₁ ∧ ValuesAt vs₂ i₂ w₂ := by
  induction vs₁ generalizing idx w with
  | nil => exact ⟨[], idx, [], w, rfl, rfl, valuesAt_nil_iff.2 ⟨rfl, rfl⟩, h⟩
  | cons vs vss ih =>
    cases idx with
    | nil => exact absurd h.2 (by simp)
    | cons i idx =>
      cases w with
      | nil => have := h.1; simp at this
      | cons x w =>
        rw [List.cons_append, valuesAt_cons_iff] at h
        obtain ⟨i₁, i₂, w₁, w₂, rfl, rfl, h₁, h₂⟩ := ih h.2
        exact ⟨i :: i₁, i₂, x :: w₁, w₂, rfl, rfl, valuesAt_cons_iff.2 ⟨h.1, h₁⟩, h₂⟩

theorem ValuesAt.lengths {vss : List (List ℝ)} {idx : List ℕ} {w : List ℝ} (h : ValuesAt vss idx w) :
    idx.length = vss.length ∧ w.length = vss.length :=
  ⟨h.2, h.comb.length_eq⟩

theorem valuesAt_split_cons {vs₁ vs₂ : List (List ℝ)} {vs : List ℝ} {idx : List ℕ} {w : List ℝ}
    (h : ValuesAt (vs₁ ++ vs :: vs₂) idx w) : ∃ i₁ i i₂ w₁ x w₂, idx = i₁ ++ i :: i₂ ∧
      w = w₁ ++ x :: w₂ ∧ ValuesAt vs₁ i₁ w₁ ∧ vs[i]? = some x ∧ ValuesAt vs₂ i₂ w₂ := by
  obtain ⟨i₁, i₂, w₁, w₂, rfl, rfl, h₁, h₂⟩ := valuesAt_split h
  cases i₂ with
  | nil => exact absurd h₂.2 (by simp)
  | cons i idx =>
    cases w₂ with
    | nil => have := h₂.1; simp at this
    | cons x w =>
      rw [valuesAt_cons_iff] at h₂
      exact ⟨i₁, i, idx, w₁, x, w, rfl, rfl, h₁, h₂.1, h₂.2⟩

theorem cons_le_cons_cases {i j : ℕ} {s t : List ℕ} : i :: s ≤ j :: t ↔ i < j ∨ (i = j ∧ s ≤ t) := by
  rw [← not_lt, ← not_lt, cons_lt_cons_iff']
  constructor
  · intro h
    rcases lt_trichotomy i j with hij | rfl | hij
    · exact .inl hij
    · exact .inr ⟨rfl, fun hlt => h (.inr ⟨rfl, hlt⟩)⟩
    · exact absurd (.inl hij) h
  · rintro (h | ⟨rfl, h⟩) (h' | ⟨h', h''⟩)
    · exact absurd h (not_lt.2 h'.le)
    · exact absurd h (by omega)
    · exact absurd h' (lt_irrefl _)
    · exact h h''

theorem insert_le {i₁ i₂ j₁ j₂ : List ℕ} (hl : i₁.length = j₁.length) (k : ℕ)
    (h : i₁ ++ i₂ ≤ j₁ ++ j₂) : i₁ ++ k :: i₂ ≤ j₁ ++ k :: j₂ := by
  induction i₁ generalizing j₁ with
  | nil =>
    obtain rfl : j₁ = [] := List.eq_nil_of_length_eq_zero hl.symm
    simp only [List.nil_append] at h ⊢
    rw [cons_le_cons_cases]
    exact .inr ⟨rfl, h⟩
  | cons i i₁ ih =>
    cases j₁ with
    | nil => simp at hl
    | cons j j₁ =>
      simp only [List.cons_append] at h ⊢
      rw [cons_le_cons_cases] at h ⊢
      rcases h with h | ⟨rfl, h⟩
      · exact .inl h
      · exact .inr ⟨rfl, ih (by simpa using hl) h⟩

/-- A parameter with one value may be left out of a grid. -/
theorem firstBest_insert {vs₁ vs₂ : List (List ℝ)} {x : ℝ} {F F' : List ℝ → ℝ} {u : List ℝ}
    (hF : ∀ w₁ w₂, Combination vs₁ w₁ → Combination vs₂ w₂ → F (w₁ ++ x :: w₂) = F' (w₁ ++ w₂))
    (h : FirstBest (vs₁ ++ vs₂) F' u) : ∃ w₁ w₂, u = w₁ ++ w₂ ∧ w₁.length = vs₁.length ∧
      w₂.length = vs₂.length ∧ Combination vs₁ w₁ ∧ Combination vs₂ w₂ ∧
      FirstBest (vs₁ ++ [x] :: vs₂) F (w₁ ++ x :: w₂) := by
  obtain ⟨idx, hu, hb⟩ := h
  obtain ⟨i₁, i₂, w₁, w₂, rfl, rfl, h₁, h₂⟩ := valuesAt_split hu
  refine ⟨w₁, w₂, rfl, h₁.lengths.2, h₂.lengths.2, h₁.comb, h₂.comb, i₁ ++ 0 :: i₂,
    valuesAt_append h₁ (valuesAt_cons_iff.2 ⟨rfl, h₂⟩), ?_⟩
  intro idx' u' hu'
  obtain ⟨j₁, j, j₂, z₁, y, z₂, rfl, rfl, k₁, k, k₂⟩ := valuesAt_split_cons hu'
  obtain ⟨rfl, rfl⟩ : j = 0 ∧ y = x := by
    obtain ⟨hj, hy⟩ := List.getElem?_eq_some_iff.1 k
    simp only [List.length_singleton, Nat.lt_one_iff] at hj
    subst hj
    exact ⟨rfl, hy.symm⟩
  rw [hF _ _ h₁.comb h₂.comb, hF _ _ k₁.comb k₂.comb]
  obtain ⟨m₁, m₂⟩ := hb _ _ (valuesAt_append k₁ k₂)
  exact ⟨m₁, fun e => insert_le (h₁.lengths.1.trans k₁.lengths.1.symm) 0 (m₂ e)⟩

theorem zipWith_insert_sum {α β : Type} {f : α → β → ℚ} {l₁ l₂ : List α} {w₁ w₂ : List β}
    (h : l₁.length = w₁.length) (q : α) (x : β) :
    (List.zipWith f (l₁ ++ q :: l₂) (w₁ ++ x :: w₂)).sum =
      f q x + (List.zipWith f (l₁ ++ l₂) (w₁ ++ w₂)).sum := by
  rw [List.zipWith_append h, List.zipWith_append h, List.zipWith_cons_cons]
  simp only [List.sum_append, List.sum_cons]
  ring

theorem zipWith_insert_sum_real {α β : Type} {f : α → β → ℝ} {l₁ l₂ : List α} {w₁ w₂ : List β}
    (h : l₁.length = w₁.length) (q : α) (x : β) :
    (List.zipWith f (l₁ ++ q :: l₂) (w₁ ++ x :: w₂)).sum =
      f q x + (List.zipWith f (l₁ ++ l₂) (w₁ ++ w₂)).sum := by
  rw [List.zipWith_append h, List.zipWith_append h, List.zipWith_cons_cons]
  simp only [List.sum_append, List.sum_cons]
  ring

namespace FitArgs.Fixing

variable {a b : FitArgs} {l₁ l₂ : List ℕ} {q : ℕ} {v : ℚ} {st : FitState} (h : a.Fixing b l₁ q l₂ v)
include h

theorem sumAt {w₁ w₂ : List ℚ} (hl : l₁.length = w₁.length) (x : ℕ → NdArray ℚ) (idx : List ℕ) :
    a.sumAt st (w₁ ++ v :: w₂) x idx = b.sumAt st (w₁ ++ w₂) x idx := by
  have e1 : b.floating = l₁ ++ l₂ := by rw [h.rest]
  have e2 : b.signal = a.signal := by rw [h.rest]
  unfold FitArgs.sumAt
  rw [h.floating, e1, e2, zipWith_insert_sum hl, (h.fixed.map _).sum_eq, List.map_cons, List.sum_cons]
  ring

theorem backgroundAt {w₁ w₂ : List ℚ} (hl : l₁.length = w₁.length) (x : ℕ → NdArray ℚ)
    (shape : List ℕ) : a.backgroundAt st x shape (w₁ ++ v :: w₂) =
      b.backgroundAt st x shape (w₁ ++ w₂) :=
  congrArg (NdArray.mk _) (funext fun _ => h.sumAt hl _ _)

theorem ownPars_sublist : (b.ownPars st).Sublist (a.ownPars st) := by
  have e1 : b.floating = l₁ ++ l₂ := by rw [h.rest]
  unfold FitArgs.ownPars
  rw [h.floating, e1, List.flatMap_append, List.flatMap_append, List.flatMap_cons]
  exact (List.Sublist.refl _).append (List.sublist_append_right _ _)

theorem parameters_sublist : (b.parameters st).Sublist (a.parameters st) := by
  have e1 : b.config = a.config := by rw [h.rest]
  unfold FitArgs.parameters
  rw [e1]
  exact (List.Sublist.refl _).append h.ownPars_sublist

theorem evaluable {env : FitEnv} {keyOf : ℕ → PyStr} {d : ℕ} (he : a.Evaluable env keyOf d st) :
    b.Evaluable env keyOf d st := by
  have e1 : b.floating = l₁ ++ l₂ := by rw [h.rest]
  have e2 : b.signal = a.signal := by rw [h.rest]
  have e3 : b.config = a.config := by rw [h.rest]
  have hsub : (b.floating ++ b.signal.toList).Sublist (a.floating ++ a.signal.toList) := by
    rw [h.floating, e1, e2]
    exact ((List.Sublist.refl _).append (List.sublist_cons_self _ _)).append (List.Sublist.refl _)
  refine ⟨by rw [h.rest]; exact he.data, he.str, he.cache, he.backgrounds.sublist (hsub.map _), ?_,
    he.dims, fun r hr => he.decays r (hsub.subset hr), ?_, he.pars.sublist h.parameters_sublist,
    by rw [e3]; exact he.globals, fun p hp => he.rates p (h.ownPars_sublist.subset hp)⟩
  · intro r hr
    rcases List.mem_append.1 hr with hr | hr
    · exact he.axes r (List.mem_append_left _ (hsub.subset hr))
    · obtain ⟨e, he', rfl⟩ := List.mem_map.1 hr
      rcases List.mem_cons.1 (h.fixed.subset he') with rfl | hm
      · exact he.axes q (by rw [h.floating]; simp)
      · exact he.axes _ (List.mem_append_right _ (List.mem_map_of_mem hm))
  · rw [e3]
    exact he.names.sublist ((List.Sublist.refl _).append (h.ownPars_sublist.map _))

theorem ownRates (hne : l₁ ++ l₂ ≠ []) (ho : a.OwnRates st) : b.OwnRates st := by
  have e1 : b.floating = l₁ ++ l₂ := by rw [h.rest]
  refine ⟨by rw [e1]; exact hne, by rw [h.rest]; exact ho.config, fun r hr => ho.one r ?_,
    fun p hp => ho.sigmas p (h.parameters_sublist.subset hp), by rw [h.rest]; exact ho.statPerBin,
    by rw [h.rest]; exact ho.perBin⟩
  rw [e1] at hr
  rw [h.floating]
  simp only [List.mem_append, List.mem_cons] at hr ⊢
  tauto

theorem settings (hne : l₁ ++ l₂ ≠ []) (ho : a.OwnRates st) (hs : a.Settings st) : b.Settings st := by
  have e3 : b.config = a.config := by rw [h.rest]
  have hb := h.ownRates hne ho
  refine ⟨fun _ => .inr ?_, by rw [e3, ho.config]; simp, by rw [e3]; exact hs.dimension,
    by rw [h.rest]; exact hs.perBin⟩
  obtain ⟨r, hr⟩ := List.exists_mem_of_ne_nil _ hb.floating
  obtain ⟨p, hp⟩ := hb.one r hr
  exact ⟨r, hr, by rw [hp]; simp⟩

theorem mem_spectra {r : ℕ} (hr : r ∈ b.kept ++ b.fixed.map Prod.fst) :
    r ∈ a.kept ++ a.fixed.map Prod.fst := by
  have e1 : b.floating = l₁ ++ l₂ := by rw [h.rest]
  have e2 : b.signal = a.signal := by rw [h.rest]
  have e4 : b.data = a.data := by rw [h.rest]
  have e5 : ∀ r ∈ b.fixed.map Prod.fst, r = q ∨ r ∈ a.fixed.map Prod.fst := fun r hr => by
    have := (h.fixed.map Prod.fst).subset hr
    simpa using this
  unfold FitArgs.kept at hr ⊢
  rw [e1, e2, e4] at hr
  rw [h.floating]
  simp only [List.mem_append, List.mem_cons] at hr ⊢
  rcases hr with hr | hr
  · tauto
  · rcases e5 r hr with rfl | hr <;> tauto

theorem penaltyAt (ho : a.OwnRates st) {w₁ w₂ : List ℝ} (hl : l₁.length = w₁.length) (x : ℝ) :
    a.penaltyAt st (w₁ ++ x :: w₂) = a.ratePenalty st q x + b.penaltyAt st (w₁ ++ w₂) := by
  have e1 : b.floating = l₁ ++ l₂ := by rw [h.rest]
  have e3 : b.config = a.config := by rw [h.rest]
  have e6 : b.stat = a.stat := by rw [h.rest]
  have hone : ∀ q, ∃ p, q ∈ a.floating → (st.objs q).fit = some [p] := fun q => by
    by_cases hm : q ∈ a.floating
    · obtain ⟨p, hp⟩ := ho.one q hm
      exact ⟨p, fun _ => hp⟩
    · exact ⟨0, fun h => absurd h hm⟩
  choose par hp using hone
  have hflat : ∀ l : List ℕ, (∀ r ∈ l, r ∈ a.floating) →
      l.flatMap (fun r => (st.objs r).fit.getD []) = l.map par := by
    intro l hl
    induction l with
    | nil => rfl
    | cons r l ih =>
      rw [List.flatMap_cons, ih fun r hr => hl r (List.mem_cons_of_mem _ hr), hp r (hl r (by simp))]
      rfl
  unfold FitArgs.penaltyAt FitArgs.ratePenalty FitArgs.parameters FitArgs.ownPars
  rw [e3, e6, ho.config, List.map_nil, List.nil_append, List.nil_append, h.floating, e1,
    hflat (l₁ ++ q :: l₂) (by rw [h.floating]; simp), hflat (l₁ ++ l₂) (by
      rw [h.floating]; intro r hr; simp only [List.mem_append, List.mem_cons] at hr ⊢; tauto),
    List.map_append, List.map_append, List.map_cons,
    zipWith_insert_sum_real (by rw [List.length_map]; exact hl), hp q (by rw [h.floating]; simp)]
  simp only [Option.getD_some, List.map_cons, List.map_nil, List.sum_cons, List.sum_nil, add_zero]
  rfl

end FitArgs.Fixing

end Verif
