import Verif.Spec.Blank
import Verif.Lemmas.Fixing
import Verif.Lemmas.Outside

/-! Helper lemmas: spectra that hold nothing in the region. -/

namespace Verif

open Session

theorem RegionContents.blank {roi : Dict (ℚ × ℚ)} {s : Spectrum} (hr : IsDict roi)
    (hs : CanShrink roi s) (hb : BlankInside roi s) {ns : List PyStr} {c : NdArray ℚ}
    (h : RegionContents roi ns s c) : RegionContents roi ns s ⟨c.shape, fun _ => 0⟩ := by
  obtain ⟨t, ht, p1, p2⟩ := h
  refine ⟨t, ht, p1, fun idx hi => ?_⟩
  obtain ⟨kw, hk, -, he⟩ := ht
  obtain ⟨rs, a1, -, -, a4⟩ := hs.shrunk hr hk
  have a4 := isSub_eqv a4 he
  symm
  calc _ = sumIdx t.data.shape (fun _ => (0 : ℚ)) := sumIdx_congr fun full hf => by
        have hf' : InB (rs.map (fun r => r.2 - r.1)) full := by rw [← a4.1.1]; exact hf
        rw [a4.1.2 full hf, hb _ (slice_inB hs.wf a1 a4.1 hf) (slice_inRegion hs.wf hs.dims hk a1 hf'),
          ite_self]
    _ = _ := sumIdx_zero _

theorem insert_le_insert {i₁ i₂ j₁ j₂ : List ℕ} (hl : i₁.length = j₁.length) {k m : ℕ} (hk : k ≤ m)
    (h : i₁ ++ i₂ ≤ j₁ ++ j₂) : i₁ ++ k :: i₂ ≤ j₁ ++ m :: j₂ := by
  induction i₁ generalizing j₁ with
  | nil =>
    obtain rfl : j₁ = [] := List.eq_nil_of_length_eq_zero hl.symm
    simp only [List.nil_append] at h ⊢
    rw [cons_le_cons_cases]
    rcases lt_or_eq_of_le hk with hk | hk
    · exact .inl hk
    · exact .inr ⟨hk, h⟩
  | cons i i₁ ih =>
    cases j₁ with
    | nil => simp at hl
    | cons j j₁ =>
      simp only [List.cons_append] at h ⊢
      rw [cons_le_cons_cases] at h ⊢
      rcases h with h | ⟨rfl, h⟩
      · exact .inl h
      · exact .inr ⟨rfl, ih (by simpa using hl) h⟩

/-- The best value of a parameter on which only its own penalty depends. -/
theorem firstBest_separate {vs₁ vs₂ : List (List ℝ)} {vs : List ℝ} {x : ℝ} {F F' : List ℝ → ℝ}
    {P : ℝ → ℝ} {u : List ℝ}
    (hF : ∀ w₁ y w₂, Combination vs₁ w₁ → Combination vs₂ w₂ → F (w₁ ++ y :: w₂) = P y + F' (w₁ ++ w₂))
    (hx : FirstSmallest vs P x) (h : FirstBest (vs₁ ++ vs₂) F' u) :
    ∃ w₁ w₂, u = w₁ ++ w₂ ∧ Combination vs₁ w₁ ∧ Combination vs₂ w₂ ∧
      FirstBest (vs₁ ++ vs :: vs₂) F (w₁ ++ x :: w₂) := by
  obtain ⟨idx, hu, hb⟩ := h
  obtain ⟨i, hi, hbi⟩ := hx
  obtain ⟨i₁, i₂, w₁, w₂, rfl, rfl, h₁, h₂⟩ := valuesAt_split hu
  refine ⟨w₁, w₂, rfl, h₁.comb, h₂.comb, i₁ ++ i :: i₂,
    valuesAt_append h₁ (valuesAt_cons_iff.2 ⟨hi, h₂⟩), ?_⟩
  intro idx' u' hu'
  obtain ⟨j₁, j, j₂, z₁, y, z₂, rfl, rfl, k₁, k, k₂⟩ := valuesAt_split_cons hu'
  rw [hF _ _ _ h₁.comb h₂.comb, hF _ _ _ k₁.comb k₂.comb]
  obtain ⟨m₁, m₂⟩ := hb _ _ (valuesAt_append k₁ k₂)
  obtain ⟨n₁, n₂⟩ := hbi j y k
  exact ⟨by linarith, fun e => insert_le_insert (h₁.lengths.1.trans k₁.lengths.1.symm)
    (n₂ (by linarith)) (m₂ (by linarith))⟩

/-- There is a first smallest value. -/
theorem exists_firstSmallest {vs : List ℝ} (P : ℝ → ℝ) (h : vs ≠ []) : ∃ x, FirstSmallest vs P x := by
  induction vs with
  | nil => exact absurd rfl h
  | cons v vs ih =>
    by_cases hn : vs = []
    · subst hn
      refine ⟨v, 0, rfl, fun j y hj => ?_⟩
      cases j with
      | zero => obtain rfl : v = y := by simpa using hj
                exact ⟨le_rfl, fun _ => le_rfl⟩
      | succ j => simp at hj
    · obtain ⟨x, i, hi, hb⟩ := ih hn
      by_cases hv : P v ≤ P x
      · refine ⟨v, 0, rfl, fun j y hj => ⟨?_, fun _ => Nat.zero_le _⟩⟩
        cases j with
        | zero => obtain rfl : v = y := by simpa using hj
                  exact le_rfl
        | succ j => exact hv.trans (hb j y (by simpa using hj)).1
      · refine ⟨x, i + 1, by simpa using hi, fun j y hj => ?_⟩
        cases j with
        | zero =>
          obtain rfl : v = y := by simpa using hj
          exact ⟨(not_le.1 hv).le, fun e => absurd e.le hv⟩
        | succ j =>
          obtain ⟨m₁, m₂⟩ := hb j y (by simpa using hj)
          exact ⟨m₁, fun e => Nat.succ_le_succ (m₂ e)⟩

namespace FitArgs.Without

variable {a b : FitArgs} {l₁ l₂ : List ℕ} {q : ℕ} {st : FitState} (h : a.Without b l₁ q l₂)
include h

/-- The arguments with the background fixed instead. -/
theorem fixing (v : ℚ) : a.Fixing { b with fixed := (q, v) :: a.fixed } l₁ q l₂ v where
  floating := h.floating
  fixed := List.Perm.refl _
  rest := by rw [h.rest]

theorem fixed : b.fixed = a.fixed := by rw [h.rest]

theorem sumAt {w₁ w₂ : List ℚ} {v : ℚ} (hl : l₁.length = w₁.length) {x : ℕ → NdArray ℚ}
    (hx : ∀ idx, (x q).get idx = 0) (idx : List ℕ) :
    a.sumAt st (w₁ ++ v :: w₂) x idx = b.sumAt st (w₁ ++ w₂) x idx := by
  have e1 : b.floating = l₁ ++ l₂ := by rw [h.rest]
  have e2 : b.signal = a.signal := by rw [h.rest]
  unfold FitArgs.sumAt
  rw [h.floating, e1, e2, h.fixed, zipWith_insert_sum hl, hx, mul_zero, zero_add]

theorem backgroundAt {w₁ w₂ : List ℚ} {v : ℚ} (hl : l₁.length = w₁.length) {x : ℕ → NdArray ℚ}
    (hx : ∀ idx, (x q).get idx = 0) (shape : List ℕ) : a.backgroundAt st x shape (w₁ ++ v :: w₂) =
      b.backgroundAt st x shape (w₁ ++ w₂) :=
  congrArg (NdArray.mk _) (funext fun _ => h.sumAt hl hx _)

theorem penaltyAt (ho : a.OwnRates st) {w₁ w₂ : List ℝ} (hl : l₁.length = w₁.length) (x : ℝ) :
    a.penaltyAt st (w₁ ++ x :: w₂) = a.ratePenalty st q x + b.penaltyAt st (w₁ ++ w₂) :=
  (h.fixing 0).penaltyAt ho hl x

theorem ownRates (hne : l₁ ++ l₂ ≠ []) (ho : a.OwnRates st) : b.OwnRates st := by
  obtain ⟨h1, h2, h3, h4, h5, h6⟩ := (h.fixing 0).ownRates hne ho
  exact ⟨h1, h2, h3, h4, h5, h6⟩

theorem settings (hne : l₁ ++ l₂ ≠ []) (ho : a.OwnRates st) (hs : a.Settings st) : b.Settings st := by
  obtain ⟨h1, h2, h3, h4⟩ := (h.fixing 0).settings hne ho hs
  exact ⟨h1, h2, h3, h4⟩

theorem evaluable {env : FitEnv} {keyOf : ℕ → PyStr} {d : ℕ} (he : a.Evaluable env keyOf d st) :
    b.Evaluable env keyOf d st := by
  obtain ⟨h1, h2, h3, h4, h5, h6, h7, h8, h9, h10, h11⟩ := (h.fixing 0).evaluable he
  refine ⟨h1, h2, h3, h4, fun r hr => h5 r ?_, h6, h7, h8, h9, h10, h11⟩
  rw [h.fixed] at hr
  simp only [List.mem_append, List.map_cons, List.mem_cons] at hr ⊢
  tauto

theorem kept_sublist : b.kept.Sublist a.kept := by
  have e1 : b.floating = l₁ ++ l₂ := by rw [h.rest]
  have e2 : b.signal = a.signal := by rw [h.rest]
  have e4 : b.data = a.data := by rw [h.rest]
  unfold FitArgs.kept
  rw [h.floating, e1, e2, e4]
  exact (List.Sublist.refl _).append ((List.Sublist.refl _).append (List.sublist_cons_self _ _))

theorem given {ts : List Spectrum} (hg : a.Given ts st) : b.Given ts st := by
  have e1 : b.roi = a.roi := by rw [h.rest]
  have hsub : (b.kept ++ b.fixed.map Prod.fst).Sublist (a.kept ++ a.fixed.map Prod.fst) := by
    rw [h.fixed]
    exact h.kept_sublist.append (List.Sublist.refl _)
  exact ⟨by rw [e1]; exact hg.region, by rw [e1]; exact hg.some,
    fun r hr => hg.alloc r (h.kept_sublist.subset hr), hg.own.sublist (hsub.map _),
    fun r hr => by rw [e1]; exact hg.able r (hsub.subset hr), by rw [e1, h.fixed]; exact hg.fixed⟩

theorem withSignal (r : ℕ) : (a.withSignal r).Without (b.withSignal r) l₁ q l₂ where
  floating := h.floating
  rest := congrArg (fun e : FitArgs => e.withSignal r) h.rest

theorem mem_spectra {r : ℕ} (hr : r ∈ b.kept ++ b.fixed.map Prod.fst) :
    r ∈ a.kept ++ a.fixed.map Prod.fst := by
  rw [h.fixed] at hr
  rcases List.mem_append.1 hr with hr | hr
  · exact List.mem_append_left _ (h.kept_sublist.subset hr)
  · exact List.mem_append_right _ hr

theorem limitOn (hne : l₁ ++ l₂ ≠ []) (ho : a.OwnRates st) {r d : ℕ} {ts : List Spectrum}
    (hg : a.LimitOn r d ts st) : b.LimitOn r d ts st := by
  refine ⟨(h.withSignal r).given hg.given, h.settings hne ho hg.settings, ?_, ?_,
    fun s hs => hg.axes s ((h.withSignal r).mem_spectra hs), hg.fit, hg.decays, ?_⟩
  · rw [h.rest]; exact hg.signal
  · rw [h.rest]; exact hg.data
  · rw [h.rest]; exact hg.region

end FitArgs.Without

namespace FitArgs.WithoutFixed

variable {a b : FitArgs} {q : ℕ} {v : ℚ} {st : FitState} (h : a.WithoutFixed b q v)
include h

theorem sumAt {w : List ℚ} {x : ℕ → NdArray ℚ} (hx : ∀ idx, (x q).get idx = 0) (idx : List ℕ) :
    a.sumAt st w x idx = b.sumAt st w x idx := by
  have e1 : b.floating = a.floating := by rw [h.rest]
  have e2 : b.signal = a.signal := by rw [h.rest]
  unfold FitArgs.sumAt
  rw [e1, e2, (h.fixed.map _).sum_eq, List.map_cons, List.sum_cons, hx, mul_zero, zero_add]

theorem backgroundAt {x : ℕ → NdArray ℚ} (hx : ∀ idx, (x q).get idx = 0) (shape : List ℕ)
    (w : List ℚ) : a.backgroundAt st x shape w = b.backgroundAt st x shape w :=
  congrArg (NdArray.mk _) (funext fun _ => h.sumAt hx _)

theorem fixedTotal {x : ℕ → NdArray ℚ} (hx : ∀ idx, (x q).get idx = 0) (shape : List ℕ) :
    a.fixedTotal st x shape = b.fixedTotal st x shape := by
  refine congrArg (NdArray.mk _) (funext fun idx => ?_)
  rw [(h.fixed.map _).sum_eq, List.map_cons, List.sum_cons, hx, mul_zero, zero_add]

theorem penaltyAt (u : List ℝ) : b.penaltyAt st u = a.penaltyAt st u := by
  rw [h.rest]; rfl

theorem ownRates (ho : a.OwnRates st) : b.OwnRates st := by
  rw [h.rest]
  exact ⟨ho.floating, ho.config, ho.one, ho.sigmas, ho.statPerBin, ho.perBin⟩

theorem settings (hs : a.Settings st) : b.Settings st := by
  rw [h.rest]
  exact ⟨hs.floating, hs.fixed, hs.dimension, hs.perBin⟩

theorem mem_fixed {r : ℕ} (hr : r ∈ b.fixed.map Prod.fst) : r ∈ a.fixed.map Prod.fst :=
  (h.fixed.map Prod.fst).symm.subset (List.mem_cons_of_mem _ hr)

theorem evaluable {env : FitEnv} {keyOf : ℕ → PyStr} {d : ℕ} (he : a.Evaluable env keyOf d st) :
    b.Evaluable env keyOf d st := by
  have hm := fun r => h.mem_fixed (r := r)
  rw [h.rest] at hm ⊢
  refine ⟨he.data, he.str, he.cache, he.backgrounds, fun r hr => he.axes r ?_, he.dims, he.decays,
    he.names, he.pars, he.globals, he.rates⟩
  rcases List.mem_append.1 hr with hr | hr
  · exact List.mem_append_left _ hr
  · exact List.mem_append_right _ (hm r hr)

theorem mem_spectra {r : ℕ} (hr : r ∈ b.kept ++ b.fixed.map Prod.fst) :
    r ∈ a.kept ++ a.fixed.map Prod.fst := by
  have e : b.kept = a.kept := by rw [h.rest]; rfl
  rcases List.mem_append.1 hr with hr | hr
  · exact List.mem_append_left _ (e ▸ hr)
  · exact List.mem_append_right _ (h.mem_fixed hr)

theorem withSignal (r : ℕ) : (a.withSignal r).WithoutFixed (b.withSignal r) q v where
  fixed := h.fixed
  rest := congrArg (fun e : FitArgs => e.withSignal r) h.rest

end FitArgs.WithoutFixed

end Verif
