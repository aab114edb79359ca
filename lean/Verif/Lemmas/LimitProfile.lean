import Verif.Spec.LimitProfile
import Verif.Props.LimitFloating

/-! Helper lemmas: the statistic is convex in signal and rates together. -/

namespace Verif

variable {a : FitArgs} {st : FitState} {c : ℕ → NdArray ℚ} {d r : ℕ} {vss : List (List ℝ)}

/-- The values between `u` and `v`. -/
def mixed (t : ℚ) (u v : List ℚ) : List ℚ := List.zipWith (fun p q => (1 - t) * p + t * q) u v

theorem sum_mixed {α : Type} (t : ℚ) (f : α → ℚ) (l : List α) {u v : List ℚ} (h : u.length = v.length) :
    (List.zipWith (fun r p => p * f r) l (mixed t u v)).sum =
      (1 - t) * (List.zipWith (fun r p => p * f r) l u).sum +
        t * (List.zipWith (fun r p => p * f r) l v).sum := by
  induction l generalizing u v with
  | nil => simp
  | cons x l ih =>
    match u, v, h with
    | [], [], _ => simp [mixed]
    | p :: u, q :: v, h =>
      have := ih (u := u) (v := v) (by simpa using h)
      unfold mixed at this ⊢
      simp only [List.zipWith_cons_cons, List.sum_cons, this]
      ring

theorem sumAt_mixed (t : ℚ) {u v : List ℚ} (h : u.length = v.length) (idx : List ℕ) :
    a.sumAt st (mixed t u v) c idx = (1 - t) * a.sumAt st u c idx + t * a.sumAt st v c idx := by
  have e : ∀ w, (List.zipWith (fun r p => p / (st.view r).numDecays * (c r).get idx) a.floating w) =
      List.zipWith (fun r p => p * ((c r).get idx / (st.view r).numDecays)) a.floating w := by
    intro w
    congr 1
    funext r p
    ring
  unfold FitArgs.sumAt
  rw [e, e, e, sum_mixed t _ _ h]
  ring

theorem compared_mixed (sb : Bool) (t : ℚ) (shape : List ℕ) (f g : List ℕ → ℚ) :
    comparedContents sb ⟨shape, fun idx => (1 - t) * f idx + t * g idx⟩ =
      List.zipWith (fun p q => (1 - (t : ℝ)) * p + t * q) (comparedContents sb ⟨shape, f⟩)
        (comparedContents sb ⟨shape, g⟩) := by
  unfold comparedContents
  cases sb with
  | true =>
    simp only [if_true, NdArray.sum, List.zipWith_cons_cons, List.zipWith_nil_right]
    rw [sumIdx_add]
    simp only [mul_comm _ (f _), mul_comm _ (g _)]
    rw [sumIdx_mul, sumIdx_mul]
    push_cast
    congr 1
    ring
  | false =>
    simp only [Bool.false_eq_true, if_false, List.zipWith_map, List.zipWith_self]
    refine List.map_congr_left fun idx _ => ?_
    push_cast
    ring

theorem expectedAt_mixed (t x y : ℝ) (p q s : List ℝ) :
    expectedAt (List.zipWith (fun p q => (1 - t) * p + t * q) p q) s ((1 - t) * x + t * y) =
      expectedAt (expectedAt p s x) (List.zipWith (fun p q => q - p) (expectedAt p s x)
        (expectedAt q s y)) t := by
  unfold expectedAt
  induction p generalizing q s with
  | nil => simp
  | cons b p ih =>
    match q, s with
    | [], _ => simp
    | _ :: _, [] => simp
    | b' :: q, z :: s =>
      simp only [List.zipWith_cons_cons, ih]
      congr 1
      ring

theorem expectedAt_ends {p q : List ℝ} (h : p.length = q.length) :
    expectedAt p (List.zipWith (fun p q => q - p) p q) 0 = p ∧
      expectedAt p (List.zipWith (fun p q => q - p) p q) 1 = q := by
  unfold expectedAt
  induction p generalizing q with
  | nil =>
    cases q with
    | nil => simp
    | cons b q => simp at h
  | cons b p ih =>
    match q, h with
    | b' :: q, h =>
      obtain ⟨h1, h2⟩ := ih (q := q) (by simpa using h)
      simp only [List.zipWith_cons_cons, h1, h2]
      constructor <;> congr 1 <;> ring

/-- The statistic between two signals and two sets of rates. -/
theorem stat_mixed {s : Stat} {obs : List ℝ} {x y t : ℚ} {u v : List ℚ}
    (ht : 0 ≤ t) (ht' : t ≤ 1) (h : u.length = v.length)
    (hx : s.Sound obs (a.withSignalAt st c d r x u)) (hy : s.Sound obs (a.withSignalAt st c d r y v))
    {G₁ G₂ G : ℝ} (h₁ : s.Total obs (a.withSignalAt st c d r x u) G₁)
    (h₂ : s.Total obs (a.withSignalAt st c d r y v) G₂)
    (h₃ : s.Total obs (a.withSignalAt st c d r ((1 - t) * x + t * y) (mixed t u v)) G) :
    G ≤ (1 - t) * G₁ + t * G₂ := by
  have hlen : (a.withSignalAt st c d r x u).length = (a.withSignalAt st c d r y v).length :=
    hx.length_eq.symm.trans hy.length_eq
  obtain ⟨e0, e1⟩ := expectedAt_ends hlen
  have e : a.withSignalAt st c d r ((1 - t) * x + t * y) (mixed t u v) =
      expectedAt (a.withSignalAt st c d r x u) (List.zipWith (fun p q => q - p)
        (a.withSignalAt st c d r x u) (a.withSignalAt st c d r y v)) ((1 - (t : ℝ)) * 0 + t * 1) := by
    have hb : comparedContents a.singleBin (a.backgroundAt st c (c d).shape (mixed t u v)) =
        List.zipWith (fun p q => (1 - (t : ℝ)) * p + t * q)
          (comparedContents a.singleBin (a.backgroundAt st c (c d).shape u))
          (comparedContents a.singleBin (a.backgroundAt st c (c d).shape v)) := by
      unfold FitArgs.backgroundAt
      rw [← compared_mixed]
      congr 2
      funext idx
      exact sumAt_mixed t h idx
    have hd : (((1 - t) * x + t * y : ℚ) : ℝ) / ((st.view r).numDecays : ℝ) =
        (1 - (t : ℝ)) * ((x : ℝ) / ((st.view r).numDecays : ℝ)) +
          t * ((y : ℝ) / ((st.view r).numDecays : ℝ)) := by
      push_cast
      ring
    unfold FitArgs.withSignalAt
    rw [hb, hd, expectedAt_mixed]
    congr 1
    ring
  rw [e] at h₃
  exact c132_convex s obs _ _ (by simp [hlen]) 0 1 t (by exact_mod_cast ht) (by exact_mod_cast ht')
    (by rw [e0]; exact hx) (by rw [e1]; exact hy) G G₁ G₂ (by rw [e0]; exact h₁) (by rw [e1]; exact h₂) h₃

theorem pull_mixed (s : Stat) (t p q prior sigma : ℝ) (ht : 0 ≤ t) (ht' : t ≤ 1) :
    pull s ((1 - t) * p + t * q) prior sigma ≤ (1 - t) * pull s p prior sigma + t * pull s q prior sigma := by
  have hk : (0 : ℝ) ≤ if s = .bcLL then 1 / 2 else 1 := by split <;> norm_num
  unfold pull
  generalize (if s = .bcLL then (1 : ℝ) / 2 else 1) = k at hk
  have e : ((1 - t) * p + t * q - prior) / sigma =
      (1 - t) * ((p - prior) / sigma) + t * ((q - prior) / sigma) := by ring
  rw [e]
  generalize (p - prior) / sigma = y
  generalize (q - prior) / sigma = z
  have h : ((1 - t) * y + t * z) ^ 2 ≤ (1 - t) * y ^ 2 + t * z ^ 2 := by
    have : 0 ≤ t * (1 - t) * (y - z) ^ 2 :=
      mul_nonneg (mul_nonneg ht (by linarith)) (sq_nonneg _)
    nlinarith
  calc k * ((1 - t) * y + t * z) ^ 2 ≤ k * ((1 - t) * y ^ 2 + t * z ^ 2) :=
        mul_le_mul_of_nonneg_left h hk
    _ = _ := by ring

theorem sum_convex {α : Type} {f : α → ℝ → ℝ} {t : ℚ}
    (hf : ∀ p y z, f p ((1 - (t : ℝ)) * y + t * z) ≤ (1 - t) * f p y + t * f p z) (ps : List α)
    {u v : List ℚ} (h : u.length = v.length) :
    (List.zipWith f ps ((mixed t u v).map (fun x : ℚ => (x : ℝ)))).sum ≤
      (1 - t) * (List.zipWith f ps (u.map (fun x : ℚ => (x : ℝ)))).sum +
        t * (List.zipWith f ps (v.map (fun x : ℚ => (x : ℝ)))).sum := by
  induction ps generalizing u v with
  | nil => simp
  | cons p ps ih =>
    match u, v, h with
    | [], [], _ => simp [mixed]
    | y :: u, z :: v, h =>
      have := ih (u := u) (v := v) (by simpa using h)
      unfold mixed at this ⊢
      simp only [List.zipWith_cons_cons, List.map_cons, List.sum_cons]
      push_cast
      have := hf p y z
      linarith

theorem penalty_mixed {t : ℚ} (ht : 0 ≤ t) (ht' : t ≤ 1) {u v : List ℚ} (h : u.length = v.length) :
    a.penaltyAt st ((mixed t u v).map (fun x : ℚ => (x : ℝ))) ≤
      (1 - t) * a.penaltyAt st (u.map (fun x : ℚ => (x : ℝ))) +
        t * a.penaltyAt st (v.map (fun x : ℚ => (x : ℝ))) := by
  have ht : (0 : ℝ) ≤ t := by exact_mod_cast ht
  have ht' : (t : ℝ) ≤ 1 := by exact_mod_cast ht'
  unfold FitArgs.penaltyAt
  refine sum_convex (fun p y z => ?_) _ h
  cases (st.params p).sigma with
  | none => simp
  | some sigma => exact pull_mixed _ _ _ _ _ _ ht ht'

theorem within_mixed {t : ℚ} (ht : 0 ≤ t) (ht' : t ≤ 1) {u v : List ℚ} (hu : WithinGrid vss u)
    (hv : WithinGrid vss v) : WithinGrid vss (mixed t u v) := by
  have ht : (0 : ℝ) ≤ t := by exact_mod_cast ht
  have ht' : (t : ℝ) ≤ 1 := by exact_mod_cast ht'
  unfold WithinGrid mixed at *
  induction hu generalizing v with
  | nil => cases hv; exact .nil
  | @cons y vs u vss h1 _ ih =>
    match v, hv with
    | z :: v, .cons h2 hv =>
      refine .cons ?_ (ih hv)
      obtain ⟨p, hp, q, hq, a1, a2⟩ := h1
      obtain ⟨p', hp', q', hq', b1, b2⟩ := h2
      push_cast
      have k1 : min p p' ∈ vs := by rcases min_choice p p' with e | e <;> rw [e] <;> assumption
      have k2 : max q q' ∈ vs := by rcases max_choice q q' with e | e <;> rw [e] <;> assumption
      refine ⟨_, k1, _, k2, ?_, ?_⟩
      · have c1 := min_le_left p p'
        have c2 := min_le_right p p'
        nlinarith
      · have c1 := le_max_left q q'
        have c2 := le_max_right q q'
        nlinarith

end Verif
