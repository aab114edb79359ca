import Verif.Lemmas.TestStatistic
import Mathlib.Analysis.Complex.ExponentialBounds

/-!
# C35–C41, C74: test statistics
-/

namespace Verif

open Real

theorem threshold_eq : zeroThreshold = statEps := rfl

/-! ### C35 -/

theorem bin_nonneg {st : Stat} (h : st ≠ .extLL) (o e : ℝ) : 0 ≤ st.bin o e := by
  have h1 := bakerCousinsBin_nonneg o e
  cases st with
  | bcChi => simp only [Stat.bin]; linarith
  | bcChiUp =>
    simp only [Stat.bin]
    split
    · rfl
    · linarith
  | bcLL => exact h1
  | neyman => exact neymanBin_nonneg o e
  | pearson => exact pearsonBin_nonneg o e
  | extLL => exact absurd rfl h

/-- **C35, sign.** Every statistic but the extended log likelihood returns a non-negative
number, whatever the arrays. -/
theorem c35_nonneg (st : Stat) (hst : st ≠ .extLL) (obs exp : List ℝ)
    (h : obs.length = exp.length) : ∃ v, st.Total obs exp v ∧ 0 ≤ v := by
  refine ⟨_, (total_iff st h _).2 rfl, ?_⟩
  apply List.sum_nonneg
  intro x hx
  obtain ⟨b, -, rfl⟩ := List.mem_map.1 hx
  exact bin_nonneg hst _ _

/-- **C35, agreement.** With all values at or above the threshold, the Baker-Cousins chi
squared, its likelihood version, Pearson's and Neyman's statistics are zero exactly when
observed and expected are equal. -/
theorem c35_zero_iff (st : Stat) (hst : st = .bcChi ∨ st = .bcLL ∨ st = .pearson ∨ st = .neyman)
    (obs exp : List ℝ) (h : obs.length = exp.length) (ho : ∀ o ∈ obs, zeroThreshold ≤ o)
    (he : ∀ e ∈ exp, zeroThreshold ≤ e) : st.Total obs exp 0 ↔ obs = exp := by
  have hne : st ≠ .extLL := by rcases hst with rfl | rfl | rfl | rfl <;> simp
  rw [total_iff st h, eq_comm, sum_zero_iff, ← zip_eq_iff h]
  · simp only [List.forall_mem_map]
    refine forall₂_congr fun b hb => ?_
    have hb1 := ho b.1 (List.of_mem_zip (by simpa using hb)).1
    have hb2 := he b.2 (List.of_mem_zip (by simpa using hb)).2
    rw [threshold_eq] at hb1 hb2
    rcases hst with rfl | rfl | rfl | rfl
    · simp only [Stat.bin, mul_eq_zero, two_ne_zero, false_or]
      exact bakerCousinsBin_eq_zero hb1 hb2
    · exact bakerCousinsBin_eq_zero hb1 hb2
    · exact pearsonBin_eq_zero hb1 hb2
    · exact neymanBin_eq_zero hb1 hb2
  · intro x hx
    obtain ⟨b, -, rfl⟩ := List.mem_map.1 hx
    exact bin_nonneg hne _ _

/-- The hypotheses of C35 hold for `[1, 2]` observed and `[2, 2]` expected. -/
example : ([1, 2] : List ℝ).length = ([2, 2] : List ℝ).length ∧
    (∀ o ∈ ([1, 2] : List ℝ), zeroThreshold ≤ o) ∧ (∀ e ∈ ([2, 2] : List ℝ), zeroThreshold ≤ e) ∧
    ([1, 2] : List ℝ) ≠ [2, 2] := by
  refine ⟨rfl, ?_, ?_, ?_⟩
  · intro o ho
    simp only [List.mem_cons, List.not_mem_nil, or_false] at ho
    rcases ho with rfl | rfl <;> norm_num [zeroThreshold]
  · intro o ho
    simp only [List.mem_cons, List.not_mem_nil, or_false] at ho
    rcases ho with rfl | rfl <;> norm_num [zeroThreshold]
  · norm_num

/-! ### C74: the one-sided statistic -/

/-- **C74, restriction.** The one-sided statistic is the chi squared of the bins in which the
expectation is at least the observation. -/
theorem c74_restriction (bins : List (ℝ × ℝ)) (v : ℝ) :
    Stat.bcChiUp.Total (bins.map Prod.fst) (bins.map Prod.snd) v ↔
      Stat.bcChi.Total ((bins.filter (fun b => decide (b.1 ≤ b.2))).map Prod.fst)
        ((bins.filter (fun b => decide (b.1 ≤ b.2))).map Prod.snd) v := by
  have hz : ∀ L : List (ℝ × ℝ), (L.map Prod.fst).zip (L.map Prod.snd) = L := by
    intro L
    induction L with
    | nil => rfl
    | cons b L ih => simp [ih]
  rw [total_iff _ (by simp), total_iff _ (by simp), hz, hz]
  have : ((bins.map (fun b => Stat.bcChiUp.bin b.1 b.2)).sum) =
      ((bins.filter (fun b => decide (b.1 ≤ b.2))).map (fun b => Stat.bcChi.bin b.1 b.2)).sum := by
    induction bins with
    | nil => rfl
    | cons b L ih =>
      rw [List.map_cons, List.sum_cons, ih]
      by_cases h : b.1 ≤ b.2
      · rw [List.filter_cons_of_pos (by simpa using h), List.map_cons, List.sum_cons]
        congr 1
        simp only [Stat.bin]
        rw [if_neg (not_lt.2 h)]
      · rw [List.filter_cons_of_neg (by simpa using h)]
        simp only [Stat.bin]
        rw [if_pos (not_le.1 h), zero_add]
  rw [this]

/-- **C74, zero.** With expectations at or above the threshold, the one-sided statistic is zero
exactly when no bin has fewer events than expected. -/
theorem c74_zero_iff (obs exp : List ℝ) (h : obs.length = exp.length)
    (he : ∀ e ∈ exp, zeroThreshold ≤ e) :
    Stat.bcChiUp.Total obs exp 0 ↔ ∀ b ∈ obs.zip exp, b.2 ≤ b.1 := by
  rw [total_iff _ h, eq_comm, sum_zero_iff]
  · simp only [List.forall_mem_map]
    refine forall₂_congr fun b hb => ?_
    have hb2 := he b.2 (List.of_mem_zip (by simpa using hb)).2
    rw [threshold_eq] at hb2
    simp only [Stat.bin]
    by_cases hlt : b.2 < b.1
    · simp [hlt, hlt.le]
    · rw [if_neg hlt]
      rw [not_lt] at hlt
      by_cases ho : statEps ≤ b.1
      · rw [mul_eq_zero, or_iff_right two_ne_zero, bakerCousinsBin_eq_zero ho hb2]
        constructor
        · intro e; rw [e]
        · intro e; exact le_antisymm hlt e
      · rw [not_le] at ho
        have : bakerCousinsBin b.1 b.2 = b.2 := by
          unfold bakerCousinsBin
          dsimp only
          rw [if_pos ho, clampEps_of_ge hb2]
        rw [this]
        have := statEps_pos
        constructor
        · intro e; linarith
        · intro e; linarith
  · intro x hx
    obtain ⟨b, -, rfl⟩ := List.mem_map.1 hx
    exact bin_nonneg (by simp) _ _

/-- The hypotheses of C74 hold for a bin above and a bin below expectation. -/
example : ([3, 1] : List ℝ).length = ([2, 2] : List ℝ).length ∧
    (∀ e ∈ ([2, 2] : List ℝ), zeroThreshold ≤ e) := by
  refine ⟨rfl, ?_⟩
  intro o ho
  simp only [List.mem_cons, List.not_mem_nil, or_false] at ho
  rcases ho with rfl | rfl <;> norm_num [zeroThreshold]

/-! ### C36 -/

/-- The per-bin values. -/
noncomputable def Stat.cell (st : Stat) (o e : ℝ) : ℝ :=
  match st with
  | .bcChiUp => 2 * bakerCousinsBin o e
  | .extLL => clampEps e - o * log (clampEps e)
  | st => st.bin o e

theorem allClose_refl (a : ℝ) : allClose a a := by
  unfold allClose
  rw [sub_self, abs_zero]
  positivity

theorem perBin_of {st : Stat} {obs exp : List ℝ} (h : obs.length = exp.length)
    (hc : st = .bcChi ∨ st = .bcChiUp →
      allClose (List.zipWith st.cell obs exp).sum (st.compute obs exp).value) :
    st.PerBin obs exp (List.zipWith st.cell obs exp) := by
  unfold Stat.PerBin Stat.computeStatistic
  simp only [arr, List.length_singleton, ne_eq, not_true_eq_false, if_false, h, if_true]
  have hm : List.map (fun x => 2 * x) (List.zipWith bakerCousinsBin obs exp) =
      List.zipWith (fun o e => 2 * bakerCousinsBin o e) obs exp := by
    rw [List.map_zipWith]
  cases st with
  | bcChi =>
    have := hc (Or.inl rfl)
    simp only [Stat.getStats]
    rw [show List.zipWith Stat.bcChi.cell obs exp =
      List.zipWith (fun o e => 2 * bakerCousinsBin o e) obs exp from rfl, ← hm] at this ⊢
    rw [if_pos this]
    exact ⟨_, _, rfl⟩
  | bcChiUp =>
    have := hc (Or.inr rfl)
    simp only [Stat.getStats]
    rw [show List.zipWith Stat.bcChiUp.cell obs exp =
      List.zipWith (fun o e => 2 * bakerCousinsBin o e) obs exp from rfl, ← hm] at this ⊢
    rw [if_pos this]
    exact ⟨_, _, rfl⟩
  | bcLL => exact ⟨_, _, rfl⟩
  | neyman => exact ⟨_, _, rfl⟩
  | pearson => exact ⟨_, _, rfl⟩
  | extLL => exact ⟨_, _, rfl⟩

/-- The per-bin values are those of the total, bin by bin. -/
def GoodBins (st : Stat) (obs exp : List ℝ) : Prop :=
  ∃ l v, st.PerBin obs exp l ∧ st.Total obs exp v ∧ l.sum = v ∧ l.length = obs.length ∧
    ∀ (i : ℕ) o e, obs[i]? = some o → exp[i]? = some e →
      ∃ b, l[i]? = some b ∧ st.Total [o] [e] b

theorem goodBins_of {st : Stat} {obs exp : List ℝ} (h : obs.length = exp.length)
    (hb : ∀ b ∈ obs.zip exp, st.cell b.1 b.2 = st.bin b.1 b.2) : GoodBins st obs exp := by
  have hz : List.zipWith st.cell obs exp = (obs.zip exp).map (fun b => st.bin b.1 b.2) := by
    rw [← List.map_uncurry_zip_eq_zipWith]
    exact List.map_congr_left hb
  have hs : (List.zipWith st.cell obs exp).sum = (st.compute obs exp).value := by
    rw [hz, compute_value st h]
  refine ⟨_, _, perBin_of h ?_, (total_iff st h _).2 rfl, by rw [hz], ?_, ?_⟩
  · intro _; rw [hs]; exact allClose_refl _
  · simp [h]
  · intro i o e ho he
    refine ⟨st.cell o e, ?_, ?_⟩
    · rw [List.getElem?_zipWith, ho, he]
    · rw [total_iff st (by simp)]
      have := hb (o, e) (by
        apply List.mem_of_getElem? (i := i)
        rw [List.getElem?_zip_eq_some]
        exact ⟨ho, he⟩)
      simpa using this

/-- **C36.** For the Baker-Cousins chi squared and likelihood, Neyman's and Pearson's
statistics the per-bin call always succeeds; its values sum to the total, and each one is
the statistic of that bin alone. -/
theorem c36_sum (st : Stat) (hst : st ≠ .bcChiUp ∧ st ≠ .extLL) (obs exp : List ℝ)
    (h : obs.length = exp.length) :
    ∃ l v, st.PerBin obs exp l ∧ st.Total obs exp v ∧ l.sum = v ∧ l.length = obs.length ∧
    ∀ (i : ℕ) o e, obs[i]? = some o → exp[i]? = some e →
      ∃ b, l[i]? = some b ∧ st.Total [o] [e] b := by
  apply goodBins_of h
  intro b _
  cases st with
  | bcChiUp => exact absurd rfl hst.1
  | extLL => exact absurd rfl hst.2
  | _ => rfl

/-- **C36, one-sided statistic, extended likelihood.** The full claim is that of `c36_sum` for
these two as well. It holds for the one-sided statistic when no bin has more events than
expected, and for the extended likelihood when the expectations are at or above the
threshold. Missing: the other arrays, for which it fails (`c36_up_negation`,
`c36_extended_negation`). -/
theorem c36_sum_partial (obs exp : List ℝ) (h : obs.length = exp.length) :
    ((∀ b ∈ obs.zip exp, b.1 ≤ b.2) →
      ∃ l v, Stat.bcChiUp.PerBin obs exp l ∧ Stat.bcChiUp.Total obs exp v ∧ l.sum = v ∧
        l.length = obs.length ∧ ∀ (i : ℕ) o e, obs[i]? = some o → exp[i]? = some e →
          ∃ b, l[i]? = some b ∧ Stat.bcChiUp.Total [o] [e] b) ∧
    ((∀ e ∈ exp, zeroThreshold ≤ e) →
      ∃ l v, Stat.extLL.PerBin obs exp l ∧ Stat.extLL.Total obs exp v ∧ l.sum = v ∧
        l.length = obs.length ∧ ∀ (i : ℕ) o e, obs[i]? = some o → exp[i]? = some e →
          ∃ b, l[i]? = some b ∧ Stat.extLL.Total [o] [e] b) := by
  constructor
  · intro hb
    apply goodBins_of h
    intro b hmem
    simp only [Stat.cell, Stat.bin]
    rw [if_neg (not_lt.2 (hb b hmem))]
  · intro he
    apply goodBins_of h
    intro b hmem
    have := he b.2 (List.of_mem_zip (by simpa using hmem)).2
    simp only [Stat.cell, Stat.bin]
    rw [clampEps_of_ge (x := b.2) this]

/-- **C36, negation for the one-sided statistic.** With two events observed and one expected the
total is zero, and the per-bin call raises a `ValueError`. -/
theorem c36_up_negation : Stat.bcChiUp.Total [2] [1] 0 ∧
    Stat.bcChiUp.computeStatistic true (arr [2]) (arr [1]) = .error .valueError := by
  have heps : statEps ≤ 1 := by norm_num [statEps]
  have hv : (Stat.bcChiUp.compute [2] [1]).value = 0 := by
    rw [compute_value _ (by simp)]
    norm_num [Stat.bin]
  constructor
  · rw [total_iff _ (by simp)]; norm_num [Stat.bin]
  · unfold Stat.computeStatistic
    simp only [arr, List.length_singleton, ne_eq, not_true_eq_false, if_false, if_true]
    simp only [Stat.getStats]
    rw [if_neg]
    rw [hv]
    have hb : bakerCousinsBin 2 1 = 1 - 2 + 2 * log 2 := by
      unfold bakerCousinsBin
      dsimp only
      rw [clampEps_of_ge heps, if_neg (by linarith), div_one]
    simp only [List.zipWith_cons_cons, List.zipWith_nil_left, List.map_cons, List.map_nil,
      List.sum_cons, List.sum_nil, hb, allClose]
    have h2 : (0.6931471803 : ℝ) < log 2 := log_two_gt_d9
    rw [abs_of_pos (by linarith)]
    norm_num
    linarith

/-- **C36, negation for the extended likelihood.** With nothing observed and nothing expected the
total is zero but the per-bin value is not. -/
theorem c36_extended_negation : Stat.extLL.Total [0] [0] 0 ∧
    ∃ b, Stat.extLL.PerBin [0] [0] [b] ∧ b ≠ 0 := by
  constructor
  · rw [total_iff _ (by simp)]; simp [Stat.bin]
  · refine ⟨clampEps 0, ?_, (clampEps_pos 0).ne'⟩
    have := perBin_of (st := .extLL) (obs := [0]) (exp := [0]) (by simp) (by simp)
    simpa [Stat.cell] using this

/-- The hypotheses of the C36 theorems hold for these arrays. -/
example : ([1, 2] : List ℝ).length = ([2, 2] : List ℝ).length ∧
    (∀ b ∈ ([1, 2] : List ℝ).zip [2, 2], b.1 ≤ b.2) ∧
    (∀ e ∈ ([2, 2] : List ℝ), zeroThreshold ≤ e) := by
  refine ⟨rfl, ?_, ?_⟩
  · intro b hb; simp at hb; rcases hb with rfl | rfl <;> norm_num
  · intro o ho
    simp only [List.mem_cons, List.not_mem_nil, or_false] at ho
    rcases ho with rfl | rfl <;> norm_num [zeroThreshold]

/-! ### C37 -/

/-- **C37, order.** Permuting the bins of observed and expected together leaves every statistic
unchanged. -/
theorem c37_permutation (st : Stat) (bins bins' : List (ℝ × ℝ)) (h : bins.Perm bins') (v : ℝ) :
    st.Total (bins.map Prod.fst) (bins.map Prod.snd) v ↔
      st.Total (bins'.map Prod.fst) (bins'.map Prod.snd) v := by
  have hz : ∀ L : List (ℝ × ℝ), (L.map Prod.fst).zip (L.map Prod.snd) = L := by
    intro L
    induction L with
    | nil => rfl
    | cons b L ih => simp [ih]
  rw [total_iff _ (by simp), total_iff _ (by simp), hz, hz, (h.map _).sum_eq]

/-- **C37, concatenation.** The statistic of a concatenation is the sum of the statistics. -/
theorem c37_append (st : Stat) (o₁ o₂ e₁ e₂ : List ℝ) (h₁ : o₁.length = e₁.length)
    (h₂ : o₂.length = e₂.length) (v₁ v₂ : ℝ) (hv₁ : st.Total o₁ e₁ v₁) (hv₂ : st.Total o₂ e₂ v₂) :
    st.Total (o₁ ++ o₂) (e₁ ++ e₂) (v₁ + v₂) := by
  rw [total_iff st h₁] at hv₁
  rw [total_iff st h₂] at hv₂
  rw [total_iff st (by simp [h₁, h₂]), List.zip_append h₁, List.map_append, List.sum_append,
    hv₁, hv₂]

example : ([((1 : ℝ), (2 : ℝ)), (3, 4)]).Perm [(3, 4), (1, 2)] ∧
    ∃ v, Stat.pearson.Total [1] [2] v := ⟨List.Perm.swap _ _ _, _, (total_iff _ (by simp) _).2 rfl⟩

/-! ### C38 -/

/-- **C38.** For fixed observations, each zero or at or above the threshold, and two
expectations at or above the threshold, the difference of the Baker-Cousins chi squared is
twice the difference of the Baker-Cousins likelihood and twice that of the extended
likelihood. So the three rank the two models in the same way. -/
theorem c38_ranking (obs e₁ e₂ : List ℝ) (h₁ : obs.length = e₁.length)
    (h₂ : obs.length = e₂.length) (ho : ∀ o ∈ obs, o = 0 ∨ zeroThreshold ≤ o)
    (he₁ : ∀ e ∈ e₁, zeroThreshold ≤ e) (he₂ : ∀ e ∈ e₂, zeroThreshold ≤ e)
    (c₁ c₂ l₁ l₂ x₁ x₂ : ℝ) (hc₁ : Stat.bcChi.Total obs e₁ c₁) (hc₂ : Stat.bcChi.Total obs e₂ c₂)
    (hl₁ : Stat.bcLL.Total obs e₁ l₁) (hl₂ : Stat.bcLL.Total obs e₂ l₂)
    (hx₁ : Stat.extLL.Total obs e₁ x₁) (hx₂ : Stat.extLL.Total obs e₂ x₂) :
    c₁ - c₂ = 2 * (l₁ - l₂) ∧ c₁ - c₂ = 2 * (x₁ - x₂) ∧ (c₁ ≤ c₂ ↔ l₁ ≤ l₂) ∧ (c₁ ≤ c₂ ↔ x₁ ≤ x₂) := by
  have key : ∀ (obs e : List ℝ), obs.length = e.length → (∀ o ∈ obs, o = 0 ∨ zeroThreshold ≤ o) →
      (∀ x ∈ e, zeroThreshold ≤ x) →
      ((obs.zip e).map (fun b => Stat.bcLL.bin b.1 b.2)).sum =
        ((obs.zip e).map (fun b => Stat.extLL.bin b.1 b.2)).sum +
        (obs.map (fun o => if o = 0 then 0 else o * log o - o)).sum := by
    intro obs
    induction obs with
    | nil => intro e _ _ _; simp
    | cons o obs ih =>
      intro e hle ho he
      cases e with
      | nil => simp at hle
      | cons x e =>
        simp only [List.zip_cons_cons, List.map_cons, List.sum_cons]
        rw [ih e (by simpa using hle) (fun o h => ho o (by simp [h])) (fun x h => he x (by simp [h]))]
        have hx := he x (by simp)
        rw [threshold_eq] at hx
        have hx0 := statEps_pos.trans_le hx
        have hbin : Stat.bcLL.bin o x = Stat.extLL.bin o x +
            (if o = 0 then 0 else o * log o - o) := by
          simp only [Stat.bin, bakerCousinsBin]
          rw [clampEps_of_ge hx]
          rcases ho o (by simp) with rfl | h
          · simp [statEps_pos]
          · rw [threshold_eq] at h
            have ho0 := statEps_pos.trans_le h
            rw [if_neg (not_lt.2 h), if_neg ho0.ne', log_div ho0.ne' hx0.ne']
            ring
        rw [hbin]
        ring
  have two : ∀ e : List ℝ, ((obs.zip e).map (fun b => Stat.bcChi.bin b.1 b.2)).sum =
      2 * ((obs.zip e).map (fun b => Stat.bcLL.bin b.1 b.2)).sum := by
    intro e
    simp only [Stat.bin]
    exact map_sum_mul _ _ _
  rw [total_iff _ h₁] at hc₁ hl₁ hx₁
  rw [total_iff _ h₂] at hc₂ hl₂ hx₂
  rw [two, ← hl₁] at hc₁
  rw [two, ← hl₂] at hc₂
  rw [key obs e₁ h₁ ho he₁, ← hx₁] at hl₁
  rw [key obs e₂ h₂ ho he₂, ← hx₂] at hl₂
  refine ⟨by linarith, by linarith, ?_, ?_⟩
  · constructor <;> intro h <;> linarith
  · constructor <;> intro h <;> linarith

/-- The hypotheses of C38 hold for an empty and a filled bin. -/
example : (∀ o ∈ ([0, 2] : List ℝ), o = 0 ∨ zeroThreshold ≤ o) ∧
    (∀ e ∈ ([1, 3] : List ℝ), zeroThreshold ≤ e) ∧ ∃ v, Stat.extLL.Total [0, 2] [1, 3] v := by
  refine ⟨?_, ?_, _, (total_iff _ (by simp) _).2 rfl⟩
  · intro o ho; simp at ho; rcases ho with rfl | rfl
    · left; rfl
    · right; norm_num [zeroThreshold]
  · intro o ho
    simp only [List.mem_cons, List.not_mem_nil, or_false] at ho
    rcases ho with rfl | rfl <;> norm_num [zeroThreshold]

/-! ### C39 -/

/-- **C39.** The penalty of every statistic exists for a non-zero sigma; it is non-negative,
zero exactly at the prior, and grows with the distance from the prior (so it is symmetric
about it). That of the Baker-Cousins likelihood is half that of the chi squared. -/
theorem c39_penalty (st : Stat) (prior sigma : ℝ) (hs : sigma ≠ 0) :
    (∀ v, ∃ x, st.penalty v prior sigma = .ok x ∧ 0 ≤ x ∧ (x = 0 ↔ v = prior)) ∧
    (∀ v w x y, st.penalty v prior sigma = .ok x → st.penalty w prior sigma = .ok y →
      (x ≤ y ↔ |v - prior| ≤ |w - prior|)) ∧
    (∀ v x y, Stat.bcChi.penalty v prior sigma = .ok x → Stat.bcLL.penalty v prior sigma = .ok y →
      y = x / 2) := by
  have hf : ∃ c : ℝ, 0 < c ∧ ∀ v, st.penalty v prior sigma = .ok (c * (v - prior) ^ 2) := by
    have hs2 : 0 < sigma ^ 2 := by positivity
    cases st with
    | bcLL =>
      refine ⟨1 / (2 * sigma ^ 2), by positivity, fun v => ?_⟩
      simp only [Stat.penalty, hs, if_false]
      congr 1
      norm_num
      field_simp
    | _ =>
      refine ⟨1 / sigma ^ 2, by positivity, fun v => ?_⟩
      simp only [Stat.penalty, hs, if_false]
      congr 1
      field_simp
  obtain ⟨c, hc, hp⟩ := hf
  refine ⟨?_, ?_, ?_⟩
  · intro v
    refine ⟨_, hp v, by positivity, ?_⟩
    rw [mul_eq_zero, or_iff_right hc.ne', pow_eq_zero_iff two_ne_zero, sub_eq_zero]
  · intro v w x y hx hy
    rw [hp v] at hx
    rw [hp w] at hy
    injection hx with hx
    injection hy with hy
    rw [← hx, ← hy, mul_le_mul_iff_right₀ hc, sq_le_sq]
  · intro v x y hx hy
    simp only [Stat.penalty, hs, if_false] at hx hy
    injection hx with hx
    injection hy with hy
    rw [← hx, ← hy]
    norm_num
    ring

/-- **C39, negation for the extended likelihood.** The extended log likelihood differs between
models by half of what the chi squared does (C38), but its penalty is not half: it is that
of the chi squared. -/
theorem c39_extended_negation : ∃ v prior sigma x y : ℝ, sigma ≠ 0 ∧
    Stat.bcChi.penalty v prior sigma = .ok x ∧ Stat.extLL.penalty v prior sigma = .ok y ∧
    y ≠ x / 2 := by
  refine ⟨1, 0, 1, 1, 1, one_ne_zero, ?_, ?_, by norm_num⟩ <;> simp [Stat.penalty]

/-- C39 is not vacuous: two sigma away from the prior. -/
example : (0.5 : ℝ) ≠ 0 ∧ Stat.bcLL.penalty 2 1 0.5 = .ok 2 ∧ Stat.bcChi.penalty 2 1 0.5 = .ok 4 := by
  refine ⟨by norm_num, ?_, ?_⟩ <;> norm_num [Stat.penalty]

/-! ### C40 -/

/-- What the arrays are after a call of either kind that returns. -/
theorem after_call {st : Stat} {perBin : Bool} {obs exp : List ℝ} {r : StatOut StatValue}
    (h : st.computeStatistic perBin (arr obs) (arr exp) = .ok r) :
    r.observed = (st.compute obs exp).observed ∧ r.expected = (st.compute obs exp).expected := by
  unfold Stat.computeStatistic at h
  rw [if_neg (by simp [arr]), if_neg (by simp [arr])] at h
  by_cases hl : (arr obs).vals.length = (arr exp).vals.length
  swap
  · rw [if_pos hl] at h; exact absurd h (by simp)
  · rw [if_neg (not_not.2 hl)] at h
    cases perBin
    swap
    · rw [if_pos rfl] at h
      cases st with
      | bcChi =>
        simp only [Stat.getStats] at h
        split at h
        · exact absurd h (by simp)
        · rename_i hg
          split at hg
          · injection hg with hg; injection h with h; subst h; subst hg; exact ⟨rfl, rfl⟩
          · exact absurd hg (by simp)
      | bcChiUp =>
        simp only [Stat.getStats] at h
        split at h
        · exact absurd h (by simp)
        · rename_i hg
          split at hg
          · injection hg with hg; injection h with h; subst h; subst hg; exact ⟨rfl, rfl⟩
          · exact absurd hg (by simp)
      | bcLL => simp only [Stat.getStats] at h; injection h with h; subst h; exact ⟨rfl, rfl⟩
      | neyman => simp only [Stat.getStats] at h; injection h with h; subst h; exact ⟨rfl, rfl⟩
      | pearson => simp only [Stat.getStats] at h; injection h with h; subst h; exact ⟨rfl, rfl⟩
      | extLL => simp only [Stat.getStats] at h; injection h with h; subst h; exact ⟨rfl, rfl⟩
    · rw [if_neg (by simp)] at h; injection h with h; subst h; exact ⟨rfl, rfl⟩

/-- **C40.** The full claim is that no call changes the arrays. It holds for the two
Baker-Cousins chi squared statistics and for the extended likelihood always, and for the
other three when the array they write to has no value below the threshold. Missing: those
values, which are overwritten (`c40_unchanged_negation`). -/
theorem c40_unchanged_partial (st : Stat) (perBin : Bool) (obs exp : List ℝ)
    (ho : st = .neyman → ∀ o ∈ obs, zeroThreshold ≤ o)
    (he : st = .bcLL ∨ st = .pearson → ∀ e ∈ exp, zeroThreshold ≤ e) (r : StatOut StatValue)
    (h : st.computeStatistic perBin (arr obs) (arr exp) = .ok r) :
    r.observed = obs ∧ r.expected = exp := by
  obtain ⟨h1, h2⟩ := after_call h
  rw [h1, h2]
  have hm : ∀ l : List ℝ, (∀ x ∈ l, zeroThreshold ≤ x) → l.map clampEps = l := by
    intro l hl
    conv_rhs => rw [← List.map_id l]
    exact List.map_congr_left fun x hx => clampEps_of_ge (hl x hx)
  cases st with
  | bcChi => exact ⟨rfl, rfl⟩
  | bcChiUp => exact ⟨rfl, rfl⟩
  | extLL => exact ⟨rfl, rfl⟩
  | bcLL => exact ⟨rfl, hm _ (he (Or.inl rfl))⟩
  | pearson => exact ⟨rfl, hm _ (he (Or.inr rfl))⟩
  | neyman => exact ⟨hm _ (ho rfl), rfl⟩

/-- **C40, what is changed.** In all cases an array can only change by values below the threshold
being replaced by the threshold, and computing the total again on the changed arrays gives
the same number. -/
theorem c40_changed (st : Stat) (perBin : Bool) (obs exp : List ℝ) (h : obs.length = exp.length)
    (r : StatOut StatValue) (hr : st.computeStatistic perBin (arr obs) (arr exp) = .ok r) :
    (∀ (i : ℕ) o, obs[i]? = some o → r.observed[i]? = some o ∨
      o < zeroThreshold ∧ r.observed[i]? = some zeroThreshold) ∧
    (∀ (i : ℕ) e, exp[i]? = some e → r.expected[i]? = some e ∨
      e < zeroThreshold ∧ r.expected[i]? = some zeroThreshold) ∧
    ∀ v, st.Total obs exp v ↔ st.Total r.observed r.expected v := by
  obtain ⟨h1, h2⟩ := after_call hr
  rw [h1, h2]
  have hm : ∀ (l : List ℝ) (i : ℕ) x, l[i]? = some x → (l.map clampEps)[i]? = some x ∨
      x < zeroThreshold ∧ (l.map clampEps)[i]? = some zeroThreshold := by
    intro l i x hx
    rw [List.getElem?_map, hx, Option.map_some]
    unfold clampEps
    split
    · right; exact ⟨by assumption, rfl⟩
    · left; rfl
  have same : ∀ (l : List ℝ) (i : ℕ) x, l[i]? = some x → l[i]? = some x ∨
      x < zeroThreshold ∧ l[i]? = some zeroThreshold := fun _ _ _ hx => Or.inl hx
  have hzr : ∀ l m : List ℝ, l.zip (m.map clampEps) = (l.zip m).map (fun b => (b.1, clampEps b.2)) := by
    intro l m; rw [List.zip_map_right]; rfl
  have hzl : ∀ l m : List ℝ, (l.map clampEps).zip m = (l.zip m).map (fun b => (clampEps b.1, b.2)) := by
    intro l m; rw [List.zip_map_left]; rfl
  cases st with
  | bcChi => exact ⟨same _, same _, fun v => Iff.rfl⟩
  | bcChiUp => exact ⟨same _, same _, fun v => Iff.rfl⟩
  | extLL => exact ⟨same _, same _, fun v => Iff.rfl⟩
  | bcLL =>
    refine ⟨same _, hm _, fun v => ?_⟩
    simp only [Stat.compute]
    rw [total_iff _ h, total_iff _ (by simpa using h), hzr, List.map_map]
    simp [Function.comp_def, Stat.bin, bakerCousinsBin, clampEps_idem]
  | pearson =>
    refine ⟨same _, hm _, fun v => ?_⟩
    simp only [Stat.compute]
    rw [total_iff _ h, total_iff _ (by simpa using h), hzr, List.map_map]
    simp [Function.comp_def, Stat.bin, pearsonBin, clampEps_idem]
  | neyman =>
    refine ⟨hm _, same _, fun v => ?_⟩
    simp only [Stat.compute]
    rw [total_iff _ h, total_iff _ (by simpa using h), hzl, List.map_map]
    simp [Function.comp_def, Stat.bin, neymanBin, clampEps_idem]

/-- **C40, negation.** Pearson's statistic and the Baker-Cousins likelihood overwrite an
expectation of zero, Neyman's an observation of zero. -/
theorem c40_unchanged_negation :
    (∃ r, Stat.pearson.computeStatistic false (arr [1]) (arr [0]) = .ok r ∧ r.expected ≠ [0]) ∧
    (∃ r, Stat.bcLL.computeStatistic false (arr [1]) (arr [0]) = .ok r ∧ r.expected ≠ [0]) ∧
    (∃ r, Stat.neyman.computeStatistic false (arr [0]) (arr [1]) = .ok r ∧ r.observed ≠ [0]) := by
  refine ⟨⟨_, computeStatistic_total _ (by simp), ?_⟩, ⟨_, computeStatistic_total _ (by simp), ?_⟩,
    ⟨_, computeStatistic_total _ (by simp), ?_⟩⟩ <;>
  simp [Stat.compute, (clampEps_pos 0).ne']

/-- The hypotheses of C40 hold for Neyman's statistic with one bin. -/
example : (∀ o ∈ ([1] : List ℝ), zeroThreshold ≤ o) ∧
    ∃ r, Stat.neyman.computeStatistic false (arr [1]) (arr [0]) = .ok r := by
  refine ⟨?_, _, computeStatistic_total _ (by simp)⟩
  intro o ho; simp at ho; subst ho; norm_num [zeroThreshold]

/-! ### C41 -/

/-- **C41.** An array that is not one-dimensional raises a `TypeError`; one-dimensional arrays of
different lengths raise a `ValueError`; for one-dimensional arrays of the same length the
total is always computed. -/
theorem c41_shapes (st : Stat) (perBin : Bool) (obs exp : RArr) (ho : obs.WF) (he : exp.WF) :
    ((obs.shape.length ≠ 1 ∨ exp.shape.length ≠ 1) →
      st.computeStatistic perBin obs exp = .error .typeError) ∧
    (∀ n m, obs.shape = [n] → exp.shape = [m] → n ≠ m →
      st.computeStatistic perBin obs exp = .error .valueError) ∧
    (∀ n, obs.shape = [n] → exp.shape = [n] →
      ∃ v o e, st.computeStatistic false obs exp = .ok ⟨.total v, o, e⟩) := by
  refine ⟨?_, ?_, ?_⟩
  · intro h
    unfold Stat.computeStatistic
    by_cases h1 : obs.shape.length = 1
    · rw [if_neg (by simpa using h1), if_pos]
      rcases h with h | h
      · exact absurd h1 h
      · exact h
    · rw [if_pos h1]
  · intro n m hn hm hne
    unfold RArr.WF at ho he
    rw [hn] at ho
    rw [hm] at he
    unfold Stat.computeStatistic
    rw [if_neg (by simp [hn]), if_neg (by simp [hm]), if_pos]
    rw [ho, he]
    simpa using hne
  · intro n hn hm
    unfold RArr.WF at ho he
    rw [hn] at ho
    rw [hm] at he
    unfold Stat.computeStatistic
    rw [if_neg (by simp [hn]), if_neg (by simp [hm]), if_neg]
    · exact ⟨_, _, _, rfl⟩
    · rw [ho, he]; simp

example : RArr.WF ⟨[2, 2], [1, 2, 3, 4]⟩ ∧ RArr.WF ⟨[2], [1, 2]⟩ := ⟨rfl, rfl⟩

end Verif
