import Verif.Spec.TestStatistic
import Mathlib.Tactic.Linarith
import Mathlib.Tactic.FieldSimp
import Mathlib.Tactic.Positivity
import Mathlib.Tactic.Ring
import Mathlib.Tactic.NormNum
import Mathlib.Algebra.BigOperators.Group.List.Basic
import Mathlib.Algebra.Order.BigOperators.Group.List

/-! # Lemmas about test statistics -/

namespace Verif

open Real

theorem statEps_pos : 0 < statEps := by unfold statEps; positivity

theorem clampEps_ge (x : ℝ) : statEps ≤ clampEps x := by
  unfold clampEps
  split
  · exact le_rfl
  · linarith

theorem clampEps_pos (x : ℝ) : 0 < clampEps x := lt_of_lt_of_le statEps_pos (clampEps_ge x)

theorem clampEps_of_ge {x : ℝ} (h : statEps ≤ x) : clampEps x = x := by
  unfold clampEps; rw [if_neg (not_lt.2 h)]

theorem clampEps_idem (x : ℝ) : clampEps (clampEps x) = clampEps x :=
  clampEps_of_ge (clampEps_ge x)

/-- The value a bin adds to the total. -/
noncomputable def Stat.bin (st : Stat) (obs exp : ℝ) : ℝ :=
  match st with
  | .bcChi => 2 * bakerCousinsBin obs exp
  | .bcChiUp => if exp < obs then 0 else 2 * bakerCousinsBin obs exp
  | .bcLL => bakerCousinsBin obs exp
  | .neyman => neymanBin obs exp
  | .pearson => pearsonBin obs exp
  | .extLL => exp - obs * log (clampEps exp)

theorem foldl_add_eq (f : ℝ × ℝ → ℝ) (L : List (ℝ × ℝ)) (t : ℝ) :
    L.foldl (fun total b => total + f b) t = t + (L.map f).sum := by
  induction L generalizing t with
  | nil => simp
  | cons b L ih => rw [List.foldl_cons, ih, List.map_cons, List.sum_cons]; ring

theorem loopTotal_eq (f : ℝ → ℝ → ℝ) (obs exp : List ℝ) :
    loopTotal f obs exp = ((obs.zip exp).map (fun b => f b.1 b.2)).sum := by
  unfold loopTotal
  rw [foldl_add_eq (fun b => f b.1 b.2), zero_add]

theorem map_sum_mul (L : List (ℝ × ℝ)) (f : ℝ × ℝ → ℝ) (c : ℝ) :
    (L.map (fun b => c * f b)).sum = c * (L.map f).sum := List.sum_map_mul_left L f c

/-- The total is the sum over the bins. -/
theorem compute_value (st : Stat) {obs exp : List ℝ} (h : obs.length = exp.length) :
    (st.compute obs exp).value = ((obs.zip exp).map (fun b => st.bin b.1 b.2)).sum := by
  cases st with
  | bcChi =>
    simp only [Stat.compute, Stat.bin, loopTotal_eq]
    exact (map_sum_mul _ _ _).symm
  | bcChiUp =>
    simp only [Stat.compute, Stat.bin]
    have : (fun (total : ℝ) (b : ℝ × ℝ) =>
        if b.2 < b.1 then total else total + bakerCousinsBin b.1 b.2) =
        fun total b => total + if b.2 < b.1 then 0 else bakerCousinsBin b.1 b.2 := by
      funext total b
      split <;> simp
    rw [this, foldl_add_eq (fun b => if b.2 < b.1 then 0 else bakerCousinsBin b.1 b.2), zero_add,
      ← map_sum_mul]
    congr 1
    refine List.map_congr_left fun b _ => ?_
    split <;> simp
  | bcLL => simp only [Stat.compute, Stat.bin, loopTotal_eq]
  | neyman => simp only [Stat.compute, Stat.bin, loopTotal_eq]
  | pearson => simp only [Stat.compute, Stat.bin, loopTotal_eq]
  | extLL =>
    simp only [Stat.compute, Stat.bin, loopTotal_eq]
    have h1 : exp.sum = ((obs.zip exp).map (fun b => b.2)).sum := by
      congr 1
      exact (List.map_snd_zip (by omega)).symm
    rw [h1]
    induction obs.zip exp with
    | nil => simp
    | cons b L ih => simp only [List.map_cons, List.sum_cons]; linarith

theorem computeStatistic_total (st : Stat) {obs exp : List ℝ} (h : obs.length = exp.length) :
    st.computeStatistic false (arr obs) (arr exp) =
      .ok ⟨.total (st.compute obs exp).value, (st.compute obs exp).observed,
        (st.compute obs exp).expected⟩ := by
  unfold Stat.computeStatistic
  simp [arr, h]

theorem total_iff (st : Stat) {obs exp : List ℝ} (h : obs.length = exp.length) (v : ℝ) :
    st.Total obs exp v ↔ v = ((obs.zip exp).map (fun b => st.bin b.1 b.2)).sum := by
  unfold Stat.Total
  rw [computeStatistic_total st h, compute_value st h]
  constructor
  · rintro ⟨o, e, he⟩
    injection he with he
    injection he with he
    injection he with he
    exact he.symm
  · rintro rfl
    exact ⟨_, _, rfl⟩

/-! ### inequalities for one bin -/

/-- `x - 1 - log x ≥ 0`, with equality only at one. -/
theorem bc_core {o e : ℝ} (ho : 0 < o) (he : 0 < e) :
    0 ≤ e - o + o * log (o / e) ∧ (e - o + o * log (o / e) = 0 ↔ o = e) := by
  have h1 : log (o / e) = - log (e / o) := by rw [← log_inv, inv_div]
  have hx : 0 < e / o := by positivity
  have h2 : e - o + o * log (o / e) = o * (e / o - 1 - log (e / o)) := by
    rw [h1]; field_simp; ring
  rw [h2]
  constructor
  · have := log_le_sub_one_of_pos hx
    apply mul_nonneg ho.le
    linarith
  · constructor
    · intro h
      by_contra hne
      have hne' : e / o ≠ 1 := by
        intro h
        rw [div_eq_one_iff_eq ho.ne'] at h
        exact hne h.symm
      have := log_lt_sub_one_of_pos hx hne'
      have : 0 < o * (e / o - 1 - log (e / o)) := mul_pos ho (by linarith)
      linarith
    · rintro rfl
      rw [div_self ho.ne']; simp

theorem bakerCousinsBin_nonneg (o e : ℝ) : 0 ≤ bakerCousinsBin o e := by
  unfold bakerCousinsBin
  dsimp only
  split
  · exact (clampEps_pos e).le
  · rename_i h
    exact (bc_core (lt_of_lt_of_le statEps_pos (not_lt.1 h)) (clampEps_pos e)).1

theorem bakerCousinsBin_eq_zero {o e : ℝ} (ho : statEps ≤ o) (he : statEps ≤ e) :
    bakerCousinsBin o e = 0 ↔ o = e := by
  unfold bakerCousinsBin
  rw [clampEps_of_ge he]
  dsimp only
  rw [if_neg (not_lt.2 ho)]
  exact (bc_core (statEps_pos.trans_le ho) (statEps_pos.trans_le he)).2

theorem neymanBin_nonneg (o e : ℝ) : 0 ≤ neymanBin o e := by
  unfold neymanBin
  have := clampEps_pos o
  dsimp only
  split
  · exact this.le
  · positivity

theorem neymanBin_eq_zero {o e : ℝ} (ho : statEps ≤ o) (he : statEps ≤ e) :
    neymanBin o e = 0 ↔ o = e := by
  unfold neymanBin
  rw [clampEps_of_ge ho]
  dsimp only
  rw [if_neg (not_lt.2 he), div_eq_zero_iff]
  have h := statEps_pos.trans_le ho
  constructor
  · rintro (h1 | h1)
    · have := pow_eq_zero_iff (two_ne_zero) |>.1 h1
      linarith
    · linarith
  · rintro rfl; left; ring

theorem pearsonBin_nonneg (o e : ℝ) : 0 ≤ pearsonBin o e := by
  unfold pearsonBin
  have := clampEps_pos e
  dsimp only
  split
  · exact this.le
  · positivity

theorem pearsonBin_eq_zero {o e : ℝ} (ho : statEps ≤ o) (he : statEps ≤ e) :
    pearsonBin o e = 0 ↔ o = e := by
  unfold pearsonBin
  rw [clampEps_of_ge he]
  dsimp only
  rw [if_neg (not_lt.2 ho), div_eq_zero_iff]
  have h := statEps_pos.trans_le he
  constructor
  · rintro (h1 | h1)
    · have := pow_eq_zero_iff (two_ne_zero) |>.1 h1
      linarith
    · linarith
  · rintro rfl; left; ring

theorem sum_zero_iff {L : List ℝ} (h : ∀ x ∈ L, 0 ≤ x) : L.sum = 0 ↔ ∀ x ∈ L, x = 0 := by
  induction L with
  | nil => simp
  | cons a L ih =>
    have ha := h a (by simp)
    have hL := List.sum_nonneg (fun x hx => h x (by simp [hx]) : ∀ x ∈ L, 0 ≤ x)
    rw [List.sum_cons, List.forall_mem_cons, ← ih (fun x hx => h x (by simp [hx]))]
    constructor
    · intro hs; constructor <;> linarith
    · rintro ⟨h1, h2⟩; linarith

theorem zip_eq_iff {obs exp : List ℝ} (h : obs.length = exp.length) :
    (∀ b ∈ obs.zip exp, b.1 = b.2) ↔ obs = exp := by
  induction obs generalizing exp with
  | nil => cases exp with
    | nil => simp
    | cons => simp at h
  | cons o obs ih => cases exp with
    | nil => simp at h
    | cons e exp =>
      rw [List.zip_cons_cons, List.forall_mem_cons, ih (by simpa using h)]
      simp

end Verif
