import Verif.Lemmas.FloatStat
import Mathlib.Analysis.SpecialFunctions.Log.Deriv

/-! # Statistics with logarithms in floating point arithmetic -/

namespace Verif

open Real

namespace Rounding

variable (R : Rounding)

/-! ### sums -/

/-- The tree of `total += value`. -/
def comb : List ℚ → SumTree → SumTree
  | [], t => t
  | x :: l, t => comb l (.node t (.leaf x))

theorem comb_sum : ∀ (l : List ℚ) (t : SumTree), R.sumTree (comb l t) = l.foldl R.add (R.sumTree t)
  | [], _ => rfl
  | _ :: l, _ => comb_sum l _

theorem comb_leaves : ∀ (l : List ℚ) (t : SumTree), (comb l t).leaves = t.leaves ++ l
  | [], _ => by simp [comb]
  | x :: l, t => by rw [comb, comb_leaves l]; simp [SumTree.leaves]

theorem fold_near (l : List ℚ) :
    |l.foldl R.add 0 - l.sum| ≤ ((1 + R.u) ^ l.length - 1) * (l.map abs).sum := by
  have h := (R.sumTree_near (comb l .zero)).2.2
  rw [comb_sum, comb_leaves] at h
  exact h

theorem pow_le_of_small {u : ℝ} (h0 : 0 ≤ u) (n : ℕ) (hn : n * u ≤ 1 / 100) :
    (1 + u) ^ n - 1 ≤ 51 / 50 * (n * u) := by
  rcases Nat.eq_zero_or_pos n with rfl | hn0
  · simp
  have hu1 : u ≤ 1 / 100 := by
    have : (1 : ℝ) ≤ n := by exact_mod_cast hn0
    nlinarith
  have hb : 1 - n * u ≤ (1 - u) ^ n := by
    have := one_add_mul_le_pow (a := -u) (by linarith) n
    rw [show (1 : ℝ) + n * -u = 1 - n * u by ring, show (1 : ℝ) + -u = 1 - u by ring] at this
    exact this
  have hp : (1 + u) ^ n * (1 - u) ^ n ≤ 1 := by
    rw [← mul_pow]
    exact pow_le_one₀ (by nlinarith) (by nlinarith)
  have h1 : (1 + u) ^ n * (1 - n * u) ≤ 1 :=
    (mul_le_mul_of_nonneg_left hb (by positivity)).trans hp
  have hx : 0 ≤ n * u := by positivity
  nlinarith

/-- Sums of numbers with errors. -/
theorem sum_error {α : Type} (l : List α) (X : ℚ) (f : α → ℚ) (T s : α → ℝ) {c : ℝ}
    (hX : |X - (l.map f).sum| ≤ ((1 + R.u) ^ l.length - 1) * ((l.map f).map abs).sum)
    (hc : c ≤ 1 / 10) (hf : ∀ b ∈ l, |(f b : ℝ) - T b| ≤ c * s b) (hT : ∀ b ∈ l, |T b| ≤ s b)
    (hn : l.length * (R.u : ℝ) ≤ 1 / 100) :
    |(X : ℝ) - (l.map T).sum| ≤ (c + 2 * l.length * R.u) * (l.map s).sum := by
  have h0 : (0 : ℝ) ≤ R.u := by exact_mod_cast R.u_nonneg
  have e1 : |(X : ℝ) - (((l.map f).sum : ℚ) : ℝ)| ≤
      ((1 + (R.u : ℝ)) ^ l.length - 1) * ((((l.map f).map abs).sum : ℚ) : ℝ) := by
    exact_mod_cast hX
  have e2 : |(((l.map f).sum : ℚ) : ℝ) - (l.map T).sum| ≤ c * (l.map s).sum ∧
      ((((l.map f).map abs).sum : ℚ) : ℝ) ≤ 11 / 10 * (l.map s).sum ∧ 0 ≤ (l.map s).sum := by
    clear e1 hn hX
    induction l with
    | nil => simp
    | cons b l ih =>
      obtain ⟨i1, i2, i3⟩ := ih (fun b hb => hf b (List.mem_cons_of_mem _ hb))
        (fun b hb => hT b (List.mem_cons_of_mem _ hb))
      have k1 := hf b List.mem_cons_self
      have k2 := hT b List.mem_cons_self
      have k3 : 0 ≤ s b := (abs_nonneg _).trans k2
      have k4 : |(f b : ℝ)| ≤ 11 / 10 * s b := by
        have := abs_sub_abs_le_abs_sub (f b : ℝ) (T b)
        nlinarith
      simp only [List.map_cons, List.sum_cons, Rat.cast_add]
      refine ⟨?_, ?_, by linarith⟩
      · have : (f b : ℝ) + (((l.map f).sum : ℚ) : ℝ) - (T b + (l.map T).sum) =
            ((f b : ℝ) - T b) + ((((l.map f).sum : ℚ) : ℝ) - (l.map T).sum) := by ring
        rw [this]
        exact (abs_add_le _ _).trans (by linarith)
      · rw [Rat.cast_abs]; linarith
  obtain ⟨i1, i2, i3⟩ := e2
  have e3 := pow_le_of_small h0 l.length hn
  have e4 : ((1 + (R.u : ℝ)) ^ l.length - 1) * ((((l.map f).map abs).sum : ℚ) : ℝ) ≤
      51 / 50 * (l.length * R.u) * (11 / 10 * (l.map s).sum) := by
    have h5 : (0 : ℝ) ≤ (1 + (R.u : ℝ)) ^ l.length - 1 := by
      have := one_le_pow₀ (by linarith : (1 : ℝ) ≤ 1 + R.u) (n := l.length)
      linarith
    exact (mul_le_mul_of_nonneg_left i2 h5).trans (mul_le_mul_of_nonneg_right e3 (by positivity))
  have e5 : |(X : ℝ) - (l.map T).sum| ≤ _ := abs_sub_le _ (((l.map f).sum : ℚ) : ℝ) _
  have e6 : (0 : ℝ) ≤ l.length * R.u * (l.map s).sum := by positivity
  nlinarith

theorem fold_error {α : Type} (l : List α) (f : α → ℚ) (T s : α → ℝ) {c : ℝ}
    (hc : c ≤ 1 / 10) (hf : ∀ b ∈ l, |(f b : ℝ) - T b| ≤ c * s b) (hT : ∀ b ∈ l, |T b| ≤ s b)
    (hn : l.length * (R.u : ℝ) ≤ 1 / 100) :
    |(((l.map f).foldl R.add 0 : ℚ) : ℝ) - (l.map T).sum| ≤
      (c + 2 * l.length * R.u) * (l.map s).sum := by
  refine R.sum_error l _ f T s ?_ hc hf hT hn
  have := R.fold_near (l.map f)
  rwa [List.length_map] at this

theorem total_error {tot : List ℚ → ℚ} (ht : R.Totals tot) {α : Type} (l : List α) (f : α → ℚ)
    (T s : α → ℝ) {c : ℝ} (hc : c ≤ 1 / 10) (hf : ∀ b ∈ l, |(f b : ℝ) - T b| ≤ c * s b)
    (hT : ∀ b ∈ l, |T b| ≤ s b) (hn : l.length * (R.u : ℝ) ≤ 1 / 100) :
    |(tot (l.map f) : ℝ) - (l.map T).sum| ≤ (c + 2 * l.length * R.u) * (l.map s).sum := by
  refine R.sum_error l _ f T s ?_ hc hf hT hn
  have := R.total_near ht (l.map f)
  rwa [List.length_map] at this

/-! ### bins -/

theorem rnd_near (x : ℚ) : |(R.rnd x : ℝ) - x| ≤ R.u * |(x : ℝ)| := by
  have := R.rel x
  exact_mod_cast this

theorem clampQ_eq (x : ℚ) : (clampQ x : ℝ) = max (x : ℝ) (1 / 10 ^ 34) := by
  unfold clampQ
  by_cases h : x < 1 / 10 ^ 34
  · have : (x : ℝ) < ((1 / 10 ^ 34 : ℚ) : ℝ) := Rat.cast_lt.2 h
    push_cast at this
    rw [if_pos h, max_eq_right (by linarith)]
    push_cast; rfl
  · have : ((1 / 10 ^ 34 : ℚ) : ℝ) ≤ (x : ℝ) := Rat.cast_le.2 (not_lt.1 h)
    push_cast at this
    rw [if_neg h, max_eq_left (by linarith)]

theorem clamp_near (h4 : R.u ≤ 1 / 4) {x : ℚ} (hx : Content x) :
    |(R.clamp x : ℝ) - clampQ x| ≤ R.u * clampQ x := by
  have h0 : (0 : ℝ) ≤ R.u := by exact_mod_cast R.u_nonneg
  have hp : (0 : ℝ) < clampQ x := by exact_mod_cast clampQ_pos x
  rcases R.clamp_cases h4 hx with ⟨-, h2, h3⟩ | ⟨h, h2, h3⟩
  · rw [h2, h3]
    have := R.rnd_near (1 / 10 ^ 34)
    rw [abs_of_nonneg (by positivity : (0 : ℝ) ≤ ((1 / 10 ^ 34 : ℚ) : ℝ))] at this
    exact this
  · rw [h2, h3] at *
    rw [sub_self, abs_zero]; positivity

/-- Logarithms of numbers that agree up to `N` roundings. -/
theorem log_near {u : ℚ} (h0 : 0 ≤ u) (h1 : u ≤ 1 / 100) {N : ℕ} {x y : ℚ} (h : Rel u N x y)
    (hx : 0 < x) (hy : 0 < y) : |log (x : ℝ) - log (y : ℝ)| ≤ N * (51 / 50 * u) := by
  have hx' : (0 : ℝ) < x := by exact_mod_cast hx
  have hy' : (0 : ℝ) < y := by exact_mod_cast hy
  have h0' : (0 : ℝ) ≤ u := by exact_mod_cast h0
  have h1' : (u : ℝ) ≤ 1 / 100 := by
    have : (u : ℝ) ≤ ((1 / 100 : ℚ) : ℝ) := Rat.cast_le.2 h1
    push_cast at this; exact this
  have hu : (0 : ℝ) < 1 - u := by linarith
  have hl : -log (1 - (u : ℝ)) ≤ 51 / 50 * u := by
    have := one_sub_inv_le_log_of_pos hu
    have e : (1 - (u : ℝ))⁻¹ - 1 ≤ 51 / 50 * u := by
      rw [sub_le_iff_le_add, inv_le_iff_one_le_mul₀ hu]
      nlinarith
    linarith
  have side : ∀ {a b : ℚ}, (0 : ℝ) < a → (0 : ℝ) < b → (1 - u) ^ N * b ≤ a →
      log (b : ℝ) - log (a : ℝ) ≤ N * (51 / 50 * u) := by
    intro a b ha hb hab
    have hab' : (1 - (u : ℝ)) ^ N * b ≤ a := by exact_mod_cast hab
    have := log_le_log (mul_pos (pow_pos hu N) hb) hab'
    rw [log_mul (pow_pos hu N).ne' hb.ne', log_pow] at this
    have hN : (0 : ℝ) ≤ N := Nat.cast_nonneg N
    nlinarith
  rw [abs_le]
  constructor
  · linarith [side hx' hy' h.lower]
  · linarith [side hy' hx' h.upper]

/-- A computed logarithm. -/
theorem lg_near {w : ℝ} {lg : ℚ → ℚ} (hlg : LogUpTo w lg) (hw0 : 0 ≤ w) (hw : w ≤ 1 / 100)
    (h1 : R.u ≤ 1 / 100) {N : ℕ} (hN : N ≤ 2) {x y : ℚ} (h : Rel R.u N x y) (hx : 0 < x) (hy : 0 < y) :
    |(lg x : ℝ) - log y| ≤ w * |log (y : ℝ)| + 3 * R.u := by
  have h0 : (0 : ℝ) ≤ R.u := by exact_mod_cast R.u_nonneg
  have k1 := hlg x hx
  have k2 := log_near R.u_nonneg h1 h hx hy
  have k3 : |log (x : ℝ)| ≤ |log (y : ℝ)| + N * (51 / 50 * R.u) := by
    have := abs_sub_abs_le_abs_sub (log (x : ℝ)) (log (y : ℝ))
    linarith
  have hN' : (N : ℝ) ≤ 2 := by exact_mod_cast hN
  have k4 : (N : ℝ) * (51 / 50 * R.u) ≤ 2 * (51 / 50 * R.u) :=
    mul_le_mul_of_nonneg_right hN' (by positivity)
  have k5 : |(lg x : ℝ) - log y| ≤ _ := abs_sub_le _ (log (x : ℝ)) _
  have k6 : w * |log (x : ℝ)| ≤ w * (|log (y : ℝ)| + 2 * (51 / 50 * R.u)) :=
    mul_le_mul_of_nonneg_left (by linarith) hw0
  nlinarith

/-- A content times a computed logarithm. -/
theorem mul_lg_near {w : ℝ} {lg : ℚ → ℚ} (hlg : LogUpTo w lg) (hw0 : 0 ≤ w) (hw : w ≤ 1 / 100)
    (h1 : R.u ≤ 1 / 100) {N : ℕ} (hN : N ≤ 2) {x y : ℚ} (h : Rel R.u N x y) (hx : 0 < x) (hy : 0 < y)
    {o : ℚ} (ho : 0 ≤ o) :
    |(R.mul o (lg x) : ℝ) - o * log y| ≤
      (w + 11 / 10 * R.u) * (o * |log (y : ℝ)|) + 31 / 10 * R.u * o := by
  have h0 : (0 : ℝ) ≤ R.u := by exact_mod_cast R.u_nonneg
  have h1' : (R.u : ℝ) ≤ 1 / 100 := by
    have : (R.u : ℝ) ≤ ((1 / 100 : ℚ) : ℝ) := Rat.cast_le.2 h1
    push_cast at this; exact this
  have ho' : (0 : ℝ) ≤ o := by exact_mod_cast ho
  have k1 := R.lg_near hlg hw0 hw h1 hN h hx hy
  have k2 := R.rnd_near (o * lg x)
  push_cast at k2
  set L := |log (y : ℝ)| with hL
  have hL0 : 0 ≤ L := abs_nonneg _
  have k3 : |(o : ℝ) * lg x - o * log y| ≤ o * (w * L + 3 * R.u) := by
    rw [← mul_sub, abs_mul, abs_of_nonneg ho']
    exact mul_le_mul_of_nonneg_left k1 ho'
  have k4 : |(o : ℝ) * lg x| ≤ o * L + o * (w * L + 3 * R.u) := by
    have := abs_sub_abs_le_abs_sub ((o : ℝ) * lg x) (o * log y)
    rw [abs_mul (o : ℝ) (log y), abs_of_nonneg ho'] at this
    linarith
  have k5 : (R.u : ℝ) * |(o : ℝ) * lg x| ≤ R.u * (o * L + o * (w * L + 3 * R.u)) :=
    mul_le_mul_of_nonneg_left k4 h0
  have k6 : |(R.mul o (lg x) : ℝ) - o * log y| ≤ _ := abs_sub_le _ ((o : ℝ) * lg x) _
  have k7 : R.mul o (lg x) = R.rnd (o * lg x) := rfl
  rw [k7] at k6 ⊢
  have hoL : 0 ≤ (o : ℝ) * L := mul_nonneg ho' hL0
  have a1 : (R.u : ℝ) * (o * L * w) ≤ R.u * (o * L * (1 / 100)) :=
    mul_le_mul_of_nonneg_left (mul_le_mul_of_nonneg_left hw hoL) h0
  have a2 : (R.u : ℝ) * (o * (3 * R.u)) ≤ R.u * (o * (3 * (1 / 100))) :=
    mul_le_mul_of_nonneg_left (mul_le_mul_of_nonneg_left (by linarith) ho') h0
  have a3 : 0 ≤ (R.u : ℝ) * (o * L) := mul_nonneg h0 hoL
  have a4 : 0 ≤ (R.u : ℝ) * o := mul_nonneg h0 ho'
  nlinarith

theorem size_eq (o e : ℚ) :
    binSize o e = o + clampQ e + o * |log ((o / clampQ e : ℚ) : ℝ)| := by
  unfold binSize
  rw [clampQ_eq]
  push_cast
  rw [clampQ_eq]

theorem bc_cast {o e : ℚ} (ho : Content o) :
    Verif.bakerCousinsBin (o : ℝ) (e : ℝ) =
      if o = 0 then (clampQ e : ℝ)
      else clampQ e - o + o * log ((o / clampQ e : ℚ) : ℝ) := by
  unfold Verif.bakerCousinsBin
  dsimp only
  rw [clampEps_cast]
  have hiff : (o : ℝ) < statEps ↔ o = 0 := by
    rw [lt_statEps]
    rcases ho with rfl | ho
    · norm_num
    · constructor
      · intro h
        have : (1 / 10 ^ 34 : ℚ) ≤ 1 / 10 ^ 30 := by norm_num
        linarith
      · rintro rfl
        norm_num
  by_cases h : o = 0
  · rw [if_pos h, if_pos (hiff.2 h)]
  · rw [if_neg h, if_neg fun hh => h (hiff.1 hh)]
    push_cast; rfl

theorem bc_size {o e : ℚ} (ho : Content o) :
    |Verif.bakerCousinsBin (o : ℝ) (e : ℝ)| ≤ binSize o e := by
  have hp : (0 : ℝ) < clampQ e := by exact_mod_cast clampQ_pos e
  have ho' : (0 : ℝ) ≤ o := by exact_mod_cast content_nonneg ho
  rw [bc_cast ho, size_eq]
  split
  · rw [abs_of_pos hp]
    have : 0 ≤ (o : ℝ) * |log ((o / clampQ e : ℚ) : ℝ)| := by positivity
    linarith
  · refine (abs_add_le _ _).trans ?_
    rw [abs_mul, abs_of_nonneg ho']
    have := abs_sub (clampQ e : ℝ) o
    rw [abs_of_pos hp, abs_of_nonneg ho'] at this
    linarith

theorem bc_error {w : ℝ} {lg : ℚ → ℚ} (hlg : LogUpTo w lg) (hw0 : 0 ≤ w) (hw : w ≤ 1 / 100)
    (h1 : R.u ≤ 1 / 100) {o e : ℚ} (ho : Content o) (he : Content e) :
    |(R.bakerCousinsBin lg o e : ℝ) - Verif.bakerCousinsBin (o : ℝ) (e : ℝ)| ≤
      (w + 6 * R.u) * binSize o e := by
  have h4 : R.u ≤ 1 / 4 := by linarith
  have hu1 : R.u ≤ 1 := by linarith
  have h0 : (0 : ℝ) ≤ R.u := by exact_mod_cast R.u_nonneg
  have h1' : (R.u : ℝ) ≤ 1 / 100 := by
    have : (R.u : ℝ) ≤ ((1 / 100 : ℚ) : ℝ) := Rat.cast_le.2 h1
    push_cast at this; exact this
  have hp : (0 : ℝ) < clampQ e := by exact_mod_cast clampQ_pos e
  have ho' : (0 : ℝ) ≤ o := by exact_mod_cast content_nonneg ho
  have hc := R.clamp_near h4 he
  rw [bc_cast ho, size_eq]
  have ht := R.eps_lt h4 ho
  set L := |log ((o / clampQ e : ℚ) : ℝ)| with hL
  have hL0 : 0 ≤ L := abs_nonneg _
  have hoL : 0 ≤ (o : ℝ) * L := mul_nonneg ho' hL0
  by_cases h : o = 0
  · have hb : R.bakerCousinsBin lg o e = R.clamp e := by
      unfold bakerCousinsBin
      dsimp only
      rw [if_pos (ht.1.2 h)]
    rw [if_pos h, hb]
    refine hc.trans ?_
    have a1 : 0 ≤ (w + 6 * R.u) * (o + o * L) := by positivity
    have a2 : 0 ≤ (w + 5 * R.u) * clampQ e := by positivity
    nlinarith
  · have hb : R.bakerCousinsBin lg o e =
        R.rnd (R.rnd (R.clamp e - o) + R.mul o (lg (R.div o (R.clamp e)))) := by
      unfold bakerCousinsBin
      dsimp only
      rw [if_neg fun hh => h (ht.1.1 hh)]
      rfl
    have hop : 0 < o := lt_of_le_of_ne (content_nonneg ho) (Ne.symm h)
    have hq : Rel R.u 2 (R.div o (R.clamp e)) (o / clampQ e) :=
      (Rel.div hu1 (Rel.refl hop.le) (R.clamp_rel h4 he) (R.clamp_pos h4 e) (clampQ_pos e)).rnd R hu1
    have hqp : 0 < R.div o (R.clamp e) := by
      have hx : 0 < o / clampQ e := div_pos hop (clampQ_pos e)
      have : 0 < (1 - R.u) ^ 2 * (o / clampQ e) := mul_pos (pow_pos (by linarith) 2) hx
      linarith [hq.lower]
    have km := R.mul_lg_near hlg hw0 hw h1 (le_refl 2) hq hqp (div_pos hop (clampQ_pos e)) hop.le
    rw [← hL] at km
    have kd := R.rnd_near (R.clamp e - o)
    push_cast at kd
    set m := R.mul o (lg (R.div o (R.clamp e))) with hm
    set d := R.rnd (R.clamp e - o) with hd
    have kv := R.rnd_near (d + m)
    push_cast at kv
    rw [if_neg h, hb]
    set ℓ := log ((o / clampQ e : ℚ) : ℝ) with hℓ
    set E := (clampQ e : ℝ) with hE
    set c := (R.clamp e : ℝ) with hcc
    -- the difference
    have b1 : |c - o| ≤ 101 / 100 * E + o := by
      have e1 : |c - o| ≤ |c - E| + |E - o| := abs_sub_le _ _ _
      have e2 := abs_sub E (o : ℝ)
      rw [abs_of_pos hp, abs_of_nonneg ho'] at e2
      nlinarith
    have b2 : |(d : ℝ) - (E - o)| ≤ R.u * (21 / 10 * E + o) := by
      have e1 : |(d : ℝ) - (E - o)| ≤ |(d : ℝ) - (c - o)| + |(c - o) - (E - o)| := abs_sub_le _ _ _
      rw [show c - o - (E - (o : ℝ)) = c - E by ring] at e1
      have e2 : (R.u : ℝ) * |c - o| ≤ R.u * (101 / 100 * E + o) := mul_le_mul_of_nonneg_left b1 h0
      have e3 : 0 ≤ (R.u : ℝ) * E := by positivity
      nlinarith
    have b3 : |(d : ℝ)| ≤ 11 / 10 * (E + o) := by
      have e1 := abs_sub_abs_le_abs_sub (d : ℝ) (E - o)
      have e2 := abs_sub E (o : ℝ)
      rw [abs_of_pos hp, abs_of_nonneg ho'] at e2
      have e3 : (R.u : ℝ) * (21 / 10 * E + o) ≤ 1 / 100 * (21 / 10 * E + o) :=
        mul_le_mul_of_nonneg_right h1' (by positivity)
      linarith
    have b4 : |(m : ℝ)| ≤ 11 / 10 * (o * L) + 4 / 100 * o := by
      have e1 := abs_sub_abs_le_abs_sub (m : ℝ) (o * ℓ)
      rw [abs_mul, abs_of_nonneg ho', ← hL] at e1
      have e2 : (w + 11 / 10 * R.u) * (o * L) ≤ (3 / 100) * (o * L) :=
        mul_le_mul_of_nonneg_right (by linarith) hoL
      have e3 : 31 / 10 * (R.u : ℝ) * o ≤ 31 / 10 * (1 / 100) * o :=
        mul_le_mul_of_nonneg_right (by linarith) ho'
      linarith
    have b5 : (R.u : ℝ) * |(d : ℝ) + m| ≤
        R.u * (11 / 10 * (E + o) + (11 / 10 * (o * L) + 4 / 100 * o)) :=
      mul_le_mul_of_nonneg_left ((abs_add_le _ _).trans (add_le_add b3 b4)) h0
    have b6 : |(R.rnd (d + m) : ℝ) - (E - o + o * ℓ)| ≤
        |(R.rnd (d + m) : ℝ) - (d + m)| + (|(d : ℝ) - (E - o)| + |(m : ℝ) - o * ℓ|) := by
      have e : (R.rnd (d + m) : ℝ) - (E - o + o * ℓ) =
          ((R.rnd (d + m) : ℝ) - (d + m)) + (((d : ℝ) - (E - o)) + ((m : ℝ) - o * ℓ)) := by ring
      rw [e]
      exact (abs_add_le _ _).trans (by gcongr; exact abs_add_le _ _)
    have a1 : 0 ≤ (R.u : ℝ) * (o * L) := mul_nonneg h0 hoL
    have a2 : 0 ≤ (R.u : ℝ) * o := mul_nonneg h0 ho'
    have a3 : 0 ≤ (R.u : ℝ) * E := by positivity
    have a4 : 0 ≤ w * (E + o) := by positivity
    nlinarith

/-! ### totals -/

theorem foldl_if {α β γ : Type} (c : α → Prop) [DecidablePred c] (g : γ → β → γ) (f : α → β) :
    ∀ (l : List α) (z : γ), l.foldl (fun t b => if c b then t else g t (f b)) z =
      ((l.filter fun b => ¬ c b).map f).foldl g z
  | [], _ => rfl
  | a :: l, z => by
    rw [List.foldl_cons, foldl_if c g f l]
    by_cases h : c a <;> simp [h]

theorem foldl_map' {α β γ : Type} (g : γ → β → γ) (f : α → β) (l : List α) (z : γ) :
    l.foldl (fun t b => g t (f b)) z = (l.map f).foldl g z := by
  rw [List.foldl_map]

theorem foldl_sum (l : List ℝ) : l.foldl (· + ·) 0 = l.sum := (List.sum_eq_foldl).symm

/-- The bins of a pair of arrays of rationals, as reals. -/
theorem zip_cast (obs exp : List ℚ) :
    (obs.map (fun x : ℚ => (x : ℝ))).zip (exp.map (fun x : ℚ => (x : ℝ))) =
      (obs.zip exp).map (fun b : ℚ × ℚ => ((b.1 : ℝ), (b.2 : ℝ))) := by
  rw [List.zip_map]; rfl

theorem sum_filter_le {α : Type} (p : α → Bool) (s : α → ℝ) (hs : ∀ b, 0 ≤ s b) :
    ∀ l : List α, ((l.filter p).map s).sum ≤ (l.map s).sum
  | [] => le_refl _
  | b :: l => by
    have := sum_filter_le p s hs l
    have h := hs b
    rw [List.filter_cons]
    split
    · simp only [List.map_cons, List.sum_cons]; linarith
    · simp only [List.map_cons, List.sum_cons]; linarith

theorem binSize_nonneg' {o e : ℚ} (ho : 0 ≤ o) : 0 ≤ binSize o e := by
  have : (0 : ℝ) ≤ o := by exact_mod_cast ho
  unfold binSize
  have h2 : (0 : ℝ) ≤ max (e : ℝ) (1 / 10 ^ 34) := le_trans (by positivity) (le_max_right _ _)
  positivity

theorem rnd_error {x : ℚ} {S a s : ℝ} (h : |(x : ℝ) - S| ≤ a * s) (hS : |S| ≤ s) :
    |(R.rnd x : ℝ) - S| ≤ (a + R.u * (1 + a)) * s := by
  have h0 : (0 : ℝ) ≤ R.u := by exact_mod_cast R.u_nonneg
  have k1 := R.rnd_near x
  have k2 : |(x : ℝ)| ≤ s + a * s := by
    have := abs_sub_abs_le_abs_sub (x : ℝ) S
    linarith
  have k3 : |(R.rnd x : ℝ) - S| ≤ _ := abs_sub_le _ (x : ℝ) _
  have k4 := mul_le_mul_of_nonneg_left k2 h0
  nlinarith

/-- Totals of the Baker-Cousins bins of a part of the bins. -/
theorem bc_total_error {w : ℝ} {lg : ℚ → ℚ} (hlg : LogUpTo w lg) (hw0 : 0 ≤ w) (hw : w ≤ 1 / 100)
    (l : List (ℚ × ℚ)) (hl : ∀ b ∈ l, Content b.1 ∧ Content b.2)
    (hn : (l.length + 6) * (R.u : ℝ) ≤ 1 / 100) :
    |(((l.map fun b => R.bakerCousinsBin lg b.1 b.2).foldl R.add 0 : ℚ) : ℝ) -
      (l.map fun b => Verif.bakerCousinsBin (b.1 : ℝ) (b.2 : ℝ)).sum| ≤
        (w + (2 * l.length + 6) * R.u) * (l.map fun b => binSize b.1 b.2).sum ∧
    |(l.map fun b => Verif.bakerCousinsBin (b.1 : ℝ) (b.2 : ℝ)).sum| ≤
      (l.map fun b => binSize b.1 b.2).sum := by
  have h0 : (0 : ℝ) ≤ R.u := by exact_mod_cast R.u_nonneg
  have hlen : (0 : ℝ) ≤ l.length * R.u := by positivity
  have h6 : (R.u : ℝ) ≤ 1 / 600 := by nlinarith
  have h1 : R.u ≤ 1 / 100 := by
    have : (R.u : ℝ) ≤ ((1 / 100 : ℚ) : ℝ) := by push_cast; linarith
    exact_mod_cast this
  refine ⟨?_, ?_⟩
  · have := R.fold_error l (fun b => R.bakerCousinsBin lg b.1 b.2)
      (fun b => Verif.bakerCousinsBin (b.1 : ℝ) (b.2 : ℝ)) (fun b => binSize b.1 b.2)
      (c := w + 6 * R.u) (by linarith)
      (fun b hb => R.bc_error hlg hw0 hw h1 (hl b hb).1 (hl b hb).2)
      (fun b hb => bc_size (hl b hb).1) (by linarith)
    refine this.trans (le_of_eq ?_)
    ring
  · clear hn hlen
    induction l with
    | nil => simp
    | cons b l ih =>
      simp only [List.map_cons, List.sum_cons]
      exact (abs_add_le _ _).trans (add_le_add (bc_size (hl b List.mem_cons_self).1)
        (ih fun b hb => hl b (List.mem_cons_of_mem _ hb)))

theorem ext_error {w : ℝ} {lg : ℚ → ℚ} (hlg : LogUpTo w lg) (hw0 : 0 ≤ w) (hw : w ≤ 1 / 100)
    (h1 : R.u ≤ 1 / 100) {o e : ℚ} (ho : Content o) (he : Content e) :
    |(R.mul o (lg (R.clamp e)) : ℝ) - o * log (clampEps (e : ℝ))| ≤
      (w + 6 * R.u) * (o + o * |log (clampEps (e : ℝ))|) := by
  have h4 : R.u ≤ 1 / 4 := by linarith
  have h0 : (0 : ℝ) ≤ R.u := by exact_mod_cast R.u_nonneg
  have ho' : (0 : ℝ) ≤ o := by exact_mod_cast content_nonneg ho
  have k := R.mul_lg_near hlg hw0 hw h1 (by norm_num : 1 ≤ 2) (R.clamp_rel h4 he) (R.clamp_pos h4 e)
    (clampQ_pos e) (content_nonneg ho)
  rw [clampEps_cast]
  refine k.trans ?_
  have a1 : 0 ≤ (R.u : ℝ) * (o * |log (clampQ e : ℝ)|) := by positivity
  have a2 : 0 ≤ (R.u : ℝ) * o := by positivity
  have a3 : 0 ≤ w * o := by positivity
  nlinarith

theorem tot_error {tot : List ℚ → ℚ} (ht : R.Totals tot) (l : List ℚ) (hl : ∀ x ∈ l, 0 ≤ x)
    (hn : l.length * (R.u : ℝ) ≤ 1 / 100) :
    |(tot l : ℝ) - (l.map (fun x : ℚ => (x : ℝ))).sum| ≤
      51 / 50 * (l.length * R.u) * (l.map (fun x : ℚ => (x : ℝ))).sum := by
  have h0 : (0 : ℝ) ≤ R.u := by exact_mod_cast R.u_nonneg
  have hm : l.map abs = l := by
    conv_rhs => rw [← List.map_id l]
    exact List.map_congr_left fun x hx => abs_of_nonneg (hl x hx)
  have k := R.total_near ht l
  rw [hm] at k
  have k' : |(tot l : ℝ) - ((l.sum : ℚ) : ℝ)| ≤ ((1 + (R.u : ℝ)) ^ l.length - 1) * ((l.sum : ℚ) : ℝ) := by
    exact_mod_cast k
  have hs : ((l.sum : ℚ) : ℝ) = (l.map (fun x : ℚ => (x : ℝ))).sum := by
    rw [Rat.cast_list_sum]
  rw [← hs]
  refine k'.trans (mul_le_mul_of_nonneg_right (pow_le_of_small h0 _ hn) ?_)
  exact_mod_cast List.sum_nonneg hl

end Rounding

end Verif
