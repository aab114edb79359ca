import Verif.Spec.FloatStat
import Verif.Lemmas.FloatSum

/-! # Test statistics in floating point arithmetic -/

namespace Verif

namespace Rounding

/-- `UpTo` for rational numbers that are not negative. -/
structure Rel (u : ℚ) (N : ℕ) (x y : ℚ) : Prop where
  left : 0 ≤ x
  right : 0 ≤ y
  lower : (1 - u) ^ N * y ≤ x
  upper : (1 - u) ^ N * x ≤ y

variable {u : ℚ}

theorem Rel.refl {x : ℚ} (hx : 0 ≤ x) : Rel u 0 x x := ⟨hx, hx, by simp, by simp⟩

theorem Rel.mono (h0 : 0 ≤ u) (h1 : u ≤ 1) {N M : ℕ} (h : N ≤ M) {x y : ℚ} (hr : Rel u N x y) :
    Rel u M x y := by
  have hp : (1 - u) ^ M ≤ (1 - u) ^ N := pow_le_pow_of_le_one (by linarith) (by linarith) h
  exact ⟨hr.left, hr.right, (mul_le_mul_of_nonneg_right hp hr.right).trans hr.lower,
    (mul_le_mul_of_nonneg_right hp hr.left).trans hr.upper⟩

theorem Rel.trans (h1 : u ≤ 1) {N M : ℕ} {x y z : ℚ} (a : Rel u N x y) (b : Rel u M y z) :
    Rel u (N + M) x z := by
  have p : ∀ k, 0 ≤ (1 - u) ^ k := fun k => pow_nonneg (by linarith) k
  refine ⟨a.left, b.right, ?_, ?_⟩
  · rw [pow_add, mul_assoc]
    exact (mul_le_mul_of_nonneg_left b.lower (p N)).trans a.lower
  · rw [pow_add, mul_comm ((1 - u) ^ N), mul_assoc]
    exact (mul_le_mul_of_nonneg_left a.upper (p M)).trans b.upper

theorem Rel.symm {N : ℕ} {x y : ℚ} (a : Rel u N x y) : Rel u N y x := ⟨a.right, a.left, a.upper, a.lower⟩

theorem Rel.mul (h1 : u ≤ 1) {N M : ℕ} {x y x' y' : ℚ} (a : Rel u N x y) (b : Rel u M x' y') :
    Rel u (N + M) (x * x') (y * y') := by
  have p : ∀ k, 0 ≤ (1 - u) ^ k := fun k => pow_nonneg (by linarith) k
  refine ⟨mul_nonneg a.left b.left, mul_nonneg a.right b.right, ?_, ?_⟩
  · have := mul_le_mul a.lower b.lower (mul_nonneg (p M) b.right) a.left
    rw [pow_add]; linarith [this, mul_mul_mul_comm ((1 - u) ^ N) y ((1 - u) ^ M) y']
  · have := mul_le_mul a.upper b.upper (mul_nonneg (p M) b.left) a.right
    rw [pow_add]; linarith [this, mul_mul_mul_comm ((1 - u) ^ N) x ((1 - u) ^ M) x']

theorem Rel.inv {N : ℕ} {x y : ℚ} (a : Rel u N x y) (hx : 0 < x) (hy : 0 < y) :
    Rel u N x⁻¹ y⁻¹ := by
  refine ⟨inv_nonneg.2 a.left, inv_nonneg.2 a.right, ?_, ?_⟩
  · rw [← div_eq_mul_inv, div_le_iff₀ hy, ← mul_le_mul_iff_of_pos_left hx, ← mul_assoc,
      mul_inv_cancel₀ hx.ne', one_mul]
    linarith [a.upper, mul_comm x ((1 - u) ^ N)]
  · rw [← div_eq_mul_inv, div_le_iff₀ hx, ← mul_le_mul_iff_of_pos_left hy, ← mul_assoc,
      mul_inv_cancel₀ hy.ne', one_mul]
    linarith [a.lower, mul_comm y ((1 - u) ^ N)]

theorem Rel.div (h1 : u ≤ 1) {N M : ℕ} {x y x' y' : ℚ} (a : Rel u N x y) (b : Rel u M x' y')
    (hx : 0 < x') (hy : 0 < y') : Rel u (N + M) (x / x') (y / y') := by
  rw [div_eq_mul_inv, div_eq_mul_inv]
  exact a.mul h1 (b.inv hx hy)

theorem Rel.add {N : ℕ} {x y x' y' : ℚ} (a : Rel u N x y) (b : Rel u N x' y') :
    Rel u N (x + x') (y + y') :=
  ⟨add_nonneg a.left b.left, add_nonneg a.right b.right, by linarith [a.lower, b.lower],
    by linarith [a.upper, b.upper]⟩

variable (R : Rounding)

theorem rel_rnd (h1 : R.u ≤ 1) {x : ℚ} (hx : 0 ≤ x) : Rel R.u 1 (R.rnd x) x := by
  have h := R.rel x
  rw [abs_of_nonneg hx, abs_le] at h
  have h0 := R.u_nonneg
  refine ⟨R.rnd_nonneg hx, hx, by rw [pow_one]; linarith, ?_⟩
  rw [pow_one]
  have : (1 - R.u) * R.rnd x ≤ (1 - R.u) * ((1 + R.u) * x) :=
    mul_le_mul_of_nonneg_left (by linarith) (by linarith)
  nlinarith [mul_nonneg (mul_nonneg h0 h0) hx]

theorem Rel.rnd (h1 : R.u ≤ 1) {N : ℕ} {x y : ℚ} (a : Rel R.u N x y) : Rel R.u (N + 1) (R.rnd x) y := by
  have := (R.rel_rnd h1 a.left).trans h1 a
  rwa [add_comm] at this

/-- A rounded difference, up to its sign. -/
theorem rel_abs_rnd (h1 : R.u ≤ 1) (x : ℚ) : Rel R.u 1 |R.rnd x| |x| := by
  have h := R.rel x
  have h0 := R.u_nonneg
  have k1 := abs_sub_abs_le_abs_sub (R.rnd x) x
  have k2 := abs_sub_abs_le_abs_sub x (R.rnd x)
  rw [abs_sub_comm x] at k2
  have hx := abs_nonneg x
  refine ⟨abs_nonneg _, hx, by rw [pow_one]; linarith, ?_⟩
  rw [pow_one]
  have : (1 - R.u) * |R.rnd x| ≤ (1 - R.u) * ((1 + R.u) * |x|) :=
    mul_le_mul_of_nonneg_left (by linarith) (by linarith)
  nlinarith [mul_nonneg (mul_nonneg h0 h0) hx]

/-! ### thresholds -/

theorem eps_rel (h1 : R.u ≤ 1) : Rel R.u 1 R.eps (1 / 10 ^ 34) := R.rel_rnd h1 (by norm_num)

theorem eps_bounds (h4 : R.u ≤ 1 / 4) : 3 / 4 / 10 ^ 34 ≤ R.eps ∧ R.eps ≤ 5 / 4 / 10 ^ 34 := by
  have h := R.rel (1 / 10 ^ 34)
  rw [abs_of_nonneg (by norm_num : (0 : ℚ) ≤ 1 / 10 ^ 34), abs_le] at h
  have : R.u * (1 / 10 ^ 34) ≤ 1 / 4 * (1 / 10 ^ 34) := mul_le_mul_of_nonneg_right h4 (by norm_num)
  unfold eps
  constructor <;> linarith

theorem eps_pos (h4 : R.u ≤ 1 / 4) : 0 < R.eps :=
  lt_of_lt_of_le (by norm_num) (R.eps_bounds h4).1

theorem eps_lt (h4 : R.u ≤ 1 / 4) {x : ℚ} (hx : Content x) :
    (x < R.eps ↔ x = 0) ∧ (x < 1 / 10 ^ 34 ↔ x = 0) := by
  have hb := (R.eps_bounds h4).2
  have hp := R.eps_pos h4
  have e1 : (5 / 4 / 10 ^ 34 : ℚ) ≤ 1 / 10 ^ 30 := by norm_num
  have e2 : (1 / 10 ^ 34 : ℚ) ≤ 1 / 10 ^ 30 := by norm_num
  rcases hx with rfl | hx
  · simp [hp]
  · have : x ≠ 0 := by
      rintro rfl
      norm_num at hx
    refine ⟨⟨fun h => ?_, fun h => absurd h this⟩, ⟨fun h => ?_, fun h => absurd h this⟩⟩ <;> linarith

theorem content_nonneg {x : ℚ} (hx : Content x) : 0 ≤ x := by
  rcases hx with rfl | hx
  · exact le_refl _
  · exact le_trans (by norm_num) hx

/-- Clamping, exactly. -/
def clampQ (x : ℚ) : ℚ := if x < 1 / 10 ^ 34 then 1 / 10 ^ 34 else x

theorem clampQ_pos (x : ℚ) : 0 < clampQ x := by
  unfold clampQ
  split
  · norm_num
  · next h => exact lt_of_lt_of_le (by norm_num) (not_lt.1 h)

theorem clamp_pos (h4 : R.u ≤ 1 / 4) (x : ℚ) : 0 < R.clamp x := by
  unfold clamp
  split
  · exact R.eps_pos h4
  · next h => exact lt_of_lt_of_le (R.eps_pos h4) (not_lt.1 h)

theorem clamp_cases (h4 : R.u ≤ 1 / 4) {x : ℚ} (hx : Content x) :
    (x = 0 ∧ R.clamp x = R.eps ∧ clampQ x = 1 / 10 ^ 34) ∨
    (1 / 10 ^ 30 ≤ x ∧ R.clamp x = x ∧ clampQ x = x) := by
  have he := R.eps_lt h4 hx
  rcases hx with rfl | hx
  · exact .inl ⟨rfl, if_pos (he.1.2 rfl), if_pos (he.2.2 rfl)⟩
  · have : x ≠ 0 := by
      rintro rfl
      norm_num at hx
    exact .inr ⟨hx, if_neg fun h => this (he.1.1 h), if_neg fun h => this (he.2.1 h)⟩

theorem clamp_rel (h4 : R.u ≤ 1 / 4) {x : ℚ} (hx : Content x) : Rel R.u 1 (R.clamp x) (clampQ x) := by
  have h1 : R.u ≤ 1 := by linarith
  rcases R.clamp_cases h4 hx with ⟨-, h2, h3⟩ | ⟨h, h2, h3⟩
  · rw [h2, h3]; exact R.eps_rel h1
  · rw [h2, h3]; exact (Rel.refl (le_trans (by norm_num) h)).mono R.u_nonneg h1 (by omega)

/-- The difference of contents and clamped contents. -/
theorem sub_clamp_rel (h4 : R.u ≤ 1 / 4) {x y : ℚ} (hx : Content x) (hx0 : x ≠ 0) (hy : Content y) :
    Rel R.u 2 |R.sub x (R.clamp y)| |x - clampQ y| := by
  have h1 : R.u ≤ 1 := by linarith
  have h0 := R.u_nonneg
  have hx' : 1 / 10 ^ 30 ≤ x := hx.resolve_left hx0
  rcases R.clamp_cases h4 hy with ⟨-, h2, h3⟩ | ⟨h, h2, h3⟩
  · have hb := R.eps_bounds h4
    have ha : Rel R.u 1 (x - R.eps) (x - 1 / 10 ^ 34) := by
      have h := R.rel (1 / 10 ^ 34)
      rw [abs_of_nonneg (by norm_num : (0 : ℚ) ≤ 1 / 10 ^ 34), abs_le] at h
      change -(R.u * (1 / 10 ^ 34)) ≤ R.eps - 1 / 10 ^ 34 ∧ R.eps - 1 / 10 ^ 34 ≤ _ at h
      have e1 : (2 / 10 ^ 34 : ℚ) ≤ 1 / 10 ^ 30 := by norm_num
      have k1 : R.u * (2 / 10 ^ 34) ≤ R.u * x := mul_le_mul_of_nonneg_left (by linarith) h0
      have k2 : (5 / 4 / 10 ^ 34 : ℚ) ≤ 2 / 10 ^ 34 := by norm_num
      have k3 : (1 / 10 ^ 34 : ℚ) ≤ 2 / 10 ^ 34 := by norm_num
      refine ⟨by linarith, by linarith, ?_, ?_⟩
      · rw [pow_one]
        have : (1 - R.u) * (x - 1 / 10 ^ 34) = x - 1 / 10 ^ 34 - (R.u * x - R.u * (1 / 10 ^ 34)) := by ring
        have e : R.u * (2 / 10 ^ 34) = 2 * (R.u * (1 / 10 ^ 34)) := by ring
        linarith
      · rw [pow_one]
        have k4 : R.u * R.eps ≤ R.u * (5 / 4 / 10 ^ 34) := mul_le_mul_of_nonneg_left hb.2 h0
        have e : R.u * (5 / 4 / 10 ^ 34) = 5 / 4 * (R.u * (1 / 10 ^ 34)) := by ring
        have e1 : (9 / 4 / 10 ^ 34 : ℚ) ≤ 1 / 10 ^ 30 := by norm_num
        have k5 : R.u * (9 / 4 / 10 ^ 34) ≤ R.u * x := mul_le_mul_of_nonneg_left (by linarith) h0
        have e' : R.u * (9 / 4 / 10 ^ 34) = 9 / 4 * (R.u * (1 / 10 ^ 34)) := by ring
        have : (1 - R.u) * (x - R.eps) = x - R.eps - (R.u * x - R.u * R.eps) := by ring
        linarith
    rw [h2, h3]
    have hn := ha.rnd R h1
    unfold sub
    rw [abs_of_nonneg hn.left, abs_of_nonneg hn.right]
    exact hn
  · rw [h2, h3]
    exact (R.rel_abs_rnd h1 (x - y)).mono h0 h1 (by omega)

/-! ### bins -/

/-- `pearsonBin` in exact arithmetic. -/
def pearsonQ (obs exp : ℚ) : ℚ := if obs < 1 / 10 ^ 34 then clampQ exp else (obs - clampQ exp) ^ 2 / clampQ exp

/-- `neymanBin` in exact arithmetic. -/
def neymanQ (obs exp : ℚ) : ℚ := if exp < 1 / 10 ^ 34 then clampQ obs else (exp - clampQ obs) ^ 2 / clampQ obs

theorem quotient_rel (h4 : R.u ≤ 1 / 4) {x y : ℚ} (hx : Content x) (hx0 : x ≠ 0) (hy : Content y) :
    Rel R.u 7 (R.div (R.mul (R.sub x (R.clamp y)) (R.sub x (R.clamp y))) (R.clamp y))
      ((x - clampQ y) ^ 2 / clampQ y) := by
  have h1 : R.u ≤ 1 := by linarith
  have hd := R.sub_clamp_rel h4 hx hx0 hy
  have hm := hd.mul h1 hd
  rw [abs_mul_abs_self, abs_mul_abs_self, ← pow_two (x - clampQ y)] at hm
  exact ((hm.rnd R h1).div h1 (R.clamp_rel h4 hy) (R.clamp_pos h4 y) (clampQ_pos y)).rnd R h1

theorem pearson_rel (h4 : R.u ≤ 1 / 4) {o e : ℚ} (ho : Content o) (he : Content e) :
    Rel R.u 7 (R.pearsonBin o e) (pearsonQ o e) := by
  have h1 : R.u ≤ 1 := by linarith
  have ht := R.eps_lt h4 ho
  unfold pearsonBin pearsonQ
  by_cases h : o = 0
  · rw [if_pos (ht.2.2 h)]
    dsimp only
    rw [if_pos (ht.1.2 h)]
    exact (R.clamp_rel h4 he).mono R.u_nonneg h1 (by omega)
  · rw [if_neg fun hh => h (ht.2.1 hh)]
    dsimp only
    rw [if_neg fun hh => h (ht.1.1 hh)]
    exact R.quotient_rel h4 ho h he

theorem neyman_rel (h4 : R.u ≤ 1 / 4) {o e : ℚ} (ho : Content o) (he : Content e) :
    Rel R.u 7 (R.neymanBin o e) (neymanQ o e) := R.pearson_rel h4 he ho

theorem clampEps_cast (x : ℚ) : clampEps (x : ℝ) = (clampQ x : ℚ) := by
  have h : (x : ℝ) < statEps ↔ x < 1 / 10 ^ 34 := by
    unfold statEps
    rw [show (1 / 10 ^ 34 : ℝ) = ((1 / 10 ^ 34 : ℚ) : ℝ) by norm_num]
    exact Rat.cast_lt
  unfold clampEps clampQ
  by_cases hx : x < 1 / 10 ^ 34
  · rw [if_pos hx, if_pos (h.2 hx)]; norm_num [statEps]
  · rw [if_neg hx, if_neg fun hh => hx (h.1 hh)]

theorem lt_statEps (x : ℚ) : (x : ℝ) < statEps ↔ x < 1 / 10 ^ 34 := by
  unfold statEps
  rw [show (1 / 10 ^ 34 : ℝ) = ((1 / 10 ^ 34 : ℚ) : ℝ) by norm_num]
  exact Rat.cast_lt

theorem pearson_cast (o e : ℚ) : Verif.pearsonBin (o : ℝ) (e : ℝ) = (pearsonQ o e : ℚ) := by
  unfold Verif.pearsonBin pearsonQ
  dsimp only
  rw [clampEps_cast]
  by_cases h : o < 1 / 10 ^ 34
  · rw [if_pos h, if_pos ((lt_statEps o).2 h)]
  · rw [if_neg h, if_neg fun hh => h ((lt_statEps o).1 hh)]
    push_cast; rfl

theorem neyman_cast (o e : ℚ) : Verif.neymanBin (o : ℝ) (e : ℝ) = (neymanQ o e : ℚ) := pearson_cast e o

/-! ### totals -/

theorem fold_rel (h1 : R.u ≤ 1) {k : ℕ} {f g : ℚ → ℚ → ℚ} :
    ∀ (l : List (ℚ × ℚ)), (∀ b ∈ l, Rel R.u k (f b.1 b.2) (g b.1 b.2)) →
    ∀ (N : ℕ) (x y : ℚ), k ≤ N → Rel R.u N x y →
      Rel R.u (N + l.length) (l.foldl (fun t b => R.add t (f b.1 b.2)) x)
        (l.foldl (fun t b => t + g b.1 b.2) y)
  | [], _, _, _, _, _, h => h
  | b :: l, hl, N, x, y, hk, h => by
    have h2 := fold_rel h1 l (fun b hb => hl b (List.mem_cons_of_mem _ hb)) (N + 1)
      (R.add x (f b.1 b.2)) (y + g b.1 b.2) (by omega)
      (Rel.rnd R h1 (h.add ((hl b List.mem_cons_self).mono R.u_nonneg h1 hk)))
    rw [List.length_cons, show N + (l.length + 1) = N + 1 + l.length by omega]
    exact h2

theorem fold_cast (f : ℝ → ℝ → ℝ) (g : ℚ → ℚ → ℚ) (h : ∀ o e : ℚ, f o e = (g o e : ℚ)) :
    ∀ (obs exp : List ℚ) (x : ℚ),
      ((obs.map (fun x : ℚ => (x : ℝ))).zip (exp.map (fun x : ℚ => (x : ℝ)))).foldl
        (fun t b => t + f b.1 b.2) (x : ℝ) =
      (((obs.zip exp).foldl (fun t b => t + g b.1 b.2) x : ℚ) : ℝ)
  | [], _, _ => rfl
  | _ :: _, [], _ => rfl
  | o :: obs, e :: exp, x => by
    simp only [List.map_cons, List.zip_cons_cons, List.foldl_cons, h]
    rw [← Rat.cast_add]
    exact fold_cast f g h obs exp _

theorem total_rel (h4 : R.u ≤ 1 / 4) {f g : ℚ → ℚ → ℚ} {F : ℝ → ℝ → ℝ}
    (hf : ∀ o e, Content o → Content e → Rel R.u 7 (f o e) (g o e))
    (hF : ∀ o e : ℚ, F o e = (g o e : ℚ)) {obs exp : List ℚ} (ho : ∀ x ∈ obs, Content x)
    (he : ∀ x ∈ exp, Content x) :
    R.UpTo (obs.length + 7) (R.loopTotal f obs exp : ℚ)
      (Verif.loopTotal F (obs.map (fun x : ℚ => (x : ℝ))) (exp.map (fun x : ℚ => (x : ℝ)))) := by
  have h1 : R.u ≤ 1 := by linarith
  have hr := R.fold_rel h1 (obs.zip exp) (f := f) (g := g) (k := 7) (fun b hb => hf _ _
    (ho _ (List.of_mem_zip hb).1) (he _ (List.of_mem_zip hb).2)) 7 0 0 (le_refl _)
    ((Rel.refl (le_refl _)).mono R.u_nonneg h1 (by omega))
  have hlen : 7 + (obs.zip exp).length ≤ obs.length + 7 := by
    rw [List.length_zip]; omega
  have hm := hr.mono R.u_nonneg h1 hlen
  have hc := fold_cast F g hF obs exp 0
  rw [Rat.cast_zero] at hc
  unfold UpTo Verif.loopTotal
  rw [hc]
  have e1 := hm.lower
  have e2 := hm.upper
  constructor
  · exact_mod_cast e1
  · exact_mod_cast e2

end Rounding

end Verif
