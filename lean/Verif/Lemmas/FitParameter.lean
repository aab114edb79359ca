import Verif.Spec.FitParameter
import Mathlib.Tactic.Linarith
import Mathlib.Tactic.FieldSimp
import Mathlib.Tactic.Positivity
import Mathlib.Tactic.Ring

/-!
# Lemmas about fit parameters
-/

namespace Verif

theorem npRintReal_eq {x : ℝ} {n : ℤ} (h1 : (n : ℝ) - 1 / 2 < x) (h2 : x < n + 1 / 2) :
    npRintReal x = n := by
  unfold npRintReal
  have hx := Int.floor_add_fract x
  have f0 := Int.fract_nonneg x
  have f1 := Int.fract_lt_one x
  by_cases hc : (n : ℝ) ≤ x
  · have hf : ⌊x⌋ = n := by
      rw [Int.floor_eq_iff]; exact ⟨hc, by linarith⟩
    rw [hf] at hx ⊢
    rw [if_pos (by linarith)]
  · have hf : ⌊x⌋ = n - 1 := by
      rw [Int.floor_eq_iff]; push_cast; exact ⟨by linarith, by linarith [lt_of_not_ge hc]⟩
    rw [hf] at hx ⊢
    push_cast at hx
    rw [if_neg (by linarith), if_pos (by linarith)]
    ring

theorem npRintReal_int (n : ℤ) : npRintReal (n : ℝ) = n :=
  npRintReal_eq (by linarith) (by linarith)

theorem length_npLinspace (a b : ℝ) (n : ℕ) : (npLinspace a b n).length = n := by
  simp [npLinspace]

theorem npLinspace_getElem? {a b : ℝ} {n i : ℕ} (h : i < n) :
    (npLinspace a b n)[i]? = some (a + (i : ℝ) * ((b - a) / ((n : ℝ) - 1))) := by
  simp [npLinspace, h]

theorem npLinspace_head? {a b : ℝ} {n : ℕ} (h : 1 ≤ n) : (npLinspace a b n).head? = some a := by
  rw [List.head?_eq_getElem?, npLinspace_getElem? (by omega)]
  simp

theorem npLinspace_last? {a b : ℝ} {n : ℕ} (h : 2 ≤ n) : (npLinspace a b n).getLast? = some b := by
  rw [List.getLast?_eq_getElem?, length_npLinspace, npLinspace_getElem? (by omega)]
  have h2 : (2 : ℝ) ≤ n := by exact_mod_cast h
  have h0 : (n : ℝ) - 1 ≠ 0 := by intro h0; linarith
  rw [Nat.cast_sub (by omega)]
  congr 1
  push_cast
  field_simp
  ring

theorem npLinspace_pairwise {a b : ℝ} {n : ℕ} (h : a < b) : (npLinspace a b n).Pairwise (· < ·) := by
  unfold npLinspace
  rw [List.pairwise_map]
  refine (List.pairwise_lt_range (n := n)).imp_of_mem ?_
  intro i j hi hj hij
  rw [List.mem_range] at hi hj
  have h2 : 0 < (n : ℝ) - 1 := by
    have : (2 : ℝ) ≤ n := by exact_mod_cast (show 2 ≤ n by omega)
    linarith
  have h3 : 0 < (b - a) / ((n : ℝ) - 1) := div_pos (by linarith) h2
  have h4 : (i : ℝ) < j := by exact_mod_cast hij
  have := mul_lt_mul_of_pos_right h4 h3
  linarith

theorem npLinspace_step {a b : ℝ} {n i : ℕ} {x y z : ℝ}
    (hx : (npLinspace a b n)[i]? = some x) (hy : (npLinspace a b n)[i + 1]? = some y)
    (hz : (npLinspace a b n)[i + 2]? = some z) : y - x = z - y := by
  have hl : i + 2 < n := by
    have := (List.getElem?_eq_some_iff.1 hz).1
    rwa [length_npLinspace] at this
  rw [npLinspace_getElem? (by omega)] at hx hy hz
  obtain rfl := Option.some.inj hx
  obtain rfl := Option.some.inj hy
  obtain rfl := Option.some.inj hz
  push_cast
  ring

theorem npLinspace_spaced {a b : ℝ} {n : ℕ} (hn : 2 ≤ n) (h : a < b) :
    Spaced id a b n (npLinspace a b n) :=
  ⟨length_npLinspace a b n, npLinspace_head? (by omega), npLinspace_last? hn,
    npLinspace_pairwise h, fun _ _ _ _ hx hy hz => npLinspace_step hx hy hz⟩

theorem map_spaced {a b : ℝ} {n : ℕ} (hn : 2 ≤ n) (h : a < b) {f g : ℝ → ℝ}
    (hg : StrictMono g) (hf : ∀ d, f (g d) = d) :
    Spaced f (g a) (g b) n ((npLinspace a b n).map g) := by
  refine ⟨by simp [length_npLinspace], ?_, ?_, ?_, ?_⟩
  · rw [List.head?_map, npLinspace_head? (by omega), Option.map_some]
  · rw [List.getLast?_map, npLinspace_last? hn, Option.map_some]
  · rw [List.pairwise_map]
    exact (npLinspace_pairwise h).imp (fun h => hg h)
  · intro i x y z hx hy hz
    rw [List.getElem?_map, Option.map_eq_some_iff] at hx hy hz
    obtain ⟨x', hx, rfl⟩ := hx
    obtain ⟨y', hy, rfl⟩ := hy
    obtain ⟨z', hz, rfl⟩ := hz
    rw [hf, hf, hf]
    exact npLinspace_step hx hy hz

theorem npLinspace_reverse {a b : ℝ} {n : ℕ} (hn : 2 ≤ n) :
    (npLinspace a b n).reverse = (npLinspace (-b) (-a) n).map (fun d => -d) := by
  have h2 : (2 : ℝ) ≤ n := by exact_mod_cast hn
  have h0 : (n : ℝ) - 1 ≠ 0 := by intro h0; linarith
  refine List.ext_getElem? fun i => ?_
  by_cases hi : i < n
  · rw [List.getElem?_reverse (by rwa [length_npLinspace]), length_npLinspace,
      npLinspace_getElem? (by omega), List.getElem?_map, npLinspace_getElem? hi, Option.map_some]
    congr 1
    rw [Nat.sub_sub, Nat.cast_sub (by omega)]
    push_cast
    field_simp
    ring
  · rw [List.getElem?_eq_none (by simp [length_npLinspace]; omega),
      List.getElem?_eq_none (by simp [length_npLinspace]; omega)]

/-- Two stretches that meet in a common value make one increasing list. -/
theorem join_spaced {f g : ℝ → ℝ} {low mid high : ℝ} {m n : ℕ} {lo hi : List ℝ}
    (hn : 2 ≤ n) (h1 : Spaced f low mid m lo) (h2 : Spaced g mid high n hi) :
    (lo ++ hi.tail).length + 1 = m + n ∧ (lo ++ hi.tail).head? = some low ∧
      (lo ++ hi.tail).getLast? = some high ∧ (lo ++ hi.tail).Pairwise (· < ·) ∧
      mid ∈ lo ++ hi.tail := by
  have c1 := h1.count
  have c2 := h2.count
  have f2 := h2.first
  cases hi with
  | nil => simp at f2
  | cons x t =>
    simp only [List.head?_cons, Option.some.injEq] at f2
    subst f2
    rw [List.length_cons] at c2
    rw [List.tail_cons]
    have ht : t ≠ [] := by rintro rfl; simp at c2; omega
    have hinc := h2.increasing
    rw [List.pairwise_cons] at hinc
    have hx : x ∈ lo := by
      have := h1.last
      exact List.mem_of_getLast? this
    refine ⟨by rw [List.length_append]; omega, ?_, ?_, ?_, List.mem_append_left _ hx⟩
    · rw [List.head?_append, h1.first]; rfl
    · rw [List.getLast?_append, ← h2.last]
      obtain ⟨y, t', rfl⟩ := List.exists_cons_of_ne_nil ht
      rw [List.getLast?_cons_cons]
      cases hl : (y :: t').getLast? with
      | none => simp at hl
      | some z => rfl
    · rw [List.pairwise_append]
      refine ⟨h1.increasing, hinc.2, fun a ha b hb => ?_⟩
      have hle : a ≤ x := by
        obtain ⟨l, hl⟩ := List.getLast?_eq_some_iff.1 h1.last
        rw [hl, List.mem_append, List.mem_singleton] at ha
        have hp := h1.increasing
        rw [hl, List.pairwise_append] at hp
        rcases ha with ha | rfl
        · exact (hp.2.2 a ha x (by simp)).le
        · exact le_refl _
      exact lt_of_le_of_lt hle (hinc.1 b hb)

theorem npLinspace_mem_range {a b : ℝ} {n : ℕ} (h : a ≤ b) {x : ℝ} (hx : x ∈ npLinspace a b n) :
    a ≤ x := by
  unfold npLinspace at hx
  rw [List.mem_map] at hx
  obtain ⟨i, hi, rfl⟩ := hx
  rw [List.mem_range] at hi
  have h1 : (1 : ℝ) ≤ n := by exact_mod_cast (show 1 ≤ n by omega)
  have : 0 ≤ (i : ℝ) * ((b - a) / ((n : ℝ) - 1)) :=
    mul_nonneg (Nat.cast_nonneg _) (div_nonneg (by linarith) (by linarith))
  linarith

/-- A list of reals without repetition: looking up a position and looking up a
value are inverse to each other. -/
theorem findIdx?_nodup {vs : List ℝ} (hn : vs.Nodup) {i : ℕ} {x : ℝ} (q : ℝ → Bool)
    (hq : ∀ y, q y = true ↔ y = x) : vs.findIdx? q = some i ↔ vs[i]? = some x := by
  constructor
  · intro h
    rw [List.findIdx?_eq_some_iff_getElem] at h
    obtain ⟨hi, hp, _⟩ := h
    rw [List.getElem?_eq_getElem hi, (hq _).1 hp]
  · intro h
    obtain ⟨hi, hx⟩ := List.getElem?_eq_some_iff.1 h
    rw [List.findIdx?_eq_some_iff_getElem]
    refine ⟨hi, (hq _).2 hx, ?_⟩
    intro j hj hp
    have hj' : j < vs.length := by omega
    have : vs[j]? = vs[i]? := by
      rw [h, List.getElem?_eq_getElem hj', (hq _).1 hp]
    have := (List.getElem?_inj hj' hn).1 this
    omega

theorem setKw_sameAttr {p q : FitPar} {kw : FitPar.Kw} (h : p.setKw kw = .ok q) :
    q.Holds kw ∧ ∀ k, k ≠ kw.key → p.SameAttr q k := by
  cases kw with
  | sigma v =>
    simp only [FitPar.setKw] at h
    split at h
    · injection h with h; subst h
      refine ⟨rfl, fun k hk => ?_⟩
      unfold FitPar.SameAttr
      split <;> first | rfl | exact absurd rfl hk | simp
    · cases h
  | logscale v =>
    simp only [FitPar.setKw] at h
    split at h
    · injection h with h; subst h
      refine ⟨rfl, fun k hk => ?_⟩
      unfold FitPar.SameAttr
      split <;> first | rfl | exact absurd rfl hk | simp
    · cases h
  | base v =>
    simp only [FitPar.setKw] at h
    split at h
    · injection h with h; subst h
      refine ⟨rfl, fun k hk => ?_⟩
      unfold FitPar.SameAttr
      split <;> first | rfl | exact absurd rfl hk | simp
    · cases h
  | logDev v =>
    simp only [FitPar.setKw] at h
    split at h
    · injection h with h; subst h
      refine ⟨rfl, fun k hk => ?_⟩
      unfold FitPar.SameAttr
      split <;> first | rfl | exact absurd rfl hk | simp
    · cases h
  | dimension v => cases h
  | other => cases h
  | prior v | low v | high v | bins v =>
    simp only [FitPar.setKw] at h
    injection h with h; subst h
    refine ⟨rfl, fun k hk => ?_⟩
    unfold FitPar.SameAttr
    split <;> first | rfl | exact absurd rfl hk | simp

theorem FitPar.SameAttr.trans {p q r : FitPar} {k : ℕ} (h1 : p.SameAttr q k)
    (h2 : q.SameAttr r k) : p.SameAttr r k := by
  match k, h1, h2 with
  | 0, h1, h2 => exact Eq.trans h1 h2
  | 1, h1, h2 => exact Eq.trans h1 h2
  | 2, h1, h2 => exact Eq.trans h1 h2
  | 3, h1, h2 => exact Eq.trans h1 h2
  | 4, h1, h2 => exact Eq.trans h1 h2
  | 5, h1, h2 => exact Eq.trans h1 h2
  | 6, h1, h2 => exact Eq.trans h1 h2
  | 7, h1, h2 => exact Eq.trans h1 h2
  | 8, h1, h2 => exact Eq.trans h1 h2
  | k + 9, h1, h2 =>
    exact ⟨h1.1.trans h2.1, h1.2.1.trans h2.2.1, h1.2.2.1.trans h2.2.2.1,
      h1.2.2.2.trans h2.2.2.2⟩

theorem holds_of_sameAttr {p q : FitPar} {kw : FitPar.Kw} (h : p.Holds kw)
    (hs : p.SameAttr q kw.key) : q.Holds kw := by
  cases kw with
  | other => exact h
  | prior v => exact hs.symm.trans h
  | sigma v => exact hs.symm.trans h
  | low v => exact hs.symm.trans h
  | high v => exact hs.symm.trans h
  | bins v => exact hs.symm.trans h
  | logscale v => exact hs.symm.trans h
  | base v => exact hs.symm.trans h
  | logDev v => exact hs.symm.trans h
  | dimension v => exact hs.symm.trans h

theorem setPar_ok : ∀ {kws : List FitPar.Kw} {p q : FitPar}, p.setPar kws = (q, none) →
    (kws.map FitPar.Kw.key).Nodup →
    q.values = none ∧ (∀ kw ∈ kws, q.Holds kw) ∧
      ∀ k, k ∉ kws.map FitPar.Kw.key → p.SameAttr q k := by
  intro kws
  induction kws with
  | nil =>
    intro p q h _
    simp only [FitPar.setPar, Prod.mk.injEq, and_true] at h
    subst h
    refine ⟨rfl, by simp, fun k _ => ?_⟩
    unfold FitPar.SameAttr
    split <;> first | rfl | simp
  | cons kw kws ih =>
    intro p q h hn
    rw [List.map_cons, List.nodup_cons] at hn
    simp only [FitPar.setPar] at h
    cases hs : p.setKw kw with
    | error e => rw [hs] at h; simp at h
    | ok p' =>
      rw [hs] at h
      simp only at h
      obtain ⟨h1, h2, h3⟩ := ih h hn.2
      obtain ⟨h4, h5⟩ := setKw_sameAttr hs
      refine ⟨h1, ?_, ?_⟩
      · intro kw' hk
        rcases List.mem_cons.1 hk with rfl | hk
        · exact holds_of_sameAttr h4 (h3 _ hn.1)
        · exact h2 _ hk
      · intro k hk
        rw [List.map_cons, List.mem_cons, not_or] at hk
        exact (h5 k hk.1).trans (h3 k hk.2)

end Verif
