import Verif.Lemmas.Fill
import Verif.Lemmas.Project

/-! Helper lemmas about `Spectrum.rebin`. -/

namespace Verif

open Finset

/-- pairs flattened -/
def flat (L : List (ℕ × ℕ)) : List ℕ := (L.map (fun p => [p.1, p.2])).flatten

/-- alternate two index lists -/
def interleave : List ℕ → List ℕ → List ℕ
  | x :: xs, j :: js => x :: j :: interleave xs js
  | _, _ => []

/-- `idx * ks + js` -/
def blockIdx : List ℕ → List ℕ → List ℕ → List ℕ
  | k :: ks, i :: idx, j :: js => (i * k + j) :: blockIdx ks idx js
  | _, _, _ => []

theorem flat_length (L : List (ℕ × ℕ)) : (flat L).length = 2 * L.length := by
  induction L with
  | nil => rfl
  | cons p L ih => simp [flat] at ih ⊢; omega

theorem flat_append (L M : List (ℕ × ℕ)) : flat (L ++ M) = flat L ++ flat M := by simp [flat]

theorem flat_cons (p : ℕ × ℕ) (L : List (ℕ × ℕ)) : flat (p :: L) = p.1 :: p.2 :: flat L := by
  simp [flat]

theorem interleave_append {x y i j : List ℕ} (h : x.length = i.length) :
    interleave (x ++ y) (i ++ j) = interleave x i ++ interleave y j := by
  induction x generalizing i with
  | nil => cases i with
    | nil => simp [interleave]
    | cons a i => simp at h
  | cons a x ih => cases i with
    | nil => simp at h
    | cons b i => simp [interleave, ih (by simpa using h)]

theorem interleave_length {x i : List ℕ} (h : x.length = i.length) :
    (interleave x i).length = 2 * x.length := by
  induction x generalizing i with
  | nil => cases i <;> simp [interleave]
  | cons a x ih => cases i with
    | nil => simp at h
    | cons b i => simp [interleave, ih (by simpa using h)]; omega

theorem insertIdx_append_cons (a : List ℕ) (b : ℕ) (c : List ℕ) (j : ℕ) :
    (a ++ b :: c).insertIdx (a.length + 1) j = a ++ b :: j :: c := by
  induction a with
  | nil => simp
  | cons x a ih => simpa using ih

theorem eraseIdx_append_cons (a : List ℕ) (b k : ℕ) (c : List ℕ) :
    (a ++ b :: k :: c).eraseIdx (a.length + 1) = a ++ b :: c := by
  induction a with
  | nil => simp
  | cons x a ih => simpa using ih

/-- The loop of sums over negative axes removes the second member of every pair. -/
theorem rebin_loop (L : List (ℕ × ℕ)) :
    ∀ (ds : List ℕ) (a : NdArray ℚ), a.shape = flat L ++ ds →
    ∃ b, ((List.range L.length).map (ds.length + ·)).foldlM
        (fun (c : NdArray ℚ) i => c.sumAxisNeg (i + 1)) a = .ok b ∧
      b.shape = L.map Prod.fst ++ ds ∧
      ∀ x y, x.length = L.length → b.get (x ++ y) =
        sumIdx (L.map Prod.snd) (fun js => a.get (interleave x js ++ y)) := by
  induction L using List.reverseRecOn with
  | nil =>
    intro ds a hs
    refine ⟨a, rfl, by simpa [flat] using hs, fun x y hx => ?_⟩
    simp at hx; subst hx; simp [interleave]
  | append_singleton L p ih =>
    intro ds a hs
    obtain ⟨d, k⟩ := p
    have hs' : a.shape = flat L ++ d :: k :: ds := by
      rw [hs, flat_append, flat_cons]; simp [flat]
    have hnd : a.ndim - (ds.length + 1) = (flat L).length + 1 := by
      unfold NdArray.ndim; rw [hs']; simp; omega
    have hle : ds.length + 1 ≤ a.ndim := by unfold NdArray.ndim; rw [hs']; simp; omega
    have hstep : a.sumAxisNeg (ds.length + 1) = .ok ⟨flat L ++ d :: ds,
        fun idx => ∑ j ∈ range k, a.get (idx.insertIdx ((flat L).length + 1) j)⟩ := by
      unfold NdArray.sumAxisNeg
      rw [if_pos hle, hnd]
      unfold NdArray.sumAxis
      have : a.shape[(flat L).length + 1]? = some k := by rw [hs']; simp
      rw [this]
      simp only
      rw [hs', eraseIdx_append_cons]
    obtain ⟨b, h1, h2, h3⟩ := ih (d :: ds) ⟨flat L ++ d :: ds,
        fun idx => ∑ j ∈ range k, a.get (idx.insertIdx ((flat L).length + 1) j)⟩ rfl
    refine ⟨b, ?_, ?_, ?_⟩
    · have hr : (List.range (L ++ [(d, k)]).length).map (ds.length + ·) =
          ds.length :: (List.range L.length).map ((d :: ds).length + ·) := by
        have hl : (L ++ [(d, k)]).length = L.length + 1 := by simp
        rw [hl, List.range_succ_eq_map]
        simp only [List.map_cons, List.map_map, Nat.add_zero, List.length_cons]
        congr 1
        refine List.map_congr_left fun i _ => ?_
        simp only [Function.comp_apply]; omega
      rw [hr, List.foldlM_cons, hstep]
      exact h1
    · rw [h2]; simp
    · intro x y hx
      obtain ⟨x', xd, rfl⟩ : ∃ x' xd, x = x' ++ [xd] :=
        ⟨x.dropLast, x.getLast (by rintro rfl; simp at hx), (List.dropLast_append_getLast _).symm⟩
      have hx' : x'.length = L.length := by simpa using hx
      have := h3 x' (xd :: y) hx'
      simp only [List.append_assoc, List.singleton_append]
      rw [this]
      simp only [List.map_append, List.map_cons, List.map_nil]
      rw [sumIdx_append]
      refine sumIdx_congr fun js hjs => ?_
      have hjl : x'.length = js.length := by
        rw [hx', hjs.length_eq]; simp
      simp only [sumIdx_cons, sumIdx_nil]
      refine sum_congr rfl fun j _ => ?_
      rw [interleave_append hjl]
      simp only [interleave, List.append_assoc, List.cons_append, List.nil_append]
      congr 1
      have : (flat L).length = (interleave x' js).length := by
        rw [flat_length, interleave_length hjl, hx']
      rw [this, insertIdx_append_cons]

theorem flat_prod (L : List (ℕ × ℕ)) : (flat L).prod = (L.map (fun p => p.1 * p.2)).prod := by
  induction L with
  | nil => rfl
  | cons p L ih => rw [flat_cons]; simp [ih]; ring

theorem inB_blockIdx {L : List (ℕ × ℕ)} {idx js : List ℕ} (hi : InB (L.map Prod.fst) idx)
    (hj : InB (L.map Prod.snd) js) :
    InB (L.map (fun p => p.1 * p.2)) (blockIdx (L.map Prod.snd) idx js) := by
  induction L generalizing idx js with
  | nil => simp [blockIdx]
  | cons p L ih =>
    cases idx with
    | nil => simp at hi
    | cons i idx => cases js with
      | nil => simp at hj
      | cons j js =>
        simp only [List.map_cons, inB_cons_cons] at hi hj
        simp only [List.map_cons, blockIdx, inB_cons_cons]
        refine ⟨?_, ih hi.2 hj.2⟩
        calc i * p.2 + j < i * p.2 + p.2 := by omega
          _ = (i + 1) * p.2 := by ring
          _ ≤ p.1 * p.2 := Nat.mul_le_mul_right _ hi.1

theorem ravel_flat {L : List (ℕ × ℕ)} {idx js : List ℕ} (hi : InB (L.map Prod.fst) idx)
    (hj : InB (L.map Prod.snd) js) :
    ravelIdx (flat L) (interleave idx js) =
      ravelIdx (L.map (fun p => p.1 * p.2)) (blockIdx (L.map Prod.snd) idx js) := by
  induction L generalizing idx js with
  | nil => simp [flat, ravelIdx]
  | cons p L ih =>
    cases idx with
    | nil => simp at hi
    | cons i idx => cases js with
      | nil => simp at hj
      | cons j js =>
        simp only [List.map_cons, inB_cons_cons] at hi hj
        rw [flat_cons]
        simp only [interleave, List.map_cons, blockIdx, ravelIdx, List.prod_cons, ih hi.2 hj.2,
          flat_prod]
        ring

theorem sum_block (d k i : ℕ) (hi : i < d) (g : ℕ → ℚ) :
    ∑ x ∈ range (d * k), (if x / k = i then g x else 0) = ∑ j ∈ range k, g (i * k + j) := by
  rw [← sum_filter]
  refine sum_nbij' (fun x => x - i * k) (fun j => i * k + j) ?_ ?_ ?_ ?_ ?_
  · intro x hx
    simp only [mem_filter, mem_range] at hx ⊢
    obtain ⟨hx, rfl⟩ := hx
    have hk : 0 < k := Nat.pos_of_ne_zero (by rintro rfl; simp at hx)
    have := Nat.div_add_mod' x k
    have := Nat.mod_lt x hk
    omega
  · intro j hj
    simp only [mem_filter, mem_range] at hj ⊢
    have hk : 0 < k := by omega
    refine ⟨?_, ?_⟩
    · calc i * k + j < i * k + k := by omega
        _ = (i + 1) * k := by ring
        _ ≤ d * k := Nat.mul_le_mul_right _ hi
    · rw [Nat.add_comm, Nat.add_mul_div_right _ _ hk, Nat.div_eq_of_lt hj]; omega
  · intro x hx
    simp only [mem_filter, mem_range] at hx
    obtain ⟨hx, rfl⟩ := hx
    have := Nat.div_add_mod' x k
    omega
  · intro j hj; simp
  · intro x hx
    simp only [mem_filter, mem_range] at hx
    obtain ⟨hx, rfl⟩ := hx
    have := Nat.div_add_mod' x k
    congr 1; omega

theorem sumIdx_block {L : List (ℕ × ℕ)} {idx : List ℕ} (hi : InB (L.map Prod.fst) idx)
    (f : List ℕ → ℚ) :
    sumIdx (L.map (fun p => p.1 * p.2))
      (fun full => if List.zipWith (· / ·) full (L.map Prod.snd) = idx then f full else 0) =
    sumIdx (L.map Prod.snd) (fun js => f (blockIdx (L.map Prod.snd) idx js)) := by
  induction L generalizing idx f with
  | nil => simp at hi; subst hi; simp [blockIdx]
  | cons p L ih =>
    cases idx with
    | nil => simp at hi
    | cons i idx =>
      simp only [List.map_cons, inB_cons_cons] at hi
      simp only [List.map_cons, sumIdx_cons, List.zipWith_cons_cons, List.cons.injEq, blockIdx]
      rw [← sum_block p.1 p.2 i hi.1 (fun x => sumIdx (L.map Prod.snd)
        (fun js => f (x :: blockIdx (L.map Prod.snd) idx js)))]
      refine sum_congr rfl fun x _ => ?_
      by_cases hx : x / p.2 = i
      · simp only [hx, true_and, if_true]
        exact ih hi.2 _
      · simp [hx]

/-- The data part of an accepted rebin. -/
theorem rebinData_ok {a : NdArray ℚ} {L : List (ℕ × ℕ)} (hs : a.shape = L.map (fun p => p.1 * p.2))
    (hpos : ∀ p ∈ L, 0 < p.1) :
    ∃ b, Spectrum.rebinData a (L.map Prod.fst) = .ok b ∧ IsRebin a (L.map Prod.fst) b := by
  have hks : List.zipWith (· / ·) a.shape (L.map Prod.fst) = L.map Prod.snd := by
    rw [hs]
    clear hs
    induction L with
    | nil => rfl
    | cons p L ih =>
      simp only [List.map_cons, List.zipWith_cons_cons]
      rw [ih fun q hq => hpos q (by simp [hq]), Nat.mul_div_cancel_left _ (hpos p (by simp))]
  have hcomp : Spectrum.compression (L.map Prod.fst) a.shape = flat L := by
    unfold Spectrum.compression flat
    congr 1
    have : (List.zipWith (fun d c => [d, c / d]) (L.map Prod.fst) a.shape) =
        List.zipWith (fun d k => [d, k]) (L.map Prod.fst)
          (List.zipWith (· / ·) a.shape (L.map Prod.fst)) := by
      generalize L.map Prod.fst = ds
      generalize a.shape = cs
      induction ds generalizing cs with
      | nil => simp
      | cons d ds ih => cases cs with
        | nil => simp
        | cons c cs => simp [ih]
    rw [this, hks, List.zipWith_map, List.zipWith_self]
  have hre : a.reshape (flat L) = .ok ⟨flat L, fun idx =>
      a.get (unravelIdx a.shape (ravelIdx (flat L) idx))⟩ := by
    unfold NdArray.reshape
    rw [if_pos (by rw [flat_prod, hs])]
  obtain ⟨b, h1, h2, h3⟩ := rebin_loop L [] ⟨flat L, fun idx =>
      a.get (unravelIdx a.shape (ravelIdx (flat L) idx))⟩ (by simp)
  refine ⟨b, ?_, by simpa using h2, fun idx hidx => ?_⟩
  · unfold Spectrum.rebinData
    rw [hcomp, hre]
    simp only [List.length_nil, Nat.zero_add, List.map_id'] at h1
    simpa [bind, Except.bind] using h1
  · have := h3 idx [] (by rw [hidx.length_eq]; simp)
    simp only [List.append_nil] at this
    rw [this, hks, hs, sumIdx_block hidx]
    refine sumIdx_congr fun js hjs => ?_
    rw [ravel_flat hidx hjs, unravel_ravel (inB_blockIdx hidx hjs)]

/-! ### the parameter loop -/

/-- axis with a new bin count -/
def setBins (p : SPar) (n : ℕ) : SPar := { p with bins := n }

theorem rebinLoop_ok_iff {cfg : List SPar} {ns : List ℕ} (hl : ns.length = cfg.length)
    (hpos : ∀ p ∈ cfg, 0 < p.bins) :
    (Spectrum.rebinLoop cfg ns).2 = none ↔
      List.Forall₂ (fun (p : SPar) (n : ℕ) => (n : ℤ) ∣ p.bins) cfg ns := by
  induction cfg generalizing ns with
  | nil => cases ns <;> simp_all [Spectrum.rebinLoop]
  | cons p cfg ih => cases ns with
    | nil => simp at hl
    | cons n ns =>
      have hp := hpos p (by simp)
      unfold Spectrum.rebinLoop
      by_cases h0 : n = 0
      · subst h0
        simp only [if_true, reduceCtorEq, List.forall₂_cons, Nat.cast_zero, zero_dvd_iff,
          false_iff, not_and]
        omega
      · by_cases h1 : p.bins % n = 0
        · simp only [h0, h1, ne_eq, not_true_eq_false, if_false, List.forall₂_cons]
          rw [ih (by simpa using hl) fun q hq => hpos q (by simp [hq])]
          simp [Int.dvd_of_emod_eq_zero h1]
        · simp only [h0, h1, ne_eq, not_false_eq_true, if_false, if_true, reduceCtorEq,
            List.forall₂_cons, false_iff, not_and]
          exact fun h => absurd (Int.emod_eq_zero_of_dvd h) h1

theorem rebinLoop_cfg {cfg : List SPar} {ns : List ℕ} (hl : ns.length = cfg.length)
    (h : (Spectrum.rebinLoop cfg ns).2 = none) :
    (Spectrum.rebinLoop cfg ns).1 = List.zipWith setBins cfg ns := by
  induction cfg generalizing ns with
  | nil => cases ns <;> simp_all [Spectrum.rebinLoop]
  | cons p cfg ih => cases ns with
    | nil => simp at hl
    | cons n ns =>
      unfold Spectrum.rebinLoop at h ⊢
      split at h
      · cases h
      · split at h
        · cases h
        · simp only [List.zipWith_cons_cons, *, if_false]
          rw [ih (by simpa using hl) h]
          rfl

theorem pairs_exist {cfg : List SPar} {ns shape : List ℕ} (hpos : ∀ p ∈ cfg, 0 < p.bins)
    (hs : shape.map (fun n : ℕ => (n : ℤ)) = cfg.map SPar.bins)
    (h : List.Forall₂ (fun (p : SPar) (n : ℕ) => (n : ℤ) ∣ p.bins) cfg ns) :
    ∃ L : List (ℕ × ℕ), ns = L.map Prod.fst ∧ shape = L.map (fun p => p.1 * p.2) ∧
      ∀ p ∈ L, 0 < p.1 := by
  induction h generalizing shape with
  | nil =>
    cases shape with
    | nil => exact ⟨[], rfl, rfl, by simp⟩
    | cons a b => simp at hs
  | @cons p n cfg ns h1 _ ih =>
    cases shape with
    | nil => simp at hs
    | cons c shape =>
      simp only [List.map_cons, List.cons.injEq] at hs
      obtain ⟨L, rfl, rfl, hL⟩ := ih (fun q hq => hpos q (by simp [hq])) hs.2
      rw [← hs.1] at h1
      have hd : n ∣ c := by exact_mod_cast h1
      have hp := hpos p (by simp)
      rw [← hs.1] at hp
      have hc : 0 < c := by exact_mod_cast hp
      obtain ⟨k, rfl⟩ := hd
      refine ⟨(n, k) :: L, rfl, rfl, ?_⟩
      intro q hq
      rcases List.mem_cons.1 hq with rfl | hq
      · exact Nat.pos_of_mul_pos_right hc
      · exact hL q hq

end Verif
