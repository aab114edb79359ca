import Verif.Model.Utilities
import Verif.Lemmas.NdArray
import Verif.Lemmas.Minimise

/-! # C69: errors on arrays -/

namespace Verif

theorem arrayErrors_spec (a : NdArray ℝ) (lin frac : Option ℝ) (log log10 : Bool)
    (f : ℝ → ℝ) (h : ∀ idx, InB a.shape idx →
      arrayError lin frac log log10 (a.get idx) = .ok (f (a.get idx))) :
    ∃ r, getArrayErrors a lin frac log log10 = .ok r ∧ r.shape = [a.shape.prod] ∧
      ∀ idx, InB a.shape idx → r.get [ravelIdx a.shape idx] = f (a.get idx) := by
  have hm : ((List.range a.shape.prod).map (fun k => a.get (unravelIdx a.shape k))).mapM
      (arrayError lin frac log log10) =
      .ok (((List.range a.shape.prod).map (fun k => a.get (unravelIdx a.shape k))).map f) := by
    apply mapM_ok
    intro v hv
    obtain ⟨k, hk, rfl⟩ := List.mem_map.1 hv
    exact h _ (inB_unravel (List.mem_range.1 hk))
  unfold getArrayErrors
  rw [hm]
  refine ⟨_, rfl, by simp, ?_⟩
  intro idx hi
  have hl := ravelIdx_lt hi
  simp [hl, unravel_ravel hi]

/-- **C69, linear errors.** With a non-zero linear error every entry of the result is that
error. The result is flat: the entry of cell `idx` is found at its position in row-major
order. Not provable: the shape, see `c69_shape_negation`. -/
theorem c69_linear_partial (a : NdArray ℝ) (lin : ℝ) (hl : lin ≠ 0) (frac : Option ℝ) :
    ∃ r, getArrayErrors a (some lin) frac = .ok r ∧ r.shape = [a.shape.prod] ∧
      ∀ idx, InB a.shape idx → r.get [ravelIdx a.shape idx] = lin := by
  apply arrayErrors_spec a _ _ _ _ (fun _ => lin)
  intro idx _
  simp [arrayError, truthy, hl]

/-- **C69, one dimension.** For one-dimensional arrays shape and entries are as promised. -/
theorem c69_one_dimensional_partial (a : NdArray ℝ) (n : ℕ) (ha : a.shape = [n]) (lin : ℝ)
    (hl : lin ≠ 0) (frac : Option ℝ) :
    ∃ r, getArrayErrors a (some lin) frac = .ok r ∧ r.shape = a.shape ∧
      ∀ idx, InB a.shape idx → r.get idx = lin := by
  obtain ⟨r, h1, h2, h3⟩ := c69_linear_partial a lin hl frac
  refine ⟨r, h1, by simp [h2, ha], fun idx hi => ?_⟩
  have := h3 idx hi
  rw [ha] at this hi
  cases hi with
  | cons _ h =>
    cases h
    simpa [ravelIdx] using this

/-- A 2 × 3 array with entries 1 to 6. -/
def Ex.arr : NdArray ℝ := ⟨[2, 3], fun idx => match idx with
  | [i, j] => 3 * i + j + 1
  | _ => 0⟩

example : (1 / 100 : ℝ) ≠ 0 ∧ InB Ex.arr.shape [1, 2] := ⟨by norm_num, by decide⟩

/-- **C69, logarithmic errors.** With `log` the linear error is applied to the natural
logarithm, with `log10` to the decimal one: the error is the change of the value. Empty cells are
allowed and keep the error zero. -/
theorem c69_logarithmic_partial (a : NdArray ℝ) (lin : ℝ) (hl : lin ≠ 0) (frac : Option ℝ)
    (hp : ∀ idx, InB a.shape idx → 0 ≤ a.get idx) (log10 : Bool) :
    (∃ r, getArrayErrors a (some lin) frac true log10 = .ok r ∧
      ∀ idx, InB a.shape idx →
        r.get [ravelIdx a.shape idx] = a.get idx * (Real.exp lin - 1)) ∧
    (∃ r, getArrayErrors a (some lin) frac false true = .ok r ∧
      ∀ idx, InB a.shape idx →
        r.get [ravelIdx a.shape idx] = a.get idx * ((10 : ℝ) ^ lin - 1)) := by
  constructor
  · obtain ⟨r, h1, -, h3⟩ := arrayErrors_spec a (some lin) frac true log10
      (fun v => v * (Real.exp lin - 1)) (fun idx hi => by
        rcases (hp idx hi).eq_or_lt with h0 | this
        · simp [arrayError, truthy, hl, ← h0]
        simp [arrayError, truthy, hl, not_lt.2 this.le, this.ne', Real.exp_add, Real.exp_log this]
        ring)
    exact ⟨r, h1, h3⟩
  · obtain ⟨r, h1, -, h3⟩ := arrayErrors_spec a (some lin) frac false true
      (fun v => v * ((10 : ℝ) ^ lin - 1)) (fun idx hi => by
        rcases (hp idx hi).eq_or_lt with h0 | this
        · simp [arrayError, truthy, hl, ← h0]
        have h10 : (10 : ℝ) ^ (Real.log (a.get idx) / Real.log 10) = a.get idx := by
          have hl10 : Real.log 10 ≠ 0 := (Real.log_pos (by norm_num)).ne'
          rw [Real.rpow_def_of_pos (by norm_num), mul_div_cancel₀ _ hl10, Real.exp_log this]
        simp [arrayError, truthy, hl, not_lt.2 this.le, this.ne',
          Real.rpow_add (by norm_num : (0 : ℝ) < 10), h10]
        ring)
    exact ⟨r, h1, h3⟩

example : ∀ idx, InB Ex.arr.shape idx → 0 ≤ Ex.arr.get idx := by
  intro idx h
  cases h with
  | cons _ h =>
    cases h with
    | cons _ h =>
      cases h
      simp only [Ex.arr]
      positivity

/-- **C69, shape.** The result for an array with more (or fewer) than one dimension never has
the shape of that array. -/
theorem c69_shape_negation (a : NdArray ℝ) (h : a.shape.length ≠ 1) (lin frac : Option ℝ)
    (log log10 : Bool) (r : NdArray ℝ) (hr : getArrayErrors a lin frac log log10 = .ok r) :
    r.shape ≠ a.shape := by
  unfold getArrayErrors at hr
  split at hr
  · cases hr
  · cases hr
    intro h'
    rw [← h'] at h
    simp at h

example : Ex.arr.shape.length ≠ 1 ∧ ∃ r, getArrayErrors Ex.arr = .ok r := by
  refine ⟨by decide, ?_⟩
  obtain ⟨r, h, -⟩ := c69_linear_partial Ex.arr (1 / 100) (by norm_num) none
  exact ⟨r, h⟩

/-- **C69, fractional errors are ignored** unless the linear error is switched off
explicitly: with the default arguments the fraction has no effect. -/
theorem c69_fraction_ignored_negation (a : NdArray ℝ) (frac frac' : Option ℝ)
    (log log10 : Bool) :
    getArrayErrors a (frac := frac) (log := log) (log10 := log10)
      = getArrayErrors a (frac := frac') (log := log) (log10 := log10) := by
  have : arrayError (some (1 / 100)) frac log log10
      = arrayError (some (1 / 100)) frac' log log10 := by
    funext v
    have ht : truthy (some (1 / 100 : ℝ)) = some (1 / 100) := by norm_num [truthy]
    simp only [arrayError, ht]
  unfold getArrayErrors
  rw [this]

/-- **C69, fractional errors are off by the value.** With the linear error switched off the
entry is `(f - 1) · v`, which is not the promised `f · v` for any non-zero value. -/
theorem c69_fraction_value_negation (a : NdArray ℝ) (lin : Option ℝ)
    (hl : lin = none ∨ lin = some 0) (f : ℝ) (hf : f ≠ 0) :
    ∃ r, getArrayErrors a lin (some f) = .ok r ∧
      (∀ idx, InB a.shape idx → r.get [ravelIdx a.shape idx] = (f - 1) * a.get idx) ∧
      (∀ idx, InB a.shape idx → a.get idx ≠ 0 →
        r.get [ravelIdx a.shape idx] ≠ f * a.get idx) := by
  obtain ⟨r, h1, -, h3⟩ := arrayErrors_spec a lin (some f) false false
    (fun v => (f - 1) * v) (fun idx hi => by
      rcases hl with rfl | rfl <;> simp [arrayError, truthy, hf] <;> ring)
  refine ⟨r, h1, h3, fun idx hi hv h => hv ?_⟩
  rw [h3 idx hi] at h
  linarith

/-- **C69, neither error.** Without a linear and a fractional error an array with at least
one entry raises `ValueError`; an array without entries does not. -/
theorem c69_neither_partial (a : NdArray ℝ) (lin frac : Option ℝ)
    (hl : lin = none ∨ lin = some 0) (hf : frac = none ∨ frac = some 0) (log log10 : Bool) :
    (a.shape.prod ≠ 0 → getArrayErrors a lin frac log log10 = .error .valueError) ∧
    (a.shape.prod = 0 → ∃ r, getArrayErrors a lin frac log log10 = .ok r) := by
  have he : ∀ v, arrayError lin frac log log10 v = .error .valueError := by
    intro v
    have h1 : truthy lin = none := by rcases hl with rfl | rfl <;> simp [truthy]
    have h2 : truthy frac = none := by rcases hf with rfl | rfl <;> simp [truthy]
    unfold arrayError
    simp only [h1, h2, ite_self]
  constructor
  · intro h
    obtain ⟨n, hn⟩ := Nat.exists_eq_succ_of_ne_zero h
    unfold getArrayErrors
    rw [hn, List.range_succ_eq_map, List.map_cons, List.mapM_cons, he]
    rfl
  · intro h
    unfold getArrayErrors
    rw [h]
    exact ⟨_, rfl⟩

example : Ex.arr.shape.prod ≠ 0 := by decide

end Verif
