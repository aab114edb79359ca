import Verif.Spec.Whole

/-! # Python 2 numbers: lemmas -/

namespace Verif

open Real

theorem add_val (a b : PyNum) : (a.add b).val = a.val + b.val := by
  cases a <;> cases b <;> simp [PyNum.add, PyNum.val]

theorem sub_val (a b : PyNum) : (a.sub b).val = a.val - b.val := by
  cases a <;> cases b <;> simp [PyNum.sub, PyNum.val]

theorem mul_val (a b : PyNum) : (a.mul b).val = a.val * b.val := by
  cases a <;> cases b <;> simp [PyNum.mul, PyNum.val]

theorem toFloat_val (a : PyNum) : a.toFloat.val = a.val := rfl

theorem toFloat_isFloat (a : PyNum) : a.toFloat.IsFloat := trivial

theorem localEps_val (a : PyNum) : a.localEps.val = clampEps a.val := by
  unfold PyNum.localEps clampEps
  split <;> rfl

theorem storeEps_val {a : PyNum} (h : a.IsFloat) : a.storeEps.val = clampEps a.val ∧
    a.storeEps.IsFloat := by
  unfold PyNum.storeEps clampEps
  cases a with
  | int n => exact h.elim
  | float x => split <;> exact ⟨rfl, trivial⟩

theorem localEps_isFloat {a : PyNum} (h : a.IsFloat) : a.localEps.IsFloat := by
  unfold PyNum.localEps
  split
  · trivial
  · exact h

theorem div_float {a b : PyNum} (h : a.IsFloat ∨ b.IsFloat) :
    a.div b = if b.val = 0 then .error .zeroDivision else .ok (.float (a.val / b.val)) := by
  cases a <;> cases b
  · exact (h.elim id id).elim
  all_goals rfl

theorem npDiv_float {a b : PyNum} (h : a.IsFloat ∨ b.IsFloat) :
    a.npDiv b = if b.val = 0 then none else some (.float (a.val / b.val)) := by
  cases a <;> cases b
  · exact (h.elim id id).elim
  all_goals rfl

theorem statEps_pos' : 0 < statEps := by unfold statEps; positivity

theorem clampEps_pos' (x : ℝ) : 0 < clampEps x := by
  unfold clampEps
  split
  · exact statEps_pos'
  · exact statEps_pos'.trans_le (not_lt.1 ‹_›)

theorem bakerCousinsNum_val {o e : PyNum} (he : e.IsFloat) (hpos : 0 < e.val) :
    (bakerCousinsNum o e).map PyNum.val =
      some (if o.val < statEps then e.val else e.val - o.val + o.val * log (o.val / e.val)) := by
  unfold bakerCousinsNum
  split
  · rfl
  · rename_i ho
    have hop : 0 < o.val := statEps_pos'.trans_le (not_lt.1 ho)
    rw [npDiv_float (.inr he), if_neg hpos.ne']
    simp only [bind, Option.bind]
    unfold PyNum.npLog
    rw [if_neg (by simp only [PyNum.val, not_le]; exact div_pos hop hpos)]
    simp only [Option.map_some, add_val, sub_val, mul_val]
    rfl

theorem totalNum_val {f : PyNum → PyNum → Option PyNum} {g : ℝ → ℝ → ℝ} {obs exp : List PyNum}
    (h : ∀ b ∈ obs.zip exp, (f b.1 b.2).map PyNum.val = some (g b.1.val b.2.val)) :
    (totalNum f obs exp).map PyNum.val = some (loopTotal g (obs.map PyNum.val) (exp.map PyNum.val)) := by
  unfold totalNum loopTotal
  have hz : (obs.map PyNum.val).zip (exp.map PyNum.val) =
      (obs.zip exp).map (fun b => (b.1.val, b.2.val)) := by
    rw [List.zip_map]; rfl
  rw [hz]
  have h0 : (0 : ℝ) = (PyNum.int 0).val := by simp [PyNum.val]
  rw [h0]
  generalize (PyNum.int 0) = z
  generalize obs.zip exp = l at h
  clear * - h
  induction l generalizing z with
  | nil => rfl
  | cons b l ih =>
    have hb := h b (by simp)
    cases hf : f b.1 b.2 with
    | none => rw [hf] at hb; cases hb
    | some v =>
      rw [hf] at hb
      simp only [Option.map_some, Option.some.injEq] at hb
      simp only [List.foldlM_cons, List.map_cons, List.foldl_cons, hf, bind, Option.bind]
      have := ih (z.add v) (fun c hc => h c (by simp [hc]))
      rw [add_val, hb] at this
      exact this

theorem foldl_add_val (l : List PyNum) (z : PyNum) :
    (l.foldl PyNum.add z).val = z.val + (l.map PyNum.val).sum := by
  induction l generalizing z with
  | nil => simp
  | cons a l ih => simp only [List.foldl_cons, ih, add_val, List.map_cons, List.sum_cons]; ring

theorem totalNum_none {f : PyNum → PyNum → Option PyNum} {obs exp : List PyNum}
    (h : ∃ b ∈ obs.zip exp, f b.1 b.2 = none) : totalNum f obs exp = none := by
  unfold totalNum
  generalize (PyNum.int 0) = z
  generalize obs.zip exp = l at h
  clear * - h
  induction l generalizing z with
  | nil => obtain ⟨b, hb, -⟩ := h; cases hb
  | cons b l ih =>
    simp only [List.foldlM_cons, bind, Option.bind]
    cases hf : f b.1 b.2 with
    | none => rfl
    | some v =>
      refine ih (z := z.add v) ?_
      obtain ⟨b', hb', h'⟩ := h
      rcases List.mem_cons.1 hb' with rfl | hb'
      · rw [hf] at h'; cases h'
      · exact ⟨b', hb', h'⟩

theorem int_ge_eps {n : ℤ} (h : 0 < n) : ¬ (PyNum.int n).val < statEps := by
  have h1 : (1 : ℝ) ≤ n := by exact_mod_cast h
  have : statEps ≤ 1 := by unfold statEps; norm_num
  simp only [PyNum.val]; linarith

theorem loopTotal_le_aux (f : PyNum → PyNum → Option PyNum) (g : ℝ → ℝ → ℝ) (q : ℤ → ℤ → ℤ)
    (l : List (ℤ × ℤ))
    (hf : ∀ b ∈ l, f (.int b.1) (.int b.2) = some (.int (q b.1 b.2)))
    (hg : ∀ b ∈ l, (q b.1 b.2 : ℝ) ≤ g b.1 b.2) (z : ℤ) (y : ℝ) (hz : (z : ℝ) ≤ y) :
    ∃ k : ℤ, (l.map fun b => (PyNum.int b.1, PyNum.int b.2)).foldlM (fun total b => do
        let v ← f b.1 b.2
        some (total.add v)) (PyNum.int z) = some (.int k) ∧
      (k : ℝ) ≤ (l.map fun b => ((b.1 : ℝ), (b.2 : ℝ))).foldl (fun total b => total + g b.1 b.2) y ∧
      ((k : ℝ) = (l.map fun b => ((b.1 : ℝ), (b.2 : ℝ))).foldl (fun total b => total + g b.1 b.2) y ↔
        (z : ℝ) = y ∧ ∀ b ∈ l, (q b.1 b.2 : ℝ) = g b.1 b.2) := by
  induction l generalizing z y with
  | nil => exact ⟨z, rfl, hz, by simp⟩
  | cons b l ih =>
    have h1 := hg b (by simp)
    obtain ⟨k, e1, e2, e3⟩ := ih (fun c hc => hf c (by simp [hc])) (fun c hc => hg c (by simp [hc]))
      (z + q b.1 b.2) (y + g b.1 b.2) (by push_cast; linarith)
    refine ⟨k, ?_, e2, ?_⟩
    · simp only [List.map_cons, List.foldlM_cons, hf b (by simp), bind, Option.bind]
      exact e1
    · simp only [List.map_cons, List.foldl_cons]
      rw [e3, List.forall_mem_cons]
      push_cast
      constructor
      · rintro ⟨h2, h3⟩
        exact ⟨by linarith, by linarith, h3⟩
      · rintro ⟨h2, h3, h4⟩
        exact ⟨by linarith, h4⟩

end Verif
