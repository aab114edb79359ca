import Verif.Spec.Sensitivity
import Verif.Props.TestStatistic
import Verif.Props.Closure

/-!
# Statistics and penalties of expected contents
-/

namespace Verif

theorem penaltyAt_nonneg (a : FitArgs) (st : FitState) (u : List ℝ) : 0 ≤ a.penaltyAt st u := by
  unfold FitArgs.penaltyAt
  apply List.sum_nonneg
  intro x hx
  rw [← List.map_uncurry_zip_eq_zipWith] at hx
  obtain ⟨⟨p, y⟩, -, rfl⟩ := List.mem_map.1 hx
  show 0 ≤ (match (st.params p).sigma with
    | none => 0
    | some sigma => pull a.stat y (st.params p).prior sigma)
  split
  · rfl
  · exact pull_nonneg _ _ _ _

theorem penaltyAt_priors (a : FitArgs) (st : FitState) :
    a.penaltyAt st ((a.parameters st).map (fun p => (st.params p).prior)) = 0 := by
  unfold FitArgs.penaltyAt
  rw [List.zipWith_map_right, List.zipWith_self]
  apply List.sum_eq_zero
  intro x hx
  obtain ⟨p, -, rfl⟩ := List.mem_map.1 hx
  split
  · rfl
  · simp [pull]

theorem mem_zip_self {α : Type} {l : List α} {b : α × α} (h : b ∈ l.zip l) : b.2 = b.1 := by
  induction l with
  | nil => cases h
  | cons x l ih =>
    rw [List.zip_cons_cons, List.mem_cons] at h
    rcases h with rfl | h
    · rfl
    · exact ih h

/-- A statistic of equal contents is zero. -/
theorem total_self {s : Stat} (hs : s ≠ .extLL) {o : List ℝ} (ho : ∀ v ∈ o, zeroThreshold ≤ v) :
    s.Total o o 0 := by
  rw [total_iff s rfl, eq_comm]
  apply List.sum_eq_zero
  intro x hx
  obtain ⟨b, hb, rfl⟩ := List.mem_map.1 hx
  have e : b.2 = b.1 := mem_zip_self hb
  have h1 := ho b.1 (List.of_mem_zip (a := b.1) (b := b.2) hb).1
  rw [threshold_eq] at h1
  rw [e]
  have k := (bakerCousinsBin_eq_zero h1 h1).2 rfl
  cases s with
  | bcChi => simp [Stat.bin, k]
  | bcChiUp => simp [Stat.bin, k]
  | bcLL => simp [Stat.bin, k]
  | neyman => exact (neymanBin_eq_zero h1 h1).2 rfl
  | pearson => exact (pearsonBin_eq_zero h1 h1).2 rfl
  | extLL => exact absurd rfl hs

theorem Stat.Total.length_eq {s : Stat} {o e : List ℝ} {v : ℝ} (h : s.Total o e v) :
    o.length = e.length := by
  obtain ⟨x, y, h⟩ := h
  by_contra hne
  unfold Stat.computeStatistic at h
  rw [if_neg (by simp [arr]), if_neg (by simp [arr]), if_pos (by simpa [arr] using hne)] at h
  cases h

theorem total_nonneg {s : Stat} (hs : s ≠ .extLL) {o e : List ℝ} {v : ℝ} (h : s.Total o e v) :
    0 ≤ v := by
  rw [total_iff s h.length_eq] at h
  rw [h]
  apply List.sum_nonneg
  intro x hx
  obtain ⟨b, -, rfl⟩ := List.mem_map.1 hx
  exact bin_nonneg hs _ _

theorem Combination.valuesAt {vss : List (List ℝ)} {u : List ℝ} (h : Combination vss u) :
    ∃ idx, ValuesAt vss idx u := by
  induction h with
  | nil => exact ⟨[], .nil, rfl⟩
  | @cons x vs u vss hx _ ih =>
    obtain ⟨idx, h1, h2⟩ := ih
    obtain ⟨i, hi⟩ := List.getElem?_of_mem hx
    exact ⟨i :: idx, .cons hi h1, by simp [h2]⟩

theorem FirstBest.smallest {vss : List (List ℝ)} {F : List ℝ → ℝ} {u : List ℝ}
    (h : FirstBest vss F u) : SmallestOf vss F (F u) := by
  obtain ⟨idx, h1, h2⟩ := h
  exact ⟨⟨u, h1.comb, rfl⟩, fun v hv => by
    obtain ⟨i, hi⟩ := hv.valuesAt
    exact (h2 i v hi).1⟩

end Verif
