import Verif.Lemmas.Base

/-! Helper lemmas about parameter names. -/

namespace Verif

theorem pySplit_of_not_mem {c : Char} {s : PyStr} (h : c ∉ s) : pySplit c s = [s] :=
  List.splitOn_eq_singleton h

theorem pySplit_append {c : Char} (d t : PyStr) :
    pySplit c (d ++ c :: t) = pySplit c d ++ pySplit c t :=
  List.splitOn_append_cons_self d t

theorem pySplit_ne_nil (c : Char) (s : PyStr) : pySplit c s ≠ [] := List.splitOn_ne_nil c s

/-- Cutting a string at the last separator. -/
theorem exists_last_sep {c : Char} {s : PyStr} (h : c ∈ s) :
    ∃ d t, c ∉ t ∧ s = d ++ c :: t := by
  induction s with
  | nil => simp at h
  | cons a s ih =>
    by_cases hs : c ∈ s
    · obtain ⟨d, t, ht, rfl⟩ := ih hs
      exact ⟨a :: d, t, ht, rfl⟩
    · have : a = c := by simpa [hs, eq_comm] using h
      subst this
      exact ⟨[], s, hs, rfl⟩

theorem foldl_join (l : List PyStr) (acc : PyStr) :
    l.foldl (fun dim entry => dim ++ (entry ++ ['_'])) acc =
      acc ++ (l.map (· ++ ['_'])).flatten := by
  induction l generalizing acc with
  | nil => simp
  | cons a l ih => simp [ih]

theorem flatten_sep {c : Char} {l : List PyStr} (hl : l ≠ []) :
    (l.map (· ++ [c])).flatten = [c].intercalate l ++ [c] := by
  induction l with
  | nil => simp at hl
  | cons a l ih =>
    cases l with
    | nil => simp
    | cons b l => simpa [List.intercalate_cons_cons] using ih (by simp)

theorem dropRight_append (s t : PyStr) : dropRight (s ++ t) t.length = s := by
  unfold dropRight; simp

theorem lastPart_of_not_mem {s : PyStr} (h : '_' ∉ s) : lastPart s = s := by
  simp [lastPart, pySplit_of_not_mem h]

theorem lastPart_append {d t : PyStr} (h : '_' ∉ t) : lastPart (d ++ '_' :: t) = t := by
  simp [lastPart, pySplit_append, pySplit_of_not_mem h, List.getLastD_eq_getLast?]

theorem getDim_of_not_mem {s : PyStr} (h : '_' ∉ s) : getDim s = [] := by
  simp [getDim, pySplit_of_not_mem h, dropRight]

theorem getDim_append {d t : PyStr} (h : '_' ∉ t) : getDim (d ++ '_' :: t) = d := by
  unfold getDim
  rw [pySplit_append, pySplit_of_not_mem h, List.dropLast_concat, foldl_join,
    flatten_sep (pySplit_ne_nil _ _)]
  have : ['_'].intercalate (pySplit '_' d) = d := List.intercalate_splitOn '_'
  rw [this, List.nil_append]
  exact dropRight_append d ['_']

theorem lastPart_no_sep (s : PyStr) : '_' ∉ lastPart s := by
  by_cases h : '_' ∈ s
  · obtain ⟨d, t, ht, rfl⟩ := exists_last_sep h
    rwa [lastPart_append ht]
  · rwa [lastPart_of_not_mem h]

theorem getDim_lastPart {s : PyStr} (h : '_' ∈ s) : getDim s ++ '_' :: lastPart s = s := by
  obtain ⟨d, t, ht, rfl⟩ := exists_last_sep h
  rw [getDim_append ht, lastPart_append ht]

end Verif
