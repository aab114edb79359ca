import Verif.Spec.Store
import Verif.Lemmas.Names
import Verif.Lemmas.Config

/-! Lemmas on saving and loading. -/

namespace Verif

/-! ### numbers as text -/

theorem isDigit_toDigits {n : ℕ} {c : Char} (h : c ∈ Nat.toDigits 10 n) : c.isDigit = true :=
  Nat.isDigit_of_mem_toDigits (by decide) (by decide) h

theorem not_mem_toDigits {n : ℕ} {c : Char} (hc : c.isDigit = false) : c ∉ Nat.toDigits 10 n := by
  intro h
  rw [isDigit_toDigits h] at hc
  cases hc

theorem toDigits_ne_nil (n : ℕ) : Nat.toDigits 10 n ≠ [] := by
  by_cases h : n < 10
  · rw [Nat.toDigits_of_lt_base h]; simp
  · rw [Nat.toDigits_of_base_le (by decide) (not_lt.1 h)]; simp

theorem readNat_toDigits (n : ℕ) : readNat (Nat.toDigits 10 n) = some n := by
  unfold readNat
  rw [if_pos ⟨toDigits_ne_nil n, List.all_eq_true.2 (fun c hc => isDigit_toDigits hc)⟩,
    Nat.ofDigitChars_toDigits (by decide) (by decide)]

theorem readInt_intStr (i : ℤ) : readInt (intStr i) = some i := by
  unfold intStr
  split
  · next h =>
    simp only [readInt, readNat_toDigits, Option.map_some]
    congr 1
    omega
  · next h =>
    have hr : readInt (Nat.toDigits 10 i.natAbs) =
        (readNat (Nat.toDigits 10 i.natAbs)).map (fun n : ℕ => (n : ℤ)) := by
      have hd : '-' ∉ Nat.toDigits 10 i.natAbs := not_mem_toDigits (by decide)
      revert hd
      generalize Nat.toDigits 10 i.natAbs = s
      intro hd
      unfold readInt
      split
      · exact absurd List.mem_cons_self hd
      · rfl
    rw [hr, readNat_toDigits, Option.map_some]
    congr 1
    omega

theorem clean_intStr (i : ℤ) : Clean (intStr i) := by
  unfold intStr Clean
  split <;> simp [not_mem_toDigits]

/-! ### the string format -/

/-- The text of one entry. -/
def entryText (key : PyStr) (t : PyStr × PyStr) : PyStr :=
  key ++ ':' :: (t.1 ++ ';' :: t.2)

theorem foldlM_encode (ft : FloatText) (t : PyStr × PyVal → PyStr × PyStr) (d : Dict PyVal)
    (h : ∀ e ∈ d, e.2.encode ft = .ok (t e)) (out : PyStr) :
    d.foldlM (encodeEntry ft) out =
      .ok (out ++ d.flatMap (fun e => entryText e.1 (t e) ++ [','])) := by
  induction d generalizing out with
  | nil => simp [pure, Except.pure]
  | cons e d ih =>
    have he : encodeEntry ft out e = .ok (out ++ (entryText e.1 (t e) ++ [','])) := by
      unfold encodeEntry
      rw [h e List.mem_cons_self]
      simp [entryText]
    rw [List.foldlM_cons, he]
    simp only [bind, Except.bind]
    rw [ih (fun x hx => h x (List.mem_cons_of_mem _ hx))]
    simp

theorem dropRight_flatMap {γ : Type} (f : γ → PyStr) (c : Char) (l : List γ) :
    dropRight (l.flatMap (fun e => f e ++ [c])) 1 = [c].intercalate (l.map f) := by
  cases l with
  | nil => simp [dropRight]
  | cons e l =>
    have : (e :: l).flatMap (fun e => f e ++ [c]) = [c].intercalate ((e :: l).map f) ++ [c] := by
      rw [← flatten_sep (by simp), List.map_map, List.flatMap_def]
      rfl
    rw [this]
    exact dropRight_append _ [c]

theorem dictToString_eq (ft : FloatText) (t : PyStr × PyVal → PyStr × PyStr) (d : Dict PyVal)
    (h : ∀ e ∈ d, e.2.encode ft = .ok (t e)) :
    dictToString ft d = .ok ([','].intercalate (d.map (fun e => entryText e.1 (t e)))) := by
  unfold dictToString
  rw [foldlM_encode ft t d h, List.nil_append, ← dropRight_flatMap]

theorem decodeEntry_text (ft : FloatText) (d : Dict PyVal) (key txt typ : PyStr)
    (hk : Clean key) (ht : Clean txt) (hty : Clean typ) (x : PyVal)
    (hx : decodeVal ft txt typ = .ok x) :
    decodeEntry ft d (entryText key (txt, typ)) = .ok (dictSet d key x) := by
  have h1 : pySplit ':' (entryText key (txt, typ)) = [key, txt ++ ';' :: typ] := by
    unfold entryText
    rw [pySplit_append, pySplit_of_not_mem hk.2.1, pySplit_of_not_mem]
    · rfl
    · simp [ht.2.1, hty.2.1]
  have h2 : pySplit ';' (entryText key (txt, typ)) = [key ++ ':' :: txt, typ] := by
    have : entryText key (txt, typ) = (key ++ ':' :: txt) ++ ';' :: typ := by simp [entryText]
    rw [this, pySplit_append, pySplit_of_not_mem, pySplit_of_not_mem hty.2.2]
    · rfl
    · simp [hk.2.2, ht.2.2]
  have h3 : pySplit ';' (txt ++ ';' :: typ) = [txt, typ] := by
    rw [pySplit_append, pySplit_of_not_mem ht.2.2, pySplit_of_not_mem hty.2.2]
    rfl
  unfold decodeEntry
  rw [h1, h2]
  simp only [List.getElem?_cons_succ, List.getElem?_cons_zero, List.headD_cons, h3, hx]

/-- Text and type of a value that can be stored. -/
def valText (ft : FloatText) : PyVal → PyStr × PyStr
  | .str s => (s, lit "str")
  | .int i => (intStr i, lit "int")
  | .float x => (ft.show x, lit "float")
  | .other => ([], [])

theorem encode_plain {ft : FloatText} {v : PyVal} (h : v ≠ .other) :
    v.encode ft = .ok (valText ft v) := by
  cases v <;> first | rfl | exact absurd rfl h

theorem plain_ne_other {ft : FloatText} {v : PyVal} (h : Plain ft v) : v ≠ .other := by
  rintro rfl; exact h

theorem plain_clean {ft : FloatText} {v : PyVal} (h : Plain ft v) :
    Clean (valText ft v).1 ∧ Clean (valText ft v).2 ∧
      decodeVal ft (valText ft v).1 (valText ft v).2 = .ok v := by
  cases v with
  | str s => exact ⟨h, by simp [Clean, valText], rfl⟩
  | int i =>
    refine ⟨clean_intStr i, by simp [Clean, valText], ?_⟩
    simp only [valText, decodeVal, readInt_intStr]
    rfl
  | float x =>
    refine ⟨h.1, by simp [Clean, valText], ?_⟩
    simp only [valText, decodeVal, h.2]
    rfl
  | other => exact h.elim

theorem pySplit_intercalate {c : Char} {l : List PyStr} (hl : l ≠ []) (h : ∀ x ∈ l, c ∉ x) :
    pySplit c ([c].intercalate l) = l := by
  induction l with
  | nil => exact absurd rfl hl
  | cons a l ih =>
    cases l with
    | nil => simp [pySplit_of_not_mem (h a List.mem_cons_self)]
    | cons b l =>
      rw [List.intercalate_cons_cons]
      have := pySplit_append (c := c) a ([c].intercalate (b :: l))
      rw [pySplit_of_not_mem (h a List.mem_cons_self),
        ih (by simp) (fun x hx => h x (List.mem_cons_of_mem _ hx))] at this
      simpa using this

end Verif
