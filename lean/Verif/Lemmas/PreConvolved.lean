import Verif.Spec.PreConvolved
import Verif.Lemmas.Names

/-! Lemmas on the names of pre-convolved files. -/

namespace Verif

theorem lastN_eq_iff {α : Type} {n : ℕ} {s t : List α} (ht : t.length = n) :
    lastN n s = t ↔ t <:+ s := by
  constructor
  · rintro rfl
    exact List.drop_suffix _ _
  · rintro ⟨u, rfl⟩
    subst ht
    simp [lastN]

/-- The endings of tags. -/
inductive Ending : PyStr → Prop
  | ly : Ending (lit "ly")
  | rs : Ending (lit "rs")
  | sc : Ending (lit "sc")
  | sh : Ending (lit "sh")

theorem Ending.length {ext : PyStr} (h : Ending ext) : ext.length = 2 := by cases h <;> rfl

theorem Ending.no_sep {ext : PyStr} (h : Ending ext) : '_' ∉ ext := by cases h <;> decide

theorem Ending.not_hdf5 {ext : PyStr} (h : Ending ext) (s : PyStr) : ¬ hdf5 <:+ s ++ ext := by
  intro hs
  have h2 : ext <:+ s ++ ext := List.suffix_append _ _
  have := List.suffix_of_suffix_length_le h2 hs (by rw [h.length]; decide)
  cases h <;> revert this <;> decide

theorem Ending.not_suffix_hdf5 {ext : PyStr} (h : Ending ext) (s : PyStr) :
    ¬ ext <:+ s ++ hdf5 := by
  intro hs
  have := List.suffix_of_suffix_length_le hs (List.suffix_append s hdf5) (by rw [h.length]; decide)
  cases h <;> revert this <;> decide

theorem suffix_append_right_iff {α : Type} {a b c : List α} : a ++ c <:+ b ++ c ↔ a <:+ b := by
  constructor
  · rintro ⟨u, hu⟩
    rw [← List.append_assoc] at hu
    exact ⟨u, List.append_cancel_right hu⟩
  · rintro ⟨u, rfl⟩
    exact ⟨u, by simp⟩

/-- A part that is not the last one. -/
theorem preStep_part {value ext : PyStr} (h : Ending ext) (st : PyStr × Bool) {c : PyStr}
    (hc : Part c) :
    preStep value ext st c =
      (st.1 ++ ((if ext <:+ c then value ++ ext else c) ++ ['_']),
        st.2 || decide (ext <:+ c)) := by
  have h5 : hdf5.length = 5 := rfl
  unfold preStep
  by_cases hx : ext <:+ c
  · have h2 : lastN 2 c = ext := (lastN_eq_iff h.length).2 hx
    simp only [h2, if_true, if_pos hx]
    rw [if_neg]
    · simp [hx]
    · rw [lastN_eq_iff h5]
      exact h.not_hdf5 value
  · have h2 : ¬ lastN 2 c = ext := fun e => hx ((lastN_eq_iff h.length).1 e)
    have h7 : ¬ lastN 7 c = ext ++ hdf5 := by
      rw [lastN_eq_iff (by rw [List.length_append, h.length, h5])]
      exact fun e => hc.2 ((List.suffix_append ext hdf5).trans e)
    simp only [if_neg h2, if_neg h7, if_neg hx]
    rw [if_neg]
    · simp [hx]
    · rw [lastN_eq_iff h5]
      exact hc.2

/-- The last part. -/
theorem preStep_last {value ext : PyStr} (h : Ending ext) (st : PyStr × Bool) (c : PyStr) :
    preStep value ext st (c ++ hdf5) =
      (st.1 ++ ((if ext <:+ c then value ++ ext else c) ++ hdf5), st.2 || decide (ext <:+ c)) := by
  have h5 : hdf5.length = 5 := rfl
  unfold preStep
  have h2 : ¬ lastN 2 (c ++ hdf5) = ext := by
    rw [lastN_eq_iff h.length]
    exact h.not_suffix_hdf5 c
  by_cases hx : ext <:+ c
  · have h7 : lastN 7 (c ++ hdf5) = ext ++ hdf5 := by
      rw [lastN_eq_iff (by rw [List.length_append, h.length, h5])]
      exact suffix_append_right_iff.2 hx
    simp only [if_neg h2, if_pos h7, if_pos hx]
    rw [if_pos]
    · simp [hx]
    · rw [lastN_eq_iff h5]
      exact ⟨value ++ ext, by simp⟩
  · have h7 : ¬ lastN 7 (c ++ hdf5) = ext ++ hdf5 := by
      rw [lastN_eq_iff (by rw [List.length_append, h.length, h5])]
      exact fun e => hx (suffix_append_right_iff.1 e)
    simp only [if_neg h2, if_neg h7, if_neg hx]
    rw [if_pos]
    · simp [hx]
    · rw [lastN_eq_iff h5]
      exact List.suffix_append _ _

theorem preStep_foldl {value ext : PyStr} (h : Ending ext) (parts : List PyStr)
    (hp : ∀ c ∈ parts, Part c) (st : PyStr × Bool) :
    parts.foldl (preStep value ext) st =
      (st.1 ++ (parts.map (fun c => (if ext <:+ c then value ++ ext else c) ++ ['_'])).flatten,
        st.2 || decide (∃ c ∈ parts, ext <:+ c)) := by
  induction parts generalizing st with
  | nil => simp
  | cons c parts ih =>
    rw [List.foldl_cons, ih (fun d hd => hp d (List.mem_cons_of_mem _ hd)),
      preStep_part h st (hp c List.mem_cons_self)]
    simp only [List.map_cons, List.flatten_cons, List.mem_cons, exists_eq_or_imp, List.append_assoc,
      Bool.or_assoc, Bool.decide_or]

theorem intercalate_concat (parts : List PyStr) (c : PyStr) :
    ['_'].intercalate (parts ++ [c]) = (parts.map (· ++ ['_'])).flatten ++ c := by
  induction parts with
  | nil => simp
  | cons a parts ih =>
    cases parts with
    | nil => simp
    | cons b parts =>
      rw [List.cons_append, List.cons_append, List.intercalate_cons_cons, ← List.cons_append, ih]
      simp

theorem pySplit_fileName (parts : List PyStr) (c : PyStr) (hp : ∀ d ∈ parts, '_' ∉ d)
    (hc : '_' ∉ c) : pySplit '_' (fileName (parts ++ [c])) = parts ++ [c ++ hdf5] := by
  unfold fileName
  rw [intercalate_concat]
  induction parts with
  | nil =>
    rw [List.map_nil, List.flatten_nil, List.nil_append, List.nil_append]
    refine pySplit_of_not_mem ?_
    rw [List.mem_append]
    rintro (h | h)
    · exact hc h
    · revert h; decide
  | cons a parts ih =>
    rw [List.map_cons, List.flatten_cons]
    have : (a ++ ['_'] ++ (List.map (· ++ ['_']) parts).flatten ++ c ++ lit ".hdf5") =
        a ++ '_' :: ((List.map (· ++ ['_']) parts).flatten ++ c ++ lit ".hdf5") := by simp
    rw [this, pySplit_append, pySplit_of_not_mem (hp a List.mem_cons_self),
      ih (fun d hd => hp d (List.mem_cons_of_mem _ hd))]
    rfl

/-- The new name of a file. -/
theorem preName_fileName {value ext : PyStr} (h : Ending ext) (parts : List PyStr)
    (hne : parts ≠ []) (hp : ∀ c ∈ parts, Part c) :
    preName value ext (fileName parts) = fileName (retag value ext parts) := by
  obtain ⟨parts, c, rfl⟩ : ∃ l c, parts = l ++ [c] :=
    ⟨_, _, (List.dropLast_concat_getLast hne).symm⟩
  have hp' : ∀ d ∈ parts, Part d := fun d hd => hp d (by simp [hd])
  have hc : Part c := hp c (by simp)
  unfold preName
  rw [pySplit_fileName parts c (fun d hd => (hp' d hd).1) hc.1, List.foldl_append,
    preStep_foldl h parts hp', List.foldl_cons, List.foldl_nil, preStep_last h]
  simp only [List.nil_append, Bool.false_or]
  have hex : (∃ d ∈ parts ++ [c], ext <:+ d) ↔ (∃ d ∈ parts, ext <:+ d) ∨ ext <:+ c := by
    simp only [List.mem_append, List.mem_singleton, or_and_right, exists_or, exists_eq_left]
  unfold retag
  by_cases he : (∃ d ∈ parts, ext <:+ d) ∨ ext <:+ c
  · rw [if_pos (hex.2 he), if_pos (by simpa using he), fileName, List.map_append, List.map_singleton,
      intercalate_concat, List.map_map]
    simp only [Function.comp_def, List.append_assoc]
    rfl
  · rw [if_neg (fun hx => he (hex.1 hx)), if_neg (by simpa using he)]
    have hn1 : ∀ d ∈ parts, ¬ ext <:+ d := fun d hd hx => he (.inl ⟨d, hd, hx⟩)
    have hn2 : ¬ ext <:+ c := fun hx => he (.inr hx)
    rw [if_neg hn2]
    have hm : parts.map (fun c => (if ext <:+ c then value ++ ext else c) ++ ['_']) =
        parts.map (· ++ ['_']) := by
      refine List.map_congr_left (fun d hd => ?_)
      rw [if_neg (hn1 d hd)]
    rw [hm, fileName, intercalate_concat, List.map_append, List.map_singleton, List.flatten_append]
    have : dropRight ((List.map (· ++ ['_']) parts).flatten ++ (c ++ hdf5)) 5 =
        (List.map (· ++ ['_']) parts).flatten ++ c := by
      rw [← List.append_assoc]
      exact dropRight_append _ hdf5
    rw [this]
    simp [hdf5]

theorem fileName_injective {p q : List PyStr} (hp : ∀ c ∈ p, '_' ∉ c) (hq : ∀ c ∈ q, '_' ∉ c)
    (hpn : p ≠ []) (hqn : q ≠ []) (h : fileName p = fileName q) : p = q := by
  obtain ⟨p, c, rfl⟩ : ∃ l c, p = l ++ [c] := ⟨_, _, (List.dropLast_concat_getLast hpn).symm⟩
  obtain ⟨q, d, rfl⟩ : ∃ l c, q = l ++ [c] := ⟨_, _, (List.dropLast_concat_getLast hqn).symm⟩
  have h1 := pySplit_fileName p c (fun d hd => hp d (by simp [hd])) (hp c (by simp))
  have h2 := pySplit_fileName q d (fun d hd => hq d (by simp [hd])) (hq d (by simp))
  rw [h, h2] at h1
  obtain ⟨h3, h4⟩ := List.append_inj' h1 rfl
  simp only [List.cons.injEq, and_true] at h4
  rw [h3, List.append_cancel_right h4]

/-! ### values -/

theorem rstrip_append_ne {c a : Char} (s : PyStr) (h : a ≠ c) : rstrip c (s ++ [a]) = s ++ [a] := by
  unfold rstrip
  rw [List.rdropWhile_concat, if_neg (by simpa using h)]

theorem rstrip_append_self {c : Char} (s : PyStr) : rstrip c (s ++ [c]) = rstrip c s := by
  unfold rstrip
  rw [List.rdropWhile_concat, if_pos (by simp)]

theorem rstrip_of_not_mem {c : Char} {s : PyStr} (h : c ∉ s) : rstrip c s = s := by
  rcases List.eq_nil_or_concat s with rfl | ⟨t, a, rfl⟩
  · rfl
  · rw [List.concat_eq_append] at h ⊢
    refine rstrip_append_ne t (fun e => h ?_)
    rw [e]
    simp

theorem valueString_written {t w : PyStr} (h : Written t w) : valueString t = w := by
  unfold valueString
  cases h with
  | whole i h1 h2 =>
    have : w ++ lit ".0" = (w ++ ['.']) ++ ['0'] := by simp
    rw [this, rstrip_append_self, rstrip_append_ne _ (by decide), rstrip_append_self,
      rstrip_of_not_mem h1]
  | kept g c h0 hd hg hu hc => rw [rstrip_append_ne _ h0, rstrip_append_ne _ hd]

theorem Written.no_sep {t w : PyStr} (h : Written t w) : '_' ∉ w := by
  cases h with
  | whole i h1 h2 h3 => exact h3
  | kept g c h0 hd hg hu hc =>
    rw [List.mem_append, List.mem_singleton]
    rintro (h | h)
    · exact hu h
    · exact hc h.symm

theorem written_injective {t t' w : PyStr} (h : Written t w) (h' : Written t' w) : t = t' := by
  cases h with
  | whole i h1 h2 h3 =>
    cases h' with
    | whole _ => rfl
    | kept g c h0 hd hg hu hc =>
      rcases hg with hg | hg
      · exact absurd (List.mem_append_left _ hg) h1
      · exact absurd (List.mem_append_left _ hg) h2
  | kept g c h0 hd hg hu hc =>
    generalize hw : g ++ [c] = w at h' ⊢
    cases h' with
    | whole i h1 h2 h3 =>
      subst hw
      rcases hg with hg | hg
      · exact absurd (List.mem_append_left _ hg) h1
      · exact absurd (List.mem_append_left _ hg) h2
    | kept => rfl

/-! ### directories -/

theorem pySplit_folders {fs : List PyStr} (h : ∀ f ∈ fs, '/' ∉ f) :
    pySplit '/' (folders fs) = fs ++ [[]] := by
  induction fs with
  | nil => exact pySplit_of_not_mem (by simp [folders])
  | cons f fs ih =>
    have : folders (f :: fs) = f ++ '/' :: folders fs := by simp [folders]
    rw [this, pySplit_append, pySplit_of_not_mem (h f List.mem_cons_self),
      ih (fun g hg => h g (List.mem_cons_of_mem _ hg))]
    rfl

theorem folders_append (a b : List PyStr) : folders (a ++ b) = folders a ++ folders b := by
  simp [folders]

theorem folders_getLast {fs : List PyStr} (h : fs ≠ []) : (folders fs).getLast? = some '/' := by
  obtain ⟨l, f, rfl⟩ : ∃ l f, fs = l ++ [f] := ⟨_, _, (List.dropLast_concat_getLast h).symm⟩
  rw [folders_append]
  have : folders [f] = f ++ ['/'] := by simp [folders]
  rw [this, ← List.append_assoc, List.getLast?_concat]

/-- The directory when the dimension is one of its folders. -/
theorem preDir_folders (folder dim : PyStr) (pre fs : List PyStr) (hdim : '/' ∉ dim)
    (hne : dim ≠ []) (hpre : ∀ f ∈ pre, '/' ∉ f) (hfs : ∀ f ∈ fs, '/' ∉ f) (hnot : dim ∉ fs)
    (hfold : folder ≠ []) :
    preDir folder (some dim) (folders (pre ++ dim :: fs)) false =
      .ok (folders (pre ++ dim :: (if folder ∈ fs then fs else fs ++ [folder]))) := by
  have hall : ∀ f ∈ pre ++ dim :: fs, '/' ∉ f := by
    intro f hf
    rw [List.mem_append, List.mem_cons] at hf
    rcases hf with hf | rfl | hf
    · exact hpre f hf
    · exact hdim
    · exact hfs f hf
  have hsplit := pySplit_folders hall
  unfold preDir
  rw [folders_getLast (by simp)]
  simp only [ne_eq, not_true_eq_false, if_false, Bool.false_eq_true, hsplit]
  have hrev : (pre ++ dim :: fs ++ [[]]).reverse = ([] :: fs.reverse) ++ dim :: pre.reverse := by
    simp
  have hidx : (pre ++ dim :: fs ++ [[]]).reverse.findIdx? (fun d => some d = some dim) =
      some (fs.length + 1) := by
    rw [hrev, List.findIdx?_append, List.findIdx?_eq_none_iff.2]
    · rw [List.findIdx?_cons]
      simp
    · intro x hx
      rw [List.mem_cons, List.mem_reverse] at hx
      simp only [Option.some.injEq, decide_eq_false_iff_not]
      rcases hx with rfl | hx
      · exact fun e => hne e.symm
      · rintro rfl
        exact hnot hx
  rw [hidx]
  have hlast : lastN (fs.length + 1) (pre ++ dim :: fs ++ [[]]) = fs ++ [[]] := by
    rw [lastN_eq_iff (by simp)]
    exact ⟨pre ++ [dim], by simp⟩
  simp only [Nat.add_eq_zero_iff, one_ne_zero, and_false, if_false, hlast]
  by_cases hf : folder ∈ fs
  · rw [if_pos (by simp [hf]), if_pos hf]
  · rw [if_neg (by simp [hf, hfold]), if_neg hf]
    congr 1
    rw [← List.cons_append, ← List.append_assoc, folders_append]
    simp [folders]

theorem preDir_added (folder : PyStr) (dim : Option PyStr) (fs : List PyStr) (h : fs ≠ []) :
    preDir folder dim (folders fs) true = .ok (folders (fs ++ [folder])) := by
  unfold preDir
  rw [folders_getLast h]
  simp only [ne_eq, not_true_eq_false, if_false, if_true, folders_append]
  simp [folders]

end Verif
