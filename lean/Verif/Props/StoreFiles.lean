import Verif.Props.Store

/-! # C85, C86, C89 and C90: background names, files, other objects, old files -/

namespace Verif

/-! ## C85: background names -/

theorem before_first {t : PyStr} (ht : t ≠ []) (a rest : PyStr)
    (h : ¬ t <:+: a ++ t.dropLast) : FullSpec.before t (a ++ (t ++ rest)) = a := by
  induction a with
  | nil =>
    cases t with
    | nil => exact absurd rfl ht
    | cons c t =>
      simp only [List.nil_append, List.cons_append, FullSpec.before]
      rw [if_pos]
      rw [List.isPrefixOf_iff_prefix]
      exact ⟨rest, rfl⟩
  | cons x a ih =>
    rw [List.cons_append, FullSpec.before, if_neg, ih]
    · exact fun hi => h (hi.trans (List.suffix_cons x _).isInfix)
    · intro hp
      rw [List.isPrefixOf_iff_prefix] at hp
      refine h (List.IsPrefix.isInfix (List.prefix_of_prefix_length_le hp
        ⟨[t.getLast ht] ++ rest, ?_⟩ ?_))
      · rw [List.cons_append, List.cons_append, List.append_assoc, ← List.append_assoc t.dropLast,
          List.dropLast_concat_getLast]
      · simp only [List.cons_append, List.length_cons, List.length_append, List.length_dropLast]
        omega

theorem pyContains_iff {t s : PyStr} : pyContains t s = true ↔ t <:+: s := by
  rw [pyContains, decide_eq_true_iff]

/-- **C85, derived names.** A spectrum without a background name that is called
`background`, one more character, the label of the data type (`mc`, else `mix`, else `reco`)
and anything else, has the background name `background`: provided that the label does not
occur earlier, and the labels that come before it do not occur at all. -/
theorem c85_derived (s : FullSpec) (hb : s.background = none ∨ s.background = some [])
    (bg : PyStr) (c : Char) (t rest : PyStr) (hn : s.name = bg ++ c :: (t ++ rest))
    (ht : DataLabel t) (hfirst : ¬ t <:+: bg ++ c :: t.dropLast)
    (hmc : t ≠ lit "mc" → ¬ lit "mc" <:+: s.name)
    (hmix : t = lit "reco" → ¬ lit "mix" <:+: s.name) :
    s.getBackgroundName = .ok bg := by
  have hne : t ≠ [] := by cases ht <;> simp
  have hn' : s.name = (bg ++ [c]) ++ (t ++ rest) := by rw [hn]; simp
  have hbef : dropRight (FullSpec.before t s.name) 1 = bg := by
    rw [hn', before_first hne _ _ (by simpa using hfirst)]
    exact dropRight_append bg [c]
  have hin : pyContains t s.name = true := by
    rw [pyContains_iff, hn']
    exact ⟨bg ++ [c], rest, by simp⟩
  have hno : ∀ u, ¬ u <:+: s.name → pyContains u s.name = false := fun u hu => by
    rw [pyContains, decide_eq_false_iff_not]; exact hu
  unfold FullSpec.getBackgroundName
  cases ht with
  | mc => rcases hb with hb | hb <;> simp only [hb, hin, if_true, hbef]
  | mix =>
    have := hno _ (hmc (by decide))
    rcases hb with hb | hb <;>
      simp only [hb, this, Bool.false_eq_true, if_false, hin, if_true, hbef]
  | reco =>
    have h1 := hno _ (hmc (by decide))
    have h2 := hno _ (hmix rfl)
    rcases hb with hb | hb <;>
      simp only [hb, h1, h2, Bool.false_eq_true, if_false, hin, if_true, hbef]

example : lit "TeLoadedTe130_2n2b_mix_shrunk" =
      lit "TeLoadedTe130_2n2b" ++ '_' :: (lit "mix" ++ lit "_shrunk") ∧ DataLabel (lit "mix") ∧
    ¬ lit "mix" <:+: lit "TeLoadedTe130_2n2b" ++ '_' :: (lit "mix").dropLast ∧
    ¬ lit "mc" <:+: lit "TeLoadedTe130_2n2b_mix_shrunk" :=
  ⟨by decide, .mix, by decide +kernel, by decide +kernel⟩

/-- **C85, given names.** A background name that was given or derived once is returned from
then on, whatever the spectrum is called. -/
theorem c85_given (s : FullSpec) (b : PyStr) (hb : b ≠ []) :
    (s.background = some b → s.getBackgroundName = .ok b) ∧
    (s.getBackgroundName = .ok b → ∀ n,
      ({ s with background := some b, name := n } : FullSpec).getBackgroundName = .ok b) := by
  obtain ⟨c, b, rfl⟩ := List.exists_cons_of_ne_nil hb
  refine ⟨fun h => ?_, fun _ n => ?_⟩
  · simp only [FullSpec.getBackgroundName, h]
  · simp only [FullSpec.getBackgroundName]

/-- **C85, refused names.** There is no background name, and a `ValueError`, exactly when
none was given and no label occurs in the name. -/
theorem c85_refused (s : FullSpec) :
    s.getBackgroundName = .error .valueError ↔
      (s.background = none ∨ s.background = some []) ∧
        ∀ t, DataLabel t → ¬ t <:+: s.name := by
  have key : (∀ t, DataLabel t → ¬ t <:+: s.name) ↔ pyContains (lit "mc") s.name = false ∧
      pyContains (lit "mix") s.name = false ∧ pyContains (lit "reco") s.name = false := by
    simp only [pyContains, decide_eq_false_iff_not]
    exact ⟨fun h => ⟨h _ .mc, h _ .mix, h _ .reco⟩, fun h t ht => by
      cases ht
      · exact h.1
      · exact h.2.1
      · exact h.2.2⟩
  rw [key]
  unfold FullSpec.getBackgroundName
  cases hb : s.background with
  | none =>
    cases pyContains (lit "mc") s.name <;> cases pyContains (lit "mix") s.name <;>
      cases pyContains (lit "reco") s.name <;> simp
  | some b =>
    cases b with
    | nil =>
      cases pyContains (lit "mc") s.name <;> cases pyContains (lit "mix") s.name <;>
        cases pyContains (lit "reco") s.name <;> simp
    | cons c b => simp

/-- **C85, remembered names.** Saving a spectrum fixes its background: after a save the name, if
not empty, stays the one of that moment however the spectrum is renamed; nothing else of the
spectrum is changed. -/
theorem c85_remembered (file : Option H5) (s : FullSpec) (append overwrite : Bool)
    (h : (dump file s append overwrite).err = none) :
    ∃ b, s.getBackgroundName = .ok b ∧
      (dump file s append overwrite).spec = { s with background := some b } ∧
      (b ≠ [] → ∀ n, ({ (dump file s append overwrite).spec with name := n } :
        FullSpec).getBackgroundName = .ok b) := by
  have hd : ∃ b, s.getBackgroundName = .ok b ∧
      (dump file s append overwrite).spec = { s with background := some b } := by
    unfold dump at h ⊢
    dsimp only at h ⊢
    generalize (if overwrite = true then _ else _ : H5) = f at h ⊢
    by_cases h0 : f.spectrum.isSome = true
    · rw [if_pos h0] at h; cases h
    rw [if_neg h0] at h ⊢
    cases hb : s.getBackgroundName with
    | error e => rw [hb] at h; cases h
    | ok b =>
      rw [hb] at h
      dsimp only at h ⊢
      cases hg : specGroup { s with background := some b } b with
      | error e => rw [hg] at h; cases h
      | ok g => exact ⟨b, rfl, rfl⟩
  obtain ⟨b, hb, hs⟩ := hd
  refine ⟨b, hb, hs, fun hne n => ?_⟩
  rw [hs]
  obtain ⟨c, r, rfl⟩ := List.exists_cons_of_ne_nil hne
  rfl

example (ft : FloatText) : (dump none Ex.saved).err = none :=
  (c59_round_trip_partial ft [] none Ex.saved false false _ Ex.saved_storable Ex.saved_background
    (by simp)).1

/-- **C85 fails when a label occurs in the background itself**: the name is cut there. With
two spectra of different backgrounds the derived names can be the same. -/
theorem c85_label_inside_negation :
    ∃ s s' : FullSpec, s.name = lit "Mix208_reco" ∧ s'.name = lit "Mix210_reco" ∧
      s.getBackgroundName = .ok (lit "Mix208") ∧ s'.getBackgroundName = .ok (lit "Mix210") ∧
      ({ s with name := lit "Remix208_reco" } : FullSpec).getBackgroundName =
        ({ s' with name := lit "Remix210_reco" } : FullSpec).getBackgroundName := by
  refine ⟨{ Ex.saved with name := lit "Mix208_reco" }, { Ex.saved with name := lit "Mix210_reco" },
    rfl, rfl, ?_, ?_, ?_⟩
  · exact c85_derived _ (.inl rfl) (lit "Mix208") '_' (lit "reco") [] rfl .reco (by decide +kernel)
      (fun _ => by decide +kernel) (fun _ => by decide +kernel)
  · exact c85_derived _ (.inl rfl) (lit "Mix210") '_' (lit "reco") [] rfl .reco (by decide +kernel)
      (fun _ => by decide +kernel) (fun _ => by decide +kernel)
  · rw [c85_derived { Ex.saved with name := lit "Remix208_reco" } (.inl rfl) (lit "R") 'e'
      (lit "mix") (lit "208_reco") rfl .mix (by decide +kernel) (fun _ => by decide +kernel)
      (fun h => by cases h)]
    exact (c85_derived { Ex.saved with name := lit "Remix210_reco" } (.inl rfl) (lit "R") 'e'
      (lit "mix") (lit "210_reco") rfl .mix (by decide +kernel) (fun _ => by decide +kernel)
      (fun h => by cases h)).symm

/-! ## C86: what happens to a file -/

theorem dump_file (file : Option H5) (s : FullSpec) (append overwrite : Bool) :
    ∃ g, (dump file s append overwrite).file = { H5.opened file append with spectrum := g } := by
  unfold dump
  cases overwrite
  · cases h : (H5.opened file append).spectrum with
    | some g =>
      refine ⟨some g, ?_⟩
      simp only [Bool.false_eq_true, if_false, h, Option.isSome_some, if_true]
      rw [← h]
    | none =>
      cases hb : s.getBackgroundName with
      | error e => exact ⟨some none, by simp [h]⟩
      | ok b =>
        cases hg : specGroup { s with background := some b } b with
        | error e => exact ⟨some none, by simp [h, hg]⟩
        | ok g => exact ⟨some (some g), by simp [h, hg]⟩
  · cases hb : s.getBackgroundName with
    | error e => exact ⟨some none, by simp⟩
    | ok b =>
      cases hg : specGroup { s with background := some b } b with
      | error e => exact ⟨some none, by simp [hg]⟩
      | ok g => exact ⟨some (some g), by simp [hg]⟩

/-- **C86, appending.** Saving with `append` keeps the fit and limit results in the file,
whether or not it succeeds; without `append` nothing of the file is kept. -/
theorem c86_other_groups (f : H5) (s : FullSpec) (overwrite : Bool) :
    ((dump (some f) s true overwrite).file.fitResults = f.fitResults ∧
      (dump (some f) s true overwrite).file.limitResults = f.limitResults ∧
      (dump (some f) s true overwrite).file.old = f.old) ∧
    ((dump (some f) s false overwrite).file.fitResults = none ∧
      (dump (some f) s false overwrite).file.limitResults = none ∧
      dump (some f) s false overwrite = dump none s false overwrite) := by
  obtain ⟨g, hg⟩ := dump_file (some f) s true overwrite
  obtain ⟨g', hg'⟩ := dump_file (some f) s false overwrite
  rw [hg, hg']
  exact ⟨⟨rfl, rfl, rfl⟩, rfl, rfl, rfl⟩

/-- **C86, a second spectrum.** Appending a spectrum to a file that has one raises a
`ValueError` and leaves file and spectrum as they were; with `overwrite` the new spectrum
replaces the old one. -/
theorem c86_second_spectrum (f : H5) (s : FullSpec) (h : f.spectrum ≠ none) :
    dump (some f) s true false = ⟨f, s, some .valueError⟩ ∧
    dump (some f) s true true = dump (some { f with spectrum := none }) s true false := by
  constructor
  · unfold dump
    have : f.spectrum.isSome = true := Option.isSome_iff_ne_none.2 h
    simp only [H5.opened, if_true, Option.getD_some, Bool.false_eq_true, if_false, this]
  · rfl

example : ∃ f : H5, f.spectrum ≠ none ∧ f.fitResults = none := ⟨⟨some none, none, none, none⟩,
  by simp, rfl⟩

/-- **C86 fails for a failing save**: a spectrum whose background name cannot be derived is
not saved, but the file that was there is gone, also with `append` and `overwrite`:
whatever spectrum it held, loading it raises a `KeyError`. -/
theorem c86_failed_save_negation (ft : FloatText) (path : PyStr) (f : H5) (s : FullSpec)
    (e : PyErr) (hs : s.getBackgroundName = .error e) (append : Bool) (hold : f.old = none) :
    (dump (some f) s append true).err = some e ∧
    load ft path (dump (some f) s append true).file = .error .keyError ∧
    load ft path (dump (some f) s).file = .error .keyError := by
  refine ⟨?_, ?_, ?_⟩
  · unfold dump
    simp only [if_true, Option.isSome_none, Bool.false_eq_true, if_false, hs]
  · unfold dump
    simp only [if_true, Option.isSome_none, Bool.false_eq_true, if_false, hs, load, loadOld]
    cases append
    · rfl
    · simp [H5.opened, hold]
  · unfold dump
    simp only [H5.opened, Option.isSome_none, Bool.false_eq_true, if_false, hs, load, loadOld]

example : ({ Ex.saved with name := lit "Te130" } : FullSpec).getBackgroundName =
    .error .valueError := by
  rw [c85_refused]
  refine ⟨.inl rfl, fun t ht => ?_⟩
  cases ht <;> (show ¬ _ <:+: lit "Te130"; decide +kernel)

/-! ## C89: any other object -/

/-- The attribute of an object after saving it and loading it into an object with the
attribute `b`. -/
theorem dumpNdarray_lookup {V : Type} (size : V → ℕ) (obj : Dict (ObjAttr V)) (f : NdFile V)
    (hnd : (obj.map Prod.fst).Nodup)
    (harr : ∀ n a, (n, .array a) ∈ obj → a.shape ≠ [])
    (hsize : ∀ n v, (n, ObjAttr.other v) ∈ obj → size v < 65536) :
    (dumpNdarray size obj f).2 = none ∧
    (∀ n, assoc (dumpNdarray size obj f).1.datasets n =
      match assoc obj n with
      | some (.array a) => some a
      | _ => assoc f.datasets n) ∧
    (∀ n, assoc (dumpNdarray size obj f).1.attrs n =
      match assoc obj n with
      | some (.other v) => some v
      | _ => assoc f.attrs n) := by
  induction obj generalizing f with
  | nil => exact ⟨rfl, fun n => rfl, fun n => rfl⟩
  | cons e obj ih =>
    obtain ⟨k, a⟩ := e
    rw [List.map_cons, List.nodup_cons] at hnd
    have ih' := fun f => ih f hnd.2 (fun n a h => harr n a (List.mem_cons_of_mem _ h))
      (fun n v h => hsize n v (List.mem_cons_of_mem _ h))
    have hk : assoc obj k = none := assoc_eq_none.2 hnd.1
    cases a with
    | none =>
      obtain ⟨h1, h2, h3⟩ := ih' f
      simp only [dumpNdarray]
      refine ⟨h1, fun n => ?_, fun n => ?_⟩
      · rw [h2, assoc_cons]
        by_cases h : k = n
        · subst h; simp [hk]
        · simp [h]
      · rw [h3, assoc_cons]
        by_cases h : k = n
        · subst h; simp [hk]
        · simp [h]
    | array a =>
      have ha := harr k a List.mem_cons_self
      obtain ⟨h1, h2, h3⟩ := ih' { f with datasets := dictSet f.datasets k a }
      simp only [dumpNdarray, if_neg ha]
      refine ⟨h1, fun n => ?_, fun n => ?_⟩
      · rw [h2, assoc_cons, assoc_dictSet]
        by_cases h : k = n
        · subst h; simp [hk]
        · simp [h]
      · rw [h3, assoc_cons]
        by_cases h : k = n
        · subst h; simp [hk]
        · simp [h]
    | other v =>
      have hv := hsize k v List.mem_cons_self
      obtain ⟨h1, h2, h3⟩ := ih' { f with attrs := dictSet f.attrs k v }
      simp only [dumpNdarray, if_pos hv]
      refine ⟨h1, fun n => ?_, fun n => ?_⟩
      · rw [h2, assoc_cons]
        by_cases h : k = n
        · subst h; simp [hk]
        · simp [h]
      · rw [h3, assoc_cons, assoc_dictSet]
        by_cases h : k = n
        · subst h; simp [hk]
        · simp [h]

/-- **C89, round trip.** Saving an object and loading the file into another object restores
every attribute the other object has: arrays where it has an array, anything else where it
has something that is not an array; what was `None`, or is not in the file, stays as it was.
Missing: an attribute that is an array in one of the objects only, see the negation. -/
theorem c89_round_trip_partial {V : Type} (size : V → ℕ) (obj target : Dict (ObjAttr V))
    (hnd : (obj.map Prod.fst).Nodup)
    (harr : ∀ n a, (n, .array a) ∈ obj → a.shape ≠ [])
    (hsize : ∀ n v, (n, ObjAttr.other v) ∈ obj → size v < 65536) :
    (dumpNdarray size obj {}).2 = none ∧
    SameKeys (loadNdarray (dumpNdarray size obj {}).1 target) target ∧
    ∀ n b, assoc target n = some b →
      assoc (loadNdarray (dumpNdarray size obj {}).1 target) n = some
        (match assoc obj n, b with
          | some (.array a), .array _ => .array a
          | some (.other v), .none => .other v
          | some (.other v), .other _ => .other v
          | _, b => b) := by
  obtain ⟨h1, h2, h3⟩ := dumpNdarray_lookup size obj {} hnd harr hsize
  refine ⟨h1, ?_, ?_⟩
  · simp [SameKeys, loadNdarray, List.map_map, Function.comp_def]
  · intro n b hb
    have hmap : ∀ t : Dict (ObjAttr V), assoc (loadNdarray (dumpNdarray size obj {}).1 t) n =
        (assoc t n).map (loadAttr (dumpNdarray size obj {}).1 n) := by
      intro t
      induction t with
      | nil => rfl
      | cons e t ih =>
        unfold loadNdarray at ih ⊢
        rw [List.map_cons, assoc_cons, assoc_cons, ih]
        by_cases h : e.1 = n
        · subst h; simp
        · simp [h]
    rw [hmap, hb, Option.map_some]
    congr 1
    have h2n := h2 n
    have h3n := h3 n
    have hd0 : assoc (({} : NdFile V).datasets) n = none := rfl
    have ha0 : assoc (({} : NdFile V).attrs) n = none := rfl
    rw [hd0] at h2n
    rw [ha0] at h3n
    cases ho : assoc obj n with
    | none =>
      rw [ho] at h2n h3n
      cases b <;> simp only [loadAttr, h2n, h3n]
    | some a =>
      rw [ho] at h2n h3n
      cases a <;> cases b <;> simp only [loadAttr, h2n, h3n]

/-- An object with an array, a number and nothing. -/
def Ex.obj : Dict (ObjAttr ℕ) :=
  [(lit "_stats", .array (.zeros [2])), (lit "_bins", .other 7), (lit "_name", .none)]

example : (Ex.obj.map Prod.fst).Nodup ∧ (∀ n a, (n, .array a) ∈ Ex.obj → a.shape ≠ []) ∧
    ∀ n v, (n, ObjAttr.other v) ∈ Ex.obj → v < 65536 := by
  refine ⟨by decide, ?_, ?_⟩
  · intro n a h
    simp only [Ex.obj, List.mem_cons, Prod.mk.injEq, ObjAttr.array.injEq, reduceCtorEq,
      and_false, List.not_mem_nil, or_false] at h
    rw [h.2]
    simp [NdArray.zeros]
  · intro n v h
    simp only [Ex.obj, List.mem_cons, Prod.mk.injEq, ObjAttr.other.injEq, reduceCtorEq,
      and_false, List.not_mem_nil, or_false, false_or] at h
    omega

/-- **C89 fails for arrays loaded into an object that has no array there yet**: the attribute
is skipped and stays as it was. -/
theorem c89_array_skipped_negation {V : Type} (size : V → ℕ) (n : PyStr) (a : NdArray ℝ)
    (ha : a.shape ≠ []) :
    (dumpNdarray size [(n, .array a)] {}).2 = none ∧
    loadNdarray (dumpNdarray size [(n, .array a)] {}).1 [(n, (.none : ObjAttr V))] =
      [(n, .none)] := by
  simp [dumpNdarray, ha, loadNdarray, loadAttr, assoc]

/-- **C89, too large attributes.** An object is saved exactly when all its arrays have at
least one axis and everything that is not an array takes less than 64k. -/
theorem c89_accepted {V : Type} (size : V → ℕ) (obj : Dict (ObjAttr V)) (f : NdFile V) :
    (dumpNdarray size obj f).2 = none ↔
      (∀ n a, (n, .array a) ∈ obj → a.shape ≠ []) ∧
      (∀ n v, (n, ObjAttr.other v) ∈ obj → size v < 65536) := by
  induction obj generalizing f with
  | nil => simp [dumpNdarray]
  | cons e obj ih =>
    obtain ⟨k, a⟩ := e
    cases a with
    | none => simp [dumpNdarray, ih]
    | array a =>
      by_cases ha : a.shape = []
      · simp only [dumpNdarray, if_pos ha, reduceCtorEq, false_iff, not_and]
        exact fun h => absurd ha (h k a List.mem_cons_self)
      · rw [dumpNdarray, if_neg ha, ih]
        constructor
        · rintro ⟨h1, h2⟩
          refine ⟨fun n b hb => ?_, fun n v hv => ?_⟩
          · rcases List.mem_cons.1 hb with hb | hb
            · cases hb; exact ha
            · exact h1 n b hb
          · rcases List.mem_cons.1 hv with hv | hv
            · cases hv
            · exact h2 n v hv
        · exact fun h => ⟨fun n b hb => h.1 n b (List.mem_cons_of_mem _ hb),
            fun n v hv => h.2 n v (List.mem_cons_of_mem _ hv)⟩
    | other v =>
      by_cases hv : size v < 65536
      · rw [dumpNdarray, if_pos hv, ih]
        constructor
        · rintro ⟨h1, h2⟩
          refine ⟨fun n b hb => ?_, fun n w hw => ?_⟩
          · rcases List.mem_cons.1 hb with hb | hb
            · cases hb
            · exact h1 n b hb
          · rcases List.mem_cons.1 hw with hw | hw
            · cases hw; exact hv
            · exact h2 n w hw
        · exact fun h => ⟨fun n b hb => h.1 n b (List.mem_cons_of_mem _ hb),
            fun n w hw => h.2 n w (List.mem_cons_of_mem _ hw)⟩
      · simp only [dumpNdarray, if_neg hv, reduceCtorEq, false_iff, not_and]
        exact fun _ h => absurd (h k v List.mem_cons_self) hv

/-! ## C90: files of the old format -/

theorem oldRead_concat_same {as : List OldAttr} {p t : PyStr} {d v : ℚ}
    (h : ∀ w, ⟨p, t, w⟩ ∉ as) : OldRead (as ++ [⟨p, t, v⟩]) p t d v := by
  refine ⟨fun w hw => ?_, fun hw => absurd (List.mem_append_right _ List.mem_cons_self) (hw v)⟩
  rcases List.mem_append.1 hw with hw | hw
  · exact absurd hw (h w)
  · rw [List.mem_singleton] at hw
    cases hw
    rfl

theorem oldRead_concat_other {as : List OldAttr} {p t : PyStr} {d x : ℚ} {a : OldAttr}
    (h : OldRead as p t d x) (ha : a.par ≠ p ∨ a.setting ≠ t) : OldRead (as ++ [a]) p t d x := by
  have hno : ∀ w, (⟨p, t, w⟩ : OldAttr) ≠ a := by
    rintro w rfl
    rcases ha with ha | ha <;> exact ha rfl
  refine ⟨fun w hw => ?_, fun hw => h.2 (fun w hm => hw w (List.mem_append_left _ hm))⟩
  rcases List.mem_append.1 hw with hw | hw
  · exact h.1 w hw
  · rw [List.mem_singleton] at hw
    exact absurd hw (hno w)

/-- An axis as read from old attributes: name, and the three settings. -/
structure OldAxis (as : List OldAttr) (par : PyStr) (p : SPar) : Prop where
  name : p.name = par
  low : OldRead as par (lit "low") 1 p.low
  high : OldRead as par (lit "high") 1 p.high
  bins : ∃ x, OldRead as par (lit "bins") 1 x ∧ p.bins = pyInt x

theorem split_oldKey {a : OldAttr} (h : ':' ∉ a.par)
    (hs : a.setting = lit "low" ∨ a.setting = lit "high" ∨ a.setting = lit "bins") :
    pySplit ':' a.key = [lit "pars", a.par, a.setting] := by
  have hs' : ':' ∉ a.setting := by rcases hs with hs | hs | hs <;> rw [hs] <;> decide
  unfold OldAttr.key
  rw [pySplit_append, pySplit_append, pySplit_of_not_mem (by decide), pySplit_of_not_mem h,
    pySplit_of_not_mem hs']
  rfl

theorem old_fold (as : List OldAttr) (h : OldWritten as) :
    ∃ ps, (as.map (fun a => (a.key, a.value))).foldlM oldPar [] = .ok ps ∧
      ps.map Prod.fst = firstSeen (as.map OldAttr.par) ∧
      ∀ p, (p ∈ as.map OldAttr.par → ∃ P, assoc ps p = some P ∧ OldAxis as p P) := by
  induction as using List.reverseRecOn with
  | nil => exact ⟨[], rfl, rfl, by simp⟩
  | append_singleton as a ih =>
    have hd := h.distinct
    rw [List.map_append, List.map_singleton] at hd
    have hfresh : ∀ w, (⟨a.par, a.setting, w⟩ : OldAttr) ∉ as := by
      intro w hw
      exact (List.nodup_append.1 hd).2.2 _ (List.mem_map.2 ⟨_, hw, rfl⟩) _
        List.mem_cons_self rfl
    obtain ⟨ps, h1, h2, h3⟩ := ih
      ⟨fun b hb => h.names b (List.mem_append_left _ hb),
        fun b hb => h.settings b (List.mem_append_left _ hb), (List.nodup_append.1 hd).1⟩
    have ha := h.names a (by simp)
    have hs := h.settings a (by simp)
    -- the axis before this attribute
    obtain ⟨P, hP, hax⟩ : ∃ P, (assoc ps a.par).getD ⟨a.par, 1, 1, 1⟩ = P ∧ OldAxis as a.par P := by
      by_cases hm : a.par ∈ as.map OldAttr.par
      · obtain ⟨P, hP, hax⟩ := h3 _ hm
        exact ⟨P, by rw [hP]; rfl, hax⟩
      · have hn : assoc ps a.par = none := by
          rw [assoc_eq_none, h2, mem_firstSeen]
          exact hm
        have hno : ∀ t v, (⟨a.par, t, v⟩ : OldAttr) ∉ as :=
          fun t v hv => hm (List.mem_map.2 ⟨_, hv, rfl⟩)
        refine ⟨⟨a.par, 1, 1, 1⟩, by rw [hn]; rfl, rfl, ⟨fun v hv => absurd hv (hno _ v), fun _ => rfl⟩,
          ⟨fun v hv => absurd hv (hno _ v), fun _ => rfl⟩,
          1, ⟨fun v hv => absurd hv (hno _ v), fun _ => rfl⟩, (by decide +kernel : (1 : ℤ) = pyInt 1)⟩
    obtain ⟨Q, hQ, hax'⟩ : ∃ Q, P.setOld a.setting a.value = .ok Q ∧ OldAxis (as ++ [a]) a.par Q := by
      obtain ⟨par, setting, value⟩ := a
      dsimp only at *
      obtain ⟨x, hx, hxb⟩ := hax.bins
      rcases hs with rfl | rfl | rfl
      · exact ⟨{ P with low := value }, rfl, hax.name, oldRead_concat_same hfresh,
          oldRead_concat_other hax.high (.inr (by simp)), x,
          oldRead_concat_other hx (.inr (by simp)), hxb⟩
      · exact ⟨{ P with high := value }, rfl, hax.name,
          oldRead_concat_other hax.low (.inr (by simp)), oldRead_concat_same hfresh, x,
          oldRead_concat_other hx (.inr (by simp)), hxb⟩
      · exact ⟨{ P with bins := pyInt value }, rfl, hax.name,
          oldRead_concat_other hax.low (.inr (by simp)),
          oldRead_concat_other hax.high (.inr (by simp)), value,
          oldRead_concat_same hfresh, rfl⟩
    refine ⟨dictSet ps a.par Q, ?_, ?_, ?_⟩
    · rw [List.map_append, List.foldlM_append, h1]
      simp only [bind, Except.bind, List.map_cons, List.map_nil, List.foldlM_cons, List.foldlM_nil]
      unfold oldPar
      simp only [split_oldKey ha hs, hP, hQ]
      rfl
    · rw [keys_dictSet, h2, List.map_append, List.map_singleton, firstSeen_concat]
      simp only [mem_firstSeen]
    · intro p hp
      rw [assoc_dictSet]
      by_cases hpa : a.par = p
      · subst hpa
        exact ⟨Q, if_pos rfl, hax'⟩
      · rw [if_neg hpa]
        have hm : p ∈ as.map OldAttr.par := by
          rw [List.map_append, List.mem_append, List.map_singleton, List.mem_singleton] at hp
          exact hp.resolve_right (fun h => hpa h.symm)
        obtain ⟨R, hR, hrax⟩ := h3 p hm
        obtain ⟨x, hx, hxb⟩ := hrax.bins
        exact ⟨R, hR, hrax.name, oldRead_concat_other hrax.low (.inl hpa),
          oldRead_concat_other hrax.high (.inl hpa), x,
          oldRead_concat_other hx (.inl hpa), hxb⟩

/-- **C90.** A file of the old format is read completely, whatever the order of its
attributes: the axes are the parameters in the order in which they are first seen, each
with the low edge, high edge and number of bins in the file (1 where one is missing), and
name, number of decays, number of events, flag, style and data are those of the file; a
missing flag is 0. -/
theorem c90_old_files (ft : FloatText) (path : PyStr) (o : OldFile) (as : List OldAttr)
    (h : OldWritten as) (hpars : o.pars = as.map (fun a => (a.key, a.value)))
    (hrois : o.rois = []) (style : Style)
    (hstyle : (o.style = [] ∧ style = .dict [(lit "color", .str (lit "blue"))]) ∨
      ∃ d, d ≠ [] ∧ (d.map Prod.fst).Nodup ∧ (∀ e ∈ d, Clean e.1) ∧ (∀ e ∈ d, Plain ft e.2) ∧
        dictToString ft d = .ok o.style ∧ style = .dict d) :
    ∃ s, load ft path { old := some o } = .ok s ∧ s.name = o.name ∧ s.numDecays = o.numDecays ∧
      s.rawEvents = o.rawEvents ∧ s.bipo = o.bipo.getD 0 ∧ s.data = o.data ∧ s.style = style ∧
      s.rois = [] ∧ s.fitConfig = none ∧ s.background = none ∧
      s.config.getPars = firstSeen (as.map OldAttr.par) ∧
      ∀ p ∈ as.map OldAttr.par, ∃ P, s.config.getPar p = .ok P ∧ P.name = p ∧
        OldRead as p (lit "low") 1 P.low ∧ OldRead as p (lit "high") 1 P.high ∧
        ∃ x, OldRead as p (lit "bins") 1 x ∧ P.bins = pyInt x := by
  obtain ⟨ps, h1, h2, h3⟩ := old_fold as h
  have hst : (if o.style = [] then Except.ok defaultStyle
      else (stringToDict ft o.style).map Style.dict) = .ok style := by
    rcases hstyle with ⟨he, rfl⟩ | ⟨d, hne, hnd, hk, hv, hs, rfl⟩
    · rw [if_pos he]
      rfl
    · obtain ⟨s, hs', hd⟩ := c60_round_trip_partial ft d hne hnd hk hv
      rw [hs] at hs'
      cases hs'
      have hne' : o.style ≠ [] := by
        intro h0
        rw [h0] at hd
        exact absurd hd (by rw [(c60_empty_negation ft).2]; simp)
      rw [if_neg hne', hd]
      rfl
  refine ⟨{ FullSpec.new o.name o.numDecays ⟨lit "spectral_config", ps⟩ none none with
      rawEvents := o.rawEvents, bipo := o.bipo.getD 0, data := o.data, style := style, rois := [] },
    ?_, rfl, rfl, rfl, rfl, rfl, rfl, rfl, rfl, rfl, h2, ?_⟩
  · unfold load loadOld
    simp only [hpars, h1, bind, Except.bind, FullSpec.new, hrois, if_true]
    by_cases he : o.style = []
    · rw [if_pos he] at hst ⊢
      cases hst
      rfl
    · rw [if_neg he] at hst ⊢
      rw [hst]
  · intro p hp
    obtain ⟨P, hP, hax⟩ := h3 p hp
    refine ⟨P, ?_, hax.name, hax.low, hax.high, hax.bins⟩
    simp only [Config.getPar, FullSpec.new, hP]

/-- Attributes of an old file with two axes, in alphabetical order. -/
def Ex.oldAttrs : List OldAttr :=
  [⟨lit "energy", lit "bins", 1000⟩, ⟨lit "energy", lit "high", 10⟩, ⟨lit "energy", lit "low", 0⟩,
    ⟨lit "radial", lit "bins", 60⟩, ⟨lit "radial", lit "high", 6000⟩, ⟨lit "radial", lit "low", 0⟩]

example : OldWritten Ex.oldAttrs := by
  refine ⟨?_, ?_, by decide⟩
  · intro a ha
    simp only [Ex.oldAttrs, List.mem_cons, List.not_mem_nil, or_false] at ha
    rcases ha with rfl | rfl | rfl | rfl | rfl | rfl <;> decide
  · intro a ha
    simp only [Ex.oldAttrs, List.mem_cons, List.not_mem_nil, or_false] at ha
    rcases ha with rfl | rfl | rfl | rfl | rfl | rfl <;> simp

/-- **C90, other files.** A file with neither a spectrum nor attributes of the old format
raises a `KeyError`, and so does a spectrum saved without axes. -/
theorem c90_refused (ft : FloatText) (path : PyStr) (f : H5) (h : f.old = none)
    (hs : f.spectrum = none ∨ f.spectrum = some none ∨
      ∃ g, f.spectrum = some (some g) ∧
        (assoc g.config (lit "parameters")).getD [] = []) :
    load ft path f = .error .keyError := by
  have hold : loadOld ft f = .error .keyError := by unfold loadOld; rw [h]
  unfold load
  rcases hs with hs | hs | ⟨g, hs, hg⟩
  · rw [hs]; exact hold
  · rw [hs]; exact hold
  · rw [hs]
    have := (c54_refused g.config g.configName).2 hg
    simp only [this, hold]

end Verif
