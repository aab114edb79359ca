import Verif.Props.ScriptsShift
import Verif.Props.ScriptsSmear

/-! # Where the scripts save -/

namespace Verif

/-! ### paths -/

/-- Directory and name are determined by the path. -/
theorem path_split {d d' b b' : PyStr} (hb : '/' ∉ b) (hb' : '/' ∉ b')
    (hd : d = [] ∨ d.getLast? = some '/') (hd' : d' = [] ∨ d'.getLast? = some '/')
    (h : d ++ b = d' ++ b') : d = d' ∧ b = b' := by
  have h1 := rfind_slash hb hd
  have h2 := rfind_slash hb' hd'
  rw [h, h2] at h1
  exact List.append_inj h (by exact_mod_cast h1.symm)

theorem besides_ne {p r : PyStr} (hr : '.' ∈ r) :
    besides p ('_' :: r) ≠ p := by
  obtain ⟨dir, base, rfl, hb, hd⟩ := path_cases p
  unfold besides
  rcases last_cases '.' base with hdot | ⟨stem, ext, rfl, he⟩
  · by_cases hdd : '.' ∈ dir
    · rw [cutPath_dotBefore hb hd hdot hdd]
      intro h
      simp only [List.append_nil] at h
      have := List.append_cancel_left h
      rw [← this] at hdot
      simp [hr] at hdot
    · rw [cutPath_noDot hb hd (by simp [hdot, hdd])]
      intro h
      have h1 := congrArg List.length h
      have h2 : 0 < r.length := List.length_pos_of_mem hr
      simp only [List.length_append, List.length_dropLast, List.length_cons] at h1
      omega
  · have hb2 : '/' ∉ stem ∧ '/' ∉ ext := by
      simp only [List.mem_append, List.mem_cons, not_or] at hb
      exact ⟨hb.1, hb.2.2⟩
    rw [cutPath_ext ⟨rfl, hd, hb2.1, hb2.2, he⟩]
    intro h
    simp only [List.append_assoc] at h
    have := List.append_cancel_left (List.append_cancel_left h)
    simp at this

/-- The name without extension is a beginning of the name, and what is cut off is nothing or starts
with a dot. -/
theorem splitRoot_cases (b : PyStr) : ∃ e, b = splitRoot b ++ e ∧ ∀ c r, e = c :: r → c = '.' := by
  unfold splitRoot
  dsimp only
  split
  · rcases last_cases '.' b with h | ⟨a, x, rfl, hx⟩
    · rename_i hany
      rw [pyRfind_none h] at hany
      simp at hany
    · rw [pyRfind_last _ _ hx, Int.toNat_natCast, List.take_left]
      refine ⟨'.' :: x, rfl, ?_⟩
      intro c r hc
      injection hc with h1 _
      exact h1.symm
  · exact ⟨[], by simp, by simp⟩

theorem dest_ne {dir p r : PyStr} (hd : dir.getLast? = some '/') (hs : '/' ∉ r) :
    dir ++ splitRoot (baseName p) ++ '_' :: r ≠ p := by
  obtain ⟨d, base, rfl, hb, hd'⟩ := path_cases p
  rw [baseName_path hb hd']
  obtain ⟨e, he, hc⟩ := splitRoot_cases base
  have hroot : '/' ∉ splitRoot base := by
    intro h; apply hb; rw [he]; simp [h]
  intro h
  rw [List.append_assoc] at h
  have := (path_split (by simp [hroot, hs]) hb (.inr hd) hd' h).2
  have h2 : splitRoot base ++ '_' :: r = splitRoot base ++ e := by rw [← he]; exact this
  have h3 := List.append_cancel_left h2
  have := hc '_' r h3.symm
  exact absurd this (by decide)

theorem scaledDir_slash {isdir : PyStr → Bool} {dest : Option PyStr} {file dir : PyStr}
    (h : scaledDir isdir dest file = .ok dir) : dir.getLast? = some '/' := by
  unfold scaledDir at h
  split at h
  · split at h
    · injection h with h
      split at h
      · rw [← h]; exact List.getLast?_concat
      · rename_i hl
        rw [← h]; simpa using hl
    · cases h
  · injection h with h
    rw [← h]; simp

theorem smearedDir_slash {isdir : PyStr → Bool} {dest : Option PyStr} {file dir : PyStr}
    (h : smearedDir isdir dest file = .ok dir) : dir.getLast? = some '/' := by
  unfold smearedDir at h
  split at h
  · split at h
    · injection h with h
      split at h
      · rw [← h]; exact List.getLast?_concat
      · rename_i hl
        rw [← h]; simpa using hl
    · cases h
  · injection h with h
    split at h
    · rw [← h]; simp
    · rw [← h]; rfl

theorem NumText.subset {t u : PyStr} (h : NumText t u) {c : Char} (hc : c ∈ u) : c ∈ t := by
  rcases h with rfl | ⟨-, rfl⟩
  · simp [hc]
  · exact hc

/-! ### what is written -/

theorem Leaves.stopped {disk disk' : Disk} {why : Stop} (h : Leaves (.stopped disk why) disk') :
    disk' = disk := by
  rcases h with h | ⟨w, h⟩
  · cases h
  · injection h with h _; exact h.symm

theorem Leaves.dumpAt {disk disk' : Disk} {path : PyStr} {s : FullSpec}
    (h : Leaves (dumpAt disk path s) disk') : OnlyAt path disk disk' := by
  have hw : ∀ f, OnlyAt path disk (disk.write path f) := by
    intro f p hp
    unfold Disk.write
    rw [if_neg hp]
  unfold Verif.dumpAt at h
  dsimp only at h
  split at h
  · rcases h with h | ⟨w, h⟩
    · injection h with h; rw [← h]; exact hw _
    · cases h
  · rw [h.stopped]; exact hw _

theorem Leaves.dumpNp {disk disk' : Disk} {path : PyStr} {s : FullSpec} {r : NpResult}
    (h : Leaves (dumpNp disk path s r) disk') : OnlyAt path disk disk' := by
  cases r with
  | notFinite => rcases h with h | ⟨w, h⟩ <;> cases h
  | finite t => exact Leaves.dumpAt h

theorem OnlyAt.refl (path : PyStr) (disk : Disk) : OnlyAt path disk disk := fun _ _ => rfl

theorem rebin_only {ft : FloatText} {disk disk' : Disk} {input : PyStr} {bins : Option (List ℕ)}
    (h : Leaves (rebinScript ft disk input none bins) disk') :
    OnlyAt (besides input (lit "_rebin.hdf5")) disk disk' := by
  unfold rebinScript at h
  split at h
  · rw [h.stopped]; exact .refl _ _
  split at h
  · rw [h.stopped]; exact .refl _ _
  split at h
  · rw [h.stopped]; exact .refl _ _
  · exact h.dumpAt

theorem shrink_only {ft : FloatText} {disk disk' : Disk} {input : PyStr} {pars : List PyStr}
    {low up : List ℚ} (h : Leaves (shrinkScript ft disk input none pars low up) disk') :
    OnlyAt (dirName input ++ lit "/" ++ splitRoot (baseName input) ++ lit "_shrunk.hdf5")
      disk disk' := by
  unfold shrinkScript at h
  split at h
  · rw [h.stopped]; exact .refl _ _
  split at h
  · rw [h.stopped]; exact .refl _ _
  split at h
  · rw [h.stopped]; exact .refl _ _
  split at h
  · rw [h.stopped]; exact .refl _ _
  · exact h.dumpAt

theorem shift_only {ft : FloatText} {str : ℚ → PyStr}
    {spline : List ℚ → List ℚ → Except PyErr (ℚ → ℚ)} {disk disk' : Disk} {input dim : PyStr}
    {x : Option ℚ} (h : Leaves (shiftScript ft str spline disk input dim x) disk') :
    OnlyAt (besides input (lit "_shifted.hdf5")) disk disk' := by
  unfold shiftScript at h
  split at h
  · rw [h.stopped]; exact .refl _ _
  split at h
  · rw [h.stopped]; exact .refl _ _
  split at h
  · rw [h.stopped]; exact .refl _ _
  split at h
  · rw [h.stopped]; exact .refl _ _
  split at h
  · rw [h.stopped]; exact .refl _ _
  · exact h.dumpNp

theorem smear_only {ft : FloatText} {res : ℚ → Except PyErr SmearObj} {ly radial : SmearObj}
    {disk disk' : Disk} {input method : PyStr} {x : Option ℚ}
    (h : Leaves (smearScript ft res ly radial disk input method x) disk') :
    OnlyAt (besides input (lit "_smeared.hdf5")) disk disk' := by
  unfold smearScript at h
  split at h
  · rw [h.stopped]; exact .refl _ _
  split at h
  · rw [h.stopped]; exact .refl _ _
  split at h
  · rw [h.stopped]; exact .refl _ _
  · exact h.dumpAt

theorem scale_only {ft : FloatText} {str : ℚ → PyStr}
    {spline : List ℚ → List ℚ → Except PyErr (ℚ → ℚ)} {isdir : PyStr → Bool} {disk disk' : Disk}
    {input par : PyStr} {x : Option ℚ} {dest : Option PyStr}
    (h : Leaves (scaleScript ft str spline isdir disk input par x dest) disk') :
    disk' = disk ∨ ∃ y dir, x = some y ∧ scaledDir isdir dest input = .ok dir ∧
      OnlyAt (dir ++ splitRoot (baseName input) ++ lit "_" ++ shortText (str y) ++ lit "sc.hdf5")
        disk disk' := by
  unfold scaleScript at h
  split at h
  · exact .inl h.stopped
  split at h
  · exact .inl h.stopped
  split at h
  · exact .inl h.stopped
  split at h
  · exact .inl h.stopped
  rename_i dir hdir
  split at h
  · exact .inl h.stopped
  split at h
  · exact .inl h.stopped
  split at h
  · exact .inl h.stopped
  · exact .inr ⟨_, _, rfl, hdir, h.dumpNp⟩

theorem smearEnergy_only {ft : FloatText} {str : ℚ → PyStr} {isdir : PyStr → Bool}
    {res ly : ℚ → Except PyErr SmearObj} {disk disk' : Disk} {input method : PyStr} {x : Option ℚ}
    {lightYield : ℚ} {dest : Option PyStr}
    (h : Leaves (smearEnergyScript ft str isdir res ly disk input method x lightYield dest) disk') :
    disk' = disk ∨ ∃ dir u, smearedDir isdir dest input = .ok dir ∧
      ((∃ y, x = some y ∧ y ≠ 0 ∧ u = str y ++ lit "rs.hdf5") ∨
        ((x = none ∨ x = some 0) ∧ u = shortText (str lightYield) ++ lit "ly.hdf5")) ∧
      OnlyAt (dir ++ splitRoot (baseName input) ++ lit "_" ++ u) disk disk' := by
  unfold smearEnergyScript at h
  split at h
  · exact .inl h.stopped
  rename_i dir hdir
  dsimp only at h
  split at h
  · exact .inl h.stopped
  split at h
  · exact .inl h.stopped
  split at h
  · exact .inl h.stopped
  refine .inr ⟨dir, _, hdir, ?_, h.dumpAt⟩
  rcases x with _ | y
  · exact .inr ⟨.inl rfl, rfl⟩
  · dsimp only
    by_cases hy : y = 0
    · rw [if_pos hy]; exact .inr ⟨.inr (by rw [hy]), rfl⟩
    · rw [if_neg hy]; exact .inl ⟨y, rfl, hy, rfl⟩

/-! ### C115 -/

/-- **C115.** None of the scripts that change a spectrum touches its input unless asked to: whatever
the path, the options and the way it ends, the file at the path of the input is what it was. -/
theorem c115_input_kept (ft : FloatText) (str : ℚ → PyStr) (hstr : ∀ x, '/' ∉ str x)
    (spline : List ℚ → List ℚ → Except PyErr (ℚ → ℚ)) (isdir : PyStr → Bool)
    (resS : ℚ → Except PyErr SmearObj) (lyS radial : SmearObj) (res ly : ℚ → Except PyErr SmearObj)
    (disk disk' : Disk) (input par method : PyStr) (bins : Option (List ℕ)) (pars : List PyStr)
    (low up : List ℚ) (x : Option ℚ) (lightYield : ℚ) (dest : Option PyStr) (e : RunEnd)
    (he : e = rebinScript ft disk input none bins ∨ e = shrinkScript ft disk input none pars low up ∨
      e = shiftScript ft str spline disk input par x ∨
      e = scaleScript ft str spline isdir disk input par x dest ∨
      e = smearScript ft resS lyS radial disk input method x ∨
      e = smearEnergyScript ft str isdir res ly disk input method x lightYield dest)
    (h : Leaves e disk') : disk' input = disk input := by
  have hshort : ∀ y, '/' ∉ shortText (str y) := fun y hy =>
    hstr y ((shortText_spec _).subset hy)
  rcases he with rfl | rfl | rfl | rfl | rfl | rfl
  · exact rebin_only h _ (besides_ne (by decide)).symm
  · exact shrink_only h _ (dest_ne (by simp) (by decide)).symm
  · exact shift_only h _ (besides_ne (by decide)).symm
  · rcases scale_only h with rfl | ⟨y, dir, -, hdir, ho⟩
    · rfl
    · refine ho _ (Ne.symm ?_)
      simp only [List.append_assoc]
      rw [← List.append_assoc]
      exact dest_ne (scaledDir_slash hdir) (by simp [hshort y])
  · exact smear_only h _ (besides_ne (by decide)).symm
  · rcases smearEnergy_only h with rfl | ⟨dir, u, hdir, hu, ho⟩
    · rfl
    · refine ho _ (Ne.symm ?_)
      have hus : '/' ∉ u := by
        rcases hu with ⟨y, -, -, rfl⟩ | ⟨-, rfl⟩
        · simp [hstr y]
        · simp [hshort lightYield]
      simp only [List.append_assoc]
      rw [← List.append_assoc]
      exact dest_ne (smearedDir_slash hdir) hus

/-- A script that has written something: 10 and 3 bins are made 5 and 3. -/
example (ft : FloatText) : ∃ disk disk' t b, Leaves (rebinScript ft disk (lit "/data/te.hdf5") none
    (some [5, 3])) disk' ∧ Input ft disk' (lit "/data/te_rebin.hdf5") t b ∧
    (disk (lit "/data/te.hdf5")).isSome := by
  obtain ⟨disk, s, h1, h2⟩ := Ex.input ft (lit "/data/te.hdf5")
  obtain ⟨disk', t, h3, -, h4, -⟩ := c111_rebin ft disk _ s _ h1 none (lit "/data/te_rebin.hdf5")
    (.inr ⟨.inl rfl, lit "/data/", lit "te", lit "hdf5",
      ⟨by decide, .inr (by decide), by decide, by decide⟩, by decide⟩) [5, 3] (by rw [h2]; rfl) (by
      rw [h2]
      intro i _ hi
      simp only [List.length_cons, List.length_nil] at hi
      interval_cases i
      · exact ⟨2, rfl⟩
      · exact ⟨1, rfl⟩)
  refine ⟨disk, disk', t, _, .inl h3, h4, ?_⟩
  obtain ⟨f, hf, -⟩ := h1.holds
  rw [hf]; rfl

/-- **C115.** The outputs of inputs that differ in more than the extension do not overwrite each
other: `rebin.py`, `dump_shifted.py` and `dump_smeared.py` run on one leave the output of the other
alone. -/
theorem c115_distinct (ft : FloatText) (str : ℚ → PyStr)
    (spline : List ℚ → List ℚ → Except PyErr (ℚ → ℚ)) (res : ℚ → Except PyErr SmearObj)
    (ly radial : SmearObj) (disk disk' : Disk) (p q : PyStr) (d d' stem stem' ext ext' : PyStr)
    (hp : IsPath p d stem ext) (hq : IsPath q d' stem' ext') (hne : d ≠ d' ∨ stem ≠ stem')
    (par method : PyStr) (bins : Option (List ℕ)) (x : Option ℚ) :
    (Leaves (rebinScript ft disk q none bins) disk' → ∀ o, Beside p (lit "_rebin.hdf5") o →
      disk' o = disk o) ∧
    (Leaves (shiftScript ft str spline disk q par x) disk' → ∀ o, Beside p (lit "_shifted.hdf5") o →
      disk' o = disk o) ∧
    (Leaves (smearScript ft res ly radial disk q method x) disk' →
      ∀ o, Beside p (lit "_smeared.hdf5") o → disk' o = disk o) := by
  have key : ∀ suf : PyStr, '/' ∉ suf → ∀ o, Beside p suf o → o ≠ besides q suf := by
    rintro suf hs o ⟨d1, s1, e1, h1, rfl⟩ h
    unfold besides at h
    rw [cutPath_ext hq] at h
    have hc := (cutPath_ext h1).symm.trans (cutPath_ext hp)
    injection hc with hc1 hc2
    subst hc1; subst hc2
    dsimp only at h
    rw [List.append_assoc, List.append_assoc] at h
    obtain ⟨a, b⟩ := path_split (by simp [hp.stem, hs]) (by simp [hq.stem, hs]) hp.dir hq.dir h
    exact hne.elim (fun h => h a) (fun h => h (List.append_cancel_right b))
  exact ⟨fun h o ho => rebin_only h o (key _ (by decide) o ho),
    fun h o ho => shift_only h o (key _ (by decide) o ho),
    fun h o ho => smear_only h o (key _ (by decide) o ho)⟩

/-- Two such inputs. -/
example : IsPath (lit "/data/te.hdf5") (lit "/data/") (lit "te") (lit "hdf5") ∧
    IsPath (lit "/data/te.v2.hdf5") (lit "/data/") (lit "te.v2") (lit "hdf5") ∧
    lit "te" ≠ lit "te.v2" :=
  ⟨⟨by decide, .inr (by decide), by decide, by decide⟩,
    ⟨by decide, .inr (by decide), by decide, by decide⟩, by decide⟩

/-- **C115.** The same for `dump_shrink.py`, if the input of the second run is given with a
directory and its name does not consist of dots. -/
theorem c115_distinct_shrink (ft : FloatText) (disk disk' : Disk) (p q : PyStr)
    (d d' stem stem' ext ext' : PyStr) (hp : IsPath p (d ++ lit "/") stem ext)
    (hq : IsPath q (d' ++ lit "/") stem' ext') (hd' : d' ≠ [] ∧ d'.getLast? ≠ some '/')
    (hs' : ∃ c ∈ stem', c ≠ '.') (hne : d ≠ d' ∨ stem ≠ stem') (pars : List PyStr) (low up : List ℚ)
    (h : Leaves (shrinkScript ft disk q none pars low up) disk') :
    ∀ o, BesideIn p (lit "_shrunk.hdf5") o → disk' o = disk o := by
  rintro o ⟨d1, s1, e1, hp1, -, -, -, rfl⟩
  have hc := (cutPath_ext hp1).symm.trans (cutPath_ext hp)
  injection hc with hc1 hc2
  have hc1 := List.append_cancel_right hc1
  subst hc1; subst hc2
  refine shrink_only h _ ?_
  rw [dirName_of_path hq hd'.1 hd'.2, stem_of_path hq hs']
  intro he
  rw [List.append_assoc, List.append_assoc (d' ++ lit "/")] at he
  obtain ⟨a, b⟩ := path_split (by simp [hp.stem]) (by simp [hq.stem]) hp.dir hq.dir he
  exact hne.elim (fun h => h (List.append_cancel_right a)) (fun h => h (List.append_cancel_right b))

example : IsPath (lit "/a/te.hdf5") (lit "/a" ++ lit "/") (lit "te") (lit "hdf5") ∧
    IsPath (lit "/b/te.hdf5") (lit "/b" ++ lit "/") (lit "te") (lit "hdf5") ∧
    BesideIn (lit "/a/te.hdf5") (lit "_shrunk.hdf5") (lit "/a/te_shrunk.hdf5") :=
  ⟨⟨by decide, .inr (by decide), by decide, by decide⟩,
    ⟨by decide, .inr (by decide), by decide, by decide⟩, lit "/a", lit "te", lit "hdf5",
    ⟨by decide, .inr (by decide), by decide, by decide⟩, by decide, by decide, ⟨'t', by decide⟩,
    by decide⟩

/-- **C115.** With a directory asked for, `dump_scaled.py` leaves the outputs for other names, and
for other factors, alone. The text of a number has no slash and no underscore. -/
theorem c115_distinct_scale (ft : FloatText) (str : ℚ → PyStr)
    (hstr : ∀ z, '/' ∉ str z ∧ '_' ∉ str z)
    (spline : List ℚ → List ℚ → Except PyErr (ℚ → ℚ)) (isdir : PyStr → Bool) (disk disk' : Disk)
    (p q par : PyStr) (d d' stem stem' ext ext' : PyStr) (hp : IsPath p d stem ext)
    (hq : IsPath q d' stem' ext') (hs' : ∃ c ∈ stem', c ≠ '.') (x y : ℚ) (u v : PyStr)
    (hu : NumText (str x) u) (hv : NumText (str y) v) (hne : stem ≠ stem' ∨ u ≠ v)
    (dest : PyStr) (hdest : dest ≠ [])
    (h : Leaves (scaleScript ft str spline isdir disk q par (some y) (some dest)) disk') :
    ∀ o, InDest isdir (some dest) p (lit "_" ++ u ++ lit "sc.hdf5") o → disk' o = disk o := by
  rintro o (⟨d0, d1, d2, s1, e1, hd0, -, hi, hp1, hs1, hd1, rfl⟩ | ⟨hn | hn, -⟩)
  · injection hd0 with hd0
    subst hd0
    have hc := (cutPath_ext hp1).symm.trans (cutPath_ext hp)
    injection hc with hc1 hc2
    subst hc1; subst hc2
    rcases scale_only h with rfl | ⟨y', dir, hy, hdir, ho⟩
    · rfl
    injection hy with hy
    subst hy
    refine ho _ ?_
    rw [stem_of_path hq hs', ← hv.unique (shortText_spec _)]
    have hdd : dir = d1 := by
      obtain ⟨c, r, rfl⟩ := List.exists_cons_of_ne_nil hdest
      unfold scaledDir at hdir
      dsimp only at hdir
      rw [if_pos hi] at hdir
      injection hdir with hdir
      rcases hd1 with ⟨h1, rfl⟩ | ⟨h1, rfl⟩
      · rw [if_neg (by simpa using h1)] at hdir; exact hdir.symm
      · rw [if_pos h1] at hdir; exact hdir.symm
    subst hdd
    intro he
    simp only [List.append_assoc] at he
    have h1 := List.append_cancel_left he
    rw [← List.append_assoc, ← List.append_assoc, ← List.append_assoc stem',
      ← List.append_assoc] at h1
    have h2 := List.append_cancel_right h1
    have hu' : '_' ∉ u := fun hm => (hstr x).2 (hu.subset hm)
    have hv' : '_' ∉ v := fun hm => (hstr y).2 (hv.subset hm)
    have e1 := pyRfind_last s1 u hu'
    have e2 := pyRfind_last stem' v hv'
    simp only [List.append_assoc, List.singleton_append] at h2
    rw [h2, e2] at e1
    obtain ⟨a, b⟩ := List.append_inj h2 (by exact_mod_cast e1.symm)
    injection b with _ b
    exact hne.elim (fun h => h a) (fun h => h b)
  · cases hn
  · injection hn with hn; exact absurd hn hdest

example : InDest (fun _ => true) (some (lit "/out")) (lit "/data/te.hdf5")
      (lit "_" ++ lit "2" ++ lit "sc.hdf5") (lit "/out/te_2sc.hdf5") ∧
    NumText (lit "2.0") (lit "2") ∧ NumText (lit "2.5") (lit "2.5") :=
  ⟨.inl ⟨lit "/out", lit "/out/", lit "/data/", lit "te", lit "hdf5", rfl, by decide, rfl,
    ⟨by decide, .inr (by decide), by decide, by decide⟩, ⟨'t', by decide⟩,
    .inr ⟨by decide, by decide⟩, by decide⟩, .inl (by decide), .inr ⟨by decide, rfl⟩⟩

/-! ### where it fails -/

theorem rebin_default {ft : FloatText} {disk : Disk} {input : PyStr} {bins : Option (List ℕ)} :
    rebinScript ft disk input none bins =
      rebinScript ft disk input (some (besides input (lit "_rebin.hdf5"))) bins := by
  have : besides input (lit "_rebin.hdf5") ≠ [] := by unfold besides; simp
  obtain ⟨c, r, hr⟩ := List.exists_cons_of_ne_nil this
  unfold rebinScript
  rw [hr]

theorem sameBins_ok {s : FullSpec} (h : s.core.WF) :
    s.sameBins.length = s.core.cfg.length ∧
    ∀ i (h1 : i < s.core.cfg.length) (h2 : i < s.sameBins.length),
      ((s.sameBins[i] : ℕ) : ℤ) ∣ s.core.cfg[i].bins := by
  refine ⟨List.length_map .., fun i h1 h2 => ?_⟩
  have := (h.axes _ (List.getElem_mem h1)).1
  simp only [FullSpec.sameBins, List.getElem_map]
  rw [Int.toNat_of_nonneg (by omega)]

/-- `rebin.py` on a path without a dot. -/
theorem rebin_noDot {ft : FloatText} {disk : Disk} {dir base : PyStr} {c : Char}
    (hdir : dir = [] ∨ dir.getLast? = some '/') (hb : '/' ∉ base ∧ c ≠ '/')
    (hdot : '.' ∉ dir ∧ '.' ∉ base ∧ c ≠ '.') {s : FullSpec} {b : PyStr}
    (h : Input ft disk (dir ++ (base ++ [c])) s b) :
    ∃ disk' t, rebinScript ft disk (dir ++ (base ++ [c])) none (some s.sameBins) = .done disk' ∧
      OnlyAt (dir ++ base ++ lit "_rebin.hdf5") disk disk' ∧
      Input ft disk' (dir ++ base ++ lit "_rebin.hdf5") t b ∧ t.name = s.name ∧
      t.data.sum = s.data.sum := by
  have hbase : '/' ∉ base ++ [c] := by simp [hb.1, Ne.symm hb.2]
  have hnd : '.' ∉ dir ++ (base ++ [c]) := by
    simp [hdot.1, hdot.2.1, Ne.symm hdot.2.2]
  have hout : besides (dir ++ (base ++ [c])) (lit "_rebin.hdf5") =
      dir ++ base ++ lit "_rebin.hdf5" := by
    unfold besides
    rw [cutPath_noDot hbase hdir hnd, List.dropLast_concat]
  obtain ⟨hl, hd⟩ := sameBins_ok h.wf
  obtain ⟨disk', t, h1, h2, h3, -, -, h6, -, -, h9, -⟩ := c111_rebin ft disk _ s b h
    (some (dir ++ base ++ lit "_rebin.hdf5")) _ (.inl ⟨rfl, by simp⟩) s.sameBins hl hd
  exact ⟨disk', t, by rw [rebin_default, hout]; exact h1, h2, h3, h9, h6⟩

/-- **C115 fails without an extension**: inputs whose paths have no dot and differ in the last
character only have the same output, so the second run of `rebin.py` overwrites the output of the
first. -/
theorem c115_no_extension_negation (ft : FloatText) (disk : Disk) (dir base : PyStr) (c c' : Char)
    (hdir : dir = [] ∨ dir.getLast? = some '/') (hb : '/' ∉ base ∧ c ≠ '/' ∧ c' ≠ '/')
    (hdot : '.' ∉ dir ∧ '.' ∉ base ∧ c ≠ '.' ∧ c' ≠ '.') (s s' : FullSpec) (b b' : PyStr)
    (h : Input ft disk (dir ++ base ++ [c]) s b) (h' : Input ft disk (dir ++ base ++ [c']) s' b') :
    ∃ disk' disk'' t t',
      rebinScript ft disk (dir ++ base ++ [c]) none (some s.sameBins) = .done disk' ∧
      Holds ft disk' (dir ++ base ++ lit "_rebin.hdf5") t ∧ t.name = s.name ∧
      rebinScript ft disk' (dir ++ base ++ [c']) none (some s'.sameBins) = .done disk'' ∧
      Holds ft disk'' (dir ++ base ++ lit "_rebin.hdf5") t' ∧ t'.name = s'.name := by
  rw [List.append_assoc] at h h'
  obtain ⟨disk', t, h1, h2, h3, h4, -⟩ := rebin_noDot hdir ⟨hb.1, hb.2.1⟩
    ⟨hdot.1, hdot.2.1, hdot.2.2.1⟩ h
  have h'' : Input ft disk' (dir ++ (base ++ [c'])) s' b' := by
    refine ⟨?_, h'.savable, h'.wf, h'.background, h'.named⟩
    obtain ⟨f, hf, hl⟩ := h'.holds
    refine ⟨f, ?_, hl⟩
    rw [h2 _ ?_, hf]
    intro he
    have := congrArg List.length he
    simp at this
  obtain ⟨disk'', t', g1, -, g3, g4, -⟩ := rebin_noDot hdir ⟨hb.1, hb.2.2⟩
    ⟨hdot.1, hdot.2.1, hdot.2.2.2⟩ h''
  refine ⟨disk', disk'', t, t', ?_, h3.holds, h4, ?_, g3.holds, g4⟩
  · rw [List.append_assoc]; exact h1
  · rw [List.append_assoc]; exact g1

/-- Two such inputs on one disk. -/
example (ft : FloatText) : ∃ disk s s', Input ft disk (lit "/data/" ++ lit "te" ++ ['1']) s
      (lit "Te130_2n2b") ∧ Input ft disk (lit "/data/" ++ lit "te" ++ ['2']) s' (lit "Te130_2n2b") ∧
    '.' ∉ lit "/data/" := by
  obtain ⟨disk, s, h1, -⟩ := Ex.input ft (lit "/data/" ++ lit "te" ++ ['1'])
  obtain ⟨disk2, s2, h2, -⟩ := Ex.input ft (lit "/data/" ++ lit "te" ++ ['2'])
  refine ⟨fun p => if p = lit "/data/" ++ lit "te" ++ ['1'] then disk p else disk2 p, s, s2,
    ⟨?_, h1.savable, h1.wf, h1.background, h1.named⟩,
    ⟨?_, h2.savable, h2.wf, h2.background, h2.named⟩, by decide⟩
  · obtain ⟨f, hf, hl⟩ := h1.holds
    exact ⟨f, by dsimp only; rw [if_pos rfl, hf], hl⟩
  · obtain ⟨f, hf, hl⟩ := h2.holds
    exact ⟨f, by dsimp only; rw [if_neg (by decide), hf], hl⟩

/-- **C115 fails with a dot in the directory only**: the output of `rebin.py` is then
`_rebin.hdf5` in that directory, whatever the name of the input. -/
theorem c115_dotted_directory_negation (ft : FloatText) (disk : Disk) (dir base : PyStr)
    (hdir : dir.getLast? = some '/') (hb : '/' ∉ base ∧ '.' ∉ base) (hdot : '.' ∈ dir)
    (s : FullSpec) (b : PyStr) (h : Input ft disk (dir ++ base) s b) :
    ∃ disk' t, rebinScript ft disk (dir ++ base) none (some s.sameBins) = .done disk' ∧
      OnlyAt (dir ++ lit "_rebin.hdf5") disk disk' ∧ Holds ft disk' (dir ++ lit "_rebin.hdf5") t ∧
      t.name = s.name := by
  have hout : besides (dir ++ base) (lit "_rebin.hdf5") = dir ++ lit "_rebin.hdf5" := by
    unfold besides
    rw [cutPath_dotBefore hb.1 (.inr hdir) hb.2 hdot, List.append_nil]
  obtain ⟨hl, hd⟩ := sameBins_ok h.wf
  obtain ⟨disk', t, h1, h2, h3, -, -, -, -, -, h9, -⟩ := c111_rebin ft disk _ s b h
    (some (dir ++ lit "_rebin.hdf5")) _ (.inl ⟨rfl, by simp⟩) s.sameBins hl hd
  exact ⟨disk', t, by rw [rebin_default, hout]; exact h1, h2, h3.holds, h9⟩

example (ft : FloatText) : ∃ disk s, Input ft disk (lit "./" ++ lit "te") s (lit "Te130_2n2b") ∧
    (lit "./").getLast? = some '/' ∧ '.' ∈ lit "./" := by
  obtain ⟨disk, s, h1, -⟩ := Ex.input ft (lit "./" ++ lit "te")
  exact ⟨disk, s, h1, by decide, by decide⟩

/-- **C115 fails for a bare file name**: without a directory in the path, `dump_shrink.py` saves in
the root directory, and the only file `dump_scaled.py` writes is there too. -/
theorem c115_bare_name_negation (ft : FloatText) (str : ℚ → PyStr)
    (spline : List ℚ → List ℚ → Except PyErr (ℚ → ℚ)) (isdir : PyStr → Bool) (disk : Disk)
    (stem ext : PyStr) (hp : IsPath (stem ++ '.' :: ext) [] stem ext) (hs : ∃ c ∈ stem, c ≠ '.')
    (s : FullSpec) (b : PyStr) (h : Input ft disk (stem ++ '.' :: ext) s b) :
    (∀ pars low up, pars ≠ [] → ¬ (low = [] ∧ up = []) → (low = [] ∨ low.length = pars.length) →
      (up = [] ∨ up.length = pars.length) → ∀ rs, AsksEdges s.core (boundsOf pars low up) rs →
      ∃ disk' t, shrinkScript ft disk (stem ++ '.' :: ext) none pars low up = .done disk' ∧
        OnlyAt (lit "/" ++ stem ++ lit "_shrunk.hdf5") disk disk' ∧
        Holds ft disk' (lit "/" ++ stem ++ lit "_shrunk.hdf5") t ∧ IsSlice s.core rs t.core) ∧
    ∀ par y u disk', NumText (str y) u →
      Leaves (scaleScript ft str spline isdir disk (stem ++ '.' :: ext) par (some y) none) disk' →
      OnlyAt (lit "/" ++ stem ++ lit "_" ++ u ++ lit "sc.hdf5") disk disk' := by
  have hbase : '/' ∉ stem ++ '.' :: ext := by simp [hp.stem, hp.ext.1]
  have hroot := stem_of_path hp hs
  have hdir := dirName_bare hbase
  constructor
  · intro pars low up hne hg hl hu rs ha
    obtain ⟨disk', t, h1, h2, h3, h4, -⟩ := c112_shrink ft disk _ s b h (by simp)
      (some (lit "/" ++ stem ++ lit "_shrunk.hdf5")) _ (.inl ⟨rfl, by simp⟩) pars low up hne hg hl hu
      rs ha
    refine ⟨disk', t, ?_, h2, h3, h4⟩
    rw [← h1]
    have e : (lit "/" ++ stem ++ lit "_shrunk.hdf5" : PyStr) =
      '/' :: (stem ++ lit "_shrunk.hdf5") := by simp
    unfold shrinkScript
    rw [e, hdir, hroot]
    rfl
  · intro par y u disk' hu hle
    rcases scale_only hle with rfl | ⟨y', dir, hy, hd, ho⟩
    · exact .refl _ _
    · injection hy with hy
      subst hy
      unfold scaledDir at hd
      dsimp only at hd
      injection hd with hd
      rw [← hd, hdir, hroot, ← hu.unique (shortText_spec _)] at ho
      exact ho

example (ft : FloatText) : ∃ disk s, Input ft disk (lit "te" ++ '.' :: lit "hdf5") s
      (lit "Te130_2n2b") ∧ IsPath (lit "te" ++ '.' :: lit "hdf5") [] (lit "te") (lit "hdf5") := by
  obtain ⟨disk, s, h1, -⟩ := Ex.input ft (lit "te" ++ '.' :: lit "hdf5")
  exact ⟨disk, s, h1, ⟨rfl, .inl rfl, by decide, by decide⟩⟩

end Verif
