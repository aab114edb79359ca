import Verif.Spec.Scripts
import Verif.Props.Store

/-! # Lemmas on paths and on saving -/

namespace Verif

/-! ### positions in strings -/

theorem pyRfind_last {c : Char} (a b : PyStr) (h : c ∉ b) :
    pyRfind c (a ++ c :: b) = a.length := by
  have : (a ++ c :: b).reverse.findIdx? (fun x => decide (x = c)) = some b.length := by
    rw [List.reverse_append, List.reverse_cons, List.append_assoc, List.findIdx?_append,
      List.findIdx?_eq_none_iff.2 (by
        intro x hx
        simp only [decide_eq_false_iff_not]
        rintro rfl
        exact h (List.mem_reverse.1 hx))]
    simp [List.findIdx?_cons]
  unfold pyRfind
  rw [this]
  simp only [List.length_append, List.length_cons]
  push_cast
  ring

theorem pyRfind_none {c : Char} {s : PyStr} (h : c ∉ s) : pyRfind c s = -1 := by
  unfold pyRfind
  rw [List.findIdx?_eq_none_iff.2 (by
    intro x hx
    simp only [decide_eq_false_iff_not]
    rintro rfl
    exact h (List.mem_reverse.1 hx))]

/-- Every string is split at the last occurrence of a character. -/
theorem last_cases (c : Char) (s : PyStr) :
    (c ∉ s) ∨ ∃ a b, s = a ++ c :: b ∧ c ∉ b := by
  induction s with
  | nil => exact .inl (by simp)
  | cons x s ih =>
    rcases ih with h | ⟨a, b, rfl, hb⟩
    · by_cases hx : x = c
      · exact .inr ⟨[], s, by rw [hx]; rfl, h⟩
      · exact .inl (by simp [h, Ne.symm hx])
    · exact .inr ⟨x :: a, b, rfl, hb⟩

/-- A path is a directory, empty or with a slash at the end, and a name without slash. -/
theorem path_cases (p : PyStr) : ∃ dir base, p = dir ++ base ∧ '/' ∉ base ∧
    (dir = [] ∨ dir.getLast? = some '/') := by
  rcases last_cases '/' p with h | ⟨a, b, rfl, hb⟩
  · exact ⟨[], p, rfl, h, .inl rfl⟩
  · exact ⟨a ++ ['/'], b, by simp, hb, .inr (by simp)⟩

theorem rfind_slash {dir base : PyStr} (hb : '/' ∉ base)
    (hd : dir = [] ∨ dir.getLast? = some '/') : pyRfind '/' (dir ++ base) + 1 = dir.length := by
  rcases hd with rfl | hd
  · rw [List.nil_append, pyRfind_none hb]; rfl
  · obtain ⟨d, rfl⟩ : ∃ d, dir = d ++ ['/'] := by
      have hne : dir ≠ [] := by rintro rfl; cases hd
      refine ⟨dir.dropLast, ?_⟩
      rw [List.getLast?_eq_some_getLast hne] at hd
      have := List.dropLast_append_getLast hne
      rw [Option.some.inj hd] at this
      exact this.symm
    rw [List.append_assoc, List.singleton_append, pyRfind_last d base hb]
    simp

theorem cutPath_ext {p dir stem ext : PyStr} (h : IsPath p dir stem ext) :
    cutPath p = (dir, stem) := by
  obtain ⟨rfl, hd, hs, he1, he2⟩ := h
  have hb : '/' ∉ stem ++ '.' :: ext := by
    simp [hs, he1]
  have h1 : pyRfind '/' (dir ++ (stem ++ '.' :: ext)) + 1 = dir.length := rfind_slash hb hd
  have h2 : pyRfind '.' (dir ++ (stem ++ '.' :: ext)) = (dir ++ stem).length := by
    rw [← List.append_assoc]; exact pyRfind_last _ _ he2
  unfold cutPath pySlice
  rw [h1, h2, if_neg (by omega), if_neg (by omega)]
  simp only [Int.toNat_natCast, Int.toNat_zero, List.drop_zero, List.take_left]
  rw [← List.append_assoc, List.take_left, List.drop_left]

theorem cutPath_noDot {dir base : PyStr} (hb : '/' ∉ base)
    (hd : dir = [] ∨ dir.getLast? = some '/') (hdot : '.' ∉ dir ++ base) :
    cutPath (dir ++ base) = (dir, base.dropLast) := by
  have h1 := rfind_slash hb hd
  unfold cutPath pySlice
  rw [h1, pyRfind_none hdot, if_neg (by omega), if_pos (by omega)]
  simp only [Int.toNat_natCast, Int.toNat_zero, List.drop_zero, List.take_left]
  congr 1
  have : (max 0 (-1 + ((dir ++ base).length : ℤ))).toNat = (dir ++ base).length - 1 := by omega
  rw [this]
  rcases base.eq_nil_or_concat with rfl | ⟨b, c, rfl⟩
  · simp
  · simp [List.take_append]

theorem cutPath_dotBefore {dir base : PyStr} (hb : '/' ∉ base)
    (hd : dir = [] ∨ dir.getLast? = some '/') (hdot : '.' ∉ base) (hdir : '.' ∈ dir) :
    cutPath (dir ++ base) = (dir, []) := by
  have h1 := rfind_slash hb hd
  have h2 : ∃ n : ℕ, pyRfind '.' (dir ++ base) = n ∧ n ≤ dir.length := by
    rcases last_cases '.' dir with h | ⟨a, b, rfl, h'⟩
    · exact absurd hdir h
    · refine ⟨a.length, ?_, by simp⟩
      rw [List.append_assoc, List.cons_append]
      exact pyRfind_last _ _ (by simp [h', hdot])
  obtain ⟨n, hn, hle⟩ := h2
  unfold cutPath pySlice
  rw [h1, hn, if_neg (by omega), if_neg (by omega)]
  simp only [Int.toNat_natCast, Int.toNat_zero, List.drop_zero, List.take_left]
  congr 1
  rw [List.drop_eq_nil_iff, List.length_take]
  omega

theorem baseName_path {dir base : PyStr} (hb : '/' ∉ base)
    (hd : dir = [] ∨ dir.getLast? = some '/') : baseName (dir ++ base) = base := by
  unfold baseName
  rw [rfind_slash hb hd, Int.toNat_natCast, List.drop_left]

theorem splitRoot_ext {stem ext : PyStr} (he : '.' ∉ ext) (hs : ∃ c ∈ stem, c ≠ '.') :
    splitRoot (stem ++ '.' :: ext) = stem := by
  unfold splitRoot
  rw [pyRfind_last _ _ he, Int.toNat_natCast, List.take_left]
  dsimp only
  rw [if_pos]
  simpa using hs

theorem dirName_path {d base : PyStr} (hb : '/' ∉ base) (hd : d ≠ [])
    (hl : d.getLast? ≠ some '/') : dirName (d ++ '/' :: base) = d := by
  unfold dirName
  have e : d ++ '/' :: base = (d ++ ['/']) ++ base := by simp
  rw [e, rfind_slash hb (.inr (by simp)), Int.toNat_natCast, List.take_left]
  obtain ⟨a, c, rfl⟩ := (List.eq_nil_or_concat d).resolve_left hd
  rw [List.concat_eq_append] at hl ⊢
  have hc : c ≠ '/' := by
    rintro rfl
    simp at hl
  dsimp only
  rw [if_neg (by simp [hc]), List.rdropWhile_concat_pos _ _ _ (by simp),
    List.rdropWhile_concat_neg _ _ _ (by simp [hc])]

theorem dirName_bare {base : PyStr} (hb : '/' ∉ base) : dirName base = [] := by
  unfold dirName
  rw [pyRfind_none hb]
  rfl

theorem shortText_spec (t : PyStr) : NumText t (shortText t) := by
  unfold shortText NumText
  split
  · rename_i h
    left
    have : dropRight t 2 = t.take (t.length - 2) := rfl
    rw [this, ← h, List.take_append_drop]
  · rename_i h
    right
    refine ⟨fun hs => h ?_, rfl⟩
    obtain ⟨u, rfl⟩ := hs
    simp

theorem NumText.unique {t u v : PyStr} (h1 : NumText t u) (h2 : NumText t v) : u = v := by
  rcases h1 with h1 | ⟨h1, rfl⟩ <;> rcases h2 with h2 | ⟨h2, rfl⟩
  · exact List.append_cancel_right (h1.symm.trans h2)
  · exact absurd ⟨u, h1.symm⟩ h2
  · exact absurd ⟨v, h2.symm⟩ h1
  · rfl

theorem stem_of_path {p dir stem ext : PyStr} (h : IsPath p dir stem ext)
    (hs : ∃ c ∈ stem, c ≠ '.') : splitRoot (baseName p) = stem := by
  have hb : '/' ∉ stem ++ '.' :: ext := by simp [h.stem, h.ext.1]
  rw [h.eq, baseName_path hb h.dir, splitRoot_ext h.ext.2 hs]

theorem dirName_of_path {p d stem ext : PyStr} (h : IsPath p (d ++ lit "/") stem ext)
    (hd : d ≠ []) (hl : d.getLast? ≠ some '/') : dirName p = d := by
  have hb : '/' ∉ stem ++ '.' :: ext := by simp [h.stem, h.ext.1]
  have : p = d ++ '/' :: (stem ++ '.' :: ext) := by rw [h.eq]; simp
  rw [this]; exact dirName_path hb hd hl

theorem scaledDir_out {isdir : PyStr → Bool} {dest : Option PyStr} {input suffix out : PyStr}
    (h : InDest isdir dest input suffix out) :
    ∃ dir, scaledDir isdir dest input = .ok dir ∧
      dir ++ splitRoot (baseName input) ++ suffix = out := by
  rcases h with ⟨d, d', dir, stem, ext, rfl, hd, hi, hp, hst, hd', rfl⟩ |
    ⟨ho, d, stem, ext, hp, hd, hdl, hst, rfl⟩
  · cases d with
    | nil => exact absurd rfl hd
    | cons x d =>
      rw [stem_of_path hp hst]
      refine ⟨d', ?_, rfl⟩
      unfold scaledDir
      dsimp only
      rw [if_pos hi]
      rcases hd' with ⟨h1, rfl⟩ | ⟨h1, rfl⟩
      · rw [if_neg (by simpa using h1)]
      · rw [if_pos h1]
  · rw [stem_of_path hp hst]
    refine ⟨d ++ lit "/", ?_, rfl⟩
    have := dirName_of_path hp hd hdl
    rcases ho with rfl | rfl <;> (unfold scaledDir; rw [this])

/-! ### saving and loading -/

theorem Storable.savable {s : FullSpec} (h : Storable s) : Savable s :=
  ⟨h.axes, fun fc hfc => by
    have := h.fit fc hfc
    exact ⟨rfl, this.filled, this.distinct, this.names, this.rates⟩, h.style⟩

/-- Saving a spectrum whose fit configuration belongs to another spectrum. -/
theorem save_load (ft : FloatText) (path : PyStr) (file : Option H5) (s : FullSpec)
    (b : PyStr) (h : Savable s) (hb : s.getBackgroundName = .ok b) :
    (dump file s).err = none ∧
    ∃ t, load ft path (dump file s).file = .ok t ∧ t.name = s.name ∧ t.config = s.config ∧
      t.numDecays = s.numDecays ∧ t.rawEvents = s.rawEvents ∧ t.data = s.data ∧
      SameLabels b s t := by
  set s0 : FullSpec := { s with
    fitConfig := s.fitConfig.map (fun fc => { fc with spectraName := s.name }) } with hs0
  have hst : Storable s0 := by
    refine ⟨⟨h.axes.axes, h.axes.distinct, h.axes.names, h.axes.dimension⟩, ?_, h.style⟩
    intro fc hfc
    cases hf : s.fitConfig with
    | none => rw [hs0] at hfc; simp [hf] at hfc
    | some fc0 =>
      have h0 := h.fit fc0 hf
      rw [hs0] at hfc
      simp only [hf, Option.map_some, Option.some.injEq] at hfc
      subst hfc
      exact ⟨rfl, h0.filled, h0.distinct, h0.names, h0.rates⟩
  have hb0 : s0.getBackgroundName = .ok b := hb
  have hd : (dump file s0).err = (dump file s).err ∧ (dump file s0).file = (dump file s).file := by
    have hg : ∀ c : PyStr, specGroup { s0 with background := some c } c =
        specGroup { s with background := some c } c := by
      intro c
      unfold specGroup
      have : dumpFitConfig { s0 with background := some c } =
          dumpFitConfig { s with background := some c } := by
        unfold dumpFitConfig
        rw [hs0]
        cases s.fitConfig <;> rfl
      rw [this]
    unfold dump
    rw [hb0, hb]
    dsimp only
    rw [hg b]
    simp only [H5.opened, Bool.false_eq_true, if_false, Option.isSome_none]
    cases specGroup { s with background := some b } b <;> exact ⟨rfl, rfl⟩
  obtain ⟨herr, t, ht, h1, h2, h3, h4, h5, h6, h7, h8, h9, -, h11⟩ :=
    c59_round_trip_partial ft path file s0 false false b hst hb0 (by simp)
  rw [hd.1] at herr
  rw [hd.2] at ht
  refine ⟨herr, t, ht, h1, h3, h4, h5, h9, ⟨by rw [h3], by rw [h3], h2, h6, h7, h8, ?_⟩⟩
  rw [h1]
  exact h11

/-- A fit configuration that agrees with one of rates is one of rates. -/
theorem RateConfig.of_same {n : PyStr} {c c' : SpectraFitConfig} (h : RateConfig n c)
    (hs : SameFit (some c) (some c')) : RateConfig n c' := by
  obtain ⟨h1, h2, h3, h4⟩ := hs
  have hnd : c'.config.getPars.Nodup := by
    have : c'.config.getPars = c.config.getPars := h3
    rw [this]; exact h.distinct
  refine ⟨h1.trans h.spectrum, ?_, hnd, ?_, ?_⟩
  · intro h0
    have h3' : c'.config.pars.map Prod.fst = c.config.pars.map Prod.fst := h3
    rw [h0, List.map_nil] at h3'
    exact h.filled (List.map_eq_nil_iff.1 h3'.symm)
  · intro e he
    have hk : e.1 ∈ c.config.pars.map Prod.fst := by
      rw [← show c'.config.pars.map Prod.fst = c.config.pars.map Prod.fst from h3]
      exact List.mem_map_of_mem he
    obtain ⟨e0, he0, hee⟩ := List.mem_map.1 hk
    obtain ⟨a1, a2, a3⟩ := h.names e0 he0
    have hg : c.config.getPar e.1 = .ok e0.2 := by
      unfold Config.getPar
      rw [← hee, (assoc_eq_some_iff h.distinct).2 he0]
    have hg' : c'.config.getPar e.1 = .ok e.2 := by
      unfold Config.getPar
      rw [(assoc_eq_some_iff hnd).2 he]
    obtain ⟨p', hp', hset, -⟩ := h4 e.1 e0.2 hg
    rw [hg'] at hp'
    injection hp' with hp'
    subst hp'
    refine ⟨by rw [← hset.name, a1, hee], by rw [← hset.dimension, a2], ?_⟩
    unfold Built at a3 ⊢
    rw [← hset.logscale, ← hset.base, ← hset.logDev]
    exact a3
  · intro e he
    have hk : e.1 ∈ c.config.pars.map Prod.fst := by
      rw [← show c'.config.pars.map Prod.fst = c.config.pars.map Prod.fst from h3]
      exact List.mem_map_of_mem he
    obtain ⟨e0, he0, hee⟩ := List.mem_map.1 hk
    rw [← hee]
    exact h.rates e0 he0

theorem Savable.of_same {s t : FullSpec} {b : PyStr} (h : Savable s) (hc : t.config = s.config)
    (hd : t.data = s.data) (hl : SameLabels b s t) : Savable t := by
  refine ⟨⟨?_, ?_, ?_, ?_⟩, ?_, ?_⟩
  · rw [hc]; exact h.axes.axes
  · rw [hc]; exact h.axes.distinct
  · rw [hc]; exact h.axes.names
  · rw [hc, hd]; exact h.axes.dimension
  · intro fc hfc
    have hf := hl.fit
    cases hs : s.fitConfig with
    | none => rw [hs, hfc] at hf; exact hf.elim
    | some fc0 =>
      have h0 := h.fit fc0 hs
      rw [hs, hfc] at hf
      have := RateConfig.of_same (n := t.name) (c := { fc0 with spectraName := t.name })
        ⟨rfl, h0.filled, h0.distinct, h0.names, h0.rates⟩ hf
      exact ⟨rfl, this.filled, this.distinct, this.names, this.rates⟩
  · rw [hl.style]; exact h.style

/-- Saving on a disk. -/
theorem dumpAt_saved (ft : FloatText) (disk : Disk) (path : PyStr) (s : FullSpec) (b : PyStr)
    (h : Savable s) (hb : s.getBackgroundName = .ok b) :
    ∃ disk' t, dumpAt disk path s = .done disk' ∧ OnlyAt path disk disk' ∧
      Holds ft disk' path t ∧ t.name = s.name ∧ t.config = s.config ∧
      t.numDecays = s.numDecays ∧ t.rawEvents = s.rawEvents ∧ t.data = s.data ∧
      SameLabels b s t := by
  obtain ⟨herr, t, ht, hr⟩ := save_load ft path (disk path) s b h hb
  refine ⟨disk.write path (dump (disk path) s).file, t, ?_, ?_, ?_, hr⟩
  · unfold dumpAt
    dsimp only
    rw [herr]
  · intro p hp
    unfold Disk.write
    rw [if_neg hp]
  · exact ⟨_, by unfold Disk.write; rw [if_pos rfl], ht⟩

theorem loadAt_holds {ft : FloatText} {disk : Disk} {path : PyStr} {s : FullSpec}
    (h : Holds ft disk path s) : loadAt ft disk path = .ok s := by
  obtain ⟨f, hf, hl⟩ := h
  unfold loadAt
  rw [hf]
  dsimp only
  rw [hl]

/-! ### the attributes changed by methods -/

theorem withCore_keys {s : FullSpec} {c : Spectrum} (hl : c.cfg.length = s.config.pars.length) :
    (s.withCore c).config.getPars = s.config.getPars := by
  unfold FullSpec.withCore Config.getPars
  dsimp only
  rw [List.map_zipWith]
  generalize s.config.pars = ps at hl ⊢
  generalize c.cfg = cs at hl ⊢
  clear * - hl
  induction ps generalizing cs with
  | nil => simp
  | cons e ps ih =>
    cases cs with
    | nil => simp at hl
    | cons p cs => simp [ih cs (by simpa using hl)]

theorem withCore_cfg {s : FullSpec} {c : Spectrum} (hl : c.cfg.length = s.config.pars.length) :
    (s.withCore c).config.pars.map Prod.snd = c.cfg := by
  unfold FullSpec.withCore
  dsimp only
  rw [List.map_zipWith]
  generalize s.config.pars = ps at hl ⊢
  generalize c.cfg = cs at hl ⊢
  clear * - hl
  induction ps generalizing cs with
  | nil =>
    cases cs with
    | nil => rfl
    | cons p cs => simp at hl
  | cons e ps ih =>
    cases cs with
    | nil => simp at hl
    | cons p cs => simp [ih cs (by simpa using hl)]

theorem savable_withCore {s : FullSpec} (h : Savable s) {c : Spectrum}
    (hn : c.cfg.map SPar.name = s.core.cfg.map SPar.name)
    (hd : c.data.shape.length = s.data.shape.length) : Savable (s.withCore c) := by
  have hl : c.cfg.length = s.config.pars.length := by
    have := congrArg List.length hn
    simpa [FullSpec.core] using this
  have hk := withCore_keys hl
  refine ⟨⟨?_, ?_, ?_, ?_⟩, h.fit, h.style⟩
  · intro h0
    have := congrArg List.length hk
    unfold Config.getPars at this
    rw [h0] at this
    have h1 := h.axes.axes
    simp at this
    exact h1 (List.length_eq_zero_iff.1 this.symm)
  · rw [hk]; exact h.axes.distinct
  · intro e he
    have hnames := h.axes.names
    simp only [FullSpec.core, List.map_map] at hn
    unfold FullSpec.withCore at he
    dsimp only at he
    generalize s.config.pars = ps at hl hn hnames he
    generalize c.cfg = cs at hl hn he
    clear * - hn hl hnames he
    induction ps generalizing cs with
    | nil => simp at he
    | cons a ps ih =>
      cases cs with
      | nil => simp at hl
      | cons p cs =>
        simp only [List.map_cons, List.cons.injEq] at hn
        simp only [List.zipWith_cons_cons, List.mem_cons] at he
        rcases he with rfl | he
        · exact hn.1.trans (hnames a (by simp))
        · exact ih (fun e he => hnames e (List.mem_cons_of_mem _ he)) cs (by simpa using hl) hn.2 he
  · have := congrArg List.length hk
    unfold Config.getPars at this
    rw [List.length_map, List.length_map] at this
    rw [this, ← h.axes.dimension]
    exact hd

/-- Saving the spectrum after a method. -/
theorem dumpAt_core (ft : FloatText) (disk : Disk) (path : PyStr) (s : FullSpec) (c : Spectrum)
    (b : PyStr) (h : Savable s) (hn : c.cfg.map SPar.name = s.core.cfg.map SPar.name)
    (hd : c.data.shape.length = s.data.shape.length)
    (hb : (s.withCore c).getBackgroundName = .ok b) :
    ∃ disk' t, dumpAt disk path (s.withCore c) = .done disk' ∧ OnlyAt path disk disk' ∧
      Holds ft disk' path t ∧ t.core = c.noRois ∧ SameLabels b s t ∧ Savable t := by
  have hl : c.cfg.length = s.config.pars.length := by
    have := congrArg List.length hn
    simpa [FullSpec.core] using this
  obtain ⟨disk', t, h1, h2, h3, h4, h5, h6, h7, h8, h9⟩ :=
    dumpAt_saved ft disk path _ b (savable_withCore h hn hd) hb
  refine ⟨disk', t, h1, h2, h3, ?_, ⟨h9.config, ?_, h9.background, h9.bipo, h9.style, h9.rois,
    h9.fit⟩, (savable_withCore h hn hd).of_same h5 h8 h9⟩
  · unfold FullSpec.core Spectrum.noRois
    rw [h4, h5, h6, h7, h8, withCore_cfg hl]
    rfl
  · rw [h9.pars, withCore_keys hl]

/-- A script that has changed the input saves it. -/
theorem Input.saved {ft : FloatText} {disk : Disk} {input : PyStr} {s : FullSpec} {b : PyStr}
    (h : Input ft disk input s b) (path : PyStr) (c : Spectrum)
    (hn : c.cfg.map SPar.name = s.core.cfg.map SPar.name)
    (hd : c.data.shape.length = s.data.shape.length) :
    ∃ disk' t, dumpAt disk path (s.withCore c) = .done disk' ∧ OnlyAt path disk disk' ∧
      Holds ft disk' path t ∧ t.core = c.noRois ∧ SameLabels b s t ∧
      (c.WF → Input ft disk' path t b) := by
  obtain ⟨disk', t, h1, h2, h3, h4, h5, h6⟩ :=
    dumpAt_core ft disk path s c b h.savable hn hd (by
      obtain ⟨x, b, rfl⟩ := List.exists_cons_of_ne_nil h.named
      have : (s.withCore c).background = some (x :: b) := h.background
      simp only [FullSpec.getBackgroundName, this])
  refine ⟨disk', t, h1, h2, h3, h4, h5, fun hw => ⟨h3, h6, ?_, h5.background, h.named⟩⟩
  rw [h4]
  exact ⟨hw.axes, hw.names, hw.shape⟩

/-- The background of a spectrum that has one is kept. -/
theorem background_kept {s : FullSpec} {b : PyStr} (hb : s.background = some b) (hne : b ≠ [])
    (c : Spectrum) : (s.withCore c).getBackgroundName = .ok b := by
  obtain ⟨x, b, rfl⟩ := List.exists_cons_of_ne_nil hne
  have : (s.withCore c).background = some (x :: b) := hb
  simp only [FullSpec.getBackgroundName, this]

end Verif
