import Verif.Spec.Store
import Verif.Lemmas.Store
import Verif.Props.Config
import Verif.Props.FitConfig

/-! # C59 and C60: saving and loading spectra -/

namespace Verif

/-! ## C60: dictionaries as strings -/

/-- **C60, round trip.** A dictionary with keys without separators and values the format can
hold comes back from its string with the same keys, values and order. Missing: the
empty dictionary and strings with separators, see the negations below. -/
theorem c60_round_trip_partial (ft : FloatText) (d : Dict PyVal) (hne : d ≠ [])
    (hnd : (d.map Prod.fst).Nodup) (hk : ∀ e ∈ d, Clean e.1) (hv : ∀ e ∈ d, Plain ft e.2) :
    ∃ s, dictToString ft d = .ok s ∧ stringToDict ft s = .ok d := by
  refine ⟨_, dictToString_eq ft (fun e => valText ft e.2) d
    (fun e he => encode_plain (plain_ne_other (hv e he))), ?_⟩
  unfold stringToDict
  rw [pySplit_intercalate (by simpa using hne), List.foldlM_map]
  · rw [foldlM_dictSet_fresh Prod.fst Prod.snd]
    · simp
    · intro acc e he
      obtain ⟨h1, h2, h3⟩ := plain_clean (hv e he)
      exact decodeEntry_text ft acc e.1 _ _ (hk e he) h1 h2 e.2 h3
    · exact hnd
    · simp
  · intro x hx
    obtain ⟨e, he, rfl⟩ := List.mem_map.1 hx
    obtain ⟨h1, h2, h3⟩ := plain_clean (hv e he)
    simp [entryText, (hk e he).1, h1.1, h2.1]

/-- Floats written with one digit after the point, for the examples. -/
def Ex.ft : FloatText :=
  ⟨fun x => intStr ⌊x * 10⌋, fun s => (readInt s).map (fun i : ℤ => (i : ℚ) / 10)⟩

/-- A style with all kinds of values. -/
def Ex.style : Dict PyVal :=
  [(lit "color", .str (lit "blue")), (lit "linewidth", .int (-12)), (lit "alpha", .float (1 / 2))]

example : Ex.style ≠ [] ∧ (Ex.style.map Prod.fst).Nodup ∧ (∀ e ∈ Ex.style, Clean e.1) ∧
    ∀ e ∈ Ex.style, Plain Ex.ft e.2 := by
  have h : ⌊(1 / 2 : ℚ) * 10⌋ = 5 := by decide +kernel
  refine ⟨by simp [Ex.style], by decide, by simp [Ex.style, Clean], ?_⟩
  intro e he
  simp only [Ex.style, List.mem_cons, List.not_mem_nil, or_false] at he
  rcases he with rfl | rfl | rfl
  · simp [Plain, Clean]
  · trivial
  · refine ⟨clean_intStr _, ?_⟩
    simp only [Ex.ft, h, readInt_intStr]
    norm_num

/-- **C60, other types.** A dictionary is refused with a `TypeError` exactly when it holds a
value that is neither a string nor an integer nor a float. -/
theorem c60_unsupported (ft : FloatText) (d : Dict PyVal) :
    (dictToString ft d = .error .typeError ↔ ∃ e ∈ d, e.2 = .other) ∧
    ((∃ s, dictToString ft d = .ok s) ↔ ∀ e ∈ d, e.2 ≠ .other) := by
  have hok : (∀ e ∈ d, e.2 ≠ .other) → ∃ s, dictToString ft d = .ok s := fun h =>
    ⟨_, dictToString_eq ft (fun e => valText ft e.2) d (fun e he => encode_plain (h e he))⟩
  have hbad : ∀ (d : Dict PyVal) (out : PyStr), (∃ e ∈ d, e.2 = PyVal.other) →
      d.foldlM (encodeEntry ft) out = .error .typeError := by
    intro d
    induction d with
    | nil => simp
    | cons e d ih =>
      intro out h
      rw [List.foldlM_cons]
      by_cases he : e.2 = .other
      · simp [encodeEntry, he, PyVal.encode, bind, Except.bind]
      · have hd : ∃ e ∈ d, e.2 = PyVal.other := by
          obtain ⟨x, hx, hxo⟩ := h
          rcases List.mem_cons.1 hx with rfl | hx
          · exact absurd hxo he
          · exact ⟨x, hx, hxo⟩
        unfold encodeEntry
        rw [encode_plain he]
        exact ih _ hd
  have hbad' : (∃ e ∈ d, e.2 = PyVal.other) → dictToString ft d = .error .typeError := by
    intro h
    unfold dictToString
    rw [hbad d [] h]
  by_cases h : ∃ e ∈ d, e.2 = PyVal.other
  · refine ⟨⟨fun _ => h, hbad'⟩, ?_, ?_⟩
    · rintro ⟨s, hs⟩
      rw [hbad' h] at hs
      cases hs
    · intro h'
      obtain ⟨e, he, heo⟩ := h
      exact absurd heo (h' e he)
  · have h' : ∀ e ∈ d, e.2 ≠ .other := fun e he heo => h ⟨e, he, heo⟩
    obtain ⟨s, hs⟩ := hok h'
    refine ⟨⟨fun h2 => ?_, fun h2 => absurd h2 h⟩, fun _ => h', hok⟩
    rw [hs] at h2
    cases h2

/-- **C60 fails for the empty dictionary**: its string is empty and cannot be decoded. -/
theorem c60_empty_negation (ft : FloatText) :
    dictToString ft [] = .ok [] ∧ stringToDict ft [] = .error .indexError := by
  constructor <;> rfl

/-- **C60 fails for strings with a colon**: everything from the first colon on is lost. -/
theorem c60_colon_negation (ft : FloatText) (key a b : PyStr) (hk : Clean key) (ha : Clean a)
    (hb : ',' ∉ b ∧ ';' ∉ b) :
    ∃ s, dictToString ft [(key, .str (a ++ ':' :: b))] = .ok s ∧
      stringToDict ft s = .ok [(key, .str a)] := by
  refine ⟨entryText key (a ++ ':' :: b, lit "str"), ?_, ?_⟩
  · rw [dictToString_eq ft (fun e => valText ft e.2) _
      (fun e he => encode_plain (by
        rw [List.mem_singleton] at he
        rw [he]
        exact fun h => by cases h))]
    simp [valText]
  · have hc : ',' ∉ entryText key (a ++ ':' :: b, lit "str") := by
      simp [entryText, hk.1, ha.1, hb.1]
    unfold stringToDict
    rw [pySplit_of_not_mem hc]
    have h1 : pySplit ':' (entryText key (a ++ ':' :: b, lit "str")) =
        key :: a :: pySplit ':' (b ++ ';' :: lit "str") := by
      have : entryText key (a ++ ':' :: b, lit "str") =
          key ++ ':' :: (a ++ ':' :: (b ++ ';' :: lit "str")) := by simp [entryText]
      rw [this, pySplit_append, pySplit_append, pySplit_of_not_mem hk.2.1,
        pySplit_of_not_mem ha.2.1]
      rfl
    have h2 : pySplit ';' (entryText key (a ++ ':' :: b, lit "str")) =
        [key ++ ':' :: (a ++ ':' :: b), lit "str"] := by
      have : entryText key (a ++ ':' :: b, lit "str") =
          (key ++ ':' :: (a ++ ':' :: b)) ++ ';' :: lit "str" := by simp [entryText]
      rw [this, pySplit_append, pySplit_of_not_mem, pySplit_of_not_mem (by decide)]
      · rfl
      · simp [hk.2.2, ha.2.2, hb.2]
    simp only [List.foldlM_cons, List.foldlM_nil, decodeEntry, h1, h2, List.getElem?_cons_succ,
      List.getElem?_cons_zero, pySplit_of_not_mem ha.2.2, List.headD_cons]
    rfl

example : Clean (lit "label") ∧ Clean (lit "Te130") ∧ ',' ∉ lit " 2n" ∧ ';' ∉ lit " 2n" := by
  unfold Clean; decide

/-- **C60 fails for strings with a comma**: decoding raises an `IndexError`. -/
theorem c60_comma_negation (ft : FloatText) (key a b : PyStr) (hk : Clean key) (ha : Clean a) :
    ∃ s, dictToString ft [(key, .str (a ++ ',' :: b))] = .ok s ∧
      stringToDict ft s = .error .indexError := by
  refine ⟨entryText key (a ++ ',' :: b, lit "str"), ?_, ?_⟩
  · rw [dictToString_eq ft (fun e => valText ft e.2) _
      (fun e he => encode_plain (by
        rw [List.mem_singleton] at he
        rw [he]
        exact fun h => by cases h))]
    simp [valText]
  · unfold stringToDict
    have h1 : pySplit ',' (entryText key (a ++ ',' :: b, lit "str")) =
        (key ++ ':' :: a) :: pySplit ',' (b ++ ';' :: lit "str") := by
      have : entryText key (a ++ ',' :: b, lit "str") =
          (key ++ ':' :: a) ++ ',' :: (b ++ ';' :: lit "str") := by simp [entryText]
      rw [this, pySplit_append, pySplit_of_not_mem]
      · rfl
      · simp [hk.1, ha.1]
    have h2 : pySplit ';' (key ++ ':' :: a) = [key ++ ':' :: a] :=
      pySplit_of_not_mem (by simp [hk.2.2, ha.2.2])
    rw [h1, List.foldlM_cons]
    unfold decodeEntry
    rw [h2]
    simp only [List.getElem?_cons_succ, List.getElem?_nil]
    cases (pySplit ':' (key ++ ':' :: a))[1]? <;> rfl

/-- **C60 fails for strings with a semicolon**: the part after it is taken for the type. A
string can come back as a number, or raise a `TypeError`. -/
theorem c60_semicolon_negation (ft : FloatText) :
    (∃ s, dictToString ft [(lit "k", .str (lit "5;int"))] = .ok s ∧
      stringToDict ft s = .ok [(lit "k", .int 5)]) ∧
    (∃ s, dictToString ft [(lit "k", .str (lit "a;b"))] = .ok s ∧
      stringToDict ft s = .error .typeError) := by
  refine ⟨⟨lit "k:5;int;str", rfl, ?_⟩, ⟨lit "k:a;b;str", rfl, ?_⟩⟩
  · have : readInt (lit "5") = some 5 := by decide +kernel
    unfold stringToDict
    have h1 : pySplit ',' (lit "k:5;int;str") = [lit "k:5;int;str"] := by decide +kernel
    have h2 : pySplit ':' (lit "k:5;int;str") = [lit "k", lit "5;int;str"] := by decide +kernel
    have h3 : pySplit ';' (lit "k:5;int;str") = [lit "k:5", lit "int", lit "str"] := by
      decide +kernel
    have h4 : pySplit ';' (lit "5;int;str") = [lit "5", lit "int", lit "str"] := by
      decide +kernel
    simp [h1, decodeEntry, h2, h3, h4, decodeVal, this, dictSet, bind, Except.bind, pure,
      Except.pure]
  · unfold stringToDict
    have h1 : pySplit ',' (lit "k:a;b;str") = [lit "k:a;b;str"] := by decide +kernel
    have h2 : pySplit ':' (lit "k:a;b;str") = [lit "k", lit "a;b;str"] := by decide +kernel
    have h3 : pySplit ';' (lit "k:a;b;str") = [lit "k:a", lit "b", lit "str"] := by
      decide +kernel
    simp [h1, decodeEntry, h2, h3, decodeVal, bind, Except.bind]

/-- **C60 fails for floats with the same text** (python 2 writes twelve digits): two
different floats with one text do not both come back. -/
theorem c60_float_negation (ft : FloatText) (x y : ℚ) (hxy : x ≠ y) (h : ft.show x = ft.show y)
    (key : PyStr) :
    ¬ ((∃ s, dictToString ft [(key, .float x)] = .ok s ∧
          stringToDict ft s = .ok [(key, .float x)]) ∧
       (∃ s, dictToString ft [(key, .float y)] = .ok s ∧
          stringToDict ft s = .ok [(key, .float y)])) := by
  rintro ⟨⟨s, hs, hsx⟩, ⟨t, ht, hty⟩⟩
  have : dictToString ft [(key, .float x)] = dictToString ft [(key, .float y)] := by
    unfold dictToString
    simp only [List.foldlM_cons, List.foldlM_nil, encodeEntry, PyVal.encode, h]
  rw [this, ht] at hs
  cases hs
  rw [hty] at hsx
  have h2 := Except.ok.inj hsx
  simp only [List.cons.injEq, Prod.mk.injEq, PyVal.float.injEq, and_true, true_and] at h2
  exact hxy h2.symm

example : (1 / 3 : ℚ) ≠ 3333 / 10000 ∧ Ex.ft.show (1 / 3) = Ex.ft.show (3333 / 10000) := by
  refine ⟨by norm_num, ?_⟩
  have h1 : ⌊(1 / 3 : ℚ) * 10⌋ = 3 := by decide +kernel
  have h2 : ⌊(3333 / 10000 : ℚ) * 10⌋ = 3 := by decide +kernel
  simp only [Ex.ft, h1, h2]

/-! ## C59: spectra -/

theorem load_dumped (ft : FloatText) (path : PyStr) (s : FullSpec) (b : PyStr)
    (hne : s.config.pars ≠ []) (hnd : s.config.getPars.Nodup)
    (hname : ∀ e ∈ s.config.pars, e.2.name = e.1)
    (hdim : s.data.shape.length = s.config.pars.length)
    (fcd : Option (PyStr × Dict (Dict ParDict)))
    (hfc : dumpFitConfig s = .ok fcd) :
    ∃ g, specGroup s b = .ok g ∧ g.fitConfig = fcd ∧ g.name = s.name ∧
      ∀ f : H5, f.spectrum = some (some g) → ∀ fc, loadFitConfig g = fc →
        load ft path f = fc.map (fun fc => { s with
          background := some b, fitConfig := fc, location := some path
          style := if s.style.isEmpty then defaultStyle else s.style }) := by
  obtain ⟨d, hd, hl⟩ := c54_round_trip s.config s.config.name hne hnd hname
  have hshape : s.data.shape ≠ [] := by
    intro h
    rw [h] at hdim
    exact hne (List.length_eq_zero_iff.1 hdim.symm)
  refine ⟨{ name := s.name, background := some b, configName := s.config.name, config := d
            fitConfig := fcd, numDecays := s.numDecays, rawEvents := s.rawEvents
            bipo := some s.bipo, style := if s.style.isEmpty then none else some s.style
            rois := if s.rois.isEmpty then none else some s.rois, data := s.data },
    ?_, rfl, rfl, ?_⟩
  · unfold specGroup
    simp only [hd, hfc, bind, Except.bind, if_neg hshape]
  · intro f hf fc hfc'
    unfold load
    rw [hf]
    simp only [hl, bind, Except.bind, hfc']
    cases fc with
    | error e => rfl
    | ok fc =>
      simp only [FullSpec.new, Except.map]
      congr 2
      · cases s.style.isEmpty <;> rfl
      · cases h : s.rois.isEmpty
        · rfl
        · rw [List.isEmpty_iff] at h
          rw [h]
          rfl

theorem dump_written (file : Option H5) (s : FullSpec) (append overwrite : Bool) (b : PyStr)
    (hb : s.getBackgroundName = .ok b)
    (hfile : append = true → overwrite = false → ∀ f, file = some f → f.spectrum = none)
    (g : SpecGroup) (hg : specGroup { s with background := some b } b = .ok g) :
    (dump file s append overwrite).err = none ∧
    (dump file s append overwrite).file =
      { H5.opened file append with spectrum := some (some g) } := by
  have hno : (if overwrite then { H5.opened file append with spectrum := none }
      else H5.opened file append).spectrum.isSome = false := by
    cases overwrite with
    | true => rfl
    | false =>
      cases append with
      | false => rfl
      | true =>
        cases file with
        | none => rfl
        | some f => simp [H5.opened, hfile rfl rfl f rfl]
  unfold dump
  simp only [hno, hb, hg]
  cases overwrite <;> exact ⟨rfl, rfl⟩

/-- **C59, round trip.** A spectrum with a background name (given or derived), a spectral
configuration, a style, and no fit configuration or one of rate parameters for this
spectrum, comes back with everything it had. `file` is what was in the place of
the file; any group `spectrum` in it must be replaced. Missing: the cases of the
negations below, and the penalty terms of the fit parameters (C55). -/
theorem c59_round_trip_partial (ft : FloatText) (path : PyStr) (file : Option H5) (s : FullSpec)
    (append overwrite : Bool) (b : PyStr) (h : Storable s) (hb : s.getBackgroundName = .ok b)
    (hfile : append = true → overwrite = false → ∀ f, file = some f → f.spectrum = none) :
    (dump file s append overwrite).err = none ∧
    ∃ s', load ft path (dump file s append overwrite).file = .ok s' ∧
      s'.name = s.name ∧ s'.background = some b ∧ s'.config = s.config ∧
      s'.numDecays = s.numDecays ∧ s'.rawEvents = s.rawEvents ∧ s'.bipo = s.bipo ∧
      s'.style = s.style ∧ s'.rois = s.rois ∧ s'.data = s.data ∧ s'.location = some path ∧
      SameFit s.fitConfig s'.fitConfig := by
  set s1 := { s with background := some b } with hs1
  have hfits : ∃ fcd, dumpFitConfig s1 = .ok fcd ∧ ∀ g : SpecGroup, g.fitConfig = fcd →
      g.name = s.name → ∃ fc', loadFitConfig g = .ok fc' ∧ SameFit s.fitConfig fc' := by
    cases hfc : s.fitConfig with
    | none =>
      refine ⟨none, ?_, fun g hg _ => ⟨none, ?_, trivial⟩⟩
      · simp only [dumpFitConfig, hs1, hfc]
      · simp only [loadFitConfig, hg]
    | some fc =>
      obtain ⟨h1, h2, h3, h4, h5⟩ := h.fit fc hfc
      obtain ⟨d, c', hd, hl, e1, e2, e3, e4⟩ :=
        c55_spectral_round_trip_partial fc false s.name fc.config.name h2 h3 h4 h5
      refine ⟨some (fc.config.name, d), ?_, fun g hg hn => ⟨some c', ?_, ?_⟩⟩
      · simp only [dumpFitConfig, hs1, hfc, hd, Except.map]
      · simp only [loadFitConfig, hg, hn, hl]
      · refine ⟨e1.trans h1.symm, e2, e3, fun n p hp => ?_⟩
        obtain ⟨p', hp', hset, hcur⟩ := e4 n p hp
        exact ⟨p', hp', hset, hcur rfl⟩
  obtain ⟨fcd, hfcd, hfcl⟩ := hfits
  obtain ⟨g, hg, hgf, hgn, hload⟩ := load_dumped ft path s1 b h.axes.axes h.axes.distinct
    h.axes.names h.axes.dimension fcd hfcd
  obtain ⟨fc', hfc', hsame⟩ := hfcl g hgf hgn
  obtain ⟨herr, hfl⟩ := dump_written file s append overwrite b hb hfile g hg
  refine ⟨herr, _, hload _ (by rw [hfl]) _ hfc', rfl, rfl, rfl, rfl, rfl, rfl, ?_, rfl, rfl, rfl,
    hsame⟩
  show (if s.style.isEmpty = true then defaultStyle else s.style) = s.style
  rw [h.style]
  rfl

/-- A spectrum with two axes, a rate, a region of interest and a derived background name. -/
noncomputable def Ex.saved : FullSpec :=
  { name := lit "Te130_2n2b_mc_smeared", background := none
    config := ⟨lit "config", [(lit "energy_mc", ⟨lit "energy_mc", 0, 10, 10⟩),
      (lit "radial_mc", ⟨lit "radial_mc", 0, 6000, 3⟩)]⟩
    fitConfig := some ⟨⟨lit "fit", [(lit "rate", exPar (lit "rate") none)]⟩,
      lit "Te130_2n2b_mc_smeared"⟩
    numDecays := 100, rawEvents := 90, bipo := 1, style := .dict Ex.style
    rois := [(lit "energy_mc", .roi ⟨2, 3, 1 / 2⟩)], data := .zeros [10, 3], location := none }

theorem Ex.saved_storable : Storable Ex.saved := by
  refine ⟨⟨by simp [Ex.saved], by decide, ?_, rfl⟩, ?_, rfl⟩
  · intro e he
    simp only [Ex.saved, List.mem_cons, List.not_mem_nil, or_false] at he
    rcases he with rfl | rfl <;> rfl
  · intro fc hfc
    cases hfc
    refine ⟨rfl, by simp, by simp [Config.getPars], ?_, ?_⟩
    · intro e he
      rw [List.mem_singleton] at he
      subst he
      exact ⟨rfl, rfl, exPar_built _ _⟩
    · intro e he
      rw [List.mem_singleton] at he
      subst he
      exact List.infix_rfl

theorem Ex.saved_background : Ex.saved.getBackgroundName = .ok (lit "Te130_2n2b") := by
  have h1 : pyContains (lit "mc") (lit "Te130_2n2b_mc_smeared") = true := by decide +kernel
  have h2 : dropRight (FullSpec.before (lit "mc") (lit "Te130_2n2b_mc_smeared")) 1 =
      lit "Te130_2n2b" := by decide +kernel
  simp only [FullSpec.getBackgroundName, Ex.saved, h1, if_true, h2]

example : Storable Ex.saved ∧ Ex.saved.getBackgroundName = .ok (lit "Te130_2n2b") :=
  ⟨Ex.saved_storable, Ex.saved_background⟩

/-- **C59 fails for an empty style**: the spectrum comes back with the default style. -/
theorem c59_empty_style_negation (ft : FloatText) (path : PyStr) (s : FullSpec) (b : PyStr)
    (h : AxesOk s) (hfit : s.fitConfig = none) (hb : s.getBackgroundName = .ok b)
    (hstyle : s.style.isEmpty = true) :
    (dump none s).err = none ∧ ∃ s', load ft path (dump none s).file = .ok s' ∧
      s'.style = .dict [(lit "color", .str (lit "blue"))] ∧ s'.style ≠ s.style := by
  obtain ⟨g, hg, hgf, hgn, hload⟩ := load_dumped ft path { s with background := some b } b h.axes
    h.distinct h.names h.dimension none (by simp only [dumpFitConfig, hfit])
  obtain ⟨herr, hfl⟩ := dump_written none s false false b hb (by simp) g hg
  refine ⟨herr, _, hload _ (by rw [hfl]) (.ok none) (by simp only [loadFitConfig, hgf]), ?_, ?_⟩
  · show (if s.style.isEmpty = true then defaultStyle else s.style) = _
    rw [hstyle]
    rfl
  · show (if s.style.isEmpty = true then defaultStyle else s.style) ≠ s.style
    rw [hstyle]
    intro h'
    simp only [if_true] at h'
    rw [← h'] at hstyle
    cases hstyle

example : AxesOk { Ex.saved with fitConfig := none, style := .text [] } ∧
    (Style.text []).isEmpty = true :=
  ⟨⟨Ex.saved_storable.axes.axes, Ex.saved_storable.axes.distinct, Ex.saved_storable.axes.names,
    Ex.saved_storable.axes.dimension⟩, rfl⟩

/-- **C59 fails for a fit configuration without parameters**: it is saved, but the spectrum
comes back without a fit configuration. -/
theorem c59_empty_fit_negation (ft : FloatText) (path : PyStr) (s : FullSpec) (b : PyStr)
    (h : AxesOk s) (n sn : PyStr) (hfit : s.fitConfig = some ⟨⟨n, []⟩, sn⟩)
    (hb : s.getBackgroundName = .ok b) :
    (dump none s).err = none ∧ ∃ s', load ft path (dump none s).file = .ok s' ∧
      s'.fitConfig = none := by
  obtain ⟨g, hg, hgf, hgn, hload⟩ := load_dumped ft path { s with background := some b } b h.axes
    h.distinct h.names h.dimension (some (n, [(lit "spectral_fit_parameters", [])]))
    (by simp only [dumpFitConfig, hfit]; rfl)
  obtain ⟨herr, hfl⟩ := dump_written none s false false b hb (by simp) g hg
  refine ⟨herr, _, hload _ (by rw [hfl]) (.ok none) ?_, rfl⟩
  simp only [loadFitConfig, hgf]
  rfl

example : AxesOk { Ex.saved with fitConfig := some ⟨⟨lit "fit", []⟩, lit "x"⟩ } ∧
    { Ex.saved with fitConfig := some ⟨⟨lit "fit", []⟩, lit "x"⟩ }.getBackgroundName =
      .ok (lit "Te130_2n2b") :=
  ⟨⟨Ex.saved_storable.axes.axes, Ex.saved_storable.axes.distinct, Ex.saved_storable.axes.names,
    Ex.saved_storable.axes.dimension⟩, Ex.saved_background⟩

/-- **C59 fails for the spectrum a fit configuration belongs to**: after loading it is always
the spectrum it was saved with. -/
theorem c59_other_spectrum_negation (ft : FloatText) (path : PyStr) (s : FullSpec) (b : PyStr)
    (h : AxesOk s) (fc : SpectraFitConfig) (hfit : s.fitConfig = some fc)
    (hfc : RateConfig fc.spectraName fc) (hb : s.getBackgroundName = .ok b) :
    ∃ s' fc', load ft path (dump none s).file = .ok s' ∧ s'.fitConfig = some fc' ∧
      fc'.spectraName = s.name := by
  obtain ⟨d, c', hd, hl, e1, -⟩ := c55_spectral_round_trip_partial fc false s.name fc.config.name
    hfc.filled hfc.distinct hfc.names hfc.rates
  obtain ⟨g, hg, hgf, hgn, hload⟩ := load_dumped ft path { s with background := some b } b h.axes
    h.distinct h.names h.dimension (some (fc.config.name, d))
    (by simp only [dumpFitConfig, hfit, hd]; rfl)
  obtain ⟨herr, hfl⟩ := dump_written none s false false b hb (by simp) g hg
  refine ⟨_, c', hload _ (by rw [hfl]) (.ok (some c')) ?_, rfl, e1⟩
  have hgn' : g.name = s.name := hgn
  simp only [loadFitConfig, hgf, hgn', hl]

example : ∃ fc, RateConfig fc.spectraName fc ∧ fc.spectraName ≠ lit "other" := by
  have h := Ex.saved_storable.fit _ rfl
  exact ⟨_, ⟨rfl, h.filled, h.distinct, h.names, h.rates⟩, by decide⟩

/-- **C59 fails for a first fit parameter that is not a rate**: the spectrum is saved
without complaint and can never be loaded. -/
theorem c59_not_rate_negation (ft : FloatText) (path : PyStr) (s : FullSpec) (b : PyStr)
    (h : AxesOk s) (fc : SpectraFitConfig) (hfit : s.fitConfig = some fc)
    (hnd : fc.config.getPars.Nodup) (k : PyStr) (p : FitPar) (rest : Dict FitPar)
    (hp : fc.config.pars = (k, p) :: rest) (hk : ¬ lit "rate" <:+: k)
    (hb : s.getBackgroundName = .ok b) :
    (dump none s).err = none ∧ load ft path (dump none s).file = .error .indexError := by
  have hdump : SpectraFitConfig.dump fc = .ok [(lit "spectral_fit_parameters",
      fc.config.pars.map (fun e => (e.1, e.2.toDict false)))] := by
    unfold SpectraFitConfig.dump
    rw [foldlM_getPar hnd]
    rfl
  obtain ⟨g, hg, hgf, hgn, hload⟩ := load_dumped ft path { s with background := some b } b h.axes
    h.distinct h.names h.dimension (some (fc.config.name, [(lit "spectral_fit_parameters",
      fc.config.pars.map (fun e => (e.1, e.2.toDict false)))]))
    (by simp only [dumpFitConfig, hfit, hdump]; rfl)
  obtain ⟨herr, hfl⟩ := dump_written none s false false b hb (by simp) g hg
  refine ⟨herr, hload _ (by rw [hfl]) (.error .indexError) ?_⟩
  have hc : pyContains (lit "rate") k = false := by
    rw [pyContains, decide_eq_false_iff_not]; exact hk
  have hl : SpectraFitConfig.load [(lit "spectral_fit_parameters",
      fc.config.pars.map (fun e => (e.1, e.2.toDict false)))] g.name fc.config.name =
      .error .indexError := by
    unfold SpectraFitConfig.load
    rw [assoc_cons, if_pos rfl, hp, List.map_cons]
    dsimp only
    rw [List.foldlM_cons]
    simp [SpectraFitConfig.loadPar, hc, bind, Except.bind]
  simp only [loadFitConfig, hgf, hl]

example : ∃ fc : SpectraFitConfig, fc.config.pars =
    [(lit "shift", exPar (lit "shift") none)] ∧ ¬ lit "rate" <:+: lit "shift" :=
  ⟨⟨⟨[], [(lit "shift", exPar (lit "shift") none)]⟩, []⟩, rfl, by decide⟩

end Verif
