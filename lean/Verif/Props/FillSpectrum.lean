import Verif.Lemmas.FillSpectrum

/-! # C66 (and the file part of C04): filling from files -/

namespace Verif

open Extractor

theorem extractorsOf_keys {args : ExtArgs} {cfg : List SPar} {exts : List (PyStr × Extractor)}
    (h : ExtractorsOf args cfg exts) : exts.map Prod.fst = cfg.map SPar.name := by
  unfold ExtractorsOf at h
  induction h with
  | nil => rfl
  | cons a _ ih => simp [a.1, ih]

theorem extractorsOf_mem {args : ExtArgs} {cfg : List SPar} {exts : List (PyStr × Extractor)}
    (h : ExtractorsOf args cfg exts) {e : PyStr × Extractor} (he : e ∈ exts) :
    (∃ p ∈ cfg, p.name = e.1) ∧ factory e.1 args.fv args.external args.outer = .ok e.2 := by
  unfold ExtractorsOf at h
  induction h with
  | nil => cases he
  | cons a _ ih =>
    rcases List.mem_cons.1 he with rfl | he
    · refine ⟨⟨_, List.mem_cons_self, a.1.symm⟩, ?_⟩
      rw [a.1]; exact a.2
    · obtain ⟨⟨p, hp, h⟩, h'⟩ := ih he
      exact ⟨⟨p, List.mem_cons_of_mem _ hp, h⟩, h'⟩

theorem makeExtractors_eq {args : ExtArgs} {cfg : List SPar} {exts : List (PyStr × Extractor)}
    (h : ExtractorsOf args cfg exts) : makeExtractors args (cfg.map SPar.name) = .ok exts := by
  unfold ExtractorsOf at h
  unfold makeExtractors
  induction h with
  | nil => rfl
  | @cons p e cfg exts a _ ih =>
    rw [List.map_cons, List.mapM_cons, ih]
    simp only [a.2, bind, Except.bind, pure, Except.pure]
    rw [← a.1]

theorem lastPart_documented {d : PyStr} {fv : Option ℝ} {ex : Bool} {o : Option ℝ}
    {e : Extractor} (h : factory d fv ex o = .ok e) :
    (lastPart d = lit "mc" ∨ lastPart d = lit "truth" ↔ d ∈ simulatedDims) ∧
    (lastPart d = lit "reco" ↔ d ∉ simulatedDims) := by
  obtain ⟨-, -, -, hc⟩ := factory_cases h
  rcases hc with ⟨rfl, -⟩ | ⟨rfl, -⟩ | ⟨rfl, -⟩ | ⟨rfl, -⟩ | ⟨rfl, -⟩ | ⟨rfl, -⟩ | ⟨rfl, -⟩ <;>
    decide +kernel

theorem makeRootExtractors_eq {args : ExtArgs} {cfg : List SPar}
    {exts : List (PyStr × Extractor)}
    (h : ExtractorsOf args cfg exts) : makeRootExtractors args (cfg.map SPar.name) = .ok exts := by
  unfold ExtractorsOf at h
  unfold makeRootExtractors
  induction h with
  | nil => rfl
  | @cons p e cfg exts a _ ih =>
    rw [List.map_cons, List.mapM_cons, ih]
    have hl := lastPart_documented a.2
    have : lastPart p.name = lit "mc" ∨ lastPart p.name = lit "truth" ∨
        lastPart p.name = lit "reco" := by
      by_cases hd : p.name ∈ simulatedDims
      · rcases hl.1.2 hd with h | h
        · exact .inl h
        · exact .inr (.inl h)
      · exact .inr (.inr (hl.2.2 hd))
    simp only [this, if_true, a.2, bind, Except.bind, pure, Except.pure]
    rw [← a.1]

theorem map_name_eq {β : Type} {args : ExtArgs} {cfg : List SPar}
    {exts exts' : List (PyStr × Extractor)}
    (h : ExtractorsOf args cfg exts) (hp : exts'.Perm exts) (g : PyStr → Extractor → β)
    (f : Extractor → β) (hf : ∀ e ∈ exts, g e.1 e.2 = f e.2) :
    exts'.map (fun e => (e.2.name, g e.1 e.2)) = exts'.map (fun e => (e.1, f e.2)) := by
  apply List.map_congr_left
  intro e he
  have he' := hp.mem_iff.1 he
  rw [(factory_cases (extractorsOf_mem h he').2).2.2.1, hf e he']

theorem collects_ntuple (rnd : ℝ → ℚ) {args : ExtArgs} {s : Spectrum} (hs : s.WF)
    {exts : List (PyStr × Extractor)} (h : ExtractorsOf args s.cfg exts) (n : NtEntry) :
    Collects (exts.map (fun e => (e.2.name, ntGet rnd e.2))) (s.cfg.map SPar.name)
      (pointOf (ntVal rnd) exts) n := by
  rw [map_name_eq h (List.Perm.refl _) (fun _ e => ntGet rnd e) (ntGet rnd) (fun _ _ => rfl),
    ← extractorsOf_keys h]
  apply collects_of_perm (ntGet rnd) (ntVal rnd) (List.Perm.refl _)
  · rw [extractorsOf_keys h]; exact hs.names
  · intro a _
    rfl

/-- **C66, ntuples; C04 for files.** Appending an ntuple to a spectrum adds the number of
entries to the decays, fills each entry that all axes accept exactly once, counts the
ones in range as raw events and ignores the others. -/
theorem c66_ntuple (rnd : ℝ → ℚ) (file : List (ℤ × NtEntry)) (name : PyStr)
    (cfg : Option (List SPar)) (s : Spectrum) (hs : s.WF) (args : ExtArgs)
    (exts : List (PyStr × Extractor)) (h : ExtractorsOf args s.cfg exts) :
    ∃ t, fillFromNtuple rnd file name cfg (some s) false args = .ok (.ok t) ∧
      Filled { s with numDecays := s.numDecays + file.length } t
        ((file.map Prod.snd).filterMap (pointOf (ntVal rnd) exts)) := by
  have hs' : Spectrum.WF { s with numDecays := s.numDecays + file.length } :=
    ⟨hs.axes, hs.names, hs.shape⟩
  obtain ⟨t, t1, -, t3⟩ := plainLoop_filled
    (exts := exts.map (fun e => (e.2.name, ntGet rnd e.2)))
    (pt := pointOf (ntVal rnd) exts) hs' (xs := file.map Prod.snd)
    (fun n _ => collects_ntuple rnd hs h n)
  refine ⟨t, ?_, t3⟩
  unfold fillFromNtuple
  simp only [fillTarget, Spectrum.pars, makeExtractors_eq h]
  exact congrArg Except.ok t1

/-- The extractors of the axes of the example spectrum. -/
noncomputable def Ex.exts : List (PyStr × Extractor) :=
  [(lit "energy_mc", ⟨.energyMC, lit "energy_mc", none, false, false, avRadius⟩),
   (lit "radial_mc", ⟨.radialMC, lit "radial_mc", none, false, false, avRadius⟩)]

theorem Ex.exts_ok : ExtractorsOf {} Ex.spec.cfg Ex.exts :=
  .cons ⟨rfl, rfl⟩ (.cons ⟨rfl, rfl⟩ .nil)

example : Ex.spec.WF ∧ ExtractorsOf {} Ex.spec.cfg Ex.exts := ⟨Ex.spec_wf, Ex.exts_ok⟩

theorem new_wf {name : PyStr} {n : ℚ} {c : List SPar} (h1 : ∀ p ∈ c, p.WF)
    (h2 : (c.map SPar.name).Nodup) : (Spectrum.new name n c).WF := by
  refine ⟨h1, h2, ?_⟩
  simp only [Spectrum.new, NdArray.zeros, List.map_map]
  apply List.map_congr_left
  intro p hp
  simp [Int.toNat_of_nonneg (h1 p hp).1.le]

/-- **C66, new spectra.** Filling a new spectrum from an ntuple needs a name and a
configuration (`ValueError` otherwise); the spectrum represents as many decays as there
are entries and is filled in the same way. -/
theorem c66_ntuple_new (rnd : ℝ → ℚ) (file : List (ℤ × NtEntry)) (name : PyStr)
    (cfg : Option (List SPar)) (args : ExtArgs) (bipo : Bool) :
    (name = [] ∨ cfg = none →
      fillFromNtuple rnd file name cfg none bipo args = .error .valueError) ∧
    (∀ (c : List SPar) (exts : List (PyStr × Extractor)), name ≠ [] → cfg = some c →
      (∀ p ∈ c, p.WF) → (c.map SPar.name).Nodup → ExtractorsOf args c exts →
      ∃ t, fillFromNtuple rnd file name cfg none false args = .ok (.ok t) ∧
        Filled (Spectrum.new name file.length c) t
          ((file.map Prod.snd).filterMap (pointOf (ntVal rnd) exts))) := by
  constructor
  · intro h
    unfold fillFromNtuple fillTarget
    cases cfg with
    | none => rfl
    | some c => rcases h with rfl | h <;> [rfl; cases h]
  · rintro c exts hne rfl h1 h2 h
    have hs' : Spectrum.WF (Spectrum.new name file.length c) := new_wf h1 h2
    have h' : ExtractorsOf args (Spectrum.new name file.length c).cfg exts := h
    obtain ⟨t, t1, -, t3⟩ := plainLoop_filled
      (exts := exts.map (fun e => (e.2.name, ntGet rnd e.2)))
      (pt := pointOf (ntVal rnd) exts) hs' (xs := file.map Prod.snd)
      (fun n _ => collects_ntuple rnd hs' h' n)
    refine ⟨t, ?_, t3⟩
    unfold fillFromNtuple
    simp only [fillTarget, hne, if_false, Spectrum.pars, makeExtractors_eq h']
    exact congrArg Except.ok t1

/-- **C66, appending.** Filling from two files one after the other is filling from both. -/
theorem c66_ntuple_append (rnd : ℝ → ℚ) (f g : List (ℤ × NtEntry)) (name : PyStr)
    (cfg : Option (List SPar)) (s : Spectrum) (hs : s.WF) (args : ExtArgs)
    (exts : List (PyStr × Extractor)) (h : ExtractorsOf args s.cfg exts) :
    ∃ t u, fillFromNtuple rnd f name cfg (some s) false args = .ok (.ok t) ∧
      fillFromNtuple rnd g name cfg (some t) false args = .ok (.ok u) ∧
      Filled { s with numDecays := s.numDecays + (f ++ g).length } u
        (((f ++ g).map Prod.snd).filterMap (pointOf (ntVal rnd) exts)) := by
  obtain ⟨t, t1, t2⟩ := c66_ntuple rnd f name cfg s hs args exts h
  have hcfg : t.cfg = s.cfg := t2.cfg
  have htw : t.WF := by
    refine ⟨?_, ?_, ?_⟩
    · rw [hcfg]; exact hs.axes
    · rw [hcfg]; exact hs.names
    · rw [hcfg, t2.shape]; exact hs.shape
  obtain ⟨u, u1, u2⟩ := c66_ntuple rnd g name cfg t htw args exts (by rw [hcfg]; exact h)
  refine ⟨t, u, t1, u1, ?_⟩
  have h1 : Filled { s with numDecays := s.numDecays + (f ++ g).length }
      { t with numDecays := t.numDecays + g.length }
      ((f.map Prod.snd).filterMap (pointOf (ntVal rnd) exts)) := by
    refine ⟨t2.name, t2.cfg, ?_, t2.rois, t2.shape, t2.raw, t2.cells⟩
    simp only [t2.numDecays, List.length_append]
    push_cast; ring
  rw [List.map_append, List.filterMap_append]
  exact h1.trans u2

/-- **C66, coincidences.** With the coincidence cut, the candidates of an ntuple that are
followed by an entry which is not another trigger of the same event are filled once. -/
theorem c66_bipo_ntuple_partial (rnd : ℝ → ℚ) (file : List (ℤ × NtEntry)) (name : PyStr)
    (cfg : Option (List SPar)) (s : Spectrum) (hs : s.WF) (hne : s.cfg ≠ []) (args : ExtArgs)
    (exts : List (PyStr × Extractor)) (h : ExtractorsOf args s.cfg exts) :
    ∃ t, fillFromNtuple rnd file name cfg (some s) true args = .ok (.ok t) ∧
      Filled { s with numDecays := s.numDecays + file.length } t
        ((followed file).filterMap (pointOf (ntVal rnd) exts)) := by
  have hs' : Spectrum.WF { s with numDecays := s.numDecays + file.length } :=
    ⟨hs.axes, hs.names, hs.shape⟩
  have hex : exts.map (fun e => (e.2.name, ntGet rnd e.2)) ≠ [] := by
    have := extractorsOf_keys h
    intro h0
    rw [List.map_eq_nil_iff] at h0
    rw [h0] at this
    exact hne (List.map_eq_nil_iff.1 this.symm)
  obtain ⟨t, t1, -, t3⟩ := bipoLoop_filled
    (exts := exts.map (fun e => (e.2.name, ntGet rnd e.2))) hex
    (pt := pointOf (ntVal rnd) exts) hs' (xs := file)
    (fun n _ => collects_ntuple rnd hs h n.2) false [] none rfl (fun p hp => by cases hp)
  refine ⟨t, ?_, ?_⟩
  · unfold fillFromNtuple
    simp only [fillTarget, Spectrum.pars, makeExtractors_eq h, if_true]
    exact congrArg Except.ok t1
  · rw [Option.toList_none, ifNext_nil] at t3
    simpa using t3

theorem untagged_eq {ε : Type} (file : List (ℤ × ε)) (x : ε) :
    untagged (file ++ [(0, x)]) = followed (file ++ [(0, x)]) ++ [x] := by
  induction file with
  | nil => simp [untagged, followed]
  | cons a l ih =>
    rw [List.cons_append, followed_cons]
    cases l with
    | nil =>
      simp only [List.nil_append] at ih ⊢
      by_cases h : a.1 = 0 <;> simp [untagged, followed, ifNext, h]
    | cons b l =>
      simp only [List.cons_append] at ih ⊢
      simp only [untagged, ifNext]
      rw [ih]
      by_cases h1 : a.1 = 0 <;> by_cases h2 : b.1 < 1 <;> simp [h1, h2]

open Classical in
/-- **C66, the last candidate is lost.** When the last entry is a candidate in range, no
other trigger follows it and yet it is not filled: the raw event count is one short. -/
theorem c66_bipo_last_negation (rnd : ℝ → ℚ) (file : List (ℤ × NtEntry)) (n : NtEntry)
    (name : PyStr) (cfg : Option (List SPar)) (s : Spectrum) (hs : s.WF) (hne : s.cfg ≠ [])
    (args : ExtArgs) (exts : List (PyStr × Extractor)) (h : ExtractorsOf args s.cfg exts)
    (p : List (PyStr × ℚ)) (hp : pointOf (ntVal rnd) exts n = some p) (hr : InRange s p) :
    ∃ t, fillFromNtuple rnd (file ++ [(0, n)]) name cfg (some s) true args = .ok (.ok t) ∧
      t.rawEvents + 1 = s.rawEvents +
        (((untagged (file ++ [(0, n)])).filterMap (pointOf (ntVal rnd) exts)).filter
          (fun q => InRange s q)).length := by
  obtain ⟨t, t1, t2⟩ := c66_bipo_ntuple_partial rnd (file ++ [(0, n)]) name cfg s hs hne args
    exts h
  refine ⟨t, t1, ?_⟩
  have r := t2.raw
  have i2 : InRange { s with numDecays := s.numDecays + ((file ++ [(0, n)]).length : ℚ) }
    = InRange s := rfl
  simp only at r
  rw [i2] at r
  rw [r, untagged_eq, List.filterMap_append, List.filter_append, List.length_append]
  simp [hp, hr]
  ring

/-- A simulated entry inside the ranges of the example spectrum. -/
theorem Ex.entry_point :
    pointOf (ntVal (fun _ => 2)) Ex.exts Ex.entry
      = some [(lit "energy_mc", 2), (lit "radial_mc", 2)] ∧
    InRange Ex.spec [(lit "energy_mc", 2), (lit "radial_mc", 2)] := by
  constructor
  · simp [pointOf, Ex.exts, ntVal, validNtuple, Ex.entry, withCut]
  · simp [InRange, Ex.spec, Ex.energy, Ex.radial]
    norm_num

example : Ex.spec.cfg ≠ [] := by simp [Ex.spec]

/-- Root entries the extractors can read: at least one simulated particle, and exactly
one triggered event for external backgrounds. -/
def Readable (external : Bool) (d : RootDS) : Prop :=
  d.particles ≠ [] ∧ (external = true → d.evs.length = 1)

theorem mcGet_readable (rnd : ℝ → ℚ) {args : ExtArgs} {n : PyStr} {e : Extractor}
    (h : factory n args.fv args.external args.outer = .ok e) (hn : n ∈ simulatedDims)
    {d : RootDS} (hd : Readable args.external d) : mcGet rnd e d = .ok (mcVal rnd e d) := by
  have hv : ∃ b, e.validRootMC d = .ok b := by
    obtain ⟨hfv, hex, -, hc⟩ := factory_cases h
    have ho : e.otherPos = args.external := by
      rcases hc with ⟨rfl, hk, ho⟩ | ⟨rfl, hk, ho⟩ | ⟨rfl, hk, ho⟩ | ⟨rfl, hk, ho, hx⟩ |
        ⟨rfl, hk, ho⟩ | ⟨rfl, hk, ho, hx, -⟩ | ⟨rfl, hk, ho, -⟩ <;>
        first | exact ho | (rw [ho, hx]) | simp [simulatedDims] at hn
    unfold validRootMC withCut
    split
    · exact ⟨_, rfl⟩
    · split_ifs
      · exact ⟨_, rfl⟩
      · unfold fvCutRootMC
        cases hx : e.otherPos with
        | false =>
          obtain ⟨p, ps, hp⟩ := List.exists_cons_of_ne_nil hd.1
          simp [mcInside, hp]
        | true =>
          obtain ⟨ev, hev⟩ := List.length_eq_one_iff.1 (hd.2 (by rw [← ho, hx]))
          simp [hev]
  have hval : ∃ v, e.valueRootMC d = .ok v := by
    obtain ⟨p, ps, hp⟩ := List.exists_cons_of_ne_nil hd.1
    unfold valueRootMC
    split <;> simp [hp]
  obtain ⟨b, hb⟩ := hv
  obtain ⟨v, hv⟩ := hval
  cases b <;> simp [mcGet, mcVal, hb, hv]

theorem recoGet_total (rnd : ℝ → ℚ) {args : ExtArgs} {n : PyStr} {e : Extractor}
    (h : factory n args.fv args.external args.outer = .ok e) (hn : n ∉ simulatedDims)
    (x : RootEV × RootDS) : recoGet rnd e x = .ok (recoVal rnd e x) := by
  have hv : ∃ b, e.validRootReco x.1 x.2 = .ok b := by
    obtain ⟨hfv, hex, -, hc⟩ := factory_cases h
    have ho : e.otherPos = false := by
      rcases hc with ⟨rfl, hk, ho⟩ | ⟨rfl, hk, ho⟩ | ⟨rfl, hk, ho⟩ | ⟨rfl, hk, ho, hx⟩ |
        ⟨rfl, hk, ho⟩ | ⟨rfl, hk, ho, hx, -⟩ | ⟨rfl, hk, ho, -⟩ <;>
        first | exact ho | (exfalso; simp [simulatedDims] at hn)
    have hw : ∃ b, withCut e.fvRadius (fun r => e.fvCutRootReco r x.1 x.2) (.ok true) = .ok b := by
      unfold withCut
      split
      · exact ⟨_, rfl⟩
      · split_ifs
        · exact ⟨_, rfl⟩
        · simp [fvCutRootReco, ho]
    unfold validRootReco
    by_cases hc : (x.1.fitExists &&
        (if e.kind = .radialReco then x.1.containsPosition && x.1.validPosition
         else x.1.containsEnergy && x.1.validEnergy)) = true
    · rw [if_pos hc]; exact hw
    · rw [if_neg hc]; exact ⟨_, rfl⟩
  obtain ⟨b, hb⟩ := hv
  cases b <;> simp [recoGet, recoVal, hb]

theorem ev_readable {bipo : Bool} {file : List RootDS} {P : RootDS → Prop}
    (h : ∀ d ∈ bipoKept bipo file, P d) {x : RootEV × RootDS}
    (hx : x ∈ evsOf (bipoKept bipo file)) : P x.2 := by
  unfold evsOf at hx
  obtain ⟨d, hd, hx⟩ := List.mem_flatMap.1 hx
  obtain ⟨ev, -, rfl⟩ := List.mem_map.1 hx
  exact h d hd

/-- **C66, root files with simulated axes.** Every entry kept by the coincidence cut and
accepted by all axes is filled once, whatever the order in which python visits the
extractors. -/
theorem c66_root_mc (rnd : ℝ → ℚ)
    (order : List (PyStr × Extractor) → List (PyStr × Extractor)) (ho : ∀ l, (order l).Perm l)
    (file : List RootDS) (name : PyStr) (cfg : Option (List SPar)) (s : Spectrum) (hs : s.WF)
    (hne : s.cfg ≠ []) (hsim : ∀ p ∈ s.cfg, p.name ∈ simulatedDims) (bipo : Bool)
    (args : ExtArgs) (exts : List (PyStr × Extractor)) (h : ExtractorsOf args s.cfg exts)
    (hread : ∀ d ∈ bipoKept bipo file, Readable args.external d) :
    ∃ t, fillFromRoot rnd order file name cfg (some s) bipo args = .ok (.ok t) ∧
      Filled { s with numDecays := s.numDecays + file.length } t
        ((bipoKept bipo file).filterMap (pointOf (mcVal rnd) exts)) := by
  have hs' : Spectrum.WF { s with numDecays := s.numDecays + file.length } :=
    ⟨hs.axes, hs.names, hs.shape⟩
  have hfac := fun e (he : e ∈ exts) => extractorsOf_mem h he
  obtain ⟨t, t1, -, t3⟩ := rootMC_filled
    (exts := (order exts).map (fun e => (e.2.name, mcGet rnd e.2)))
    (pt := pointOf (mcVal rnd) exts) bipo hs' (xs := file) (fun d hd => by
      rw [map_name_eq h (ho exts) (fun _ e => mcGet rnd e) (mcGet rnd) (fun _ _ => rfl)]
      show Collects _ (s.cfg.map SPar.name) _ _
      rw [← extractorsOf_keys h]
      apply collects_of_perm (mcGet rnd) (mcVal rnd) (ho exts)
      · rw [extractorsOf_keys h]; exact hs.names
      · intro a ha
        obtain ⟨⟨p, hp, hpa⟩, hf⟩ := hfac a ha
        exact mcGet_readable rnd hf (hpa ▸ hsim p hp) (hread d hd))
  refine ⟨t, ?_, t3⟩
  have hpar : ∀ n ∈ s.cfg.map SPar.name, ∃ e, factory n args.fv args.external args.outer = .ok e := by
    intro n hn
    rw [← extractorsOf_keys h] at hn
    obtain ⟨e, he, rfl⟩ := List.mem_map.1 hn
    exact ⟨_, (hfac e he).2⟩
  have hmc : (s.cfg.map SPar.name).any
      (fun n => decide (lastPart n = lit "mc" ∨ lastPart n = lit "truth")) = true := by
    obtain ⟨p, ps, hp⟩ := List.exists_cons_of_ne_nil hne
    have hm : p ∈ s.cfg := by rw [hp]; simp
    rw [List.any_eq_true]
    refine ⟨p.name, List.mem_map_of_mem hm, ?_⟩
    obtain ⟨e, he⟩ := hpar p.name (List.mem_map_of_mem hm)
    exact decide_eq_true ((lastPart_documented he).1.2 (hsim p hm))
  have hev : (s.cfg.map SPar.name).any (fun n => decide (lastPart n = lit "reco")) = false := by
    rw [List.any_eq_false]
    intro n hn
    obtain ⟨e, he⟩ := hpar n hn
    obtain ⟨p, hp, rfl⟩ := List.mem_map.1 hn
    have := (lastPart_documented he).2
    simp only [decide_eq_true_eq]
    exact fun h => this.1 h (hsim p hp)
  unfold fillFromRoot
  simp only [fillTarget, Spectrum.pars, makeRootExtractors_eq h, hmc, hev, Bool.and_false,
    Bool.false_eq_true, if_false, if_true]
  exact congrArg Except.ok t1

example : (∀ l : List (PyStr × Extractor), (id l).Perm l) ∧
    (∀ p ∈ Ex.spec.cfg, p.name ∈ simulatedDims) ∧ Readable false Ex.ds := by
  refine ⟨fun l => List.Perm.refl l, ?_, ?_⟩
  · simp [Ex.spec, Ex.energy, Ex.radial, simulatedDims]
  · simp [Readable, Ex.ds]

/-- **C66, root files with reconstructed axes.** When some axis is reconstructed, every
triggered event of the entries kept by the coincidence cut is filled once if all axes
accept it; simulated axes take their value from the entry. Values kept from an earlier
event of the entry never leak into a later one. -/
theorem c66_root_ev (rnd : ℝ → ℚ)
    (order : List (PyStr × Extractor) → List (PyStr × Extractor)) (ho : ∀ l, (order l).Perm l)
    (file : List RootDS) (name : PyStr) (cfg : Option (List SPar)) (s : Spectrum) (hs : s.WF)
    (hreco : ∃ p ∈ s.cfg, p.name ∉ simulatedDims) (bipo : Bool)
    (args : ExtArgs) (exts : List (PyStr × Extractor)) (h : ExtractorsOf args s.cfg exts)
    (hread : ∀ d ∈ bipoKept bipo file, Readable args.external d) :
    ∃ t, fillFromRoot rnd order file name cfg (some s) bipo args = .ok (.ok t) ∧
      Filled { s with numDecays := s.numDecays + file.length } t
        ((evsOf (bipoKept bipo file)).filterMap (pointOf (mixVal rnd) exts)) := by
  have hs' : Spectrum.WF { s with numDecays := s.numDecays + file.length } :=
    ⟨hs.axes, hs.names, hs.shape⟩
  have hfac := fun e (he : e ∈ exts) => extractorsOf_mem h he
  have hpar : ∀ n ∈ s.cfg.map SPar.name, ∃ e, factory n args.fv args.external args.outer = .ok e := by
    intro n hn
    rw [← extractorsOf_keys h] at hn
    obtain ⟨e, he, rfl⟩ := List.mem_map.1 hn
    exact ⟨_, (hfac e he).2⟩
  have hev : (s.cfg.map SPar.name).any (fun n => decide (lastPart n = lit "reco")) = true := by
    rw [List.any_eq_true]
    obtain ⟨p, hp, hps⟩ := hreco
    obtain ⟨e, he⟩ := hpar p.name (List.mem_map_of_mem hp)
    exact ⟨p.name, List.mem_map_of_mem hp, decide_eq_true ((lastPart_documented he).2.2 hps)⟩
  have hname : ∀ e ∈ exts, e.2.name = e.1 := fun e he => (factory_cases (hfac e he).2).2.2.1
  unfold fillFromRoot
  simp only [fillTarget, Spectrum.pars, makeRootExtractors_eq h, hev, Bool.and_true]
  by_cases hmc : (s.cfg.map SPar.name).any
      (fun n => decide (lastPart n = lit "mc" ∨ lastPart n = lit "truth")) = true
  · -- mixture
    let getM : Extractor → Getter (RootEV × RootDS) := fun e => mixGet rnd e.name e
    obtain ⟨t, t1, -, t3⟩ := rootMix_filled
      (exts := (order exts).map (fun e => (e.2.name, mixGet rnd e.1 e.2)))
      (pt := pointOf (mixVal rnd) exts) bipo hs' (xs := file) (fun x hx => by
        rw [map_name_eq h (ho exts) (fun n e => mixGet rnd n e) getM
          (fun e he => by simp only [getM, hname e he])]
        show Collects _ (s.cfg.map SPar.name) _ _
        rw [← extractorsOf_keys h]
        apply collects_of_perm getM (mixVal rnd) (ho exts)
        · rw [extractorsOf_keys h]; exact hs.names
        · intro a ha
          have hf := (hfac a ha).2
          have hl := (lastPart_documented hf).2
          simp only [getM, mixGet, mixVal, hname a ha]
          by_cases hsim : a.1 ∈ simulatedDims
          · rw [if_neg (fun h => hl.1 h hsim), if_pos hsim]
            exact mcGet_readable rnd hf hsim (ev_readable hread hx)
          · rw [if_pos (hl.2 hsim), if_neg hsim]
            exact recoGet_total rnd hf hsim x)
    refine ⟨t, ?_, t3⟩
    simp only [hmc, if_true]
    exact congrArg Except.ok t1
  · have hns : ∀ e ∈ exts, e.1 ∉ simulatedDims := by
      intro e he hsim
      apply hmc
      rw [List.any_eq_true]
      refine ⟨e.1, ?_, decide_eq_true ((lastPart_documented (hfac e he).2).1.2 hsim)⟩
      rw [← extractorsOf_keys h]
      exact List.mem_map_of_mem he
    obtain ⟨t, t1, -, t3⟩ := rootEV_filled
      (exts := (order exts).map (fun e => (e.2.name, recoGet rnd e.2)))
      (pt := pointOf (mixVal rnd) exts) bipo hs' (xs := file) (fun x hx => by
        rw [map_name_eq h (ho exts) (fun _ e => recoGet rnd e) (recoGet rnd) (fun _ _ => rfl)]
        show Collects _ (s.cfg.map SPar.name) _ _
        rw [← extractorsOf_keys h]
        apply collects_of_perm (recoGet rnd) (mixVal rnd) (ho exts)
        · rw [extractorsOf_keys h]; exact hs.names
        · intro a ha
          simp only [mixVal, hname a ha]
          rw [if_neg (hns a ha)]
          exact recoGet_total rnd (hfac a ha).2 (hns a ha) x)
    refine ⟨t, ?_, t3⟩
    rw [Bool.not_eq_true] at hmc
    simp only [hmc, Bool.false_eq_true, if_false]
    exact congrArg Except.ok t1

/-- **C66, failed appends.** An axis for which there is no extractor raises, but the number
of entries has already been added to the decays of the spectrum. -/
theorem c66_failed_append_negation (rnd : ℝ → ℚ) (file : List (ℤ × NtEntry)) (name : PyStr)
    (cfg : Option (List SPar)) (s : Spectrum) (p : SPar) (ps : List SPar)
    (hc : s.cfg = p :: ps) (hp : p.name ∉ documentedDims) (bipo : Bool) (args : ExtArgs) :
    fillFromNtuple rnd file name cfg (some s) bipo args =
      .ok (.fail { s with numDecays := s.numDecays + file.length } .indexError) := by
  have hf := (c68_factory_partial p.name args.fv args.external args.outer).1 hp
  have : makeExtractors args (s.cfg.map SPar.name) = .error .indexError := by
    rw [hc]
    unfold makeExtractors
    rw [List.map_cons, List.mapM_cons, hf]
    rfl
  unfold fillFromNtuple
  simp only [fillTarget, Spectrum.pars, this]

example : Ex.specOdd.cfg = [Ex.odd] ∧ Ex.odd.name ∉ documentedDims :=
  ⟨rfl, by simp [Ex.odd, documentedDims]⟩

open Classical in
/-- **C04, files.** Filling from an ntuple raises the raw event counter by the number of
accepted entries in range, in contrast to `fill`. -/
theorem c04_file_loops_count (rnd : ℝ → ℚ) (file : List (ℤ × NtEntry)) (name : PyStr)
    (cfg : Option (List SPar)) (s : Spectrum) (hs : s.WF) (args : ExtArgs)
    (exts : List (PyStr × Extractor)) (h : ExtractorsOf args s.cfg exts) :
    ∃ t, fillFromNtuple rnd file name cfg (some s) false args = .ok (.ok t) ∧
      t.rawEvents = s.rawEvents + (file.filter (fun e => Counted rnd exts s e.2)).length := by
  obtain ⟨t, t1, t2⟩ := c66_ntuple rnd file name cfg s hs args exts h
  refine ⟨t, t1, ?_⟩
  rw [t2.raw]
  congr 2
  clear t1 t2
  induction file with
  | nil => rfl
  | cons x xs ih =>
    cases hp : pointOf (ntVal rnd) exts x.2 with
    | none =>
      rw [List.map_cons, List.filterMap_cons_none hp, List.filter_cons]
      have hno : ¬ Counted rnd exts s x.2 := by
        rintro ⟨q, hq, -⟩
        rw [hp] at hq; cases hq
      rw [if_neg (fun h => hno (of_decide_eq_true h))]
      exact ih
    | some p =>
      rw [List.map_cons, List.filterMap_cons_some hp, List.filter_cons, List.filter_cons]
      have hiff : Counted rnd exts s x.2 ↔ InRange s p := by
        unfold Counted; rw [hp]; simp
      by_cases hr : InRange s p
      · have hr' : InRange { s with numDecays := s.numDecays + ((x :: xs).length : ℚ) } p := hr
        rw [if_pos (decide_eq_true hr'), if_pos (decide_eq_true (hiff.2 hr))]
        simp only [List.length_cons]
        congr 1
      · have hr' : ¬ InRange { s with numDecays := s.numDecays + ((x :: xs).length : ℚ) } p := hr
        rw [if_neg (fun h => hr' (of_decide_eq_true h)),
          if_neg (fun h => hr (hiff.1 (of_decide_eq_true h)))]
        exact ih

end Verif
