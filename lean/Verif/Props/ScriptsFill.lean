import Verif.Lemmas.Scripts
import Verif.Props.FillSpectrum
import Verif.Props.StoreFiles
import Verif.Props.ScriptsNames

/-! # Scripts that fill spectra from files -/

namespace Verif

/-! ### filling a spectrum with all attributes -/

theorem withCore_config {s : FullSpec} {c : Spectrum} (h : c.cfg = s.core.cfg) :
    (s.withCore c).config = s.config := by
  unfold FullSpec.withCore
  dsimp only
  rw [h]
  unfold FullSpec.core
  dsimp only
  have : ∀ l : List (PyStr × SPar), List.zipWith (fun e p => (e.1, p)) l (l.map Prod.snd) = l := by
    intro l
    induction l with
    | nil => rfl
    | cons a l ih => rw [List.map_cons, List.zipWith_cons_cons, ih]
  rw [this]

theorem withCore_core {s : FullSpec} {c : Spectrum} (h : c.cfg = s.core.cfg) :
    (s.withCore c).core = c.noRois := by
  have := withCore_config h
  unfold FullSpec.core
  rw [this]
  unfold Spectrum.noRois
  rw [h]
  rfl

theorem fillFromNtuple_new (rnd : ℝ → ℚ) (file : Ntuple) (name : PyStr) (hn : name ≠ [])
    (c : List SPar) (name' : PyStr) (cfg' : Option (List SPar)) (bipo : Bool) (args : ExtArgs) :
    fillFromNtuple rnd file name (some c) none bipo args =
      fillFromNtuple rnd file name' cfg' (some (Spectrum.new name 0 c)) bipo args := by
  have : ({ Spectrum.new name 0 c with
      numDecays := (Spectrum.new name 0 c).numDecays + (file.length : ℚ) } : Spectrum) =
      Spectrum.new name file.length c := by
    unfold Spectrum.new
    simp
  unfold fillFromNtuple fillTarget
  dsimp only
  rw [if_neg hn, this]

/-- C66 with and without the coincidence cut. -/
theorem ntuple_kept (rnd : ℝ → ℚ) (file : Ntuple) (name : PyStr) (cfg : Option (List SPar))
    (s : Spectrum) (hs : s.WF) (hne : s.cfg ≠ []) (bipo : Bool) (args : ExtArgs)
    (exts : List (PyStr × Extractor)) (h : ExtractorsOf args s.cfg exts) :
    ∃ t, fillFromNtuple rnd file name cfg (some s) bipo args = .ok (.ok t) ∧
      Filled { s with numDecays := s.numDecays + file.length } t
        ((keptEntries bipo file).filterMap (pointOf (ntVal rnd) exts)) := by
  cases bipo with
  | false => exact c66_ntuple rnd file name cfg s hs args exts h
  | true => exact c66_bipo_ntuple_partial rnd file name cfg s hs hne args exts h

/-- A spectrum in the middle of the loop over the files. -/
structure Partway (name : PyStr) (config : SpectraConfig) (bipo : Bool) (n : ℕ)
    (pts : List (List (PyStr × ℚ))) (t : FullSpec) : Prop where
  core : Filled (Spectrum.new name n (config.pars.map Prod.snd)) t.core pts
  config : t.config = config
  background : t.background = none
  bipo : t.bipo = if bipo then 1 else 0
  rois : t.rois = []
  fit : t.fitConfig = none
  style : t.style = defaultStyle

theorem AxesConfig.new_wf {config : SpectraConfig} (hc : AxesConfig config) (name : PyStr) (n : ℚ) :
    (Spectrum.new name n (config.pars.map Prod.snd)).WF := by
  apply Verif.new_wf
  · intro p hp
    obtain ⟨e, he, rfl⟩ := List.mem_map.1 hp
    exact hc.axes e he
  · have : (config.pars.map Prod.snd).map SPar.name = config.getPars := by
      unfold Config.getPars
      rw [List.map_map]
      exact List.map_congr_left hc.names
    rw [this]
    exact hc.distinct

theorem Filled.wf {s t : Spectrum} {pts} (h : Filled s t pts) (hs : s.WF) : t.WF :=
  ⟨by rw [h.cfg]; exact hs.axes, by rw [h.cfg]; exact hs.names,
    by rw [h.cfg, h.shape]; exact hs.shape⟩

theorem Partway.cfg {name config bipo n pts t} (h : Partway name config bipo n pts t) :
    t.core.cfg = config.pars.map Prod.snd := h.core.cfg

theorem fillNew_partway (rnd : ℝ → ℚ) {config : SpectraConfig} (hc : AxesConfig config)
    (file : Ntuple) {name : PyStr} (hn : name ≠ []) (bipo : Bool) (args : ExtArgs)
    (exts : List (PyStr × Extractor))
    (h : ExtractorsOf args (config.pars.map Prod.snd) exts) :
    ∃ s, fillNew rnd file name config bipo args = .ok s ∧
      Partway name config bipo file.length
        ((keptEntries bipo file).filterMap (pointOf (ntVal rnd) exts)) s := by
  obtain ⟨t, h1, h2⟩ := ntuple_kept rnd file [] none (Spectrum.new name 0 (config.pars.map Prod.snd))
    (hc.new_wf name 0) (by simpa [Spectrum.new] using hc.filled) bipo args exts h
  have e : ({ Spectrum.new name 0 (config.pars.map Prod.snd) with
      numDecays := (Spectrum.new name 0 (config.pars.map Prod.snd)).numDecays +
        (file.length : ℚ) } : Spectrum) = Spectrum.new name file.length (config.pars.map Prod.snd) := by
    unfold Spectrum.new
    simp
  rw [e] at h2
  have hcfg : t.cfg = (FullSpec.new name file.length config none none).core.cfg := h2.cfg
  refine ⟨{ (FullSpec.new name file.length config none none).withCore t with
      bipo := if bipo then 1 else 0 }, by
    unfold fillNew
    rw [fillFromNtuple_new rnd file name hn _ [] none, h1]
    rfl, ?_, withCore_config hcfg, rfl, rfl, rfl, rfl, rfl⟩
  have hcore : ({ (FullSpec.new name file.length config none none).withCore t with
      bipo := if bipo then 1 else 0 } : FullSpec).core = t := by
    have h0 : t.rois = [] := h2.rois
    have := withCore_core hcfg
    unfold Spectrum.noRois at this
    rw [← h0] at this
    exact this
  rw [hcore]
  exact h2

theorem fillMore_partway (rnd : ℝ → ℚ) {config : SpectraConfig} (hc : AxesConfig config)
    (file : Ntuple) {name : PyStr} (bipo : Bool) (args : ExtArgs)
    (exts : List (PyStr × Extractor))
    (h : ExtractorsOf args (config.pars.map Prod.snd) exts) {n : ℕ} {pts} {s : FullSpec}
    (hs : Partway name config bipo n pts s) :
    ∃ s', fillMore rnd bipo args s file = .ok s' ∧
      Partway name config bipo (n + file.length)
        (pts ++ (keptEntries bipo file).filterMap (pointOf (ntVal rnd) exts)) s' := by
  have hw := hs.core.wf (hc.new_wf name n)
  obtain ⟨t, h1, h2⟩ := ntuple_kept rnd file [] none s.core hw
    (by rw [hs.cfg]; simpa using hc.filled) bipo args exts (by rw [hs.cfg]; exact h)
  have hcfg : t.cfg = s.core.cfg := h2.cfg
  refine ⟨{ s.withCore t with bipo := if bipo then 1 else s.bipo }, by
    unfold fillMore
    rw [h1]
    rfl, ?_, (withCore_config hcfg).trans hs.config, hs.background, ?_, hs.rois, hs.fit, hs.style⟩
  · have hcore : ({ s.withCore t with
        bipo := if bipo then 1 else s.bipo } : FullSpec).core = t := by
      have h0 : t.rois = [] := h2.rois
      have := withCore_core hcfg
      unfold Spectrum.noRois at this
      rw [← h0] at this
      exact this
    rw [hcore]
    have h3 : Filled (Spectrum.new name (n + file.length : ℕ) (config.pars.map Prod.snd))
        { s.core with numDecays := s.core.numDecays + (file.length : ℚ) } pts := by
      refine ⟨hs.core.name, hs.core.cfg, ?_, hs.core.rois, hs.core.shape, hs.core.raw,
        hs.core.cells⟩
      have := hs.core.numDecays
      simp only [Spectrum.new] at this ⊢
      rw [this]; push_cast; ring
    exact h3.trans h2
  · show (if bipo then 1 else s.bipo) = _
    rw [hs.bipo]
    cases bipo <;> rfl

theorem fillAll_partway (rnd : ℝ → ℚ) {config : SpectraConfig} (hc : AxesConfig config)
    {name : PyStr} (bipo : Bool) (args : ExtArgs)
    (exts : List (PyStr × Extractor))
    (h : ExtractorsOf args (config.pars.map Prod.snd) exts) (files : List Ntuple) {n : ℕ} {pts}
    {s : FullSpec} (hs : Partway name config bipo n pts s) :
    ∃ s', files.foldlM (fillMore rnd bipo args) s = .ok s' ∧
      Partway name config bipo (n + (files.map List.length).sum)
        (pts ++ (files.flatMap (keptEntries bipo)).filterMap (pointOf (ntVal rnd) exts)) s' := by
  induction files generalizing n pts s with
  | nil => exact ⟨s, rfl, by simpa using hs⟩
  | cons f fs ih =>
    obtain ⟨s1, h1, h2⟩ := fillMore_partway rnd hc f bipo args exts h hs
    obtain ⟨s2, h3, h4⟩ := ih h2
    refine ⟨s2, ?_, ?_⟩
    · rw [List.foldlM_cons, h1]
      exact h3
    · rw [List.map_cons, List.sum_cons, List.flatMap_cons, List.filterMap_append, ← List.append_assoc,
        ← Nat.add_assoc]
      exact h4

theorem Partway.savable {name config bipo n pts t} (h : Partway name config bipo n pts t)
    (hc : AxesConfig config) : Savable t := by
  refine ⟨⟨?_, ?_, ?_, ?_⟩, ?_, ?_⟩
  · rw [h.config]; exact hc.filled
  · rw [h.config]; exact hc.distinct
  · rw [h.config]; exact hc.names
  · have := h.core.shape
    have h2 : t.data.shape = (Spectrum.new name n (config.pars.map Prod.snd)).data.shape := this
    rw [h2, h.config]
    simp [Spectrum.new, NdArray.zeros]
  · rw [h.fit]; simp
  · rw [h.style]; rfl

theorem Partway.saved (ft : FloatText) {name config bipo n pts s} (h : Partway name config bipo n pts s)
    (hc : AxesConfig config) (disk : Disk) (path : PyStr) {b : PyStr}
    (hb : s.getBackgroundName = .ok b) :
    ∃ disk' t, dumpAt disk path s = .done disk' ∧ OnlyAt path disk disk' ∧
      Holds ft disk' path t ∧ SavedFill name config bipo n pts b t ∧
      (b ≠ [] → Input ft disk' path t b) := by
  obtain ⟨disk', t, h1, h2, h3, h4, h5, h6, h7, h8, h9⟩ :=
    dumpAt_saved ft disk path s b (h.savable hc) hb
  have hcore : t.core = s.core := by
    unfold FullSpec.core
    rw [h4, h5, h6, h7, h8]
  refine ⟨disk', t, h1, h2, h3, ⟨by rw [hcore]; exact h.core, h5.trans h.config, h9.background,
    h9.bipo.trans h.bipo, h9.rois.trans h.rois, ?_⟩, fun hne => ⟨h3,
      (h.savable hc).of_same h5 h8 h9, ?_, h9.background, hne⟩⟩
  · have := h9.fit
    rw [h.fit] at this
    cases hf : t.fitConfig with
    | none => rfl
    | some fc => rw [hf] at this; exact this.elim
  · rw [hcore]; exact h.core.wf (hc.new_wf name n)

theorem outerCheck_used {config : SpectraConfig} {given used : Option ℝ}
    (h : OuterUsed config given used) : outerCheck config given = .ok used := by
  rcases h with ⟨rfl | rfl, rfl⟩ | ⟨r, rfl, hr, rfl, hd⟩
  · rfl
  · unfold outerCheck; dsimp only; rw [if_pos rfl]
  · unfold outerCheck; dsimp only; rw [if_neg hr, if_pos hd]

/-- The background depends on name and background only. -/
theorem background_of {s s' : FullSpec} (hn : s.name = s'.name) (hb : s.background = s'.background) :
    s.getBackgroundName = s'.getBackgroundName := by
  unfold FullSpec.getBackgroundName
  rw [hn, hb]

/-! ### C116 -/

/-- **C116.** `multi_ntuple_spectrum.py` fills one spectrum with all ntuples of the directory and
saves it under the name of the background: it stands for as many decays as there are entries in all
files, and every entry that all axes accept is counted once, in the cell that contains it; entries
out of range are ignored. With the coincidence cut the entries looked at are, in every file, the
candidates followed by an entry that is not another trigger of the same event. -/
theorem c116_combined (ft : FloatText) (rnd : ℝ → ℚ) (disk : Disk) (files : List Ntuple)
    (hf : files ≠ []) (config : SpectraConfig) (hc : AxesConfig config) (name savePath b : PyStr)
    (hn : name ≠ []) (bipo : Bool) (fv outer outer' : Option ℝ) (ho : OuterUsed config outer outer')
    (exts : List (PyStr × Extractor))
    (h : ExtractorsOf { fv, outer := outer' } (config.pars.map Prod.snd) exts)
    (hb : (FullSpec.new name 0 config none none).getBackgroundName = .ok b) :
    ∃ disk' t, multiNtupleScript rnd disk files config name savePath bipo fv outer = .done disk' ∧
      OnlyAt (savePath ++ name ++ lit ".hdf5") disk disk' ∧
      Holds ft disk' (savePath ++ name ++ lit ".hdf5") t ∧
      SavedFill name config bipo files.flatten.length
        ((files.flatMap (keptEntries bipo)).filterMap (pointOf (ntVal rnd) exts)) b t ∧
      (b ≠ [] → Input ft disk' (savePath ++ name ++ lit ".hdf5") t b) := by
  obtain ⟨first, rest, rfl⟩ := List.exists_cons_of_ne_nil hf
  obtain ⟨s, h1, h2⟩ := fillNew_partway rnd hc first hn bipo _ exts h
  obtain ⟨s', h3, h4⟩ := fillAll_partway rnd hc bipo _ exts h rest h2
  obtain ⟨disk', t, g1, g2, g3, g4, g5⟩ := h4.saved ft hc disk (savePath ++ name ++ lit ".hdf5") (b := b) (by
    rw [← hb]
    exact background_of h4.core.name h4.background)
  refine ⟨disk', t, ?_, g2, g3, ?_, g5⟩
  · unfold multiNtupleScript
    rw [outerCheck_used ho]
    dsimp only
    rw [h1]
    have : (do
        let s ← Except.ok s
        rest.foldlM (fillMore rnd bipo { fv, outer := outer' }) s : Except PyErr FullSpec) =
        .ok s' := h3
    rw [this]
    exact g1
  · rw [List.length_flatten, List.map_cons, List.sum_cons, List.flatMap_cons, List.filterMap_append]
    exact g4

/-- **C116, order.** The order in which the operating system lists the files does not matter. -/
theorem c116_order (ft : FloatText) (rnd : ℝ → ℚ) (disk : Disk) (files files' : List Ntuple)
    (hp : files'.Perm files)
    (hf : files ≠ []) (config : SpectraConfig) (hc : AxesConfig config) (name savePath b : PyStr)
    (hn : name ≠ []) (bipo : Bool) (fv outer outer' : Option ℝ) (ho : OuterUsed config outer outer')
    (exts : List (PyStr × Extractor))
    (h : ExtractorsOf { fv, outer := outer' } (config.pars.map Prod.snd) exts)
    (hb : (FullSpec.new name 0 config none none).getBackgroundName = .ok b) :
    ∃ disk1 disk2 t1 t2,
      multiNtupleScript rnd disk files config name savePath bipo fv outer = .done disk1 ∧
      multiNtupleScript rnd disk files' config name savePath bipo fv outer = .done disk2 ∧
      Holds ft disk1 (savePath ++ name ++ lit ".hdf5") t1 ∧
      Holds ft disk2 (savePath ++ name ++ lit ".hdf5") t2 ∧ t2.core = t1.core := by
  have hf' : files' ≠ [] := by
    rintro rfl
    exact hf (List.nil_perm.1 hp)
  obtain ⟨disk1, t1, a1, -, a3, a4, -⟩ := c116_combined ft rnd disk files hf config hc name savePath b
    hn bipo fv outer outer' ho exts h hb
  obtain ⟨disk2, t2, b1, -, b3, b4, -⟩ := c116_combined ft rnd disk files' hf' config hc name savePath
    b hn bipo fv outer outer' ho exts h hb
  refine ⟨disk1, disk2, t1, t2, a1, b1, a3, b3, ?_⟩
  have hlen : files'.flatten.length = files.flatten.length := hp.flatten.length_eq
  have hpts : ((files'.flatMap (keptEntries bipo)).filterMap (pointOf (ntVal rnd) exts)).Perm
      ((files.flatMap (keptEntries bipo)).filterMap (pointOf (ntVal rnd) exts)) :=
    (hp.flatMap_right _).filterMap _
  have c1 := a4.core
  have c2 := b4.core
  rw [hlen] at c2
  have e1 : t2.core.name = t1.core.name := c2.name.trans c1.name.symm
  have e2 : t2.core.cfg = t1.core.cfg := c2.cfg.trans c1.cfg.symm
  have e3 : t2.core.numDecays = t1.core.numDecays := c2.numDecays.trans c1.numDecays.symm
  have e4 : t2.core.rawEvents = t1.core.rawEvents := by
    rw [c2.raw, c1.raw, (hpts.filter _).length_eq]
  have e5 : t2.core.data = t1.core.data := by
    have s1 : t2.core.data.shape = t1.core.data.shape := c2.shape.trans c1.shape.symm
    have s2 : t2.core.data.get = t1.core.data.get := by
      funext j
      rw [c2.cells, c1.cells, (hpts.filter _).length_eq]
    cases hd2 : t2.core.data with
    | mk s g =>
      cases hd1 : t1.core.data with
      | mk s' g' =>
        rw [hd1, hd2] at s1 s2
        simp only at s1 s2
        rw [s1, s2]
  have e6 : t2.core.rois = t1.core.rois := c2.rois.trans c1.rois.symm
  cases h1 : t1.core
  cases h2 : t2.core
  rw [h1, h2] at e1 e2 e3 e4 e5 e6
  simp only at e1 e2 e3 e4 e5 e6
  subst e1; subst e2; subst e3; subst e4; subst e5; subst e6
  rfl

/-- A configuration of two axes. -/
def Ex.twoAxes : SpectraConfig :=
  ⟨lit "config", [(lit "energy_mc", Ex.energy), (lit "radial_mc", Ex.radial)]⟩

theorem Ex.twoAxes_ok : AxesConfig Ex.twoAxes where
  filled := by simp [Ex.twoAxes]
  distinct := by decide
  names := by
    intro e he
    simp only [Ex.twoAxes, List.mem_cons, List.not_mem_nil, or_false] at he
    rcases he with rfl | rfl <;> rfl
  axes := by
    intro e he
    simp only [Ex.twoAxes, List.mem_cons, List.not_mem_nil, or_false] at he
    rcases he with rfl | rfl
    · exact Ex.spec_wf.axes _ (by simp [Ex.spec])
    · exact Ex.spec_wf.axes _ (by simp [Ex.spec])

theorem Ex.twoAxes_background :
    (FullSpec.new (lit "Te130_mc") 0 Ex.twoAxes none none).getBackgroundName = .ok (lit "Te130") :=
  c85_derived _ (.inl rfl) (lit "Te130") '_' (lit "mc") [] rfl .mc (by decide +kernel)
    (fun h => absurd rfl h) (fun h => by cases h)

/-- Two files with one entry each. -/
example : [[((0 : ℤ), Ex.entry)], [((0 : ℤ), Ex.entry)]] ≠ [] ∧ AxesConfig Ex.twoAxes ∧
    OuterUsed Ex.twoAxes (some 0) none ∧
    ExtractorsOf {} (Ex.twoAxes.pars.map Prod.snd) Ex.exts ∧
    (FullSpec.new (lit "Te130_mc") 0 Ex.twoAxes none none).getBackgroundName = .ok (lit "Te130") ∧
    pointOf (ntVal (fun _ => 2)) Ex.exts Ex.entry =
      some [(lit "energy_mc", 2), (lit "radial_mc", 2)] :=
  ⟨by simp, Ex.twoAxes_ok, .inl ⟨.inr rfl, rfl⟩, Ex.exts_ok, Ex.twoAxes_background,
    Ex.entry_point.1⟩

open Classical in
theorem lost_count {α ε : Type} (pt : ε → Option α) (I : α → Prop)
    (fs : List (List (ℤ × ε) × ε)) (hlast : ∀ f ∈ fs, ∃ p, pt f.2 = some p ∧ I p) :
    ((((fs.map (fun f => f.1 ++ [((0 : ℤ), f.2)])).flatMap followed).filterMap pt).filter
      (fun q => I q)).length + fs.length =
    ((((fs.map (fun f => f.1 ++ [((0 : ℤ), f.2)])).flatMap untagged).filterMap pt).filter
      (fun q => I q)).length := by
  induction fs with
  | nil => simp
  | cons f fs ih =>
    obtain ⟨p, hp, hpI⟩ := hlast f (by simp)
    have := ih (fun f hf => hlast f (by simp [hf]))
    simp only [List.map_cons, List.flatMap_cons, List.filterMap_append, List.filter_append,
      List.length_append, untagged_eq, List.length_cons] at this ⊢
    have h1 : ((List.filterMap pt [f.2]).filter (fun q => decide (I q))).length = 1 := by
      simp [hp, hpI]
    rw [h1]
    omega

open Classical in
/-- **C116 fails with the coincidence cut**: if every file ends with a candidate that all axes
accept in range, one candidate of every file is lost, compared with those that are not followed by
another trigger of the same event. -/
theorem c116_bipo_last_negation (ft : FloatText) (rnd : ℝ → ℚ) (disk : Disk)
    (fs : List (Ntuple × NtEntry)) (hf : fs ≠ []) (config : SpectraConfig) (hc : AxesConfig config)
    (name savePath b : PyStr) (hn : name ≠ []) (fv outer outer' : Option ℝ)
    (ho : OuterUsed config outer outer') (exts : List (PyStr × Extractor))
    (h : ExtractorsOf { fv, outer := outer' } (config.pars.map Prod.snd) exts)
    (hb : (FullSpec.new name 0 config none none).getBackgroundName = .ok b)
    (hlast : ∀ f ∈ fs, ∃ p, pointOf (ntVal rnd) exts f.2 = some p ∧
      InRange (Spectrum.new name 0 (config.pars.map Prod.snd)) p) :
    ∃ disk' t, multiNtupleScript rnd disk (fs.map (fun f => f.1 ++ [(0, f.2)])) config name savePath
        true fv outer = .done disk' ∧ Holds ft disk' (savePath ++ name ++ lit ".hdf5") t ∧
      t.rawEvents + fs.length =
        ((((fs.map (fun f => f.1 ++ [((0 : ℤ), f.2)])).flatMap untagged).filterMap
          (pointOf (ntVal rnd) exts)).filter
            (fun q => InRange (Spectrum.new name 0 (config.pars.map Prod.snd)) q)).length := by
  obtain ⟨disk', t, h1, -, h3, h4, -⟩ := c116_combined ft rnd disk
    (fs.map (fun f => f.1 ++ [((0 : ℤ), f.2)])) (by simpa using hf) config hc name savePath b hn true
    fv outer outer' ho exts h hb
  refine ⟨disk', t, h1, h3, ?_⟩
  have hr : t.rawEvents = _ := h4.core.raw
  rw [hr]
  have := lost_count (pointOf (ntVal rnd) exts)
    (InRange (Spectrum.new name 0 (config.pars.map Prod.snd))) fs hlast
  rw [← this]
  simp only [Spectrum.new, zero_add]
  rfl

example : ∀ f ∈ [(([] : Ntuple), Ex.entry)], ∃ p,
    pointOf (ntVal (fun _ => 2)) Ex.exts f.2 = some p ∧
      InRange (Spectrum.new (lit "Te130_mc") 0 (Ex.twoAxes.pars.map Prod.snd)) p := by
  intro f hf
  simp only [List.mem_singleton] at hf
  subst hf
  refine ⟨_, Ex.entry_point.1, ?_⟩
  have := Ex.entry_point.2
  unfold InRange at this ⊢
  exact this

theorem fillNew_error (rnd : ℝ → ℚ) (file : Ntuple) (name : PyStr) (config : SpectraConfig)
    (bipo : Bool) (args : ExtArgs)
    (h : name = [] ∨ ∃ p ps, config.pars.map Prod.snd = p :: ps ∧ p.name ∉ documentedDims) :
    ∃ e, fillNew rnd file name config bipo args = .error e := by
  by_cases hn : name = []
  · refine ⟨.valueError, ?_⟩
    unfold fillNew
    rw [(c66_ntuple_new rnd file name _ args bipo).1 (.inl hn)]
  · obtain ⟨p, ps, hp, hd⟩ := h.resolve_left hn
    refine ⟨.indexError, ?_⟩
    unfold fillNew
    rw [fillFromNtuple_new rnd file name hn _ [] none,
      c66_failed_append_negation rnd file [] none _ p ps hp hd bipo args]
    rfl

/-- **C116, refusals.** An empty directory, an empty name, an outer radius without an axis
`radial3` and a configuration whose first axis has no documented dimension are refused; nothing is
written. -/
theorem c116_refused (rnd : ℝ → ℚ) (disk : Disk) (files : List Ntuple) (config : SpectraConfig)
    (name savePath : PyStr) (bipo : Bool) (fv outer : Option ℝ)
    (h : files = [] ∨ name = [] ∨
      (∃ r, outer = some r ∧ r ≠ 0 ∧ lit "radial3" ∉ getDims config.getPars) ∨
      ∃ p ps, config.pars.map Prod.snd = p :: ps ∧ p.name ∉ documentedDims) :
    ∃ why, multiNtupleScript rnd disk files config name savePath bipo fv outer =
      .stopped disk why := by
  unfold multiNtupleScript
  cases hoc : outerCheck config outer with
  | error e => exact ⟨_, rfl⟩
  | ok o =>
    dsimp only
    cases files with
    | nil => exact ⟨_, rfl⟩
    | cons f fs =>
      have h' : name = [] ∨ ∃ p ps, config.pars.map Prod.snd = p :: ps ∧ p.name ∉ documentedDims := by
        rcases h with h | h | ⟨r, rfl, hr, hd⟩ | h
        · cases h
        · exact .inl h
        · unfold outerCheck at hoc
          dsimp only at hoc
          rw [if_neg hr, if_neg hd] at hoc
          cases hoc
        · exact .inr h
      obtain ⟨e, he⟩ := fillNew_error rnd f name config bipo { fv, outer := o } h'
      dsimp only
      rw [he]
      exact ⟨_, rfl⟩

example : ∃ (p : SPar) (ps : List SPar), [⟨lit "time_mc", 0, 1, 1⟩] = p :: ps ∧
    p.name ∉ documentedDims :=
  ⟨⟨lit "time_mc", 0, 1, 1⟩, [], rfl, by simp [documentedDims]⟩

/-- **C116 fails for a name without a data type label**: all files are read, then saving raises a
`ValueError`, and whatever was at the path before is replaced by a file that cannot be loaded. -/
theorem c116_unlabelled_negation (ft : FloatText) (rnd : ℝ → ℚ) (disk : Disk) (files : List Ntuple)
    (hf : files ≠ []) (config : SpectraConfig) (hc : AxesConfig config) (name savePath : PyStr)
    (hn : name ≠ []) (bipo : Bool) (fv outer outer' : Option ℝ) (ho : OuterUsed config outer outer')
    (exts : List (PyStr × Extractor))
    (h : ExtractorsOf { fv, outer := outer' } (config.pars.map Prod.snd) exts)
    (hb : ∀ t, DataLabel t → ¬ t <:+: name) :
    ∃ disk' f, multiNtupleScript rnd disk files config name savePath bipo fv outer =
        .stopped disk' (.raised .valueError) ∧
      OnlyAt (savePath ++ name ++ lit ".hdf5") disk disk' ∧
      disk' (savePath ++ name ++ lit ".hdf5") = some f ∧
      load ft (savePath ++ name ++ lit ".hdf5") f = .error .keyError := by
  obtain ⟨first, rest, rfl⟩ := List.exists_cons_of_ne_nil hf
  obtain ⟨s, h1, h2⟩ := fillNew_partway rnd hc first hn bipo _ exts h
  obtain ⟨s', h3, h4⟩ := fillAll_partway rnd hc bipo _ exts h rest h2
  have hbg : s'.getBackgroundName = .error .valueError := by
    rw [c85_refused]
    refine ⟨.inl h4.background, ?_⟩
    have : s'.name = name := h4.core.name
    rw [this]; exact hb
  set path := savePath ++ name ++ lit ".hdf5" with hpath
  have hd : ∀ file : Option H5, dump file s' = dump (some ⟨none, none, none, none⟩) s' := by
    intro file
    cases file with
    | none => exact (c86_other_groups _ s' false).2.2.2.symm
    | some f =>
      exact (c86_other_groups f s' false).2.2.2.trans (c86_other_groups _ s' false).2.2.2.symm
  obtain ⟨g1, -, g3⟩ := c86_failed_save_negation ft path ⟨none, none, none, none⟩ s' _ hbg false rfl
  have herr : (dump (disk path) s').err = some .valueError := by
    unfold dump
    simp only [H5.opened, Option.isSome_none, Bool.false_eq_true, if_false, hbg]
  refine ⟨disk.write path (dump (disk path) s').file, (dump (disk path) s').file, ?_, ?_, ?_, ?_⟩
  · unfold multiNtupleScript
    rw [outerCheck_used ho]
    dsimp only
    rw [h1]
    have : (do
        let s ← Except.ok s
        rest.foldlM (fillMore rnd bipo { fv, outer := outer' }) s : Except PyErr FullSpec) =
        .ok s' := h3
    rw [this]
    dsimp only
    unfold dumpAt
    dsimp only
    rw [← hpath, herr]
  · intro p hp
    unfold Disk.write
    rw [if_neg hp]
  · unfold Disk.write
    rw [if_pos rfl]
  · rw [hd]
    exact g3

example : ∀ t, DataLabel t → ¬ t <:+: lit "Te130" := by
  intro t ht
  cases ht <;> decide +kernel

/-- The default name: the last character of the path is dropped. -/
theorem bkgndDefault_eq (dir name : PyStr) (c : Char) (hd : dir = [] ∨ dir.getLast? = some '/')
    (hn : name ≠ [] ∧ '/' ∉ name) : bkgndDefault (dir ++ (name ++ [c])) = name := by
  obtain ⟨a, x, rfl⟩ := (List.eq_nil_or_concat name).resolve_left hn.1
  rw [List.concat_eq_append] at hn ⊢
  have ha : '/' ∉ a := by
    intro h; apply hn.2; simp [h]
  have h1 : pySlice (dir ++ (a ++ [x] ++ [c])) 0 (-2) = dir ++ a := by
    unfold pySlice
    rw [if_pos (by omega)]
    dsimp only
    have : (max 0 (-2 + ((dir ++ (a ++ [x] ++ [c])).length : ℤ))).toNat = (dir ++ a).length := by
      simp; omega
    rw [this]
    simp only [Int.toNat_zero, List.drop_zero, List.append_assoc]
    rw [← List.append_assoc dir, List.take_left]
  unfold bkgndDefault
  rw [h1, rfind_slash ha hd]
  unfold pySlice
  rw [if_pos (by omega)]
  dsimp only
  have : (max 0 (-1 + ((dir ++ (a ++ [x] ++ [c])).length : ℤ))).toNat =
      (dir ++ (a ++ [x])).length := by
    simp; omega
  rw [this, Int.toNat_natCast, ← List.append_assoc dir (a ++ [x]) [c], List.take_left, List.drop_left]

/-- **C116, default name.** Without a name, the last folder of a path that ends with a slash is
taken. -/
theorem c116_default_name (dir name : PyStr) (hd : dir = [] ∨ dir.getLast? = some '/')
    (hn : name ≠ [] ∧ '/' ∉ name) : bkgndDefault (dir ++ name ++ lit "/") = name := by
  rw [List.append_assoc]
  exact bkgndDefault_eq dir name '/' hd hn

/-- **C116, default name, fails without the slash**: the last character of the folder is lost, so
that folders that differ in it only are saved to the same file. -/
theorem c116_default_name_negation (dir name : PyStr) (c c' : Char)
    (hd : dir = [] ∨ dir.getLast? = some '/') (hn : name ≠ [] ∧ '/' ∉ name) :
    bkgndDefault (dir ++ name ++ [c]) = name ∧ bkgndDefault (dir ++ name ++ [c']) = name := by
  simp only [List.append_assoc]
  exact ⟨bkgndDefault_eq dir name c hd hn, bkgndDefault_eq dir name c' hd hn⟩

example : bkgndDefault (lit "/data/Tl208_mc/") = lit "Tl208_mc" ∧
    bkgndDefault (lit "/data/Tl208_mc") = lit "Tl208_m" :=
  ⟨c116_default_name (lit "/data/") (lit "Tl208_mc") (.inr rfl) (by decide),
    (c116_default_name_negation (lit "/data/") (lit "Tl208_m") 'c' 'c' (.inr rfl) (by decide)).1⟩

/-! ### C117 -/

/-- **C117.** `dump_spectra_ntuple.py` saves the spectrum of one ntuple in the directory asked for,
under the whole name of the file with `.hdf5` after it. The spectrum stands for as many decays as
there are entries, every entry that all axes accept is counted once, and for a name without `mc` the
background is the name of the file. -/
theorem c117_ntuple (ft : FloatText) (rnd : ℝ → ℚ) (disk : Disk) (file : Ntuple)
    (config : SpectraConfig) (hc : AxesConfig config) (dir fname savePath : PyStr)
    (hd : dir = [] ∨ dir.getLast? = some '/') (hn : fname ≠ [] ∧ '/' ∉ fname) (bipo : Bool)
    (hmc : ¬ lit "mc" <:+: fname ++ lit "_m")
    (fv outer outer' : Option ℝ) (ho : OuterUsed config outer outer')
    (exts : List (PyStr × Extractor))
    (h : ExtractorsOf { fv, outer := outer' } (config.pars.map Prod.snd) exts) :
    ∃ disk' t, ntupleScript rnd disk file config (ntupleName (dir ++ fname)) savePath bipo fv outer =
        .done disk' ∧ OnlyAt (savePath ++ lit "/" ++ fname ++ lit ".hdf5") disk disk' ∧
      Input ft disk' (savePath ++ lit "/" ++ fname ++ lit ".hdf5") t fname ∧
      SavedFill (fname ++ lit "_mc") config bipo file.length
        ((keptEntries bipo file).filterMap (pointOf (ntVal rnd) exts)) fname t := by
  have hname : ntupleName (dir ++ fname) = fname := by
    obtain ⟨a, x, rfl⟩ := (List.eq_nil_or_concat fname).resolve_left hn.1
    rw [List.concat_eq_append] at hn ⊢
    have ha : '/' ∉ a := by
      intro h; apply hn.2; simp [h]
    have h1 : pySlice (dir ++ (a ++ [x])) 0 (-1) = dir ++ a := by
      unfold pySlice
      rw [if_pos (by omega)]
      dsimp only
      have : (max 0 (-1 + ((dir ++ (a ++ [x])).length : ℤ))).toNat = (dir ++ a).length := by
        simp
        omega
      rw [this]
      simp only [Int.toNat_zero, List.drop_zero]
      rw [← List.append_assoc dir, List.take_left]
    unfold ntupleName
    rw [h1, rfind_slash ha hd, Int.toNat_natCast, List.drop_left]
  rw [hname]
  obtain ⟨s, h1, h2⟩ := fillNew_partway rnd hc file (name := fname ++ lit "_mc") (by simp) bipo _ exts h
  have hb : s.getBackgroundName = .ok fname := by
    refine c85_derived s (.inl h2.background) fname '_' (lit "mc") [] ?_ .mc hmc
      (fun h => absurd rfl h) (fun h => by cases h)
    have : s.name = fname ++ lit "_mc" := h2.core.name
    rw [this]; rfl
  obtain ⟨disk', t, g1, g2, g3, g4, g5⟩ :=
    h2.saved ft hc disk (savePath ++ lit "/" ++ fname ++ lit ".hdf5") hb
  refine ⟨disk', t, ?_, g2, g5 hn.1, g4⟩
  unfold ntupleScript
  rw [outerCheck_used ho]
  dsimp only
  rw [h1]
  exact g1

example : (lit "te.ntuple.root" ≠ [] ∧ '/' ∉ lit "te.ntuple.root") ∧
    ¬ lit "mc" <:+: lit "te.ntuple.root" ++ lit "_m" ∧
    ExtractorsOf {} (Ex.twoAxes.pars.map Prod.snd) Ex.exts :=
  ⟨by decide, by decide +kernel, Ex.exts_ok⟩

/-- **C117, refusals.** An outer radius without an axis `radial3` and a configuration whose first
axis has no documented dimension are refused; nothing is written. -/
theorem c117_refused (rnd : ℝ → ℚ) (disk : Disk) (file : Ntuple) (config : SpectraConfig)
    (name savePath : PyStr) (bipo : Bool) (fv outer : Option ℝ)
    (h : (∃ r, outer = some r ∧ r ≠ 0 ∧ lit "radial3" ∉ getDims config.getPars) ∨
      ∃ p ps, config.pars.map Prod.snd = p :: ps ∧ p.name ∉ documentedDims) :
    ∃ why, ntupleScript rnd disk file config name savePath bipo fv outer = .stopped disk why := by
  unfold ntupleScript
  cases hoc : outerCheck config outer with
  | error e => exact ⟨_, rfl⟩
  | ok o =>
    have h' : ∃ p ps, config.pars.map Prod.snd = p :: ps ∧ p.name ∉ documentedDims := by
      rcases h with ⟨r, rfl, hr, hd⟩ | h
      · unfold outerCheck at hoc
        dsimp only at hoc
        rw [if_neg hr, if_neg hd] at hoc
        cases hoc
      · exact h
    obtain ⟨e, he⟩ := fillNew_error rnd file (name ++ lit "_mc") config bipo { fv, outer := o } (.inr h')
    dsimp only
    rw [he]
    exact ⟨_, rfl⟩

/-- **C117 fails for root files**: `dump_spectra_root.py` never saves anything; with input that can
be read it stops with an `AttributeError`. -/
theorem c117_root_negation (rnd : ℝ → ℚ)
    (order : List (PyStr × Extractor) → List (PyStr × Extractor)) (disk : Disk)
    (file : List RootDS) (config : SpectraConfig) (name : PyStr) (bipo : Bool)
    (fv outer : Option ℝ) :
    (∃ why, rootScript rnd order disk file config name bipo fv outer = .stopped disk why) ∧
    (∀ t outer', OuterUsed config outer outer' →
      fillFromRoot rnd order file name (some (config.pars.map Prod.snd)) none bipo
        { fv, outer := outer' } = .ok (.ok t) →
      rootScript rnd order disk file config name bipo fv outer =
        .stopped disk (.raised .attributeError)) := by
  constructor
  · unfold rootScript
    cases outerCheck config outer with
    | error e => exact ⟨_, rfl⟩
    | ok o =>
      dsimp only
      rcases fillFromRoot rnd order file name (some (config.pars.map Prod.snd)) none bipo
        { fv, outer := o } with e | ⟨t, _ | e⟩ <;> exact ⟨_, rfl⟩
  · intro t outer' ho h
    unfold rootScript
    rw [outerCheck_used ho]
    dsimp only
    rw [h]
    rfl

/-- A file with one entry that can be read. -/
example (rnd : ℝ → ℚ) : OuterUsed Ex.twoAxes none none ∧
    ∃ t, fillFromRoot rnd id [Ex.ds] (lit "Te130_mc") (some (Ex.twoAxes.pars.map Prod.snd)) none
      false {} = .ok (.ok t) := by
  refine ⟨.inl ⟨.inl rfl, rfl⟩, ?_⟩
  obtain ⟨t, ht, -⟩ := c66_root_mc rnd id (fun l => .refl l) [Ex.ds] [] none
    (Spectrum.new (lit "Te130_mc") 0 (Ex.twoAxes.pars.map Prod.snd))
    (Ex.twoAxes_ok.new_wf _ _) (by simp [Spectrum.new, Ex.twoAxes])
    (by simp [Spectrum.new, Ex.twoAxes, Ex.energy, Ex.radial, simulatedDims]) false {} Ex.exts Ex.exts_ok
    (by simp [bipoKept, Readable, Ex.ds])
  refine ⟨t, ?_⟩
  rw [← ht]
  unfold fillFromRoot fillTarget
  simp [Spectrum.new]

/-- **C117 fails for lists of files**: a text file with one path per line is refused with a
`ValueError` unless it has two lines, and then only the first file is read; if one of the two lines is
empty, no file is read and there is no exception. -/
theorem c117_list_negation (lines : List PyStr) :
    (lines.length ≠ 2 → listedFiles lines = .error .valueError) ∧
    (∀ a b, lines = [a, b] → a ≠ [] → b ≠ [] → '\t' ∉ a → '\t' ∉ b →
      listedFiles lines = .ok [(a, b)]) ∧
    ∀ a b, lines = [a, b] → a = [] ∨ b = [] → listedFiles lines = .ok [] := by
  refine ⟨?_, ?_, ?_⟩
  · intro h
    unfold listedFiles readTabDelim
    match lines, h with
    | [], _ => rfl
    | [a], _ => rfl
    | [a, b], h => exact absurd rfl h
    | a :: b :: c :: l, _ => rfl
  · rintro a b rfl ha hb hta htb
    unfold listedFiles readTabDelim
    simp only [List.map_cons, List.map_nil, ha, hb, if_false, pySplit_of_not_mem hta,
      pySplit_of_not_mem htb, List.zip_cons_cons, List.zip_nil_right]
  · rintro a b rfl (rfl | rfl) <;> unfold listedFiles readTabDelim
    · simp only [List.map_cons, List.map_nil, if_true, List.zip_nil_left]
    · simp only [List.map_cons, List.map_nil, if_true, List.zip_nil_right]

example : listedFiles [lit "a.root", lit "b.root"] = .ok [(lit "a.root", lit "b.root")] ∧
    listedFiles [lit "a.root", lit "b.root", lit "c.root"] = .error .valueError :=
  ⟨(c117_list_negation _).2.1 _ _ rfl (by decide) (by decide) (by decide) (by decide),
    (c117_list_negation _).1 (by decide)⟩

/-- **C117.** A text file with two lines, of paths and of half lives with tabs in between, gives
every path with its half life. -/
theorem c117_list (paths halfLives : List PyStr) (hp : paths ≠ []) (hh : halfLives ≠ [])
    (hpt : ∀ p ∈ paths, '\t' ∉ p) (hht : ∀ p ∈ halfLives, '\t' ∉ p)
    (h1 : pyJoin '\t' paths ≠ []) (h2 : pyJoin '\t' halfLives ≠ []) :
    listedFiles [pyJoin '\t' paths, pyJoin '\t' halfLives] = .ok (paths.zip halfLives) := by
  unfold listedFiles readTabDelim
  simp only [List.map_cons, List.map_nil, h1, h2, if_false]
  unfold pyJoin
  rw [pySplit_intercalate hp hpt, pySplit_intercalate hh hht]

example : listedFiles [pyJoin '\t' [lit "a.root", lit "b.root"], pyJoin '\t' [lit "1", lit "2"]] =
    .ok [(lit "a.root", lit "1"), (lit "b.root", lit "2")] :=
  c117_list [lit "a.root", lit "b.root"] [lit "1", lit "2"] (by simp) (by simp) (by decide)
    (by decide) (by decide) (by decide)

end Verif
