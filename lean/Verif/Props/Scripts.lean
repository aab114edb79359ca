import Verif.Lemmas.Scripts
import Verif.Props.Rebin
import Verif.Props.Shrink
import Verif.Props.Shift

/-! # C111–C113: the scripts that rebin, shrink, shift and scale -/

namespace Verif

open Spectrum

/-! ### the input of the examples -/

/-- A spectrum with one event in every cell. -/
noncomputable def Ex.filledSpec : FullSpec :=
  { Ex.saved with data := ⟨[10, 3], fun _ => 1⟩ }

theorem Ex.filledSpec_savable : Savable Ex.filledSpec :=
  have h := Ex.saved_storable.savable
  ⟨⟨h.axes.axes, h.axes.distinct, h.axes.names, rfl⟩, h.fit, h.style⟩

theorem Ex.filledSpec_wf : Ex.filledSpec.core.WF where
  axes := by
    intro p hp
    simp only [FullSpec.core, Ex.filledSpec, Ex.saved, List.map_cons, List.map_nil, List.mem_cons,
      List.not_mem_nil, or_false] at hp
    rcases hp with rfl | rfl <;> constructor <;> norm_num
  names := by decide
  shape := by decide

/-- A disk with this spectrum at `path`. -/
theorem Ex.input (ft : FloatText) (path : PyStr) : ∃ disk s,
    Input ft disk path s (lit "Te130_2n2b") ∧ s.core = Ex.filledSpec.core := by
  obtain ⟨disk', t, -, -, h3, h4, h5, h6, h7, h8, h9⟩ :=
    dumpAt_saved ft (fun _ => none) path Ex.filledSpec _ Ex.filledSpec_savable Ex.saved_background
  have hc : t.core = Ex.filledSpec.core := by
    unfold FullSpec.core
    rw [h4, h5, h6, h7, h8]
  refine ⟨disk', t, ⟨h3, Ex.filledSpec_savable.of_same h5 h8 h9, ?_, h9.background, by decide⟩, hc⟩
  rw [hc]; exact Ex.filledSpec_wf

/-! ### C111 -/

/-- **C111.** `rebin.py` with numbers of bins that divide those of the axes saves the rebinned
spectrum at the path asked for, or beside the input with `_rebin.hdf5` in place of the extension;
blocks of cells are merged, ranges, total, decays, name, labels, style and fit parameters are kept,
no other file is changed and the output can be used as an input again. -/
theorem c111_rebin (ft : FloatText) (disk : Disk) (input : PyStr) (s : FullSpec) (b : PyStr)
    (h : Input ft disk input s b) (output : Option PyStr) (out : PyStr)
    (ho : Target output (Beside input (lit "_rebin.hdf5")) out)
    (ns : List ℕ) (hl : ns.length = s.core.cfg.length)
    (hd : ∀ i (h1 : i < s.core.cfg.length) (h2 : i < ns.length),
      ((ns[i] : ℕ) : ℤ) ∣ s.core.cfg[i].bins) :
    ∃ disk' t, rebinScript ft disk input output (some ns) = .done disk' ∧ OnlyAt out disk disk' ∧
      Input ft disk' out t b ∧ IsRebin s.data ns t.data ∧
      t.core.cfg = List.zipWith (fun (p : SPar) (n : ℕ) => { p with bins := (n : ℤ) }) s.core.cfg ns ∧
      t.data.sum = s.data.sum ∧ t.numDecays = s.numDecays ∧ t.rawEvents = s.rawEvents ∧
      t.name = s.name ∧ SameLabels b s t := by
  have hr := c13_rebin s.core h.wf ns
  have hok := hr.1.2 ⟨hl, hd⟩
  obtain ⟨r1, r2, r3, r4, r5, r6, -⟩ := hr.2 hok
  set c := (s.core.rebin ns).st with hc
  have hnames : c.cfg.map SPar.name = s.core.cfg.map SPar.name := by
    rw [r2]
    generalize s.core.cfg = cfg at hl
    clear * - hl
    induction cfg generalizing ns with
    | nil => simp
    | cons p cfg ih => cases ns with
      | nil => simp at hl
      | cons n ns => simp [ih ns (by simpa using hl)]
  have hbins : c.cfg.map SPar.bins = ns.map (fun n : ℕ => (n : ℤ)) := by
    rw [r2]
    generalize s.core.cfg = cfg at hl
    clear * - hl
    induction cfg generalizing ns with
    | nil => cases ns with
      | nil => rfl
      | cons n ns => simp at hl
    | cons p cfg ih => cases ns with
      | nil => simp at hl
      | cons n ns => simp [ih ns (by simpa using hl)]
  have hdim : c.data.shape.length = s.data.shape.length := by
    have := congrArg List.length h.wf.shape
    rw [r1.1, hl]
    simpa [FullSpec.core] using this.symm
  have hwf : c.WF := by
    refine ⟨?_, ?_, ?_⟩
    · intro p hp
      rw [r2, List.mem_iff_getElem] at hp
      obtain ⟨i, hi, rfl⟩ := hp
      simp only [List.length_zipWith, lt_inf_iff] at hi
      have h1 := h.wf.axes _ (List.getElem_mem hi.1)
      have h2 := hd i hi.1 hi.2
      simp only [List.getElem_zipWith]
      refine ⟨?_, h1.2⟩
      rcases Nat.eq_zero_or_pos ns[i] with h0 | h0
      · rw [h0] at h2
        have := Int.zero_dvd.1 (by exact_mod_cast h2)
        have := h1.1
        omega
      · show (0 : ℤ) < (ns[i] : ℤ)
        exact_mod_cast h0
    · rw [hnames]; exact h.wf.names
    · rw [r1.1, hbins]
  obtain ⟨disk', t, h1, h2, h3, h4, h5, h6⟩ := h.saved out c hnames hdim
  refine ⟨disk', t, ?_, h2, h6 hwf, ?_, ?_, ?_, ?_, ?_, ?_, h5⟩
  · have ho' : rebinScript ft disk input output (some ns) = dumpAt disk out (s.withCore c) := by
      unfold rebinScript
      rw [loadAt_holds h.holds]
      dsimp only
      have e : s.core.rebin ns = ⟨c, none⟩ := by
        rw [hc, ← hok]
      rw [e]
      dsimp only
      rcases ho with ⟨rfl, hne⟩ | ⟨ho, dir, stem, ext, hp, rfl⟩
      · cases out with
        | nil => exact absurd rfl hne
        | cons x o => rfl
      · unfold besides
        rw [cutPath_ext hp]
        rcases ho with rfl | rfl <;> rfl
    rw [ho', h1]
  · have : t.data = c.data := congrArg Spectrum.data h4
    rw [this]; exact r1
  · rw [h4]; exact r2
  · have : t.data = c.data := congrArg Spectrum.data h4
    rw [this]; exact r3
  · exact (congrArg Spectrum.numDecays h4).trans r4
  · exact (congrArg Spectrum.rawEvents h4).trans r5
  · exact (congrArg Spectrum.name h4).trans r6

/-- **C111.** Without an option, with another number of entries or with an entry that does not
divide, and for a missing file, nothing is written. -/
theorem c111_refused (ft : FloatText) (disk : Disk) (input : PyStr) (output : Option PyStr) :
    (∀ bins, disk input = none → rebinScript ft disk input output bins = .stopped disk .ioError) ∧
    ∀ s, Holds ft disk input s → s.core.WF → ∀ bins : Option (List ℕ),
      (∀ ns, bins = some ns → ns.length ≠ s.core.cfg.length ∨
        ∃ i, ∃ (h1 : i < s.core.cfg.length) (h2 : i < ns.length),
          ¬ ((ns[i] : ℕ) : ℤ) ∣ s.core.cfg[i].bins) →
      ∃ why, rebinScript ft disk input output bins = .stopped disk why := by
  constructor
  · intro bins h
    unfold rebinScript loadAt
    rw [h]
  · intro s hs hwf bins hb
    unfold rebinScript
    rw [loadAt_holds hs]
    dsimp only
    cases bins with
    | none => exact ⟨_, rfl⟩
    | some ns =>
      have hn : (s.core.rebin ns).err ≠ none := by
        intro h0
        obtain ⟨h1, h2⟩ := (c13_rebin s.core hwf ns).1.1 h0
        rcases hb ns rfl with h | ⟨i, hi1, hi2, h⟩
        · exact h h1
        · exact h (h2 i hi1 hi2)
      dsimp only
      rcases hr : s.core.rebin ns with ⟨c, _ | e⟩
      · rw [hr] at hn; exact absurd rfl hn
      · exact ⟨_, rfl⟩

/-- The hypotheses are met: 10 and 3 bins are made 5 and 3. -/
example (ft : FloatText) : ∃ disk s, Input ft disk (lit "/data/te.hdf5") s (lit "Te130_2n2b") ∧
    Target none (Beside (lit "/data/te.hdf5") (lit "_rebin.hdf5")) (lit "/data/te_rebin.hdf5") ∧
    ∀ i (h1 : i < s.core.cfg.length) (h2 : i < [5, 3].length),
      (([5, 3][i] : ℕ) : ℤ) ∣ s.core.cfg[i].bins := by
  obtain ⟨disk, s, h1, h2⟩ := Ex.input ft (lit "/data/te.hdf5")
  refine ⟨disk, s, h1, .inr ⟨.inl rfl, lit "/data/", lit "te", lit "hdf5",
    ⟨by decide, .inr (by decide), by decide, by decide⟩, by decide⟩, ?_⟩
  rw [h2]
  intro i _ hi
  simp only [List.length_cons, List.length_nil] at hi
  interval_cases i
  · exact ⟨2, rfl⟩
  · exact ⟨1, rfl⟩

/-! ### C112 -/

theorem asksEdges_perm {s : Spectrum} {kw kw' : List (PyStr × ℚ)} {rs : List (ℕ × ℕ)}
    (hp : kw'.Perm kw) (h : AsksEdges s kw rs) : AsksEdges s kw' rs := by
  obtain ⟨h1, h2, h3⟩ := h
  have ha : ∀ key d v, Asked kw key d v → Asked kw' key d v := by
    rintro key d v (h | ⟨h, rfl⟩)
    · exact .inl (hp.mem_iff.2 h)
    · exact .inr ⟨fun v' hv => h v' (hp.mem_iff.1 hv), rfl⟩
  refine ⟨(hp.map Prod.fst).nodup_iff.2 h1, fun e he => h2 e (hp.mem_iff.1 he), ?_⟩
  exact h3.imp fun p r ⟨a, b, c, d⟩ => ⟨a, b, ha _ _ _ c, ha _ _ _ d⟩

/-- Lower and upper bounds, parameter by parameter. -/
def bothBounds (l : List (PyStr × ℚ × ℚ)) : List (PyStr × ℚ) :=
  l.flatMap (fun e => [(e.1 ++ lit "_low", e.2.1), (e.1 ++ lit "_high", e.2.2)])

theorem bothBounds_perm (pars : List PyStr) (low up : List ℚ) (h1 : low.length = pars.length)
    (h2 : up.length = pars.length) :
    (bothBounds (pars.zip (low.zip up))).Perm (boundsOf pars low up) := by
  induction pars generalizing low up with
  | nil => simp [bothBounds, boundsOf]
  | cons p pars ih =>
    cases low with
    | nil => simp at h1
    | cons a low =>
      cases up with
      | nil => simp at h2
      | cons c up =>
        have := ih low up (by simpa using h1) (by simpa using h2)
        unfold bothBounds boundsOf at this ⊢
        simp only [List.zip_cons_cons, List.flatMap_cons, List.map_cons, List.cons_append,
          List.nil_append]
        refine List.Perm.cons _ ?_
        exact (List.Perm.cons _ this).trans List.perm_middle.symm

/-- The keywords are the bounds asked for, if no parameter is named twice. -/
theorem shrinkArgs_bounds {pars : List PyStr} {low up : List ℚ}
    (hl : low = [] ∨ low.length = pars.length) (hu : up = [] ∨ up.length = pars.length)
    (hne : ¬ (low = [] ∧ up = [])) (hd : IsDict (boundsOf pars low up)) :
    ∃ kw, shrinkArgs pars low up = .ok kw ∧ kw.Perm (boundsOf pars low up) := by
  unfold shrinkArgs
  by_cases h1 : low = []
  · subst h1
    have hu0 : up ≠ [] := fun h => hne ⟨rfl, h⟩
    have hul := hu.resolve_left hu0
    rw [if_neg (by simp), if_neg (by simp), if_neg (by simpa using hul)]
    refine ⟨_, rfl, ?_⟩
    rw [foldl_dictSet_fresh (fun e : PyStr × ℚ => e.1 ++ lit "_high") (fun e => e.2)]
    · simp [boundsOf]
    · simpa [IsDict, boundsOf, Function.comp_def] using hd
    · simp
  · have hll := hl.resolve_left h1
    by_cases h2 : up = []
    · subst h2
      rw [if_neg (by simp), if_pos h1, if_neg (by simpa using hll)]
      refine ⟨_, rfl, ?_⟩
      rw [foldl_dictSet_fresh (fun e : PyStr × ℚ => e.1 ++ lit "_low") (fun e => e.2)]
      · simp [boundsOf]
      · simpa [IsDict, boundsOf, Function.comp_def] using hd
      · simp
    · have hul := hu.resolve_left h2
      rw [if_pos ⟨h1, h2⟩, if_neg (by simp [hll, hul])]
      have hp := bothBounds_perm pars low up hll hul
      refine ⟨_, rfl, ?_⟩
      have : (pars.zip (low.zip up)).foldl (fun d e =>
          dictSet (dictSet d (e.1 ++ lit "_low") e.2.1) (e.1 ++ lit "_high") e.2.2) [] =
          (bothBounds (pars.zip (low.zip up))).foldl (fun d e => dictSet d e.1 e.2) [] := by
        unfold bothBounds
        rw [List.foldl_flatMap]
        rfl
      rw [this, foldl_dictSet_fresh (fun e : PyStr × ℚ => e.1) (fun e => e.2)]
      · simpa using hp
      · exact (hp.map Prod.fst).nodup_iff.2 hd
      · simp

theorem shrink_target {input : PyStr} {output : Option PyStr} {out : PyStr} (disk : Disk)
    (s : FullSpec) (ho : Target output (BesideIn input (lit "_shrunk.hdf5")) out) :
    (match (generalizing := false) output with
      | some (c :: o) => dumpAt disk (c :: o) s
      | _ => dumpAt disk
          (dirName input ++ lit "/" ++ splitRoot (baseName input) ++ lit "_shrunk.hdf5") s) =
      dumpAt disk out s := by
  rcases ho with ⟨rfl, hne⟩ | ⟨ho, d, stem, ext, hp, hd, hdl, hst, rfl⟩
  · cases out with
    | nil => exact absurd rfl hne
    | cons x o => rfl
  · have hb : '/' ∉ stem ++ '.' :: ext := by simp [hp.stem, hp.ext.1]
    have e1 : dirName input = d := by
      have : input = d ++ '/' :: (stem ++ '.' :: ext) := by rw [hp.eq]; simp
      rw [this]; exact dirName_path hb hd hdl
    have e2 : splitRoot (baseName input) = stem := by
      rw [hp.eq, baseName_path hb (.inr (by simp)), splitRoot_ext hp.ext.2 hst]
    rw [e1, e2]
    rcases ho with rfl | rfl <;> rfl

/-- **C112.** `dump_shrink.py` with bounds at bin edges, one for every named parameter, saves the
part of the spectrum between them, at the path asked for or beside the input with `_shrunk.hdf5` in
place of the extension. On axes whose lower edge is a multiple of the bin width the kept axes have
exactly these edges, and a part with cells can be used as an input again. -/
theorem c112_shrink (ft : FloatText) (disk : Disk) (input : PyStr) (s : FullSpec) (b : PyStr)
    (h : Input ft disk input s b) (hin : input ≠ []) (output : Option PyStr) (out : PyStr)
    (ho : Target output (BesideIn input (lit "_shrunk.hdf5")) out)
    (pars : List PyStr) (low up : List ℚ) (hne : pars ≠ []) (hg : ¬ (low = [] ∧ up = []))
    (hl : low = [] ∨ low.length = pars.length) (hu : up = [] ∨ up.length = pars.length)
    (rs : List (ℕ × ℕ)) (ha : AsksEdges s.core (boundsOf pars low up) rs) :
    ∃ disk' t, shrinkScript ft disk input output pars low up = .done disk' ∧ OnlyAt out disk disk' ∧
      Holds ft disk' out t ∧ IsSlice s.core rs t.core ∧
      t.core.cfg.map SPar.bins = rs.map (fun r => (r.2 : ℤ) - r.1) ∧
      t.numDecays = s.numDecays ∧ t.rawEvents = s.rawEvents ∧ t.name = s.name ∧ SameLabels b s t ∧
      ((∀ p ∈ s.core.cfg, p.Aligned) →
        t.core.cfg = List.zipWith subAxis s.core.cfg rs ∧
        ((∀ r ∈ rs, r.1 < r.2) → Input ft disk' out t b)) := by
  obtain ⟨kw, hkw, hperm⟩ := shrinkArgs_bounds hl hu hg ha.1
  have ha' := asksEdges_perm hperm ha
  obtain ⟨hok, r1, ⟨r2, r3, r4, r5⟩, r6, r7⟩ := c16_shrink_cells s.core h.wf kw rs ha'
  set c := (s.core.shrink kw).st with hc
  have hlen : rs.length = s.core.cfg.length := ha.2.2.length_eq.symm
  have hdim : c.data.shape.length = s.data.shape.length := by
    have := congrArg List.length h.wf.shape
    rw [r1.1, List.length_map, hlen]
    simpa [FullSpec.core] using this.symm
  obtain ⟨disk', t, h1, h2, h3, h4, h5, h6⟩ := h.saved out c r6 hdim
  have hcr : c.noRois = c := by
    have : c.rois = [] := r5
    unfold Spectrum.noRois
    rw [← this]
  rw [hcr] at h4
  refine ⟨disk', t, ?_, h2, h3, ?_, ?_, ?_, ?_, ?_, h5, fun hal => ⟨?_, fun hr => ?_⟩⟩
  · rw [← h1]
    unfold shrinkScript
    rw [if_neg (by simp [hin, hne, hg]), loadAt_holds h.holds]
    dsimp only
    rw [hkw]
    dsimp only
    have e : s.core.shrink kw = ⟨c, none⟩ := by rw [hc, ← hok]
    rw [e]
    exact shrink_target disk (s.withCore c) ho
  · rw [h4]; exact r1
  · rw [h4]; exact r7
  · exact (congrArg Spectrum.numDecays h4).trans r3
  · exact (congrArg Spectrum.rawEvents h4).trans r4
  · exact (congrArg Spectrum.name h4).trans r2
  · rw [h4]; exact (c16_shrink_edges s.core h.wf hal kw rs ha').2.2.1
  · exact h6 (isSub_wf h.wf (c16_shrink_edges s.core h.wf hal kw rs ha').2 hr hlen)

/-- **C112.** With no parameters or no bounds, another number of bounds than parameters, or a bound
that is not one of a parameter or out of range, nothing is written. -/
theorem c112_refused (ft : FloatText) (disk : Disk) (input : PyStr) (output : Option PyStr)
    (pars : List PyStr) (low up : List ℚ) (s : FullSpec) (hs : Holds ft disk input s)
    (hwf : s.core.WF) (hnm : ∀ p ∈ s.core.cfg, p.name ≠ [])
    (hbad : pars = [] ∨ (low = [] ∧ up = []) ∨ (low ≠ [] ∧ low.length ≠ pars.length) ∨
      (up ≠ [] ∧ up.length ≠ pars.length) ∨
      (IsDict (boundsOf pars low up) ∧ ∃ e ∈ boundsOf pars low up, ¬ BoundAccepted s.core e)) :
    ∃ why, shrinkScript ft disk input output pars low up = .stopped disk why := by
  unfold shrinkScript
  by_cases h0 : input = [] ∨ pars = [] ∨ (low = [] ∧ up = [])
  · rw [if_pos h0]; exact ⟨_, rfl⟩
  · rw [if_neg h0, loadAt_holds hs]
    dsimp only
    rw [not_or, not_or] at h0
    obtain ⟨-, hp0, hg0⟩ := h0
    by_cases hl : low = [] ∨ low.length = pars.length
    · by_cases hu : up = [] ∨ up.length = pars.length
      · rcases hbad with h | h | ⟨h, h'⟩ | ⟨h, h'⟩ | ⟨hd, e, he, hne⟩
        · exact absurd h hp0
        · exact absurd h hg0
        · exact absurd (hl.resolve_left h) h'
        · exact absurd (hu.resolve_left h) h'
        · obtain ⟨kw, hkw, hperm⟩ := shrinkArgs_bounds hl hu hg0 hd
          rw [hkw]
          dsimp only
          have hn : (s.core.shrink kw).err ≠ none := fun h =>
            hne ((c20_shrink_accepted_iff s.core hwf hnm kw).1 h e (hperm.mem_iff.2 he))
          rcases hr : s.core.shrink kw with ⟨c, _ | e⟩
          · rw [hr] at hn; exact absurd rfl hn
          · exact ⟨_, rfl⟩
      · rw [not_or] at hu
        have : shrinkArgs pars low up = .error .valueError := by
          unfold shrinkArgs
          split
          · rw [if_pos (.inr hu.2)]
          · rename_i h
            have hl0 : low = [] := by
              by_contra hc
              exact h ⟨hc, hu.1⟩
            rw [if_neg (by simp [hl0]), if_pos hu.2]
        rw [this]; exact ⟨_, rfl⟩
    · rw [not_or] at hl
      have : shrinkArgs pars low up = .error .valueError := by
        unfold shrinkArgs
        split
        · rw [if_pos (.inl hl.2)]
        · rw [if_pos hl.1, if_pos hl.2]
      rw [this]; exact ⟨_, rfl⟩

/-- The hypotheses are met: energy between 2 and 7. -/
example (ft : FloatText) : ∃ disk s, Input ft disk (lit "/data/te.hdf5") s (lit "Te130_2n2b") ∧
    Target none (BesideIn (lit "/data/te.hdf5") (lit "_shrunk.hdf5")) (lit "/data/te_shrunk.hdf5") ∧
    AsksEdges s.core (boundsOf [lit "energy_mc"] [2] [7]) [(2, 7), (0, 3)] ∧
    ∀ p ∈ s.core.cfg, p.Aligned := by
  obtain ⟨disk, s, h1, h2⟩ := Ex.input ft (lit "/data/te.hdf5")
  refine ⟨disk, s, h1, .inr ⟨.inl rfl, lit "/data", lit "te", lit "hdf5",
    ⟨by decide, .inr (by decide), by decide, by decide⟩, by decide, by decide, ⟨'t', by decide⟩,
    by decide⟩, ?_⟩
  rw [h2]
  refine ⟨⟨by unfold IsDict boundsOf; decide, ?_, ?_⟩, ?_⟩
  · intro e he
    simp only [boundsOf, List.zip_cons_cons, List.zip_nil_right, List.map_cons, List.map_nil,
      List.cons_append, List.nil_append, List.mem_cons, List.not_mem_nil, or_false] at he
    refine ⟨⟨lit "energy_mc", 0, 10, 10⟩, List.mem_cons_self, ?_⟩
    rcases he with rfl | rfl
    · exact .inl rfl
    · exact .inr rfl
  · refine .cons ⟨by norm_num, by decide, .inl ?_, .inl ?_⟩
      (.cons ⟨by norm_num, by decide, .inr ⟨?_, ?_⟩, .inr ⟨?_, ?_⟩⟩ .nil)
    · norm_num [boundsOf, SPar.edge]
    · norm_num [boundsOf, SPar.edge]
    · intro v hv; simp [boundsOf] at hv
    · norm_num [SPar.edge]
    · intro v hv; simp [boundsOf] at hv
    · norm_num [SPar.edge]
  · intro p hp
    simp only [FullSpec.core, Ex.filledSpec, Ex.saved, List.map_cons, List.map_nil, List.mem_cons,
      List.not_mem_nil, or_false] at hp
    rcases hp with rfl | rfl <;> exact ⟨0, by norm_num⟩

end Verif
