import Verif.Props.Add
import Verif.Props.ScriptsFill

/-! # C118: combining saved spectra -/

namespace Verif

open Spectrum

theorem withCore_withCore {s : FullSpec} {c d : Spectrum} (hc : c.cfg = s.core.cfg) :
    (s.withCore c).withCore d = s.withCore d := by
  have h := congrArg Config.pars (withCore_config hc)
  unfold FullSpec.withCore at h ⊢
  dsimp only at h ⊢
  rw [h]

theorem withCore_self (s : FullSpec) : s.withCore s.core = s := by
  have h := withCore_config (s := s) (c := s.core) rfl
  unfold FullSpec.withCore at h ⊢
  dsimp only at h ⊢
  rw [h]
  rfl

theorem combineLoop_eq {ft : FloatText} {disk : Disk} {s : FullSpec} (paths : List PyStr)
    (ts : List FullSpec) (h : List.Forall₂ (LikeInput ft disk s) paths ts) (u : Spectrum)
    (hu : u.cfg = s.core.cfg) (hr : u.rois = []) (hok : (combine u (ts.map FullSpec.core)).err = none) :
    combineLoop ft disk (s.withCore u) paths =
        .ok (s.withCore (combine u (ts.map FullSpec.core)).st) ∧
      (combine u (ts.map FullSpec.core)).st.cfg = s.core.cfg ∧
      (combine u (ts.map FullSpec.core)).st.rois = [] ∧
      (combine u (ts.map FullSpec.core)).st.name = u.name := by
  induction h generalizing u with
  | nil => exact ⟨rfl, hu, hr, rfl⟩
  | @cons p t paths ts h1 h2 ih =>
    rw [List.map_cons] at hok ⊢
    have hcore : (s.withCore u).core = u := by
      rw [withCore_core hu]
      unfold Spectrum.noRois
      rw [← hr]
    have hc : combine u (t.core :: ts.map FullSpec.core) =
        match (u.add t.core).err with
        | some e => .fail (u.add t.core).st e
        | none => combine (u.add t.core).st (ts.map FullSpec.core) := rfl
    rw [hc] at hok ⊢
    have hkeep := (c05_add u t.core).1
    cases ha : u.add t.core with
    | mk v e =>
      rw [ha] at hok hkeep
      cases e with
      | some e => exact absurd hok (by simp [Outcome.fail])
      | none =>
        obtain ⟨-, -, -, -, -, -, k1, k2, k3⟩ := hkeep rfl
        dsimp only at hok k1 k2 k3 ⊢
        obtain ⟨i1, i2, i3, i4⟩ := ih v (k1.trans hu) (k3.trans hr) hok
        refine ⟨?_, i2, i3, i4.trans k2⟩
        rw [combineLoop, loadAt_holds h1.holds, hcore]
        dsimp only
        rw [ha]
        dsimp only
        rw [withCore_withCore hu]
        exact i1

/-- **C118.** `combine_hdf5.py` with two or more files of spectra with the same axes saves one
spectrum to `combined.hdf5`: contents, raw events and decays are the sums over the files; axes,
name, labels, style and fit parameters are those of the first file. No other file is changed, and
the output can be used as an input again. -/
theorem c118_combine (ft : FloatText) (disk : Disk) (path : PyStr) (s : FullSpec) (b : PyStr)
    (h : Input ft disk path s b) (paths : List PyStr) (hne : paths ≠ []) (ts : List FullSpec)
    (ht : List.Forall₂ (LikeInput ft disk s) paths ts) :
    ∃ disk' t, combineScript ft disk (path :: paths) = .done disk' ∧
      OnlyAt (lit "combined.hdf5") disk disk' ∧ Input ft disk' (lit "combined.hdf5") t b ∧
      t.core.cfg = s.core.cfg ∧ t.data.shape = s.data.shape ∧
      (∀ j, t.data.get j = ((s :: ts).map (fun u => u.data.get j)).sum) ∧
      t.data.sum = ((s :: ts).map (fun u => u.data.sum)).sum ∧
      t.rawEvents = ((s :: ts).map FullSpec.rawEvents).sum ∧
      t.numDecays = ((s :: ts).map FullSpec.numDecays).sum ∧
      t.name = s.name ∧ SameLabels b s t := by
  have hall : ∀ t ∈ ts.map FullSpec.core, t.cfg = s.core.cfg ∧ t.data.shape = s.core.data.shape := by
    intro t hm
    obtain ⟨u, hu, rfl⟩ := List.mem_map.1 hm
    clear hm
    clear * - hu ht
    induction ht with
    | nil => cases hu
    | cons h1 _ ih =>
      rcases List.mem_cons.1 hu with rfl | hu
      · exact ⟨h1.axes, h1.shape⟩
      · exact ih hu
  obtain ⟨r1, r2, r3, r4, r5, r6, r7⟩ := c06_combine s.core h.wf (ts.map FullSpec.core) hall
  obtain ⟨l1, l2, l3, l4⟩ := combineLoop_eq paths ts ht s.core rfl rfl r1
  rw [withCore_self] at l1
  set c := (combine s.core (ts.map FullSpec.core)).st with hc
  obtain ⟨disk', t, h1, h2, h3, h4, h5, h6⟩ := h.saved (lit "combined.hdf5") c (by rw [r2])
    (by rw [r3]; rfl)
  have hcr : c.noRois = c := by
    unfold Spectrum.noRois; rw [← l3]
  rw [hcr] at h4
  have hdata : t.data = c.data := congrArg Spectrum.data h4
  refine ⟨disk', t, ?_, h2, h6 ⟨r2 ▸ h.wf.axes, r2 ▸ h.wf.names, by rw [r2, r3]; exact h.wf.shape⟩,
    (congrArg Spectrum.cfg h4).trans r2, ?_, ?_, ?_, ?_, ?_, (congrArg Spectrum.name h4).trans l4, h5⟩
  · obtain ⟨p, ps, rfl⟩ := List.exists_cons_of_ne_nil hne
    unfold combineScript
    dsimp only
    rw [loadAt_holds h.holds]
    dsimp only
    rw [l1]
    exact h1
  · rw [hdata]; exact r3
  · intro j
    rw [hdata, r4 j, ← List.map_cons, List.map_map]
    rfl
  · have : t.data.sum = c.sum := by rw [hdata]; rfl
    rw [this, r5, ← List.map_cons, List.map_map]
    rfl
  · have : t.rawEvents = c.rawEvents := congrArg Spectrum.rawEvents h4
    rw [this, r6, ← List.map_cons, List.map_map]
    rfl
  · have : t.numDecays = c.numDecays := congrArg Spectrum.numDecays h4
    rw [this, r7, ← List.map_cons, List.map_map]
    rfl

/-- Two files on the disk, the second one filled as the first one. -/
theorem Ex.two_inputs (ft : FloatText) : ∃ disk s t, Input ft disk (lit "a.hdf5") s (lit "Te130_2n2b") ∧
    Input ft disk (lit "b.hdf5") t (lit "Te130_2n2b") ∧
    s.core = Ex.filledSpec.core ∧ t.core = Ex.filledSpec.core := by
  obtain ⟨disk, s, h1, h2⟩ := Ex.input ft (lit "a.hdf5")
  obtain ⟨disk', t, -, g0, g3, g4, g5, g6, g7, g8, g9⟩ :=
    dumpAt_saved ft disk (lit "b.hdf5") Ex.filledSpec _ Ex.filledSpec_savable Ex.saved_background
  have hc : t.core = Ex.filledSpec.core := by
    unfold FullSpec.core
    rw [g4, g5, g6, g7, g8]
  refine ⟨disk', s, t, ⟨?_, h1.savable, h1.wf, h1.background, h1.named⟩,
    ⟨g3, Ex.filledSpec_savable.of_same g5 g8 g9, ?_, g9.background, by decide⟩, h2, hc⟩
  · obtain ⟨f, hf, hl⟩ := h1.holds
    exact ⟨f, (g0 (lit "a.hdf5") (by decide)).trans hf, hl⟩
  · rw [hc]; exact Ex.filledSpec_wf

example (ft : FloatText) : ∃ disk s t b, Input ft disk (lit "a.hdf5") s b ∧
    List.Forall₂ (LikeInput ft disk s) [lit "b.hdf5"] [t] ∧ s.data.get [0, 0] = 1 := by
  obtain ⟨disk, s, t, h1, h2, h3, h4⟩ := Ex.two_inputs ft
  have hd : s.data = Ex.filledSpec.data := congrArg Spectrum.data h3
  have hd' : t.data = Ex.filledSpec.data := congrArg Spectrum.data h4
  exact ⟨disk, s, t, _, h1, .cons ⟨h2.holds, by rw [h3, h4], by rw [hd, hd']⟩ .nil, by rw [hd]; rfl⟩

/-- **C118, order.** The order of the files decides about the labels only: contents, raw events and
decays are the same for all orders. -/
theorem c118_order (ft : FloatText) (disk : Disk) (path path' : PyStr) (s s' : FullSpec)
    (b b' : PyStr) (h : Input ft disk path s b) (h' : Input ft disk path' s' b')
    (paths paths' : List PyStr) (hne : paths ≠ []) (ts ts' : List FullSpec)
    (ht : List.Forall₂ (LikeInput ft disk s) paths ts)
    (ht' : List.Forall₂ (LikeInput ft disk s') paths' ts')
    (hp : (path :: paths).Perm (path' :: paths')) :
    ∃ d d' t t', combineScript ft disk (path :: paths) = .done d ∧
      combineScript ft disk (path' :: paths') = .done d' ∧
      Holds ft d (lit "combined.hdf5") t ∧ Holds ft d' (lit "combined.hdf5") t' ∧
      t'.data = t.data ∧ t'.rawEvents = t.rawEvents ∧ t'.numDecays = t.numDecays := by
  have hne' : paths' ≠ [] := by
    rintro rfl
    have := hp.length_eq
    simp at this
    exact hne this
  obtain ⟨d, t, h1, -, h2, -, h3, h4, -, h5, h6, -⟩ := c118_combine ft disk path s b h paths hne ts ht
  obtain ⟨d', t', g1, -, g2, -, g3, g4, -, g5, g6, -⟩ :=
    c118_combine ft disk path' s' b' h' paths' hne' ts' ht'
  have hload : ∀ {paths : List PyStr} {ts : List FullSpec} {s : FullSpec},
      List.Forall₂ (LikeInput ft disk s) paths ts →
      paths.map (loadAt ft disk) = ts.map (fun t => (.ok t : Except Stop FullSpec)) := by
    intro paths ts s h
    induction h with
    | nil => rfl
    | cons h1 _ ih => rw [List.map_cons, List.map_cons, loadAt_holds h1.holds, ih]
  have e1 : (path :: paths).map (loadAt ft disk) =
      (s :: ts).map (fun t => (.ok t : Except Stop FullSpec)) := by
    rw [List.map_cons, List.map_cons, loadAt_holds h.holds, hload ht]
  have e2 : (path' :: paths').map (loadAt ft disk) =
      (s' :: ts').map (fun t => (.ok t : Except Stop FullSpec)) := by
    rw [List.map_cons, List.map_cons, loadAt_holds h'.holds, hload ht']
  have hperm : (s :: ts).Perm (s' :: ts') := by
    have hm := hp.map (loadAt ft disk)
    rw [e1, e2] at hm
    have hm' := hm.map (fun e => match e with | .ok t => t | .error _ => s)
    simpa only [List.map_map, Function.comp_def, List.map_id'] using hm'
  have hshape : s'.data.shape = s.data.shape := by
    have : s' ∈ s :: ts := hperm.mem_iff.2 (by simp)
    rcases List.mem_cons.1 this with rfl | hm
    · rfl
    · clear * - hm ht
      induction ht with
      | nil => cases hm
      | cons h1 _ ih =>
        rcases List.mem_cons.1 hm with rfl | hm
        · exact h1.shape
        · exact ih hm
  refine ⟨d, d', t, t', h1, g1, h2.holds, g2.holds, ?_, ?_, ?_⟩
  · have hsh : t'.data.shape = t.data.shape := by rw [g3, h3, hshape]
    have hget : t'.data.get = t.data.get := by
      funext j
      rw [h4 j, g4 j]
      exact ((hperm.map _).sum_eq).symm
    cases hx : t'.data; cases hy : t.data
    rw [hx, hy] at hsh hget
    dsimp only at hsh hget
    rw [hsh, hget]
  · rw [g5, h5]; exact ((hperm.map _).sum_eq).symm
  · rw [g6, h6]; exact ((hperm.map _).sum_eq).symm

example (ft : FloatText) : ∃ disk s t b b', Input ft disk (lit "a.hdf5") s b ∧
    Input ft disk (lit "b.hdf5") t b' ∧ List.Forall₂ (LikeInput ft disk s) [lit "b.hdf5"] [t] ∧
    List.Forall₂ (LikeInput ft disk t) [lit "a.hdf5"] [s] ∧
    [lit "a.hdf5", lit "b.hdf5"].Perm [lit "b.hdf5", lit "a.hdf5"] := by
  obtain ⟨disk, s, t, h1, h2, h3, h4⟩ := Ex.two_inputs ft
  have hd : s.data = Ex.filledSpec.data := congrArg Spectrum.data h3
  have hd' : t.data = Ex.filledSpec.data := congrArg Spectrum.data h4
  exact ⟨disk, s, t, _, _, h1, h2, .cons ⟨h2.holds, by rw [h3, h4], by rw [hd, hd']⟩ .nil,
    .cons ⟨h1.holds, by rw [h3, h4], by rw [hd, hd']⟩ .nil, .swap _ _ _⟩

theorem combineLoop_missing {ft : FloatText} {disk : Disk} {p : PyStr} (hp : disk p = none) :
    ∀ (paths : List PyStr) (s : FullSpec), p ∈ paths → ∃ e, combineLoop ft disk s paths = .error e
  | [], _, h => by cases h
  | q :: paths, s, h => by
    rw [combineLoop]
    split
    · exact ⟨_, rfl⟩
    · rename_i t hl
      split
      · exact ⟨_, rfl⟩
      · rcases List.mem_cons.1 h with rfl | h
        · rw [loadAt, hp] at hl
          cases hl
        · exact combineLoop_missing hp paths _ h

/-- What the loop accepts has the bins and, dimension by dimension, the axes of the first spectrum. -/
theorem combineLoop_ok {ft : FloatText} {disk : Disk} {q : PyStr} {t : FullSpec}
    (hq : Holds ft disk q t) : ∀ (paths : List PyStr) (s r : FullSpec), q ∈ paths →
    combineLoop ft disk s paths = .ok r → t.data.shape = s.data.shape ∧
      ∀ a ∈ s.core.cfg, ∃ b ∈ t.core.cfg, ∃ d, HasDim a.name d ∧ HasDim b.name d ∧ AxesClose a b
  | [], _, _, h, _ => by cases h
  | p :: paths, s, r, h, hr => by
    rw [combineLoop] at hr
    cases hl : loadAt ft disk p with
    | error e => rw [hl] at hr; cases hr
    | ok u =>
      rw [hl] at hr
      dsimp only at hr
      cases ha : s.core.add u.core with
      | mk v e =>
        rw [ha] at hr
        cases e with
        | some e => cases hr
        | none =>
          dsimp only at hr
          have he : (s.core.add u.core).err = none := by rw [ha]
          obtain ⟨k0, k1, -, -, -, -, k2, -⟩ := (c05_add s.core u.core).1 he
          rcases List.mem_cons.1 h with rfl | h
          · rw [loadAt_holds hq] at hl
            cases hl
            exact ⟨k1, (c05_add_accepted_axes _ _ he).1⟩
          · have hv : v = (s.core.add u.core).st := by rw [ha]
            obtain ⟨i1, i2⟩ := combineLoop_ok hq paths _ r h hr
            have hcore := withCore_core (s := s) (c := v) (by rw [hv, k2])
            constructor
            · refine i1.trans ?_
              have := congrArg (fun x : Spectrum => x.data.shape) hcore
              refine Eq.trans this ?_
              rw [hv]
              exact k0
            · intro a hm
              refine i2 a ?_
              have := congrArg Spectrum.cfg hcore
              rw [this]
              show a ∈ v.cfg
              rw [hv, k2]
              exact hm

/-- **C118, refusals.** Fewer than two files, a file that is missing, and a spectrum with another number
of bins than the first or without an axis close to one of the first are refused; nothing is written. -/
theorem c118_refused (ft : FloatText) (disk : Disk) (paths : List PyStr)
    (h : paths.length < 2 ∨ (∃ p ∈ paths, disk p = none) ∨
      ∃ p rest q s t, paths = p :: rest ∧ q ∈ rest ∧ Holds ft disk p s ∧ Holds ft disk q t ∧
        (t.data.shape ≠ s.data.shape ∨ ∃ a ∈ s.core.cfg, ∀ b ∈ t.core.cfg, ∀ d, HasDim a.name d →
          HasDim b.name d → ¬ AxesClose a b)) :
    ∃ why, combineScript ft disk paths = .stopped disk why := by
  match paths with
  | [] => exact ⟨_, rfl⟩
  | [p] => exact ⟨_, rfl⟩
  | p :: q :: rest =>
    unfold combineScript
    dsimp only
    cases hl : loadAt ft disk p with
    | error e => exact ⟨_, rfl⟩
    | ok s =>
      dsimp only
      have : ∃ e, combineLoop ft disk s (q :: rest) = .error e := by
        rcases h with h | ⟨x, hx, hd⟩ | ⟨p', rest', q', s', t, heq, hm, h1, h2, h3⟩
        · simp at h
        · rcases List.mem_cons.1 hx with rfl | hx
          · rw [loadAt, hd] at hl
            cases hl
          · exact combineLoop_missing hd _ s hx
        · obtain ⟨rfl, rfl⟩ : p = p' ∧ q :: rest = rest' := by
            simpa using heq
          rw [loadAt_holds h1] at hl
          cases hl
          cases hc : combineLoop ft disk s (q :: rest) with
          | error e => exact ⟨_, rfl⟩
          | ok r =>
            obtain ⟨k1, k2⟩ := combineLoop_ok h2 _ _ _ hm hc
            rcases h3 with h3 | ⟨a, ha, h3⟩
            · exact absurd k1 h3
            · obtain ⟨b, hb, d, hd1, hd2, hcl⟩ := k2 a ha
              exact absurd hcl (h3 b hb d hd1 hd2)
      obtain ⟨e, he⟩ := this
      rw [he]
      exact ⟨_, rfl⟩

/-- Three files, the last one with half as many bins of energy. -/
example (ft : FloatText) : ∃ (disk : Disk) (s u t : FullSpec),
    Holds ft disk (lit "a.hdf5") s ∧ Holds ft disk (lit "b.hdf5") u ∧ u.data.shape = s.data.shape ∧
    lit "c.hdf5" ∈ [lit "b.hdf5", lit "c.hdf5"] ∧
    Holds ft disk (lit "c.hdf5") t ∧ t.data.shape ≠ s.data.shape := by
  obtain ⟨disk, s, t, h1, h2, h3, h4⟩ := Ex.two_inputs ft
  have hd : s.data = Ex.filledSpec.data := congrArg Spectrum.data h3
  have hd' : t.data = Ex.filledSpec.data := congrArg Spectrum.data h4
  obtain ⟨disk', u, -, g1, g2, g3, -⟩ := c111_rebin ft disk _ t _ h2 (some (lit "c.hdf5")) (lit "c.hdf5")
    (.inl ⟨rfl, by decide⟩) [5, 3] (by rw [h4]; rfl) (by rw [h4]; decide)
  obtain ⟨f, hf, hl⟩ := h1.holds
  obtain ⟨f', hf', hl'⟩ := h2.holds
  refine ⟨disk', s, t, u, ⟨f, (g1 _ (by decide)).trans hf, hl⟩, ⟨f', (g1 _ (by decide)).trans hf', hl'⟩,
    by rw [hd, hd'], by decide, g2.holds, ?_⟩
  rw [hd, g3.1]
  decide

/-- **C118, inputs.** Whatever files are given and however the script ends, no file other than
`combined.hdf5` is changed. -/
theorem c118_inputs_kept (ft : FloatText) (disk disk' : Disk) (paths : List PyStr)
    (h : Leaves (combineScript ft disk paths) disk') : OnlyAt (lit "combined.hdf5") disk disk' := by
  unfold combineScript at h
  split at h
  · split at h
    · rw [h.stopped]; exact .refl _ _
    split at h
    · rw [h.stopped]; exact .refl _ _
    · exact h.dumpAt
  · rw [h.stopped]; exact .refl _ _

example (ft : FloatText) : ∃ disk disk' t b, Leaves (combineScript ft disk
    [lit "a.hdf5", lit "b.hdf5"]) disk' ∧ Input ft disk' (lit "combined.hdf5") t b ∧
    (disk (lit "a.hdf5")).isSome := by
  obtain ⟨disk, s, t, h1, h2, h3, h4⟩ := Ex.two_inputs ft
  have hd : s.data = Ex.filledSpec.data := congrArg Spectrum.data h3
  have hd' : t.data = Ex.filledSpec.data := congrArg Spectrum.data h4
  obtain ⟨disk', u, g1, -, g2, -⟩ := c118_combine ft disk _ s _ h1 [lit "b.hdf5"] (by simp) [t]
    (.cons ⟨h2.holds, by rw [h3, h4], by rw [hd, hd']⟩ .nil)
  obtain ⟨f, hf, -⟩ := h1.holds
  exact ⟨disk, disk', u, _, .inl g1, g2, by rw [hf]; rfl⟩

/-- **C118 fails to keep an input named `combined.hdf5`**: adding to an earlier result replaces the
earlier result. -/
theorem c118_overwrites_negation (ft : FloatText) (disk : Disk) (s : FullSpec) (b : PyStr)
    (h : Input ft disk (lit "combined.hdf5") s b) (path : PyStr) (t : FullSpec)
    (ht : LikeInput ft disk s path t) (ht0 : t.numDecays ≠ 0) :
    ∃ disk' u, combineScript ft disk [lit "combined.hdf5", path] = .done disk' ∧
      Holds ft disk' (lit "combined.hdf5") u ∧ u.numDecays ≠ s.numDecays := by
  obtain ⟨d, u, h1, -, h2, -, h3, h4, -, h5, h6, -⟩ :=
    c118_combine ft disk _ s b h [path] (by simp) [t] (.cons ht .nil)
  refine ⟨d, u, h1, h2.holds, ?_⟩
  rw [h6]
  simpa using ht0

/-- The earlier result combined with itself. -/
example (ft : FloatText) : ∃ disk s b, Input ft disk (lit "combined.hdf5") s b ∧
    LikeInput ft disk s (lit "combined.hdf5") s ∧ s.numDecays ≠ 0 := by
  obtain ⟨disk, s, h1, h2⟩ := Ex.input ft (lit "combined.hdf5")
  refine ⟨disk, s, _, h1, ⟨h1.holds, rfl, rfl⟩, ?_⟩
  have : s.numDecays = Ex.filledSpec.numDecays := congrArg Spectrum.numDecays h2
  rw [this]
  norm_num [Ex.filledSpec, Ex.saved]

end Verif
