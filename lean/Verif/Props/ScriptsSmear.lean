import Verif.Props.ScriptsShift
import Verif.Props.Smear

/-! # C114: the scripts that smear -/

namespace Verif

open Spectrum Finset

/-! ### helper results -/

/-- Sums that do not depend on the coordinate on an axis are kept when the sums along the axis
are. -/
theorem sum_of_slices {a b : NdArray ℚ} {k n : ℕ} (hk : a.shape[k]? = some n) (hn : 0 < n)
    (h : ∀ idx, InB a.shape idx → ∑ j ∈ range n, b.get (idx.set k j) =
      ∑ j ∈ range n, a.get (idx.set k j)) (g : List ℕ → ℚ)
    (hg : ∀ idx j, g (idx.set k j) = g idx) :
    sumIdx a.shape (fun idx => g idx * b.get idx) = sumIdx a.shape (fun idx => g idx * a.get idx) := by
  rw [← sumIdx_eraseIdx hk, ← sumIdx_eraseIdx hk]
  refine sumIdx_congr fun rest hr => ?_
  have hrl := length_of_erase hk hr
  have e : ∀ j, g (rest.insertIdx k j) = g (rest.insertIdx k 0) := by
    intro j
    rw [← insertIdx_set (i := 0) (j := j) hrl, hg]
  have := h (rest.insertIdx k 0) (inB_insertIdx hk hr hn)
  simp only [insertIdx_set hrl] at this
  simp only [e, ← Finset.mul_sum, this]

/-- One lossless smearing. -/
theorem smear_step {s : Spectrum} (hs : s.WF) {k : ℕ} {p : SPar} (hk : s.cfg[k]? = some p)
    {w : Weighting} (hw : Lossless w p) :
    ∃ t, s.weightedSmear w.suffix w.sigma w.weight w.ns p.name = .ok t ∧ SameButNameData s t ∧
      t.name = s.name ++ w.suffix ∧ t.data.shape = s.data.shape ∧
      (NonNeg s.data → NonNeg t.data) ∧
      ∀ g : List ℕ → ℚ, (∀ idx j, g (idx.set k j) = g idx) →
        sumIdx s.data.shape (fun idx => g idx * t.data.get idx) =
          sumIdx s.data.shape (fun idx => g idx * s.data.get idx) := by
  obtain ⟨h1, h2, h3, h4⟩ := hw
  obtain ⟨-, hp, -, -, hsh⟩ := axis_facts hs hk
  obtain ⟨t, ht, a1, a2, a3, -⟩ := smear_core hs hk w.suffix w.sigma w.ns h1
  obtain ⟨t', ht', -, b2, -, b4⟩ :=
    c32_conserved_partial s hs k p hk w.suffix w.sigma w.weight w.ns h1 h2 h3 (.inl h4)
  rw [ht] at ht'
  injection ht' with ht'
  subst ht'
  refine ⟨t, ht, a1, a2, a3, b4, fun g hg => ?_⟩
  exact sum_of_slices hsh (by have := hp.1; omega) b2 g hg

/-- The whole loop. -/
theorem smearLoop_weighted {e : SmearObj} {r : Option SmearObj} {we : Weighting}
    {wr : Option Weighting} (he : e.Weighs we)
    (hr : ∀ o, r = some o → ∃ w, wr = some w ∧ o.Weighs w) (hrn : r = none → wr = none)
    {s : Spectrum} (hs : s.WF)
    (hE : ∀ p ∈ s.cfg, lit "energy" <:+: p.name → Lossless we p)
    (hR : ∀ w, wr = some w → ∀ p ∈ s.cfg, ¬ lit "energy" <:+: p.name → lit "radial" <:+: p.name →
      Lossless w p)
    (pars : List PyStr) (hp : ∀ n ∈ pars, ∃ p ∈ s.cfg, p.name = n) :
    ∃ t, smearLoop SmearObj.weighted e r s pars = .ok t ∧ SameButNameData s t ∧
      t.name = s.name ++ (pars.map (smearSuffix we wr)).flatten ∧
      t.data.shape = s.data.shape ∧ (NonNeg s.data → NonNeg t.data) ∧
      ∀ g : List ℕ → ℚ, IgnoresAxes s.cfg (Smeared r.isSome) g →
        sumIdx s.data.shape (fun idx => g idx * t.data.get idx) =
          sumIdx s.data.shape (fun idx => g idx * s.data.get idx) := by
  induction pars generalizing s with
  | nil => exact ⟨s, rfl, ⟨rfl, rfl, rfl, rfl⟩, by simp, rfl, id, fun _ _ => rfl⟩
  | cons n pars ih =>
    obtain ⟨p, hpm, rfl⟩ := hp n (by simp)
    obtain ⟨k, hk⟩ := List.getElem?_of_mem hpm
    have hrest : ∀ n ∈ pars, ∃ p ∈ s.cfg, p.name = n := fun n hn => hp n (by simp [hn])
    -- the step for a weighting
    have step : ∀ (o : SmearObj) (w : Weighting), o.Weighs w → Lossless w p →
        smearSuffix we wr p.name = w.suffix → Smeared r.isSome p.name →
        (∀ acc, smearLoop SmearObj.weighted e r acc (p.name :: pars) =
          (o.weighted acc p.name >>= fun a => smearLoop SmearObj.weighted e r a pars)) →
        ∃ t, smearLoop SmearObj.weighted e r s (p.name :: pars) = .ok t ∧ SameButNameData s t ∧
          t.name = s.name ++ ((p.name :: pars).map (smearSuffix we wr)).flatten ∧
          t.data.shape = s.data.shape ∧ (NonNeg s.data → NonNeg t.data) ∧
          ∀ g : List ℕ → ℚ, IgnoresAxes s.cfg (Smeared r.isSome) g →
            sumIdx s.data.shape (fun idx => g idx * t.data.get idx) =
              sumIdx s.data.shape (fun idx => g idx * s.data.get idx) := by
      intro o w ho hw hsuf hsm hun
      obtain ⟨u, hu, b1, b2, b3, b4, b5⟩ := smear_step hs hk hw
      have huw : u.WF := ⟨by rw [b1.1]; exact hs.axes, by rw [b1.1]; exact hs.names,
        by rw [b1.1, b3]; exact hs.shape⟩
      obtain ⟨t, ht, c1, c2, c3, c4, c5⟩ := ih huw (by rw [b1.1]; exact hE)
        (by rw [b1.1]; exact hR) (by rw [b1.1]; exact hrest)
      refine ⟨t, ?_, ⟨c1.1.trans b1.1, c1.2.1.trans b1.2.1, c1.2.2.1.trans b1.2.2.1,
        c1.2.2.2.trans b1.2.2.2⟩, ?_, c3.trans b3, fun h => c4 (b4 h), fun g hg => ?_⟩
      · rw [hun, ho, hu]; exact ht
      · rw [c2, b2, List.map_cons, List.flatten_cons, hsuf, List.append_assoc]
      · have h1 := c5 g (by rw [b1.1]; exact hg)
        rw [b3] at h1
        rw [h1]
        exact b5 g (fun idx j => hg k p hk hsm idx j)
    by_cases hen : lit "energy" <:+: p.name
    · refine step e we he (hE p hpm hen) (by unfold smearSuffix; rw [if_pos hen]) (.inl hen) ?_
      intro acc
      unfold smearLoop
      rw [List.foldlM_cons]
      simp only [pyContains, hen, decide_true, if_true]
    · cases hrs : r with
      | none =>
        have hwr := hrn hrs
        obtain ⟨t, ht, c1, c2, c3, c4, c5⟩ := ih hs hE hR hrest
        rw [hrs] at ht c5
        refine ⟨t, ?_, c1, ?_, c3, c4, c5⟩
        · unfold smearLoop at ht ⊢
          rw [List.foldlM_cons]
          simp only [pyContains, hen, decide_false, Bool.false_eq_true, if_false] at ht ⊢
          exact ht
        · rw [c2, List.map_cons, List.flatten_cons]
          have : smearSuffix we wr p.name = [] := by
            unfold smearSuffix; rw [if_neg hen, hwr]
          rw [this, List.nil_append]
      | some o =>
        obtain ⟨w, hwr, how⟩ := hr o hrs
        rw [← hrs]
        by_cases hrad : lit "radial" <:+: p.name
        · refine step o w how (hR w hwr p hpm hen hrad) ?_ (.inr ⟨by rw [hrs]; rfl, hrad⟩) ?_
          · unfold smearSuffix; rw [if_neg hen, hwr]; dsimp only; rw [if_pos hrad]
          · intro acc
            unfold smearLoop
            rw [List.foldlM_cons, hrs]
            simp only [pyContains, hen, hrad, decide_true, decide_false, Bool.false_eq_true,
              if_false, if_true]
        · obtain ⟨t, ht, c1, c2, c3, c4, c5⟩ := ih hs hE hR hrest
          refine ⟨t, ?_, c1, ?_, c3, c4, c5⟩
          · rw [hrs] at ht ⊢
            unfold smearLoop at ht ⊢
            rw [List.foldlM_cons]
            simp only [pyContains, hen, hrad, decide_false, Bool.false_eq_true, if_false] at ht ⊢
            exact ht
          · rw [c2, List.map_cons, List.flatten_cons]
            have : smearSuffix we wr p.name = [] := by
              unfold smearSuffix; rw [if_neg hen, hwr]; dsimp only; rw [if_neg hrad]
            rw [this, List.nil_append]

/-- A single smeared axis. -/
theorem smearLoop_single (how : SmearObj → Spectrum → PyStr → Except PyErr Spectrum) (e : SmearObj)
    {s : Spectrum} {k : ℕ} {p : SPar} (hk : s.cfg[k]? = some p)
    (honly : OnlyAxis s.cfg (lit "energy") k) :
    smearLoop how e none s s.pars = how e s p.name := by
  have hskip : ∀ (l : List SPar) (acc : Spectrum), (∀ q ∈ l, ¬ lit "energy" <:+: q.name) →
      smearLoop how e none acc (l.map SPar.name) = .ok acc := by
    intro l
    induction l with
    | nil => intro acc _; rfl
    | cons q l ih =>
      intro acc h
      have h1 := h q (by simp)
      have h2 := ih acc (fun q hq => h q (by simp [hq]))
      unfold smearLoop at h2 ⊢
      rw [List.map_cons, List.foldlM_cons]
      simp only [pyContains, h1, decide_false, Bool.false_eq_true, if_false] at h2 ⊢
      exact h2
  have hkl := (List.getElem?_eq_some_iff.1 hk)
  obtain ⟨hkl, hkp⟩ := hkl
  have hsplit : s.cfg = s.cfg.take k ++ p :: s.cfg.drop (k + 1) := by
    rw [← hkp, ← List.drop_eq_getElem_cons hkl, List.take_append_drop]
  have h1 : ∀ q ∈ s.cfg.take k, ¬ lit "energy" <:+: q.name := by
    intro q hq hc
    obtain ⟨i, hi, rfl⟩ := List.mem_iff_getElem.1 hq
    rw [List.length_take] at hi
    have := (honly i _ (by
      rw [List.getElem_take]
      exact List.getElem?_eq_getElem (by omega))).1 hc
    omega
  have h2 : ∀ q ∈ s.cfg.drop (k + 1), ¬ lit "energy" <:+: q.name := by
    intro q hq hc
    obtain ⟨i, hi, rfl⟩ := List.mem_iff_getElem.1 hq
    rw [List.length_drop] at hi
    have := (honly (k + 1 + i) _ (by
      rw [List.getElem_drop]
      exact List.getElem?_eq_getElem (by omega))).1 hc
    omega
  have hen := (honly k p hk).2 rfl
  have hpars : s.pars = (s.cfg.take k).map SPar.name ++
      (p.name :: (s.cfg.drop (k + 1)).map SPar.name) := by
    unfold Spectrum.pars
    conv_lhs => rw [hsplit]
    simp
  rw [hpars]
  have h3 := hskip (s.cfg.take k) s h1
  unfold smearLoop at h3 ⊢
  rw [List.foldlM_append, h3]
  change List.foldlM _ s _ = _
  rw [List.foldlM_cons]
  have : (if pyContains (lit "energy") p.name = true then how e s p.name
      else Except.ok s) = how e s p.name := by simp [pyContains, hen]
  dsimp only
  rw [this]
  cases hh : how e s p.name with
  | error x => rfl
  | ok u =>
    have h4 := hskip (s.cfg.drop (k + 1)) u h2
    unfold smearLoop at h4
    exact h4

theorem smearedDir_out {isdir : PyStr → Bool} {dest : Option PyStr} {input suffix out : PyStr}
    (h : InDestOrHere isdir dest input suffix out) :
    ∃ dir, smearedDir isdir dest input = .ok dir ∧
      dir ++ splitRoot (baseName input) ++ suffix = out := by
  rcases h with h | ⟨ho, stem, ext, hp, hst, rfl⟩
  · obtain ⟨dir, h1, h2⟩ := scaledDir_out h
    refine ⟨dir, ?_, h2⟩
    rcases h with ⟨d, d', dir', stem, ext, rfl, hd, hi, hp, hst, hd', rfl⟩ |
      ⟨ho, d, stem, ext, hp, hd, hdl, hst, rfl⟩
    · cases d with
      | nil => exact absurd rfl hd
      | cons x d => exact h1
    · have hn := dirName_of_path hp hd hdl
      have h1' : scaledDir isdir dest input = .ok (d ++ lit "/") := by
        rcases ho with rfl | rfl <;> (unfold scaledDir; rw [hn])
      rw [h1'] at h1
      injection h1 with h1
      subst h1
      rcases ho with rfl | rfl <;> (unfold smearedDir; dsimp only; rw [hn, if_pos hd])
  · rw [stem_of_path hp hst]
    refine ⟨lit "./", ?_, rfl⟩
    have hb : '/' ∉ stem ++ '.' :: ext := by simp [hp.stem, hp.ext.1]
    have hn : dirName input = [] := by
      rw [hp.eq]; exact dirName_bare hb
    rcases ho with rfl | rfl <;> (unfold smearedDir; dsimp only; rw [hn]; rfl)

/-- The script up to the smearing. -/
theorem smearScript_eq {ft : FloatText} {res : ℚ → Except PyErr SmearObj} {ly radial e : SmearObj}
    {disk : Disk} {path : PyStr} {s : FullSpec} (h : Holds ft disk path s) {out : PyStr}
    (ho : Beside path (lit "_smeared.hdf5") out) {resolution : Option ℚ}
    (hres : ((resolution = none ∨ resolution = some 0) ∧ e = ly) ∨
      ∃ x, resolution = some x ∧ x ≠ 0 ∧ res x = .ok e) (method : PyStr) :
    smearScript ft res ly radial disk path method resolution =
      match smearBy method e (some radial) s.core with
      | .error x => .stopped disk x
      | .ok t => dumpAt disk out (s.withCore t) := by
  obtain ⟨dir, stem, ext, hp, rfl⟩ := ho
  unfold smearScript
  have hrest : ∀ o : SmearObj, o = e →
      (match loadAt ft disk path with
      | .error x => RunEnd.stopped disk x
      | .ok s =>
        match smearBy method o (some radial) s.core with
        | .error x => .stopped disk x
        | .ok t => dumpAt disk (besides path (lit "_smeared.hdf5")) (s.withCore t)) =
      match smearBy method e (some radial) s.core with
      | .error x => .stopped disk x
      | .ok t => dumpAt disk (dir ++ stem ++ lit "_smeared.hdf5") (s.withCore t) := by
    rintro o rfl
    rw [loadAt_holds h]
    dsimp only
    unfold besides
    rw [cutPath_ext hp]
  rcases hres with ⟨rfl | rfl, rfl⟩ | ⟨x, rfl, hx, hr⟩
  · exact hrest _ rfl
  · dsimp only
    rw [if_pos rfl]
    exact hrest _ rfl
  · dsimp only
    rw [if_neg hx, hr]
    exact hrest _ rfl

/-- The same for the energy script. -/
theorem smearEnergyScript_eq {ft : FloatText} {str : ℚ → PyStr} {isdir : PyStr → Bool}
    {res ly : ℚ → Except PyErr SmearObj} {e : SmearObj} {disk : Disk} {path : PyStr} {s : FullSpec}
    (h : Holds ft disk path s) {resolution : Option ℚ} {lightYield : ℚ} {dest : Option PyStr}
    {suffix out : PyStr} (ho : InDestOrHere isdir dest path suffix out)
    (hres : ((resolution = none ∨ resolution = some 0) ∧ ly lightYield = .ok e ∧
        ∃ u, NumText (str lightYield) u ∧ suffix = lit "_" ++ u ++ lit "ly.hdf5") ∨
      ∃ x, resolution = some x ∧ x ≠ 0 ∧ res x = .ok e ∧
        suffix = lit "_" ++ str x ++ lit "rs.hdf5") (method : PyStr) :
    smearEnergyScript ft str isdir res ly disk path method resolution lightYield dest =
      match smearBy method e none s.core with
      | .error x => .stopped disk x
      | .ok t => dumpAt disk out (s.withCore t) := by
  obtain ⟨dir, hdir, rfl⟩ := smearedDir_out ho
  unfold smearEnergyScript
  rw [hdir]
  dsimp only
  rcases hres with ⟨hr, hl, u, hu, rfl⟩ | ⟨x, rfl, hx, hr, rfl⟩
  · have hu' := hu.unique (shortText_spec _)
    rcases hr with rfl | rfl
    · dsimp only
      rw [hl]
      dsimp only
      rw [loadAt_holds h, hu']
      dsimp only
      simp only [List.append_assoc]
      cases smearBy method e none s.core <;> rfl
    · dsimp only
      rw [if_pos rfl]
      dsimp only
      rw [hl]
      dsimp only
      rw [loadAt_holds h, hu']
      dsimp only
      simp only [List.append_assoc]
      cases smearBy method e none s.core <;> rfl
  · dsimp only
    rw [if_neg hx]
    dsimp only
    rw [hr]
    dsimp only
    rw [loadAt_holds h]
    dsimp only
    simp only [List.append_assoc]
    cases smearBy method e none s.core <;> rfl

/-- Saving a smeared spectrum. -/
theorem smeared_saved {ft : FloatText} {disk : Disk} {path : PyStr} {s : FullSpec} {b : PyStr}
    (h : Input ft disk path s b) (out : PyStr) {c : Spectrum} (hsame : SameButNameData s.core c)
    (hsh : c.data.shape = s.core.data.shape) :
    ∃ disk' t, dumpAt disk out (s.withCore c) = .done disk' ∧ OnlyAt out disk disk' ∧
      Input ft disk' out t b ∧ t.core = c ∧ SameLabels b s t := by
  obtain ⟨disk', t, h1, h2, h3, h4, h5, h6⟩ :=
    h.saved out c (by rw [hsame.1]) (by rw [hsh]; rfl)
  rw [noRois_eq hsame.2.2.2] at h4
  refine ⟨disk', t, h1, h2, h6 ⟨?_, ?_, ?_⟩, h4, h5⟩
  · rw [hsame.1]; exact h.wf.axes
  · rw [hsame.1]; exact h.wf.names
  · rw [hsame.1, hsh]; exact h.wf.shape

theorem pars_mem {s : Spectrum} : ∀ n ∈ s.pars, ∃ p ∈ s.cfg, p.name = n := by
  intro n hn
  obtain ⟨p, hp, rfl⟩ := List.mem_map.1 hn
  exact ⟨p, hp, rfl⟩

/-! ### C114 -/

/-- **C114.** `dump_smeared.py` with the method `weight` saves beside the input, with
`_smeared.hdf5` in place of the extension, the spectrum smeared along every axis whose name
contains `energy` and, with the other smearer, every remaining axis whose name contains `radial`.
If these axes can be smeared without loss, every sum over cells that does not depend on the
smeared coordinates is kept, so the total and the distribution over the other axes are; axes,
decays and labels are kept too and no other file is changed. -/
theorem c114_weight (ft : FloatText) (res : ℚ → Except PyErr SmearObj) (ly radial e : SmearObj)
    (disk : Disk) (path : PyStr) (s : FullSpec) (b : PyStr) (h : Input ft disk path s b)
    (out : PyStr) (ho : Beside path (lit "_smeared.hdf5") out) (resolution : Option ℚ)
    (hres : ((resolution = none ∨ resolution = some 0) ∧ e = ly) ∨
      ∃ x, resolution = some x ∧ x ≠ 0 ∧ res x = .ok e)
    (we wr : Weighting) (he : e.Weighs we) (hr : radial.Weighs wr)
    (hE : ∀ p ∈ s.core.cfg, lit "energy" <:+: p.name → Lossless we p)
    (hR : ∀ p ∈ s.core.cfg, ¬ lit "energy" <:+: p.name → lit "radial" <:+: p.name → Lossless wr p) :
    ∃ disk' t, smearScript ft res ly radial disk path (lit "weight") resolution = .done disk' ∧
      OnlyAt out disk disk' ∧ Input ft disk' out t b ∧
      (∀ g : List ℕ → ℚ, IgnoresAxes s.core.cfg (Smeared true) g →
        sumIdx s.data.shape (fun idx => g idx * t.data.get idx) =
          sumIdx s.data.shape (fun idx => g idx * s.data.get idx)) ∧
      t.data.sum = s.data.sum ∧ (NonNeg s.data → NonNeg t.data) ∧
      t.core.cfg = s.core.cfg ∧ t.numDecays = s.numDecays ∧ t.rawEvents = s.rawEvents ∧
      t.name = s.name ++ (s.core.pars.map (smearSuffix we (some wr))).flatten ∧
      SameLabels b s t := by
  obtain ⟨c, hc, a1, a2, a3, a4, a5⟩ := smearLoop_weighted (r := some radial) (wr := some wr) he
    (fun o ho => ⟨wr, rfl, by cases ho; exact hr⟩) (by simp) h.wf hE
    (by intro w hw p hp h1 h2; cases hw; exact hR p hp h1 h2) s.core.pars pars_mem
  obtain ⟨disk', t, h1, h2, h3, h4, h5⟩ := smeared_saved h out a1 a3
  have hdat : t.data = c.data := congrArg Spectrum.data h4
  refine ⟨disk', t, ?_, h2, h3, ?_, ?_, ?_, ?_, ?_, ?_, ?_, h5⟩
  · rw [smearScript_eq h.holds ho hres]
    have : smearBy (lit "weight") e (some radial) s.core = .ok c := by
      unfold smearBy
      rw [if_pos rfl]; dsimp only; rw [hc]
    rw [this]
    exact h1
  · rw [hdat]; exact a5
  · have := a5 (fun _ => 1) (fun _ _ _ _ _ _ => rfl)
    simp only [one_mul] at this
    rw [hdat]
    unfold NdArray.sum
    rw [a3]
    exact this
  · rw [hdat]; exact a4
  · rw [h4]; exact a1.1
  · exact (congrArg Spectrum.numDecays h4).trans a1.2.1
  · exact (congrArg Spectrum.rawEvents h4).trans a1.2.2.1
  · exact (congrArg Spectrum.name h4).trans a2

/-- Weights for the examples. -/
def Ex.weighting (w : ℚ) : Weighting := ⟨lit "_smeared", fun _ => w, fun _ _ _ => 1, 3⟩

/-- A smearer with these weights. -/
def Ex.smearer (w : ℚ) : SmearObj where
  weighted s par := s.weightedSmear (lit "_smeared") (fun _ => w) (fun _ _ _ => 1) 3 par
  random s par := s.randomSmear (lit "_smeared") (fun _ _ => 1 / 2) par

theorem Ex.smearer_weighs (w : ℚ) : (Ex.smearer w).Weighs (Ex.weighting w) := fun _ _ => rfl

theorem Ex.lossless_energy : Lossless (Ex.weighting 1) ⟨lit "energy_mc", 0, 10, 10⟩ := by
  refine ⟨fun _ _ _ => by norm_num [Ex.weighting], by norm_num, ?_, ?_⟩
  · intro i _; norm_num [Ex.weighting]
  · norm_num [Ex.weighting]

theorem Ex.lossless_radial : Lossless (Ex.weighting 500) ⟨lit "radial_mc", 0, 6000, 3⟩ := by
  refine ⟨fun _ _ _ => by norm_num [Ex.weighting], by norm_num, ?_, ?_⟩
  · intro i _; norm_num [Ex.weighting]
  · norm_num [Ex.weighting]

theorem Ex.infix_energy : ¬ lit "energy" <:+: lit "radial_mc" := by decide

theorem Ex.beside_smeared : Beside (lit "/data/te.hdf5") (lit "_smeared.hdf5")
    (lit "/data/te_smeared.hdf5") :=
  ⟨lit "/data/", lit "te", lit "hdf5", ⟨by decide, .inr (by decide), by decide, by decide⟩,
    by decide⟩

theorem Ex.lossless_all (p : SPar) (hp : p ∈ Ex.filledSpec.core.cfg) :
    (lit "energy" <:+: p.name → Lossless (Ex.weighting 1) p) ∧
    (¬ lit "energy" <:+: p.name → lit "radial" <:+: p.name → Lossless (Ex.weighting 500) p) := by
  simp only [FullSpec.core, Ex.filledSpec, Ex.saved, List.map_cons, List.map_nil, List.mem_cons,
    List.not_mem_nil, or_false] at hp
  rcases hp with rfl | rfl
  · exact ⟨fun _ => Ex.lossless_energy, fun h => absurd (by decide) h⟩
  · exact ⟨fun h => absurd h Ex.infix_energy, fun _ _ => Ex.lossless_radial⟩

example (ft : FloatText) : ∃ disk s, Input ft disk (lit "/data/te.hdf5") s (lit "Te130_2n2b") ∧
    Beside (lit "/data/te.hdf5") (lit "_smeared.hdf5") (lit "/data/te_smeared.hdf5") ∧
    (Ex.smearer 1).Weighs (Ex.weighting 1) ∧ (Ex.smearer 500).Weighs (Ex.weighting 500) ∧
    (∀ p ∈ s.core.cfg, lit "energy" <:+: p.name → Lossless (Ex.weighting 1) p) ∧
    (∀ p ∈ s.core.cfg, ¬ lit "energy" <:+: p.name → lit "radial" <:+: p.name →
      Lossless (Ex.weighting 500) p) ∧
    s.data.sum ≠ 0 := by
  obtain ⟨disk, s, h1, h2⟩ := Ex.input ft (lit "/data/te.hdf5")
  refine ⟨disk, s, h1, Ex.beside_smeared, Ex.smearer_weighs 1, Ex.smearer_weighs 500, ?_, ?_, ?_⟩
  · rw [h2]; exact fun p hp => (Ex.lossless_all p hp).1
  · rw [h2]; exact fun p hp => (Ex.lossless_all p hp).2
  · have : s.data = Ex.filledSpec.data := congrArg Spectrum.data h2
    rw [this]
    decide +kernel

/-- **C114, energy only.** The same for `dump_smeared_energy.py`, which leaves other axes alone;
the output is in the directory asked for or beside the input and its name has the resolution before
`rs.hdf5`, or the light yield before `ly.hdf5` if no resolution, or zero, was given. -/
theorem c114_weight_energy (ft : FloatText) (str : ℚ → PyStr) (isdir : PyStr → Bool)
    (res ly : ℚ → Except PyErr SmearObj) (e : SmearObj) (disk : Disk) (path : PyStr) (s : FullSpec)
    (b : PyStr) (h : Input ft disk path s b) (resolution : Option ℚ) (lightYield : ℚ)
    (dest : Option PyStr) (suffix out : PyStr) (ho : InDestOrHere isdir dest path suffix out)
    (hres : ((resolution = none ∨ resolution = some 0) ∧ ly lightYield = .ok e ∧
        ∃ u, NumText (str lightYield) u ∧ suffix = lit "_" ++ u ++ lit "ly.hdf5") ∨
      ∃ x, resolution = some x ∧ x ≠ 0 ∧ res x = .ok e ∧
        suffix = lit "_" ++ str x ++ lit "rs.hdf5")
    (we : Weighting) (he : e.Weighs we)
    (hE : ∀ p ∈ s.core.cfg, lit "energy" <:+: p.name → Lossless we p) :
    ∃ disk' t, smearEnergyScript ft str isdir res ly disk path (lit "weight") resolution lightYield
        dest = .done disk' ∧
      OnlyAt out disk disk' ∧ Input ft disk' out t b ∧
      (∀ g : List ℕ → ℚ, IgnoresAxes s.core.cfg (Smeared false) g →
        sumIdx s.data.shape (fun idx => g idx * t.data.get idx) =
          sumIdx s.data.shape (fun idx => g idx * s.data.get idx)) ∧
      t.data.sum = s.data.sum ∧ (NonNeg s.data → NonNeg t.data) ∧
      t.core.cfg = s.core.cfg ∧ t.numDecays = s.numDecays ∧ t.rawEvents = s.rawEvents ∧
      t.name = s.name ++ (s.core.pars.map (smearSuffix we none)).flatten ∧ SameLabels b s t := by
  obtain ⟨c, hc, a1, a2, a3, a4, a5⟩ := smearLoop_weighted (r := none) (wr := none) he
    (by simp) (by simp) h.wf hE (by simp) s.core.pars pars_mem
  obtain ⟨disk', t, h1, h2, h3, h4, h5⟩ := smeared_saved h out a1 a3
  have hdat : t.data = c.data := congrArg Spectrum.data h4
  refine ⟨disk', t, ?_, h2, h3, ?_, ?_, ?_, ?_, ?_, ?_, ?_, h5⟩
  · rw [smearEnergyScript_eq h.holds ho hres]
    have : smearBy (lit "weight") e none s.core = .ok c := by
      unfold smearBy
      rw [if_pos rfl]; dsimp only; rw [hc]
    rw [this]
    exact h1
  · rw [hdat]; exact a5
  · have := a5 (fun _ => 1) (fun _ _ _ _ _ _ => rfl)
    simp only [one_mul] at this
    rw [hdat]
    unfold NdArray.sum
    rw [a3]
    exact this
  · rw [hdat]; exact a4
  · rw [h4]; exact a1.1
  · exact (congrArg Spectrum.numDecays h4).trans a1.2.1
  · exact (congrArg Spectrum.rawEvents h4).trans a1.2.2.1
  · exact (congrArg Spectrum.name h4).trans a2

theorem Ex.inDest_smeared : InDestOrHere (fun _ => true) (some (lit "/out"))
    (lit "/data/te.hdf5") (lit "_" ++ lit "200" ++ lit "ly.hdf5") (lit "/out/te_200ly.hdf5") :=
  .inl (.inl ⟨lit "/out", lit "/out/", lit "/data/", lit "te", lit "hdf5", rfl, by decide, rfl,
    ⟨by decide, .inr (by decide), by decide, by decide⟩, ⟨'t', by decide⟩,
    .inr ⟨by decide, by decide⟩, by decide⟩)

example (ft : FloatText) : ∃ disk s, Input ft disk (lit "/data/te.hdf5") s (lit "Te130_2n2b") ∧
    InDestOrHere (fun _ => true) (some (lit "/out")) (lit "/data/te.hdf5")
      (lit "_" ++ lit "200" ++ lit "ly.hdf5") (lit "/out/te_200ly.hdf5") ∧
    NumText (lit "200.0") (lit "200") ∧
    (∀ p ∈ s.core.cfg, lit "energy" <:+: p.name → Lossless (Ex.weighting 1) p) := by
  obtain ⟨disk, s, h1, h2⟩ := Ex.input ft (lit "/data/te.hdf5")
  refine ⟨disk, s, h1, Ex.inDest_smeared, .inl (by decide), ?_⟩
  rw [h2]; exact fun p hp => (Ex.lossless_all p hp).1

/-- **C114, cell by cell.** With a single energy axis, aligned with zero, each cell of the output of
`dump_smeared_energy.py` holds the shares of the cells that differ only along it, in proportion to
the weights, over a window as in C32. -/
theorem c114_weight_cells (ft : FloatText) (str : ℚ → PyStr) (isdir : PyStr → Bool)
    (res ly : ℚ → Except PyErr SmearObj) (e : SmearObj) (disk : Disk) (path : PyStr) (s : FullSpec)
    (b : PyStr) (h : Input ft disk path s b) (resolution : Option ℚ) (lightYield : ℚ)
    (dest : Option PyStr) (suffix out : PyStr) (ho : InDestOrHere isdir dest path suffix out)
    (hres : ((resolution = none ∨ resolution = some 0) ∧ ly lightYield = .ok e ∧
        ∃ u, NumText (str lightYield) u ∧ suffix = lit "_" ++ u ++ lit "ly.hdf5") ∨
      ∃ x, resolution = some x ∧ x ≠ 0 ∧ res x = .ok e ∧
        suffix = lit "_" ++ str x ++ lit "rs.hdf5")
    (w : Weighting) (he : e.Weighs w) (hpos : ∀ x m g, 0 < w.weight x m g)
    (k : ℕ) (p : SPar) (hk : s.core.cfg[k]? = some p) (ha : p.Aligned)
    (honly : OnlyAxis s.core.cfg (lit "energy") k) :
    ∃ disk' t, ∃ a c : ℕ → ℕ,
      smearEnergyScript ft str isdir res ly disk path (lit "weight") resolution lightYield
        dest = .done disk' ∧ OnlyAt out disk disk' ∧ Input ft disk' out t b ∧
      t.name = s.name ++ w.suffix ∧ t.data.shape = s.data.shape ∧
      (∀ i, c i < p.bins.toNat ∧ ∀ j,
        (a i ≤ j → j < c i → |p.centre j - p.centre i| ≤
          w.ns * w.sigma (p.centre i) + (p.high - p.low) / p.bins / 2) ∧
        (j + 1 < p.bins.toNat → |p.centre j - p.centre i| ≤ w.ns * w.sigma (p.centre i) →
          a i ≤ j ∧ j < c i)) ∧
      ∀ idx j, InB s.data.shape idx → idx[k]? = some j → t.data.get idx =
        ∑ i ∈ range p.bins.toNat, s.data.get (idx.set k i) * (if a i ≤ j ∧ j < c i then
          w.weight (p.centre j) (p.centre i) (w.sigma (p.centre i)) /
            ∑ j' ∈ Ico (a i) (c i), w.weight (p.centre j') (p.centre i) (w.sigma (p.centre i))
          else 0) := by
  obtain ⟨u, a, c, hu, b1, b2, b3, b4, b5⟩ :=
    c32_smear_cells s.core h.wf k p hk ha w.suffix w.sigma w.weight w.ns hpos
  obtain ⟨disk', t, h1, h2, h3, h4, h5⟩ := smeared_saved h out b1 b3
  have hdat : t.data = u.data := congrArg Spectrum.data h4
  refine ⟨disk', t, a, c, ?_, h2, h3, (congrArg Spectrum.name h4).trans b2,
    by rw [hdat]; exact b3, b4, by rw [hdat]; exact b5⟩
  rw [smearEnergyScript_eq h.holds ho hres]
  have : smearBy (lit "weight") e none s.core = .ok u := by
    unfold smearBy
    rw [if_pos rfl]; dsimp only; rw [smearLoop_single _ _ hk honly, he, hu]
  rw [this]
  exact h1

theorem Ex.onlyAxis : OnlyAxis Ex.filledSpec.core.cfg (lit "energy") 0 := by
  intro j p hj
  match j with
  | 0 =>
    cases hj
    exact ⟨fun _ => rfl, fun _ => by decide⟩
  | 1 =>
    cases hj
    exact ⟨fun h => absurd h Ex.infix_energy, fun h => absurd h (by decide)⟩
  | j + 2 => cases hj

example (ft : FloatText) : ∃ disk s, Input ft disk (lit "/data/te.hdf5") s (lit "Te130_2n2b") ∧
    (∃ p, s.core.cfg[0]? = some p ∧ p.Aligned) ∧ OnlyAxis s.core.cfg (lit "energy") 0 := by
  obtain ⟨disk, s, h1, h2⟩ := Ex.input ft (lit "/data/te.hdf5")
  refine ⟨disk, s, h1, ?_, ?_⟩
  · rw [h2]; exact ⟨_, rfl, 0, by norm_num⟩
  · rw [h2]; exact Ex.onlyAxis

/-- **C114, random smearing.** With a single energy axis and the method `random`, the total of the
output of `dump_smeared_energy.py` is at most the sum of the whole parts of the cells, with equality
if every drawn value is in range. -/
theorem c114_random (ft : FloatText) (str : ℚ → PyStr) (isdir : PyStr → Bool)
    (res ly : ℚ → Except PyErr SmearObj) (e : SmearObj) (disk : Disk) (path : PyStr) (s : FullSpec)
    (b : PyStr) (h : Input ft disk path s b) (resolution : Option ℚ) (lightYield : ℚ)
    (dest : Option PyStr) (suffix out : PyStr) (ho : InDestOrHere isdir dest path suffix out)
    (hres : ((resolution = none ∨ resolution = some 0) ∧ ly lightYield = .ok e ∧
        ∃ u, NumText (str lightYield) u ∧ suffix = lit "_" ++ u ++ lit "ly.hdf5") ∨
      ∃ x, resolution = some x ∧ x ≠ 0 ∧ res x = .ok e ∧
        suffix = lit "_" ++ str x ++ lit "rs.hdf5")
    (sfx : PyStr) (draws : List ℕ → ℕ → ℚ)
    (he : ∀ s par, e.random s par = s.randomSmear sfx draws par)
    (k : ℕ) (p : SPar) (hk : s.core.cfg[k]? = some p)
    (honly : OnlyAxis s.core.cfg (lit "energy") k) :
    ∃ disk' t, smearEnergyScript ft str isdir res ly disk path (lit "random") resolution lightYield
        dest = .done disk' ∧ OnlyAt out disk disk' ∧ Input ft disk' out t b ∧
      t.name = s.name ++ sfx ∧ t.core.cfg = s.core.cfg ∧ t.numDecays = s.numDecays ∧
      t.data.sum ≤ sumIdx s.data.shape (fun idx => ((pyInt (s.data.get idx)).toNat : ℚ)) ∧
      ((∀ idx q, InB s.data.shape idx → q < (pyInt (s.data.get idx)).toNat →
          p.low ≤ |draws idx q| ∧ |draws idx q| < p.high) →
        t.data.sum = sumIdx s.data.shape (fun idx => ((pyInt (s.data.get idx)).toNat : ℚ))) := by
  obtain ⟨u, hu, b1, b2, b3, -⟩ := c34_counts s.core h.wf k p hk sfx draws
  obtain ⟨u', hu', -, d2, d3⟩ := c34_total s.core h.wf k p hk sfx draws
  rw [hu] at hu'
  injection hu' with hu'
  subst hu'
  obtain ⟨disk', t, h1, h2, h3, h4, h5⟩ := smeared_saved h out b1 b3
  have hdat : t.data = u.data := congrArg Spectrum.data h4
  refine ⟨disk', t, ?_, h2, h3, (congrArg Spectrum.name h4).trans b2, by rw [h4]; exact b1.1,
    (congrArg Spectrum.numDecays h4).trans b1.2.1, by rw [hdat]; exact d2, by rw [hdat]; exact d3⟩
  rw [smearEnergyScript_eq h.holds ho hres]
  have : smearBy (lit "random") e none s.core = .ok u := by
    unfold smearBy
    rw [if_neg (by decide), if_pos rfl]; dsimp only; rw [smearLoop_single _ _ hk honly, he, hu]
  rw [this]
  exact h1

/-- All drawn values in range: none of the contents is lost. -/
example (ft : FloatText) : ∃ disk s, Input ft disk (lit "/data/te.hdf5") s (lit "Te130_2n2b") ∧
    (∃ p, s.core.cfg[0]? = some p ∧ ∀ idx q, InB s.data.shape idx →
      q < (pyInt (s.data.get idx)).toNat →
        p.low ≤ |(fun _ _ => 1 / 2 : List ℕ → ℕ → ℚ) idx q| ∧
          |(fun _ _ => 1 / 2 : List ℕ → ℕ → ℚ) idx q| < p.high) ∧
    OnlyAxis s.core.cfg (lit "energy") 0 ∧
    ∀ s par, (Ex.smearer 1).random s par = s.randomSmear (lit "_smeared") (fun _ _ => 1 / 2) par := by
  obtain ⟨disk, s, h1, h2⟩ := Ex.input ft (lit "/data/te.hdf5")
  refine ⟨disk, s, h1, ?_, ?_, fun _ _ => rfl⟩
  · rw [h2]; exact ⟨_, rfl, fun _ _ _ _ => by norm_num⟩
  · rw [h2]; exact Ex.onlyAxis

/-- **C114 fails for random smearing of the radius**: a spectrum with contents whose first axis is
a radius cannot be smeared by `dump_smeared.py` with the method `random`; nothing is saved. -/
theorem c114_random_radial_negation (ft : FloatText) (res : ℚ → Except PyErr SmearObj)
    (ly radial e : SmearObj) (disk : Disk) (path : PyStr) (s : FullSpec) (b : PyStr)
    (h : Input ft disk path s b) (out : PyStr) (ho : Beside path (lit "_smeared.hdf5") out)
    (resolution : Option ℚ)
    (hres : ((resolution = none ∨ resolution = some 0) ∧ e = ly) ∨
      ∃ x, resolution = some x ∧ x ≠ 0 ∧ res x = .ok e)
    (sfx : PyStr) (hr : ∀ s par, radial.random s par = s.randomSmearRadial sfx par)
    (p : SPar) (rest : List SPar) (hp : s.core.cfg = p :: rest)
    (hne : ¬ lit "energy" <:+: p.name) (hrad : lit "radial" <:+: p.name)
    (hc : ∃ idx, InB s.data.shape idx ∧ s.data.get idx ≠ 0) :
    smearScript ft res ly radial disk path (lit "random") resolution =
      .stopped disk (.raised .typeError) := by
  have hraise := (c34_radial_raises s.core h.wf p (by rw [hp]; simp) sfx).1 hc
  rw [smearScript_eq h.holds ho hres]
  have : smearBy (lit "random") e (some radial) s.core = .error (.raised .typeError) := by
    unfold smearBy
    rw [if_neg (by decide), if_pos rfl]
    have : smearLoop SmearObj.random e (some radial) s.core s.core.pars = .error .typeError := by
      have hpars : s.core.pars = p.name :: rest.map SPar.name := by
        unfold Spectrum.pars
        rw [hp]; rfl
      unfold smearLoop
      rw [hpars, List.foldlM_cons]
      simp only [pyContains, hne, hrad, decide_true, decide_false, Bool.false_eq_true,
              if_false, if_true, hr, hraise]
      rfl
    dsimp only
    rw [this]
  rw [this]

example : ∃ s : FullSpec, Savable s ∧ s.core.WF ∧
    s.core.cfg = ⟨lit "radial_mc", 0, 6000, 3⟩ :: [] ∧ ¬ lit "energy" <:+: lit "radial_mc" ∧
    lit "radial" <:+: lit "radial_mc" ∧ ∃ idx, InB s.data.shape idx ∧ s.data.get idx ≠ 0 := by
  refine ⟨{ Ex.saved with
    config := ⟨lit "config", [(lit "radial_mc", ⟨lit "radial_mc", 0, 6000, 3⟩)]⟩
    data := ⟨[3], fun _ => 1⟩ }, ⟨⟨?_, by decide, ?_, rfl⟩, Ex.saved_storable.savable.fit,
      Ex.saved_storable.savable.style⟩, ⟨?_, by decide, rfl⟩, rfl, Ex.infix_energy, by decide,
      [0], by decide, by decide⟩
  · simp
  · intro e he
    simp only [List.mem_cons, List.not_mem_nil, or_false] at he
    subst he; rfl
  · intro p hp
    simp only [FullSpec.core, List.map_cons, List.map_nil, List.mem_cons, List.not_mem_nil,
      or_false] at hp
    subst hp
    constructor <;> norm_num

/-- **C114, refusals.** Any other method is refused and nothing is written; so is a file that is
missing, a resolution that the smearer refuses and a directory that does not exist. -/
theorem c114_refused (ft : FloatText) (str : ℚ → PyStr) (isdir : PyStr → Bool)
    (resS : ℚ → Except PyErr SmearObj) (lyS radial : SmearObj) (res ly : ℚ → Except PyErr SmearObj)
    (disk : Disk) (path method : PyStr) (resolution : Option ℚ) (lightYield : ℚ)
    (dest : Option PyStr) :
    ((disk path = none ∨ (method ≠ lit "weight" ∧ method ≠ lit "random") ∨
        (∃ x e, resolution = some x ∧ x ≠ 0 ∧ resS x = .error e)) →
      ∃ why, smearScript ft resS lyS radial disk path method resolution = .stopped disk why) ∧
    ((disk path = none ∨ (method ≠ lit "weight" ∧ method ≠ lit "random") ∨
        (∃ x e, resolution = some x ∧ x ≠ 0 ∧ res x = .error e) ∨
        (∃ d, dest = some d ∧ d ≠ [] ∧ isdir d = false)) →
      ∃ why, smearEnergyScript ft str isdir res ly disk path method resolution lightYield dest =
        .stopped disk why) := by
  have hby : (method ≠ lit "weight" ∧ method ≠ lit "random") → ∀ e r s,
      smearBy method e r s = .error .usage := by
    intro hm e r s
    unfold smearBy
    rw [if_neg hm.1, if_neg hm.2]
  have hgen : ∀ (r : Except PyErr SmearObj) (rad : Option SmearObj) (f : FullSpec → PyStr),
      (disk path = none ∨ (method ≠ lit "weight" ∧ method ≠ lit "random") ∨ ∃ e, r = .error e) →
      ∃ why, (match r with
        | .error e => .stopped disk (.raised e)
        | .ok energy =>
          match loadAt ft disk path with
          | .error e => .stopped disk e
          | .ok s =>
            match smearBy method energy rad s.core with
            | .error e => .stopped disk e
            | .ok t => dumpAt disk (f s) (s.withCore t)) = RunEnd.stopped disk why := by
    intro r rad f h
    rcases r with e | o
    · exact ⟨_, rfl⟩
    dsimp only
    rcases h with h | h | ⟨e, he⟩
    · unfold loadAt; rw [h]; exact ⟨_, rfl⟩
    · rcases hl : loadAt ft disk path with e | s
      · exact ⟨_, rfl⟩
      · dsimp only; rw [hby h]; exact ⟨_, rfl⟩
    · cases he
  constructor
  · intro h
    unfold smearScript
    refine hgen _ (some radial) (fun _ => _) ?_
    rcases h with h | h | ⟨x, e, rfl, hx0, he⟩
    · exact .inl h
    · exact .inr (.inl h)
    · exact .inr (.inr ⟨e, by dsimp only; rw [if_neg hx0, he]⟩)
  · intro h
    unfold smearEnergyScript
    rcases hd : smearedDir isdir dest path with e | dir
    · exact ⟨_, rfl⟩
    dsimp only
    refine hgen _ none (fun _ => _) ?_
    rcases h with h | h | ⟨x, e, rfl, hx0, he⟩ | ⟨d, rfl, hd0, hdd⟩
    · exact .inl h
    · exact .inr (.inl h)
    · exact .inr (.inr ⟨e, by dsimp only; rw [if_neg hx0]; exact he⟩)
    · cases d with
      | nil => exact absurd rfl hd0
      | cons c d =>
        unfold smearedDir at hd
        dsimp only at hd
        rw [hdd] at hd
        cases hd

end Verif
