import Verif.Lemmas.Projections
import Verif.Props.Add
import Verif.Spec.Examples

/-! # C138: projecting and other operations can be done in either order -/

namespace Verif

open Finset

/-- Rebinning: projecting the rebinned spectrum gives what rebinning the projection gives, with
the numbers of bins of the kept axes. -/
theorem c138_rebin (s : Spectrum) (hs : s.WF) (call : ProjCall) (hc : call.Fits s) (ns : List ℕ)
    (hr : (s.rebin ns).err = none) :
    ∃ b c, call.run s = .ok b ∧ call.run (s.rebin ns).st = .ok c ∧
      ((s.onto call.dims b).rebin (pick call.dims (s.cfg.map SPar.name) ns)).err = none ∧
      ((s.onto call.dims b).rebin (pick call.dims (s.cfg.map SPar.name) ns)).st.Eqv
        ((s.rebin ns).st.onto call.dims c) := by
  obtain ⟨b, hb1, hb⟩ := projCall_ok hs hc
  have hd := (rebin_err_none_iff hs).1 hr
  have hl := hd.length_eq
  obtain ⟨⟨hts, htg⟩, hcfg, -, hm1, hm2, hm3, hm4⟩ := (c13_rebin s hs ns).2 hr
  have hnames : (s.rebin ns).st.cfg.map SPar.name = s.cfg.map SPar.name := by
    rw [hcfg, List.map_zipWith]
    clear * - hl
    revert hl
    generalize s.cfg = cfg
    intro hl
    induction cfg generalizing ns with
    | nil => rfl
    | cons p cfg ih => cases ns with
      | nil => simp at hl
      | cons n ns => simp only [List.zipWith_cons_cons, List.map_cons, ih ns (by simpa using hl)]
  obtain ⟨c, hc1, hcs, hcg⟩ := projCall_ok (rebin_wf hs hr) (projCall_fits hc hnames)
  rw [hnames, hts] at hcs
  have hw := onto_wf hs hb.1
  have hr' : ((s.onto call.dims b).rebin (pick call.dims (s.cfg.map SPar.name) ns)).err = none := by
    rw [rebin_err_none_iff hw, ← keepOf_pick]
    exact forall₂_keep hd
  obtain ⟨⟨hus, hug⟩, hcfg', -, hm1', hm2', hm3', hm4'⟩ := (c13_rebin _ hw _).2 hr'
  refine ⟨b, c, hb1, hc1, hr', ⟨?_, ?_, ?_, ?_, ?_⟩, ?_, ?_⟩
  · exact hm3.trans hm3'.symm
  · rw [hcfg', ← keepOf_pick]
    change axesOf _ (s.rebin ns).st.cfg = _
    rw [hcfg]
    exact zipWith_keep (f := fun (p : SPar) (n : ℕ) => { p with bins := (n : ℤ) }) (fun _ _ => rfl) _ _
  · exact hm1.trans hm1'.symm
  · exact hm2.trans hm2'.symm
  · exact hm4.trans hm4'.symm
  · rw [hus]; exact hcs.symm
  · intro idx hidx
    rw [hus] at hidx
    rw [hug idx hidx]
    change _ = c.get idx
    rw [hcg idx (by rw [hcs]; exact hidx), hnames, hts]
    change sumIdx b.shape (fun full => if List.zipWith (· / ·) full
      (List.zipWith (· / ·) b.shape _) = idx then b.get full else 0) = _
    have e1 : sumIdx b.shape (fun full => if List.zipWith (· / ·) full (List.zipWith (· / ·) b.shape
          (pick call.dims (s.cfg.map SPar.name) ns)) = idx then b.get full else 0) =
        sumIdx b.shape (fun i => if List.zipWith (· / ·) i (List.zipWith (· / ·) b.shape
          (pick call.dims (s.cfg.map SPar.name) ns)) = idx then sumIdx s.data.shape (fun full =>
            if pick call.dims (s.cfg.map SPar.name) full = i then s.data.get full else 0) else 0) := by
      refine sumIdx_congr fun i hi => ?_
      rw [hb.2 i hi]
    have e2 : sumIdx ns (fun full => if pick call.dims (s.cfg.map SPar.name) full = idx then
          (s.rebin ns).st.data.get full else 0) =
        sumIdx ns (fun i => if pick call.dims (s.cfg.map SPar.name) i = idx then
          sumIdx s.data.shape (fun full => if List.zipWith (· / ·) full
            (List.zipWith (· / ·) s.data.shape ns) = i then s.data.get full else 0) else 0) := by
      refine sumIdx_congr fun i hi => ?_
      rw [htg i hi]
    rw [e1, e2, push_sum (fun full hfull => by rw [hb.1]; exact inB_pick hfull),
      push_sum (fun full hfull => inB_coarse hs.axes hd hs.shape hfull)]
    refine sumIdx_congr fun full _ => ?_
    rw [pick_zipWith, pick_zipWith, hb.1]

/-- Shrinking: if all bounds are bin edges of the kept axes, projecting the shrunk spectrum gives
what shrinking the projection with the same keywords gives. -/
theorem c138_shrink_edges (s : Spectrum) (hs : s.WF) (ha : ∀ p ∈ s.cfg, p.Aligned)
    (call : ProjCall) (hc : call.Fits s) (kw : List (PyStr × ℚ)) (rs : List (ℕ × ℕ))
    (hkw : AsksEdges s kw rs) (hne : ∀ r ∈ rs, r.1 < r.2) (hdims : BoundsOf call.dims kw) :
    ∃ b c, call.run s = .ok b ∧ call.run (s.shrink kw).st = .ok c ∧
      (s.shrink kw).err = none ∧ ((s.onto call.dims b).shrink kw).err = none ∧
      ((s.onto call.dims b).shrink kw).st.Eqv ((s.shrink kw).st.onto call.dims c) := by
  obtain ⟨b, hb1, hb⟩ := projCall_ok hs hc
  obtain ⟨herr, ⟨hts, htg⟩, hcfg, hm1, hm2, hm3, hm4⟩ := shrink_isSub hs ha hkw
  have hl := hkw.2.2.length_eq
  have hnames : (s.shrink kw).st.cfg.map SPar.name = s.cfg.map SPar.name := by
    rw [hcfg, List.map_zipWith]
    clear * - hl
    revert hl
    generalize s.cfg = cfg
    intro hl
    induction cfg generalizing rs with
    | nil => rfl
    | cons p cfg ih => cases rs with
      | nil => simp at hl
      | cons n ns =>
        rw [List.zipWith_cons_cons, List.map_cons, ih ns (by simpa using hl)]
        rfl
  have htw : (s.shrink kw).st.WF := by
    refine ⟨?_, by rw [hnames]; exact hs.names, ?_⟩
    · rw [hcfg]
      have hax := hs.axes
      clear * - hl hne hax
      revert hl hax
      generalize s.cfg = cfg
      intro hl hax
      induction cfg generalizing rs with
      | nil => simp
      | cons p cfg ih => cases rs with
        | nil => simp at hl
        | cons r rs =>
          intro q hq
          rw [List.zipWith_cons_cons, List.mem_cons] at hq
          rcases hq with rfl | hq
          · have hr := hne r (by simp)
            have hw := (hax p (by simp)).width_pos
            refine ⟨?_, ?_⟩
            · change 0 < (r.2 : ℤ) - r.1
              omega
            · change p.edge r.1 < p.edge r.2
              rw [SPar.edge_eq, SPar.edge_eq]
              have : ((r.1 : ℤ) : ℚ) < ((r.2 : ℤ) : ℚ) := by exact_mod_cast hr
              have := mul_lt_mul_of_pos_right this hw
              linarith
          · exact ih rs (fun r hr => hne r (by simp [hr])) (by simpa using hl)
              (fun p hp => hax p (by simp [hp])) q hq
    · rw [hts, hcfg]
      clear * - hl hne
      revert hl
      generalize s.cfg = cfg
      intro hl
      induction cfg generalizing rs with
      | nil => cases rs with
        | nil => rfl
        | cons a l => simp at hl
      | cons p cfg ih => cases rs with
        | nil => simp at hl
        | cons r rs =>
          have hr := hne r (by simp)
          simp only [List.map_cons, List.zipWith_cons_cons, List.cons.injEq]
          refine ⟨?_, ih rs (fun r hr => hne r (by simp [hr])) (by simpa using hl)⟩
          change ((r.2 - r.1 : ℕ) : ℤ) = (r.2 : ℤ) - r.1
          omega
  obtain ⟨c, hc1, hcs, hcg⟩ := projCall_ok htw (projCall_fits hc hnames)
  rw [hnames, hts] at hcs
  have hw := onto_wf hs hb.1
  have hcs' : c.shape = (keepOf call.dims s.cfg rs).map (fun r => r.2 - r.1) := by
    rw [hcs, ← keepOf_pick, keepOf_map]
  have hkw' : AsksEdges (s.onto call.dims b) kw (keepOf call.dims s.cfg rs) := by
    refine ⟨hkw.1, fun e he => ?_, forall₂_keep hkw.2.2⟩
    obtain ⟨d, hd, h⟩ := hdims e he
    obtain ⟨p, hp, rfl⟩ := List.mem_map.1 (hc.2.1 d hd)
    exact ⟨p, List.mem_filter.2 ⟨hp, by simpa using hd⟩, h⟩
  obtain ⟨herr', ⟨hus, hug⟩, hcfg', hm1', hm2', hm3', hm4'⟩ :=
    shrink_isSub hw (fun p hp => ha p (List.mem_filter.1 hp).1) hkw'
  have hfull : List.Forall₂ (fun (p : SPar) (r : ℕ × ℕ) => r.1 ≤ r.2 ∧ (r.2 : ℤ) ≤ p.bins ∧
      (p.name ∉ call.dims → r.1 = 0 ∧ (r.2 : ℤ) = p.bins)) s.cfg rs := by
    have hm := List.forall₂_and_left _ _ |>.2 ⟨fun p hp => hp, hkw.2.2⟩
    refine hm.imp fun p r ⟨hp, h1, h2, h3, h4⟩ => ⟨h1, h2, fun hn => ?_⟩
    have hwd := (hs.axes p hp).width_pos
    have hlow : p.edge r.1 = p.low := by
      rcases h3 with h3 | h3
      · obtain ⟨d, hd, h | h⟩ := hdims _ h3
        · exact absurd (List.append_cancel_right h ▸ hd) hn
        · exact absurd h lit_low_ne_high
      · exact h3.2
    have hhigh : p.edge r.2 = p.high := by
      rcases h4 with h4 | h4
      · obtain ⟨d, hd, h | h⟩ := hdims _ h4
        · exact absurd h.symm lit_low_ne_high
        · exact absurd (List.append_cancel_right h ▸ hd) hn
      · exact h4.2
    rw [SPar.edge_eq] at hlow hhigh
    rw [(hs.axes p hp).high_eq] at hhigh
    constructor
    · have : ((r.1 : ℤ) : ℚ) * p.width = 0 := by linarith
      rcases mul_eq_zero.1 this with h | h
      · exact_mod_cast h
      · exact absurd h hwd.ne'
    · have : ((r.2 : ℤ) : ℚ) * p.width = p.bins * p.width := by linarith
      exact_mod_cast mul_right_cancel₀ hwd.ne' this
  refine ⟨b, c, hb1, hc1, herr, herr', ⟨?_, ?_, ?_, ?_, ?_⟩, ?_, ?_⟩
  · exact hm1.trans hm1'.symm
  · rw [hcfg']
    change axesOf _ (s.shrink kw).st.cfg = _
    rw [hcfg]
    exact zipWith_keep (f := subAxis) (fun _ _ => rfl) _ _
  · exact hm2.trans hm2'.symm
  · exact hm3.trans hm3'.symm
  · exact hm4.trans hm4'.symm
  · rw [hus]; exact hcs'.symm
  · intro idx hidx
    rw [hug idx hidx]
    rw [hus] at hidx
    change b.get _ = c.get idx
    rw [hcg idx (by rw [hcs']; exact hidx), hnames, hts]
    have hin : InB b.shape (List.zipWith (fun r i => r.1 + i) (keepOf call.dims s.cfg rs) idx) := by
      rw [hb.1, ← keepOf_pick]
      exact inB_keepSlice hs.shape hfull hidx
    rw [hb.2 _ hin, ← slice_sum hs.shape hfull hidx (fun l => s.data.get l)]
    refine sumIdx_congr fun out hout => ?_
    rw [htg out (by rw [hts]; exact hout)]

/-- Smearing along a kept axis: projecting the smeared spectrum gives what smearing the projection
gives. -/
theorem c138_smear (s : Spectrum) (hs : s.WF) (call : ProjCall) (hc : call.Fits s) (p : SPar)
    (hp : p ∈ s.cfg) (hd : p.name ∈ call.dims) (suffix : PyStr) (sigma : ℚ → ℚ)
    (weight : ℚ → ℚ → ℚ → ℚ) (ns : ℚ) (hpos : ∀ x m g, 0 < weight x m g) :
    ∃ b t c u, call.run s = .ok b ∧ s.weightedSmear suffix sigma weight ns p.name = .ok t ∧
      call.run t = .ok c ∧
      (s.onto call.dims b).weightedSmear suffix sigma weight ns p.name = .ok u ∧
      u.Eqv (t.onto call.dims c) := by
  obtain ⟨pre, post, hcfg⟩ := List.append_of_mem hp
  obtain ⟨b, hb1, hb⟩ := projCall_ok hs hc
  obtain ⟨t, ht1, ⟨hs1, hs2, hs3, hs4⟩, htn, htsh, htg⟩ :=
    smear_core hs (k := pre.length) (p := p) (by simp [hcfg]) suffix sigma ns hpos
  have htw : t.WF := ⟨by rw [hs1]; exact hs.axes, by rw [hs1]; exact hs.names,
    by rw [hs1, htsh]; exact hs.shape⟩
  obtain ⟨c, hc1, hcp⟩ := projCall_ok htw (projCall_fits hc (by rw [hs1]))
  obtain ⟨u, hu1, ⟨hu2, hu3, hu4, hu5⟩, hun, hush, hug⟩ :=
    smear_core (onto_wf hs hb.1) (onto_axis hcfg hd b) suffix sigma ns hpos
  refine ⟨b, t, c, u, hb1, ht1, hc1, hu1, ⟨?_, ?_, ?_, ?_, ?_⟩, ?_⟩
  · exact htn.trans hun.symm
  · rw [hu2]
    change axesOf _ t.cfg = axesOf _ s.cfg
    rw [hs1]
  · exact hs2.trans hu3.symm
  · exact hs3.trans hu4.symm
  · exact hs4.trans hu5.symm
  · exact along_kept hs hcfg hd hs1 hb hcp ⟨htsh, htg⟩ ⟨hush, hug⟩

/-- Smearing along an axis that is left out, if no counts are lost (see C32), does not change the
projection. -/
theorem c138_smear_left_out (s : Spectrum) (hs : s.WF) (call : ProjCall) (hc : call.Fits s)
    (k : ℕ) (p : SPar) (hk : s.cfg[k]? = some p) (hd : p.name ∉ call.dims) (suffix : PyStr)
    (sigma : ℚ → ℚ) (weight : ℚ → ℚ → ℚ → ℚ) (ns : ℚ) (hpos : ∀ x m g, 0 < weight x m g)
    (h2 : 2 ≤ p.bins) (hR : ∀ i < p.bins.toNat, 0 ≤ ns * sigma (p.centre i))
    (hlast : (p.high - p.low) / p.bins / 2 < ns * sigma (p.centre (p.bins.toNat - 1)) ∨
      ∀ idx, InB s.data.shape idx → idx[k]? = some (p.bins.toNat - 1) → s.data.get idx = 0) :
    ∃ b t c, call.run s = .ok b ∧ s.weightedSmear suffix sigma weight ns p.name = .ok t ∧
      call.run t = .ok c ∧ c.Eqv b := by
  obtain ⟨b, hb1, hb⟩ := projCall_ok hs hc
  obtain ⟨t, ht1, -, htsame, -⟩ :=
    c32_conserved_partial s hs k p hk suffix sigma weight ns hpos h2 hR hlast
  obtain ⟨t', ht1', ⟨hs1, -⟩, -, htsh, -⟩ := smear_core hs hk suffix sigma ns hpos
  obtain rfl : t = t' := by
    rw [ht1] at ht1'
    exact Except.ok.inj ht1'
  have htw : t.WF := ⟨by rw [hs1]; exact hs.axes, by rw [hs1]; exact hs.names,
    by rw [hs1, htsh]; exact hs.shape⟩
  obtain ⟨c, hc1, hcp⟩ := projCall_ok htw (projCall_fits hc (by rw [hs1]))
  exact ⟨b, t, c, hb1, ht1, hc1, along_left_out hs hk hd hs1 hb hcp htsh htsame⟩

/-- Shifting by whole bins along a kept axis: projecting the shifted spectrum gives what shifting
the projection gives. -/
theorem c138_shift_by_bin (str : ℚ → PyStr) (s : Spectrum) (hs : s.WF) (hn : NonNeg s.data)
    (call : ProjCall) (hc : call.Fits s) (p : SPar) (hp : p ∈ s.cfg) (hd : p.name ∈ call.dims)
    (m : ℤ) (shift : ℚ) (h1 : m * ((p.high - p.low) / p.bins) ≤ shift)
    (h2 : shift - m * ((p.high - p.low) / p.bins) ≤ 1 / 10 ^ 8)
    (h3 : shift - m * ((p.high - p.low) / p.bins) < (p.high - p.low) / p.bins / 2) :
    ∃ b t c u, call.run s = .ok b ∧ s.shiftByBin str p.name shift = .ok t ∧
      call.run t = .ok c ∧ (s.onto call.dims b).shiftByBin str p.name shift = .ok u ∧
      u.Eqv (t.onto call.dims c) := by
  obtain ⟨pre, post, hcfg⟩ := List.append_of_mem hp
  have hk : s.cfg[pre.length]? = some p := by simp [hcfg]
  obtain ⟨b, hb1, hb⟩ := projCall_ok hs hc
  obtain ⟨t, ht1, htm, ⟨hs1, hs2, hs3, hs4⟩, htn, -⟩ :=
    c27_shift_by_bin str s hs hn pre.length p hk m shift h1 h2 h3
  have htw : t.WF := ⟨by rw [hs1]; exact hs.axes, by rw [hs1]; exact hs.names,
    by rw [hs1, htm.1]; exact hs.shape⟩
  obtain ⟨c, hc1, hcp⟩ := projCall_ok htw (projCall_fits hc (by rw [hs1]))
  have hnb : NonNeg b := by
    intro idx hidx
    rw [hb.2 idx hidx]
    refine sumIdx_nonneg fun full hfull => ?_
    split
    · exact hn full hfull
    · exact le_rfl
  have hw := onto_wf hs hb.1
  obtain ⟨u, hu1, hum, ⟨hu2, hu3, hu4, hu5⟩, hun, -⟩ :=
    c27_shift_by_bin str (s.onto call.dims b) hw hnb _ p (onto_axis hcfg hd b) m shift h1 h2 h3
  refine ⟨b, t, c, u, hb1, ht1, hc1, hu1, ⟨?_, ?_, ?_, ?_, ?_⟩, ?_⟩
  · exact htn.trans hun.symm
  · rw [hu2]
    change axesOf _ t.cfg = axesOf _ s.cfg
    rw [hs1]
  · exact hs2.trans hu3.symm
  · exact hs3.trans hu4.symm
  · exact hs4.trans hu5.symm
  · exact along_kept hs hcfg hd hs1 hb hcp (moved_along (axis_facts hs hk).2.2.2.2 htm)
      (moved_along (axis_facts hw (onto_axis hcfg hd b)).2.2.2.2 hum)

/-- Adding spectra with the same parameter names: if the sum is accepted so is the sum of the
projections, and it is the projection of the sum. -/
theorem c138_add (s t : Spectrum) (hs : s.WF) (ht : t.WF)
    (hn : t.cfg.map SPar.name = s.cfg.map SPar.name) (call : ProjCall) (hc : call.Fits s)
    (ha : (s.add t).err = none) :
    ∃ b b' c, call.run s = .ok b ∧ call.run t = .ok b' ∧ call.run (s.add t).st = .ok c ∧
      ((s.onto call.dims b).add (t.onto call.dims b')).err = none ∧
      ((s.onto call.dims b).add (t.onto call.dims b')).st.Eqv ((s.add t).st.onto call.dims c) := by
  obtain ⟨b, hb1, hb⟩ := projCall_ok hs hc
  obtain ⟨b', hb1', hb'⟩ := projCall_ok ht (projCall_fits hc hn)
  obtain ⟨h1, h2, h3, -, h4, h5, h6, h7, h8⟩ := (c05_add s t).1 ha
  have hw : (s.add t).st.WF := ⟨by rw [h6]; exact hs.axes, by rw [h6]; exact hs.names,
    by rw [h6, h1]; exact hs.shape⟩
  obtain ⟨c, hc1, hcp⟩ := projCall_ok hw (projCall_fits hc (by rw [h6]))
  have hbb : b.shape = b'.shape := by rw [hb.1, hb'.1, hn, h2]
  have hw1 := onto_wf hs hb.1
  have hw2 := onto_wf ht hb'.1
  have hn' : (t.onto call.dims b').cfg.map SPar.name = (s.onto call.dims b).cfg.map SPar.name := by
    change (axesOf _ _).map _ = (axesOf _ _).map _
    rw [axesOf_names, axesOf_names, hn]
  have ha' : ((s.onto call.dims b).add (t.onto call.dims b')).err = none := by
    rw [c05_add_accepted_iff _ _ hw2.names (by rw [hn']; exact fun _ => Iff.rfl)]
    have := ((c05_add_accepted_iff s t ht.names (by rw [hn]; exact fun _ => Iff.rfl)).1 ha).2
    exact ⟨hbb, fun p hp q hq => this p (List.mem_filter.1 hp).1 q (List.mem_filter.1 hq).1⟩
  obtain ⟨k1, k2, k3, -, k4, k5, k6, k7, k8⟩ := (c05_add _ _).1 ha'
  refine ⟨b, b', c, hb1, hb1', hc1, ha', ⟨?_, ?_, ?_, ?_, ?_⟩, ?_, ?_⟩
  · exact h7.trans k7.symm
  · rw [k6]
    change axesOf _ (s.add t).st.cfg = axesOf _ s.cfg
    rw [h6]
  · exact h5.trans k5.symm
  · exact h4.trans k4.symm
  · exact h8.trans k8.symm
  · rw [k1]
    change b.shape = c.shape
    rw [hb.1, hcp.1, h6, h1]
  · intro idx hidx
    rw [k1] at hidx
    rw [k3]
    change b.get idx + b'.get idx = c.get idx
    rw [hb.2 idx hidx, hb'.2 idx (by rw [← hbb]; exact hidx), hcp.2 idx (by
      rw [hcp.1, h6, h1, ← hb.1]; exact hidx), hn, h2, ← sumIdx_add, h6, h1]
    refine sumIdx_congr fun full _ => ?_
    split
    · exact (h3 full).symm
    · exact add_zero 0

/-- The three calls on a spectrum of energy and radius: all of them fit; it can be rebinned to five
and two bins, cut in energy, smeared and shifted along the energy (which the calls keep), and
smeared along the radius (which the first leaves out). -/
example : (ProjCall.project Ex.energy.name).Fits Ex.spec ∧ (ProjCall.nd [Ex.radial.name]).Fits Ex.spec ∧
    (ProjCall.surface Ex.energy.name Ex.radial.name).Fits Ex.spec ∧
    (Ex.spec.rebin [5, 2]).err = none ∧
    (∃ rs, AsksEdges Ex.spec [(lit "energy_mc_low", 1), (lit "energy_mc_high", 7 / 2)] rs ∧
      (∀ r ∈ rs, r.1 < r.2)) ∧
    BoundsOf [Ex.energy.name] [(lit "energy_mc_low", 1), (lit "energy_mc_high", 7 / 2)] ∧
    (Ex.energy ∈ Ex.spec.cfg ∧ Ex.spec.cfg[1]? = some Ex.radial ∧ Ex.radial.name ∉ [Ex.energy.name]) ∧
    ((Ex.radial.high - Ex.radial.low) / Ex.radial.bins / 2 < 5 * 200) ∧
    (Ex.spec.add Ex.spec).err = none := by
  refine ⟨?_, ?_, ?_, ?_, ⟨[(2, 7), (0, 4)], ⟨by unfold IsDict; decide, ?_, ?_⟩, by simp⟩, ?_, ?_,
    by norm_num [Ex.radial], ?_⟩
  · simp [ProjCall.Fits, ProjCall.dims, Ex.spec]
  · simp [ProjCall.Fits, ProjCall.dims, Ex.spec]
  · refine ⟨by decide, ?_, by decide⟩
    simp [ProjCall.dims, Ex.spec]
  · rw [rebin_err_none_iff Ex.spec_wf]
    exact .cons (by decide) (.cons (by decide) .nil)
  · simp [BoundKeys, Ex.spec, Ex.energy, Ex.radial]
  · simp only [Ex.spec]
    refine .cons ⟨by norm_num, by norm_num [Ex.energy], ?_, ?_⟩
      (.cons ⟨by norm_num, by norm_num [Ex.radial], ?_, ?_⟩ .nil)
    · left; rw [ex_energy_edge]; norm_num [Ex.energy]
    · left; rw [ex_energy_edge]; norm_num [Ex.energy]
    · right; rw [ex_radial_edge]; norm_num [Ex.radial]; exact fun _ h => absurd h (by decide)
    · right; rw [ex_radial_edge]; norm_num [Ex.radial]; exact fun _ h => absurd h (by decide)
  · simp [BoundsOf, Ex.energy]
  · exact ⟨by simp [Ex.spec], rfl, by decide⟩
  · rw [c05_add_accepted_iff _ _ Ex.spec_wf.names (fun _ => Iff.rfl)]
    refine ⟨rfl, fun p hp q hq h => ?_⟩
    simp only [Ex.spec, List.mem_cons, List.not_mem_nil, or_false] at hp hq
    rcases hp with rfl | rfl <;> rcases hq with rfl | rfl
    · norm_num [AxesClose, Ex.energy]
    · exact absurd h (by decide)
    · exact absurd h (by decide)
    · norm_num [AxesClose, Ex.radial]

end Verif
