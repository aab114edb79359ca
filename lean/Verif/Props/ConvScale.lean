import Verif.Lemmas.ConvScale
import Verif.Props.Smear
import Verif.Props.Shift
import Verif.Props.Add

/-! # C119, C120: smearing, shifting and scaling an axis against scaling and adding spectra -/

namespace Verif

open Finset

theorem scale_st {s : Spectrum} (hd : s.numDecays ≠ 0) (n : ℚ) :
    (s.scale n).st = s.times (n / s.numDecays) n := by
  unfold Spectrum.scale
  rw [if_neg hd]
  rfl

/-- Scaling the results is multiplying them. -/
theorem map_scale {s : Spectrum} (hd : s.numDecays ≠ 0) (n : ℚ) {r : Except PyErr Spectrum}
    (h : ∀ t, r = .ok t → Alike s t) :
    r.map (fun t => (t.scale n).st) = r.map (Spectrum.times (n / s.numDecays) n) := by
  cases r with
  | error e => rfl
  | ok t =>
    have ht := (h t rfl).numDecays
    simp only [Except.map]
    rw [scale_st (by rw [ht]; exact hd), ht]

theorem map_scaled {s : Spectrum} (hd : s.numDecays ≠ 0) (n : ℚ) {r : Except PyErr NpResult}
    (h : ∀ t, r = .ok (.finite t) → Alike s t) :
    r.map (NpResult.scaled n) = r.map (NpResult.times (n / s.numDecays) n) := by
  cases r with
  | error e => rfl
  | ok t =>
    cases t with
    | notFinite => rfl
    | finite t =>
      have ht := (h t rfl).numDecays
      simp only [Except.map, NpResult.scaled, NpResult.times]
      rw [scale_st (by rw [ht]; exact hd), ht]

theorem shift_alike {str : ℚ → PyStr} {spline : List ℚ → List ℚ → Except PyErr (ℚ → ℚ)}
    {s t : Spectrum} {dim : PyStr} {v : ℚ} (h : s.shift str spline dim v = .ok (.finite t)) :
    Alike s t := by
  unfold Spectrum.shift at h
  simp only [bind, Except.bind, throw, throwThe, MonadExceptOf.throw, pure, Except.pure] at h
  split at h
  · cases h
  · split at h
    · cases h
    · split at h
      · split at h
        · cases h
        · rename_i hb
          cases h
          exact shiftByBin_alike hb
      · split at h
        · cases h
        · split at h
          · cases h
          · split at h
            · cases h
            · rename_i hb
              have h := Except.ok.inj h
              exact renormalise_alike (binLoop_shape hb) (by rw [h]; rfl)

theorem scaleAxis_alike {str : ℚ → PyStr} {spline : List ℚ → List ℚ → Except PyErr (ℚ → ℚ)}
    {s t : Spectrum} {dim : PyStr} {v : ℚ} (h : s.scaleAxis str spline dim v = .ok (.finite t)) :
    Alike s t := by
  unfold Spectrum.scaleAxis at h
  simp only [bind, Except.bind, throw, throwThe, MonadExceptOf.throw, pure, Except.pure] at h
  split at h
  · cases h
  · split at h
    · cases h
    · split at h
      · cases h
      · split at h
        · cases h
        · split at h
          · cases h
          · rename_i hb
            have h := Except.ok.inj h
            exact renormalise_alike (binLoop_shape hb) (by rw [h]; rfl)

/-- **C119, weighted smearing.** Smearing a spectrum scaled to another number of decays gives the
smeared spectrum scaled to this number, or the same exception. -/
theorem c119_smear (s : Spectrum) (hd : s.numDecays ≠ 0) (n : ℚ) (hn : n ≠ 0) (suffix : PyStr)
    (sigma : ℚ → ℚ) (weight : ℚ → ℚ → ℚ → ℚ) (ns : ℚ) (par : PyStr) :
    (s.scale n).st.weightedSmear suffix sigma weight ns par =
      (s.weightedSmear suffix sigma weight ns par).map (fun t => (t.scale n).st) := by
  rw [map_scale hd n fun t ht => weightedSmear_alike ht, scale_st hd,
    weightedSmear_times (div_ne_zero hn hd)]

/-- **C119, projection.** -/
theorem c119_project (s : Spectrum) (hd : s.numDecays ≠ 0) (n : ℚ) (dim : PyStr) :
    (s.scale n).st.project dim = (s.project dim).map (fun a => a.smul (n / s.numDecays)) := by
  rw [scale_st hd, project_times]

/-- **C119, shift by whole bins.** Partial: the number of decays keeps its sign. -/
theorem c119_shift_by_bin_partial (s : Spectrum) (n : ℚ) (hn : 0 < n / s.numDecays)
    (str : ℚ → PyStr) (dim : PyStr) (v : ℚ) :
    (s.scale n).st.shiftByBin str dim v =
      (s.shiftByBin str dim v).map (fun t => (t.scale n).st) := by
  have hd : s.numDecays ≠ 0 := by rintro h; rw [h, div_zero] at hn; exact lt_irrefl _ hn
  rw [map_scale hd n fun t ht => shiftByBin_alike ht, scale_st hd, shiftByBin_times hn]

/-- **C119, shift.** Contents that are not finite are so with either order. Partial: the number
of decays keeps its sign and the interpolation follows multiplied contents. -/
theorem c119_shift_partial (s : Spectrum) (n : ℚ) (hn : 0 < n / s.numDecays) (str : ℚ → PyStr)
    (spline : List ℚ → List ℚ → Except PyErr (ℚ → ℚ)) (hs : SplineHom spline) (dim : PyStr)
    (v : ℚ) : (s.scale n).st.shift str spline dim v =
      (s.shift str spline dim v).map (NpResult.scaled n) := by
  have hd : s.numDecays ≠ 0 := by rintro h; rw [h, div_zero] at hn; exact lt_irrefl _ hn
  rw [map_scaled hd n fun t ht => shift_alike ht, scale_st hd, shift_times hs hn]

/-- **C119, scaling of an axis.** Partial as the shift. -/
theorem c119_scale_axis_partial (s : Spectrum) (n : ℚ) (hn : 0 < n / s.numDecays)
    (str : ℚ → PyStr) (spline : List ℚ → List ℚ → Except PyErr (ℚ → ℚ)) (hs : SplineHom spline)
    (dim : PyStr) (v : ℚ) : (s.scale n).st.scaleAxis str spline dim v =
      (s.scaleAxis str spline dim v).map (NpResult.scaled n) := by
  have hd : s.numDecays ≠ 0 := by rintro h; rw [h, div_zero] at hn; exact lt_irrefl _ hn
  rw [map_scaled hd n fun t ht => scaleAxis_alike ht, scale_st hd, scaleAxis_times hs hn]

/-- An interpolation that is constant between the bin edges of `Ex.step`. -/
def Ex.levels : List ℚ → List ℚ → Except PyErr (ℚ → ℚ) := fun _ ys => match ys with
  | [a, b, c] => .ok (fun x => if x < 1 then a else if x < 2 then b else c)
  | _ => .error .valueError

theorem Ex.levels_hom : SplineHom Ex.levels := by
  intro k _ xs ys
  unfold Ex.levels
  rcases ys with _ | ⟨a, _ | ⟨b, _ | ⟨c, _ | ⟨d, ys⟩⟩⟩⟩ <;> try rfl
  simp only [List.map, Except.map]
  congr 1
  funext x
  split
  · rfl
  · split <;> rfl

theorem Ex.levels_add : SplineAdd Ex.levels := by
  intro xs ys zs f g hf hg
  unfold Ex.levels at *
  split at hf
  · split at hg
    · cases hf
      cases hg
      simp only [List.zipWith]
      congr 1
      funext x
      split
      · rfl
      · split <;> rfl
    · cases hg
  · cases hf

/-- Three bins of width one with the given contents. -/
def Ex.three (a b c : ℚ) : Spectrum where
  name := lit "three"
  cfg := [⟨lit "energy_mc", 0, 3, 3⟩]
  data := ⟨[3], fun idx => match idx with
    | [0] => a
    | [1] => b
    | [2] => c
    | _ => 0⟩
  numDecays := 2
  rawEvents := 5
  rois := []

theorem Ex.three_wf (a b c : ℚ) : (Ex.three a b c).WF := ⟨by
    intro p hp
    simp only [Ex.three, List.mem_singleton] at hp
    subst hp
    exact ⟨by norm_num, by norm_num⟩, List.nodup_singleton _, rfl⟩

/-- The contents of bin `i`, zero if there are none. -/
def Ex.contents (i : ℕ) : Except PyErr NpResult → ℚ
  | .ok (.finite t) => t.data.get [i]
  | _ => 0

example : SplineHom Ex.levels ∧ 0 < 6 / (Ex.three 1 0 1).numDecays ∧
    Ex.contents 1 ((Ex.three 1 0 1).shift (fun _ => []) Ex.levels (lit "energy_mc") (3 / 2)) = 2 ∧
    Ex.contents 1 (((Ex.three 1 0 1).scale 6).st.shift (fun _ => []) Ex.levels (lit "energy_mc")
      (3 / 2)) = 6 :=
  ⟨Ex.levels_hom, by norm_num [Ex.three], by decide +kernel, by decide +kernel⟩

/-- **C119, negation.** With a negative number of decays the order matters: a spectrum with
negative contents is lost in a shift. -/
theorem c119_negative_negation : ¬ ∀ (s : Spectrum), s.WF → s.numDecays ≠ 0 → ∀ n : ℚ, n ≠ 0 →
    ∀ (str : ℚ → PyStr) (dim : PyStr) (v : ℚ), (s.scale n).st.shiftByBin str dim v =
      (s.shiftByBin str dim v).map (fun t => (t.scale n).st) := by
  intro h
  have := h (Ex.three 1 2 3) (Ex.three_wf 1 2 3) (by norm_num [Ex.three]) (-2) (by norm_num) (fun _ => [])
    (lit "energy_mc") 1
  have := congrArg (fun r => Ex.contents 1 (r.map NpResult.finite)) this
  revert this
  decide +kernel

theorem shape_of_cfg {a b : Spectrum} (ha : a.WF) (hb : b.WF) (hc : b.cfg = a.cfg) :
    b.data.shape = a.data.shape := by
  have h := hb.shape
  rw [hc, ← ha.shape] at h
  exact List.map_injective_iff.2 Nat.cast_injective h

/-- **C120, weighted smearing.** Smearing a sum is adding the smeared spectra: each cell of the
smeared sum is the sum of the cells. -/
theorem c120_smear (a b : Spectrum) (ha : a.WF) (hb : b.WF) (hc : b.cfg = a.cfg) (k : ℕ) (p : SPar)
    (hk : a.cfg[k]? = some p) (suffix : PyStr) (sigma : ℚ → ℚ) (weight : ℚ → ℚ → ℚ → ℚ) (ns : ℚ)
    (hpos : ∀ x m g, 0 < weight x m g) :
    (a.add b).err = none ∧
    ∃ t u v, a.weightedSmear suffix sigma weight ns p.name = .ok t ∧
      b.weightedSmear suffix sigma weight ns p.name = .ok u ∧
      (a.add b).st.weightedSmear suffix sigma weight ns p.name = .ok v ∧
      (t.add u).err = none ∧ SameButNameData (t.add u).st v ∧ v.name = t.name ∧
      v.data.shape = (t.add u).st.data.shape ∧
      ∀ idx, InB v.data.shape idx → v.data.get idx = (t.add u).st.data.get idx := by
  have hsh := shape_of_cfg ha hb hc
  have hok := addCheck_same ha.names hc hsh
  have hst := congrArg Outcome.st (add_of_ok hok)
  have hab : (a.add b).st.WF := by rw [hst]; exact ⟨ha.axes, ha.names, ha.shape⟩
  obtain ⟨t, ht, ht1, ht2, ht3, ht4⟩ := smear_core ha hk suffix sigma ns hpos
  obtain ⟨u, hu, hu1, hu2, hu3, hu4⟩ := smear_core hb (by rw [hc]; exact hk) suffix sigma ns hpos
  obtain ⟨v, hv, hv1, hv2, hv3, hv4⟩ := smear_core hab (k := k) (p := p) (by rw [hst]; exact hk)
    suffix sigma ns hpos
  have htu := addCheck_same (s := t) (t := u) (by rw [ht1.1]; exact ha.names)
    (by rw [ht1.1, hu1.1, hc]) (by rw [ht3, hu3, hsh])
  have hst' := congrArg Outcome.st (add_of_ok htu)
  rw [hst] at hv1 hv2 hv3 hv4
  refine ⟨add_err_none.2 hok, t, u, v, ht, hu, hv, add_err_none.2 htu, ?_, ?_, ?_, ?_⟩
  · rw [hst']
    refine ⟨hv1.1.trans ht1.1.symm, ?_, ?_, hv1.2.2.2.trans ht1.2.2.2.symm⟩
    · rw [hv1.2.1]
      show a.numDecays + b.numDecays = t.numDecays + u.numDecays
      rw [ht1.2.1, hu1.2.1]
    · rw [hv1.2.2.1]
      show a.rawEvents + b.rawEvents = t.rawEvents + u.rawEvents
      rw [ht1.2.2.1, hu1.2.2.1]
  · rw [hv2, ht2]; rfl
  · rw [hst', hv3]; exact ht3.symm
  · intro idx hi
    rw [hv3] at hi
    change InB a.data.shape idx at hi
    obtain ⟨j, hj, -⟩ := inB_getElem? hi (axis_facts ha hk).2.2.2.2
    rw [hst', hv4 idx j hi hj]
    show _ = t.data.get idx + u.data.get idx
    rw [ht4 idx j hi hj, hu4 idx j (by rw [hsh]; exact hi) hj, ← Finset.sum_add_distrib]
    refine Finset.sum_congr rfl fun i _ => ?_
    show (a.data.get _ + b.data.get _) * _ = _
    ring

/-- **C120, shift by whole bins.** Shifting a sum is adding the shifted spectra. -/
theorem c120_shift_by_bin (a b : Spectrum) (ha : a.WF) (hb : b.WF) (hna : NonNeg a.data)
    (hnb : NonNeg b.data) (hc : b.cfg = a.cfg) (k : ℕ) (p : SPar) (hk : a.cfg[k]? = some p) (m : ℤ)
    (str : ℚ → PyStr) :
    (a.add b).err = none ∧
    ∃ t u v, a.shiftByBin str p.name (m * ((p.high - p.low) / p.bins)) = .ok t ∧
      b.shiftByBin str p.name (m * ((p.high - p.low) / p.bins)) = .ok u ∧
      (a.add b).st.shiftByBin str p.name (m * ((p.high - p.low) / p.bins)) = .ok v ∧
      (t.add u).err = none ∧ SameButNameData (t.add u).st v ∧ v.name = t.name ∧
      v.data.shape = (t.add u).st.data.shape ∧
      ∀ idx, InB v.data.shape idx → v.data.get idx = (t.add u).st.data.get idx := by
  have hsh := shape_of_cfg ha hb hc
  have hok := addCheck_same ha.names hc hsh
  have hst := congrArg Outcome.st (add_of_ok hok)
  have hab : (a.add b).st.WF := by rw [hst]; exact ⟨ha.axes, ha.names, ha.shape⟩
  have hnab : NonNeg (a.add b).st.data := by
    rw [hst]
    intro idx hi
    exact add_nonneg (hna idx hi) (hnb idx (by rw [hsh]; exact hi))
  obtain ⟨-, hp, -, -, hax⟩ := axis_facts ha hk
  have hw := hp.width_pos
  have h3 : m * ((p.high - p.low) / p.bins) - m * ((p.high - p.low) / p.bins) <
      (p.high - p.low) / p.bins / 2 := by
    rw [sub_self]; exact half_pos hw
  have h2 : m * ((p.high - p.low) / p.bins) - m * ((p.high - p.low) / p.bins) ≤
      (1 : ℚ) / 10 ^ 8 := by
    rw [sub_self]; norm_num
  obtain ⟨t, ht, htm, ht1, ht2, -⟩ := c27_shift_by_bin str a ha hna k p hk m _ le_rfl h2 h3
  obtain ⟨u, hu, hum, hu1, hu2, -⟩ := c27_shift_by_bin str b hb hnb k p (by rw [hc]; exact hk) m _
    le_rfl h2 h3
  obtain ⟨v, hv, hvm, hv1, hv2, -⟩ := c27_shift_by_bin str _ hab hnab k p (by rw [hst]; exact hk) m _
    le_rfl h2 h3
  have htu := addCheck_same (s := t) (t := u) (by rw [ht1.1]; exact ha.names)
    (by rw [ht1.1, hu1.1, hc]) (by rw [htm.1, hum.1, hsh])
  have hst' := congrArg Outcome.st (add_of_ok htu)
  rw [hst] at hv1 hv2 hvm
  refine ⟨add_err_none.2 hok, t, u, v, ht, hu, hv, add_err_none.2 htu, ?_, ?_, ?_, ?_⟩
  · rw [hst']
    refine ⟨hv1.1.trans ht1.1.symm, ?_, ?_, hv1.2.2.2.trans ht1.2.2.2.symm⟩
    · rw [hv1.2.1]
      show a.numDecays + b.numDecays = t.numDecays + u.numDecays
      rw [ht1.2.1, hu1.2.1]
    · rw [hv1.2.2.1]
      show a.rawEvents + b.rawEvents = t.rawEvents + u.rawEvents
      rw [ht1.2.2.1, hu1.2.2.1]
  · rw [hv2, ht2]; rfl
  · rw [hst', hvm.1]; exact htm.1.symm
  · intro idx hi
    rw [hvm.1] at hi
    change InB a.data.shape idx at hi
    obtain ⟨j, hj, -⟩ := inB_getElem? hi hax
    rw [hst', hvm.2 _ hax idx j hi hj]
    show _ = t.data.get idx + u.data.get idx
    rw [htm.2 _ hax idx j hi hj, hum.2 _ (by rw [hsh]; exact hax) idx j (by rw [hsh]; exact hi) hj]
    split
    · rfl
    · rw [add_zero]

example : NonNeg (Ex.three 1 0 1).data ∧ (Ex.three 0 1 0).cfg = (Ex.three 1 0 1).cfg ∧
    ((Ex.three 1 0 1).add (Ex.three 0 1 0)).err = none ∧
    (Ex.three 1 0 1).cfg[0]? = some ⟨lit "energy_mc", 0, 3, 3⟩ ∧
    ∀ x m g : ℚ, 0 < (fun x m g => 1 / (1 + (x - m) ^ 2 + g ^ 2) : ℚ → ℚ → ℚ → ℚ) x m g := by
  refine ⟨?_, rfl, add_err_none.2 (addCheck_same (Ex.three_wf 1 0 1).names rfl rfl), rfl,
    fun x m g => by positivity⟩
  intro idx _
  simp only [Ex.three]
  split <;> norm_num

/-- **C120, negation.** A shift that is not by whole bins is not additive, also with an
interpolation that is: each spectrum is brought back to its own number of counts. -/
theorem c120_shift_negation : ¬ ∀ (a b : Spectrum), a.WF → b.WF → NonNeg a.data → NonNeg b.data →
    b.cfg = a.cfg → ∀ (str : ℚ → PyStr) (spline : List ℚ → List ℚ → Except PyErr (ℚ → ℚ)),
    SplineHom spline → SplineAdd spline → ∀ (dim : PyStr) (v : ℚ) (t u w : Spectrum),
    a.shift str spline dim v = .ok (.finite t) → b.shift str spline dim v = .ok (.finite u) →
    (a.add b).st.shift str spline dim v = .ok (.finite w) →
    ∀ idx, InB w.data.shape idx → w.data.get idx = (t.add u).st.data.get idx := by
  intro h
  have hnn : ∀ a b c : ℚ, 0 ≤ a → 0 ≤ b → 0 ≤ c → NonNeg (Ex.three a b c).data := by
    intro a b c ha hb hc idx _
    simp only [Ex.three]
    split <;> first | assumption | rfl
  have hok := addCheck_same (s := Ex.three 1 0 1) (t := Ex.three 0 1 0) (Ex.three_wf 1 0 1).names
    rfl rfl
  set q : Spectrum → Except PyErr NpResult := fun s =>
    s.shift (fun _ => []) Ex.levels (lit "energy_mc") (3 / 2) with hq
  have h1 : Ex.contents 1 (q (Ex.three 1 0 1)) = 2 := by decide +kernel
  have h2 : Ex.contents 2 (q (Ex.three 0 1 0)) = 1 := by decide +kernel
  have h2' : Ex.contents 1 (q (Ex.three 0 1 0)) = 0 := by decide +kernel
  have h3 : Ex.contents 1 (q ((Ex.three 1 0 1).add (Ex.three 0 1 0)).st) = 3 / 2 := by
    decide +kernel
  cases ha : q (Ex.three 1 0 1) with
  | error e => rw [ha] at h1; norm_num [Ex.contents] at h1
  | ok t =>
    cases hb : q (Ex.three 0 1 0) with
    | error e => rw [hb] at h2; norm_num [Ex.contents] at h2
    | ok u =>
      cases hc : q ((Ex.three 1 0 1).add (Ex.three 0 1 0)).st with
      | error e => rw [hc] at h3; norm_num [Ex.contents] at h3
      | ok w =>
        rw [ha] at h1
        rw [hb] at h2 h2'
        rw [hc] at h3
        cases t with
        | notFinite => norm_num [Ex.contents] at h1
        | finite t =>
          cases u with
          | notFinite => norm_num [Ex.contents] at h2
          | finite u =>
            cases w with
            | notFinite => norm_num [Ex.contents] at h3
            | finite w =>
              have hal := shift_alike hc
              have hat := shift_alike ha
              have hau := shift_alike hb
              have htu := addCheck_same (s := t) (t := u)
                (by rw [hat.cfg]; exact (Ex.three_wf 1 0 1).names)
                (by rw [hat.cfg, hau.cfg]; rfl) (by rw [hat.shape, hau.shape]; rfl)
              have := h _ _ (Ex.three_wf 1 0 1) (Ex.three_wf 0 1 0)
                (hnn 1 0 1 (by norm_num) le_rfl (by norm_num))
                (hnn 0 1 0 le_rfl (by norm_num) le_rfl) rfl (fun _ => []) Ex.levels Ex.levels_hom
                Ex.levels_add (lit "energy_mc") (3 / 2) t u w ha hb hc [1] (by
                  rw [hal.shape, congrArg Outcome.st (add_of_ok hok)]
                  exact .cons (by decide) .nil)
              rw [congrArg Outcome.st (add_of_ok htu)] at this
              change w.data.get [1] = t.data.get [1] + u.data.get [1] at this
              simp only [Ex.contents] at h1 h2' h3
              rw [h1, h2', h3] at this
              norm_num at this

end Verif
