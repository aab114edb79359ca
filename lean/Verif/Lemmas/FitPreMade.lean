import Verif.Spec.FitPreMade
import Verif.Lemmas.FitExpected
import Verif.Props.Linear

/-! Helper lemmas about fits with pre-made spectra: cutting to the data. -/

namespace Verif

open Spectrum

/-! ### slices and blocks -/

theorem sliceBounds_lt {n : ℕ} {lo hi : ℤ} {i : ℕ} (h : i < (NdArray.sliceBounds n lo hi).2) :
    (NdArray.sliceBounds n lo hi).1 + i < n := by
  unfold NdArray.sliceBounds at h ⊢
  dsimp only at h ⊢
  have : (if hi < 0 then (hi + n).toNat else min hi.toNat n) ≤ n := by
    split <;> omega
  omega

theorem slice_inB_of {shape : List ℕ} {b : List (ℤ × ℤ)} (hl : b.length = shape.length)
    {idx : List ℕ}
    (h : InB ((List.zipWith (fun n (p : ℤ × ℤ) => NdArray.sliceBounds n p.1 p.2) shape b).map
      Prod.snd) idx) :
    InB shape (List.zipWith (fun (p : ℕ × ℕ) i => p.1 + i)
      (List.zipWith (fun n (p : ℤ × ℤ) => NdArray.sliceBounds n p.1 p.2) shape b) idx) := by
  induction shape generalizing b idx with
  | nil =>
    cases b with
    | nil => cases h; exact .nil
    | cons _ _ => simp at hl
  | cons n shape ih =>
    cases b with
    | nil => simp at hl
    | cons p b =>
      simp only [List.zipWith_cons_cons, List.map_cons] at h ⊢
      cases h with
      | cons h1 h2 =>
        rw [List.zipWith_cons_cons]
        exact .cons (sliceBounds_lt h1) (ih (by simpa using hl) h2)

theorem slice_norm {a : NdArray ℚ} {b : List (ℤ × ℤ)} (hl : b.length = a.shape.length) :
    (a.norm.slice b).norm = (a.slice b).norm := by
  refine NdArray.norm_of_eqv ⟨rfl, fun idx hi => ?_⟩
  exact NdArray.norm_get (slice_inB_of hl hi)

theorem norm_wf {s : Spectrum} (h : s.WF) : s.norm.WF := ⟨h.axes, h.names, h.shape⟩

theorem rescaled_wf {s : Spectrum} (h : s.WF) (n : ℚ) : (s.rescaled n).WF :=
  ⟨h.axes, h.names, h.shape⟩

theorem norm_eq_of_eqv {s t : Spectrum} (h : s.Eqv t) : s.norm = t.norm := by
  obtain ⟨⟨a1, a2, a3, a4, a5⟩, hd⟩ := h
  have := NdArray.norm_of_eqv hd
  cases s
  cases t
  simp only at a1 a2 a3 a4 a5 this
  simp only [Spectrum.norm, this, a1, a2, a3, a4, a5]

theorem shrink_rescaled {s : Spectrum} (hs : s.WF) {kw : List (PyStr × ℚ)}
    (h : (s.shrink kw).err = none) (n : ℚ) :
    ((s.rescaled n).shrink kw).err = none ∧
    ((s.rescaled n).shrink kw).st.norm = (s.shrink kw).st.norm.rescaled n := by
  have hv : kw.forM (shrinkCheck s) = .ok () := by
    cases hc : kw.forM (shrinkCheck s) with
    | ok u => rfl
    | error e => unfold Spectrum.shrink at h; rw [hc] at h; cases h
  have hv' : kw.forM (shrinkCheck (s.rescaled n)) = .ok () := by
    rw [shrinkCheck_congr (s := s) (t := s.rescaled n) rfl]; exact hv
  rw [shrink_wf_eq hs hv, shrink_wf_eq (rescaled_wf hs n) hv']
  refine ⟨rfl, ?_⟩
  have hl : (s.cfg.map (fun p => (shrinkAxis p (askedLow kw p) (askedHigh kw p)).2)).length =
      (s.data.smul (n / s.numDecays)).shape.length := by
    have := congrArg List.length hs.shape
    simp only [List.length_map] at this ⊢
    exact this.symm
  have h1 := slice_norm hl
  simp only [Outcome.ok, Spectrum.norm, Spectrum.rescaled, NdArray.smul_norm]
  rw [h1]
  rfl

theorem rebin_norm {s : Spectrum} (hs : s.WF) {ns : List ℕ} (h : (s.rebin ns).err = none) :
    (s.norm.rebin ns).err = none ∧ (s.norm.rebin ns).st.norm = (s.rebin ns).st.norm := by
  have hs' := norm_wf hs
  have h' : (s.norm.rebin ns).err = none :=
    (rebin_err_none_iff hs').2 ((rebin_err_none_iff hs).1 h)
  refine ⟨h', ?_⟩
  obtain ⟨⟨a1, a2⟩, a3, -, a5, a6, a7, a8⟩ := (c13_rebin _ hs' ns).2 h'
  obtain ⟨⟨b1, b2⟩, b3, -, b5, b6, b7, b8⟩ := (c13_rebin s hs ns).2 h
  refine norm_eq_of_eqv ⟨⟨b7.trans a7.symm, b3.trans a3.symm, b5.trans a5.symm,
    b6.trans a6.symm, b8.trans a8.symm⟩, a1.trans b1.symm, fun idx hi => ?_⟩
  rw [a1] at hi
  rw [a2 idx hi, b2 idx hi]
  refine sumIdx_congr fun full hf => ?_
  rw [show s.norm.data.get full = s.data.get full from NdArray.norm_get hf]
  rfl

theorem rebin_rescaled {s : Spectrum} (hs : s.WF) (hd : s.numDecays ≠ 0) {ns : List ℕ}
    (h : (s.rebin ns).err = none) (n : ℚ) :
    ((s.rescaled n).rebin ns).err = none ∧
    ((s.rescaled n).rebin ns).st.norm = (s.rebin ns).st.norm.rescaled n := by
  have e1 : s.scale n = .ok { s with data := s.data.smul (n / s.numDecays), numDecays := n } := by
    unfold scale
    rw [if_neg hd]
  have hs' : (s.scale n).st.WF := by rw [e1]; exact ⟨hs.axes, hs.names, hs.shape⟩
  obtain ⟨c1, c2, c3⟩ := c122_scale_rebin s hs n hd ns
  obtain ⟨g1, g2⟩ := rebin_norm hs' (c1.trans h)
  have hn : (s.scale n).st.norm = s.rescaled n := by rw [e1]; rfl
  rw [hn] at g1 g2
  refine ⟨g1, g2.trans ?_⟩
  rw [norm_eq_of_eqv c2]
  have hnd : (s.rebin ns).st.numDecays = s.numDecays := ((c13_rebin s hs ns).2 h).2.2.2.1
  unfold scale
  rw [if_neg (by rw [hnd]; exact hd)]
  simp only [Outcome.ok, Spectrum.norm, Spectrum.rescaled, NdArray.smul_norm]

/-! ### cutting to the data -/

/-- `t` is what `cutToData` makes of `s`. -/
def Cuts (d s t : Spectrum) : Prop :=
  ∃ kw, dataKw s.pars d.cfg = .ok kw ∧ (s.shrink kw).err = none ∧ (s.shrink kw).st.WF ∧
    ((s.shrink kw).st.norm.rebin d.data.shape).err = none ∧
    t = ((s.shrink kw).st.norm.rebin d.data.shape).st.norm

theorem shrink_numDecays (s : Spectrum) (kw : List (PyStr × ℚ)) :
    (s.shrink kw).st.numDecays = s.numDecays := by
  unfold Spectrum.shrink
  split
  · rfl
  · dsimp only
    split <;> rfl

theorem Cuts.numDecays {d s t : Spectrum} (h : Cuts d s t) : t.numDecays = s.numDecays := by
  obtain ⟨kw, -, -, h3, h4, rfl⟩ := h
  exact ((c13_rebin _ (norm_wf h3) _).2 h4).2.2.2.1.trans (shrink_numDecays s kw)

theorem Cuts.norm {d s t : Spectrum} (h : Cuts d s t) : t.data.norm = t.data := by
  obtain ⟨kw, -, -, -, -, rfl⟩ := h
  exact NdArray.norm_norm _

theorem Cuts.rescaled {d s t : Spectrum} (h : Cuts d s t) (hs : s.WF) (hd : s.numDecays ≠ 0)
    (n : ℚ) : Cuts d (s.rescaled n) (t.rescaled n) := by
  obtain ⟨kw, h1, h2, h3, h4, rfl⟩ := h
  obtain ⟨a1, a2⟩ := shrink_rescaled hs h2 n
  have hd' : (s.shrink kw).st.norm.numDecays ≠ 0 := by
    show (s.shrink kw).st.numDecays ≠ 0
    rw [shrink_numDecays]; exact hd
  obtain ⟨b1, b2⟩ := rebin_rescaled (norm_wf h3) hd' h4 n
  have hcfg : ((s.rescaled n).shrink kw).st.norm.cfg = (s.shrink kw).st.cfg := by rw [a2]; rfl
  have hsh : ((s.rescaled n).shrink kw).st.norm.data.shape = (s.shrink kw).st.data.shape := by
    rw [a2]; rfl
  refine ⟨kw, h1, a1, ⟨?_, ?_, ?_⟩, ?_, ?_⟩
  · exact fun p hp => h3.axes p (hcfg ▸ hp)
  · show (((s.rescaled n).shrink kw).st.norm.cfg.map SPar.name).Nodup
    rw [hcfg]; exact h3.names
  · show ((s.rescaled n).shrink kw).st.norm.data.shape.map _ =
      ((s.rescaled n).shrink kw).st.norm.cfg.map SPar.bins
    rw [hsh, hcfg]; exact h3.shape
  · rw [a2]; exact b1
  · rw [a2]; exact b2.symm

theorem cuts_self {d t : Spectrum} (h : OnDataAxes d t) (hn : t.data.norm = t.data) :
    Cuts d t t := by
  have hkw : dataKw t.pars d.cfg = .ok (fullKw t.cfg) :=
    roiKw_of_asks h.dims (asksRoi_full h.same (fun _ hp => hp))
      (data_isDict h.same h.dims h.wf.names)
  obtain ⟨h1, h2⟩ := shrink_full h.wf h.aligned
  have h3 := norm_eq_of_eqv h2
  have hnt : t.norm = t := by
    cases t
    simp only [Spectrum.norm] at hn ⊢
    rw [hn]
  rw [hnt] at h3
  obtain ⟨h4, h5⟩ := c14_rebin_self t h.wf
  rw [h.shape] at h4 h5
  have h6 := norm_eq_of_eqv h5
  rw [hnt] at h6
  have hw := h.wf
  refine ⟨_, hkw, h1, ⟨?_, ?_, ?_⟩, ?_, ?_⟩
  · intro p hp
    exact hw.axes p (by rw [h3]; exact hp)
  · have := hw.names
    rw [h3] at this
    exact this
  · have := hw.shape
    rw [h3] at this
    exact this
  · rw [← h3]; exact h4
  · rw [← h3]; exact h6

theorem cutToData_self {d t : Spectrum} (h : OnDataAxes d t) (hn : t.data.norm = t.data) :
    CutToData d t t := by
  obtain ⟨kw, h1, h2, h3, h4, h5⟩ := cuts_self h hn
  have hkw : dataKw t.pars d.cfg = .ok (fullKw t.cfg) :=
    roiKw_of_asks h.dims (asksRoi_full h.same (fun _ hp => hp))
      (data_isDict h.same h.dims h.wf.names)
  have hk : kw = fullKw t.cfg := Except.ok.inj (h1.symm.trans hkw)
  have h6 : ((t.shrink kw).st.rebin d.data.shape).err = none :=
    (rebin_err_none_iff h3).2 ((rebin_err_none_iff (norm_wf h3)).1 h4)
  refine ⟨d.cfg.map (fun p => (getDim p.name, (p.low, p.high))), kw, ?_, ?_, h2, h3, h6, ?_⟩
  · have hs := h.same
    generalize t.cfg = axes at hs
    clear * - hs
    generalize d.cfg = l at hs ⊢
    induction hs with
    | nil => exact .nil
    | @cons p q l axes h1 _ ih =>
      obtain ⟨⟨dim, hp, -⟩, -⟩ := h1
      exact .cons ⟨by dsimp only; rw [ofDim_getDim hp]; exact hp, rfl⟩ ih
  · rw [hk]; exact asksRoi_full h.same (fun _ hp => hp)
  · exact h5.trans (rebin_norm h3 h6).2

theorem fitsData_self {d t : Spectrum} (h : OnDataAxes d t) (hn : t.data.norm = t.data) :
    FitsData d t :=
  ⟨h.wf, h.dims, ⟨t, cutToData_self h hn, h⟩, hn⟩

theorem roi_of_data {ds : List SPar} {roi : Dict (ℚ × ℚ)}
    (h : List.Forall₂ (fun (p : SPar) (e : PyStr × (ℚ × ℚ)) =>
      OfDim p.name e.1 ∧ e.2 = (p.low, p.high)) ds roi) :
    roi = ds.map (fun p => (getDim p.name, (p.low, p.high))) := by
  induction h with
  | nil => rfl
  | cons h1 _ ih =>
    rw [List.map_cons, ih, ofDim_getDim h1.1, ← h1.2]

theorem cuts_of {d s t u : Spectrum} (h : CutToData d s t) (hd : DistinctDims s.cfg)
    (hu : OnDataAxes d u) : Cuts d s t := by
  obtain ⟨roi, kw, h1, h2, h3, h4, h5, rfl⟩ := h
  rw [roi_of_data h1] at h2
  obtain ⟨g1, g2⟩ := rebin_norm h4 h5
  exact ⟨kw, roiKw_of_asks hd h2 (data_isDict hu.same hu.dims hu.wf.names), h3, h4, g1, g2.symm⟩

end Verif
