import Verif.Lemmas.Events
import Verif.Props.Add

/-!
# C122: adding and scaling commute with rebinning and shrinking, and these with each other
-/

namespace Verif

open Spectrum

/-! ### scaling -/

theorem shrinkCheck_congr {s t : Spectrum} (h : t.cfg = s.cfg) : shrinkCheck t = shrinkCheck s := by
  funext a
  unfold shrinkCheck
  rw [h]

theorem shrinkLoop_keeps_names (kw : List (PyStr × ℚ)) (cfg : List SPar) :
    (shrinkLoop kw cfg).1.map SPar.name = cfg.map SPar.name := by
  induction cfg with
  | nil => rfl
  | cons p cfg ih =>
    unfold shrinkLoop
    cases hp : shrinkPar kw p with
    | error e => rfl
    | ok r =>
      obtain ⟨p', b⟩ := r
      simp only [List.map_cons, ih]
      congr 1
      unfold shrinkPar at hp
      split at hp
      · cases hp
      · simp only [Except.ok.injEq] at hp
        have := congrArg (fun x : SPar × (ℤ × ℤ) => x.1.name) hp
        exact this.symm

/-- **C122, scaling and shrinking.** For every spectrum with a number of decays other than zero and
all arguments: scaling and then shrinking raises what shrinking raises, and gives the same
spectrum as shrinking and then scaling. -/
theorem c122_scale_shrink (s : Spectrum) (n : ℚ) (hn : s.numDecays ≠ 0) (kw : List (PyStr × ℚ)) :
    ((s.scale n).st.shrink kw).err = (s.shrink kw).err ∧
    ((s.scale n).st.shrink kw).st = ((s.shrink kw).st.scale n).st ∧
    ((s.shrink kw).st.scale n).err = none := by
  have e1 : s.scale n = .ok { s with data := s.data.smul (n / s.numDecays), numDecays := n } := by
    unfold scale
    rw [if_neg hn]
  rw [e1]
  dsimp only [Outcome.ok]
  have h1 : kw.forM (shrinkCheck { s with data := s.data.smul (n / s.numDecays), numDecays := n }) =
      kw.forM (shrinkCheck s) := by
    rw [shrinkCheck_congr (s := s) (t := { s with data := _, numDecays := n }) rfl]
  unfold Spectrum.shrink
  rw [h1]
  cases kw.forM (shrinkCheck s) with
  | error e =>
    dsimp only [Outcome.fail]
    rw [e1]
    exact ⟨rfl, rfl, rfl⟩
  | ok _ =>
    dsimp only
    cases (shrinkLoop kw s.cfg).2.2 with
    | some e =>
      dsimp only [Outcome.fail]
      unfold scale
      rw [if_neg hn]
      exact ⟨rfl, rfl, rfl⟩
    | none =>
      dsimp only [Outcome.ok]
      unfold scale
      rw [if_neg hn]
      exact ⟨rfl, rfl, rfl⟩

/-- **C122, scaling and rebinning.** -/
theorem c122_scale_rebin (s : Spectrum) (hs : s.WF) (n : ℚ) (hn : s.numDecays ≠ 0) (ns : List ℕ) :
    ((s.scale n).st.rebin ns).err = (s.rebin ns).err ∧
    ((s.scale n).st.rebin ns).st.Eqv ((s.rebin ns).st.scale n).st ∧
    ((s.rebin ns).st.scale n).err = none := by
  have e1 : s.scale n = .ok { s with data := s.data.smul (n / s.numDecays), numDecays := n } := by
    unfold scale
    rw [if_neg hn]
  have hs' : (s.scale n).st.WF := by rw [e1]; exact ⟨hs.axes, hs.names, hs.shape⟩
  have hc : (s.scale n).st.cfg = s.cfg := by rw [e1]; rfl
  by_cases herr : (s.rebin ns).err = none
  · have herr' : ((s.scale n).st.rebin ns).err = none := by
      rw [rebin_err_none_iff hs', hc]; exact (rebin_err_none_iff hs).1 herr
    obtain ⟨⟨a1, a2⟩, a3, -, a5, a6, a7, a8⟩ := (c13_rebin _ hs' ns).2 herr'
    obtain ⟨⟨b1, b2⟩, b3, -, b5, b6, b7, b8⟩ := (c13_rebin s hs ns).2 herr
    have e2 : (s.rebin ns).st.scale n = .ok { (s.rebin ns).st with
        data := (s.rebin ns).st.data.smul (n / s.numDecays)
        numDecays := n } := by
      unfold scale
      rw [b5, if_neg hn]
    rw [e2]
    refine ⟨herr'.trans herr.symm, ⟨⟨?_, ?_, ?_, ?_, ?_⟩, ?_, fun idx hidx => ?_⟩, rfl⟩
    · rw [a7, e1]; exact b7
    · rw [a3, e1]; exact b3
    · rw [a5, e1]; rfl
    · rw [a6, e1]; exact b6
    · rw [a8, e1]; exact b8
    · rw [a1]; exact b1.symm
    · rw [a1] at hidx
      rw [a2 idx hidx, e1]
      change _ = (s.rebin ns).st.data.get idx * (n / s.numDecays)
      rw [b2 idx hidx, ← sumIdx_mul]
      refine sumIdx_congr fun full _ => ?_
      rw [ite_mul, zero_mul]
      rfl
  · have h1 := mt (rebin_err_none_iff hs).2 herr
    have h2 : ¬ ((s.scale n).st.rebin ns).err = none := by
      rw [rebin_err_none_iff hs', hc]
      exact mt (rebin_err_none_iff hs).2 herr
    by_cases hl : ns.length = s.cfg.length
    · obtain ⟨e, he, hr⟩ := rebin_err_of_not_dvd hs hl (mt (rebin_err_none_iff hs).2 herr)
      obtain ⟨e', he', hr'⟩ := rebin_err_of_not_dvd hs' (hl.trans (by rw [hc]))
        (mt (rebin_err_none_iff hs').2 h2)
      rw [hc] at he'
      rw [he] at he'
      cases he'
      have e3 : Spectrum.scale { s with cfg := (rebinLoop s.cfg ns).1 } n = .ok { s with
          cfg := (rebinLoop s.cfg ns).1
          data := s.data.smul (n / s.numDecays)
          numDecays := n } := if_neg hn
      rw [hr, hr', e1]
      dsimp only [Outcome.fail]
      rw [e3]
      exact ⟨rfl, ⟨⟨rfl, rfl, rfl, rfl, rfl⟩, rfl, fun _ _ => rfl⟩, rfl⟩
    · have hr : s.rebin ns = .fail s .valueError := by unfold Spectrum.rebin; rw [if_pos hl]
      have hr' : (s.scale n).st.rebin ns = .fail (s.scale n).st .valueError := by
        unfold Spectrum.rebin; rw [if_pos (by rw [hc]; exact hl)]
      rw [hr, hr']
      refine ⟨rfl, ⟨⟨rfl, rfl, rfl, rfl, rfl⟩, rfl, fun _ _ => rfl⟩, ?_⟩
      simp only [Outcome.fail]
      rw [e1]; rfl

/-! ### adding -/

/-- **C122, adding and shrinking.** For two spectra on the same axes and all arguments: shrinking
the sum raises what shrinking the first raises, and otherwise gives the sum of the two shrunk
spectra, which can be added. -/
theorem c122_add_shrink (s t : Spectrum) (hn : (s.cfg.map SPar.name).Nodup) (hc : t.cfg = s.cfg)
    (hsh : t.data.shape = s.data.shape) (kw : List (PyStr × ℚ)) :
    (s.add t).err = none ∧ ((s.add t).st.shrink kw).err = (s.shrink kw).err ∧
    ((s.shrink kw).err = none → (t.shrink kw).err = none ∧
      ((s.shrink kw).st.add (t.shrink kw).st).err = none ∧
      ((s.add t).st.shrink kw).st = ((s.shrink kw).st.add (t.shrink kw).st).st) := by
  have e1 := add_of_ok (addCheck_same hn hc hsh)
  rw [e1]
  refine ⟨rfl, ?_⟩
  dsimp only [Outcome.ok]
  have h1 : kw.forM (shrinkCheck { s with
      data := s.data.add t.data
      rawEvents := s.rawEvents + t.rawEvents
      numDecays := s.numDecays + t.numDecays }) = kw.forM (shrinkCheck s) :=
    congrArg (fun f => kw.forM f) (shrinkCheck_congr rfl)
  have h2 : kw.forM (shrinkCheck t) = kw.forM (shrinkCheck s) := by
    rw [shrinkCheck_congr hc]
  have hnames := shrinkLoop_keeps_names kw s.cfg
  unfold Spectrum.shrink
  rw [h1, h2]
  cases kw.forM (shrinkCheck s) with
  | error e =>
    refine ⟨rfl, fun h => ?_⟩
    cases h
  | ok _ =>
    dsimp only
    rw [hc]
    cases (shrinkLoop kw s.cfg).2.2 with
    | some e =>
      refine ⟨rfl, fun h => ?_⟩
      cases h
    | none =>
      refine ⟨rfl, fun _ => ⟨rfl, ?_⟩⟩
      dsimp only [Outcome.ok]
      have e2 := add_of_ok (addCheck_same (s := { s with
        cfg := (shrinkLoop kw s.cfg).1
        data := s.data.slice (shrinkLoop kw s.cfg).2.1 }) (t := { t with
        cfg := (shrinkLoop kw s.cfg).1
        data := t.data.slice (shrinkLoop kw s.cfg).2.1 }) (by rw [hnames]; exact hn) rfl
        (by simp only [NdArray.slice, hsh]))
      rw [e2]
      refine ⟨rfl, ?_⟩
      simp only [Outcome.ok, NdArray.add, NdArray.slice, hsh]

/-- **C122, adding and rebinning.** -/
theorem c122_add_rebin (s t : Spectrum) (hs : s.WF) (ht : t.WF) (hc : t.cfg = s.cfg)
    (ns : List ℕ) :
    (s.add t).err = none ∧ (((s.add t).st.rebin ns).err = none ↔ (s.rebin ns).err = none) ∧
    ((s.rebin ns).err = none → (t.rebin ns).err = none ∧
      ((s.rebin ns).st.add (t.rebin ns).st).err = none ∧
      ((s.add t).st.rebin ns).st.Eqv ((s.rebin ns).st.add (t.rebin ns).st).st) := by
  have hsh : t.data.shape = s.data.shape :=
    (List.map_injective_iff.2 Nat.cast_injective) (ht.shape.trans (hc ▸ hs.shape.symm))
  have e1 := add_of_ok (addCheck_same hs.names hc hsh)
  have hw : (s.add t).st.WF := by rw [e1]; exact ⟨hs.axes, hs.names, hs.shape⟩
  have hac : (s.add t).st.cfg = s.cfg := by rw [e1]; rfl
  have hiff : ((s.add t).st.rebin ns).err = none ↔ (s.rebin ns).err = none := by
    rw [rebin_err_none_iff hw, rebin_err_none_iff hs, hac]
  refine ⟨by rw [e1]; rfl, hiff, fun herr => ?_⟩
  have terr : (t.rebin ns).err = none := by
    rw [rebin_err_none_iff ht, hc]; exact (rebin_err_none_iff hs).1 herr
  obtain ⟨⟨a1, a2⟩, a3, -, a5, a6, a7, a8⟩ := (c13_rebin _ hw ns).2 (hiff.2 herr)
  obtain ⟨⟨b1, b2⟩, b3, -, b5, b6, b7, b8⟩ := (c13_rebin s hs ns).2 herr
  obtain ⟨⟨d1, d2⟩, d3, -, d5, d6, d7, d8⟩ := (c13_rebin t ht ns).2 terr
  have e2 := add_of_ok (addCheck_same (s := (s.rebin ns).st) (t := (t.rebin ns).st)
    (rebin_wf hs herr).names (by rw [d3, b3, hc]) (by rw [d1, b1]))
  rw [e2]
  refine ⟨terr, rfl, ⟨?_, ?_, ?_, ?_, ?_⟩, ?_, fun idx hidx => ?_⟩
  · rw [a7, e1]; exact b7
  · rw [a3, e1]; exact b3
  · rw [a5, e1]; change (s.rebin ns).st.numDecays + (t.rebin ns).st.numDecays = _; rw [b5, d5]; rfl
  · rw [a6, e1]; change (s.rebin ns).st.rawEvents + (t.rebin ns).st.rawEvents = _; rw [b6, d6]; rfl
  · rw [a8, e1]; exact b8
  · rw [a1]; exact b1.symm
  · rw [a1] at hidx
    rw [a2 idx hidx, e1]
    change _ = (s.rebin ns).st.data.get idx + (t.rebin ns).st.data.get idx
    rw [b2 idx hidx, d2 idx hidx, hsh, ← sumIdx_add]
    refine sumIdx_congr fun full _ => ?_
    change (if _ then s.data.get full + t.data.get full else 0) = _
    by_cases h : List.zipWith (· / ·) full (List.zipWith (· / ·) s.data.shape ns) = idx
    · rw [if_pos h, if_pos h]; exact if_pos h
    · rw [if_neg h, if_neg h, add_zero]; exact if_neg h

/-! ### shrinking and rebinning -/

/-- Edges of a merged axis. -/
theorem edge_merge {p : SPar} {n k : ℕ} (hn : 0 < n) (hk : 0 < k) (hb : p.bins = (n * k : ℕ)) (j : ℤ) :
    SPar.edge { p with bins := (n : ℤ) } j = p.edge (j * k) := by
  unfold SPar.edge
  simp only [hb]
  push_cast
  have : (n : ℚ) ≠ 0 := by exact_mod_cast hn.ne'
  have : (k : ℚ) ≠ 0 := by exact_mod_cast hk.ne'
  field_simp

/-- One axis of a rebinning and a shrinking: the axis, the new number of bins, the number of old
bins per new one and the range of new bins. -/
structure MergeCut where
  p : SPar
  n : ℕ
  k : ℕ
  q : ℕ × ℕ

theorem mergeCut_exist {cfg : List SPar} {ns shape : List ℕ} {qs : List (ℕ × ℕ)}
    (hax : ∀ p ∈ cfg, p.WF)
    (hs : shape.map (fun n : ℕ => (n : ℤ)) = cfg.map SPar.bins)
    (h : List.Forall₂ (fun (p : SPar) (n : ℕ) => (n : ℤ) ∣ p.bins) cfg ns)
    (hl : qs.length = cfg.length) :
    ∃ A : List MergeCut, cfg = A.map (·.p) ∧ ns = A.map (·.n) ∧
      shape = A.map (fun a => a.n * a.k) ∧ qs = A.map (·.q) ∧
      ∀ a ∈ A, a.p.WF ∧ a.p.bins = (a.n * a.k : ℕ) ∧ 0 < a.n ∧ 0 < a.k := by
  induction h generalizing shape qs with
  | nil =>
    cases shape with
    | nil => cases qs with
      | nil => exact ⟨[], rfl, rfl, rfl, rfl, by simp⟩
      | cons a b => simp at hl
    | cons a b => simp at hs
  | @cons p n cfg ns h1 _ ih =>
    cases shape with
    | nil => simp at hs
    | cons c shape => cases qs with
      | nil => simp at hl
      | cons q qs =>
        simp only [List.map_cons, List.cons.injEq] at hs
        obtain ⟨A, rfl, rfl, rfl, rfl, hA⟩ := ih (fun p hp => hax p (by simp [hp])) hs.2
          (by simpa using hl)
        have hp := hax p (by simp)
        rw [← hs.1, Int.natCast_dvd_natCast] at h1
        obtain ⟨k, rfl⟩ := h1
        have hpos : 0 < n * k := by have := hp.1; rw [← hs.1] at this; exact_mod_cast this
        refine ⟨⟨p, n, k, q⟩ :: A, rfl, rfl, rfl, rfl, ?_⟩
        intro a ha
        rcases List.mem_cons.1 ha with rfl | ha
        · exact ⟨hp, hs.1.symm, Nat.pos_of_mul_pos_right hpos, Nat.pos_of_mul_pos_left hpos⟩
        · exact hA a ha

theorem forall₂_maps {α β γ : Type} {R : β → γ → Prop} {f : α → β} {g : α → γ} {l : List α} :
    List.Forall₂ R (l.map f) (l.map g) ↔ ∀ a ∈ l, R (f a) (g a) := by
  induction l with
  | nil => simp
  | cons a l ih => simp [ih]

theorem zipWith_maps {α β γ δ : Type} (h : β → γ → δ) (f : α → β) (g : α → γ) (l : List α) :
    List.zipWith h (l.map f) (l.map g) = l.map (fun a => h (f a) (g a)) := by
  rw [List.zipWith_map, List.zipWith_self]

theorem block_shift (A : List MergeCut) (idx js : List ℕ) (h1 : idx.length = A.length) :
    blockIdx (A.map (·.k)) (List.zipWith (fun (r : ℕ × ℕ) i => r.1 + i) (A.map (·.q)) idx) js =
    List.zipWith (fun (r : ℕ × ℕ) i => r.1 + i) (A.map (fun a => (a.q.1 * a.k, a.q.2 * a.k)))
      (blockIdx (A.map (·.k)) idx js) := by
  induction A generalizing idx js with
  | nil => simp [blockIdx]
  | cons a A ih => cases idx with
    | nil => simp at h1
    | cons i idx => cases js with
      | nil => simp [blockIdx]
      | cons j js =>
        simp only [List.map_cons, List.zipWith_cons_cons, blockIdx]
        rw [ih idx js (by simpa using h1)]
        congr 1
        ring

/-- **C122, shrinking and rebinning.** On axes that are aligned after the rebinning, rebinning and
then shrinking to edges of the new bins gives the same spectrum as shrinking to these edges and
then merging the same numbers of bins. -/
theorem c122_shrink_rebin (s : Spectrum) (hs : s.WF) (ns : List ℕ) (herr : (s.rebin ns).err = none)
    (ha : ∀ p ∈ (s.rebin ns).st.cfg, p.Aligned) (kw : List (PyStr × ℚ)) (qs : List (ℕ × ℕ))
    (hq : AsksEdges (s.rebin ns).st kw qs) (hne : ∀ q ∈ qs, q.1 < q.2) :
    ((s.rebin ns).st.shrink kw).err = none ∧ (s.shrink kw).err = none ∧
    ((s.shrink kw).st.rebin (qs.map (fun q => q.2 - q.1))).err = none ∧
    ((s.rebin ns).st.shrink kw).st.Eqv ((s.shrink kw).st.rebin (qs.map (fun q => q.2 - q.1))).st := by
  have hd := (rebin_err_none_iff hs).1 herr
  obtain ⟨⟨b1, b2⟩, b3, -, b5, b6, b7, b8⟩ := (c13_rebin s hs ns).2 herr
  have hw := rebin_wf hs herr
  have hl : qs.length = s.cfg.length := by
    rw [← hq.2.2.length_eq, b3, List.length_zipWith, hd.length_eq, Nat.min_self]
  obtain ⟨A, hcfg, rfl, hshape, rfl, hA⟩ := mergeCut_exist hs.axes hs.shape hd hl
  rw [hcfg, zipWith_maps] at b3
  -- the fine ranges
  have hq2 := hq.2.2
  rw [b3, forall₂_maps] at hq2
  have hedge : ∀ a ∈ A, ∀ j : ℤ, SPar.edge { a.p with bins := (a.n : ℤ) } j = a.p.edge (j * a.k) :=
    fun a haA j => edge_merge (hA a haA).2.2.1 (hA a haA).2.2.2 (hA a haA).2.1 j
  have hne' : ∀ a ∈ A, a.q.1 < a.q.2 := fun a haA => hne _ (List.mem_map_of_mem haA)
  have hfine : AsksEdges s kw (A.map (fun a => (a.q.1 * a.k, a.q.2 * a.k))) := by
    refine ⟨hq.1, ?_, ?_⟩
    · intro e he
      obtain ⟨p, hp, hpe⟩ := hq.2.1 e he
      rw [b3] at hp
      obtain ⟨a, haA, rfl⟩ := List.mem_map.1 hp
      exact ⟨a.p, by rw [hcfg]; exact List.mem_map_of_mem haA, hpe⟩
    · rw [hcfg, forall₂_maps]
      intro a haA
      obtain ⟨h1, h2, h3, h4⟩ := hq2 a haA
      rw [hedge a haA] at h3 h4
      refine ⟨Nat.mul_le_mul_right _ h1, ?_, ?_, ?_⟩
      · rw [(hA a haA).2.1]
        have : a.q.2 ≤ a.n := Int.ofNat_le.1 h2
        exact_mod_cast Nat.mul_le_mul_right a.k this
      · push_cast; exact h3
      · push_cast; exact h4
  have hal : ∀ p ∈ s.cfg, p.Aligned := by
    intro p hp
    rw [hcfg] at hp
    obtain ⟨a, haA, rfl⟩ := List.mem_map.1 hp
    obtain ⟨m, hm⟩ := ha { a.p with bins := (a.n : ℤ) } (by
      rw [b3]; exact List.mem_map.2 ⟨a, haA, rfl⟩)
    refine ⟨m * a.k, ?_⟩
    rw [(hA a haA).2.1]
    simp only at hm
    have h1 : (a.n : ℚ) ≠ 0 := by exact_mod_cast (hA a haA).2.2.1.ne'
    have h2 : (a.k : ℚ) ≠ 0 := by exact_mod_cast (hA a haA).2.2.2.ne'
    refine hm.trans ?_
    push_cast
    field_simp
  have hr' : ∀ r ∈ A.map (fun a : MergeCut => (a.q.1 * a.k, a.q.2 * a.k)), r.1 < r.2 := by
    intro r hr
    obtain ⟨a, haA, rfl⟩ := List.mem_map.1 hr
    exact Nat.mul_lt_mul_of_pos_right (hne' a haA) (hA a haA).2.2.2
  obtain ⟨e1, hv⟩ := shrink_isSub hw ha hq
  obtain ⟨e2, hu⟩ := shrink_isSub hs hal hfine
  have hlA : (A.map (fun a : MergeCut => (a.q.1 * a.k, a.q.2 * a.k))).length = s.cfg.length := by
    rw [hcfg]; simp
  have huw := isSub_wf hs hu hr' hlA
  obtain ⟨⟨v1, v2⟩, v3, v4, v5, v6, v7⟩ := hv
  obtain ⟨⟨u1, u2⟩, u3, u4, u5, u6, u7⟩ := hu
  rw [b3, zipWith_maps] at v3
  rw [hcfg, zipWith_maps] at u3
  rw [List.map_map] at v1 u1 ⊢
  have hsize : ∀ a : MergeCut, a.q.2 * a.k - a.q.1 * a.k = (a.q.2 - a.q.1) * a.k :=
    fun a => (Nat.sub_mul _ _ _).symm
  have e3 : ((s.shrink kw).st.rebin (A.map ((fun q : ℕ × ℕ => q.2 - q.1) ∘ (·.q)))).err = none := by
    rw [rebin_err_none_iff huw, u3, forall₂_maps]
    intro a haA
    refine ⟨(a.k : ℤ), ?_⟩
    change ((a.q.2 * a.k : ℕ) : ℤ) - ((a.q.1 * a.k : ℕ) : ℤ) = ((a.q.2 - a.q.1 : ℕ) : ℤ) * a.k
    rw [Nat.cast_sub (hne' a haA).le]
    push_cast; ring
  refine ⟨e1, e2, e3, ?_⟩
  obtain ⟨⟨w1, w2⟩, w3, -, w5, w6, w7, w8⟩ := (c13_rebin _ huw _).2 e3
  rw [u3, zipWith_maps] at w3
  refine ⟨⟨?_, ?_, ?_, ?_, ?_⟩, ?_, fun idx hidx => ?_⟩
  · rw [w7, u4, v4, b7]
  · rw [w3, v3]
    refine List.map_congr_left fun a haA => ?_
    have h1 := hedge a haA a.q.1
    have h2 := hedge a haA a.q.2
    unfold subAxis
    rw [h1, h2]
    simp only [Function.comp]
    push_cast [Nat.cast_sub (hne' a haA).le]
    rfl
  · rw [w5, u5, v5, b5]
  · rw [w6, u6, v6, b6]
  · rw [w8, u7, v7, b8]
  · rw [w1, v1]
  · have hi : InB (A.map ((fun r : ℕ × ℕ => r.2 - r.1) ∘ (·.q))) idx := by rw [← v1]; exact hidx
    rw [v2 idx hidx, w2 idx hi]
    have hq3 : ∀ a ∈ A, a.q.2 ≤ a.n := fun a haA => Int.ofNat_le.1 (hq2 a haA).2.1
    have hi' : InB (A.map (·.n))
        (List.zipWith (fun (r : ℕ × ℕ) i => r.1 + i) (A.map (·.q)) idx) := by
      clear * - hi hq3
      induction A generalizing idx with
      | nil => simp
      | cons a A ih => cases idx with
        | nil => simp at hi
        | cons i idx =>
          simp only [List.map_cons, inB_cons_cons, Function.comp, List.zipWith_cons_cons] at hi ⊢
          have := hq3 a (by simp)
          exact ⟨by omega, ih idx hi.2 fun a ha => hq3 a (by simp [ha])⟩
    rw [b2 _ hi', hshape, zipWith_maps]
    have k1 : A.map (fun a => a.n * a.k / a.n) = A.map (·.k) :=
      List.map_congr_left fun a haA => Nat.mul_div_cancel_left _ (hA a haA).2.2.1
    have s1 := sumIdx_block (L := A.map (fun a => (a.n, a.k)))
      (idx := List.zipWith (fun (r : ℕ × ℕ) i => r.1 + i) (A.map (·.q)) idx)
      (by simpa [List.map_map, Function.comp_def] using hi') s.data.get
    simp only [List.map_map, Function.comp_def] at s1
    rw [k1, s1, u1]
    have k2 : List.zipWith (· / ·)
        (A.map ((fun r : ℕ × ℕ => r.2 - r.1) ∘ fun a : MergeCut => (a.q.1 * a.k, a.q.2 * a.k)))
        (A.map ((fun q : ℕ × ℕ => q.2 - q.1) ∘ (·.q))) = A.map (·.k) := by
      rw [zipWith_maps]
      refine List.map_congr_left fun a haA => ?_
      simp only [Function.comp, hsize]
      exact Nat.mul_div_cancel_left _ (Nat.sub_pos_of_lt (hne' a haA))
    have k3 : A.map ((fun r : ℕ × ℕ => r.2 - r.1) ∘ fun a : MergeCut => (a.q.1 * a.k, a.q.2 * a.k)) =
        A.map (fun a => (a.q.2 - a.q.1) * a.k) :=
      List.map_congr_left fun a _ => hsize a
    rw [k2]
    have s2 := sumIdx_block (L := A.map (fun a => (a.q.2 - a.q.1, a.k))) (idx := idx)
      (by simpa [List.map_map, Function.comp_def] using hi) (s.shrink kw).st.data.get
    simp only [List.map_map, Function.comp_def] at s2
    rw [k3, s2]
    refine sumIdx_congr fun js hjs => ?_
    rw [u2, block_shift]
    · rw [hi.length_eq, List.length_map]
    · rw [u1, k3]
      have := inB_blockIdx (L := A.map (fun a => (a.q.2 - a.q.1, a.k))) (idx := idx) (js := js)
        (by simpa [List.map_map, Function.comp_def] using hi)
        (by simpa [List.map_map, Function.comp_def] using hjs)
      simpa [List.map_map, Function.comp_def] using this

example : Ex.spec.WF ∧ (Ex.spec.rebin [5, 2]).err = none ∧
    (∀ p ∈ (Ex.spec.rebin [5, 2]).st.cfg, p.Aligned) ∧
    AsksEdges (Ex.spec.rebin [5, 2]).st [(lit "energy_mc_low", 1), (lit "energy_mc_high", 4)]
      [(1, 4), (0, 2)] ∧ Ex.spec.numDecays ≠ 0 := by
  have herr : (Ex.spec.rebin [5, 2]).err = none :=
    (rebin_err_none_iff Ex.spec_wf).2 (by simp [Ex.spec, Ex.energy, Ex.radial])
  have hc : (Ex.spec.rebin [5, 2]).st.cfg =
      [⟨lit "energy_mc", 0, 5, 5⟩, ⟨lit "radial_mc", 0, 6000, 2⟩] :=
    ((c13_rebin _ Ex.spec_wf _).2 herr).2.1
  refine ⟨Ex.spec_wf, herr, ?_, ⟨by unfold IsDict; decide, ?_, ?_⟩, by norm_num [Ex.spec]⟩
  · rw [hc]
    simp only [List.mem_cons, List.not_mem_nil, or_false, forall_eq_or_imp, forall_eq]
    exact ⟨⟨0, by simp⟩, ⟨0, by simp⟩⟩
  · simp [BoundKeys, hc]
  · rw [hc]
    refine .cons ⟨by norm_num, by norm_num, ?_, ?_⟩ (.cons ⟨by norm_num, by norm_num, ?_, ?_⟩ .nil)
    · left; norm_num [SPar.edge]
    · left; norm_num [SPar.edge]
    · right; exact ⟨by simp, by norm_num [SPar.edge]⟩
    · right; exact ⟨by simp, by norm_num [SPar.edge]⟩

end Verif
