import Verif.Lemmas.FloatShrink
import Verif.Lemmas.FloatBinary
import Verif.Spec.Examples
import Verif.Spec.Float
import Mathlib.Tactic.NormNum

/-! # C127: shrinking a spectrum with floats -/

namespace Verif

open Spectrum

theorem Rounding.shrinkLoop_eq (R : Rounding) {c : ℚ} {kw : List (PyStr × ℚ)} {cfg : List SPar}
    (h : ∀ p ∈ cfg, p.WF) (hu : R.u ≤ 1 / 1000) :
    R.shrinkLoop c kw cfg =
      (cfg.map (fun p => (R.shrinkAxis c p (askedLow kw p) (askedHigh kw p)).1),
       cfg.map (fun p => (R.shrinkAxis c p (askedLow kw p) (askedHigh kw p)).2), none) := by
  induction cfg with
  | nil => rfl
  | cons p cfg ih =>
    have hp := h p (by simp)
    have hstep : R.shrinkPar c kw p = .ok (R.shrinkAxis c p (askedLow kw p) (askedHigh kw p)) := by
      unfold shrinkPar
      rw [if_neg]
      · rfl
      · rintro (h0 | h0)
        · have := hp.1; omega
        · have := (R.width_pos hp hu).1
          have := hp.width_pos
          linarith
    unfold shrinkLoop
    rw [hstep, ih fun q hq => h q (by simp [hq])]
    simp

/-- **C127.** Shrinking to bounds that are bin edges up to `δ ≤ 1/1000` of a bin width gives exactly
the bins between these edges, whatever the rounding does: the cells are the same numbers, no bin
more or less, and the new edges are right up to `δ + 13 κ` bin widths. The axes must start at a
whole number of widths up to `δ`, and `κ`, the relative error times the number of widths from zero
to the far end, must be at most `1/10000`. `c` is the float for `0.99`. -/
theorem c127_shrink (R : Rounding) (c : ℚ) (hc : |c - 99 / 100| ≤ R.u) (δ κ : ℚ)
    (hδ : δ ≤ 1 / 1000) (hκ : κ ≤ 1 / 10000) (s : Spectrum) (hs : s.WF)
    (ha : ∀ p ∈ s.cfg, AlignedUpTo p R.u δ κ) (hne : s.cfg ≠ [])
    (kw : List (PyStr × ℚ)) (rs : List (ℕ × ℕ)) (hq : AsksNear s kw rs δ) :
    (R.shrink c s kw).err = none ∧ IsSlice s rs (R.shrink c s kw).st ∧
    SameMeta s (R.shrink c s kw).st ∧
    List.Forall₂ (fun pr q => SubAxisUpTo (δ + 13 * κ) pr.1 pr.2 q) (s.cfg.zip rs)
      (R.shrink c s kw).st.cfg := by
  obtain ⟨hk, hv, hf⟩ := hq
  have hu : R.u ≤ 1 / 1000 := by
    obtain ⟨p, hp⟩ := List.exists_mem_of_ne_nil _ hne
    obtain ⟨m, -, hm⟩ := ha p hp
    have hb : (1 : ℚ) ≤ p.bins := by exact_mod_cast (hs.axes p hp).1
    have := abs_nonneg (m : ℚ)
    nlinarith [R.u_nonneg]
  have hcheck : kw.forM s.shrinkCheck = .ok () := by
    rw [forM_except_ok]
    exact fun e he => shrinkCheck_ok_of_good hs.names (hv e he)
  have hform : R.shrink c s kw = .ok { s with
      cfg := s.cfg.map (fun p => (R.shrinkAxis c p (askedLow kw p) (askedHigh kw p)).1)
      data := s.data.slice
        (s.cfg.map (fun p => (R.shrinkAxis c p (askedLow kw p) (askedHigh kw p)).2)) } := by
    unfold Rounding.shrink
    rw [hcheck]
    simp only [R.shrinkLoop_eq hs.axes hu]
  have hax := hs.axes
  have key : List.Forall₂ (fun (p : SPar) (r : ℕ × ℕ) =>
      (R.shrinkAxis c p (askedLow kw p) (askedHigh kw p)).2 = ((r.1 : ℤ), (r.2 : ℤ)) ∧
      SubAxisUpTo (δ + 13 * κ) p r (R.shrinkAxis c p (askedLow kw p) (askedHigh kw p)).1)
      s.cfg rs := by
    clear * - hax hf ha hc hδ hκ hk
    generalize s.cfg = cfg at *
    induction hf with
    | nil => exact .nil
    | @cons p r cfg rs h1 _ ih =>
      refine .cons ?_ (ih (fun q hq => ha q (by simp [hq])) (fun q hq => hax q (by simp [hq])))
      obtain ⟨r1, r2, kl, kh, h3, h4, h5, h6⟩ := h1
      have h3' : askedLow kw p = kl := (asked_iff hk).1 h3
      have h4' : askedHigh kw p = kh := (asked_iff hk).1 h4
      have hp := hax p (by simp)
      obtain ⟨m, m1, m2⟩ := ha p (by simp)
      obtain ⟨lo, hi', e1, e2, e3⟩ := R.shrinkAxis_near hp hc hδ (m2.trans hκ) m1
        (Int.natCast_nonneg r.1) (by exact_mod_cast r1) r2 h5 h6
      rw [h3', h4', e1]
      have hw := hp.width_pos
      have hle : (δ + 13 * ((|(m : ℚ)| + p.bins) * R.u)) * p.width ≤ (δ + 13 * κ) * p.width := by
        gcongr
      exact ⟨rfl, rfl, rfl, e2.trans hle, e3.trans hle⟩
  rw [hform]
  refine ⟨rfl, isSlice_of_bounds hs (hf.imp fun p r h => ⟨h.1, h.2.1⟩) ?_, ⟨rfl, rfl, rfl, rfl⟩, ?_⟩
  · simp only [Outcome.ok]
    congr 1
    clear * - key
    generalize s.cfg = cfg at *
    induction key with
    | nil => rfl
    | cons h _ ih => simp only [List.map_cons, ih, h.1]
  · simp only [Outcome.ok]
    clear * - key
    generalize s.cfg = cfg at *
    induction key with
    | nil => exact .nil
    | cons h _ ih => exact .cons h.2 ih

namespace Ex

/-- A thousand bins of a hundredth. -/
def fine : SPar := ⟨lit "energy_reco", 0, 10, 1000⟩

/-- A spectrum with that axis. -/
def fineSpec : Spectrum := ⟨lit "fine", [fine], ⟨[1000], fun _ => 1⟩, 1, 0, []⟩

/-- Bounds 0.29 and 4.35, as python's floats; `0.29 / 0.01` gives 28.999… in python. -/
def fineCut : List (PyStr × ℚ) :=
  [(lit "energy_reco_low", roundBits 53 (29 / 100)), (lit "energy_reco_high", roundBits 53 (435 / 100))]

end Ex

/-- The float `0.99` and the cut of `Ex.fineSpec` at 0.29 and 4.35 meet the hypotheses. -/
example : |roundBits 53 (99 / 100) - 99 / 100| ≤ (binary 53 (by norm_num)).u ∧
    Ex.fineSpec.WF ∧ (∀ p ∈ Ex.fineSpec.cfg, AlignedUpTo p (binary 53 (by norm_num)).u (1 / 1000) (1 / 10000)) ∧
    AsksNear Ex.fineSpec Ex.fineCut [(29, 435)] (1 / 1000) := by
  have r1 := abs_le.1 (roundBits_rel 53 (29 / 100))
  have r2 := abs_le.1 (roundBits_rel 53 (435 / 100))
  rw [abs_of_pos (by norm_num)] at r1 r2
  norm_num at r1 r2
  have hname1 : Ex.fine.name ++ lit "_low" = lit "energy_reco_low" := rfl
  have hname2 : Ex.fine.name ++ lit "_high" = lit "energy_reco_high" := rfl
  refine ⟨?_, ⟨?_, ?_, ?_⟩, ?_, ?_, ?_, ?_⟩
  · refine (roundBits_rel 53 (99 / 100)).trans ?_
    norm_num [binary, abs_of_pos]
  · simp only [Ex.fineSpec, List.mem_cons, List.not_mem_nil, or_false, forall_eq]
    exact ⟨by norm_num [Ex.fine], by norm_num [Ex.fine]⟩
  · simp [Ex.fineSpec]
  · simp [Ex.fineSpec, Ex.fine]
  · simp only [Ex.fineSpec, List.mem_cons, List.not_mem_nil, or_false, forall_eq]
    exact ⟨0, by norm_num [Ex.fine], by norm_num [Ex.fine, binary]⟩
  · unfold IsDict Ex.fineCut
    simp
  · intro e he
    simp only [Ex.fineCut, List.mem_cons, List.not_mem_nil, or_false] at he
    refine ⟨Ex.fine, by simp [Ex.fineSpec], ?_⟩
    rcases he with rfl | rfl
    · refine .inl ⟨hname1.symm, .inr ?_⟩
      norm_num [Ex.fine]
      linarith [r1.1]
    · refine .inr ⟨hname2.symm, .inr ?_⟩
      norm_num [Ex.fine]
      linarith [r2.2]
  · refine .cons ⟨by norm_num, by norm_num [Ex.fine], _, _,
      .inl (by rw [hname1]; simp [Ex.fineCut]; rfl), .inl (by rw [hname2]; simp [Ex.fineCut]; rfl), ?_, ?_⟩ .nil
    · norm_num [Ex.fine, SPar.edge]
      rw [abs_le]
      constructor <;> linarith [r1.1, r1.2]
    · norm_num [Ex.fine, SPar.edge]
      rw [abs_le]
      constructor <;> linarith [r2.1, r2.2]

end Verif
