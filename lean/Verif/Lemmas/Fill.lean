import Verif.Lemmas.Base
import Verif.Lemmas.NdArray

/-! Helper lemmas about `Spectrum.fill`. -/

namespace Verif

theorem inB_of_bins {cfg : List SPar} {shape idx : List ℕ}
    (hs : shape.map (fun n : ℕ => (n : ℤ)) = cfg.map SPar.bins)
    (h : List.Forall₂ (fun p (i : ℕ) => (i : ℤ) < p.bins) cfg idx) : InB shape idx := by
  induction h generalizing shape with
  | nil => cases shape <;> simp_all
  | cons h1 _ ih =>
    cases shape with
    | nil => simp at hs
    | cons n shape =>
      simp only [List.map_cons, List.cons.injEq] at hs
      simp only [inB_cons_cons]
      exact ⟨by exact_mod_cast hs.1 ▸ h1, ih hs.2⟩

theorem bins_of_inB {cfg : List SPar} {shape idx : List ℕ}
    (hs : shape.map (fun n : ℕ => (n : ℤ)) = cfg.map SPar.bins) (h : InB shape idx) :
    List.Forall₂ (fun p (i : ℕ) => (i : ℤ) < p.bins) cfg idx := by
  induction shape generalizing cfg idx with
  | nil => cases cfg <;> simp_all
  | cons n shape ih =>
    cases cfg with
    | nil => simp at hs
    | cons p cfg =>
      cases idx with
      | nil => simp at h
      | cons i idx =>
        simp only [List.map_cons, List.cons.injEq] at hs
        simp only [inB_cons_cons] at h
        exact .cons (by rw [← hs.1]; exact_mod_cast h.1) (ih hs.2 h.2)

theorem cellOf_inB {s : Spectrum} (hs : s.WF) {kw : List (PyStr × ℚ)} {idx : List ℕ}
    (h : CellOf s kw idx) : InB s.data.shape idx :=
  inB_of_bins hs.shape (h.imp fun _ _ ⟨_, _, h2⟩ => h2.1)

theorem cellOf_unique {s : Spectrum} (hs : s.WF) {kw : List (PyStr × ℚ)} (hk : IsDict kw)
    {idx idx' : List ℕ} (h : CellOf s kw idx) (h' : CellOf s kw idx') : idx = idx' := by
  have aux : ∀ (cfg : List SPar) (i j : List ℕ), (∀ p ∈ cfg, p.WF) →
      List.Forall₂ (fun p i => ∃ x, (p.name, x) ∈ kw ∧ InCell p x i) cfg i →
      List.Forall₂ (fun p i => ∃ x, (p.name, x) ∈ kw ∧ InCell p x i) cfg j → i = j := by
    intro cfg i j hc hi hj
    induction hi generalizing j with
    | nil => cases hj; rfl
    | cons h1 _ ih =>
      cases hj with
      | cons h1' h2' =>
        obtain ⟨x, hx, hx'⟩ := h1
        obtain ⟨y, hy, hy'⟩ := h1'
        have hxy : x = y := by
          have a := (assoc_eq_some_iff hk).2 hx
          have b := (assoc_eq_some_iff hk).2 hy
          rw [a] at b; exact Option.some.inj b
        subst hxy
        rw [inCell_unique (hc _ (by simp)) hx' hy',
          ih (j := _) (fun p hp => hc p (by simp [hp])) h2']
  exact aux s.cfg idx idx' hs.axes h h'

theorem inRange_of_cellOf {s : Spectrum} (hs : s.WF) {kw : List (PyStr × ℚ)} {idx : List ℕ}
    (h : CellOf s kw idx) (hn : ∀ e ∈ kw, ∃ p ∈ s.cfg, p.name = e.1) : InRange s kw := by
  refine ⟨hn, ?_⟩
  have aux : ∀ (cfg : List SPar) (i : List ℕ), (∀ p ∈ cfg, p.WF) →
      List.Forall₂ (fun p i => ∃ x, (p.name, x) ∈ kw ∧ InCell p x i) cfg i →
      ∀ p ∈ cfg, ∃ x, (p.name, x) ∈ kw ∧ p.low ≤ x ∧ x < p.high := by
    intro cfg i hc hi
    induction hi with
    | nil => simp
    | cons h1 _ ih =>
      intro p hp
      rcases List.mem_cons.1 hp with rfl | hp
      · obtain ⟨x, hx, hx'⟩ := h1
        exact ⟨x, hx, inCell_range (hc _ (by simp)) hx'⟩
      · exact ih (fun p hp => hc p (by simp [hp])) p hp
  exact aux s.cfg idx hs.axes h

theorem forall₂_zip_all {cfg : List SPar} {xs : List ℚ}
    (h : List.Forall₂ (fun (p : SPar) x => p.low ≤ x ∧ x < p.high) cfg xs) :
    ((cfg.zip xs).all fun e => decide (e.1.low ≤ e.2 ∧ e.2 < e.1.high)) = true := by
  induction h with
  | nil => rfl
  | cons h1 _ ih => simpa [h1.1, h1.2] using ih

theorem zip_all_forall₂ {cfg : List SPar} {xs : List ℚ} (hl : cfg.length = xs.length)
    (h : ((cfg.zip xs).all fun e => decide (e.1.low ≤ e.2 ∧ e.2 < e.1.high)) = true) :
    List.Forall₂ (fun (p : SPar) x => p.low ≤ x ∧ x < p.high) cfg xs := by
  induction cfg generalizing xs with
  | nil => cases xs <;> simp_all
  | cons p cfg ih =>
    cases xs with
    | nil => simp at hl
    | cons x xs =>
      simp only [List.zip_cons_cons, List.all_cons, Bool.and_eq_true, decide_eq_true_eq] at h
      exact .cons h.1 (ih (by simpa using hl) h.2)

/-- What an accepted fill does. -/
theorem fill_of_inRange {s : Spectrum} (hs : s.WF) {kw : List (PyStr × ℚ)} (hk : IsDict kw)
    (h : InRange s kw) (w : ℚ) :
    ∃ idx, CellOf s kw idx ∧ s.fill w kw = .ok { s with data := s.data.addAt idx w } := by
  obtain ⟨hn, hr⟩ := h
  have h1 : kw.any (fun e => decide (e.1 ∉ s.pars)) = false := by
    simp only [List.any_eq_false, decide_eq_true_eq, not_not]
    intro e he
    obtain ⟨p, hp, hpe⟩ := hn e he
    exact List.mem_map.2 ⟨p, hp, hpe⟩
  have h2 : s.cfg.mapM (fun p => assoc kw p.name) ≠ none := by
    rw [Ne, mapM_option_eq_none]
    rintro ⟨p, hp, hpn⟩
    obtain ⟨x, hx, _⟩ := hr p hp
    exact assoc_eq_none_iff.1 hpn x hx
  obtain ⟨xs, hxs⟩ := Option.ne_none_iff_exists'.1 h2
  have hx2 := mapM_option_eq_some.1 hxs
  have hboth : List.Forall₂ (fun (p : SPar) x =>
      (p.name, x) ∈ kw ∧ p.low ≤ x ∧ x < p.high ∧ p.WF) s.cfg xs := by
    have hax := hs.axes
    clear hxs h1 h2
    revert hr hx2 hax
    generalize s.cfg = cfg
    intro hr hx2 hax
    induction hx2 with
    | nil => exact .nil
    | cons a _ ih =>
      refine .cons ?_ (ih (fun p hp => hr p (by simp [hp])) (fun p hp => hax p (by simp [hp])))
      obtain ⟨y, hy, hy'⟩ := hr _ (List.mem_cons_self ..)
      have hb := (assoc_eq_some_iff hk).2 hy
      rw [a] at hb; cases hb
      exact ⟨hy, hy'.1, hy'.2, hax _ (by simp)⟩
  have hcell : CellOf s kw ((List.zipWith Spectrum.fillBin s.cfg xs).map Int.toNat) := by
    unfold CellOf
    clear hx2 hxs h1 h2 hr
    revert hboth
    generalize s.cfg = cfg
    intro hboth
    induction hboth with
    | nil => exact .nil
    | cons a _ ih =>
      refine .cons ⟨_, a.1, ?_⟩ ih
      rw [fillBin_eq a.2.2.2 a.2.1]
      exact (floor_inCell a.2.2.2 a.2.1 a.2.2.1).2
  have hpos : ((List.zipWith Spectrum.fillBin s.cfg xs).all (fun b => decide (0 ≤ b))) = true := by
    clear hx2 hxs h1 h2 hr hcell
    revert hboth
    generalize s.cfg = cfg
    intro hboth
    induction hboth with
    | nil => rfl
    | cons a _ ih =>
      simp only [List.zipWith_cons_cons, List.all_cons, Bool.and_eq_true, decide_eq_true_eq]
      refine ⟨?_, ih⟩
      rw [fillBin_eq a.2.2.2 a.2.1]
      exact (floor_inCell a.2.2.2 a.2.1 a.2.2.1).1
  refine ⟨_, hcell, ?_⟩
  unfold Spectrum.fill
  rw [if_neg (by rw [h1]; simp)]
  simp only [hxs]
  rw [if_pos (forall₂_zip_all (hboth.imp fun _ _ h => ⟨h.2.1, h.2.2.1⟩)),
    if_pos ⟨hpos, cellOf_inB hs hcell⟩]

/-- A fill that is not in range is rejected without any change. -/
theorem fill_of_not_inRange {s : Spectrum} {kw : List (PyStr × ℚ)} (hk : IsDict kw)
    (h : ¬ InRange s kw) (w : ℚ) :
    ∃ e, s.fill w kw = .fail s e := by
  unfold Spectrum.fill
  split
  · exact ⟨_, rfl⟩
  · next h1 =>
    split
    · exact ⟨_, rfl⟩
    · next xs hxs =>
      split
      · next hall =>
        exfalso
        apply h
        have hx2 := mapM_option_eq_some.1 hxs
        have hr := zip_all_forall₂ hx2.length_eq hall
        refine ⟨?_, ?_⟩
        · intro e he
          have : e.1 ∈ s.pars := by
            simp only [List.any_eq_true, decide_eq_true_eq, not_exists, not_and, not_not] at h1
            exact h1 e he
          obtain ⟨p, hp, hpe⟩ := List.mem_map.1 this
          exact ⟨p, hp, hpe⟩
        · clear hall h1 hxs h
          revert hx2 hr
          generalize s.cfg = cfg
          intro hx2 hr
          induction hx2 with
          | nil => simp
          | cons a _ ih =>
            cases hr with
            | cons b1 b2 =>
              intro p hp
              rcases List.mem_cons.1 hp with rfl | hp
              · exact ⟨_, (assoc_eq_some_iff hk).1 a, b1⟩
              · exact ih b2 p hp
      · exact ⟨_, rfl⟩

theorem fill_wf {s : Spectrum} (hs : s.WF) {kw : List (PyStr × ℚ)} (w : ℚ) :
    (s.fill w kw).st.WF := by
  unfold Spectrum.fill
  split
  · exact hs
  split
  · exact hs
  split
  · simp only
    split
    · exact ⟨hs.axes, hs.names, hs.shape⟩
    · exact hs
  · exact hs

end Verif
