import Verif.Lemmas.Add
import Verif.Lemmas.Project

/-! Helper lemmas about `Spectrum.shrink`. -/

namespace Verif

open Spectrum Finset

theorem pyRound_close (x : ℚ) : |(pyRound x : ℚ) - x| ≤ 1 / 2 := by
  unfold pyRound
  rw [abs_le]
  split
  · have h1 := Int.floor_le (x + 1 / 2)
    have h2 := Int.lt_floor_add_one (x + 1 / 2)
    constructor <;> linarith
  · have h1 := Int.le_ceil (x - 1 / 2)
    have h2 := Int.ceil_lt_add_one (x - 1 / 2)
    constructor <;> linarith

theorem pyRound_add_one (x : ℚ) : pyRound x + 1 ≤ pyRound (x + 1) := by
  unfold pyRound
  split
  · next h =>
    rw [if_pos (by linarith)]
    rw [Int.le_floor]; push_cast
    have := Int.floor_le (x + 1 / 2)
    linarith
  · next h =>
    split
    · rw [Int.le_floor]; push_cast
      have h2 := Int.ceil_lt_add_one (x - 1 / 2)
      linarith
    · rw [← Int.ceil_add_one]
      apply Int.ceil_le_ceil; linarith

theorem pyRound_add_nat (x : ℚ) (n : ℕ) : pyRound x + n ≤ pyRound (x + n) := by
  induction n with
  | zero => simp
  | succ n ih =>
    have := pyRound_add_one (x + n)
    push_cast
    rw [← add_assoc x]
    omega

theorem round_close {p : SPar} (hp : p.WF) (x : ℚ) : |p.round x - x| ≤ p.width / 2 := by
  have hw := hp.width_pos
  have h := pyRound_close (x / p.width)
  have : p.round x - x = ((pyRound (x / p.width) : ℚ) - x / p.width) * p.width := by
    unfold SPar.round; field_simp
  rw [this, abs_mul, abs_of_pos hw]
  have := mul_le_mul_of_nonneg_right h hw.le
  linarith

theorem round_edges {p : SPar} (hp : p.WF) {i j : ℤ} (hij : i < j) :
    p.round (p.edge i) < p.round (p.edge j) := by
  have hw := hp.width_pos
  obtain ⟨n, rfl⟩ : ∃ n : ℕ, j = i + n := ⟨(j - i).toNat, by omega⟩
  have hn : 0 < n := by omega
  have h1 : p.edge (i + n) / p.width = p.edge i / p.width + n := by
    simp only [SPar.edge_eq]; push_cast; field_simp; ring
  unfold SPar.round
  rw [h1]
  refine mul_lt_mul_of_pos_right ?_ hw
  have := pyRound_add_nat (p.edge i / p.width) n
  exact_mod_cast (by omega : pyRound (p.edge i / p.width) < pyRound (p.edge i / p.width + n))

theorem round_aligned {p : SPar} (hp : p.WF) (ha : p.Aligned) (i : ℤ) :
    p.round (p.edge i) = p.edge i := by
  have hw := hp.width_pos
  obtain ⟨m, hm⟩ := ha
  have hm' : p.low = m * p.width := hm
  have : p.edge i / p.width = ((m + i : ℤ) : ℚ) := by
    rw [SPar.edge_eq, hm']; push_cast; field_simp
  unfold SPar.round
  rw [this, pyRound_intCast, SPar.edge_eq, hm']; push_cast; ring

/-- What `shrinkAxis` does for bounds in range, on any axis. -/
theorem shrinkAxis_spec {p : SPar} (hp : p.WF) {kl kh : ℚ} (h1 : p.low ≤ kl)
    (a b : ℚ) (hka : kl = p.low + a * p.width) (hkb : kh = p.low + b * p.width) :
    ∃ p' i j, shrinkAxis p kl kh = (p', (i, j)) ∧ p'.name = p.name ∧ p'.bins = j - i ∧
      p'.high = p.round (p.edge j) ∧
      ((i = ⌊a⌋ ∧ p'.low = p.round (p.edge i) ∧ kl - p.round (p.edge ⌊a⌋) ≤ 99 / 100 * p.width) ∨
        (i = ⌊a⌋ + 1 ∧ p'.low = p.edge i ∧ 99 / 100 * p.width < kl - p.round (p.edge ⌊a⌋))) ∧
      ((j = ⌈b⌉ ∧ p.round (p.edge ⌈b⌉) - kh ≤ 99 / 100 * p.width) ∨
        (j = ⌈b⌉ - 1 ∧ 99 / 100 * p.width < p.round (p.edge ⌈b⌉) - kh)) := by
  have hw := hp.width_pos
  have ha : (kl - p.low) / p.width = a := by rw [hka]; field_simp; ring
  have hb : (kh - p.low) / p.width = b := by rw [hkb]; field_simp; ring
  have ha0 : 0 ≤ a := by rw [← ha]; exact div_nonneg (by linarith) hw.le
  have hlowBin : pyInt ((kl - p.low) / p.width) = ⌊a⌋ := by rw [ha, pyInt_of_nonneg ha0]
  have e1 : p.low + (⌊a⌋ : ℚ) * p.width = p.edge ⌊a⌋ := rfl
  have e2 : p.low + (⌈b⌉ : ℚ) * p.width = p.edge ⌈b⌉ := rfl
  have e3 : p.low + ((⌈b⌉ - 1 : ℤ) : ℚ) * p.width = p.edge (⌈b⌉ - 1) := rfl
  have e4 : p.low + ((⌊a⌋ + 1 : ℤ) : ℚ) * p.width = p.edge (⌊a⌋ + 1) := rfl
  -- signs of the corrections
  have hs1 : p.round (p.edge ⌊a⌋) - kl ≤ p.width / 2 := by
    have := (abs_le.1 (round_close hp (p.edge ⌊a⌋))).2
    have hfl : p.edge ⌊a⌋ ≤ kl := by
      rw [hka, SPar.edge_eq]
      have := mul_le_mul_of_nonneg_right (Int.floor_le a) hw.le
      linarith
    linarith
  have hs2 : - (p.width / 2) ≤ p.round (p.edge ⌈b⌉) - kh := by
    have := (abs_le.1 (round_close hp (p.edge ⌈b⌉))).1
    have hfl : kh ≤ p.edge ⌈b⌉ := by
      rw [hkb, SPar.edge_eq]
      have := mul_le_mul_of_nonneg_right (Int.le_ceil b) hw.le
      linarith
    linarith
  unfold shrinkAxis
  simp only [hlowBin, hb, e1, e2]
  have hhi : (if 99 / 100 * p.width < |p.round (p.edge ⌈b⌉) - kh| then
      if 0 < p.round (p.edge ⌈b⌉) - kh then
        (⌈b⌉ - 1, p.round (p.low + (⌈b⌉ - 1 : ℤ) * p.width))
      else (⌈b⌉ + 1, p.round (p.low + (⌈b⌉ + 1 : ℤ) * p.width))
      else (⌈b⌉, p.round (p.edge ⌈b⌉))) =
      if 99 / 100 * p.width < p.round (p.edge ⌈b⌉) - kh then
        (⌈b⌉ - 1, p.round (p.edge (⌈b⌉ - 1))) else (⌈b⌉, p.round (p.edge ⌈b⌉)) := by
    by_cases hc : 99 / 100 * p.width < p.round (p.edge ⌈b⌉) - kh
    · have hpos : 0 < p.round (p.edge ⌈b⌉) - kh := by linarith
      rw [if_pos (by rw [abs_of_pos hpos]; exact hc), if_pos hpos, if_pos hc, e3]
    · rw [if_neg, if_neg hc]
      rw [not_lt, abs_le]
      constructor <;> linarith
  have hlo : (if 99 / 100 * p.width < |p.round (p.edge ⌊a⌋) - kl| then
      if 0 < p.round (p.edge ⌊a⌋) - kl then (⌊a⌋ - 1, p.low + (⌊a⌋ - 1 : ℤ) * p.width)
      else (⌊a⌋ + 1, p.low + (⌊a⌋ + 1 : ℤ) * p.width)
      else (⌊a⌋, p.round (p.edge ⌊a⌋))) =
      if 99 / 100 * p.width < kl - p.round (p.edge ⌊a⌋) then
        (⌊a⌋ + 1, p.edge (⌊a⌋ + 1)) else (⌊a⌋, p.round (p.edge ⌊a⌋)) := by
    by_cases hc : 99 / 100 * p.width < kl - p.round (p.edge ⌊a⌋)
    · have hneg : ¬ 0 < p.round (p.edge ⌊a⌋) - kl := by linarith
      rw [if_pos, if_neg hneg, if_pos hc, e4]
      rw [abs_of_nonpos (by linarith)]; linarith
    · rw [if_neg, if_neg hc]
      rw [not_lt, abs_le]
      constructor <;> linarith
  rw [hhi, hlo]
  by_cases c1 : 99 / 100 * p.width < kl - p.round (p.edge ⌊a⌋) <;>
    by_cases c2 : 99 / 100 * p.width < p.round (p.edge ⌈b⌉) - kh
  · simp only [if_pos c1, if_pos c2]
    exact ⟨_, _, _, rfl, rfl, rfl, rfl, .inr ⟨rfl, rfl, c1⟩, .inr ⟨rfl, c2⟩⟩
  · simp only [if_pos c1, if_neg c2]
    exact ⟨_, _, _, rfl, rfl, rfl, rfl, .inr ⟨rfl, rfl, c1⟩, .inl ⟨rfl, not_lt.1 c2⟩⟩
  · simp only [if_neg c1, if_pos c2]
    exact ⟨_, _, _, rfl, rfl, rfl, rfl, .inl ⟨rfl, rfl, not_lt.1 c1⟩, .inr ⟨rfl, c2⟩⟩
  · simp only [if_neg c1, if_neg c2]
    exact ⟨_, _, _, rfl, rfl, rfl, rfl, .inl ⟨rfl, rfl, not_lt.1 c1⟩, .inl ⟨rfl, not_lt.1 c2⟩⟩

/-- `shrinkAxis` on bounds that are bin edges. -/
theorem shrinkAxis_edges {p : SPar} (hp : p.WF) {i j : ℤ} (hi : 0 ≤ i) :
    shrinkAxis p (p.edge i) (p.edge j) =
      ({ p with low := p.round (p.edge i), high := p.round (p.edge j), bins := j - i }, (i, j)) := by
  have hw := hp.width_pos
  have hlow : p.low ≤ p.edge i := by
    rw [SPar.edge_eq]
    have : (0 : ℚ) ≤ i := by exact_mod_cast hi
    have := mul_nonneg this hw.le
    linarith
  obtain ⟨p', i', j', h, hn, hb, hh, hlo, hhi⟩ := shrinkAxis_spec hp hlow i j rfl (kh := p.edge j) rfl
  have hi' := round_close hp (p.edge i)
  have hj' := round_close hp (p.edge j)
  rw [abs_le] at hi' hj'
  simp only [Int.floor_intCast, Int.ceil_intCast] at hlo hhi
  rcases hlo with ⟨rfl, hl, -⟩ | ⟨-, -, h2⟩
  · rcases hhi with ⟨rfl, -⟩ | ⟨-, h2⟩
    · rw [h]
      cases p'
      simp_all
    · exfalso; linarith
  · exfalso; linarith

theorem sliceBounds_of_le {n : ℕ} {i j : ℤ} (h0 : 0 ≤ i) (hij : i ≤ j) (hj : j ≤ n) :
    NdArray.sliceBounds n i j = (i.toNat, j.toNat - i.toNat) := by
  unfold NdArray.sliceBounds
  simp only [not_lt.2 h0, not_lt.2 (h0.trans hij), if_false]
  rw [Nat.min_eq_left (by omega), Nat.min_eq_left (by omega)]

/-! ### the loop and the validation -/

/-- requested bounds of an axis -/
def askedLow (kw : List (PyStr × ℚ)) (p : SPar) : ℚ :=
  (assoc kw (p.name ++ lit "_low")).getD p.low

/-- requested bounds of an axis -/
def askedHigh (kw : List (PyStr × ℚ)) (p : SPar) : ℚ :=
  (assoc kw (p.name ++ lit "_high")).getD p.high

theorem asked_iff {kw : List (PyStr × ℚ)} (hk : IsDict kw) {key : PyStr} {d v : ℚ} :
    Asked kw key d v ↔ (assoc kw key).getD d = v := by
  unfold Asked
  cases h : assoc kw key with
  | none =>
    have := assoc_eq_none_iff.1 h
    simp [this, eq_comm]
  | some w =>
    have hm := (assoc_eq_some_iff hk).1 h
    simp only [Option.getD_some]
    constructor
    · rintro (h' | ⟨h', -⟩)
      · have := (assoc_eq_some_iff hk).2 h'
        rw [h] at this; exact Option.some.inj this
      · exact absurd hm (h' w)
    · rintro rfl; exact .inl hm

theorem shrinkLoop_wf {kw : List (PyStr × ℚ)} {cfg : List SPar} (h : ∀ p ∈ cfg, p.WF) :
    shrinkLoop kw cfg =
      (cfg.map (fun p => (shrinkAxis p (askedLow kw p) (askedHigh kw p)).1),
       cfg.map (fun p => (shrinkAxis p (askedLow kw p) (askedHigh kw p)).2), none) := by
  induction cfg with
  | nil => rfl
  | cons p cfg ih =>
    have hp := h p (by simp)
    have hstep : shrinkPar kw p = .ok (shrinkAxis p (askedLow kw p) (askedHigh kw p)) := by
      unfold shrinkPar
      rw [if_neg]
      · rfl
      · rintro (h0 | h0)
        · have := hp.1; omega
        · exact hp.width_pos.ne' h0
    unfold shrinkLoop
    rw [hstep, ih fun q hq => h q (by simp [hq])]
    simp

theorem shrink_wf_eq {s : Spectrum} (hs : s.WF) {kw : List (PyStr × ℚ)}
    (hv : kw.forM (shrinkCheck s) = .ok ()) :
    s.shrink kw = .ok { s with
      cfg := s.cfg.map (fun p => (shrinkAxis p (askedLow kw p) (askedHigh kw p)).1)
      data := s.data.slice
        (s.cfg.map (fun p => (shrinkAxis p (askedLow kw p) (askedHigh kw p)).2)) } := by
  unfold shrink
  rw [hv]
  simp only [shrinkLoop_wf hs.axes]

theorem find_name {cfg : List SPar} (hn : (cfg.map SPar.name).Nodup) {p : SPar} (hp : p ∈ cfg) :
    cfg.find? (fun q => decide (q.name = p.name)) = some p := by
  induction cfg with
  | nil => simp at hp
  | cons a cfg ih =>
    simp only [List.map_cons, List.nodup_cons] at hn
    rcases List.mem_cons.1 hp with rfl | hp
    · simp
    · have : a.name ≠ p.name := fun h => hn.1 (h ▸ List.mem_map.2 ⟨p, hp, rfl⟩)
      simp [this, ih hn.2 hp]

theorem shrinkCheck_ok_of_good {s : Spectrum} (hn : (s.cfg.map SPar.name).Nodup)
    {e : PyStr × ℚ} (h : BoundAccepted s e) : shrinkCheck s e = .ok () := by
  obtain ⟨p, hp, ⟨he, hv⟩ | ⟨he, hv⟩⟩ := h
  · have hl : lastPart e.1 = lit "low" := by rw [he]; exact lastPart_append (by simp)
    have hd : dropRight e.1 ((lit "low").length + 1) = p.name := by
      rw [he]; exact dropRight_append p.name (lit "_low")
    unfold shrinkCheck
    simp only [hl]
    rw [hd, find_name hn hp]
    simp only [if_true]
    split
    · rfl
    · next hc =>
      have : ¬ e.2 < p.low := not_lt.2 (hv.resolve_left hc)
      simp [this, pure, Except.pure]
  · have hl : lastPart e.1 = lit "high" := by rw [he]; exact lastPart_append (by simp)
    have hd : dropRight e.1 ((lit "high").length + 1) = p.name := by
      rw [he]; exact dropRight_append p.name (lit "_high")
    unfold shrinkCheck
    simp only [hl]
    rw [hd, find_name hn hp]
    simp only [List.cons.injEq, Char.reduceEq, false_and, if_false, if_true]
    split
    · rfl
    · next hc =>
      have : ¬ p.high < e.2 := not_lt.2 (hv.resolve_left hc)
      simp [this, pure, Except.pure]

theorem good_of_shrinkCheck_ok {s : Spectrum} (hne : ∀ p ∈ s.cfg, p.name ≠ [])
    {e : PyStr × ℚ} (h : shrinkCheck s e = .ok ()) : BoundAccepted s e := by
  unfold shrinkCheck at h
  simp only at h
  split at h
  · cases h
  · next p hp =>
    have hpm := List.mem_of_find?_eq_some hp
    have hpn : p.name = dropRight e.1 ((lastPart e.1).length + 1) := by
      simpa using List.find?_some hp
    have hsep : '_' ∈ e.1 := by
      by_contra hc
      apply hne p hpm
      rw [hpn, lastPart_of_not_mem hc]
      simp [dropRight]
    have hname : e.1 = p.name ++ '_' :: lastPart e.1 := by
      have h1 := getDim_lastPart hsep
      have h2 : p.name = getDim e.1 := by
        rw [hpn]
        conv_lhs => rw [← h1]
        have : (lastPart (getDim e.1 ++ '_' :: lastPart e.1)).length + 1 =
            ('_' :: lastPart e.1).length := by
          rw [lastPart_append (lastPart_no_sep _)]; simp
        rw [this, dropRight_append]
      rw [h2, h1]
    refine ⟨p, hpm, ?_⟩
    split at h
    · next hl =>
      left
      refine ⟨by rw [hname, hl], ?_⟩
      split at h
      · next hc => exact .inl hc
      · split at h
        · cases h
        · next hc => exact .inr (not_lt.1 hc)
    · split at h
      · next hl =>
        right
        refine ⟨by rw [hname, hl], ?_⟩
        split at h
        · next hc => exact .inl hc
        · split at h
          · cases h
          · next hc => exact .inr (not_lt.1 hc)
      · cases h

theorem lit_low_ne_high {a b : PyStr} : a ++ lit "_low" ≠ b ++ lit "_high" := by
  intro h
  have h1 := congrArg lastPart h
  have e1 : lastPart (a ++ lit "_low") = lit "low" := lastPart_append (d := a) (t := lit "low") (by simp)
  have e2 : lastPart (b ++ lit "_high") = lit "high" :=
    lastPart_append (d := b) (t := lit "high") (by simp)
  rw [e1, e2] at h1
  simp at h1

/-- In-range bounds pass the validation. -/
theorem valid_of_asked {s : Spectrum} (hs : s.WF) {kw : List (PyStr × ℚ)} (hk : IsDict kw)
    (hb : BoundKeys s kw)
    (h : ∀ p ∈ s.cfg, p.low ≤ askedLow kw p ∧ askedHigh kw p ≤ p.high) :
    kw.forM (shrinkCheck s) = .ok () := by
  rw [forM_except_ok]
  intro e he
  refine shrinkCheck_ok_of_good hs.names ?_
  obtain ⟨p, hp, hkey⟩ := hb e he
  refine ⟨p, hp, ?_⟩
  obtain ⟨h1, h2⟩ := h p hp
  rcases hkey with hkey | hkey
  · left
    refine ⟨hkey, .inr ?_⟩
    have : askedLow kw p = e.2 := by
      unfold askedLow
      rw [← hkey, (assoc_eq_some_iff hk).2 (show (e.1, e.2) ∈ kw from he)]; rfl
    rw [← this]; exact h1
  · right
    refine ⟨hkey, .inr ?_⟩
    have : askedHigh kw p = e.2 := by
      unfold askedHigh
      rw [← hkey, (assoc_eq_some_iff hk).2 (show (e.1, e.2) ∈ kw from he)]; rfl
    rw [← this]; exact h2

/-- Slicing with bounds in range. -/
theorem isSlice_of_bounds {s t : Spectrum} (hs : s.WF) {rs : List (ℕ × ℕ)}
    (hr : List.Forall₂ (fun (p : SPar) (r : ℕ × ℕ) => r.1 ≤ r.2 ∧ (r.2 : ℤ) ≤ p.bins) s.cfg rs)
    (ht : t.data = s.data.slice (rs.map (fun r => ((r.1 : ℤ), (r.2 : ℤ))))) : IsSlice s rs t := by
  have hse : List.zipWith (fun n (p : ℤ × ℤ) => NdArray.sliceBounds n p.1 p.2) s.data.shape
      (rs.map (fun r => ((r.1 : ℤ), (r.2 : ℤ)))) = rs.map (fun r => (r.1, r.2 - r.1)) := by
    have hsh := hs.shape
    revert hr hsh
    generalize s.cfg = cfg
    generalize s.data.shape = shape
    intro hr hsh
    clear * - hr hsh
    induction hr generalizing shape with
    | nil => simp
    | cons h1 _ ih =>
      cases shape with
      | nil => simp at hsh
      | cons n shape =>
        simp only [List.map_cons, List.cons.injEq] at hsh
        simp only [List.map_cons, List.zipWith_cons_cons, ih _ hsh.2]
        congr 1
        rw [sliceBounds_of_le (by omega) (by omega) (by omega)]
        simp
  unfold IsSlice
  rw [ht]
  unfold NdArray.slice
  simp only [hse, List.map_map]
  refine ⟨rfl, fun idx _ => ?_⟩
  rw [List.zipWith_map_left]

/-- Sub-sums of non-negative data. -/
theorem slice_sum_le (a : NdArray ℚ) (h : ∀ idx, InB a.shape idx → 0 ≤ a.get idx)
    (b : List (ℤ × ℤ)) (hl : b.length = a.shape.length) :
    0 ≤ (a.slice b).sum ∧ (a.slice b).sum ≤ a.sum := by
  have hse : ∀ (shape : List ℕ) (se : List (ℕ × ℕ)) (f : List ℕ → ℚ),
      (∀ idx, InB shape idx → 0 ≤ f idx) →
      List.Forall₂ (fun n (p : ℕ × ℕ) => p.1 + p.2 ≤ n) shape se →
      0 ≤ sumIdx (se.map Prod.snd)
        (fun idx => f (List.zipWith (fun (p : ℕ × ℕ) i => p.1 + i) se idx)) ∧
      sumIdx (se.map Prod.snd)
        (fun idx => f (List.zipWith (fun (p : ℕ × ℕ) i => p.1 + i) se idx)) ≤ sumIdx shape f := by
    intro shape se f hf h2
    induction h2 generalizing f with
    | nil => simpa using hf []
    | @cons n p shape se h1 _ ih =>
      simp only [List.map_cons, sumIdx_cons, List.zipWith_cons_cons]
      have hx : ∀ x < n, 0 ≤ sumIdx (se.map Prod.snd) (fun idx =>
          f (x :: List.zipWith (fun (p : ℕ × ℕ) i => p.1 + i) se idx)) ∧
          sumIdx (se.map Prod.snd) (fun idx =>
          f (x :: List.zipWith (fun (p : ℕ × ℕ) i => p.1 + i) se idx)) ≤
          sumIdx shape (fun idx => f (x :: idx)) := fun x hx =>
        ih (fun idx => f (x :: idx)) (fun idx hi => hf _ (by simp [hx, hi]))
      constructor
      · exact sum_nonneg fun j hj => (hx (p.1 + j) (by rw [mem_range] at hj; omega)).1
      · calc ∑ j ∈ range p.2, sumIdx (se.map Prod.snd) (fun idx =>
              f ((p.1 + j) :: List.zipWith (fun (p : ℕ × ℕ) i => p.1 + i) se idx))
            ≤ ∑ j ∈ range p.2, sumIdx shape (fun idx => f ((p.1 + j) :: idx)) :=
              sum_le_sum fun j hj => (hx (p.1 + j) (by rw [mem_range] at hj; omega)).2
          _ ≤ ∑ x ∈ range n, sumIdx shape (fun idx => f (x :: idx)) := by
              rw [← sum_image (s := range p.2) (g := fun j => p.1 + j)
                (f := fun x => sumIdx shape (fun idx => f (x :: idx)))
                (fun x _ y _ h => by simpa using h)]
              refine sum_le_sum_of_subset_of_nonneg ?_ ?_
              · intro x hx'
                simp only [mem_image, mem_range] at hx' ⊢
                obtain ⟨j, hj, rfl⟩ := hx'
                omega
              · intro x hx' _
                exact sumIdx_nonneg fun idx hi => hf _ (by simp [mem_range.1 hx', hi])
  refine hse a.shape _ a.get h ?_
  revert hl
  generalize a.shape = shape
  intro hl
  induction shape generalizing b with
  | nil => simp
  | cons n shape ih => cases b with
    | nil => simp at hl
    | cons q b =>
      simp only [List.zipWith_cons_cons]
      refine .cons ?_ (ih b (by simpa using hl))
      unfold NdArray.sliceBounds
      simp only
      split <;> split <;> omega


/-- `shrinkAxis` on an aligned axis, bounds in range and in order. -/
theorem shrinkAxis_aligned {p : SPar} (hp : p.WF) (ha : p.Aligned) {kl kh : ℚ}
    (h1 : p.low ≤ kl) (h2 : kl ≤ kh) (h3 : kh ≤ p.high) :
    ∃ r : ℕ × ℕ, r.1 ≤ r.2 ∧ (r.2 : ℤ) ≤ p.bins ∧
      shrinkAxis p kl kh = (subAxis p r, ((r.1 : ℤ), (r.2 : ℤ))) ∧
      kl - 99 / 100 * p.width ≤ p.edge r.1 ∧ p.edge r.1 < kl + 1 / 100 * p.width ∧
      kh - 1 / 100 * p.width < p.edge r.2 ∧ p.edge r.2 ≤ kh + 99 / 100 * p.width := by
  have hw := hp.width_pos
  obtain ⟨a, hka⟩ : ∃ a, kl = p.low + a * p.width := ⟨(kl - p.low) / p.width, by field_simp; ring⟩
  obtain ⟨b, hkb⟩ : ∃ b, kh = p.low + b * p.width := ⟨(kh - p.low) / p.width, by field_simp; ring⟩
  obtain ⟨p', i, j, h, hn, hb, hh, hlo, hhi⟩ := shrinkAxis_spec hp h1 a b hka hkb
  have ha0 : 0 ≤ a := by
    by_contra hc
    have := mul_neg_of_neg_of_pos (not_le.1 hc) hw
    linarith
  have hab : a ≤ b := by
    by_contra hc
    have := mul_lt_mul_of_pos_right (not_le.1 hc) hw
    linarith
  have hbn : b ≤ p.bins := by
    by_contra hc
    have := mul_lt_mul_of_pos_right (not_le.1 hc) hw
    rw [hp.high_eq] at h3
    linarith
  simp only [round_aligned hp ha] at hlo hhi hh
  simp only [SPar.edge_eq] at hlo hhi hh
  have fl := Int.floor_le a
  have fl' := Int.lt_floor_add_one a
  have ce := Int.le_ceil b
  have ce' := Int.ceil_lt_add_one b
  have f0 : 0 ≤ ⌊a⌋ := Int.floor_nonneg.2 ha0
  have cb : ⌈b⌉ ≤ p.bins := Int.ceil_le.2 hbn
  -- divide the comparisons by the width
  have hlo' : (i = ⌊a⌋ ∧ a - ⌊a⌋ ≤ 99 / 100 ∧ p'.low = p.low + i * p.width) ∨
      (i = ⌊a⌋ + 1 ∧ 99 / 100 < a - ⌊a⌋ ∧ p'.low = p.low + i * p.width) := by
    rcases hlo with ⟨e1, e2, e3⟩ | ⟨e1, e2, e3⟩
    · refine .inl ⟨e1, ?_, e2⟩
      by_contra hc
      have := mul_lt_mul_of_pos_right (not_le.1 hc) hw
      rw [hka] at e3; linarith
    · refine .inr ⟨e1, ?_, e2⟩
      by_contra hc
      have := mul_le_mul_of_nonneg_right (not_lt.1 hc) hw.le
      rw [hka] at e3; linarith
  have hhi' : (j = ⌈b⌉ ∧ ⌈b⌉ - b ≤ 99 / 100) ∨ (j = ⌈b⌉ - 1 ∧ 99 / 100 < ⌈b⌉ - b) := by
    rcases hhi with ⟨e1, e3⟩ | ⟨e1, e3⟩
    · refine .inl ⟨e1, ?_⟩
      by_contra hc
      have := mul_lt_mul_of_pos_right (not_le.1 hc) hw
      rw [hkb] at e3; linarith
    · refine .inr ⟨e1, ?_⟩
      by_contra hc
      have := mul_le_mul_of_nonneg_right (not_lt.1 hc) hw.le
      rw [hkb] at e3; linarith
  clear hlo hhi
  have hi0 : 0 ≤ i := by rcases hlo' with ⟨e, -⟩ | ⟨e, -⟩ <;> omega
  have hjb : j ≤ p.bins := by rcases hhi' with ⟨e, -⟩ | ⟨e, -⟩ <;> omega
  have hij : i ≤ j := by
    rcases hlo' with ⟨e1, d1, -⟩ | ⟨e1, d1, -⟩ <;> rcases hhi' with ⟨e2, d2⟩ | ⟨e2, d2⟩ <;>
      rw [e1, e2]
    · have : (⌊a⌋ : ℚ) ≤ ⌈b⌉ := by linarith
      exact_mod_cast this
    · have : (⌊a⌋ : ℚ) < ((⌈b⌉ - 1 : ℤ) : ℚ) + 1 := by push_cast; linarith
      have : ⌊a⌋ < (⌈b⌉ - 1) + 1 := by exact_mod_cast this
      omega
    · have : (⌊a⌋ : ℚ) < ⌈b⌉ := by linarith
      have : ⌊a⌋ < ⌈b⌉ := by exact_mod_cast this
      omega
    · have : ((⌊a⌋ + 1 : ℤ) : ℚ) < ((⌈b⌉ - 1 : ℤ) : ℚ) + 1 := by push_cast; linarith
      have : ⌊a⌋ + 1 < (⌈b⌉ - 1) + 1 := by exact_mod_cast this
      omega
  have hlow : p'.low = p.edge i := by
    rcases hlo' with ⟨-, -, e⟩ | ⟨-, -, e⟩ <;> rw [e, SPar.edge_eq]
  have hhigh : p'.high = p.edge j := by rw [hh, SPar.edge_eq]
  have hi1 : a - 99 / 100 ≤ i ∧ (i : ℚ) < a + 1 / 100 := by
    rcases hlo' with ⟨e1, d1, -⟩ | ⟨e1, d1, -⟩ <;> rw [e1] <;> push_cast <;>
      constructor <;> linarith
  have hj1 : b - 1 / 100 < j ∧ (j : ℚ) ≤ b + 99 / 100 := by
    rcases hhi' with ⟨e1, d1⟩ | ⟨e1, d1⟩ <;> rw [e1] <;> push_cast <;> constructor <;> linarith
  refine ⟨(i.toNat, j.toNat), by simp only; omega, by simp only; omega, ?_, ?_⟩
  · rw [h]
    have e1 : ((i.toNat : ℕ) : ℤ) = i := by omega
    have e2 : ((j.toNat : ℕ) : ℤ) = j := by omega
    simp only [subAxis, e1, e2]
    cases p'
    simp_all
  · have e1 : ((i.toNat : ℕ) : ℤ) = i := by omega
    have e2 : ((j.toNat : ℕ) : ℤ) = j := by omega
    simp only [e1, e2, SPar.edge_eq]
    rw [hka, hkb]
    have m1 := mul_le_mul_of_nonneg_right hi1.1 hw.le
    have m2 := mul_lt_mul_of_pos_right hi1.2 hw
    have m3 := mul_lt_mul_of_pos_right hj1.1 hw
    have m4 := mul_le_mul_of_nonneg_right hj1.2 hw.le
    refine ⟨?_, ?_, ?_, ?_⟩ <;> linarith

/-- On any axis, bounds in range more than two bins apart keep a proper axis. -/
theorem shrinkAxis_wide {p : SPar} (hp : p.WF) {kl kh : ℚ}
    (h1 : p.low ≤ kl) (h2 : kl + 2 * p.width < kh) (h3 : kh ≤ p.high) :
    ∃ p' : SPar, ∃ r : ℕ × ℕ, shrinkAxis p kl kh = (p', ((r.1 : ℤ), (r.2 : ℤ))) ∧
      p'.WF ∧ p'.name = p.name ∧ r.1 < r.2 ∧ (r.2 : ℤ) ≤ p.bins ∧ p'.bins = (r.2 : ℤ) - r.1 := by
  have hw := hp.width_pos
  obtain ⟨a, hka⟩ : ∃ a, kl = p.low + a * p.width := ⟨(kl - p.low) / p.width, by field_simp; ring⟩
  obtain ⟨b, hkb⟩ : ∃ b, kh = p.low + b * p.width := ⟨(kh - p.low) / p.width, by field_simp; ring⟩
  obtain ⟨p', i, j, h, hn, hb, hh, hlo, hhi⟩ := shrinkAxis_spec hp h1 a b hka hkb
  have ha0 : 0 ≤ a := by
    by_contra hc
    have := mul_neg_of_neg_of_pos (not_le.1 hc) hw
    linarith
  have hab : a + 2 < b := by
    by_contra hc
    have := mul_le_mul_of_nonneg_right (not_lt.1 hc) hw.le
    linarith
  have hbn : b ≤ p.bins := by
    by_contra hc
    have := mul_lt_mul_of_pos_right (not_le.1 hc) hw
    rw [hp.high_eq] at h3
    linarith
  have fl := Int.floor_le a
  have ce := Int.le_ceil b
  have f0 : 0 ≤ ⌊a⌋ := Int.floor_nonneg.2 ha0
  have cb : ⌈b⌉ ≤ p.bins := Int.ceil_le.2 hbn
  have hfc : ⌊a⌋ + 2 < ⌈b⌉ := by
    have : (⌊a⌋ : ℚ) + 2 < ⌈b⌉ := by linarith
    exact_mod_cast this
  have hi0 : 0 ≤ i ∧ i ≤ ⌊a⌋ + 1 := by rcases hlo with ⟨e, -⟩ | ⟨e, -⟩ <;> omega
  have hjb : j ≤ p.bins ∧ ⌈b⌉ - 1 ≤ j := by rcases hhi with ⟨e, -⟩ | ⟨e, -⟩ <;> omega
  have hij : i < j := by omega
  have e1 : ((i.toNat : ℕ) : ℤ) = i := by omega
  have e2 : ((j.toNat : ℕ) : ℤ) = j := by omega
  refine ⟨p', (i.toNat, j.toNat), by simp only [h, e1, e2], ⟨by omega, ?_⟩, hn, by simp only; omega,
    by simp only; omega, by simp only; omega⟩
  have hr := round_edges hp hij
  rw [hh]
  rcases hlo with ⟨-, e, -⟩ | ⟨-, e, -⟩
  · rw [e]; exact hr
  · rw [e]
    have h4 := (abs_le.1 (round_close hp (p.edge j))).1
    have h5 : p.edge i + p.width ≤ p.edge j := by
      simp only [SPar.edge_eq]
      have : (i : ℚ) + 1 ≤ j := by exact_mod_cast hij
      have := mul_le_mul_of_nonneg_right this hw.le
      linarith
    linarith

theorem subAxis_wf {p : SPar} (hp : p.WF) {r : ℕ × ℕ} (h : r.1 < r.2) : (subAxis p r).WF := by
  have hw := hp.width_pos
  refine ⟨by simp only [subAxis]; omega, ?_⟩
  simp only [subAxis, SPar.edge_eq]
  have : ((r.1 : ℤ) : ℚ) < ((r.2 : ℤ) : ℚ) := by exact_mod_cast h
  have := mul_lt_mul_of_pos_right this hw
  linarith

theorem subAxis_width {p : SPar} {r : ℕ × ℕ} (h : r.1 < r.2) :
    (subAxis p r).width = p.width := by
  have h1 : ((r.1 : ℤ) : ℚ) < ((r.2 : ℤ) : ℚ) := by exact_mod_cast h
  have h2 : ((r.2 : ℤ) : ℚ) - ((r.1 : ℤ) : ℚ) ≠ 0 := by linarith
  have : (subAxis p r).width = (p.edge r.2 - p.edge r.1) / (((r.2 : ℤ) - (r.1 : ℤ) : ℤ) : ℚ) := rfl
  rw [this]
  simp only [SPar.edge_eq]
  push_cast at h2 ⊢
  field_simp
  ring

theorem subAxis_edge {p : SPar} {r : ℕ × ℕ} (h : r.1 < r.2) (i : ℤ) :
    (subAxis p r).edge i = p.edge (r.1 + i) := by
  have h1 : (subAxis p r).edge i = p.edge r.1 + i * (subAxis p r).width := rfl
  rw [h1, subAxis_width h]
  simp only [SPar.edge_eq]
  push_cast; ring

theorem subAxis_aligned {p : SPar} (ha : p.Aligned) {r : ℕ × ℕ} (h : r.1 < r.2) :
    (subAxis p r).Aligned := by
  obtain ⟨m, hm⟩ := ha
  refine ⟨m + r.1, ?_⟩
  change p.edge r.1 = _ * (subAxis p r).width
  rw [subAxis_width h, SPar.edge_eq]
  have hm' : p.low = m * p.width := hm
  rw [hm']; push_cast; ring

end Verif
