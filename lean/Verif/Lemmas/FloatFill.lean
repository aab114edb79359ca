import Verif.Lemmas.Float
import Verif.Lemmas.Fill

/-! # Lemmas about filling in floating point arithmetic -/

namespace Verif

namespace Rounding

variable (R : Rounding)

theorem rnd_zero : R.rnd 0 = 0 := by
  have := R.int 0 (by simp)
  simpa using this

theorem rnd_nat {n : ℕ} (h : n ≤ R.big) : R.rnd n = n := by
  have := R.int n (by simpa using h)
  simpa using this

theorem rnd_nonneg {x : ℚ} (h : 0 ≤ x) : 0 ≤ R.rnd x := by
  rw [← R.rnd_zero]
  exact R.mono h

theorem rnd_bounds {x : ℚ} (h : 0 ≤ x) : (1 - R.u) * x ≤ R.rnd x ∧ R.rnd x ≤ (1 + R.u) * x := by
  have := R.rel x
  rw [abs_of_nonneg h, abs_le] at this
  constructor <;> linarith [this.1, this.2]

theorem u_nonneg : 0 ≤ R.u := by
  have := R.rel 1
  rw [abs_one, mul_one] at this
  exact (abs_nonneg _).trans this

theorem pyInt_nonneg {x : ℚ} (h : 0 ≤ x) : pyInt x = ⌊x⌋ := by
  unfold pyInt
  rw [if_pos h]

/-- Position in units of bins, exactly and as computed. -/
theorem fill_position {p : SPar} (hp : p.WF) (hu : R.u ≤ 1 / 16) {x : ℚ} (h1 : p.low ≤ x) :
    let t := (x - p.low) / (p.high - p.low) * p.bins
    let r := R.mul (R.div (R.sub x p.low) (R.sub p.high p.low)) p.bins
    0 ≤ r ∧ (1 - 5 * R.u) * t ≤ r ∧ r ≤ (1 + 5 * R.u) * t := by
  have hu0 := R.u_nonneg
  have hA : 0 ≤ x - p.low := by linarith
  have hD : 0 < p.high - p.low := by linarith [hp.2]
  have hn : (0 : ℚ) < p.bins := by exact_mod_cast hp.1
  unfold mul div sub
  dsimp only
  set A := x - p.low
  set D := p.high - p.low
  set n : ℚ := (p.bins : ℚ)
  obtain ⟨a1, a2⟩ := R.rnd_bounds hA
  obtain ⟨d1, d2⟩ := R.rnd_bounds hD.le
  have ha := R.rnd_nonneg hA
  have hd : 0 < R.rnd D := lt_of_lt_of_le (by nlinarith) d1
  obtain ⟨q1, q2⟩ := R.rnd_bounds (x := R.rnd A / R.rnd D) (by positivity)
  have hq := R.rnd_nonneg (x := R.rnd A / R.rnd D) (by positivity)
  obtain ⟨r1, r2⟩ := R.rnd_bounds (x := R.rnd (R.rnd A / R.rnd D) * n) (by positivity)
  have hr := R.rnd_nonneg (x := R.rnd (R.rnd A / R.rnd D) * n) (by positivity)
  refine ⟨hr, ?_, ?_⟩
  · have h3 : (1 - 5 * R.u) * (1 + R.u) * (A / D) ≤ (1 - R.u) ^ 2 * (R.rnd A / R.rnd D) := by
      have e1 : (1 - R.u) * A / ((1 + R.u) * D) ≤ R.rnd A / R.rnd D := by
        gcongr
      have e2 : (1 - 5 * R.u) * (1 + R.u) * (A / D) ≤ (1 - R.u) ^ 2 * ((1 - R.u) * A / ((1 + R.u) * D)) := by
        have : (1 - R.u) ^ 2 * ((1 - R.u) * A / ((1 + R.u) * D)) =
            ((1 - R.u) ^ 3 / (1 + R.u)) * (A / D) := by
          field_simp
        rw [this]
        gcongr
        rw [le_div_iff₀ (by linarith)]
        nlinarith [mul_nonneg hu0 hu0, mul_nonneg (mul_nonneg hu0 hu0) hu0]
      refine e2.trans ?_
      gcongr
    have hAD : 0 ≤ A / D := by positivity
    have h4 : (1 - 5 * R.u) * (A / D) ≤ (1 - 5 * R.u) * (1 + R.u) * (A / D) := by
      gcongr
      nlinarith
    calc (1 - 5 * R.u) * (A / D * n) = (1 - 5 * R.u) * (A / D) * n := by ring
      _ ≤ (1 - R.u) ^ 2 * (R.rnd A / R.rnd D) * n :=
          mul_le_mul_of_nonneg_right (h4.trans h3) hn.le
      _ = (1 - R.u) * ((1 - R.u) * (R.rnd A / R.rnd D) * n) := by ring
      _ ≤ (1 - R.u) * (R.rnd (R.rnd A / R.rnd D) * n) := by
          gcongr
          linarith
      _ ≤ _ := r1
  · have e1 : R.rnd A / R.rnd D ≤ (1 + R.u) * A / ((1 - R.u) * D) := by
      gcongr
      nlinarith
    have e2 : (1 + R.u) ^ 2 * ((1 + R.u) * A / ((1 - R.u) * D)) ≤ (1 + 5 * R.u) * (A / D) := by
      have h1u : 0 < 1 - R.u := by linarith
      have : (1 + R.u) ^ 2 * ((1 + R.u) * A / ((1 - R.u) * D)) =
          ((1 + R.u) ^ 3 / (1 - R.u)) * (A / D) := by
        field_simp
      rw [this]
      gcongr
      rw [div_le_iff₀ h1u]
      nlinarith [mul_nonneg hu0 hu0, mul_nonneg (mul_nonneg hu0 hu0) hu0,
        mul_nonneg hu0 (sub_nonneg.2 hu), mul_nonneg (mul_nonneg hu0 hu0) (sub_nonneg.2 hu)]
    calc R.rnd (R.rnd (R.rnd A / R.rnd D) * n) ≤ (1 + R.u) * (R.rnd (R.rnd A / R.rnd D) * n) := r2
      _ ≤ (1 + R.u) * ((1 + R.u) * (R.rnd A / R.rnd D) * n) := by gcongr
      _ = (1 + R.u) ^ 2 * (R.rnd A / R.rnd D) * n := by ring
      _ ≤ (1 + R.u) ^ 2 * ((1 + R.u) * A / ((1 - R.u) * D)) * n := by gcongr
      _ ≤ (1 + 5 * R.u) * (A / D) * n := by gcongr
      _ = _ := by ring

theorem sub_mono {a b c : ℚ} (h : a ≤ b) : R.sub a c ≤ R.sub b c := R.mono (by linarith)

theorem mul_mono {a b c : ℚ} (hc : 0 ≤ c) (h : a ≤ b) : R.mul a c ≤ R.mul b c :=
  R.mono (mul_le_mul_of_nonneg_right h hc)

theorem div_mono {a b c : ℚ} (hc : 0 ≤ c) (h : a ≤ b) : R.div a c ≤ R.div b c :=
  R.mono (div_le_div_of_nonneg_right h hc)

theorem fillBin_spec {p : SPar} (hp : p.WF) (hu : R.u ≤ 1 / 16) (hb : p.bins.toNat ≤ R.big) :
    R.fillBin p p.low = 0 ∧
    (∀ x y, p.low ≤ x → x ≤ y → y < p.high →
      0 ≤ R.fillBin p x ∧ R.fillBin p x ≤ R.fillBin p y ∧ R.fillBin p y ≤ p.bins) ∧
    ∀ x, p.low ≤ x → x < p.high →
      p.edge (R.fillBin p x) - 5 * R.u * (p.high - p.low) ≤ x ∧
      x < p.edge (R.fillBin p x + 1) + 5 * R.u * (p.high - p.low) := by
  have hu0 := R.u_nonneg
  have hD : 0 < p.high - p.low := by linarith [hp.2]
  have hn : (0 : ℚ) < p.bins := by exact_mod_cast hp.1
  have hd : 0 < R.sub p.high p.low := by
    have := (R.rnd_bounds hD.le).1
    exact lt_of_lt_of_le (by nlinarith) this
  have hbins : R.rnd p.bins = p.bins := R.int _ (by
    have := hp.1
    omega)
  have h1 : R.rnd 1 = 1 := by
    have := R.int 1 (by
      have := hp.1
      simp
      omega)
    simpa using this
  have hnn : ∀ x, p.low ≤ x →
      R.fillBin p x = ⌊R.mul (R.div (R.sub x p.low) (R.sub p.high p.low)) p.bins⌋ := by
    intro x hx
    exact pyInt_nonneg (R.fill_position hp hu hx).1
  refine ⟨?_, ?_, ?_⟩
  · rw [hnn _ le_rfl]
    simp [sub, div, mul, R.rnd_zero]
  · intro x y hx hxy hy
    rw [hnn x hx, hnn y (hx.trans hxy)]
    refine ⟨Int.floor_nonneg.2 (R.fill_position hp hu hx).1, Int.floor_mono ?_, ?_⟩
    · exact R.mul_mono hn.le (R.div_mono hd.le (R.sub_mono hxy))
    · have a1 : R.sub y p.low ≤ R.sub p.high p.low := R.sub_mono hy.le
      have a2 : R.div (R.sub y p.low) (R.sub p.high p.low) ≤ 1 := by
        rw [← h1]
        exact R.mono ((div_le_one hd).2 a1)
      have a3 : R.mul (R.div (R.sub y p.low) (R.sub p.high p.low)) p.bins ≤ p.bins := by
        conv_rhs => rw [← hbins]
        exact R.mono (by nlinarith)
      have : (⌊R.mul (R.div (R.sub y p.low) (R.sub p.high p.low)) p.bins⌋ : ℚ) ≤ p.bins :=
        (Int.floor_le _).trans a3
      exact_mod_cast this
  · intro x hx hxh
    obtain ⟨-, c1, c2⟩ := R.fill_position hp hu hx
    rw [hnn x hx]
    set r := R.mul (R.div (R.sub x p.low) (R.sub p.high p.low)) p.bins
    have f1 := Int.floor_le r
    have f2 := Int.lt_floor_add_one r
    have ht : x = p.low + (x - p.low) / (p.high - p.low) * p.bins * ((p.high - p.low) / p.bins) := by
      field_simp
      ring
    have ht1 : (x - p.low) / (p.high - p.low) * p.bins ≤ p.bins := by
      have : (x - p.low) / (p.high - p.low) ≤ 1 := (div_le_one hD).2 (by linarith)
      nlinarith
    have hw : 0 < (p.high - p.low) / p.bins := by positivity
    have hDw : p.high - p.low = p.bins * ((p.high - p.low) / p.bins) := by field_simp
    unfold SPar.edge
    set w := (p.high - p.low) / p.bins
    set t := (x - p.low) / (p.high - p.low) * p.bins
    rw [hDw]
    have hut : R.u * t ≤ R.u * p.bins := by gcongr
    constructor
    · have : ((⌊r⌋ : ℚ) - 5 * R.u * p.bins) * w ≤ t * w := by
        gcongr
        linarith
      linarith
    · have : t * w < ((⌊r⌋ : ℚ) + 1 + 5 * R.u * p.bins) * w := by
        gcongr
        linarith
      push_cast
      linarith

/-- What a fill of a point in range does. -/
theorem fill_of_inRange {s : Spectrum} (hs : s.WF) {kw : List (PyStr × ℚ)} (hk : IsDict kw)
    (h : InRange s kw) (hu : R.u ≤ 1 / 16) (hb : ∀ p ∈ s.cfg, p.bins.toNat ≤ R.big) (w : ℚ) :
    ∃ idx : List ℕ, List.Forall₂ (fun p (i : ℕ) => ∃ x, (p.name, x) ∈ kw ∧ p.low ≤ x ∧ x < p.high ∧
        R.fillBin p x = i) s.cfg idx ∧
      R.fill s w kw = if InB s.data.shape idx then .ok { s with data := ⟨s.data.shape,
            fun i => if i = idx then R.rnd (s.data.get i + w) else s.data.get i⟩ }
        else .fail s .indexError := by
  obtain ⟨hn, hr⟩ := h
  have h1 : kw.any (fun e => decide (e.1 ∉ s.pars)) = false := by
    simp only [List.any_eq_false, decide_eq_true_eq, not_not]
    intro e he
    obtain ⟨p, hp, hpe⟩ := hn e he
    exact List.mem_map.2 ⟨p, hp, hpe⟩
  have h2 : s.cfg.mapM (fun p => assoc kw p.name) ≠ none := by
    rw [Ne, mapM_option_eq_none]
    rintro ⟨p, hp, hpn⟩
    obtain ⟨x, hx, _⟩ := hr p hp
    exact assoc_eq_none_iff.1 hpn x hx
  obtain ⟨xs, hxs⟩ := Option.ne_none_iff_exists'.1 h2
  have hx2 := mapM_option_eq_some.1 hxs
  have hboth : List.Forall₂ (fun (p : SPar) x =>
      (p.name, x) ∈ kw ∧ p.low ≤ x ∧ x < p.high ∧ 0 ≤ R.fillBin p x) s.cfg xs := by
    have hax := hs.axes
    clear hxs h1 h2
    revert hr hx2 hax hb
    generalize s.cfg = cfg
    intro hb hr hx2 hax
    induction hx2 with
    | nil => exact .nil
    | cons a _ ih =>
      refine .cons ?_ (ih (fun p hp => hb p (by simp [hp])) (fun p hp => hr p (by simp [hp]))
        (fun p hp => hax p (by simp [hp])))
      obtain ⟨y, hy, hy'⟩ := hr _ (List.mem_cons_self ..)
      have hbb := (assoc_eq_some_iff hk).2 hy
      rw [a] at hbb; cases hbb
      exact ⟨hy, hy'.1, hy'.2, ((R.fillBin_spec (hax _ (by simp)) hu (hb _ (by simp))).2.1 _ _
        hy'.1 le_rfl hy'.2).1⟩
  have hcell : List.Forall₂ (fun p (i : ℕ) => ∃ x, (p.name, x) ∈ kw ∧ p.low ≤ x ∧ x < p.high ∧
      R.fillBin p x = i) s.cfg ((List.zipWith R.fillBin s.cfg xs).map Int.toNat) := by
    clear hx2 hxs h1 h2 hr hb
    revert hboth
    generalize s.cfg = cfg
    intro hboth
    induction hboth with
    | nil => exact .nil
    | cons a _ ih => exact .cons ⟨_, a.1, a.2.1, a.2.2.1, (Int.toNat_of_nonneg a.2.2.2).symm⟩ ih
  have hpos : ((List.zipWith R.fillBin s.cfg xs).all (fun b => decide (0 ≤ b))) = true := by
    clear hx2 hxs h1 h2 hr hcell hb
    revert hboth
    generalize s.cfg = cfg
    intro hboth
    induction hboth with
    | nil => rfl
    | cons a _ ih =>
      simp only [List.zipWith_cons_cons, List.all_cons, Bool.and_eq_true, decide_eq_true_eq]
      exact ⟨a.2.2.2, ih⟩
  refine ⟨_, hcell, ?_⟩
  unfold fill
  rw [if_neg (by rw [h1]; simp)]
  simp only [hxs]
  rw [if_pos (forall₂_zip_all (hboth.imp fun _ _ h => ⟨h.2.1, h.2.2.1⟩))]
  by_cases hi : InB s.data.shape ((List.zipWith R.fillBin s.cfg xs).map Int.toNat)
  · rw [if_pos ⟨hpos, hi⟩, if_pos hi]
    rfl
  · rw [if_neg (fun h => hi h.2), if_neg hi]

theorem fill_of_not_inRange {s : Spectrum} {kw : List (PyStr × ℚ)} (hk : IsDict kw)
    (h : ¬ InRange s kw) (w : ℚ) : ∃ e, R.fill s w kw = .fail s e := by
  obtain ⟨e, he⟩ := Verif.fill_of_not_inRange hk h w
  refine ⟨e, ?_⟩
  unfold fill
  unfold Spectrum.fill at he
  by_cases h1 : kw.any (fun e => decide (e.1 ∉ s.pars)) = true
  · rw [if_pos h1] at he ⊢
    exact he
  · rw [if_neg h1] at he ⊢
    cases hm : s.cfg.mapM (fun p => assoc kw p.name) with
    | none => rw [hm] at he; exact he
    | some xs =>
      rw [hm] at he
      dsimp only at he ⊢
      by_cases h2 : ((s.cfg.zip xs).all fun e => decide (e.1.low ≤ e.2 ∧ e.2 < e.1.high)) = true
      · exfalso
        apply h
        have hx2 := mapM_option_eq_some.1 hm
        have hr := zip_all_forall₂ hx2.length_eq h2
        refine ⟨?_, ?_⟩
        · intro e he
          have : e.1 ∈ s.pars := by
            simp only [List.any_eq_true, decide_eq_true_eq, not_exists, not_and, not_not] at h1
            exact h1 e he
          obtain ⟨p, hp, hpe⟩ := List.mem_map.1 this
          exact ⟨p, hp, hpe⟩
        · clear h2 h1 hm h he
          revert hx2 hr
          generalize s.cfg = cfg
          intro hx2 hr
          induction hx2 with
          | nil => simp
          | cons a _ ih =>
            cases hr with
            | cons b1 b2 =>
              intro p hp
              rcases List.mem_cons.1 hp with rfl | hp
              · exact ⟨_, (assoc_eq_some_iff hk).1 a, b1⟩
              · exact ih b2 p hp
      · rw [if_neg h2] at he ⊢
        exact he

end Rounding

end Verif
