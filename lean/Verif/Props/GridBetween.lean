import Verif.Props.GridIndex
import Verif.Props.FitParameter
import Verif.Spec.GridBetween

/-! # C157: results looked up between the values of a grid -/

namespace Verif

theorem Spaced.getElem? {low high : ℝ} {n : ℕ} {vs : List ℝ} (h : Spaced id low high n vs) (hn : 2 ≤ n)
    {i : ℕ} (hi : i < n) : vs[i]? = some (low + (i : ℝ) * ((high - low) / ((n : ℝ) - 1))) := by
  have hlen := h.count
  have h0 : vs[0]? = some low := by rw [← List.head?_eq_getElem?]; exact h.first
  obtain ⟨d, hd⟩ : ∃ d, vs[1]? = some (low + d) :=
    ⟨vs[1]'(by omega) - low, by rw [List.getElem?_eq_getElem (by omega)]; simp⟩
  have key : ∀ i, i + 1 < n → vs[i]? = some (low + (i : ℝ) * d) ∧
      vs[i + 1]? = some (low + ((i : ℝ) + 1) * d) := by
    intro i
    induction i with
    | zero => intro _; simp [h0, hd]
    | succ i ih =>
      intro hi
      obtain ⟨h1, h2⟩ := ih (by omega)
      have h3 : vs[i + 2]? = some (vs[i + 2]'(by omega)) := List.getElem?_eq_getElem (by omega)
      have := h.step i _ _ _ h1 h2 h3
      simp only [id] at this
      refine ⟨by rw [h2]; push_cast; rfl, ?_⟩
      rw [h3]
      congr 1
      push_cast
      linarith
  have hall : ∀ i, i < n → vs[i]? = some (low + (i : ℝ) * d) := by
    intro i hi
    cases i with
    | zero => simp [h0]
    | succ i => rw [(key i hi).2]; push_cast; rfl
  have hl := h.last
  rw [List.getLast?_eq_getElem?, hlen, hall _ (by omega)] at hl
  have hl := Option.some.inj hl
  have hn' : (2 : ℝ) ≤ n := by exact_mod_cast hn
  rw [Nat.cast_sub (by omega)] at hl
  push_cast at hl
  have : d = (high - low) / ((n : ℝ) - 1) := by
    rw [eq_div_iff (by linarith)]
    linarith
  rw [← this]
  exact hall i hi

theorem getBin_away {p : FitPar} {vs : List ℝ} (hv : p.getValues = .ok vs) (h : p.low < p.high) {x : ℝ}
    (hc : ∀ y ∈ vs, ¬ CloseTo x y) :
    p.getBin x = .ok (pyIntReal ((x - p.low) / (p.high - p.low) * p.bins)) := by
  classical
  unfold FitPar.getBin
  have : vs.findIdx? (fun y => decide (npCloseReal y x)) = none := by
    rw [List.findIdx?_eq_none_iff]
    intro y hy
    have := hc y hy
    simpa [npCloseReal, CloseTo] using this
  simp only [hv, this]
  rw [if_neg (by linarith)]

theorem getBin_close {p : FitPar} {vs : List ℝ} (hv : p.getValues = .ok vs) {x : ℝ}
    (hc : ∃ y ∈ vs, CloseTo x y) :
    ∃ (i : ℕ) (y : ℝ), vs[i]? = some y ∧ CloseTo x y ∧ p.getBin x = .ok (i : ℤ) := by
  classical
  cases hf : vs.findIdx? (fun y => decide (npCloseReal y x)) with
  | none =>
    rw [List.findIdx?_eq_none_iff] at hf
    obtain ⟨y, hy, hyc⟩ := hc
    have := hf y hy
    exact absurd hyc (by simpa [npCloseReal, CloseTo] using this)
  | some i =>
    have hg := hf
    rw [List.findIdx?_eq_some_iff_getElem] at hf
    obtain ⟨hlt, hcl, _⟩ := hf
    refine ⟨i, vs[i], List.getElem?_eq_getElem hlt, by simpa [npCloseReal, CloseTo] using hcl, ?_⟩
    unfold FitPar.getBin
    simp only [hv, hg]

/-- Between the edges the formula gives the number of whole steps of one `bins`th of the range. -/
theorem getBin_floor {p : FitPar} {vs : List ℝ} (hp : p.EquallySpaced vs) {x : ℝ} (h0 : p.low ≤ x)
    (h1 : x ≤ p.high) (hc : ∀ y ∈ vs, ¬ CloseTo x y) :
    ∃ i : ℕ, i < p.bins ∧ p.getBin x = .ok (i : ℤ) ∧
      (i : ℝ) * (p.high - p.low) ≤ (x - p.low) * p.bins ∧
      (x - p.low) * p.bins < ((i : ℝ) + 1) * (p.high - p.low) := by
  obtain ⟨hv, hs, hb, hlt⟩ := hp
  have hpos : 0 < p.high - p.low := by linarith
  have hb' : (2 : ℝ) ≤ p.bins := by exact_mod_cast hb
  have hx : x < p.high := by
    refine lt_of_le_of_ne h1 ?_
    rintro rfl
    refine hc p.high (List.mem_of_getLast? hs.last) ?_
    unfold CloseTo
    rw [sub_self, abs_zero]
    positivity
  set q := (x - p.low) / (p.high - p.low) * p.bins with hq
  have hq0 : 0 ≤ q := by
    refine mul_nonneg (div_nonneg (by linarith) hpos.le) (by linarith)
  have hqe : q * (p.high - p.low) = (x - p.low) * p.bins := by
    rw [hq]; field_simp
  have hqn : q < p.bins := by
    have : q * (p.high - p.low) < p.bins * (p.high - p.low) := by
      rw [hqe, mul_comm]
      exact mul_lt_mul_of_pos_left (by linarith) (by linarith)
    exact lt_of_mul_lt_mul_right this hpos.le
  refine ⟨⌊q⌋₊, (Nat.floor_lt hq0).2 hqn, ?_, ?_, ?_⟩
  · rw [getBin_away hv hlt hc, pyIntReal, if_pos hq0]
    congr 1
    exact (Int.natCast_floor_eq_floor hq0).symm
  · rw [← hqe]
    exact mul_le_mul_of_nonneg_right (Nat.floor_le hq0) hpos.le
  · rw [← hqe]
    exact mul_lt_mul_of_pos_right (Nat.lt_floor_add_one q) hpos

theorem getBin_nextTo {p : FitPar} {vs : List ℝ} (hp : p.EquallySpaced vs) {x : ℝ} (h0 : p.low ≤ x)
    (h1 : x ≤ p.high) : ∃ i : ℕ, i < p.bins ∧ p.getBin x = .ok (i : ℤ) ∧ NextTo vs i x := by
  by_cases hc : ∃ y ∈ vs, CloseTo x y
  · obtain ⟨i, y, hi, hy, hg⟩ := getBin_close hp.1 hc
    refine ⟨i, ?_, hg, y, hi, .inl hy⟩
    rw [← hp.2.1.count]
    exact (List.getElem?_eq_some_iff.1 hi).1
  · have hc' : ∀ y ∈ vs, ¬ CloseTo x y := fun y hy h => hc ⟨y, hy, h⟩
    obtain ⟨i, hi, hg, hlo, hhi⟩ := getBin_floor hp h0 h1 hc'
    obtain ⟨hv, hs, hb, hlt⟩ := hp
    have hb' : (2 : ℝ) ≤ p.bins := by exact_mod_cast hb
    refine ⟨i, hi, hg, _, hs.getElem? hb hi, .inr ?_⟩
    intro z hz
    obtain ⟨j, hj⟩ := List.mem_iff_getElem?.1 hz
    have hjn : j < p.bins := by rw [← hs.count]; exact (List.getElem?_eq_some_iff.1 hj).1
    rw [hs.getElem? hb hjn] at hj
    obtain rfl := Option.some.inj hj
    set s := (p.high - p.low) / ((p.bins : ℝ) - 1) with hsdef
    have hs0 : 0 < s := div_pos (by linarith) (by linarith)
    have hH : p.high - p.low = ((p.bins : ℝ) - 1) * s := by
      rw [hsdef]; field_simp [show (p.bins : ℝ) - 1 ≠ 0 by intro h; linarith]
    have hxs : x - p.low ≤ ((p.bins : ℝ) - 1) * s := by linarith
    rw [hH] at hlo hhi
    constructor
    · rintro ⟨ha, hbz⟩
      have hij : (i : ℝ) < j := lt_of_mul_lt_mul_right (by linarith : (i : ℝ) * s < j * s) hs0.le
      have hij' : (i : ℝ) + 1 ≤ j := by
        have : i < j := by exact_mod_cast hij
        exact_mod_cast this
      have : ((i : ℝ) + 1) * s ≤ x - p.low := by
        have := mul_le_mul_of_nonneg_right hij' hs0.le
        linarith
      -- at least `i + 1` steps of size `s`, so at least as many of the smaller size
      have h2 := mul_le_mul_of_nonneg_right this (by linarith : (0 : ℝ) ≤ p.bins)
      nlinarith
    · rintro ⟨ha, hbz⟩
      have hij : (j : ℝ) < i := lt_of_mul_lt_mul_right (by linarith : (j : ℝ) * s < i * s) hs0.le
      have hij' : (j : ℝ) + 1 ≤ i := by
        have : j < i := by exact_mod_cast hij
        exact_mod_cast this
      have h3 : x - p.low ≤ ((i : ℝ) - 1) * s := by
        have := mul_le_mul_of_nonneg_right (by linarith : (j : ℝ) ≤ i - 1) hs0.le
        linarith
      have h2 := mul_le_mul_of_nonneg_right h3 (by linarith : (0 : ℝ) ≤ p.bins)
      have hi' : (i : ℝ) < p.bins := by exact_mod_cast hi
      nlinarith

/-- The bins of values within the ranges of equally spaced parameters. -/
theorem bins_nextTo {pars : List FitPar} {vss : List (List ℝ)}
    (hp : List.Forall₂ FitPar.EquallySpaced pars vss) {kw : List (PyStr × ℝ)} :
    ∀ {w : List ℝ}, List.Forall₂ (fun (p : FitPar) x => p.low ≤ x ∧ x ≤ p.high) pars w →
      KwFor pars w kw →
    ∃ idx : List ℕ, pars.mapM (GridSearch.kwBin kw) = .ok (idx.map (fun n : ℕ => (n : ℤ))) ∧
      InB (pars.map FitPar.bins) idx ∧ AllNextTo vss idx w := by
  induction hp with
  | nil =>
    intro w h _
    cases h
    exact ⟨[], rfl, by simp, .nil, rfl⟩
  | @cons p vs pars vss hp _ ih =>
    intro w h hk
    cases h with
    | @cons _ x _ w hx h =>
      unfold KwFor at hk
      rw [List.forall₂_cons] at hk
      obtain ⟨i, hi, hg, hn⟩ := getBin_nextTo hp hx.1 hx.2
      obtain ⟨idx, h1, h2, h3⟩ := ih h hk.2
      refine ⟨i :: idx, ?_, ?_, ?_⟩
      · have : GridSearch.kwBin kw p = .ok (i : ℤ) := by simp only [GridSearch.kwBin, hk.1, hg]
        rw [List.mapM_cons]
        simp only [this, h1, bind, Except.bind, pure, Except.pure, List.map_cons]
      · rw [List.map_cons, inB_cons_cons]
        exact ⟨hi, h2⟩
      · exact ⟨.cons hn h3.1, by simp [h3.2]⟩

/-- **C157.** On a grid of equally spaced parameters, asking for the penalty at any parameter values within
the ranges gives the penalty of a neighbouring grid point: for every parameter, its value is the asked
one up to numpy's tolerance, or no other value lies between the two. -/
theorem c157_neighbour_partial {g : GridSearch} (hr : g.Ready) {vss : List (List ℝ)}
    (hp : List.Forall₂ FitPar.EquallySpaced g.pars vss) {w : List ℝ}
    (hw : List.Forall₂ (fun (p : FitPar) x => p.low ≤ x ∧ x ≤ p.high) g.pars w)
    {kw : List (PyStr × ℝ)} (hk : KwFor g.pars w kw) :
    ∃ idx a, AllNextTo vss idx w ∧ g.getPenaltyAt kw = .ok a ∧ a.shape = [] ∧
      a.get [] = g.penalties.get idx := by
  obtain ⟨idx, h1, hb, hn⟩ := bins_nextTo hp hw hk
  have ht := take_ok (a := g.penalties) (s := g.fitShape) (c := []) (by simpa using hr.2) hb
  refine ⟨idx, ⟨[], fun j => g.penalties.get (idx ++ j)⟩, hn, ?_, rfl, by simp⟩
  unfold GridSearch.getPenaltyAt
  rw [h1]
  exact ht

/-- **C157, which neighbour.** Between two consecutive values `y` and `z`, and away from the values by more
than the tolerance, the upper one is taken exactly when its distance to `x`, in steps, is at most the
fraction of the range below `x`. It need not be the nearest. -/
theorem c157_which {p : FitPar} {vs : List ℝ} (hp : p.EquallySpaced vs) {x y z : ℝ} {i : ℕ}
    (hy : vs[i]? = some y) (hz : vs[i + 1]? = some z) (hyx : y ≤ x) (hxz : x ≤ z)
    (hc : ∀ y ∈ vs, ¬ CloseTo x y) :
    ((z - x) / (z - y) ≤ (x - p.low) / (p.high - p.low) → p.getBin x = .ok ((i : ℤ) + 1)) ∧
    ((x - p.low) / (p.high - p.low) < (z - x) / (z - y) → p.getBin x = .ok (i : ℤ)) := by
  have hp' := hp
  obtain ⟨hv, hs, hb, hlt⟩ := hp
  have hb' : (2 : ℝ) ≤ p.bins := by exact_mod_cast hb
  have hin : i + 1 < p.bins := by rw [← hs.count]; exact (List.getElem?_eq_some_iff.1 hz).1
  rw [hs.getElem? hb (by omega)] at hy hz
  have hy := Option.some.inj hy
  have hz := Option.some.inj hz
  push_cast at hz
  set s := (p.high - p.low) / ((p.bins : ℝ) - 1) with hsdef
  have hs0 : 0 < s := div_pos (by linarith) (by linarith)
  have hH : p.high - p.low = ((p.bins : ℝ) - 1) * s := by
    rw [hsdef]; field_simp [show (p.bins : ℝ) - 1 ≠ 0 by intro h; linarith]
  have hi0 : (0 : ℝ) ≤ i := by positivity
  have hin' : (i : ℝ) + 1 ≤ (p.bins : ℝ) - 1 := by
    have : ((i + 1 + 1 : ℕ) : ℝ) ≤ p.bins := by exact_mod_cast hin
    push_cast at this
    linarith
  have hlx : p.low ≤ x := by
    have : 0 ≤ (i : ℝ) * s := by positivity
    linarith
  have hxh : x ≤ p.high := by
    have := mul_le_mul_of_nonneg_right hin' hs0.le
    linarith
  have hzy : z - y = s := by linarith
  obtain ⟨b, hbn, hg, hlo, hhi⟩ := getBin_floor hp' hlx hxh hc
  have hpos : 0 < p.high - p.low := by linarith
  have hcmp : ∀ k : ℝ, k * (p.high - p.low) = (k * ((p.bins : ℝ) - 1)) * s := by
    intro k; rw [hH]; ring
  rw [hzy]
  have hbin1 : (1 : ℝ) ≤ (p.bins : ℝ) - 1 := by linarith
  -- the comparison says whether `(x - low) * bins` has reached `i + 1` ranges
  have hiff : (z - x) / s ≤ (x - p.low) / (p.high - p.low) ↔
      ((i : ℝ) + 1) * (p.high - p.low) ≤ (x - p.low) * p.bins := by
    rw [div_le_div_iff₀ hs0 hpos, hH]
    have e : z - x = ((i : ℝ) + 1) * s - (x - p.low) := by linarith
    rw [e]
    constructor
    · intro h
      have : ((i : ℝ) + 1) * (((p.bins : ℝ) - 1) * s) * s ≤ ((x - p.low) * p.bins) * s := by nlinarith
      exact le_of_mul_le_mul_right this hs0
    · intro h
      have := mul_le_mul_of_nonneg_right h hs0.le
      nlinarith
  constructor
  · intro h
    have h := hiff.1 h
    have h1 : ((i : ℝ) + 1) < b + 1 := lt_of_mul_lt_mul_right (lt_of_le_of_lt h hhi) hpos.le
    have h2 : (b : ℝ) < i + 2 := by
      have : (x - p.low) * p.bins < ((i : ℝ) + 2) * (p.high - p.low) := by
        have h3 : x - p.low ≤ ((i : ℝ) + 1) * s := by linarith
        have h4 := mul_le_mul_of_nonneg_right h3 (by linarith : (0 : ℝ) ≤ p.bins)
        have h5 : x ≠ z := by
          rintro rfl
          refine hc x ?_ ?_
          · refine List.mem_of_getElem? (i := i + 1) ?_
            rw [hs.getElem? hb hin, ← hz]; push_cast; rfl
          · unfold CloseTo; rw [sub_self, abs_zero]; positivity
        have h6 : x - p.low < ((i : ℝ) + 1) * s := by
          have := lt_of_le_of_ne hxz h5
          linarith
        have h7 := mul_lt_mul_of_pos_right h6 (by linarith : (0 : ℝ) < p.bins)
        rw [hH]
        nlinarith
      exact lt_of_mul_lt_mul_right (lt_of_le_of_lt hlo this) hpos.le
    have : b = i + 1 := by
      have h1' : i < b := by exact_mod_cast (by linarith : (i : ℝ) < b)
      have h2' : b < i + 2 := by exact_mod_cast h2
      omega
    rw [hg, this]; push_cast; rfl
  · intro h
    have h := lt_of_not_ge (fun h' => absurd (hiff.2 h') (not_le.2 h))
    have h1 : (b : ℝ) < i + 1 := lt_of_mul_lt_mul_right (lt_of_le_of_lt hlo h) hpos.le
    have h2 : (i : ℝ) < b + 1 := by
      have : (i : ℝ) * (p.high - p.low) ≤ (x - p.low) * p.bins := by
        have h3 : (i : ℝ) * s ≤ x - p.low := by linarith
        have h4 := mul_le_mul_of_nonneg_right h3 (by linarith : (0 : ℝ) ≤ p.bins)
        rw [hH]
        nlinarith
      exact lt_of_mul_lt_mul_right (lt_of_le_of_lt this hhi) hpos.le
    have : b = i := by
      have h1' : b < i + 1 := by exact_mod_cast h1
      have h2' : i < b + 1 := by exact_mod_cast h2
      omega
    rw [hg, this]

/-- The parameter with the values 0, 1, …, 10. -/
noncomputable def Ex.tenSteps : FitPar :=
  FitPar.new (lit "rate") 5 none 0 10 11

theorem Ex.tenSteps_spaced : Ex.tenSteps.EquallySpaced (npLinspace 0 10 11) := by
  refine ⟨?_, npLinspace_spaced (a := 0) (b := 10) (n := 11) (by norm_num) (by norm_num), by simp [Ex.tenSteps, FitPar.new],
    by simp [Ex.tenSteps, FitPar.new]⟩
  simp [FitPar.getValues, Ex.tenSteps, FitPar.new, FitPar.genValues]

theorem Ex.tenSteps_value {i : ℕ} (hi : i < 11) : (npLinspace 0 10 11)[i]? = some (i : ℝ) := by
  rw [npLinspace_getElem? hi]; norm_num

theorem Ex.tenSteps_away : ∀ y ∈ npLinspace 0 10 11, ¬ CloseTo (4 / 5) y := by
  intro y hy hc
  obtain ⟨j, hj⟩ := List.mem_iff_getElem?.1 hy
  have hjn : j < 11 := by
    have := (List.getElem?_eq_some_iff.1 hj).1
    rwa [length_npLinspace] at this
  rw [Ex.tenSteps_value hjn] at hj
  obtain rfl := Option.some.inj hj
  unfold CloseTo at hc
  rw [abs_le, abs_of_pos (by norm_num : (0 : ℝ) < 4 / 5)] at hc
  obtain ⟨h1, h2⟩ := hc
  have h3 : j < 1 := by exact_mod_cast (by linarith : (j : ℝ) < 1)
  have h4 : 0 < j := by exact_mod_cast (by linarith : (0 : ℝ) < j)
  omega

/-- C157: the neighbour taken need not be the nearer one: with the values 0, 1, …, 10 the value 0.8 is
looked up as 0. -/
theorem c157_nearest_negation : Ex.tenSteps.getValueAt 0 = .ok 0 ∧ Ex.tenSteps.getValueAt 1 = .ok 1 ∧
    Ex.tenSteps.getBin (4 / 5) = .ok 0 := by
  have hv := Ex.tenSteps_spaced.1
  have h0 : (npLinspace 0 10 11)[0]? = some (0 : ℝ) := by simpa using Ex.tenSteps_value (i := 0) (by omega)
  have h1 : (npLinspace 0 10 11)[0 + 1]? = some (1 : ℝ) := by
    simpa using Ex.tenSteps_value (i := 1) (by omega)
  refine ⟨by simp [FitPar.getValueAt, hv, h0, bind, Except.bind],
    by simp [FitPar.getValueAt, hv, h1, bind, Except.bind],
    (c157_which Ex.tenSteps_spaced h0 h1 (by norm_num) (by norm_num) Ex.tenSteps_away).2 ?_⟩
  norm_num [Ex.tenSteps, FitPar.new]

theorem notClose_above {p : FitPar} {vs : List ℝ} (hp : p.EquallySpaced vs) {x : ℝ} (h : p.high < x)
    (hc : ¬ CloseTo x p.high) : ∀ y ∈ vs, ¬ CloseTo x y := by
  intro y hy hcy
  refine hc ?_
  obtain ⟨_, hs, hb, hlt⟩ := hp
  have hyh : y ≤ p.high := by
    obtain ⟨j, hj⟩ := List.mem_iff_getElem?.1 hy
    have hjl := (List.getElem?_eq_some_iff.1 hj).1
    have hl := hs.last
    rw [List.getLast?_eq_getElem?] at hl
    by_cases hjj : j = vs.length - 1
    · subst hjj
      rw [hl] at hj
      exact (Option.some.inj hj).ge
    · obtain ⟨hj1, rfl⟩ := List.getElem?_eq_some_iff.1 hj
      obtain ⟨hl1, hl2⟩ := List.getElem?_eq_some_iff.1 hl
      rw [← hl2]
      exact (List.pairwise_iff_getElem.1 hs.increasing _ _ hj1 hl1 (by omega)).le
  unfold CloseTo at hcy ⊢
  rw [abs_of_nonpos (by linarith)] at hcy ⊢
  linarith

theorem notClose_below {p : FitPar} {vs : List ℝ} (hp : p.EquallySpaced vs) {x : ℝ} (h : x < p.low)
    (hc : ¬ CloseTo x p.low) : ∀ y ∈ vs, ¬ CloseTo x y := by
  intro y hy hcy
  refine hc ?_
  obtain ⟨_, hs, hb, hlt⟩ := hp
  have hyh : p.low ≤ y := by
    obtain ⟨j, hj⟩ := List.mem_iff_getElem?.1 hy
    have hjl := (List.getElem?_eq_some_iff.1 hj).1
    rw [hs.count] at hjl
    rw [hs.getElem? hb hjl] at hj
    rw [← Option.some.inj hj]
    have hb' : (2 : ℝ) ≤ p.bins := by exact_mod_cast hb
    have : 0 ≤ (j : ℝ) * ((p.high - p.low) / ((p.bins : ℝ) - 1)) :=
      mul_nonneg (by positivity) (div_nonneg (by linarith) (by linarith))
    linarith
  unfold CloseTo at hcy ⊢
  rw [abs_of_nonneg (by linarith)] at hcy ⊢
  linarith

theorem getBin_above {p : FitPar} {vs : List ℝ} (hp : p.EquallySpaced vs) {x : ℝ} (h : p.high < x)
    (hc : ¬ CloseTo x p.high) : ∃ b : ℤ, (p.bins : ℤ) ≤ b ∧ p.getBin x = .ok b := by
  refine ⟨_, ?_, getBin_away hp.1 hp.2.2.2 (notClose_above hp h hc)⟩
  have hlt := hp.2.2.2
  have hpos : 0 < p.high - p.low := by linarith
  have h1 : 1 ≤ (x - p.low) / (p.high - p.low) := by rw [le_div_iff₀ hpos]; linarith
  have h2 : (p.bins : ℝ) ≤ (x - p.low) / (p.high - p.low) * p.bins := by
    have := mul_le_mul_of_nonneg_right h1 (by positivity : (0 : ℝ) ≤ p.bins)
    linarith
  rw [pyIntReal, if_pos (le_trans (by positivity) h2), Int.le_floor]
  exact_mod_cast h2

theorem getBin_ok {p : FitPar} {vs : List ℝ} (hp : p.EquallySpaced vs) (x : ℝ) :
    ∃ b, p.getBin x = .ok b := by
  by_cases hc : ∃ y ∈ vs, CloseTo x y
  · obtain ⟨i, _, _, _, hg⟩ := getBin_close hp.1 hc
    exact ⟨_, hg⟩
  · exact ⟨_, getBin_away hp.1 hp.2.2.2 fun y hy h => hc ⟨y, hy, h⟩⟩

theorem bins_above {pars : List FitPar} {vss : List (List ℝ)}
    (hp : List.Forall₂ FitPar.EquallySpaced pars vss) {kw : List (PyStr × ℝ)} :
    ∀ {w : List ℝ}, KwFor pars w kw →
    ∃ bs, pars.mapM (GridSearch.kwBin kw) = .ok bs ∧ bs.length = pars.length ∧
      ((∃ (i : ℕ) (p : FitPar) (x : ℝ), pars[i]? = some p ∧ w[i]? = some x ∧ p.high < x ∧ ¬ CloseTo x p.high) →
        ¬ WithinTwice (pars.map FitPar.bins) bs) := by
  induction hp with
  | nil =>
    intro w _
    exact ⟨[], rfl, rfl, fun ⟨i, p, x, h, _⟩ => by simp at h⟩
  | @cons p vs pars vss hp _ ih =>
    intro w hk
    unfold KwFor at hk
    cases hk with
    | @cons _ x _ w hx hk =>
      obtain ⟨bs, h1, h2, h3⟩ := ih hk
      obtain ⟨b, hb⟩ := getBin_ok hp x
      refine ⟨b :: bs, ?_, by simp [h2], ?_⟩
      · have : GridSearch.kwBin kw p = .ok b := by simp only [GridSearch.kwBin, hx, hb]
        rw [List.mapM_cons]
        simp only [this, h1, bind, Except.bind, pure, Except.pure]
      · rintro ⟨i, q, y, hq, hy, hlt, hc⟩ hw
        unfold WithinTwice at hw
        rw [List.map_cons, List.forall₂_cons] at hw
        cases i with
        | zero =>
          simp only [List.getElem?_cons_zero, Option.some.injEq] at hq hy
          subst hq hy
          obtain ⟨b', hb', hg⟩ := getBin_above hp hlt hc
          rw [hb] at hg
          obtain rfl := Except.ok.inj hg
          omega
        | succ i =>
          simp only [List.getElem?_cons_succ] at hq hy
          exact h3 ⟨i, q, y, hq, hy, hlt, hc⟩ hw.2

/-- **C157, above the range.** On a grid of equally spaced parameters, asking for the penalty at a value
above the range of its parameter, beyond the tolerance, raises an `IndexError`. -/
theorem c157_above {g : GridSearch} (hr : g.Ready) {vss : List (List ℝ)}
    (hp : List.Forall₂ FitPar.EquallySpaced g.pars vss) {w : List ℝ} {kw : List (PyStr × ℝ)}
    (hk : KwFor g.pars w kw)
    (ha : ∃ (i : ℕ) (p : FitPar) (x : ℝ), g.pars[i]? = some p ∧ w[i]? = some x ∧ p.high < x ∧
      ¬ CloseTo x p.high) :
    g.getPenaltyAt kw = .error .indexError := by
  obtain ⟨bs, h1, h2, h3⟩ := bins_above hp hk
  have e : npIndex g.penalties.shape bs = .error .indexError := by
    rw [hr.2]
    have := npIndex_without (s := g.fitShape) (idx := bs) (by simpa [GridSearch.fitShape] using h2)
      (h3 ha) []
    rwa [List.append_nil] at this
  unfold GridSearch.getPenaltyAt
  rw [h1]
  simp only [bind, Except.bind]
  unfold NdArray.take
  rw [e]
  rfl

/-- C157 fails below the range: on a grid of one equally spaced parameter, a value below the range by `k`
parts, of as many as there are bins, is not refused but answered with the penalty of the `k`th value
counted from the upper end. -/
theorem c157_below_negation {g : GridSearch} (hr : g.Ready) {p : FitPar} {vs : List ℝ} (hg : g.pars = [p])
    (hp : p.EquallySpaced vs) {x : ℝ} (hc : ¬ CloseTo x p.low) {k : ℕ} (hk1 : 1 ≤ k) (hk : k ≤ p.bins)
    (h1 : k * (p.high - p.low) ≤ (p.low - x) * p.bins)
    (h2 : (p.low - x) * p.bins < (k + 1) * (p.high - p.low)) :
    ∃ a, g.getPenaltyAt [(p.name, x)] = .ok a ∧ a.shape = [] ∧
      a.get [] = g.penalties.get [p.bins - k] := by
  have hlt := hp.2.2.2
  have hb : (2 : ℝ) ≤ p.bins := by exact_mod_cast hp.2.2.1
  have hpos : 0 < p.high - p.low := by linarith
  have hk1' : (1 : ℝ) ≤ k := by exact_mod_cast hk1
  have hx : x < p.low := by
    by_contra hge
    have h3 : (p.low - x) * p.bins ≤ 0 := mul_nonpos_of_nonpos_of_nonneg (by linarith) (by linarith)
    have h4 : 0 < (k : ℝ) * (p.high - p.low) := mul_pos (by linarith) hpos
    linarith
  set q := (x - p.low) / (p.high - p.low) * p.bins with hq
  have hqe : q * (p.high - p.low) = (x - p.low) * p.bins := by rw [hq]; field_simp
  have hq1 : q ≤ -(k : ℝ) := by
    refine le_of_mul_le_mul_right (a := p.high - p.low) ?_ hpos
    rw [hqe]; nlinarith
  have hq2 : -(k : ℝ) - 1 < q := by
    refine lt_of_mul_lt_mul_right (a := p.high - p.low) ?_ hpos.le
    rw [hqe]; nlinarith
  have hbin : p.getBin x = .ok (-(k : ℤ)) := by
    rw [getBin_away hp.1 hlt (notClose_below hp hx hc), ← hq, pyIntReal, if_neg (by linarith)]
    congr 1
    rw [Int.ceil_eq_iff]
    push_cast
    exact ⟨hq2, hq1⟩
  have hfs : g.fitShape = [p.bins] := by simp [GridSearch.fitShape, hg]
  have hw : WithinTwice g.fitShape [-(k : ℤ)] := by
    rw [hfs]
    exact .cons (by omega) .nil
  have hfe : fromEnd g.fitShape [-(k : ℤ)] = [p.bins - k] := by
    rw [hfs]
    simp only [fromEnd, List.zipWith_cons_cons, List.zipWith_nil_left]
    rw [if_pos (by omega)]
    congr 1
    omega
  have e : npIndex g.penalties.shape [-(k : ℤ)] =
      npIndex g.penalties.shape (([p.bins - k] : List ℕ).map (fun n : ℕ => (n : ℤ))) := by
    rw [hr.2, ← hfe]
    have := npIndex_within hw []
    rwa [List.append_nil] at this
  have ht := take_ok (a := g.penalties) (s := g.fitShape) (c := []) (p := [p.bins - k])
    (by simpa using hr.2) (by rw [← hfe]; exact hw.inB)
  refine ⟨⟨[], fun j => g.penalties.get ([p.bins - k] ++ j)⟩, ?_, rfl, by simp⟩
  unfold GridSearch.getPenaltyAt
  have hkw : GridSearch.kwBin [(p.name, x)] p = .ok (-(k : ℤ)) := by
    simp [GridSearch.kwBin, assoc, hbin]
  rw [hg]
  simp only [List.mapM_cons, List.mapM_nil, hkw, bind, Except.bind, pure, Except.pure]
  rw [← ht]
  unfold NdArray.take
  rw [e]

/-- C157 fails for values that are not equally spaced, such as logarithmic ones: every value away from the grid in the lowest of `bins`
equal parts of the range is looked up as the first grid value, however many others lie between. -/
theorem c157_log_negation {p : FitPar} {vs : List ℝ}
    (hv : p.getValues = .ok vs) (hlt : p.low < p.high) {x : ℝ} (h0 : p.low ≤ x)
    (h1 : (x - p.low) * p.bins < p.high - p.low) (hc : ∀ y ∈ vs, ¬ CloseTo x y) :
    p.getBin x = .ok 0 := by
  have hpos : 0 < p.high - p.low := by linarith
  rw [getBin_away hv hlt hc]
  set q := (x - p.low) / (p.high - p.low) * p.bins with hq
  have hqe : q * (p.high - p.low) = (x - p.low) * p.bins := by rw [hq]; field_simp
  have hq0 : 0 ≤ q := mul_nonneg (div_nonneg (by linarith) hpos.le) (by positivity)
  have hq1 : q < 1 := by
    refine lt_of_mul_lt_mul_right (a := p.high - p.low) ?_ hpos.le
    rw [hqe]; linarith
  rw [pyIntReal, if_pos hq0]
  congr 1
  rw [Int.floor_eq_iff]
  push_cast
  exact ⟨hq0, by linarith⟩

/-- A grid of the values 0, 1, …, 10 asked at 3.3, which lies between 3 and 4; above it at 11; and below it
at -2, two elevenths of the range and more below. -/
example : ∃ g : GridSearch, g.Ready ∧ g.pars = [Ex.tenSteps] ∧
    List.Forall₂ FitPar.EquallySpaced g.pars [npLinspace 0 10 11] ∧
    List.Forall₂ (fun (p : FitPar) x => p.low ≤ x ∧ x ≤ p.high) g.pars [3.3] ∧
    KwFor g.pars [3.3] [(lit "rate", 3.3)] ∧ ¬ CloseTo 11 Ex.tenSteps.high ∧
    ¬ CloseTo (-2) Ex.tenSteps.low ∧
    2 * (Ex.tenSteps.high - Ex.tenSteps.low) ≤ (Ex.tenSteps.low - (-2)) * Ex.tenSteps.bins ∧
    (Ex.tenSteps.low - (-2)) * Ex.tenSteps.bins < (2 + 1) * (Ex.tenSteps.high - Ex.tenSteps.low) := by
  refine ⟨GridSearch.new [Ex.tenSteps] [4] none false, ⟨rfl, rfl⟩, rfl, .cons Ex.tenSteps_spaced .nil,
    .cons ?_ .nil, .cons (by simp [assoc, Ex.tenSteps, FitPar.new]) .nil, ?_, ?_, ?_, ?_⟩
  · norm_num [Ex.tenSteps, FitPar.new]
  · unfold CloseTo
    rw [abs_of_nonpos (by norm_num [Ex.tenSteps, FitPar.new]), abs_of_pos (by norm_num)]
    norm_num [Ex.tenSteps, FitPar.new]
  · unfold CloseTo
    rw [abs_of_nonneg (by norm_num [Ex.tenSteps, FitPar.new]), abs_of_neg (by norm_num)]
    norm_num [Ex.tenSteps, FitPar.new]
  · norm_num [Ex.tenSteps, FitPar.new]
  · norm_num [Ex.tenSteps, FitPar.new]

/-- The logarithmic values 1, 10, 100, 1000 and 10000: 1500 is looked up as 1. -/
example : ∃ p : FitPar, p.logscale = some true ∧ p.getValues = .ok [1, 10, 100, 1000, 10000] ∧
    p.low < p.high ∧ p.low ≤ 1500 ∧ (1500 - p.low) * p.bins < p.high - p.low ∧
    (∀ y ∈ [(1 : ℝ), 10, 100, 1000, 10000], ¬ CloseTo 1500 y) := by
  refine ⟨FitPar.new (lit "rate") 5 none 1 10000 5 (logscale := some true), rfl, ?_, by norm_num [FitPar.new],
    by norm_num [FitPar.new], by norm_num [FitPar.new], ?_⟩
  · have e : Real.log 10000 = 4 * Real.log 10 := by
      rw [show (10000 : ℝ) = 10 ^ 4 by norm_num, Real.log_pow]; norm_num
    have ek : ∀ k : ℕ, Real.exp (k * Real.log 10) = 10 ^ k := by
      intro k
      rw [← Real.log_pow, Real.exp_log (by positivity)]
    have e1 := ek 1
    have e2 := ek 2
    have e3 := ek 3
    have e4 := ek 4
    push_cast at e1 e2 e3 e4
    simp only [FitPar.getValues, FitPar.new, FitPar.genValues, npLinspace]
    norm_num [e, List.range_succ]
    ring_nf at e1 e2 e3 e4 ⊢
    refine ⟨?_, ?_, ?_, ?_⟩ <;> linarith
  · intro y hy
    simp only [List.mem_cons, List.not_mem_nil, or_false] at hy
    unfold CloseTo
    rw [abs_of_pos (by norm_num : (0 : ℝ) < 1500), abs_le]
    rcases hy with rfl | rfl | rfl | rfl | rfl <;> norm_num

end Verif
