import Verif.Lemmas.Whole

/-! # C142, C143: whole numbers -/

namespace Verif

open Real

/-! ### C142 -/

/-- **C142, counts.** If the number of counts or the livetime is written as a float, the activity,
the half-life and the effective mass are those of the numbers meant. -/
theorem c142_counts_partial (c : DecayConst) (s : DBIsotope) (counts livetime : PyNum)
    (n : Option ℝ) (h : counts.IsFloat ∨ livetime.IsFloat) :
    (countsToActivityNum counts livetime).map PyNum.val =
      DBIsotope.countsToActivity counts.val livetime.val ∧
    s.countsToHalfLifeNum c counts n livetime = s.countsToHalfLife c counts.val n livetime.val ∧
    s.countsToEffMassNum c counts n livetime = s.countsToEffMass c counts.val n livetime.val := by
  have h1 : (countsToActivityNum counts livetime).map PyNum.val =
      DBIsotope.countsToActivity counts.val livetime.val := by
    unfold countsToActivityNum DBIsotope.countsToActivity
    split
    · rfl
    · rw [div_float h]
      unfold realDiv
      split <;> rfl
  have h2 : ∀ m, s.countsToHalfLifeNum c counts m livetime =
      s.countsToHalfLife c counts.val m livetime.val := by
    intro m
    unfold DBIsotope.countsToHalfLifeNum DBIsotope.countsToHalfLife
    cases s.orNAtoms c m with
    | error e => rfl
    | ok k =>
      simp only [bind, Except.bind]
      split
      · rfl
      · rw [← h1]
        cases countsToActivityNum counts livetime <;> rfl
  refine ⟨h1, h2 n, ?_⟩
  unfold DBIsotope.countsToEffMassNum DBIsotope.countsToEffMass
  cases s.orNAtoms c n with
  | error e => rfl
  | ok k =>
    simp only [bind, Except.bind, h2]

/-- 31 counts in 5.0 years, the default of the livetime. -/
example : (PyNum.int 31).IsFloat ∨ (PyNum.float 5).IsFloat := .inr trivial

/-- **C142, whole counts.** If both are whole numbers, the activity is rounded down to a whole
number of decays per year. -/
theorem c142_activity_negation (counts livetime : ℤ) (hl : 0 < livetime) :
    ∃ k : ℤ, countsToActivityNum (.int counts) (.int livetime) = .ok (.int k) ∧
      k * livetime ≤ counts ∧ counts < (k + 1) * livetime ∧
      DBIsotope.countsToActivity counts livetime = .ok ((counts : ℝ) / livetime) ∧
      ((k : ℝ) = (counts : ℝ) / livetime ↔ livetime ∣ counts) := by
  have hr : (0 : ℝ) < livetime := by exact_mod_cast hl
  have hk : counts.fdiv livetime = counts / livetime := Int.fdiv_eq_ediv_of_nonneg _ hl.le
  refine ⟨counts / livetime, ?_, Int.ediv_mul_le _ hl.ne', Int.lt_ediv_add_one_mul_self _ hl, ?_, ?_⟩
  · unfold countsToActivityNum PyNum.div
    rw [if_neg (by simpa only [PyNum.val, not_le] using hr)]
    dsimp only
    rw [if_neg hl.ne', hk]
  · unfold DBIsotope.countsToActivity realDiv
    rw [if_neg (not_le.2 hr), if_neg hr.ne']
  · rw [eq_div_iff hr.ne']
    constructor
    · intro e
      have e' : counts / livetime * livetime = counts := by exact_mod_cast e
      exact ⟨counts / livetime, by rw [mul_comm]; exact e'.symm⟩
    · intro e
      exact_mod_cast Int.ediv_mul_cancel e

example : (0 : ℤ) < 2 ∧ ¬ (2 : ℤ) ∣ 31 := by decide

/-- **C142, negation.** The half-life that belongs to a whole number of counts in a whole number of
years is too long, unless the counts are a multiple of the years. If the counts are fewer than the
years the function divides by zero. -/
theorem c142_half_life_negation (c : DecayConst) (s : DBIsotope) (counts livetime : ℤ) (n : ℝ)
    (hn : 0 < n) (hl : 0 < livetime) (hc : 0 < counts) :
    ∃ t, s.countsToHalfLife c counts (some n) livetime = .ok t ∧ 0 < t ∧
      (counts < livetime →
        s.countsToHalfLifeNum c (.int counts) (some n) (.int livetime) = .error .zeroDivision) ∧
      (livetime ≤ counts →
        ∃ t', s.countsToHalfLifeNum c (.int counts) (some n) (.int livetime) = .ok t' ∧ t ≤ t' ∧
          (t' = t ↔ livetime ∣ counts)) := by
  obtain ⟨k, h1, h2, h3, h4, h5⟩ := c142_activity_negation counts livetime hl
  have hlr : (0 : ℝ) < livetime := by exact_mod_cast hl
  have hcr : (0 : ℝ) < counts := by exact_mod_cast hc
  have hlog : 0 < log 2 * n := mul_pos (log_pos one_lt_two) hn
  have ha : (0 : ℝ) < (counts : ℝ) / livetime := div_pos hcr hlr
  refine ⟨log 2 * n / ((counts : ℝ) / livetime), ?_, div_pos hlog ha, ?_, ?_⟩
  · unfold DBIsotope.countsToHalfLife DBIsotope.orNAtoms
    simp only [bind, Except.bind]
    rw [if_neg (not_le.2 hlr), h4]
    simp only [DBIsotope.activityToHalfLife, DBIsotope.orNAtoms, bind, Except.bind, realDiv,
      if_neg ha.ne']
  all_goals
    intro hlt
    have hval : ¬ (PyNum.int livetime).val ≤ 0 := not_le.2 hlr
    have hgo : s.countsToHalfLifeNum c (.int counts) (some n) (.int livetime) =
        realDiv (log 2 * n) (k : ℝ) := by
      unfold DBIsotope.countsToHalfLifeNum DBIsotope.orNAtoms
      simp only [bind, Except.bind]
      rw [if_neg hval, h1]
      simp only [DBIsotope.activityToHalfLife, DBIsotope.orNAtoms, bind, Except.bind, PyNum.val]
  · have hk : k = 0 := by nlinarith
    rw [hgo, hk]
    unfold realDiv
    rw [if_pos (by norm_num)]
  · have hk : 1 ≤ k := by nlinarith
    have hkr : (0 : ℝ) < k := by exact_mod_cast hk
    refine ⟨log 2 * n / k, ?_, ?_, ?_⟩
    · rw [hgo]; unfold realDiv; rw [if_neg hkr.ne']
    · refine div_le_div_of_nonneg_left hlog.le hkr ?_
      rw [le_div_iff₀ hlr]
      exact_mod_cast h2
    · rw [← h5, div_eq_div_iff hkr.ne' ha.ne']
      constructor
      · intro e; exact (mul_left_cancel₀ hlog.ne' e).symm
      · intro e; rw [e]

/-- 31 counts in 2 years. -/
example : (0 : ℤ) < 2 ∧ (0 : ℤ) < 31 ∧ (2 : ℤ) ≤ 31 ∧ ¬ (2 : ℤ) ∣ 31 := by decide

/-- **C142, light yields.** The light yield with which to smear again is right if one of the two is
written as a float. -/
theorem c142_light_yield_partial (own new : PyNum) (cur : Option PyNum)
    (h : new.IsFloat ∨ (own.IsFloat ∧ ∀ x ∈ cur, x.IsFloat)) :
    (calcSmearLYNum own new cur).map PyNum.val = calcSmearLY own.val new.val (cur.map PyNum.val) := by
  have key : ∀ x : PyNum, new.IsFloat ∨ x.IsFloat →
      Except.map PyNum.val (if x.val < new.val then .error .valueError
        else (new.mul x).div (x.sub new)) =
      (if x.val < new.val then .error .valueError
        else if x.val - new.val = 0 then .error .zeroDivision
        else .ok (new.val * x.val / (x.val - new.val))) := by
    intro x hx
    split
    · rfl
    · rw [div_float (.inl (by
        rcases hx with hx | hx
        · cases new with
          | int _ => exact hx.elim
          | float _ => cases x <;> exact trivial
        · cases x with
          | int _ => exact hx.elim
          | float _ => cases new <;> exact trivial)), sub_val, mul_val]
      split <;> rfl
  unfold calcSmearLYNum calcSmearLY
  cases cur with
  | none => exact key own (h.imp_right fun h => h.1)
  | some x =>
    simp only [Option.map_some]
    split
    · exact key own (h.imp_right fun h => h.1)
    · exact key x (h.imp_right fun h => h.2 x rfl)

/-- `calc_smear_ly(190., cur_ly=200)`. -/
example : (PyNum.float 190).IsFloat ∨ (newLightYield.IsFloat ∧ ∀ x ∈ some (PyNum.int 200), x.IsFloat) :=
  .inl trivial

/-- **C142, negation.** A new smearing object has the whole number 200 as light yield. Asked for the
light yield with which to smear again in order to reach the whole number `new`, it rounds the
result down. -/
theorem c142_light_yield_negation (new : ℤ) (h0 : 0 < new) (h : new < 200) :
    ∃ k : ℤ, calcSmearLYNum newLightYield (.int new) none = .ok (.int k) ∧
      k * (200 - new) ≤ new * 200 ∧ new * 200 < (k + 1) * (200 - new) ∧
      calcSmearLY 200 new none = .ok ((new : ℝ) * 200 / (200 - new)) ∧
      ((k : ℝ) = (new : ℝ) * 200 / (200 - new) ↔ 200 - new ∣ new * 200) := by
  have hp : 0 < 200 - new := by omega
  have hr : (new : ℝ) < 200 := by exact_mod_cast h
  have hr' : (0 : ℝ) < 200 - new := by linarith
  have hk : (new * 200).fdiv (200 - new) = new * 200 / (200 - new) :=
    Int.fdiv_eq_ediv_of_nonneg _ hp.le
  refine ⟨new * 200 / (200 - new), ?_, Int.ediv_mul_le _ hp.ne', Int.lt_ediv_add_one_mul_self _ hp,
    ?_, ?_⟩
  · unfold calcSmearLYNum newLightYield
    have hv : ¬ (PyNum.int 200).val < (PyNum.int new).val := by
      simp only [PyNum.val]; push_cast; linarith
    rw [if_neg hv]
    simp only [PyNum.mul, PyNum.sub, PyNum.div, if_neg hp.ne', hk]
  · unfold calcSmearLY
    simp only
    rw [if_neg (by linarith), if_neg hr'.ne']
  · rw [eq_div_iff hr'.ne']
    constructor
    · intro e
      have e' : new * 200 / (200 - new) * (200 - new) = new * 200 := by exact_mod_cast e
      exact Dvd.intro_left _ e'
    · intro e
      exact_mod_cast Int.ediv_mul_cancel e

/-- From 200 to 130 the result is 371 and not 371.4. -/
example : ¬ (200 - 130 : ℤ) ∣ 130 * 200 := by decide

/-- **C142, penalties.** The penalty term is right for both Baker-Cousins chi-squared classes, and for
the others if one of the numbers is written as a float. -/
theorem c142_penalty_partial (st : Stat) (value prior sigma : PyNum)
    (h : st = .bcChi ∨ st = .bcChiUp ∨ value.IsFloat ∨ prior.IsFloat ∨ sigma.IsFloat) :
    (st.penaltyNum value prior sigma).map PyNum.val =
      st.penalty value.val prior.val sigma.val := by
  have hsub : value.IsFloat ∨ prior.IsFloat → (value.sub prior).IsFloat := by
    rintro (h | h)
    · cases value with
      | int _ => exact h.elim
      | float _ => cases prior <;> exact trivial
    · cases prior with
      | int _ => exact h.elim
      | float _ => cases value <;> exact trivial
  have hdf := div_float (a := value.sub prior) (b := sigma.toFloat) (.inr trivial)
  have hd : st ≠ .bcChi → st ≠ .bcChiUp → (value.sub prior).div sigma =
      if sigma.val = 0 then .error .zeroDivision
      else .ok (.float ((value.sub prior).val / sigma.val)) := by
    intro h1 h2
    apply div_float
    rcases h with h | h | h | h | h
    · exact absurd h h1
    · exact absurd h h2
    · exact .inl (hsub (.inl h))
    · exact .inl (hsub (.inr h))
    · exact .inr h
  rw [toFloat_val] at hdf
  by_cases h0 : sigma.val = 0
  · rw [if_pos h0] at hdf hd
    unfold Stat.penaltyNum Stat.penalty
    rw [if_pos h0]
    cases st
    case bcChi => dsimp only; rw [hdf]; rfl
    case bcChiUp => dsimp only; rw [hdf]; rfl
    all_goals dsimp only; rw [hd (fun h => by cases h) (fun h => by cases h)]; rfl
  · rw [if_neg h0] at hdf hd
    have fin : ∀ q : ℝ, q = (value.val - prior.val) / sigma.val →
        ((PyNum.float q).mul (PyNum.float q)).val = ((value.val - prior.val) / sigma.val) ^ 2 := by
      rintro q rfl
      rw [mul_val, pow_two]; rfl
    have fin' := fin ((value.sub prior).val / sigma.val) (by rw [sub_val])
    unfold Stat.penaltyNum Stat.penalty
    rw [if_neg h0]
    cases st
    case bcChi => dsimp only; rw [hdf]; exact congrArg Except.ok fin'
    case bcChiUp => dsimp only; rw [hdf]; exact congrArg Except.ok fin'
    case bcLL =>
      dsimp only; rw [hd (fun h => by cases h) (fun h => by cases h)]
      refine congrArg Except.ok ?_
      rw [mul_val, fin']; rfl
    all_goals
      dsimp only; rw [hd (fun h => by cases h) (fun h => by cases h)]; exact congrArg Except.ok fin'

/-- Eight with a prior of ten and a sigma of 4.0. -/
example : Stat.pearson = .bcChi ∨ Stat.pearson = .bcChiUp ∨ (PyNum.int 8).IsFloat ∨
    (PyNum.int 10).IsFloat ∨ (PyNum.float 4).IsFloat := .inr (.inr (.inr (.inr trivial)))

/-- **C142, negation.** With whole numbers the other classes round the number of sigmas down: two
below the prior with a sigma of four is one sigma, two above it is none. -/
theorem c142_penalty_negation (st : Stat) (h : st ≠ .bcChi) (h' : st ≠ .bcChiUp)
    (value prior sigma : ℤ) (hs : 0 < sigma) :
    ∃ k : ℤ, k * sigma ≤ value - prior ∧ value - prior < (k + 1) * sigma ∧
      (st.penaltyNum (.int value) (.int prior) (.int sigma)).map PyNum.val =
        .ok (if st = .bcLL then 0.5 * (k : ℝ) ^ 2 else (k : ℝ) ^ 2) ∧
      st.penalty value prior sigma =
        .ok (if st = .bcLL then 0.5 * (((value : ℝ) - prior) / sigma) ^ 2
          else (((value : ℝ) - prior) / sigma) ^ 2) := by
  have hk : (value - prior).fdiv sigma = (value - prior) / sigma :=
    Int.fdiv_eq_ediv_of_nonneg _ hs.le
  have hr : (sigma : ℝ) ≠ 0 := by exact_mod_cast hs.ne'
  refine ⟨(value - prior) / sigma, Int.ediv_mul_le _ hs.ne', Int.lt_ediv_add_one_mul_self _ hs, ?_, ?_⟩
  · unfold Stat.penaltyNum
    cases st <;> first | exact absurd rfl h | exact absurd rfl h' | skip
    all_goals
      simp [PyNum.sub, PyNum.div, PyNum.mul, hk, hs.ne', bind, Except.bind, Except.map, PyNum.val,
        pow_two]
  · unfold Stat.penalty
    rw [if_neg hr]
    cases st <;> first | exact absurd rfl h | exact absurd rfl h' | simp

/-- Eight with a prior of ten and a sigma of four: one instead of a quarter. -/
example : (-1 : ℤ) * 4 ≤ 8 - 10 ∧ (8 - 10 : ℤ) < (-1 + 1) * 4 ∧
    (((8 : ℝ) - 10) / 4) ^ 2 = 1 / 4 := by norm_num

/-! ### C143 -/

/-- **C143, what does not depend on the kind of array.** `BakerCousinsChi`, `BakerCousinsChiUp` and
`ExtendedLL` give the value of the numbers meant for arrays of integers as for arrays of floats;
`BakerCousinsLL` and `Pearson` do if the expected values, `Neyman` if the observed values are an
array of floats. -/
theorem c143_same_partial (st : Stat) (obs exp : List PyNum)
    (hexp : st = .bcLL ∨ st = .pearson → ∀ e ∈ exp, e.IsFloat)
    (hobs : st = .neyman → ∀ o ∈ obs, o.IsFloat) :
    (st.computeNum obs exp).map PyNum.val =
      some (st.compute (obs.map PyNum.val) (exp.map PyNum.val)).value := by
  have hchi : ∀ o e : PyNum, (bakerCousinsNum o.toFloat e.toFloat.localEps).map PyNum.val =
      some (bakerCousinsBin o.val e.val) := by
    intro o e
    rw [bakerCousinsNum_val (localEps_isFloat (toFloat_isFloat e)) (by rw [localEps_val]; exact clampEps_pos' _),
      localEps_val]
    rfl
  cases st with
  | bcChi =>
    have := totalNum_val (f := fun o e => bakerCousinsNum o.toFloat e.toFloat.localEps)
      (g := bakerCousinsBin) (obs := obs) (exp := exp) fun b _ => hchi b.1 b.2
    simp only [Stat.computeNum, Stat.compute]
    cases ht : totalNum (fun o e => bakerCousinsNum o.toFloat e.toFloat.localEps) obs exp with
    | none => rw [ht] at this; cases this
    | some t =>
      rw [ht] at this
      simp only [Option.map_some, Option.some.injEq] at this
      simp only [bind, Option.bind, Option.map_some, mul_val, this]
      rfl
  | bcChiUp =>
    have := totalNum_val (f := fun o e => if e.val < o.val then some (.int 0)
        else bakerCousinsNum o.toFloat e.toFloat.localEps)
      (g := fun o e => if e < o then 0 else bakerCousinsBin o e) (obs := obs) (exp := exp)
      (fun b _ => by
        split
        · simp [PyNum.val]
        · exact hchi b.1 b.2)
    have hloop : ∀ (l : List (ℝ × ℝ)) (z : ℝ),
        l.foldl (fun total b => total + if b.2 < b.1 then 0 else bakerCousinsBin b.1 b.2) z =
        l.foldl (fun total b => if b.2 < b.1 then total else total + bakerCousinsBin b.1 b.2) z := by
      intro l
      induction l with
      | nil => intro z; rfl
      | cons b l ih =>
        intro z
        simp only [List.foldl_cons, ih]
        congr 1
        split <;> simp
    simp only [Stat.computeNum, Stat.compute]
    cases ht : totalNum (fun o e => if e.val < o.val then some (.int 0)
        else bakerCousinsNum o.toFloat e.toFloat.localEps) obs exp with
    | none => rw [ht] at this; cases this
    | some t =>
      rw [ht] at this
      simp only [Option.map_some, Option.some.injEq] at this
      simp only [bind, Option.bind, Option.map_some, mul_val, this, loopTotal, hloop]
      rfl
  | bcLL =>
    refine totalNum_val (f := fun o e => bakerCousinsNum o e.storeEps) (g := bakerCousinsBin)
      fun b hb => ?_
    have hf := hexp (.inl rfl) b.2 (List.of_mem_zip hb).2
    obtain ⟨h1, h2⟩ := storeEps_val hf
    rw [bakerCousinsNum_val h2 (by rw [h1]; exact clampEps_pos' _), h1]
    rfl
  | neyman =>
    refine totalNum_val (g := neymanBin) fun b hb => ?_
    have hf := hobs rfl b.1 (List.of_mem_zip hb).1
    obtain ⟨h1, h2⟩ := storeEps_val hf
    unfold neymanNum neymanBin
    dsimp only
    split
    · simp only [Option.map_some, h1]
    · rw [npDiv_float (.inr h2), h1, if_neg (clampEps_pos' _).ne']
      simp only [Option.map_some, mul_val, sub_val, h1, pow_two]
      rfl
  | pearson =>
    refine totalNum_val (g := pearsonBin) fun b hb => ?_
    have hf := hexp (.inr rfl) b.2 (List.of_mem_zip hb).2
    obtain ⟨h1, h2⟩ := storeEps_val hf
    unfold pearsonNum pearsonBin
    dsimp only
    split
    · simp only [Option.map_some, h1]
    · rw [npDiv_float (.inr h2), h1, if_neg (clampEps_pos' _).ne']
      simp only [Option.map_some, mul_val, sub_val, h1, pow_two]
      rfl
  | extLL =>
    have := totalNum_val (f := extendedNum) (g := fun o e => o * log (clampEps e)) (obs := obs)
      (exp := exp) (fun b _ => by
        unfold extendedNum PyNum.npLog
        rw [localEps_val, if_neg (not_le.2 (clampEps_pos' _))]
        simp only [bind, Option.bind, Option.map_some, mul_val]
        rfl)
    simp only [Stat.computeNum, Stat.compute]
    cases ht : totalNum extendedNum obs exp with
    | none => rw [ht] at this; cases this
    | some t =>
      rw [ht] at this
      simp only [Option.map_some, Option.some.injEq] at this
      simp only [bind, Option.bind, Option.map_some, sub_val, this, foldl_add_val]
      simp [PyNum.val]

/-- Observed integers and expected floats. -/
example : (Stat.pearson = .bcLL ∨ Stat.pearson = .pearson → ∀ e ∈ [PyNum.float 2.5], e.IsFloat) ∧
    (Stat.pearson = .neyman → ∀ o ∈ [PyNum.int 3], o.IsFloat) :=
  ⟨fun _ e he => by rw [List.mem_singleton.1 he]; trivial, fun h => by cases h⟩

/-- **C143, negation.** With two arrays of integers `BakerCousinsLL` is not finite as soon as in one
bin fewer events are observed than expected, but some. -/
theorem c143_likelihood_negation (obs exp : List ℤ)
    (h : ∃ b ∈ obs.zip exp, 0 < b.1 ∧ b.1 < b.2) :
    Stat.bcLL.computeNum (obs.map .int) (exp.map .int) = none := by
  obtain ⟨b, hb, h1, h2⟩ := h
  refine totalNum_none (f := fun o e => bakerCousinsNum o e.storeEps) ⟨(.int b.1, .int b.2), ?_, ?_⟩
  · rw [List.zip_map]
    exact List.mem_map.2 ⟨b, hb, rfl⟩
  · dsimp only
    unfold PyNum.storeEps
    rw [if_neg (int_ge_eps (h1.trans h2))]
    unfold bakerCousinsNum
    rw [if_neg (int_ge_eps h1)]
    have : b.1.fdiv b.2 = 0 := by
      rw [Int.fdiv_eq_ediv_of_nonneg _ (h1.trans h2).le]
      exact Int.ediv_eq_zero_of_lt h1.le h2
    simp only [PyNum.npDiv, if_neg (h1.trans h2).ne', this, bind, Option.bind]
    unfold PyNum.npLog
    rw [if_pos (by simp [PyNum.val])]

example : ∃ b ∈ ([3, 1] : List ℤ).zip [2, 4], 0 < b.1 ∧ b.1 < b.2 := ⟨(1, 4), by simp, by norm_num⟩

/-- **C143, negation.** With two arrays of positive integers `Pearson` and `Neyman` round the value of
every bin down: the statistic is at most the true one, and smaller unless every bin has a whole
value. -/
theorem c143_chi_squared_negation (st : Stat) (obs exp : List ℤ)
    (hst : st = .pearson ∨ st = .neyman)
    (ho : ∀ o ∈ obs, 0 < o) (he : ∀ e ∈ exp, 0 < e) :
    ∃ k : ℤ, st.computeNum (obs.map .int) (exp.map .int) = some (.int k) ∧
      (k : ℝ) ≤ (st.compute (obs.map (fun n : ℤ => (n : ℝ))) (exp.map (fun n : ℤ => (n : ℝ)))).value ∧
      ((k : ℝ) = (st.compute (obs.map (fun n : ℤ => (n : ℝ))) (exp.map (fun n : ℤ => (n : ℝ)))).value ↔
        ∀ b ∈ obs.zip exp, (if st = .pearson then b.2 else b.1) ∣ (b.1 - b.2) ^ 2) := by
  have eps1 : statEps ≤ 1 := by unfold statEps; norm_num
  have hposr : ∀ {n : ℤ}, 0 < n → (0 : ℝ) < n := fun h => by exact_mod_cast h
  have hge : ∀ {n : ℤ}, 0 < n → ¬ (n : ℝ) < statEps := fun h => int_ge_eps h
  have hdiv : ∀ {m n : ℤ}, 0 < n → ((m.fdiv n : ℤ) : ℝ) ≤ (m : ℝ) / n ∧
      (((m.fdiv n : ℤ) : ℝ) = (m : ℝ) / n ↔ n ∣ m) := by
    intro m n hn
    rw [Int.fdiv_eq_ediv_of_nonneg _ hn.le]
    have h0 := hposr hn
    constructor
    · rw [le_div_iff₀ h0]
      exact_mod_cast Int.ediv_mul_le m hn.ne'
    · rw [eq_div_iff h0.ne']
      constructor
      · intro e
        have e' : m / n * n = m := by exact_mod_cast e
        exact ⟨m / n, by rw [mul_comm]; exact e'.symm⟩
      · intro e
        exact_mod_cast Int.ediv_mul_cancel e
  have hz1 : (obs.map PyNum.int).zip (exp.map PyNum.int) =
      (obs.zip exp).map (fun b => (PyNum.int b.1, PyNum.int b.2)) := by rw [List.zip_map]; rfl
  have hz2 : (obs.map (fun n : ℤ => (n : ℝ))).zip (exp.map (fun n : ℤ => (n : ℝ))) =
      (obs.zip exp).map (fun b => ((b.1 : ℝ), (b.2 : ℝ))) := by rw [List.zip_map]; rfl
  have hstore : ∀ {n : ℤ}, 0 < n → (PyNum.int n).storeEps = .int n := by
    intro n hn
    unfold PyNum.storeEps
    rw [if_neg (int_ge_eps hn)]
  have hclamp : ∀ {n : ℤ}, 0 < n → clampEps (n : ℝ) = n := by
    intro n hn
    unfold clampEps
    rw [if_neg (hge hn)]
  rcases hst with rfl | rfl
  · have hval : ∀ b ∈ obs.zip exp, pearsonBin (b.1 : ℝ) b.2 = (((b.1 - b.2) ^ 2 : ℤ) : ℝ) / b.2 := by
      intro b hb
      obtain ⟨h1, h2⟩ := List.of_mem_zip (a := b.1) (b := b.2) hb
      unfold pearsonBin
      dsimp only
      rw [if_neg (hge (ho _ h1)), hclamp (he _ h2)]
      push_cast; rfl
    obtain ⟨k, e1, e2, e3⟩ := loopTotal_le_aux pearsonNum pearsonBin
      (fun o e => ((o - e) ^ 2).fdiv e) (obs.zip exp)
      (fun b hb => by
        obtain ⟨h1, h2⟩ := List.of_mem_zip (a := b.1) (b := b.2) hb
        unfold pearsonNum
        dsimp only
        rw [if_neg (int_ge_eps (ho _ h1)), hstore (he _ h2)]
        simp only [PyNum.sub, PyNum.mul, PyNum.npDiv, if_neg (he _ h2).ne', pow_two])
      (fun b hb => by
        rw [hval b hb]
        exact (hdiv (he _ (List.of_mem_zip (a := b.1) (b := b.2) hb).2)).1)
      0 0 (by simp)
    refine ⟨k, by rw [← hz1] at e1; exact e1, by rw [← hz2] at e2; exact e2, ?_⟩
    rw [← hz2] at e3
    refine e3.trans ⟨fun h b hb => ?_, fun h => ⟨by simp, fun b hb => ?_⟩⟩
    · have := h.2 b hb
      rw [hval b hb] at this
      exact (hdiv (he _ (List.of_mem_zip (a := b.1) (b := b.2) hb).2)).2.1 this
    · rw [hval b hb]
      exact (hdiv (he _ (List.of_mem_zip (a := b.1) (b := b.2) hb).2)).2.2 (h b hb)
  · have hval : ∀ b ∈ obs.zip exp, neymanBin (b.1 : ℝ) b.2 = (((b.1 - b.2) ^ 2 : ℤ) : ℝ) / b.1 := by
      intro b hb
      obtain ⟨h1, h2⟩ := List.of_mem_zip (a := b.1) (b := b.2) hb
      unfold neymanBin
      dsimp only
      rw [if_neg (hge (he _ h2)), hclamp (ho _ h1)]
      push_cast
      congr 1
      ring
    obtain ⟨k, e1, e2, e3⟩ := loopTotal_le_aux neymanNum neymanBin
      (fun o e => ((o - e) ^ 2).fdiv o) (obs.zip exp)
      (fun b hb => by
        obtain ⟨h1, h2⟩ := List.of_mem_zip (a := b.1) (b := b.2) hb
        unfold neymanNum
        dsimp only
        rw [if_neg (int_ge_eps (he _ h2)), hstore (ho _ h1)]
        simp only [PyNum.sub, PyNum.mul, PyNum.npDiv, if_neg (ho _ h1).ne']
        congr 3
        ring)
      (fun b hb => by
        rw [hval b hb]
        exact (hdiv (ho _ (List.of_mem_zip (a := b.1) (b := b.2) hb).1)).1)
      0 0 (by simp)
    refine ⟨k, by rw [← hz1] at e1; exact e1, by rw [← hz2] at e2; exact e2, ?_⟩
    rw [← hz2] at e3
    refine e3.trans ⟨fun h b hb => ?_, fun h => ⟨by simp, fun b hb => ?_⟩⟩
    · have := h.2 b hb
      rw [hval b hb] at this
      exact (hdiv (ho _ (List.of_mem_zip (a := b.1) (b := b.2) hb).1)).2.1 this
    · rw [hval b hb]
      exact (hdiv (ho _ (List.of_mem_zip (a := b.1) (b := b.2) hb).1)).2.2 (h b hb)

/-- Three observed and two expected events: `Pearson` gives zero instead of a half. -/
example : (∀ o ∈ ([3] : List ℤ), 0 < o) ∧ (∀ e ∈ ([2] : List ℤ), 0 < e) ∧
    ¬ ∀ b ∈ ([3] : List ℤ).zip [2], b.2 ∣ (b.1 - b.2) ^ 2 := by
  refine ⟨by simp, by simp, ?_⟩
  intro h
  have := h (3, 2) (by simp)
  revert this
  decide

/-- **C143, negation.** With two arrays of integers, a bin in which events are observed though none are
expected adds nothing to the chi-squared of `Pearson`, and a bin in which events are expected though
none are observed adds nothing to that of `Neyman`; with floats they add more than `10^33`. -/
theorem c143_empty_negation (st : Stat) (hst : st = .pearson ∨ st = .neyman) (n : ℤ) (hn : 0 < n)
    (obs exp : List ℤ) :
    let o := if st = .pearson then n else 0
    let e := if st = .pearson then 0 else n
    st.computeNum ((o :: obs).map .int) ((e :: exp).map .int) =
      st.computeNum (obs.map .int) (exp.map .int) ∧
    (st.compute (obs.map (fun n : ℤ => (n : ℝ))) (exp.map (fun n : ℤ => (n : ℝ)))).value + 10 ^ 33 ≤
      (st.compute ((o :: obs).map (fun n : ℤ => (n : ℝ)))
        ((e :: exp).map (fun n : ℤ => (n : ℝ)))).value := by
  have h1 : (1 : ℝ) ≤ n := by exact_mod_cast hn
  have hbig : (10 : ℝ) ^ 33 ≤ ((n : ℝ) - statEps) ^ 2 / statEps := by
    rw [le_div_iff₀ statEps_pos']
    unfold statEps
    have a : (1 / 2 : ℝ) ≤ (n : ℝ) - 1 / 10 ^ 34 := by
      have : (1 : ℝ) / 10 ^ 34 ≤ 1 / 2 := by norm_num
      linarith
    nlinarith
  have hstore : (PyNum.int 0).storeEps = .int 0 := by
    unfold PyNum.storeEps
    rw [if_pos (by simpa [PyNum.val] using statEps_pos')]
  have hclamp : clampEps 0 = statEps := if_pos statEps_pos'
  have hge : ¬ (n : ℝ) < statEps := int_ge_eps hn
  have hfold : ∀ (g : ℝ → ℝ → ℝ) (l : List (ℝ × ℝ)) (z : ℝ),
      l.foldl (fun t b => t + g b.1 b.2) z = z + l.foldl (fun t b => t + g b.1 b.2) 0 := by
    intro g l
    induction l with
    | nil => intro z; simp
    | cons b l ih =>
      intro z
      rw [List.foldl_cons, List.foldl_cons, ih, ih (0 + _)]
      ring
  rcases hst with rfl | rfl
  · refine ⟨?_, ?_⟩
    · have : pearsonNum (.int n) (.int 0) = some (.int 0) := by
        unfold pearsonNum
        rw [if_neg (int_ge_eps hn), hstore]
        rfl
      simp [Stat.computeNum, totalNum, this, PyNum.add]
    · have hp : pearsonBin (n : ℝ) 0 = ((n : ℝ) - statEps) ^ 2 / statEps := by
        unfold pearsonBin
        dsimp only
        rw [if_neg hge, hclamp]
      simp only [Stat.compute, loopTotal, if_true, List.map_cons, List.zip_cons_cons, List.foldl_cons,
        Int.cast_zero, hp]
      rw [hfold _ _ (0 + _)]
      linarith
  · refine ⟨?_, ?_⟩
    · have : neymanNum (.int 0) (.int n) = some (.int 0) := by
        unfold neymanNum
        rw [if_neg (int_ge_eps hn), hstore]
        rfl
      simp [Stat.computeNum, totalNum, this, PyNum.add]
    · have hp : neymanBin 0 (n : ℝ) = ((n : ℝ) - statEps) ^ 2 / statEps := by
        unfold neymanBin
        dsimp only
        rw [if_neg hge, hclamp]
      simp only [Stat.compute, loopTotal, reduceCtorEq, if_false, List.map_cons, List.zip_cons_cons,
        List.foldl_cons, Int.cast_zero, hp]
      rw [hfold _ _ (0 + _)]
      linarith

/-- Five events where none are expected. -/
example := c143_empty_negation .pearson (.inl rfl) 5 (by norm_num) [3] [2]

end Verif
