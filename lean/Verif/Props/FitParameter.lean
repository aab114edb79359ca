import Verif.Lemmas.FitParameter
import Mathlib.Tactic.NormNum
import Mathlib.Analysis.Complex.ExponentialBounds

/-!
# Properties of fit parameters: C47, C48, C77, C78, C79
-/

namespace Verif

theorem none_eq_true : ((none : Option Bool) = some true) = False := by simp

/-! ## C47: linear values -/

/-- C47: a linear parameter with at least two bins and `low < high` has as many
values as bins, equally spaced and increasing from `low` to `high`. -/
theorem c47_linear {p : FitPar} (hv : p.values = none) (hl : p.logscale ≠ some true)
    (hd : p.logDev ≠ some true) (hb : 2 ≤ p.bins) (h : p.low < p.high) :
    ∃ vs, p.getValues = .ok vs ∧ Spaced id p.low p.high p.bins vs := by
  refine ⟨npLinspace p.low p.high p.bins, ?_, npLinspace_spaced hb h⟩
  simp only [FitPar.getValues, hv, FitPar.genValues, if_neg hl, if_neg hd]

/-- C47: whenever the values of a parameter are increasing, looking up the value
at an index and the index of a value are inverse to each other. -/
theorem c47_lookup {p : FitPar} {vs : List ℝ} (hv : p.getValues = .ok vs)
    (hs : vs.Pairwise (· < ·)) (i : ℕ) (x : ℝ) :
    p.getValueAt i = .ok x ↔ p.getValueIndex x = .ok i := by
  have hn : vs.Nodup := hs.imp (fun h => ne_of_lt h)
  simp only [FitPar.getValueAt, FitPar.getValueIndex, hv, bind, Except.bind]
  have hf := findIdx?_nodup (i := i) hn (x := x)
    (fun y => @decide (y = x) (Classical.propDecidable _)) (by simp)
  constructor
  · intro h
    have hx : vs[i]? = some x := by
      cases hi : vs[i]? with
      | none => rw [hi] at h; simp at h
      | some y => rw [hi] at h; simp at h; rw [h]
    rw [hf.2 hx]
  · intro h
    have hx : vs.findIdx? (fun y => @decide (y = x) (Classical.propDecidable _)) = some i := by
      cases hi : vs.findIdx? (fun y => @decide (y = x) (Classical.propDecidable _)) with
      | none => rw [hi] at h; simp at h
      | some j => rw [hi] at h; simp at h; rw [h]
    rw [hf.1 hx]

/-- C47: the values are the same at every later call. -/
theorem c47_stable (p : FitPar) : p.afterGetValues.getValues = p.getValues := by
  unfold FitPar.afterGetValues
  cases h : p.getValues with
  | error e => simp only [h]
  | ok v => rfl

/-- A linear parameter: eleven values from 0 to 10. -/
noncomputable def exLinear : FitPar := FitPar.new (lit "rate") 5 (some 1) 0 10 11

/-- C47 is not vacuous. -/
example : exLinear.values = none ∧ exLinear.logscale ≠ some true ∧
    exLinear.logDev ≠ some true ∧ 2 ≤ exLinear.bins ∧ exLinear.low < exLinear.high := by
  refine ⟨rfl, ?_, ?_, ?_, ?_⟩ <;> norm_num [exLinear, FitPar.new, none_eq_true]

/-! ## C79: logarithmic values -/

/-- C79: a logarithmic parameter with at least two bins and `0 < low < high` has as
many values as bins, increasing from `low` to `high`, with equally spaced
logarithms. -/
theorem c79_logscale_partial {p : FitPar} (hv : p.values = none) (hl : p.logscale = some true)
    (hb : 2 ≤ p.bins) (h0 : 0 < p.low) (h : p.low < p.high) :
    ∃ vs, p.getValues = .ok vs ∧ Spaced Real.log p.low p.high p.bins vs := by
  refine ⟨(npLinspace (Real.log p.low) (Real.log p.high) p.bins).map Real.exp, ?_, ?_⟩
  · simp only [FitPar.getValues, hv, FitPar.genValues, if_pos hl, if_neg (not_le.2 h0),
      if_neg (not_le.2 (h0.trans h))]
  · have := map_spaced hb (Real.log_lt_log h0 h) Real.exp_strictMono Real.log_exp
    rwa [Real.exp_log h0, Real.exp_log (h0.trans h)] at this

/-- C79 fails when `low` is not positive: with `0 < high < 1` the first value is
`1 / high`, above the upper end of the range. -/
theorem c79_low_negation {p : FitPar} (hv : p.values = none) (hl : p.logscale = some true)
    (hb : 2 ≤ p.bins) (h0 : p.low ≤ 0) (h1 : 0 < p.high) (h2 : p.high < 1) :
    ∃ vs x, p.getValues = .ok vs ∧ vs.head? = some x ∧ p.high < x := by
  refine ⟨(npLinspace (-Real.log p.high) (Real.log p.high) p.bins).map Real.exp,
    Real.exp (-Real.log p.high), ?_, ?_, ?_⟩
  · simp only [FitPar.getValues, hv, FitPar.genValues, if_pos hl, if_pos h0, if_neg (not_le.2 h1)]
  · rw [List.head?_map, npLinspace_head? (by omega), Option.map_some]
  · rw [Real.exp_neg, Real.exp_log h1]
    have := one_lt_inv_iff₀.2 ⟨h1, h2⟩
    linarith

/-- Both cases of C79 occur. -/
example : ∃ p q : FitPar, (p.values = none ∧ p.logscale = some true ∧ 2 ≤ p.bins ∧ 0 < p.low ∧
    p.low < p.high) ∧ (q.values = none ∧ q.logscale = some true ∧ 2 ≤ q.bins ∧ q.low ≤ 0 ∧
    0 < q.high ∧ q.high < 1) := by
  refine ⟨FitPar.new (lit "rate") 5 (some 1) 1 100 7 (logscale := some true),
    FitPar.new (lit "shift") 0 (some 1) (-1) (1 / 2) 7 (logscale := some true), ?_, ?_⟩ <;>
    norm_num [FitPar.new]

/-! ## C48: values with logarithmic deviations from the prior -/

/-- C48, when the share of the range below the prior does not fall half-way
between two bin counts: let `n ≥ 2` be that share of `bins + 1`, rounded, and
at least two values be left for the other side. Then there are as many values
as bins, increasing from `low` to `high` through the prior, and on both sides
the logarithms of one plus the deviation are equally spaced. -/
theorem c48_values_partial {p : FitPar} (hv : p.values = none) (hl : p.logscale ≠ some true)
    (hd : p.logDev = some true) (h1 : p.low < p.prior) (h2 : p.prior < p.high) {n : ℕ}
    (hn : 2 ≤ n) (hb : n < p.bins)
    (hr : |(p.prior - p.low) / (p.high - p.low) * ((p.bins : ℝ) + 1) - n| < 1 / 2) :
    ∃ vs lo hi, p.getValues = .ok vs ∧ vs.length = p.bins ∧ vs.head? = some p.low ∧
      vs.getLast? = some p.high ∧ vs.Pairwise (· < ·) ∧ p.prior ∈ vs ∧ vs = lo ++ hi.tail ∧
      Spaced (fun v => -Real.log (1 + (p.prior - v))) p.low p.prior n lo ∧
      Spaced (fun v => Real.log (1 + (v - p.prior))) p.prior p.high (p.bins + 1 - n) hi := by
  rw [abs_lt] at hr
  have hdl : |p.low - p.prior| = p.prior - p.low := by
    rw [abs_of_neg (by linarith)]; ring
  have hdh : |p.high - p.prior| = p.high - p.prior := abs_of_pos (by linarith)
  have hsum : p.prior - p.low + (p.high - p.prior) = p.high - p.low := by ring
  have hpos : 0 < p.high - p.low := by linarith
  have hnl : npRintReal ((p.prior - p.low) / (p.high - p.low) * ((p.bins : ℝ) + 1)) = (n : ℤ) :=
    npRintReal_eq (by push_cast; linarith) (by push_cast; linarith)
  have hcompl : (p.high - p.prior) / (p.high - p.low) * ((p.bins : ℝ) + 1) =
      (p.bins : ℝ) + 1 - (p.prior - p.low) / (p.high - p.low) * ((p.bins : ℝ) + 1) := by
    field_simp
    ring
  have hnh : npRintReal ((p.high - p.prior) / (p.high - p.low) * ((p.bins : ℝ) + 1)) =
      ((p.bins : ℤ) + 1 - n) := by
    rw [hcompl]
    exact npRintReal_eq (by push_cast; linarith) (by push_cast; linarith)
  have hnh' : ((p.bins : ℤ) + 1 - n).toNat = p.bins + 1 - n := by omega
  have hlo := map_spaced (n := n) hn
    (a := -Real.log (p.prior - p.low + 1)) (b := 0)
    (by have := Real.log_pos (show (1 : ℝ) < p.prior - p.low + 1 by linarith); linarith)
    (f := fun v => -Real.log (1 + (p.prior - v))) (g := fun d => p.prior - Real.exp (-d) + 1)
    (fun a b hab => by
      have := Real.exp_lt_exp.2 (neg_lt_neg hab)
      show p.prior - Real.exp (-a) + 1 < p.prior - Real.exp (-b) + 1
      linarith)
    (fun d => by
      rw [show 1 + (p.prior - (p.prior - Real.exp (-d) + 1)) = Real.exp (-d) by ring,
        Real.log_exp, neg_neg])
  have hhi := map_spaced (n := p.bins + 1 - n) (by omega)
    (a := 0) (b := Real.log (p.high - p.prior + 1))
    (Real.log_pos (show (1 : ℝ) < p.high - p.prior + 1 by linarith))
    (f := fun v => Real.log (1 + (v - p.prior))) (g := fun d => p.prior + Real.exp d - 1)
    (fun a b hab => by
      have := Real.exp_lt_exp.2 hab
      show p.prior + Real.exp a - 1 < p.prior + Real.exp b - 1
      linarith)
    (fun d => by
      rw [show 1 + (p.prior + Real.exp d - 1 - p.prior) = Real.exp d by ring, Real.log_exp])
  simp only [neg_neg, neg_zero, Real.exp_zero, Real.exp_log (show 0 < p.prior - p.low + 1 by linarith),
    Real.exp_log (show 0 < p.high - p.prior + 1 by linarith)] at hlo hhi
  rw [show p.prior - (p.prior - p.low + 1) + 1 = p.low by ring,
    show p.prior - 1 + 1 = p.prior by ring] at hlo
  rw [show p.prior + (p.high - p.prior + 1) - 1 = p.high by ring,
    show p.prior + 1 - 1 = p.prior by ring] at hhi
  obtain ⟨j1, j2, j3, j4, j5⟩ := join_spaced (by omega) hlo hhi
  refine ⟨_, _, _, ?_, ?_, j2, j3, j4, j5, rfl, hlo, hhi⟩
  · simp only [FitPar.getValues, hv, FitPar.genValues, if_neg hl, if_pos hd, hdl, hdh, hsum,
      if_neg hpos.ne', hnl, hnh, hnh', Int.toNat_natCast]
    rw [npLinspace_reverse hn, List.map_map, neg_zero, List.map_tail]
    rfl
  · omega

/-- C48 holds for a range that is symmetric about the prior and an odd number of
bins, as the documentation recommends. -/
theorem c48_symmetric_partial {p : FitPar} (hv : p.values = none) (hl : p.logscale ≠ some true)
    (hd : p.logDev = some true) (h1 : p.low < p.prior)
    (h2 : p.high - p.prior = p.prior - p.low) {m : ℕ} (hm : 1 ≤ m) (hb : p.bins = 2 * m + 1) :
    ∃ vs, p.getValues = .ok vs ∧ vs.length = p.bins ∧ vs.head? = some p.low ∧
      vs.getLast? = some p.high ∧ vs.Pairwise (· < ·) ∧ p.prior ∈ vs := by
  have hhalf : (p.prior - p.low) / (p.high - p.low) * ((p.bins : ℝ) + 1) - ((m + 1 : ℕ) : ℝ) = 0 := by
    have h3 : p.high - p.low = 2 * (p.prior - p.low) := by linarith
    have h4 : p.prior - p.low ≠ 0 := by linarith
    rw [h3, hb]
    push_cast
    field_simp
    ring
  obtain ⟨vs, lo, hi, g1, g2, g3, g4, g5, g6, _⟩ := c48_values_partial hv hl hd h1
    (by linarith) (n := m + 1) (by omega) (by omega) (by rw [hhalf]; norm_num)
  exact ⟨vs, g1, g2, g3, g4, g5, g6⟩

/-- C48 fails for the bin count: four bins on a symmetric range give three values
(`rint 2.5 = 2` on both sides). -/
theorem c48_count_negation :
    ∃ p : FitPar, p.logDev = some true ∧ p.low < p.prior ∧ p.prior < p.high ∧ p.bins = 4 ∧
      ∃ vs, p.getValues = .ok vs ∧ vs.length = 3 := by
  refine ⟨{ name := lit "rate", prior := 0, sigma := none, low := -1, high := 1, bins := 4,
            logDev := some true }, rfl, by norm_num, by norm_num, rfl, ?_⟩
  have hr : npRintReal (5 / 2) = 2 := by
    have hf : ⌊(5 / 2 : ℝ)⌋ = 2 := by rw [Int.floor_eq_iff]; norm_num
    have hfr : Int.fract (5 / 2 : ℝ) = 1 / 2 := by
      have := Int.floor_add_fract (5 / 2 : ℝ)
      rw [hf] at this
      push_cast at this
      linarith
    unfold npRintReal
    rw [hfr, hf]
    norm_num
  refine ⟨(npLinspace 0 (Real.log 2) 2).reverse.map (fun d => 0 - Real.exp d + 1)
      ++ (npLinspace 0 (Real.log 2) 2).tail.map (fun d => 0 + Real.exp d - 1), ?_, ?_⟩
  · norm_num [FitPar.getValues, FitPar.genValues, none_eq_true, hr]
    rw [show Int.toNat 2 = 2 from rfl]
  · simp [length_npLinspace]

/-- C48 fails for the prior: when the prior is the lower end of the range, it is
not among the values (no bin is left for its side, and the other side leaves it
out). -/
theorem c48_prior_negation :
    ∃ p : FitPar, p.logDev = some true ∧ p.low = p.prior ∧ p.prior < p.high ∧ p.bins = 3 ∧
      ∃ vs, p.getValues = .ok vs ∧ p.prior ∉ vs := by
  refine ⟨{ name := lit "rate", prior := 0, sigma := none, low := 0, high := 1, bins := 3,
            logDev := some true }, rfl, rfl, by norm_num, rfl, ?_⟩
  have h0 : npRintReal 0 = 0 := by exact_mod_cast npRintReal_int 0
  have h4 : npRintReal 4 = 4 := by exact_mod_cast npRintReal_int 4
  refine ⟨(npLinspace 0 (Real.log 2) 4).tail.map (fun d => 0 + Real.exp d - 1), ?_, ?_⟩
  · norm_num [FitPar.getValues, FitPar.genValues, h0, h4, npLinspace, none_eq_true]
    rw [show Int.toNat 4 = 4 from rfl]
    norm_num
  · rw [List.mem_map]
    rintro ⟨d, hd, h⟩
    have hp := npLinspace_pairwise (n := 4) (Real.log_pos (show (1 : ℝ) < 2 by norm_num))
    have hh := npLinspace_head? (a := 0) (b := Real.log 2) (n := 4) (by norm_num)
    cases hc : npLinspace 0 (Real.log 2) 4 with
    | nil => rw [hc] at hh; simp at hh
    | cons x t =>
      rw [hc] at hh hd hp
      simp only [List.head?_cons, Option.some.injEq] at hh
      rw [List.pairwise_cons] at hp
      have := hp.1 d hd
      have h1 := Real.add_one_le_exp d
      simp only at h
      linarith

/-- C48 is not vacuous: seven bins on -1..1 about 0; and 9 bins on -1..3. -/
example : ∃ p q : FitPar, (p.values = none ∧ p.logscale ≠ some true ∧ p.logDev = some true ∧
    p.low < p.prior ∧ p.high - p.prior = p.prior - p.low ∧ p.bins = 2 * 3 + 1) ∧
    (q.values = none ∧ q.logscale ≠ some true ∧ q.logDev = some true ∧ q.low < q.prior ∧
    q.prior < q.high ∧ 2 < q.bins ∧
    |(q.prior - q.low) / (q.high - q.low) * ((q.bins : ℝ) + 1) - (2 : ℕ)| < 1 / 2) := by
  refine ⟨FitPar.new (lit "shift") 0 (some 1) (-1) 1 7 (logDev := some true),
    FitPar.new (lit "shift") 0 (some 1) (-1) 3 8 (logDev := some true), ?_, ?_⟩
  · norm_num [FitPar.new, none_eq_true]
  · norm_num [FitPar.new, abs_lt, none_eq_true]

/-! ## C77: changing a parameter -/

/-- C77: after a successful `set_par` every keyword has taken effect, nothing else
has changed, and the values are generated from the new settings. -/
theorem c77_success_partial {p q : FitPar} {kws : List FitPar.Kw} (h : p.setPar kws = (q, none))
    (hk : (kws.map FitPar.Kw.key).Nodup) :
    (∀ kw ∈ kws, q.Holds kw) ∧ (∀ k, k ∉ kws.map FitPar.Kw.key → p.SameAttr q k) ∧
      q.getValues = q.genValues := by
  obtain ⟨h1, h2, h3⟩ := setPar_ok h hk
  refine ⟨h2, h3, ?_⟩
  unfold FitPar.getValues
  rw [h1]

theorem setKw_swap {p p1 p2 : FitPar} {a b : FitPar.Kw} (h1 : p.setKw a = .ok p1)
    (h2 : p1.setKw b = .ok p2) (hk : a.key ≠ b.key) :
    ∃ p3, p.setKw b = .ok p3 ∧ p3.setKw a = .ok p2 := by
  cases a <;> cases b <;> first | exact absurd rfl hk | skip
  all_goals simp only [FitPar.setKw] at h1 h2 ⊢
  all_goals (try split at h1) <;> (try split at h2)
  all_goals (try (cases h1)) <;> (try (cases h2))
  all_goals simp_all

/-- C77: the order in which python hands over the keywords does not matter for a
call that succeeds. -/
theorem c77_order {p q : FitPar} {kws kws' : List FitPar.Kw} (hp : kws.Perm kws')
    (h : p.setPar kws = (q, none)) (hk : (kws.map FitPar.Kw.key).Nodup) :
    p.setPar kws' = (q, none) := by
  induction hp generalizing p with
  | nil => exact h
  | @cons a l l' _ ih =>
    simp only [FitPar.setPar] at h ⊢
    rw [List.map_cons, List.nodup_cons] at hk
    cases hs : p.setKw a with
    | error e => rw [hs] at h; simp at h
    | ok p' => rw [hs] at h; exact ih h hk.2
  | swap a b l =>
    simp only [List.map_cons, List.nodup_cons, List.mem_cons, not_or] at hk
    simp only [FitPar.setPar] at h ⊢
    cases hs : p.setKw b with
    | error e => rw [hs] at h; simp at h
    | ok p1 =>
      rw [hs] at h
      simp only at h
      cases hs2 : p1.setKw a with
      | error e => rw [hs2] at h; simp at h
      | ok p2 =>
        rw [hs2] at h
        obtain ⟨p3, h3, h4⟩ := setKw_swap hs hs2 hk.1.1
        rw [h3]
        simp only [h4]
        exact h
  | trans h12 h23 ih1 ih2 =>
    exact ih2 (ih1 h hk) (((h12.map _).nodup_iff).1 hk)

theorem setPar_results (p : FitPar) (kws : List FitPar.Kw) :
    (p.setPar kws).1.bestFit = p.bestFit ∧ (p.setPar kws).1.current = p.current ∧
      (p.setPar kws).1.penaltyTerm = p.penaltyTerm := by
  induction kws generalizing p with
  | nil => exact ⟨rfl, rfl, rfl⟩
  | cons kw kws ih =>
    unfold FitPar.setPar
    cases h : p.setKw kw with
    | error e => exact ⟨rfl, rfl, rfl⟩
    | ok p' =>
      have hp : p'.bestFit = p.bestFit ∧ p'.current = p.current ∧ p'.penaltyTerm = p.penaltyTerm := by
        unfold FitPar.setKw at h
        split at h <;> (try split at h) <;> cases h <;> exact ⟨rfl, rfl, rfl⟩
      dsimp only
      rw [(ih p').1, (ih p').2.1, (ih p').2.2]
      exact hp

/-- C77: no sequence of calls of `set_par`, whether they raise or not, changes the best fit, the current
value or the penalty term. A parameter that was never fitted refuses all three with a `ValueError`. -/
theorem c77_results (p : FitPar) (calls : List (List FitPar.Kw)) :
    (calls.foldl (fun p kws => (p.setPar kws).1) p).getBestFit = p.getBestFit ∧
    (calls.foldl (fun p kws => (p.setPar kws).1) p).getCurrentValue = p.getCurrentValue ∧
    (calls.foldl (fun p kws => (p.setPar kws).1) p).getPenaltyTerm = p.getPenaltyTerm ∧
    (∀ name prior sigma low high bins, p = FitPar.new name prior sigma low high bins →
      p.getBestFit = .error .valueError ∧ p.getCurrentValue = .error .valueError ∧
      p.getPenaltyTerm = .error .valueError) := by
  have key : (calls.foldl (fun p kws => (p.setPar kws).1) p).bestFit = p.bestFit ∧
      (calls.foldl (fun p kws => (p.setPar kws).1) p).current = p.current ∧
      (calls.foldl (fun p kws => (p.setPar kws).1) p).penaltyTerm = p.penaltyTerm := by
    induction calls generalizing p with
    | nil => exact ⟨rfl, rfl, rfl⟩
    | cons kws calls ih =>
      obtain ⟨h1, h2, h3⟩ := ih (p.setPar kws).1
      obtain ⟨g1, g2, g3⟩ := setPar_results p kws
      exact ⟨h1.trans g1, h2.trans g2, h3.trans g3⟩
  refine ⟨?_, ?_, ?_, ?_⟩
  · unfold FitPar.getBestFit; rw [key.1]
  · unfold FitPar.getCurrentValue; rw [key.2.1]
  · unfold FitPar.getPenaltyTerm; rw [key.2.2]
  · rintro name prior sigma low high bins rfl
    exact ⟨rfl, rfl, rfl⟩

/-- A parameter made with six arguments and changed twice, the second time with an exception. -/
example : ∃ p : FitPar, p = FitPar.new (lit "rate") 5 none 0 10 11 ∧
    (([[.low 1, .high 3], [.sigma none]] : List (List FitPar.Kw)).foldl
      (fun p kws => (p.setPar kws).1) p).low = 1 := ⟨_, rfl, rfl⟩

/-- C77 fails when a later keyword raises: the lower end has changed, but the old
values are still handed out. -/
theorem c77_stale_negation :
    ∃ (p q : FitPar) (e : PyErr) (vs : List ℝ), p = exLinear.afterGetValues ∧
      p.setPar [.low 5, .dimension (lit "energy")] = (q, some e) ∧ q.low = 5 ∧
      q.getValues = .ok vs ∧ vs.head? = some 0 := by
  have hv : exLinear.getValues = .ok (npLinspace 0 10 11) := by
    norm_num [exLinear, FitPar.new, FitPar.getValues, FitPar.genValues, none_eq_true]
  have ha : exLinear.afterGetValues = { exLinear with values := some (npLinspace 0 10 11) } := by
    unfold FitPar.afterGetValues
    rw [hv]
  refine ⟨_, { exLinear with low := 5, values := some (npLinspace 0 10 11) }, .typeError,
    npLinspace 0 10 11, rfl, ?_, rfl, rfl, npLinspace_head? (by norm_num)⟩
  rw [ha]
  rfl

/-- C77: the documented keyword `logscale` raises a `TypeError` for every parameter
that was not made with a logarithmic scale; so does `base`; and `sigma = None`
raises for every parameter. -/
theorem c77_logscale_negation (p : FitPar) :
    (p.logscale = none → ∀ v, p.setPar [.logscale v] = (p, some .typeError)) ∧
    (p.base = none → ∀ v, p.setPar [.base v] = (p, some .typeError)) ∧
    p.setPar [.sigma none] = (p, some .typeError) := by
  refine ⟨fun h v => ?_, fun h v => ?_, ?_⟩
  · simp only [FitPar.setPar, FitPar.setKw, h]
  · simp only [FitPar.setPar, FitPar.setKw, h]
  · cases hs : p.sigma <;> simp only [FitPar.setPar, FitPar.setKw, hs]

/-- C77 is not vacuous. -/
example : ∃ q, exLinear.setPar [.low 5, .bins 6, .sigma (some 3)] = (q, none) ∧
    (([.low 5, .bins 6, .sigma (some 3)] : List FitPar.Kw).map FitPar.Kw.key).Nodup :=
  ⟨_, rfl, by decide⟩

/-! ## C78: the warnings of `check_values` -/

theorem checkValues_eq {p : FitPar} {vs : List ℝ} (hv : p.getValues = .ok vs) (min max : ℝ) :
    ∃ w, p.checkValues min max = .ok w ∧ (w.1 = true ↔ ∃ x ∈ vs, x < min ∨ max < x) ∧
      (w.2 = false ↔ ∃ x ∈ vs, p.prior ≠ 0 ∧ npRintReal (x / p.prior * 10 ^ 12) = 10 ^ 12) := by
  unfold FitPar.checkValues
  rw [hv]
  refine ⟨_, rfl, ?_, ?_⟩
  · simp only [List.any_eq_true, decide_eq_true_eq]
  · simp only [Bool.not_eq_false', List.any_eq_true, decide_eq_true_eq]

/-- C78: values outside the allowed range are reported exactly when there are some. -/
theorem c78_range {p : FitPar} {vs : List ℝ} (hv : p.getValues = .ok vs) (min max : ℝ) :
    ∃ w, p.checkValues min max = .ok w ∧ (w.1 = true ↔ ∃ x ∈ vs, x < min ∨ max < x) := by
  obtain ⟨w, h, h1, _⟩ := checkValues_eq hv min max
  exact ⟨w, h, h1⟩

/-- Rounding to an even whole number. -/
theorem npRintReal_even {x : ℝ} {n : ℤ} (hn : n % 2 = 0) : npRintReal x = n ↔ |x - n| ≤ 1 / 2 := by
  have hfl := Int.floor_add_fract x
  have f0 := Int.fract_nonneg x
  have f1 := Int.fract_lt_one x
  have key : ∀ m : ℤ, ⌊x⌋ = m ↔ (m : ℝ) ≤ x ∧ x < m + 1 := fun m => Int.floor_eq_iff
  unfold npRintReal
  rw [abs_le]
  by_cases h1 : Int.fract x < 1 / 2
  · rw [if_pos h1]
    constructor
    · intro h; rw [h] at hfl; constructor <;> linarith
    · intro h
      rw [key]
      by_contra hc
      have : ⌊x⌋ < n := by
        rw [Int.floor_lt]
        by_contra h2
        exact hc ⟨by linarith, by linarith⟩
      have : (⌊x⌋ : ℝ) + 1 ≤ n := by exact_mod_cast this
      linarith
  · rw [if_neg h1]
    by_cases h2 : 1 / 2 < Int.fract x
    · rw [if_pos h2]
      constructor
      · intro h
        have : (⌊x⌋ : ℝ) + 1 = n := by exact_mod_cast h
        constructor <;> linarith
      · intro h
        have a1 : (⌊x⌋ : ℝ) < n := by linarith
        have a2 : (n : ℝ) < ⌊x⌋ + 2 := by linarith
        have a1 : ⌊x⌋ < n := by exact_mod_cast a1
        have a2 : n < ⌊x⌋ + 2 := by exact_mod_cast a2
        omega
    · rw [if_neg h2]
      have hh : Int.fract x = 1 / 2 := le_antisymm (not_lt.1 h2) (not_lt.1 h1)
      constructor
      · intro h
        split at h
        · rw [h] at hfl; constructor <;> linarith
        · have : (⌊x⌋ : ℝ) + 1 = n := by exact_mod_cast h
          constructor <;> linarith
      · intro h
        have a1 : (⌊x⌋ : ℝ) - 1 < n := by linarith
        have a2 : (n : ℝ) < ⌊x⌋ + 2 := by linarith
        have a1 : ⌊x⌋ - 1 < n := by exact_mod_cast a1
        have a2 : n < ⌊x⌋ + 2 := by exact_mod_cast a2
        split <;> omega

/-- C78, for a prior other than zero: the missing prior is reported exactly when no value agrees with
the prior to a relative accuracy of `0.5 · 10⁻¹²`; in particular not when the prior is a value. -/
theorem c78_prior_partial {p : FitPar} {vs : List ℝ} (hv : p.getValues = .ok vs) (min max : ℝ)
    (h0 : p.prior ≠ 0) :
    ∃ w, p.checkValues min max = .ok w ∧
      (w.2 = true ↔ ∀ x ∈ vs, |p.prior| / (2 * 10 ^ 12) < |x - p.prior|) := by
  obtain ⟨w, h, _, h2⟩ := checkValues_eq hv min max
  refine ⟨w, h, ?_⟩
  have key : ∀ x, npRintReal (x / p.prior * 10 ^ 12) = 10 ^ 12 ↔
      |x - p.prior| ≤ |p.prior| / (2 * 10 ^ 12) := by
    intro x
    rw [npRintReal_even (by norm_num), show (((10 : ℤ) ^ 12 : ℤ) : ℝ) = 10 ^ 12 by norm_num]
    have e : x / p.prior * 10 ^ 12 - 10 ^ 12 = (x - p.prior) / p.prior * 10 ^ 12 := by
      field_simp
    have hp : 0 < |p.prior| := abs_pos.2 h0
    rw [e, abs_mul, abs_div, abs_of_pos (show (0 : ℝ) < 10 ^ 12 by norm_num), div_mul_eq_mul_div,
      div_le_iff₀ hp, le_div_iff₀ (by norm_num)]
    constructor <;> intro h <;> linarith
  rw [← not_iff_not, Bool.not_eq_true, h2]
  push Not
  simp only [key]
  exact ⟨fun ⟨x, a, _, b⟩ => ⟨x, a, b⟩, fun ⟨x, a, b⟩ => ⟨x, a, h0, b⟩⟩

/-- C78 fails for a prior of zero: it is reported as missing whatever the values. -/
theorem c78_zero_negation {p : FitPar} {vs : List ℝ} (hv : p.getValues = .ok vs) (min max : ℝ)
    (h0 : p.prior = 0) : ∃ w, p.checkValues min max = .ok w ∧ w.2 = true := by
  obtain ⟨w, h, _, h2⟩ := checkValues_eq hv min max
  refine ⟨w, h, ?_⟩
  cases hw : w.2 with
  | true => rfl
  | false =>
    obtain ⟨x, _, h3, _⟩ := h2.1 hw
    exact absurd h0 h3

/-- C78 is not vacuous: the prior of `exLinear` is one of its values, and there is a
parameter with prior zero among its values. -/
example : ∃ vs, exLinear.getValues = .ok vs ∧ exLinear.prior ∈ vs ∧ exLinear.prior ≠ 0 := by
  refine ⟨npLinspace 0 10 11, ?_, ?_, ?_⟩
  · norm_num [exLinear, FitPar.new, FitPar.getValues, FitPar.genValues, none_eq_true]
  · norm_num [exLinear, FitPar.new, npLinspace]
    exact ⟨5, by norm_num, by norm_num⟩
  · norm_num [exLinear, FitPar.new, none_eq_true]

end Verif
