import Verif.Lemmas.Decay
import Mathlib.Analysis.SpecialFunctions.Pow.Deriv
import Mathlib.Tactic.NormNum

/-!
# Properties of the decay conversions: C52, C53
-/

namespace Verif

open DBIsotope

variable {c : DecayConst} {s : DBIsotope} {n : Option ℝ} {N L : ℝ}

theorem log_two_pos : 0 < Real.log 2 := Real.log_pos (by norm_num)

/-! ## C52: conversions -/

/-- C52: half-life to activity and back, and activity to half-life and back. -/
theorem c52_half_life_activity (h : s.Atoms c n N) (hN : 0 < N) {x : ℝ} (hx : 0 < x) :
    Inverts (fun T => s.halfLifeToActivity c T n) (fun a => s.activityToHalfLife c a n) x ∧
    Inverts (fun a => s.activityToHalfLife c a n) (fun T => s.halfLifeToActivity c T n) x := by
  have hl := log_two_pos
  refine ⟨⟨Real.log 2 / x * N, by positivity, halfLifeToActivity_ok h hx.ne', ?_⟩,
    ⟨Real.log 2 * N / x, by positivity, activityToHalfLife_ok h hx.ne', ?_⟩⟩
  · simp only [activityToHalfLife_ok h (show Real.log 2 / x * N ≠ 0 by positivity)]
    congr 1; field_simp
  · simp only [halfLifeToActivity_ok h (show Real.log 2 * N / x ≠ 0 by positivity)]
    congr 1; field_simp

/-- C52: effective mass to half-life and back, in both directions. -/
theorem c52_eff_mass_half_life (he : 0 < c.electronMass) (hg : 0 < s.phaseSpace)
    (hM : s.matrixElement ≠ 0) {x : ℝ} (hx : 0 < x) :
    Inverts (s.effMassToHalfLife c) (s.halfLifeToEffMass c) x ∧
    Inverts (s.halfLifeToEffMass c) (s.effMassToHalfLife c) x := by
  have hG : 0 < s.phaseSpace * s.matrixElement ^ 2 := by positivity
  have hp : 0 < 1 / (s.phaseSpace * s.matrixElement ^ 2 * (x ^ 2 / c.electronMass ^ 2)) := by
    positivity
  have hq : 0 < c.electronMass ^ 2 / (s.phaseSpace * s.matrixElement ^ 2 * x) := by positivity
  refine ⟨⟨_, hp, effMassToHalfLife_ok hx he.ne' hG.ne', ?_⟩,
    ⟨_, Real.sqrt_pos.2 hq, halfLifeToEffMass_ok hx hG, ?_⟩⟩
  · rw [halfLifeToEffMass_ok hp hG]
    congr 1
    rw [Real.sqrt_eq_iff_mul_self_eq_of_pos hx]
    field_simp
  · rw [effMassToHalfLife_ok (Real.sqrt_pos.2 hq) he.ne' hG.ne', Real.sq_sqrt hq.le]
    congr 1
    field_simp

/-- C52: activity to counts and back, in both directions. -/
theorem c52_activity_counts (hL : 0 < L) {x : ℝ} (hx : 0 < x) :
    Inverts (fun a => activityToCounts a L) (fun k => countsToActivity k L) x ∧
    Inverts (fun k => countsToActivity k L) (fun a => activityToCounts a L) x := by
  refine ⟨⟨x * L, by positivity, activityToCounts_ok hL, ?_⟩,
    ⟨x / L, by positivity, countsToActivity_ok hL, ?_⟩⟩
  · simp only [countsToActivity_ok hL]; congr 1; field_simp
  · simp only [activityToCounts_ok hL]; congr 1; field_simp

/-- C52: half-life to counts and back, in both directions. -/
theorem c52_half_life_counts (h : s.Atoms c n N) (hN : 0 < N) (hL : 0 < L) {x : ℝ} (hx : 0 < x) :
    Inverts (fun T => s.halfLifeToCounts c T n L) (fun k => s.countsToHalfLife c k n L) x ∧
    Inverts (fun k => s.countsToHalfLife c k n L) (fun T => s.halfLifeToCounts c T n L) x := by
  have hl := log_two_pos
  refine ⟨⟨_, by positivity, halfLifeToCounts_ok h hx.ne' hL, ?_⟩,
    ⟨_, by positivity, countsToHalfLife_ok h hx.ne' hL, ?_⟩⟩
  · simp only [countsToHalfLife_ok h (show Real.log 2 / x * N * L ≠ 0 by positivity) hL]
    congr 1; field_simp
  · simp only [halfLifeToCounts_ok h (show Real.log 2 * N / (x / L) ≠ 0 by positivity) hL]
    congr 1; field_simp

/-- C52: effective mass to counts and back, in both directions. -/
theorem c52_eff_mass_counts (h : s.Atoms c n N) (hN : 0 < N) (hL : 0 < L)
    (he : 0 < c.electronMass) (hg : 0 < s.phaseSpace) (hM : s.matrixElement ≠ 0) {x : ℝ}
    (hx : 0 < x) :
    Inverts (fun m => s.effMassToCounts c m n L) (fun k => s.countsToEffMass c k n L) x ∧
    Inverts (fun k => s.countsToEffMass c k n L) (fun m => s.effMassToCounts c m n L) x := by
  have hl := log_two_pos
  have hG : 0 < s.phaseSpace * s.matrixElement ^ 2 := by positivity
  have hp : 0 < Real.log 2 /
      (1 / (s.phaseSpace * s.matrixElement ^ 2 * (x ^ 2 / c.electronMass ^ 2))) * N * L := by
    positivity
  have hq : 0 < c.electronMass ^ 2 /
      (s.phaseSpace * s.matrixElement ^ 2 * (Real.log 2 * N / (x / L))) := by positivity
  refine ⟨⟨_, hp, effMassToCounts_ok h hx hL he.ne' hG.ne', ?_⟩,
    ⟨_, Real.sqrt_pos.2 hq, countsToEffMass_ok h hN hx hL hG, ?_⟩⟩
  · simp only [countsToEffMass_ok h hN hp hL hG]
    congr 1
    rw [Real.sqrt_eq_iff_mul_self_eq_of_pos hx]
    field_simp
  · simp only [effMassToCounts_ok h (Real.sqrt_pos.2 hq) hL he.ne' hG.ne', Real.sq_sqrt hq.le]
    congr 1
    field_simp

/-- C52: the physical directions. A longer half-life means a lower activity and
fewer counts, a larger effective mass a shorter half-life and more counts, more
counts a larger effective mass. -/
theorem c52_directions (h : s.Atoms c n N) (hN : 0 < N) (hL : 0 < L)
    (he : 0 < c.electronMass) (hg : 0 < s.phaseSpace) (hM : s.matrixElement ≠ 0) :
    Decreases (fun T => s.halfLifeToActivity c T n) ∧
    Decreases (fun a => s.activityToHalfLife c a n) ∧
    Decreases (fun T => s.halfLifeToCounts c T n L) ∧
    Decreases (fun k => s.countsToHalfLife c k n L) ∧
    Decreases (s.effMassToHalfLife c) ∧
    Decreases (s.halfLifeToEffMass c) ∧
    Increases (fun a => activityToCounts a L) ∧
    Increases (fun k => countsToActivity k L) ∧
    Increases (fun m => s.effMassToCounts c m n L) ∧
    Increases (fun k => s.countsToEffMass c k n L) := by
  have hl := log_two_pos
  have hG : 0 < s.phaseSpace * s.matrixElement ^ 2 := by positivity
  refine ⟨?_, ?_, ?_, ?_, ?_, ?_, ?_, ?_, ?_, ?_⟩ <;> intro x x' hx hxx <;>
    have hx' := hx.trans hxx
  · refine ⟨_, _, halfLifeToActivity_ok h hx.ne', halfLifeToActivity_ok h hx'.ne', ?_⟩
    gcongr
  · refine ⟨_, _, activityToHalfLife_ok h hx.ne', activityToHalfLife_ok h hx'.ne', ?_⟩
    gcongr
  · refine ⟨_, _, halfLifeToCounts_ok h hx.ne' hL, halfLifeToCounts_ok h hx'.ne' hL, ?_⟩
    gcongr
  · refine ⟨_, _, countsToHalfLife_ok h hx.ne' hL, countsToHalfLife_ok h hx'.ne' hL, ?_⟩
    gcongr
  · refine ⟨_, _, effMassToHalfLife_ok hx he.ne' hG.ne', effMassToHalfLife_ok hx' he.ne' hG.ne', ?_⟩
    gcongr
  · refine ⟨_, _, halfLifeToEffMass_ok hx hG, halfLifeToEffMass_ok hx' hG, ?_⟩
    refine Real.sqrt_lt_sqrt (by positivity) ?_
    gcongr
  · refine ⟨_, _, activityToCounts_ok hL, activityToCounts_ok hL, ?_⟩
    gcongr
  · refine ⟨_, _, countsToActivity_ok hL, countsToActivity_ok hL, ?_⟩
    gcongr
  · refine ⟨_, _, effMassToCounts_ok h hx hL he.ne' hG.ne', effMassToCounts_ok h hx' hL he.ne' hG.ne', ?_⟩
    gcongr
  · refine ⟨_, _, countsToEffMass_ok h hN hx hL hG, countsToEffMass_ok h hN hx' hL hG, ?_⟩
    refine Real.sqrt_lt_sqrt (by positivity) ?_
    gcongr

/-- C52: the activity is the initial rate at which a population of `N` atoms that
halves every half-life decays. -/
theorem c52_activity_is_rate (h : s.Atoms c n N) {T : ℝ} (hT : 0 < T) :
    ∃ a, s.halfLifeToActivity c T n = .ok a ∧
      HasDerivAt (fun t : ℝ => N * (1 / 2 : ℝ) ^ (t / T)) (-a) 0 := by
  refine ⟨_, halfLifeToActivity_ok h hT.ne', ?_⟩
  have h1 : HasDerivAt (fun t : ℝ => t / T) (1 / T) 0 := (hasDerivAt_id (0 : ℝ)).div_const T
  have h2 := (h1.const_rpow (show (0 : ℝ) < 1 / 2 by norm_num)).const_mul N
  have e : -(Real.log 2 / T * N) =
      N * (Real.log (1 / 2) * (1 / T) * (1 / 2 : ℝ) ^ ((0 : ℝ) / T)) := by
    rw [zero_div, Real.rpow_zero, one_div (2 : ℝ), Real.log_inv]
    ring
  rw [e]
  exact h2

/-- C52: the half-life belongs to the effective mass as in the textbook relation
`1 / T = G M² (m / mₑ)²`. -/
theorem c52_eff_mass_relation (he : 0 < c.electronMass) (hg : 0 < s.phaseSpace)
    (hM : s.matrixElement ≠ 0) {m : ℝ} (hm : 0 < m) :
    ∃ T, s.effMassToHalfLife c m = .ok T ∧
      1 / T = s.phaseSpace * s.matrixElement ^ 2 * (m / c.electronMass) ^ 2 := by
  have hG : 0 < s.phaseSpace * s.matrixElement ^ 2 := by positivity
  refine ⟨_, effMassToHalfLife_ok hm he.ne' hG.ne', ?_⟩
  rw [one_div_one_div, div_pow]

/-- C52: livetimes and effective masses that are not positive are rejected. -/
theorem c52_rejects (h : s.Atoms c n N) {x : ℝ} (hL : L ≤ 0) :
    activityToCounts x L = .error .valueError ∧ countsToActivity x L = .error .valueError ∧
    s.halfLifeToCounts c x n L = .error .valueError ∧
    s.countsToHalfLife c x n L = .error .valueError ∧
    s.countsToEffMass c x n L = .error .valueError ∧
    s.effMassToCounts c x n L = .error .valueError ∧
    (x ≤ 0 → s.effMassToHalfLife c x = .error .valueError ∧
      ∀ L', s.effMassToCounts c x n L' = .error .valueError) := by
  refine ⟨?_, ?_, ?_, ?_, ?_, ?_, ?_⟩
  · simp only [activityToCounts, if_pos hL]
  · simp only [countsToActivity, if_pos hL]
  · simp only [halfLifeToCounts, h.eq, bind, Except.bind, if_pos hL]
  · simp only [countsToHalfLife, h.eq, bind, Except.bind, if_pos hL]
  · simp only [countsToEffMass, h.eq, bind, Except.bind, if_pos hL]
  · simp only [effMassToCounts, h.eq, bind, Except.bind, if_pos hL, ite_self]
  · intro hx
    exact ⟨by simp only [effMassToHalfLife, if_pos hx],
      fun L' => by simp only [effMassToCounts, if_pos hx]⟩

/-! ## C53: number of atoms -/

/-- Tellurium-130, as in `/repo/echidna/calc/decay.py`. -/
noncomputable def exTe : DBIsotope where
  weightIso := 129.906229
  weightNat := 127.6
  abundance := 0.3408
  phaseSpace := 3.69 / 10 ^ 14
  matrixElement := 4.03
  loading := 0.003
  outerRadius := 5997
  scintDensity := 862.8 / 10 ^ 9

/-- The mass of the isotope in kg that a call of `get_n_atoms` refers to. -/
noncomputable def DBIsotope.isotopeMass (s : DBIsotope) (loading density mass radius : Option ℝ) : ℝ :=
  s.abundance * (s.weightIso / s.weightNat) * loading.getD s.loading *
    mass.getD (density.getD s.scintDensity * (4 / 3 * Real.pi * radius.getD s.outerRadius ^ 3))

/-- C53: the atoms have the mass of the isotope: `N · A / (1000 Nₐ)` is the target
mass when one is given, and otherwise abundance times mass ratio times loading
times scintillator mass, by default that of a sphere with the outer radius. -/
theorem c53_mass (ha : 0 < c.avogadro) (hu : 0 < c.amu) (hi : 0 < s.weightIso)
    (hn : 0 < s.weightNat) {loading density target mass radius : Option ℝ}
    (hr : 0 < radius.getD s.outerRadius) (hl : 0 ≤ loading.getD s.loading)
    (hl' : loading.getD s.loading ≤ 1) :
    ∃ N, s.getNAtoms c loading density target mass radius = .ok N ∧
      N * (s.weightIso / 1000) / c.avogadro =
        target.getD (s.isotopeMass loading density mass radius) := by
  have h1 : s.weightIso * (1 / 10 ^ 3) ≠ 0 := by positivity
  have h2 : s.weightNat * c.amu ≠ 0 := by positivity
  have h3 : ¬ (loading.getD s.loading < 0 ∨ loading.getD s.loading > 1) := by
    rintro (h | h) <;> linarith
  unfold getNAtoms
  simp only [if_neg (not_le.2 hr), if_neg h3]
  cases target with
  | some t =>
    refine ⟨_, realDiv_ok h1, ?_⟩
    rw [Option.getD_some]
    field_simp
    norm_num
  | none =>
    simp only [realDiv_ok h2, bind, Except.bind, realDiv_ok h1]
    refine ⟨_, rfl, ?_⟩
    rw [Option.getD_none, isotopeMass]
    field_simp
    norm_num

/-- C53: the number of atoms is positive for a loaded detector, and proportional to
the loading and to the cube of the radius. -/
theorem c53_scaling (ha : 0 < c.avogadro) (hu : 0 < c.amu) (hi : 0 < s.weightIso)
    (hn : 0 < s.weightNat) (hab : 0 < s.abundance) {l d r k : ℝ} (hr : 0 < r) (hl : 0 < l)
    (hl' : l ≤ 1) (hd : 0 < d) (hk : 0 < k) :
    ∃ N, 0 < N ∧ s.getNAtoms c (some l) (some d) none none (some r) = .ok N ∧
      s.getNAtoms c (some l) (some d) none none (some (k * r)) = .ok (k ^ 3 * N) ∧
      (k * l ≤ 1 → s.getNAtoms c (some (k * l)) (some d) none none (some r) = .ok (k * N)) ∧
      s.getNAtoms c (some l) (some (k * d)) none none (some r) = .ok (k * N) := by
  have h1 : s.weightIso * (1 / 10 ^ 3) ≠ 0 := by positivity
  have h2 : s.weightNat * c.amu ≠ 0 := by positivity
  have h3 : ¬ (l < 0 ∨ l > 1) := by rintro (h | h) <;> linarith
  have hkr : 0 < k * r := by positivity
  have hpi := Real.pi_pos
  refine ⟨s.abundance * (s.weightIso * c.amu) / (s.weightNat * c.amu) * l *
    (d * (4 / 3 * Real.pi * r ^ 3)) * c.avogadro / (s.weightIso * (1 / 10 ^ 3)),
    by positivity, ?_, ?_, ?_, ?_⟩
  · simp only [getNAtoms, Option.getD_some, Option.getD_none, if_neg (not_le.2 hr), if_neg h3,
      realDiv_ok h2, bind, Except.bind, realDiv_ok h1]
  · simp only [getNAtoms, Option.getD_some, Option.getD_none, if_neg (not_le.2 hkr), if_neg h3,
      realDiv_ok h2, bind, Except.bind, realDiv_ok h1]
    congr 1; ring
  · intro hkl
    have h4 : ¬ (k * l < 0 ∨ k * l > 1) := by
      have : 0 < k * l := by positivity
      rintro (h | h) <;> linarith
    simp only [getNAtoms, Option.getD_some, Option.getD_none, if_neg (not_le.2 hr), if_neg h4,
      realDiv_ok h2, bind, Except.bind, realDiv_ok h1]
    congr 1; ring
  · simp only [getNAtoms, Option.getD_some, Option.getD_none, if_neg (not_le.2 hr), if_neg h3,
      realDiv_ok h2, bind, Except.bind, realDiv_ok h1]
    congr 1; ring

/-- C53: a radius that is not positive and a loading outside 0..1 are rejected,
wherever they come from, and whatever the other arguments. -/
theorem c53_rejects {loading density target mass radius : Option ℝ}
    (h : radius.getD s.outerRadius ≤ 0 ∨ loading.getD s.loading < 0 ∨ 1 < loading.getD s.loading) :
    s.getNAtoms c loading density target mass radius = .error .valueError := by
  unfold getNAtoms
  by_cases hr : radius.getD s.outerRadius ≤ 0
  · simp only [if_pos hr]
  · have hl : loading.getD s.loading < 0 ∨ loading.getD s.loading > 1 := by
      rcases h with h | h
      · exact absurd h hr
      · exact h
    simp only [if_neg hr, if_pos hl]

/-- C53: the constructor, given values other than zero, accepts exactly the
abundances and loadings in 0..1 and positive radii, and keeps them. -/
theorem c53_new_partial {a b ab g m l r d : ℝ} (hl : l ≠ 0) (hr : r ≠ 0) (hd : d ≠ 0) :
    (0 ≤ ab ∧ ab ≤ 1 ∧ 0 ≤ l ∧ l ≤ 1 ∧ 0 < r → DBIsotope.new c a b ab g m (some l) (some r) (some d) =
      .ok ⟨a, b, ab, g, m, l, r, d⟩) ∧
    (¬ (0 ≤ ab ∧ ab ≤ 1 ∧ 0 ≤ l ∧ l ≤ 1 ∧ 0 < r) →
      DBIsotope.new c a b ab g m (some l) (some r) (some d) = .error .valueError) := by
  have t : ∀ {x : ℝ}, x ≠ 0 → realTruthy (some x) = some x := fun h => by simp [realTruthy, h]
  simp only [DBIsotope.new, t hl, t hr, t hd]
  constructor
  · rintro ⟨h1, h2, h3, h4, h5⟩
    rw [if_neg (by rintro (h | h) <;> linarith), if_neg (by rintro (h | h) <;> linarith),
      if_neg (by linarith)]
  · intro h
    by_cases h1 : ab < 0 ∨ ab > 1
    · rw [if_pos h1]
    · rw [if_neg h1]
      by_cases h2 : l < 0 ∨ l > 1
      · rw [if_pos h2]
      · rw [if_neg h2]
        by_cases h3 : r ≤ 0
        · rw [if_pos h3]
        · exact absurd ⟨not_lt.1 (fun x => h1 (.inl x)), not_lt.1 (fun x => h1 (.inr x)),
            not_lt.1 (fun x => h2 (.inl x)), not_lt.1 (fun x => h2 (.inr x)), not_le.1 h3⟩ h

/-- C53 fails for zero arguments: an isotope without loading gets the default
loading, and so a positive number of atoms, and the radius zero is not rejected
but replaced. -/
theorem c53_zero_negation :
    ∃ s, DBIsotope.new DecayConst.std 130 127 (1 / 3) 1 1 (some 0) (some 0) = .ok s ∧
      s.loading = 0.003 ∧ s.outerRadius = 5997 ∧
      ∃ N, s.getNAtoms DecayConst.std = .ok N ∧ 0 < N := by
  have t : realTruthy (some 0) = none := by simp [realTruthy]
  have t' : realTruthy none = none := rfl
  refine ⟨⟨130, 127, 1 / 3, 1, 1, 0.003, 5997, 862.8 / 10 ^ 9⟩, ?_, rfl, rfl, ?_⟩
  · simp only [DBIsotope.new, t, t']
    rw [if_neg (by norm_num)]
    rfl
  · obtain ⟨N, hN, h, _⟩ := c53_scaling (c := DecayConst.std)
      (s := ⟨130, 127, 1 / 3, 1, 1, 0.003, 5997, 862.8 / 10 ^ 9⟩) (l := 0.003)
      (d := 862.8 / 10 ^ 9) (r := 5997) (k := 1) (by norm_num [DecayConst.std])
      (by norm_num [DecayConst.std]) (by norm_num) (by norm_num) (by norm_num) (by norm_num)
      (by norm_num) (by norm_num) (by norm_num) (by norm_num)
    exact ⟨N, h, hN⟩

/-- C52 and C53 are not vacuous: tellurium in the default detector. -/
example : ∃ N, exTe.Atoms DecayConst.std none N ∧ 0 < N ∧ 0 < DecayConst.std.electronMass ∧
    0 < exTe.phaseSpace ∧ exTe.matrixElement ≠ 0 := by
  obtain ⟨N, hN, h, _⟩ := c53_scaling (c := DecayConst.std)
      (s := exTe) (l := 0.003)
      (d := 862.8 / 10 ^ 9) (r := 5997) (k := 1) (by norm_num [DecayConst.std])
      (by norm_num [DecayConst.std]) (by norm_num [exTe]) (by norm_num [exTe]) (by norm_num [exTe])
      (by norm_num) (by norm_num) (by norm_num) (by norm_num) (by norm_num)
  exact ⟨N, .inr ⟨rfl, h⟩, hN, by norm_num [DecayConst.std], by norm_num [exTe],
    by norm_num [exTe]⟩

end Verif
