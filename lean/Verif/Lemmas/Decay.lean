import Verif.Spec.Decay
import Mathlib.Tactic.Linarith
import Mathlib.Tactic.FieldSimp
import Mathlib.Tactic.Positivity
import Mathlib.Tactic.Ring

/-!
# Lemmas about the decay conversions
-/

namespace Verif

theorem realDiv_ok {a b : ℝ} (h : b ≠ 0) : realDiv a b = .ok (a / b) := by
  simp [realDiv, h]

theorem realSqrt_ok {a : ℝ} (h : 0 ≤ a) : realSqrt a = .ok (Real.sqrt a) := by
  simp [realSqrt, not_lt.2 h]

namespace DBIsotope

variable {c : DecayConst} {s : DBIsotope} {n : Option ℝ} {N L : ℝ}

theorem Atoms.eq (h : s.Atoms c n N) : s.orNAtoms c n = .ok N := by
  rcases h with rfl | ⟨rfl, h⟩
  · rfl
  · exact h

theorem halfLifeToActivity_ok (h : s.Atoms c n N) {T : ℝ} (hT : T ≠ 0) :
    s.halfLifeToActivity c T n = .ok (Real.log 2 / T * N) := by
  simp only [halfLifeToActivity, h.eq, bind, Except.bind, realDiv_ok hT]

theorem activityToHalfLife_ok (h : s.Atoms c n N) {a : ℝ} (ha : a ≠ 0) :
    s.activityToHalfLife c a n = .ok (Real.log 2 * N / a) := by
  simp only [activityToHalfLife, h.eq, bind, Except.bind, realDiv_ok ha]

theorem activityToCounts_ok {a : ℝ} (hL : 0 < L) : activityToCounts a L = .ok (a * L) := by
  simp [activityToCounts, not_le.2 hL]

theorem countsToActivity_ok {a : ℝ} (hL : 0 < L) : countsToActivity a L = .ok (a / L) := by
  simp [countsToActivity, not_le.2 hL, realDiv_ok hL.ne']

theorem halfLifeToCounts_ok (h : s.Atoms c n N) {T : ℝ} (hT : T ≠ 0) (hL : 0 < L) :
    s.halfLifeToCounts c T n L = .ok (Real.log 2 / T * N * L) := by
  simp only [halfLifeToCounts, h.eq, bind, Except.bind, if_neg (not_le.2 hL),
    halfLifeToActivity_ok (.inl rfl) hT, activityToCounts_ok hL]

theorem countsToHalfLife_ok (h : s.Atoms c n N) {k : ℝ} (hk : k ≠ 0) (hL : 0 < L) :
    s.countsToHalfLife c k n L = .ok (Real.log 2 * N / (k / L)) := by
  simp only [countsToHalfLife, h.eq, bind, Except.bind, if_neg (not_le.2 hL),
    countsToActivity_ok hL, activityToHalfLife_ok (.inl rfl) (div_ne_zero hk hL.ne')]

theorem effMassToHalfLife_ok {m : ℝ} (hm : 0 < m) (he : c.electronMass ≠ 0)
    (hg : s.phaseSpace * s.matrixElement ^ 2 ≠ 0) :
    s.effMassToHalfLife c m =
      .ok (1 / (s.phaseSpace * s.matrixElement ^ 2 * (m ^ 2 / c.electronMass ^ 2))) := by
  have h1 : c.electronMass ^ 2 ≠ 0 := pow_ne_zero _ he
  have h2 : s.phaseSpace * s.matrixElement ^ 2 * (m ^ 2 / c.electronMass ^ 2) ≠ 0 :=
    mul_ne_zero hg (div_ne_zero (pow_ne_zero _ hm.ne') h1)
  simp only [effMassToHalfLife, if_neg (not_le.2 hm), bind, Except.bind, realDiv_ok h1,
    realDiv_ok h2]

theorem halfLifeToEffMass_ok {T : ℝ} (hT : 0 < T) (hg : 0 < s.phaseSpace * s.matrixElement ^ 2) :
    s.halfLifeToEffMass c T =
      .ok (Real.sqrt (c.electronMass ^ 2 / (s.phaseSpace * s.matrixElement ^ 2 * T))) := by
  have h1 : 0 < s.phaseSpace * s.matrixElement ^ 2 * T := mul_pos hg hT
  have h2 : 0 ≤ c.electronMass ^ 2 / (s.phaseSpace * s.matrixElement ^ 2 * T) := by positivity
  simp only [halfLifeToEffMass, bind, Except.bind, realDiv_ok h1.ne', realSqrt_ok h2]

theorem countsToEffMass_ok (h : s.Atoms c n N) (hN : 0 < N) {k : ℝ} (hk : 0 < k) (hL : 0 < L)
    (hg : 0 < s.phaseSpace * s.matrixElement ^ 2) :
    s.countsToEffMass c k n L =
      .ok (Real.sqrt (c.electronMass ^ 2 /
        (s.phaseSpace * s.matrixElement ^ 2 * (Real.log 2 * N / (k / L))))) := by
  have hl := Real.log_pos (show (1 : ℝ) < 2 by norm_num)
  have hT : 0 < Real.log 2 * N / (k / L) := by positivity
  simp only [countsToEffMass, h.eq, bind, Except.bind, if_neg (not_le.2 hL),
    countsToHalfLife_ok (.inl rfl) hk.ne' hL, halfLifeToEffMass_ok hT hg]

theorem effMassToCounts_ok (h : s.Atoms c n N) {m : ℝ} (hm : 0 < m) (hL : 0 < L)
    (he : c.electronMass ≠ 0) (hg : s.phaseSpace * s.matrixElement ^ 2 ≠ 0) :
    s.effMassToCounts c m n L = .ok (Real.log 2 /
      (1 / (s.phaseSpace * s.matrixElement ^ 2 * (m ^ 2 / c.electronMass ^ 2))) * N * L) := by
  have h1 : c.electronMass ^ 2 ≠ 0 := pow_ne_zero _ he
  have h2 : s.phaseSpace * s.matrixElement ^ 2 * (m ^ 2 / c.electronMass ^ 2) ≠ 0 :=
    mul_ne_zero hg (div_ne_zero (pow_ne_zero _ hm.ne') h1)
  simp only [effMassToCounts, h.eq, bind, Except.bind, if_neg (not_le.2 hL), if_neg (not_le.2 hm),
    effMassToHalfLife_ok hm he hg, halfLifeToCounts_ok (.inl rfl) (one_div_ne_zero h2) hL]

end DBIsotope

end Verif
