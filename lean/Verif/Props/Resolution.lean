import Verif.Model.Resolution
import Verif.Spec.Resolution
import Mathlib.Tactic.Linarith
import Mathlib.Tactic.FieldSimp
import Mathlib.Tactic.Positivity
import Mathlib.Tactic.Ring
import Mathlib.Algebra.Order.Floor.Ring

/-!
# C33, C73: smearing in two steps, smearing weights
-/

namespace Verif

open Real

/-- **C33, light yield.** The light yield computed for smearing from `cur` to `new` is positive
and such that the variances add at every energy. -/
theorem c33_light_yield (own new cur ly : ℝ) (hn : 0 < new) (hc : 0 < cur)
    (h : calcSmearLY own new (some cur) = .ok ly) :
    0 < ly ∧ ∀ (q : Bool) (n e : ℝ), 0 ≤ e → ∃ sNew sCur sLy,
      (Smearer.lightYield q new n).getSigma e = .ok sNew ∧
      (Smearer.lightYield q cur n).getSigma e = .ok sCur ∧
      (Smearer.lightYield q ly n).getSigma e = .ok sLy ∧ sNew ^ 2 = sCur ^ 2 + sLy ^ 2 := by
  unfold calcSmearLY at h
  simp only [hc.ne', if_false] at h
  split at h
  · exact absurd h (by simp)
  · rename_i h1
    split at h
    · exact absurd h (by simp)
    · rename_i h2
      injection h with h
      have hlt : 0 < cur - new := lt_of_le_of_ne (by linarith) (Ne.symm h2)
      have hly : 0 < ly := by rw [← h]; positivity
      refine ⟨hly, fun q n e he => ?_⟩
      have g : ∀ l : ℝ, 0 < l → (Smearer.lightYield q l n).getSigma e = .ok (√(e / l)) := by
        intro l hl
        simp only [Smearer.getSigma]
        rw [if_neg]
        exact not_lt.2 (by positivity)
      refine ⟨_, _, _, g new hn, g cur hc, g ly hly, ?_⟩
      rw [sq_sqrt (by positivity), sq_sqrt (by positivity), sq_sqrt (by positivity), ← h]
      field_simp
      ring

/-- **C33, resolution.** The resolution computed for smearing from `cur` to `new` is such that
the variances add, at every energy for the energy class and for the radius class. -/
theorem c33_resolution (own : Except PyErr ℝ) (new cur r : ℝ) (hc : 0 < cur)
    (h : calcSmearRes own new (some cur) = .ok r) :
    0 ≤ r ∧ (∀ (q : Bool) (n e : ℝ), 0 ≤ e → ∃ sNew sCur sR,
      (Smearer.energyRes q (some new) n).getSigma e = .ok sNew ∧
      (Smearer.energyRes q (some cur) n).getSigma e = .ok sCur ∧
      (Smearer.energyRes q (some r) n).getSigma e = .ok sR ∧ sNew ^ 2 = sCur ^ 2 + sR ^ 2) ∧
    (∀ (n e : ℝ), ∃ sNew sCur sR, (Smearer.radial new n).getSigma e = .ok sNew ∧
      (Smearer.radial cur n).getSigma e = .ok sCur ∧
      (Smearer.radial r n).getSigma e = .ok sR ∧ sNew ^ 2 = sCur ^ 2 + sR ^ 2) := by
  unfold calcSmearRes at h
  simp only [hc.ne', if_false, bind, Except.bind] at h
  split at h
  · exact absurd h (by simp)
  · rename_i h1
    injection h with h
    have hsq : r ^ 2 = new ^ 2 - cur ^ 2 := by
      rw [← h, sq_abs, sq_sqrt]
      nlinarith
    refine ⟨by rw [← h]; exact abs_nonneg _, ?_, ?_⟩
    · intro q n e he
      have g : ∀ l : ℝ, (Smearer.energyRes q (some l) n).getSigma e =
          .ok (l * e ^ ((1 : ℝ) / 2)) := by
        intro l
        simp only [Smearer.getSigma]
        rw [if_neg (not_lt.2 he)]
      refine ⟨_, _, _, g new, g cur, g r, ?_⟩
      rw [mul_pow, mul_pow, mul_pow, hsq]
      ring
    · intro n e
      exact ⟨_, _, _, rfl, rfl, rfl, by rw [hsq]; ring⟩

/-- **C33, acceptance.** A better target is rejected with a `ValueError`, a worse one is
accepted; for an equal target the resolution classes give zero and the light yield is
undefined (division by zero). A zero or missing current value stands for the value of the
object. -/
theorem c33_acceptance (own new cur : ℝ) (hc : 0 < cur) :
    (cur < new → calcSmearLY own new (some cur) = .error .valueError) ∧
    (new < cur → ∃ r, calcSmearLY own new (some cur) = .ok r) ∧
    calcSmearLY own cur (some cur) = .error .zeroDivision ∧
    (∀ o, new < cur → calcSmearRes o new (some cur) = .error .valueError) ∧
    (∀ o, cur ≤ new → ∃ r, calcSmearRes o new (some cur) = .ok r) ∧
    (∀ o, calcSmearRes o cur (some cur) = .ok 0) ∧
    calcSmearLY cur new none = calcSmearLY own new (some cur) ∧
    calcSmearLY cur new (some 0) = calcSmearLY own new (some cur) ∧
    calcSmearRes (.ok cur) new none = calcSmearRes (.ok own) new (some cur) ∧
    calcSmearRes (.ok cur) new (some 0) = calcSmearRes (.ok own) new (some cur) ∧
    calcSmearRes (Smearer.newRes true).getResolution new none = .error .attributeError := by
  refine ⟨?_, ?_, ?_, ?_, ?_, ?_, ?_, ?_, ?_, ?_, rfl⟩
  · intro h; simp [calcSmearLY, hc.ne', h]
  · intro h
    simp only [calcSmearLY, hc.ne', if_false]
    rw [if_neg (by linarith), if_neg (by linarith)]
    exact ⟨_, rfl⟩
  · simp [calcSmearLY, hc.ne']
  · intro o h; simp [calcSmearRes, hc.ne', h, bind, Except.bind]
  · intro o h
    simp only [calcSmearRes, hc.ne', if_false, bind, Except.bind]
    rw [if_neg (by linarith)]
    exact ⟨_, rfl⟩
  · intro o; simp [calcSmearRes, hc.ne', bind, Except.bind]
  · simp [calcSmearLY, hc.ne']
  · simp [calcSmearLY, hc.ne']
  · simp [calcSmearRes, hc.ne', bind, Except.bind]
  · simp [calcSmearRes, hc.ne', bind, Except.bind]

/-- C33 is not vacuous: from 200 to 100 photons per MeV, from 3 to 5 per cent. -/
example : (∃ r, calcSmearLY 200 100 (some 200) = .ok r ∧ r = 200) ∧
    ∃ r, calcSmearRes (.error .attributeError) 0.05 (some 0.03) = .ok r ∧ r ^ 2 = 0.0016 := by
  constructor
  · refine ⟨_, ?_, rfl⟩
    norm_num [calcSmearLY]
  · refine ⟨|√(0.05 ^ 2 - 0.03 ^ 2)|, ?_, ?_⟩
    · norm_num [calcSmearRes, bind, Except.bind]
    · rw [sq_abs, sq_sqrt] <;> norm_num

/-! ### settings -/

/-- The settings a smearing object can have. -/
def Smearer.Valid : Smearer → Prop
  | .lightYield _ ly n => 0 < ly ∧ 0 < n
  | .energyRes _ r n => (∀ v, r = some v → 0 < v ∧ v < 1) ∧ 0 < n
  | .radial r n => 0 < r ∧ 0 < n

/-- A call that changes the settings: of the resolution, or of the number of sigma. -/
inductive Setting where
  | resolution (v : ℝ)
  | numSigma (v : ℝ)

noncomputable def Smearer.run (o : Smearer) : Setting → Smearer
  | .resolution v => (o.setResolution v).1
  | .numSigma v => (o.setNumSigma v).1

/-- **C73, settings.** Whatever calls are made, accepted or rejected, the resolution and the
width of the window stay positive, and a rejected call changes nothing. -/
theorem c73_settings (calls : List Setting) (o : Smearer) (ho : o.Valid) :
    (calls.foldl Smearer.run o).Valid ∧
    (∀ v, (o.setResolution v).2 ≠ none → (o.setResolution v).1 = o) ∧
    ∀ v, (o.setNumSigma v).2 ≠ none → (o.setNumSigma v).1 = o := by
  refine ⟨?_, ?_, ?_⟩
  · induction calls generalizing o with
    | nil => exact ho
    | cons c calls ih =>
      rw [List.foldl_cons]
      apply ih
      cases c with
      | resolution v =>
        cases o with
        | lightYield q ly n =>
          simp only [Smearer.run, Smearer.setResolution]
          split
          · rename_i h; exact ⟨h, ho.2⟩
          · exact ho
        | energyRes q r n =>
          simp only [Smearer.run, Smearer.setResolution]
          split
          · rename_i h
            exact ⟨fun w hw => by injection hw with hw; rw [← hw]; exact h, ho.2⟩
          · exact ho
        | radial r n =>
          simp only [Smearer.run, Smearer.setResolution]
          split
          · rename_i h; exact ⟨h, ho.2⟩
          · exact ho
      | numSigma v =>
        cases o <;>
        · simp only [Smearer.run, Smearer.setNumSigma]
          split
          · rename_i h; exact ⟨ho.1, h⟩
          · exact ho
  · intro v hv
    cases o <;>
    · simp only [Smearer.setResolution] at hv ⊢
      split at hv
      · exact absurd rfl hv
      · rename_i h
        rw [if_neg h]
  · intro v hv
    cases o <;>
    · simp only [Smearer.setNumSigma] at hv ⊢
      split at hv
      · exact absurd rfl hv
      · rename_i h
        rw [if_neg h]

/-- The resolutions an object takes: a fraction for the energy resolution, a positive number for the
light yield and the position. -/
def Smearer.Takes (v : ℝ) : Smearer → Prop
  | .energyRes _ _ _ => 0 < v ∧ v < 1
  | _ => 0 < v

/-- **C73, what is accepted.** A resolution is accepted exactly when the object takes it, and is then the
one the object has; others raise `ValueError`. The number of sigma has to be positive. -/
theorem c73_accepted (o : Smearer) (v : ℝ) :
    (o.Takes v → (o.setResolution v).2 = none ∧ (o.setResolution v).1.getResolution = .ok v) ∧
    (¬ o.Takes v → (o.setResolution v).2 = some .valueError) ∧
    (0 < v → (o.setNumSigma v).2 = none ∧ (o.setNumSigma v).1.getResolution = o.getResolution) ∧
    (¬ 0 < v → (o.setNumSigma v).2 = some .valueError) := by
  refine ⟨fun h => ?_, fun h => ?_, fun h => ?_, fun h => ?_⟩
  · cases o <;> simp only [Smearer.Takes] at h <;>
      simp only [Smearer.setResolution, h, and_self, if_true] <;> exact ⟨trivial, rfl⟩
  · cases o <;> simp only [Smearer.Takes] at h <;> simp only [Smearer.setResolution, h, if_false]
  · cases o with
    | energyRes q r n =>
      cases r <;> simp only [Smearer.setNumSigma, h, if_true] <;> exact ⟨trivial, rfl⟩
    | _ => simp only [Smearer.setNumSigma, h, if_true]; exact ⟨trivial, rfl⟩
  · cases o <;> simp only [Smearer.setNumSigma, h, if_false]

/-- A resolution of 5 per cent is taken, one of 2 only as a light yield or a position. -/
example : (Smearer.newRes false).Takes 0.05 ∧ ¬ (Smearer.newRes false).Takes 2 ∧
    (Smearer.newLY true).Takes 2 ∧ Smearer.newRadial.Takes 2 := by
  refine ⟨⟨by norm_num, by norm_num⟩, fun h => ?_, ?_, ?_⟩
  · exact absurd h.2 (by norm_num)
  · show (0 : ℝ) < 2; norm_num
  · show (0 : ℝ) < 2; norm_num

example : (Smearer.newLY true).Valid ∧ (Smearer.newRes false).Valid ∧ Smearer.newRadial.Valid := by
  refine ⟨⟨by norm_num, by norm_num⟩, ⟨by simp, by norm_num⟩, by norm_num, by norm_num⟩

/-! ### weights -/

theorem calcGaussian_eq {x mean sigma : ℝ} (hs : 0 < sigma) :
    calcGaussian x mean sigma = .ok (normalDensity mean sigma x) := by
  unfold calcGaussian normalDensity
  rw [if_neg hs.ne']
  congr 1
  rw [div_eq_mul_one_div, mul_comm]
  congr 2
  field_simp

theorem log_factorial_sum (n : ℕ) :
    ((List.range n).map (fun i : ℕ => log ((i : ℝ) + 1))).sum = log (n.factorial : ℝ) := by
  induction n with
  | zero => simp
  | succ n ih =>
    rw [List.range_succ, List.map_append, List.sum_append, ih, Nat.factorial_succ]
    push_cast
    rw [log_mul (by positivity) (by positivity)]
    simp [add_comm]

theorem calcPoissonEnergy_eq {ly x lamb : ℝ} (hly : 0 < ly) (hx : 0 ≤ x) (hl : 0 < lamb) :
    calcPoissonEnergy ly x lamb = .ok (poissonProb (lamb * ly) ⌊x * ly⌋₊) := by
  unfold calcPoissonEnergy
  have he : 0 < lamb * ly := by positivity
  have hp : pyIntReal (x * ly) = ((⌊x * ly⌋₊ : ℕ) : ℤ) := by
    unfold pyIntReal
    rw [if_pos (by positivity), Int.natCast_floor_eq_floor (by positivity)]
  simp only [hp, not_le.2 he, if_false]
  congr 1
  rw [Int.toNat_natCast, log_factorial_sum, exp_sub, exp_sub, exp_log (by positivity),
    Int.cast_natCast, ← log_pow, exp_log (by positivity), poissonProb, exp_neg]
  field_simp

/-- **C73, Gaussian weights.** With Gaussian smearing, the weight of a point is the density of
the normal distribution centred at the bin's centre whose width is the configured one:
`sqrt(E / light yield)`, `resolution · sqrt(E)`, or the position resolution. -/
theorem c73_gaussian (x mean : ℝ) (hm : 0 < mean) (n : ℝ) :
    (∀ ly, 0 < ly → (Smearer.lightYield false ly n).weight x mean =
      .ok (normalDensity mean (√(mean / ly)) x)) ∧
    (∀ r, 0 < r → (Smearer.energyRes false (some r) n).weight x mean =
      .ok (normalDensity mean (r * √mean) x)) ∧
    (∀ r, 0 < r → (Smearer.radial r n).weight x mean = .ok (normalDensity mean r x)) := by
  refine ⟨?_, ?_, ?_⟩
  · intro ly hly
    have : ¬ mean / ly < 0 := not_lt.2 (by positivity)
    simp only [Smearer.weight, Smearer.getSigma, this, if_false, bind, Except.bind]
    exact calcGaussian_eq (by positivity)
  · intro r hr
    simp only [Smearer.weight, Smearer.getSigma, not_lt.2 hm.le, if_false, bind, Except.bind]
    rw [← sqrt_eq_rpow]
    exact calcGaussian_eq (by positivity)
  · intro r hr
    simp only [Smearer.weight, Smearer.getSigma, bind, Except.bind]
    exact calcGaussian_eq hr

/-- **C73, Poisson weights, light yield.** With Poisson smearing, the weight of a point is the
Poisson probability of its whole number of photons when the bin's centre is the mean, both
at the configured light yield. -/
theorem c73_poisson (x mean ly n : ℝ) (hx : 0 ≤ x) (hm : 0 < mean) (hly : 0 < ly) :
    (Smearer.lightYield true ly n).weight x mean =
      .ok (poissonProb (mean * ly) ⌊x * ly⌋₊) := by
  have : ¬ mean / ly < 0 := not_lt.2 (by positivity)
  simp only [Smearer.weight, Smearer.getSigma, this, if_false, bind, Except.bind]
  exact calcPoissonEnergy_eq hly hx hm

/-- **C73, positive weights.** All weights of points at positive energy are positive, as C32
requires. -/
theorem c73_positive (o : Smearer) (ho : o.Valid) (x mean w : ℝ) (hm : 0 < mean)
    (h : o.weight x mean = .ok w) : 0 < w := by
  have gauss : ∀ sigma, 0 < sigma → calcGaussian x mean sigma = .ok w → 0 < w := by
    intro sigma hs hg
    rw [calcGaussian_eq hs] at hg
    injection hg with hg
    rw [← hg]; unfold normalDensity
    have := Real.pi_pos
    positivity
  have pois : ∀ ly, calcPoissonEnergy ly x mean = .ok w → 0 < w := by
    intro ly hp
    unfold calcPoissonEnergy at hp
    dsimp only at hp
    split at hp
    · exact absurd hp (by simp)
    · injection hp with hp
      rw [← hp]; exact exp_pos _
  cases o with
  | lightYield q ly n =>
    have hly := ho.1
    have : ¬ mean / ly < 0 := not_lt.2 (by positivity)
    cases q
    · simp only [Smearer.weight, Smearer.getSigma, this, if_false, bind, Except.bind] at h
      exact gauss _ (by positivity) h
    · simp only [Smearer.weight, Smearer.getSigma, this, if_false, bind, Except.bind] at h
      exact pois _ h
  | energyRes q r n =>
    cases r with
    | none => exact absurd h (by simp [Smearer.weight, Smearer.getSigma, bind, Except.bind])
    | some r =>
      have hr := (ho.1 r rfl).1
      cases q
      · simp only [Smearer.weight, Smearer.getSigma, not_lt.2 hm.le, if_false, bind,
          Except.bind] at h
        exact gauss _ (by positivity) h
      · simp only [Smearer.weight, Smearer.getSigma, not_lt.2 hm.le, if_false, bind,
          Except.bind] at h
        exact pois _ h
  | radial r n =>
    simp only [Smearer.weight, Smearer.getSigma, bind, Except.bind] at h
    exact gauss _ ho.1 h

theorem normalDensity_mean {mean s s' : ℝ} (he : normalDensity mean s mean = normalDensity mean s' mean) : s = s' := by
  unfold normalDensity at he
  have h2 : 0 < √(2 * π) := by have := Real.pi_pos; positivity
  simp only [sub_self, zero_div] at he
  norm_num at he
  exact he.resolve_right (by have := Real.pi_pos; positivity)

/-- **C73, different resolutions.** With Gaussian smearing objects of different resolution give the bin
itself different weights; with Poisson smearing objects of different light yield give different weights
to no photons at all. -/
theorem c73_different (mean : ℝ) (hm : 0 < mean) (n n' : ℝ) {r r' : ℝ} (hr : 0 < r) (hr' : 0 < r')
    (hne : r ≠ r') :
    (Smearer.lightYield false r n).weight mean mean ≠ (Smearer.lightYield false r' n').weight mean mean ∧
    (Smearer.lightYield true r n).weight 0 mean ≠ (Smearer.lightYield true r' n').weight 0 mean ∧
    (Smearer.energyRes false (some r) n).weight mean mean ≠
      (Smearer.energyRes false (some r') n').weight mean mean ∧
    (Smearer.radial r n).weight mean mean ≠ (Smearer.radial r' n').weight mean mean := by
  obtain ⟨g1, g2, g3⟩ := c73_gaussian mean mean hm n
  obtain ⟨k1, k2, k3⟩ := c73_gaussian mean mean hm n'
  refine ⟨fun h => hne ?_, fun h => hne ?_, fun h => hne ?_, fun h => hne ?_⟩
  · rw [g1 r hr, k1 r' hr'] at h
    have h := normalDensity_mean (Except.ok.inj h)
    rw [sqrt_inj (by positivity) (by positivity)] at h
    field_simp at h
    exact h.symm
  · rw [c73_poisson 0 mean r n le_rfl hm hr, c73_poisson 0 mean r' n' le_rfl hm hr'] at h
    have h := Except.ok.inj h
    simp only [poissonProb, zero_mul, Nat.floor_zero, pow_zero, mul_one, Nat.factorial_zero,
      Nat.cast_one, div_one, exp_eq_exp, neg_inj] at h
    exact mul_left_cancel₀ hm.ne' h
  · rw [g2 r hr, k2 r' hr'] at h
    have h := normalDensity_mean (Except.ok.inj h)
    exact mul_right_cancel₀ (by positivity) h
  · rw [g3 r hr, k3 r' hr'] at h
    exact normalDensity_mean (Except.ok.inj h)

/-- **C73, negation.** The weights do not always follow the configured resolution: an
`EnergySmearRes` object with its default Poisson smearing gives the same weights for every
resolution, those of a light yield of 200. -/
theorem c73_resolution_negation :
    (∀ r₁ r₂ n x mean : ℝ, 0 < mean →
      (Smearer.energyRes true (some r₁) n).weight x mean =
        (Smearer.energyRes true (some r₂) n).weight x mean) ∧
    ∃ r₁ r₂ n x mean w₁ w₂ : ℝ, 0 < r₁ ∧ r₁ < r₂ ∧ r₂ < 1 ∧ 0 < mean ∧
      (Smearer.energyRes false (some r₁) n).weight x mean = .ok w₁ ∧
      (Smearer.energyRes false (some r₂) n).weight x mean = .ok w₂ ∧ w₁ ≠ w₂ := by
  constructor
  · intro r₁ r₂ n x mean hm
    simp [Smearer.weight, Smearer.getSigma, not_lt.2 hm.le, bind, Except.bind]
  · refine ⟨1 / 4, 1 / 2, 5, 1, 1, _, _, by norm_num, by norm_num, by norm_num, by norm_num,
      (c73_gaussian 1 1 (by norm_num) 5).2.1 _ (by norm_num),
      (c73_gaussian 1 1 (by norm_num) 5).2.1 _ (by norm_num), ?_⟩
    unfold normalDensity
    have := Real.pi_pos
    have h2 : 0 < √(2 * π) := by positivity
    simp only [sub_self, zero_div, sqrt_one, mul_one]
    norm_num
    intro h
    exact (Real.sqrt_pos.2 Real.pi_pos).ne' h

/-- The hypotheses of the C73 theorems hold at 2.5 MeV for a light yield of 200. -/
example : (Smearer.newLY true).Valid ∧ (0 : ℝ) < 2.5 ∧
    ∃ w, (Smearer.newLY true).weight 2.25 2.5 = .ok w :=
  ⟨⟨by norm_num, by norm_num⟩, by norm_num, _, c73_poisson 2.25 2.5 200 5 (by norm_num)
    (by norm_num) (by norm_num)⟩

end Verif
