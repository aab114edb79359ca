import Verif.Lemmas.FloatShift
import Verif.Props.FloatAxis
import Verif.Props.FloatSum

/-!
# C139: shifting by whole bins with floats

Every operation is rounded by `R`; the sums of the slices (`tot`) may be computed in any order.
-/

namespace Verif

/-- Float and exact width of a bin. -/
theorem shift_prep (R : Rounding) {p : SPar} (hp : p.WF) {shift : ℚ}
    (hκ : (|p.low| / p.width + p.bins + |shift| / p.width) * R.u ≤ 1 / 1000) :
    R.u ≤ 1 / 1000 ∧ |shift| / p.width * R.u ≤ 1 / 1000 ∧
    997 / 1000 * p.width ≤ R.width p ∧ 0 < R.width p := by
  have hw := hp.width_pos
  have hu0 := R.u_nonneg
  have hb := hp.1
  have hbq : (1 : ℚ) ≤ p.bins := by exact_mod_cast hb
  have hl0 : 0 ≤ |p.low| / p.width := by positivity
  have hs0 : 0 ≤ |shift| / p.width := by positivity
  have hu : R.u ≤ 1 / 1000 := by nlinarith
  have hwp := R.width_pos hp hu
  exact ⟨hu, by nlinarith, hwp.1, by linarith⟩

/-- What happens to a shift whose remainder counts as zero. -/
theorem shiftByBin_moves (R : Rounding) (str : ℚ → PyStr) (tot : ℕ → List ℚ → ℚ)
    (ht : ∀ b, R.Totals (tot b)) {s : Spectrum} (hs : s.WF) (hn : NonNeg s.data)
    (hr : ∀ idx, InB s.data.shape idx → R.Rep (s.data.get idx)) {k : ℕ} {p : SPar}
    (hk : s.cfg[k]? = some p) {shift : ℚ}
    (hκ : (|p.low| / p.width + p.bins + |shift| / p.width) * R.u ≤ 1 / 1000)
    (hcl : npClose (R.mod shift (R.width p)) 0) {m : ℤ} (hm1 : 0 ≤ shift - m * R.width p)
    (hoff : shift - m * R.width p ≤ p.width / 8) :
    ∃ t, R.shiftByBin str tot s p.name shift = .ok t ∧ SameButNameData s t ∧
      t.name = s.name ++ lit "_shift" ++ str shift ∧
      |shift - m * p.width| ≤ p.width / 4 ∧ Moved s.data t.data k m := by
  obtain ⟨-, hp, hg, hi, hsh⟩ := axis_facts hs hk
  obtain ⟨hu, hsu, hwp, hw0⟩ := shift_prep R hp hκ
  have hw := hp.width_pos
  have hb := hp.1
  have hu0 := R.u_nonneg
  unfold Rounding.shiftByBin
  simp only [bind, Except.bind, pure, Except.pure, throw, throwThe, MonadExceptOf.throw, hg, hi]
  rw [if_neg (by rintro (h | h); omega; exact hw0.ne' h)]
  have hmb : |(m : ℚ)| * p.width ≤ 11 / 10 * (|shift| + p.width) := by
    have e1 : |m * R.width p| ≤ |shift| + p.width / 8 := by
      have : (m : ℚ) * R.width p = shift - (shift - m * R.width p) := by ring
      rw [this]
      refine (abs_sub _ _).trans ?_
      rw [abs_of_nonneg hm1]
      linarith
    rw [abs_mul, abs_of_pos hw0] at e1
    have e2 : |(m : ℚ)| * (997 / 1000 * p.width) ≤ |(m : ℚ)| * R.width p := by gcongr
    have e3 : 0 ≤ |shift| := abs_nonneg _
    linarith
  have hmw : |(m : ℚ) * (R.width p - p.width)| ≤ p.width / 16 := by
    rw [abs_mul]
    have e1 : |(m : ℚ)| * |R.width p - p.width| ≤ |(m : ℚ)| * (3 * R.u * p.width) := by
      gcongr
      exact R.width_near hp hu
    have e2 : |(m : ℚ)| * (3 * R.u * p.width) = 3 * R.u * (|(m : ℚ)| * p.width) := by ring
    have e3 : 3 * R.u * (|(m : ℚ)| * p.width) ≤ 3 * R.u * (11 / 10 * (|shift| + p.width)) := by
      gcongr
    have e4 : R.u * |shift| = |shift| / p.width * R.u * p.width := by field_simp
    have e5 : R.u * |shift| ≤ 1 / 1000 * p.width := by
      rw [e4]
      gcongr
    have e6 : R.u * p.width ≤ 1 / 1000 * p.width := by gcongr
    linarith
  have hm : |shift - m * p.width| ≤ p.width / 4 := by
    have e : shift - m * p.width = (shift - m * R.width p) + m * (R.width p - p.width) := by ring
    rw [e]
    have a := abs_le.1 hmw
    rw [abs_le]
    constructor <;> linarith [a.1, a.2]
  rw [if_neg (by rw [not_not]; exact hcl)]
  erw [R.binLoop_ok (n := p.bins.toNat) (k := k)
    (contrib := fun b => R.shiftByBinContrib (tot b) s.data k p shift b) s.data.shape
    (fun b hb => R.shiftByBinContrib_ok (ht b) hn hp hsh hκ hm (by omega))]
  refine ⟨_, rfl, ⟨rfl, rfl, rfl, rfl⟩, rfl, hm, rfl, ?_⟩
  intro n hn' idx i hidx hik
  rw [hsh] at hn'
  cases hn'
  obtain ⟨i', hi', hlt⟩ := inB_getElem? hidx hsh
  rw [hik] at hi'
  cases hi'
  simp only [hik, hlt, if_true]
  have hcast : ((p.bins.toNat : ℕ) : ℤ) = p.bins := Int.toNat_of_nonneg hb.le
  rw [hcast]
  by_cases hc : 0 ≤ (i : ℤ) - m ∧ (i : ℤ) - m < p.bins
  · simp only [hc, and_self, true_and, if_true]
    split
    · rename_i f heq
      split at heq
      · cases heq
        exact hr _ (inB_set hidx hsh (by omega))
      · cases heq
    · rename_i heq
      split at heq
      · cases heq
      · rename_i hns
        rw [sliceSum_eq _ hsh] at hns
        have hin := inB_set (j := ((i : ℤ) - m).toNat) hidx hsh (by omega)
        refine (eq_zero_of_axisTotal hn (not_lt.1 hns) hin ?_).symm
        have : k < idx.length := (List.getElem?_eq_some_iff.1 hik).1
        simp [this]
  · rw [if_neg (fun h => hc h.1), if_neg hc]

/-- A shift whose remainder does not count as zero. -/
theorem shiftByBin_refuses (R : Rounding) (str : ℚ → PyStr) (tot : ℕ → List ℚ → ℚ) {s : Spectrum}
    {p : SPar} (hg : s.getPar p.name = .ok p) (hp : p.WF) {shift : ℚ} (hw0 : 0 < R.width p)
    (hcl : ¬ npClose (R.mod shift (R.width p)) 0) :
    R.shiftByBin str tot s p.name shift = .error .valueError := by
  have hb := hp.1
  unfold Rounding.shiftByBin
  simp only [bind, Except.bind, pure, Except.pure, throw, throwThe, MonadExceptOf.throw, hg]
  rw [if_neg (by rintro (h | h); omega; exact hw0.ne' h), if_pos hcl]

/-- **C139.** Whatever is shifted is shifted exactly: when `shift_by_bin` returns, every cell holds the
very number that was `m` bins away before, where `m` bin widths are the shift up to a quarter of a
bin; cells without such a source are zero, and nothing but the name changes otherwise. It returns or
raises a `ValueError`, nothing else. Missing: that it returns for every multiple of the bin
width, see `c139_refused_negation`. -/
theorem c139_shift_partial (R : Rounding) (str : ℚ → PyStr) (tot : ℕ → List ℚ → ℚ)
    (ht : ∀ b, R.Totals (tot b)) (s : Spectrum) (hs : s.WF) (hn : NonNeg s.data)
    (hr : ∀ idx, InB s.data.shape idx → R.Rep (s.data.get idx)) (k : ℕ) (p : SPar) (hk : s.cfg[k]? = some p) (shift : ℚ)
    (hκ : (|p.low| / ((p.high - p.low) / p.bins) + p.bins + |shift| / ((p.high - p.low) / p.bins)) * R.u ≤
      1 / 1000)
    (hw8 : 1 / 10 ^ 7 ≤ (p.high - p.low) / p.bins) :
    R.shiftByBin str tot s p.name shift = .error .valueError ∨
    ∃ t, R.shiftByBin str tot s p.name shift = .ok t ∧ SameButNameData s t ∧
      t.name = s.name ++ lit "_shift" ++ str shift ∧
      ∃ m : ℤ, |shift - m * ((p.high - p.low) / p.bins)| ≤ (p.high - p.low) / p.bins / 4 ∧
        Moved s.data t.data k m := by
  obtain ⟨-, hp, hg, hi, hsh⟩ := axis_facts hs hk
  change (|p.low| / p.width + p.bins + |shift| / p.width) * R.u ≤ 1 / 1000 at hκ
  change 1 / 10 ^ 7 ≤ p.width at hw8
  change _ ∨ ∃ t, _ ∧ _ ∧ _ ∧ ∃ m : ℤ, |shift - m * p.width| ≤ p.width / 4 ∧ _
  obtain ⟨hu, -, -, hw0⟩ := shift_prep R hp hκ
  by_cases hcl : npClose (R.mod shift (R.width p)) 0
  · right
    obtain ⟨hm0, m, hm1, hm2⟩ := R.mod_near (a := shift) hw0
    have hcl' := hcl
    rw [npClose_zero hm0] at hcl'
    have hoff : shift - m * R.width p ≤ p.width / 8 := by
      have : (1 - 1 / 1000) * (shift - m * R.width p) ≤ (1 - R.u) * (shift - m * R.width p) := by
        gcongr
      linarith
    obtain ⟨t, h1, h2, h3, h4, h5⟩ := shiftByBin_moves R str tot ht hs hn hr hk hκ hcl hm1 hoff
    exact ⟨t, h1, h2, h3, m, h4, h5⟩
  · exact .inl (shiftByBin_refuses R str tot hg hp hw0 hcl)

/-- **C139.** Which shifts up are accepted: those that exceed a multiple of the bin width as computed
by at most `1e-8`. Any other shift is refused with a `ValueError`. -/
theorem c139_accepted (R : Rounding) (str : ℚ → PyStr) (tot : ℕ → List ℚ → ℚ)
    (ht : ∀ b, R.Totals (tot b)) (s : Spectrum) (hs : s.WF) (hn : NonNeg s.data)
    (hr : ∀ idx, InB s.data.shape idx → R.Rep (s.data.get idx)) (k : ℕ) (p : SPar)
    (hk : s.cfg[k]? = some p) (shift : ℚ) (h0 : 0 ≤ shift)
    (hκ : (|p.low| / ((p.high - p.low) / p.bins) + p.bins + |shift| / ((p.high - p.low) / p.bins)) * R.u ≤
      1 / 1000)
    (hw8 : 1 / 10 ^ 7 ≤ (p.high - p.low) / p.bins) :
    ((∃ t, R.shiftByBin str tot s p.name shift = .ok t) ↔
      ∃ m : ℤ, 0 ≤ shift - m * R.rnd (R.rnd (p.high - p.low) / p.bins) ∧
        shift - m * R.rnd (R.rnd (p.high - p.low) / p.bins) ≤ 1 / 10 ^ 8) ∧
    ((¬ ∃ t, R.shiftByBin str tot s p.name shift = .ok t) →
      R.shiftByBin str tot s p.name shift = .error .valueError) := by
  obtain ⟨-, hp, hg, hi, hsh⟩ := axis_facts hs hk
  have hall := c139_shift_partial R str tot ht s hs hn hr k p hk shift hκ hw8
  change (|p.low| / p.width + p.bins + |shift| / p.width) * R.u ≤ 1 / 1000 at hκ
  change 1 / 10 ^ 7 ≤ p.width at hw8
  change (_ ↔ ∃ m : ℤ, 0 ≤ shift - m * R.width p ∧ shift - m * R.width p ≤ 1 / 10 ^ 8) ∧ _
  obtain ⟨hu, -, hwp, hw0⟩ := shift_prep R hp hκ
  have hfl : (⌊shift / R.width p⌋ : ℚ) * R.width p ≤ shift := by
    rw [← le_div_iff₀ hw0]
    exact Int.floor_le _
  constructor
  · constructor
    · rintro ⟨t, h⟩
      by_cases hcl : npClose (R.mod shift (R.width p)) 0
      · rw [R.mod_of_nonneg h0 hw0, npClose_zero (by linarith)] at hcl
        exact ⟨⌊shift / R.width p⌋, by linarith, by linarith⟩
      · rw [shiftByBin_refuses R str tot hg hp hw0 hcl] at h
        cases h
    · rintro ⟨m, h1, h2⟩
      have hm : ⌊shift / R.width p⌋ = m := by
        rw [Int.floor_eq_iff, le_div_iff₀ hw0, div_lt_iff₀ hw0]
        constructor <;> linarith
      have hcl : npClose (R.mod shift (R.width p)) 0 := by
        rw [R.mod_of_nonneg h0 hw0, npClose_zero (by linarith), hm]
        linarith
      obtain ⟨t, h, -⟩ := shiftByBin_moves R str tot ht hs hn hr hk hκ hcl h1 (by linarith)
      exact ⟨t, h⟩
  · intro hno
    rcases hall with h | ⟨t, h, -⟩
    · exact h
    · exact absurd ⟨t, h⟩ hno

/-- **C139.** A shift, up or down, that is exactly `m` times the bin width as computed moves the contents
by exactly `m` bins. -/
theorem c139_multiples (R : Rounding) (str : ℚ → PyStr) (tot : ℕ → List ℚ → ℚ)
    (ht : ∀ b, R.Totals (tot b)) (s : Spectrum) (hs : s.WF) (hn : NonNeg s.data)
    (hr : ∀ idx, InB s.data.shape idx → R.Rep (s.data.get idx)) (k : ℕ) (p : SPar)
    (hk : s.cfg[k]? = some p) (m : ℤ) (shift : ℚ)
    (hm : shift = m * R.rnd (R.rnd (p.high - p.low) / p.bins))
    (hκ : (|p.low| / ((p.high - p.low) / p.bins) + p.bins + |shift| / ((p.high - p.low) / p.bins)) * R.u ≤
      1 / 1000) :
    ∃ t, R.shiftByBin str tot s p.name shift = .ok t ∧ SameButNameData s t ∧
      t.name = s.name ++ lit "_shift" ++ str shift ∧ Moved s.data t.data k m := by
  obtain ⟨-, hp, hg, hi, hsh⟩ := axis_facts hs hk
  change (|p.low| / p.width + p.bins + |shift| / p.width) * R.u ≤ 1 / 1000 at hκ
  change shift = m * R.width p at hm
  obtain ⟨hu, -, hwp, hw0⟩ := shift_prep R hp hκ
  have hw := hp.width_pos
  have hcl : npClose (R.mod shift (R.width p)) 0 := by
    have : R.mod shift (R.width p) = 0 := by
      unfold Rounding.mod
      have e : pyInt (shift / R.width p) = m := by
        rw [hm, mul_div_cancel_right₀ _ hw0.ne']
        unfold pyInt
        split <;> simp
      dsimp only
      rw [e, hm, mul_comm, sub_self, if_neg (lt_irrefl _)]
    rw [this, npClose_zero le_rfl]
    norm_num
  obtain ⟨t, h1, h2, h3, -, h5⟩ := shiftByBin_moves R str tot ht hs hn hr hk hκ hcl
    (m := m) (by rw [hm]; simp) (by rw [hm, sub_self]; linarith)
  exact ⟨t, h1, h2, h3, h5⟩

namespace Ex

/-- An axis from 0 to 1 with ten bins. -/
def tenths : SPar := ⟨lit "energy_mc", 0, 1, 10⟩

/-- A spectrum with three entries in its second bin. -/
def tenthSpec : Spectrum :=
  ⟨lit "Te130", [tenths], ⟨[10], fun i => if i = [1] then 3 else 0⟩, 3, 3, []⟩

/-- The float nearest to one tenth. -/
def tenth : ℚ := 3602879701896397 / 2 ^ 55

/-- The float nearest to three tenths. -/
def threeTenths : ℚ := 5404319552844595 / 2 ^ 54

theorem tenthSpec_wf : tenthSpec.WF :=
  ⟨by simp [tenthSpec, tenths, SPar.WF], by simp [tenthSpec], by simp [tenthSpec, tenths]⟩

theorem tenth_eq : roundBits 53 (1 / 10) = tenth := by
  rw [roundBits_eq 53 (x := 1 / 10) (e := -4) (by norm_num [abs_of_pos]) (by norm_num [abs_of_pos])]
  norm_num [tenth, npRint, Int.fract]

theorem threeTenths_eq : roundBits 53 (3 / 10) = threeTenths := by
  rw [roundBits_eq 53 (x := 3 / 10) (e := -2) (by norm_num [abs_of_pos]) (by norm_num [abs_of_pos])]
  norm_num [threeTenths, npRint, Int.fract]

theorem tenths_width : (binary 53 (by norm_num)).width tenths = tenth := by
  have h := (binary 53 (by norm_num)).int 1 (by norm_num [binary])
  have e : (binary 53 (by norm_num)).width tenths =
    (binary 53 (by norm_num)).rnd ((binary 53 (by norm_num)).rnd (1 - 0) / 10) := by
    simp [Rounding.width, Rounding.div, Rounding.sub, tenths]
  rw [e, sub_zero]
  norm_num at h
  rw [h]
  exact tenth_eq

theorem tenthSpec_nonneg : NonNeg tenthSpec.data := by
  intro idx
  simp only [tenthSpec]
  split <;> norm_num

theorem tenthSpec_rep : ∀ idx, InB tenthSpec.data.shape idx →
    (binary 53 (by norm_num)).Rep (tenthSpec.data.get idx) := by
  intro idx _
  have h3 := (binary 53 (by norm_num)).int 3 (by norm_num [binary])
  have h0 := (binary 53 (by norm_num)).int 0 (by norm_num [binary])
  simp only [tenthSpec, Rounding.Rep]
  split
  · exact_mod_cast h3
  · exact_mod_cast h0

end Ex

/-- **C139, negation.** With python's floats not every multiple of the bin width can be
shifted by: on an axis from 0 to 1 with ten bins a shift by `0.3` (the float) is refused, since
`0.3 % 0.1` is `0.09999999999999998`. -/
theorem c139_refused_negation :
    ¬ ∀ (str : ℚ → PyStr) (tot : ℕ → List ℚ → ℚ) (s : Spectrum) (k : ℕ) (p : SPar) (m : ℤ),
      (∀ b, (binary 53 (by norm_num)).Totals (tot b)) → s.WF → NonNeg s.data →
      (∀ idx, InB s.data.shape idx → (binary 53 (by norm_num)).Rep (s.data.get idx)) →
      s.cfg[k]? = some p →
      ∃ t, (binary 53 (by norm_num)).shiftByBin str tot s p.name
        (roundBits 53 (m * ((p.high - p.low) / p.bins))) = .ok t := by
  intro h
  obtain ⟨t, ht⟩ := h (fun _ => []) (fun _ l => (binary 53 (by norm_num)).sumTree (Ex.oneByOne l)) Ex.tenthSpec 0 Ex.tenths 3
    (fun _ => Ex.oneByOne_totals _) Ex.tenthSpec_wf Ex.tenthSpec_nonneg Ex.tenthSpec_rep rfl
  have e : roundBits 53 (((3 : ℤ) : ℚ) * ((Ex.tenths.high - Ex.tenths.low) / Ex.tenths.bins)) =
      Ex.threeTenths := by
    rw [← Ex.threeTenths_eq]
    norm_num [Ex.tenths]
  rw [e] at ht
  have hw : (0 : ℚ) < Ex.tenth := by norm_num [Ex.tenth]
  rw [shiftByBin_refuses _ _ _ (axis_facts Ex.tenthSpec_wf (k := 0) rfl).2.2.1
    (Ex.tenthSpec_wf.axes _ (by simp [Ex.tenthSpec])) (by rw [Ex.tenths_width]; exact hw)] at ht
  · cases ht
  · rw [Ex.tenths_width, Rounding.mod_of_nonneg _ (by norm_num [Ex.threeTenths]) hw]
    have : ⌊Ex.threeTenths / Ex.tenth⌋ = 2 := by
      rw [Int.floor_eq_iff]
      norm_num [Ex.threeTenths, Ex.tenth]
    rw [this]
    norm_num [npClose, Ex.threeTenths, Ex.tenth, abs_of_pos]

/-- The hypotheses of the theorems above hold for shifts by one bin, up and down. -/
example : Ex.tenthSpec.WF ∧ NonNeg Ex.tenthSpec.data ∧
    (∀ idx, InB Ex.tenthSpec.data.shape idx →
      (binary 53 (by norm_num)).Rep (Ex.tenthSpec.data.get idx)) ∧
    Ex.tenthSpec.cfg[0]? = some Ex.tenths ∧
    (binary 53 (by norm_num)).Totals (fun l => (binary 53 (by norm_num)).sumTree (Ex.oneByOne l)) ∧
    Ex.tenth = (1 : ℤ) * (binary 53 (by norm_num)).rnd ((binary 53 (by norm_num)).rnd
      (Ex.tenths.high - Ex.tenths.low) / Ex.tenths.bins) ∧
    -Ex.tenth = (-1 : ℤ) * (binary 53 (by norm_num)).rnd ((binary 53 (by norm_num)).rnd
      (Ex.tenths.high - Ex.tenths.low) / Ex.tenths.bins) ∧
    (|Ex.tenths.low| / ((Ex.tenths.high - Ex.tenths.low) / Ex.tenths.bins) + Ex.tenths.bins +
      |Ex.tenth| / ((Ex.tenths.high - Ex.tenths.low) / Ex.tenths.bins)) * (binary 53 (by norm_num)).u ≤
      1 / 1000 ∧ 1 / 10 ^ 7 ≤ (Ex.tenths.high - Ex.tenths.low) / Ex.tenths.bins ∧
    Ex.tenthSpec.data.get [1] ≠ 0 := by
  refine ⟨Ex.tenthSpec_wf, Ex.tenthSpec_nonneg, Ex.tenthSpec_rep, rfl, Ex.oneByOne_totals _, ?_, ?_,
    ?_, ?_, ?_⟩
  · have := Ex.tenths_width
    unfold Rounding.width Rounding.div Rounding.sub at this
    rw [this]
    simp
  · have := Ex.tenths_width
    unfold Rounding.width Rounding.div Rounding.sub at this
    rw [this]
    simp
  · norm_num [Ex.tenths, Ex.tenth, binary]
  · norm_num [Ex.tenths]
  · simp [Ex.tenthSpec]

end Verif
