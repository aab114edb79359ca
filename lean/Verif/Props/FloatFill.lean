import Verif.Lemmas.FloatBinary
import Verif.Lemmas.Minimise
import Verif.Props.Fill
import Verif.Spec.Float

/-!
# C125, C126: filling a spectrum with floats

Every operation is rounded. `R` is any rounding with a relative error of at most `R.u`;
`binary 53` is the one of python and numpy.
-/

namespace Verif

/-- **C125.** Whatever the rounding, there is one assignment of bins on each axis, independent of
the contents: it is monotone, starts with bin 0 at the lower end and is right up to `5 u` of the
length of the axis. A fill of a point in range adds the weight, rounded, to exactly the assigned
cell; when the assigned cell does not exist (a point that close to the upper end of an axis) it
raises and leaves the spectrum as it was. Points out of range are refused as without rounding. Missing:
that points in range are always accepted, see `c125_index_negation`. -/
theorem c125_fill_partial (R : Rounding) (hu : R.u ≤ 1 / 16) :
    ∃ b : SPar → ℚ → ℤ,
      (∀ p : SPar, p.WF → p.bins.toNat ≤ R.big → BinRule p (5 * R.u * (p.high - p.low)) (b p)) ∧
      ∀ (s : Spectrum), s.WF → (∀ p ∈ s.cfg, p.bins.toNat ≤ R.big) →
        ∀ (kw : List (PyStr × ℚ)), IsDict kw → ∀ w : ℚ,
        (InRange s kw → ∃ idx : List ℕ,
          List.Forall₂ (fun p (i : ℕ) => ∃ x, (p.name, x) ∈ kw ∧ b p x = i) s.cfg idx ∧
          (InB s.data.shape idx → (R.fill s w kw).err = none ∧
            SameButData s (R.fill s w kw).st ∧
            (R.fill s w kw).st.data.shape = s.data.shape ∧
            (R.fill s w kw).st.data.get idx = R.rnd (s.data.get idx + w) ∧
            ∀ j, j ≠ idx → (R.fill s w kw).st.data.get j = s.data.get j) ∧
          (¬ InB s.data.shape idx → R.fill s w kw = .fail s .indexError)) ∧
        (¬ InRange s kw → (R.fill s w kw).err ≠ none ∧ (R.fill s w kw).st = s) := by
  refine ⟨R.fillBin, ?_, ?_⟩
  · intro p hp hb
    obtain ⟨h1, h2, h3⟩ := R.fillBin_spec hp hu hb
    exact ⟨h1, fun x hx hx' => ⟨(h2 x x hx le_rfl hx').1, (h2 x x hx le_rfl hx').2.2⟩,
      fun x y hx hxy hy => (h2 x y hx hxy hy).2.1, h3⟩
  · intro s hs hb kw hk w
    refine ⟨fun h => ?_, fun h => ?_⟩
    · obtain ⟨idx, h1, h2⟩ := R.fill_of_inRange hs hk h hu hb w
      refine ⟨idx, h1.imp fun p i ⟨x, a, _, _, c⟩ => ⟨x, a, c⟩, fun hi => ?_, fun hi => ?_⟩
      · rw [h2, if_pos hi]
        refine ⟨rfl, ⟨rfl, rfl, rfl, rfl, rfl⟩, rfl, if_pos rfl, fun j hj => if_neg hj⟩
      · rw [h2, if_neg hi]
    · obtain ⟨e, he⟩ := R.fill_of_not_inRange hk h w
      rw [he]
      exact ⟨by simp [Outcome.fail], rfl⟩

theorem binary_u_le {d : ℕ} (hd : 4 ≤ d) : (1 / 2 : ℚ) ^ d ≤ 1 / 16 := by
  calc (1 / 2 : ℚ) ^ d ≤ (1 / 2) ^ 4 := pow_le_pow_of_le_one (by norm_num) (by norm_num) hd
    _ = 1 / 16 := by norm_num

example : (binary 53 (by norm_num)).u ≤ 1 / 16 ∧ ∀ p ∈ Ex.spec.cfg, p.bins.toNat ≤ (binary 53 (by norm_num)).big := by
  refine ⟨binary_u_le (by norm_num), fun p hp => ?_⟩
  simp only [Ex.spec, List.mem_cons, List.not_mem_nil, or_false] at hp
  rcases hp with rfl | rfl <;> simp [Ex.energy, Ex.radial, binary]

/-- **C125, which points are refused.** With binary floats of `d` digits, a point in range is
refused exactly when on some axis its distance from the lower end and the length of the axis are
rounded to the same float. -/
theorem c125_refused (d : ℕ) (hd : 1 ≤ d) (hd4 : 4 ≤ d) (s : Spectrum) (hs : s.WF)
    (hb : ∀ p ∈ s.cfg, p.bins.toNat ≤ 2 ^ d) (kw : List (PyStr × ℚ)) (hk : IsDict kw)
    (h : InRange s kw) (w : ℚ) :
    ((binary d hd).fill s w kw).err ≠ none ↔
      ∃ p ∈ s.cfg, ∃ x, (p.name, x) ∈ kw ∧ roundBits d (x - p.low) = roundBits d (p.high - p.low) := by
  set R := binary d hd with hR
  have hu : R.u ≤ 1 / 16 := binary_u_le hd4
  obtain ⟨idx, h1, h2⟩ := R.fill_of_inRange hs hk h hu hb w
  have key : InB s.data.shape idx ↔ ∀ p ∈ s.cfg, ∀ x, (p.name, x) ∈ kw →
      roundBits d (x - p.low) ≠ roundBits d (p.high - p.low) := by
    have hax := hs.axes
    have hsh := hs.shape
    clear h2 h hs
    revert h1 hax hsh hb
    generalize s.cfg = cfg
    generalize s.data.shape = shape
    intro hb h1
    induction h1 generalizing shape with
    | nil =>
      intro _ hsh
      cases shape <;> simp_all
    | @cons p i cfg idx a _ ih =>
      intro hax hsh
      cases shape with
      | nil => simp at hsh
      | cons n shape =>
        simp only [List.map_cons, List.cons.injEq] at hsh
        obtain ⟨x, hx, hx1, hx2, hx3⟩ := a
        have ih' := ih shape (fun p hp => hb p (by simp [hp]))
          (fun p hp => hax p (by simp [hp])) hsh.2
        rw [inB_cons_cons]
        refine (and_congr Iff.rfl ih').trans ?_
        have hax' := hax p (by simp)
        have hbb := hb p (by simp)
        have hu' : (1 / 2 : ℚ) ^ d ≤ 1 / 16 := binary_u_le hd4
        have hE := binary_fillBin_eq_bins hd hax' hbb hu' hx1 hx2
        have hle := ((R.fillBin_spec hax' hu hbb).2.1 x x hx1 le_rfl hx2).2.2
        have hin : i < n ↔ roundBits d (x - p.low) ≠ roundBits d (p.high - p.low) := by
          rw [Ne, ← hE, ← hR, hx3]
          rw [hx3] at hle
          omega
        rw [hin]
        constructor
        · rintro ⟨c1, c2⟩ q hq y hy
          rcases List.mem_cons.1 hq with rfl | hq
          · have e1 := (assoc_eq_some_iff hk).2 hy
            have e2 := (assoc_eq_some_iff hk).2 hx
            rw [e1] at e2
            cases e2
            exact c1
          · exact c2 q hq y hy
        · intro c
          exact ⟨c p (by simp) x hx, fun q hq => c q (by simp [hq])⟩
  rw [h2]
  by_cases hi : InB s.data.shape idx
  · rw [if_pos hi]
    simp only [Outcome.ok, ne_eq, not_true_eq_false, false_iff]
    rintro ⟨p, hp, x, hx, he⟩
    exact key.1 hi p hp x hx he
  · rw [if_neg hi]
    simp only [Outcome.fail, ne_eq, reduceCtorEq, not_false_eq_true, true_iff]
    by_contra hc
    exact hi (key.2 fun p hp x hx he => hc ⟨p, hp, x, hx, he⟩)

/-- **C125, axes that start at zero.** When every axis starts at zero, floats in range are always
accepted. -/
theorem c125_from_zero (d : ℕ) (hd : 1 ≤ d) (hd4 : 4 ≤ d) (s : Spectrum) (hs : s.WF)
    (hb : ∀ p ∈ s.cfg, p.bins.toNat ≤ 2 ^ d) (kw : List (PyStr × ℚ)) (hk : IsDict kw)
    (h : InRange s kw) (h0 : ∀ p ∈ s.cfg, p.low = 0)
    (hf : ∀ p ∈ s.cfg, roundBits d p.high = p.high)
    (hx : ∀ e ∈ kw, roundBits d e.2 = e.2) (w : ℚ) :
    ((binary d hd).fill s w kw).err = none := by
  by_contra hne
  obtain ⟨p, hp, x, hx', he⟩ := (c125_refused d hd hd4 s hs hb kw hk h w).1 hne
  rw [h0 p hp, sub_zero, sub_zero, hx _ hx', hf p hp] at he
  obtain ⟨y, hy, -, hy2⟩ := h.2 p hp
  have e1 := (assoc_eq_some_iff hk).2 hy
  rw [(assoc_eq_some_iff hk).2 hx'] at e1
  cases e1
  dsimp only at he
  linarith

/-- The axes and the point of `Ex.spec` are floats, and the axes start at zero. -/
example : (∀ p ∈ Ex.spec.cfg, p.low = 0 ∧ p.bins.toNat ≤ 2 ^ 53 ∧ roundBits 53 p.high = p.high) ∧
    ∀ e ∈ Ex.point, roundBits 53 e.2 = e.2 := by
  have hg : ∀ (k f : ℤ) (x : ℚ), k.natAbs ≤ 2 ^ 53 → (k : ℚ) * 2 ^ f = x → roundBits 53 x = x := by
    intro k f x hk hx
    rw [← hx]
    exact roundBits_grid (by norm_num) k f hk
  constructor
  · intro p hp
    simp only [Ex.spec, List.mem_cons, List.not_mem_nil, or_false] at hp
    rcases hp with rfl | rfl
    · exact ⟨rfl, by norm_num [Ex.energy], hg 5 0 _ (by norm_num) (by norm_num [Ex.energy])⟩
    · exact ⟨rfl, by norm_num [Ex.radial], hg 6000 0 _ (by norm_num) (by norm_num [Ex.radial])⟩
  · intro e he
    simp only [Ex.point, List.mem_cons, List.not_mem_nil, or_false] at he
    rcases he with rfl | rfl
    · exact hg 3000 0 _ (by norm_num) (by norm_num)
    · exact hg 5 (-2) _ (by norm_num) (by norm_num)

namespace Ex

/-- An axis of 1200 bins from -6000 to 6000. -/
def zaxis : SPar := ⟨lit "z_mc", -6000, 6000, 1200⟩

/-- A spectrum with that axis, empty. -/
def zspec : Spectrum := ⟨lit "z", [zaxis], ⟨[1200], fun _ => 0⟩, 1, 0, []⟩

theorem zspec_wf : zspec.WF where
  axes := by
    simp only [zspec, List.mem_cons, List.not_mem_nil, or_false, forall_eq]
    exact ⟨by norm_num [zaxis], by norm_num [zaxis]⟩
  names := by simp [zspec]
  shape := by simp [zspec, zaxis]

/-- The float just below 6000. -/
def zbelow : ℚ := 6000 - 1 / 2 ^ 40

theorem zbelow_float : roundBits 53 zbelow = zbelow := by
  have : zbelow = ((6000 * 2 ^ 40 - 1 : ℤ) : ℚ) * 2 ^ (-40 : ℤ) := by norm_num [zbelow]
  rw [this]
  exact roundBits_grid (by norm_num) _ _ (by norm_num)

theorem zfloat : roundBits 53 6000 = 6000 ∧ roundBits 53 (-6000) = -6000 := by
  have h1 := roundBits_grid (p := 53) (by norm_num) 6000 0 (by norm_num)
  have h2 := roundBits_grid (p := 53) (by norm_num) (-6000) 0 (by norm_num)
  simp only [zpow_zero, mul_one] at h1 h2
  exact ⟨by exact_mod_cast h1, by exact_mod_cast h2⟩

theorem zbelow_round : roundBits 53 (zbelow - -6000) = roundBits 53 (6000 - -6000) := by
  rw [roundBits_eq 53 (x := zbelow - -6000) (e := 13) (by norm_num [zbelow, abs_of_pos])
      (by norm_num [zbelow, abs_of_pos]),
    roundBits_eq 53 (x := 6000 - -6000) (e := 13) (by norm_num [abs_of_pos]) (by norm_num [abs_of_pos])]
  congr 2
  norm_num [zbelow, npRint, Int.fract]

theorem zpoint_inRange : InRange zspec [(lit "z_mc", zbelow)] := by
  refine ⟨fun e he => ?_, fun p hp => ?_⟩
  · simp only [List.mem_cons, List.not_mem_nil, or_false] at he
    subst he
    exact ⟨zaxis, by simp [zspec], rfl⟩
  · simp only [zspec, List.mem_cons, List.not_mem_nil, or_false] at hp
    subst hp
    exact ⟨zbelow, by simp [zaxis], by norm_num [zaxis, zbelow], by norm_num [zaxis, zbelow]⟩

end Ex

/-- **C125, negation.** With python's floats not every float in range can be filled: on an axis from
-6000 to 6000 with 1200 bins the float just below 6000 passes the check of the range and then
raises `IndexError`. -/
theorem c125_index_negation :
    ¬ ∀ (s : Spectrum) (kw : List (PyStr × ℚ)) (w : ℚ), s.WF → IsDict kw → InRange s kw →
      (∀ p ∈ s.cfg, roundBits 53 p.low = p.low ∧ roundBits 53 p.high = p.high) →
      (∀ e ∈ kw, roundBits 53 e.2 = e.2) →
      ((binary 53 (by norm_num)).fill s w kw).err = none := by
  intro h
  have h1 := h Ex.zspec [(lit "z_mc", Ex.zbelow)] 1 Ex.zspec_wf (by simp [IsDict]) Ex.zpoint_inRange
    (by
      simp only [Ex.zspec, List.mem_cons, List.not_mem_nil, or_false, forall_eq]
      exact ⟨Ex.zfloat.2, Ex.zfloat.1⟩)
    (by
      simp only [List.mem_cons, List.not_mem_nil, or_false, forall_eq]
      exact Ex.zbelow_float)
  have h2 := (c125_refused 53 (by norm_num) (by norm_num) Ex.zspec Ex.zspec_wf
    (by simp [Ex.zspec, Ex.zaxis]) [(lit "z_mc", Ex.zbelow)] (by simp [IsDict]) Ex.zpoint_inRange 1).2
    ⟨Ex.zaxis, by simp [Ex.zspec], Ex.zbelow, by simp [Ex.zaxis], Ex.zbelow_round⟩
  exact h2 h1

/-! ### histograms of whole weights -/

/-- Run a history of fills with rounding, going on after errors. -/
def runFloatFills (R : Rounding) (s : Spectrum) (h : Fills) : Spectrum :=
  h.foldl (fun s e => (R.fill s e.1 e.2).st) s

theorem rnd_whole (R : Rounding) {x : ℚ} (hx : IsWhole x) (hb : |x| ≤ R.big) : R.rnd x = x := by
  obtain ⟨n, rfl⟩ := hx
  refine R.int n ?_
  rw [← Int.cast_abs] at hb
  have : |n| ≤ (R.big : ℤ) := by exact_mod_cast hb
  rw [Int.abs_eq_natAbs] at this
  exact_mod_cast this

theorem isWhole_add {x y : ℚ} (hx : IsWhole x) (hy : IsWhole y) : IsWhole (x + y) := by
  obtain ⟨a, rfl⟩ := hx
  obtain ⟨b, rfl⟩ := hy
  exact ⟨a + b, by push_cast; rfl⟩

theorem sum_abs_nonneg (h : Fills) : 0 ≤ (h.map fun e => |e.1|).sum := by
  refine List.sum_nonneg fun x hx => ?_
  obtain ⟨e, -, rfl⟩ := List.mem_map.1 hx
  exact abs_nonneg _

theorem list_abs_nonneg (l : List ℚ) : 0 ≤ (l.map abs).sum := by
  refine List.sum_nonneg fun x hx => ?_
  obtain ⟨e, -, rfl⟩ := List.mem_map.1 hx
  exact abs_nonneg _

theorem inCell_of_clear {R : Rounding} {p : SPar} (hp : p.WF) (hu : R.u ≤ 1 / 16)
    (hb : p.bins.toNat ≤ R.big) {x : ℚ} (h1 : p.low ≤ x) (h2 : x < p.high)
    (hc : ClearOfEdges p (5 * R.u * (p.high - p.low)) x) {i : ℕ} (hi : R.fillBin p x = i) :
    InCell p x i := by
  obtain ⟨-, hr, hn⟩ := R.fillBin_spec hp hu hb
  obtain ⟨r0, -, r1⟩ := hr x x h1 le_rfl h2
  obtain ⟨n1, n2⟩ := hn x h1 h2
  rw [hi] at r0 r1 n1 n2
  have hnz : (p.bins : ℚ) ≠ 0 := by
    have := hp.1
    exact_mod_cast this.ne'
  have e1 : p.edge i ≤ x := by
    rcases Nat.eq_zero_or_pos i with h0 | h0
    · subst h0
      simpa [SPar.edge] using h1
    · have := hc i (by omega) r1
      by_contra hlt
      rw [not_le] at hlt
      rw [abs_of_neg (by linarith)] at this
      linarith
  have hlt : (i : ℤ) < p.bins := by
    rcases r1.lt_or_eq with h | h
    · exact h
    · exfalso
      rw [h] at e1
      have : p.edge p.bins = p.high := by
        unfold SPar.edge
        field_simp
        ring
      linarith
  refine ⟨hlt, e1, ?_⟩
  have := hc (i + 1) (by omega) (by omega)
  by_contra hge
  rw [not_lt] at hge
  rw [abs_of_nonneg (by linarith)] at this
  linarith

/-- **C126.** With whole weights, as in counting events, a spectrum filled with floats holds exactly
what it would hold without rounding: after any history of fills, if the numbers stay below `R.big`
(2⁵³ in python) and no accepted point is within `5 u` of the length of the axis from a bin edge. Points
outside may be among the fills. -/
theorem c126_exact (R : Rounding) (hu : R.u ≤ 1 / 16) (s : Spectrum) (hs : s.WF)
    (hb : ∀ p ∈ s.cfg, p.bins.toNat ≤ R.big) (h : Fills) (hk : ∀ e ∈ h, IsDict e.2)
    (hw : ∀ e ∈ h, IsWhole e.1)
    (hcl : ∀ e ∈ h, ∀ p ∈ s.cfg, ∀ x, (p.name, x) ∈ e.2 →
      ClearOfEdges p (5 * R.u * (p.high - p.low)) x)
    (hd : ∀ j, InB s.data.shape j → IsWhole (s.data.get j))
    (hbig : ∀ j, InB s.data.shape j → |s.data.get j| + (h.map fun e => |e.1|).sum ≤ R.big) :
    runFloatFills R s h = runFills s h := by
  induction h generalizing s with
  | nil => rfl
  | cons e h ih =>
    have hk' := hk e (by simp)
    have hstep : (R.fill s e.1 e.2).st = (s.fill e.1 e.2).st := by
      by_cases hr : InRange s e.2
      · obtain ⟨idx, h1, h2⟩ := R.fill_of_inRange hs hk' hr hu hb e.1
        obtain ⟨idx', h3, h4⟩ := fill_of_inRange hs hk' hr e.1
        have hcell : CellOf s e.2 idx := by
          have hax := hs.axes
          have hcl' := hcl e (by simp)
          clear * - h1 hax hcl' hu hb
          unfold CellOf
          generalize s.cfg = cfg at *
          induction h1 with
          | nil => exact .nil
          | cons a _ ih =>
            obtain ⟨x, hx, hx1, hx2, hx3⟩ := a
            refine .cons ⟨x, hx, inCell_of_clear (hax _ (by simp)) hu (hb _ (by simp)) hx1 hx2
              (hcl' _ (by simp) x hx) hx3⟩ (ih (fun p hp => hb p (by simp [hp]))
              (fun p hp => hax p (by simp [hp])) (fun p hp => hcl' p (by simp [hp])))
        have heq := cellOf_unique hs hk' hcell h3
        subst heq
        have hin := cellOf_inB hs hcell
        rw [h2, h4, if_pos hin]
        simp only [Outcome.ok, NdArray.addAt]
        congr 2
        funext i
        by_cases hi : i = idx
        · subst hi
          rw [if_pos rfl, if_pos rfl]
          refine rnd_whole R (isWhole_add (hd i hin) (hw e (by simp))) ((abs_add_le _ _).trans ?_)
          have := hbig i hin
          have hsum : 0 ≤ (h.map fun e => |e.1|).sum := sum_abs_nonneg h
          simp only [List.map_cons, List.sum_cons] at this
          linarith
        · rw [if_neg hi, if_neg hi]
      · obtain ⟨e1, h1⟩ := R.fill_of_not_inRange hk' hr e.1
        obtain ⟨e2, h2⟩ := fill_of_not_inRange hk' hr e.1
        rw [h1, h2]
        rfl
    obtain ⟨f1, f2, f3⟩ := fill_step hs hk' e.1
    have hcfg := f1.2.1
    have hcon : ∀ j, contribution s j (e.1, e.2) = e.1 ∨ contribution s j (e.1, e.2) = 0 := by
      intro j
      unfold contribution
      split
      · exact .inl rfl
      · exact .inr rfl
    have := ih (s.fill e.1 e.2).st (fill_wf hs e.1) (by rw [hcfg]; exact hb)
      (fun e' he' => hk e' (by simp [he'])) (fun e' he' => hw e' (by simp [he']))
      (by
        rw [hcfg]
        exact fun e' he' => hcl e' (by simp [he']))
      (by
        rw [f2]
        intro j hj
        rw [f3]
        rcases hcon j with hc | hc
        · rw [hc]
          exact isWhole_add (hd j hj) (hw e (by simp))
        · rw [hc, add_zero]
          exact hd j hj)
      (by
        rw [f2]
        intro j hj
        rw [f3]
        have h5 := hbig j hj
        simp only [List.map_cons, List.sum_cons] at h5
        rcases hcon j with hc | hc
        · rw [hc]
          linarith [abs_add_le (s.data.get j) e.1]
        · rw [hc, add_zero]
          linarith [abs_nonneg e.1])
    change runFloatFills R (R.fill s e.1 e.2).st h = runFills (s.fill e.1 e.2).st h
    rw [hstep]
    exact this

namespace Ex

/-- An empty spectrum with the axes of `spec`. -/
def floatSpec : Spectrum := { spec with data := ⟨[10, 4], fun _ => 0⟩ }

theorem floatSpec_wf : floatSpec.WF := ⟨spec_wf.axes, spec_wf.names, spec_wf.shape⟩

/-- Three events, one of them outside. -/
def floatFills : Fills := [(1, [(lit "energy_mc", 6 / 5), (lit "radial_mc", 1000)]),
  (1, [(lit "energy_mc", 26 / 5), (lit "radial_mc", 1000)]),
  (1, [(lit "energy_mc", 7 / 5), (lit "radial_mc", 10)])]

theorem clear_of_dist {p : SPar} {tol x : ℚ} (hw : 0 < (p.high - p.low) / p.bins) (i : ℤ)
    (h1 : p.edge i + tol < x) (h2 : x < p.edge (i + 1) - tol) : ClearOfEdges p tol x := by
  intro k _ _
  rcases le_or_gt k i with h | h
  · refine lt_of_lt_of_le ?_ (le_abs_self _)
    have : p.edge k ≤ p.edge i := by
      unfold SPar.edge
      gcongr
    linarith
  · refine lt_of_lt_of_le ?_ (neg_le_abs _)
    have : p.edge (i + 1) ≤ p.edge k := by
      unfold SPar.edge
      gcongr
      omega
    linarith

end Ex

example : Ex.floatSpec.WF ∧ (∀ e ∈ Ex.floatFills, IsDict e.2) ∧ (∀ e ∈ Ex.floatFills, IsWhole e.1) ∧
    (∀ e ∈ Ex.floatFills, ∀ p ∈ Ex.floatSpec.cfg, ∀ x, (p.name, x) ∈ e.2 →
      ClearOfEdges p (5 * (binary 53 (by norm_num)).u * (p.high - p.low)) x) ∧
    (∀ j, InB Ex.floatSpec.data.shape j → IsWhole (Ex.floatSpec.data.get j)) ∧
    (∀ j, InB Ex.floatSpec.data.shape j → |Ex.floatSpec.data.get j| +
      (Ex.floatFills.map fun e => |e.1|).sum ≤ (binary 53 (by norm_num)).big) := by
  refine ⟨Ex.floatSpec_wf, ?_, ?_, ?_, fun _ _ => ⟨0, by simp [Ex.floatSpec]⟩, fun _ _ => ?_⟩
  · intro e he
    simp only [Ex.floatFills, List.mem_cons, List.not_mem_nil, or_false] at he
    rcases he with rfl | rfl | rfl <;> (unfold IsDict; decide)
  · intro e he
    simp only [Ex.floatFills, List.mem_cons, List.not_mem_nil, or_false] at he
    rcases he with rfl | rfl | rfl <;> exact ⟨1, by norm_num⟩
  · intro e he p hp x hx
    simp only [Ex.floatFills, List.mem_cons, List.not_mem_nil, or_false] at he
    simp only [Ex.floatSpec, Ex.spec, List.mem_cons, List.not_mem_nil, or_false] at hp
    rcases he with rfl | rfl | rfl <;> rcases hp with rfl | rfl <;>
      simp [Ex.energy, Ex.radial] at hx <;> subst hx
    · exact Ex.clear_of_dist (by norm_num [Ex.energy]) 2 (by norm_num [Ex.energy, SPar.edge, binary])
        (by norm_num [Ex.energy, SPar.edge, binary])
    · exact Ex.clear_of_dist (by norm_num [Ex.radial]) 0 (by norm_num [Ex.radial, SPar.edge, binary])
        (by norm_num [Ex.radial, SPar.edge, binary])
    · exact Ex.clear_of_dist (by norm_num [Ex.energy]) 10 (by norm_num [Ex.energy, SPar.edge, binary])
        (by norm_num [Ex.energy, SPar.edge, binary])
    · exact Ex.clear_of_dist (by norm_num [Ex.radial]) 0 (by norm_num [Ex.radial, SPar.edge, binary])
        (by norm_num [Ex.radial, SPar.edge, binary])
    · exact Ex.clear_of_dist (by norm_num [Ex.energy]) 2 (by norm_num [Ex.energy, SPar.edge, binary])
        (by norm_num [Ex.energy, SPar.edge, binary])
    · exact Ex.clear_of_dist (by norm_num [Ex.radial]) 0 (by norm_num [Ex.radial, SPar.edge, binary])
        (by norm_num [Ex.radial, SPar.edge, binary])
  · norm_num [Ex.floatSpec, Ex.floatFills, binary]

/-- **C126, order.** With whole weights and numbers below `R.big`, the order of the fills does not
matter, wherever the points are. -/
theorem c126_order (R : Rounding) (hu : R.u ≤ 1 / 16) (s : Spectrum) (hs : s.WF)
    (hb : ∀ p ∈ s.cfg, p.bins.toNat ≤ R.big) (h h' : Fills) (hp : h.Perm h')
    (hk : ∀ e ∈ h, IsDict e.2) (hw : ∀ e ∈ h, IsWhole e.1)
    (hd : ∀ j, InB s.data.shape j → IsWhole (s.data.get j))
    (hbig : ∀ j, InB s.data.shape j → |s.data.get j| + (h.map fun e => |e.1|).sum ≤ R.big) :
    runFloatFills R s h = runFloatFills R s h' := by
  classical
  have main : ∀ (h : Fills) (s : Spectrum), s.WF → (∀ p ∈ s.cfg, p.bins.toNat ≤ R.big) →
      (∀ e ∈ h, IsDict e.2) → (∀ e ∈ h, IsWhole e.1) →
      (∀ j, InB s.data.shape j → IsWhole (s.data.get j)) →
      (∀ j, InB s.data.shape j → |s.data.get j| + (h.map fun e => |e.1|).sum ≤ R.big) →
      runFloatFills R s h = { s with data := ⟨s.data.shape, fun j => s.data.get j + (h.map fun e =>
        if InRange s e.2 ∧ InB s.data.shape j ∧ List.Forall₂ (fun p (i : ℕ) =>
          ∃ x, (p.name, x) ∈ e.2 ∧ R.fillBin p x = i) s.cfg j then e.1 else 0).sum⟩ } := by
    intro h
    induction h with
    | nil =>
      intro s _ _ _ _ _ _
      simp [runFloatFills]
    | cons e h ih =>
      intro s hs hb hk hw hd hbig
      have hk' := hk e (by simp)
      have hsum : 0 ≤ (h.map fun e => |e.1|).sum := sum_abs_nonneg h
      set c : List ℕ → ℚ := fun j => if InRange s e.2 ∧ InB s.data.shape j ∧
        List.Forall₂ (fun p (i : ℕ) => ∃ x, (p.name, x) ∈ e.2 ∧ R.fillBin p x = i) s.cfg j
        then e.1 else 0 with hc
      have hstep : (R.fill s e.1 e.2).st =
          { s with data := ⟨s.data.shape, fun j => s.data.get j + c j⟩ } := by
        by_cases hr : InRange s e.2
        · obtain ⟨idx, h1, h2⟩ := R.fill_of_inRange hs hk' hr hu hb e.1
          have h1' : List.Forall₂ (fun p (i : ℕ) => ∃ x, (p.name, x) ∈ e.2 ∧ R.fillBin p x = i)
              s.cfg idx := h1.imp fun p i ⟨x, a, _, _, c⟩ => ⟨x, a, c⟩
          have huniq : ∀ j, List.Forall₂ (fun p (i : ℕ) => ∃ x, (p.name, x) ∈ e.2 ∧
              R.fillBin p x = i) s.cfg j → j = idx := by
            clear * - h1' hk'
            generalize s.cfg = cfg at *
            induction h1' with
            | nil => intro j hj; cases hj; rfl
            | cons a _ ih =>
              intro j hj
              cases hj with
              | cons b1 b2 =>
                obtain ⟨x, hx, hx'⟩ := a
                obtain ⟨y, hy, hy'⟩ := b1
                have e1 := (assoc_eq_some_iff hk').2 hx
                rw [(assoc_eq_some_iff hk').2 hy] at e1
                cases e1
                rw [hx'] at hy'
                rw [ih _ b2]
                congr 1
                exact_mod_cast hy'.symm
          rw [h2]
          by_cases hi : InB s.data.shape idx
          · rw [if_pos hi]
            simp only [Outcome.ok]
            congr 2
            funext j
            by_cases hj : j = idx
            · subst hj
              have hcj : c j = e.1 := if_pos ⟨hr, hi, h1'⟩
              rw [if_pos rfl, hcj]
              refine rnd_whole R (isWhole_add (hd j hi) (hw e (by simp))) ((abs_add_le _ _).trans ?_)
              have := hbig j hi
              simp only [List.map_cons, List.sum_cons] at this
              linarith
            · have hcj : c j = 0 := if_neg fun h => hj (huniq j h.2.2)
              rw [if_neg hj, hcj, add_zero]
          · rw [if_neg hi]
            have hc0 : ∀ j, c j = 0 := fun j => if_neg fun h => hi (by
              rw [← huniq j h.2.2]
              exact h.2.1)
            simp [Outcome.fail, hc0]
        · obtain ⟨e1, h1⟩ := R.fill_of_not_inRange hk' hr e.1
          have hc0 : ∀ j, c j = 0 := fun j => if_neg fun h => hr h.1
          rw [h1]
          simp [Outcome.fail, hc0]
      have hcon : ∀ j, c j = e.1 ∨ c j = 0 := by
        intro j
        rw [hc]
        dsimp only
        split
        · exact .inl rfl
        · exact .inr rfl
      change runFloatFills R (R.fill s e.1 e.2).st h = _
      have hs' : Spectrum.WF { s with data := ⟨s.data.shape, fun j => s.data.get j + c j⟩ } :=
        ⟨hs.axes, hs.names, hs.shape⟩
      rw [hstep, ih _ hs' hb (fun e' he' => hk e' (by simp [he']))
        (fun e' he' => hw e' (by simp [he'])) ?_ ?_]
      · congr 2
        funext j
        simp only [List.map_cons, List.sum_cons]
        rw [add_assoc]
        rfl
      · intro j hj
        dsimp only
        rcases hcon j with h5 | h5
        · rw [h5]
          exact isWhole_add (hd j hj) (hw e (by simp))
        · rw [h5, add_zero]
          exact hd j hj
      · intro j hj
        dsimp only
        have h5 := hbig j hj
        simp only [List.map_cons, List.sum_cons] at h5
        rcases hcon j with h6 | h6
        · rw [h6]
          linarith [abs_add_le (s.data.get j) e.1]
        · rw [h6, add_zero]
          linarith [abs_nonneg e.1]
  rw [main h s hs hb hk hw hd hbig, main h' s hs hb (fun e he => hk e (hp.mem_iff.2 he))
    (fun e he => hw e (hp.mem_iff.2 he)) hd
    (fun j hj => by
      rw [← (hp.map fun e => |e.1|).sum_eq]
      exact hbig j hj)]
  congr 2
  funext j
  rw [(hp.map _).sum_eq]

/-- **C126, total.** The sum of whole contents is exact in whatever order numpy adds them up, as long
as the sum of their sizes is below `R.big`. -/
theorem c126_sum (R : Rounding) (t : SumTree) (hw : ∀ x ∈ t.leaves, IsWhole x)
    (hbig : (t.leaves.map abs).sum ≤ R.big) : R.sumTree t = t.leaves.sum := by
  have key : ∀ t : SumTree, (∀ x ∈ t.leaves, IsWhole x) → (t.leaves.map abs).sum ≤ R.big →
      R.sumTree t = t.leaves.sum ∧ IsWhole t.leaves.sum ∧ |t.leaves.sum| ≤ (t.leaves.map abs).sum := by
    intro t
    induction t with
    | zero => intro _ _; exact ⟨rfl, ⟨0, by simp [SumTree.leaves]⟩, by simp [SumTree.leaves]⟩
    | leaf x =>
      intro hw _
      refine ⟨by simp [SumTree.leaves, Rounding.sumTree], ?_, by simp [SumTree.leaves]⟩
      simpa [SumTree.leaves] using hw x (by simp [SumTree.leaves])
    | node l r ihl ihr =>
      intro hw hbig
      simp only [SumTree.leaves, List.map_append, List.sum_append] at hbig ⊢
      have p1 : 0 ≤ (l.leaves.map abs).sum := list_abs_nonneg _
      have p2 : 0 ≤ (r.leaves.map abs).sum := list_abs_nonneg _
      obtain ⟨a1, a2, a3⟩ := ihl (fun x hx => hw x (by simp [SumTree.leaves, hx])) (by linarith)
      obtain ⟨b1, b2, b3⟩ := ihr (fun x hx => hw x (by simp [SumTree.leaves, hx])) (by linarith)
      have hle : |l.leaves.sum + r.leaves.sum| ≤ (l.leaves.map abs).sum + (r.leaves.map abs).sum :=
        (abs_add_le _ _).trans (by linarith)
      refine ⟨?_, isWhole_add a2 b2, hle⟩
      unfold Rounding.sumTree
      rw [a1, b1]
      exact rnd_whole R (isWhole_add a2 b2) (hle.trans hbig)
  exact (key t hw hbig).1

example : ∃ t : SumTree, t.leaves = [3, 4, 5] ∧ (∀ x ∈ t.leaves, IsWhole x) ∧
    (t.leaves.map abs).sum ≤ (binary 53 (by norm_num)).big :=
  ⟨.node (.node .zero (.leaf 3)) (.node (.leaf 4) (.leaf 5)), rfl, by
    simp only [SumTree.leaves, List.nil_append, List.cons_append, List.mem_cons, List.not_mem_nil,
      or_false, forall_eq_or_imp, forall_eq]
    exact ⟨⟨3, by norm_num⟩, ⟨4, by norm_num⟩, ⟨5, by norm_num⟩⟩, by
    simp [SumTree.leaves, binary]
    norm_num⟩

end Verif
