import Verif.Spec.DsExtract
import Mathlib.Tactic.Linarith
import Mathlib.Tactic.NormNum
import Mathlib.Tactic.Positivity

/-! # C67, C68, C83, C84: extractors -/

namespace Verif

open Extractor

theorem Pos.mag_lt_iff (p : Pos) (r : ℝ) : p.mag < r ↔ p.Inside r := by
  unfold Pos.mag Pos.Inside
  rw [abs_of_nonneg (Real.sqrt_nonneg _)]
  constructor
  · intro h
    have hr : 0 < r := lt_of_le_of_lt (Real.sqrt_nonneg _) h
    exact ⟨hr, (Real.sqrt_lt' hr).1 h⟩
  · rintro ⟨hr, h⟩
    exact (Real.sqrt_lt' hr).2 h

theorem Pos.mag_nonneg (p : Pos) : 0 ≤ p.mag := abs_nonneg _

theorem Pos.mag_sq (p : Pos) : p.mag ^ 2 = p.x ^ 2 + p.y ^ 2 + p.z ^ 2 := by
  unfold Pos.mag
  rw [sq_abs, Real.sq_sqrt (by positivity)]

theorem Pos.inside_mono {p : Pos} {r r' : ℝ} (h : p.Inside r) (hr : r ≤ r') : p.Inside r' := by
  rw [← Pos.mag_lt_iff] at *
  exact lt_of_lt_of_le h hr

theorem withCut_true {fv : Option ℝ} (h0 : fv ≠ some 0) (cut : ℝ → Bool) :
    withCut fv cut true = true ↔ ∀ r, fv = some r → cut r = true := by
  unfold withCut
  cases fv with
  | none => simp
  | some r =>
    have : r ≠ 0 := fun h => h0 (by rw [h])
    simp [this]

theorem withCut_ok {fv : Option ℝ} (h0 : fv ≠ some 0) (cut : ℝ → Except PyErr Bool) :
    withCut fv cut (.ok true) = .ok true ↔ ∀ r, fv = some r → cut r = .ok true := by
  unfold withCut
  cases fv with
  | none => simp
  | some r =>
    have : r ≠ 0 := fun h => h0 (by rw [h])
    simp [this]

/-- Cases of the factory. -/
theorem factory_cases {d : PyStr} {fv : Option ℝ} {ex : Bool} {o : Option ℝ} {e : Extractor}
    (h : factory d fv ex o = .ok e) :
    e.fvRadius = fv ∧ e.external = ex ∧ e.name = d ∧
    ((d = lit "energy_mc" ∧ e.kind = .energyMC ∧ e.otherPos = ex) ∨
     (d = lit "energy_truth" ∧ e.kind = .energyTruth ∧ e.otherPos = ex) ∨
     (d = lit "energy_reco" ∧ e.kind = .energyReco ∧ e.otherPos = false) ∨
     (d = lit "radial_mc" ∧ e.kind = .radialMC ∧ e.otherPos = false ∧ ex = false) ∨
     (d = lit "radial_reco" ∧ e.kind = .radialReco ∧ e.otherPos = false) ∨
     (d = lit "radial3_mc" ∧ e.kind = .radial3MC ∧ e.otherPos = false ∧ ex = false ∧
       e.outer = outerOf o) ∨
     (d = lit "radial3_reco" ∧ e.kind = .radial3Reco ∧ e.otherPos = false ∧
       e.outer = outerOf o)) := by
  unfold factory at h
  split_ifs at h with h1 h2 h3 h4 h5 h6 h7 h8 h9 <;> simp only [new] at h
  all_goals (try (cases ex <;> simp at h))
  all_goals (subst h; subst_vars; simp)

/-- **C67, ntuples.** With a non-zero radius, or none, an entry is selected exactly when it
is usable and its position is inside the radius. -/
theorem c67_ntuple_selection (d : PyStr) (fv : Option ℝ) (h0 : fv ≠ some 0) (external : Bool)
    (outer : Option ℝ) (e : Extractor) (he : factory d fv external outer = .ok e)
    (n : NtEntry) :
    e.validNtuple n = true ↔ Usable d external n ∧ PassesFv fv (cutPos d external n) := by
  obtain ⟨hfv, hex, -, hc⟩ := factory_cases he
  unfold PassesFv
  rcases hc with ⟨rfl, hk, ho⟩ | ⟨rfl, hk, ho⟩ | ⟨rfl, hk, ho⟩ | ⟨rfl, hk, ho, rfl⟩ |
    ⟨rfl, hk, ho⟩ | ⟨rfl, hk, ho, rfl, -⟩ | ⟨rfl, hk, ho, -⟩ <;>
    simp only [validNtuple, hk, hfv, hex, fvCutNtupleMC, fvCutNtupleReco, ho, Usable, cutPos,
      simulatedDims, List.mem_cons, List.cons.injEq, Char.reduceEq, false_and, and_false,
      true_and, and_true, List.not_mem_nil, or_false, or_true, if_true, if_false,
      reduceCtorEq, Bool.false_eq_true, false_implies, Bool.not_false] <;>
    by_cases hm : n.mc = 1 <;> by_cases hs : n.scintFit = 1 <;>
    (try cases external) <;>
    simp [hm, hs, withCut_true h0, Pos.mag_lt_iff]

/-- An entry for the examples: simulated at the centre, reconstructed at 3 m. -/
def Ex.entry : NtEntry :=
  ⟨1, 1, ⟨0, 0, 0⟩, ⟨3000, 0, 0⟩, 2, 3, 4⟩

example : ∃ e, factory (lit "energy_mc") (some 3500) true none = .ok e := ⟨_, rfl⟩
example : Usable (lit "energy_mc") true Ex.entry ∧
    PassesFv (some 3500) (cutPos (lit "energy_mc") true Ex.entry) := by
  constructor
  · simp [Usable, simulatedDims, Ex.entry]
  · intro r hr
    cases hr
    norm_num [cutPos, Ex.entry, Pos.Inside]

/-- **C67, larger radius.** A larger fiducial radius selects at least the same entries. -/
theorem c67_ntuple_monotone (d : PyStr) (r r' : ℝ) (h0 : r ≠ 0) (hr : r ≤ r')
    (external : Bool) (outer : Option ℝ) (e e' : Extractor)
    (he : factory d (some r) external outer = .ok e)
    (he' : factory d (some r') external outer = .ok e') (n : NtEntry)
    (h : e.validNtuple n = true) : e'.validNtuple n = true := by
  rw [c67_ntuple_selection d (some r) (by simpa using h0) external outer e he] at h
  have hin := h.2 r rfl
  have hr' : r' ≠ 0 := by have := hin.1; intro h; linarith
  rw [c67_ntuple_selection d (some r') (by simpa using hr') external outer e' he']
  refine ⟨h.1, fun q hq => ?_⟩
  cases hq
  exact Pos.inside_mono hin hr

/-- **C67, zero radius.** A fiducial radius of zero, which contains no position, switches the
cut off: entries at any distance are selected. -/
theorem c67_zero_radius_negation (R : ℝ) :
    ∃ e n, factory (lit "energy_mc") (some 0) false none = .ok e ∧
      R < n.mcPos.x ∧ e.validNtuple n = true ∧
      ¬ PassesFv (some 0) (cutPos (lit "energy_mc") false n) := by
  refine ⟨⟨.energyMC, lit "energy_mc", some 0, false, false, avRadius⟩,
    { Ex.entry with mcPos := ⟨R + 1, 0, 0⟩ }, rfl, by simp, ?_, ?_⟩
  · simp [validNtuple, withCut, Ex.entry]
  · intro h
    exact lt_irrefl _ (h 0 rfl).1

/-- **C67, root files, simulated values.** Internal events are cut on the position of the
first simulated particle; external ones with a single triggered event on its
reconstructed position. -/
theorem c67_root_selection_mc (d : PyStr) (hd : d ∈ simulatedDims) (fv : Option ℝ)
    (h0 : fv ≠ some 0) (external : Bool) (outer : Option ℝ) (e : Extractor)
    (he : factory d fv external outer = .ok e) (ds : RootDS) (p : Pos) (ps : List Pos)
    (hp : ds.particles = p :: ps) (ev : RootEV) (hev : external = true → ds.evs = [ev]) :
    e.validRootMC ds = .ok true ↔ PassesFv fv (if external then ev.pos else p) := by
  obtain ⟨hfv, hex, -, hc⟩ := factory_cases he
  have ho : e.otherPos = external := by
    rcases hc with ⟨rfl, hk, ho⟩ | ⟨rfl, hk, ho⟩ | ⟨rfl, hk, ho⟩ | ⟨rfl, hk, ho, rfl⟩ |
      ⟨rfl, hk, ho⟩ | ⟨rfl, hk, ho, rfl, -⟩ | ⟨rfl, hk, ho, -⟩ <;>
      first | exact ho | simp [simulatedDims] at hd
  unfold validRootMC PassesFv
  rw [hfv, withCut_ok h0]
  cases external with
  | true => simp [fvCutRootMC, ho, hev rfl, Pos.mag_lt_iff]
  | false => simp [fvCutRootMC, ho, mcInside, hp, Pos.mag_lt_iff]

/-- **C67, root files, reconstructed values.** An event is selected exactly when it has a
fit with a valid value and its reconstructed position is inside the radius. -/
theorem c67_root_selection_reco (d : PyStr) (hd : d ∉ simulatedDims) (fv : Option ℝ)
    (h0 : fv ≠ some 0) (external : Bool) (outer : Option ℝ) (e : Extractor)
    (he : factory d fv external outer = .ok e) (ev : RootEV) (ds : RootDS) :
    e.validRootReco ev ds = .ok true ↔
      ev.fitExists = true ∧
      (if d = lit "radial_reco" then ev.containsPosition = true ∧ ev.validPosition = true
       else ev.containsEnergy = true ∧ ev.validEnergy = true) ∧ PassesFv fv ev.pos := by
  obtain ⟨hfv, hex, -, hc⟩ := factory_cases he
  unfold PassesFv
  rcases hc with ⟨rfl, hk, ho⟩ | ⟨rfl, hk, ho⟩ | ⟨rfl, hk, ho⟩ | ⟨rfl, hk, ho, rfl⟩ |
    ⟨rfl, hk, ho⟩ | ⟨rfl, hk, ho, rfl, -⟩ | ⟨rfl, hk, ho, -⟩ <;>
    first
    | (exfalso; simp [simulatedDims] at hd; done)
    | (cases h1 : ev.fitExists <;> cases h2 : ev.containsEnergy <;>
        cases h3 : ev.validEnergy <;> cases h4 : ev.containsPosition <;>
        cases h5 : ev.validPosition <;>
        simp [validRootReco, hk, hfv, ho, h1, h2, h3, h4, h5, withCut_ok h0, fvCutRootReco,
          Pos.mag_lt_iff])

/-- A triggered event with energy and position, for the examples. -/
def Ex.ev : RootEV := ⟨true, true, true, true, true, ⟨3000, 0, 0⟩, 4⟩
/-- A root entry with one simulated particle and one triggered event. -/
def Ex.ds : RootDS := ⟨[⟨0, 0, 0⟩], 2, 3, [Ex.ev]⟩

example : ∃ e, factory (lit "radial_mc") (some 3500) false none = .ok e ∧
    lit "radial_mc" ∈ simulatedDims ∧ Ex.ds.particles = [⟨0, 0, 0⟩] :=
  ⟨_, rfl, by simp [simulatedDims], rfl⟩
example : ∃ e, factory (lit "radial3_reco") (some 3500) true none = .ok e ∧
    lit "radial3_reco" ∉ simulatedDims := ⟨_, rfl, by simp [simulatedDims]⟩

/-- **C67, mixed positions.** Extractors built directly can cut simulated values on the
reconstructed position or the other way round; the radius is respected there too, and
an entry without reconstruction is not selected by a cut on the reconstructed position. -/
theorem c67_direct_extractors (k : ExKind) (r : ℝ) (h0 : r ≠ 0) (external otherPos : Bool)
    (outer : Option ℝ) (e : Extractor) (he : new k (some r) external otherPos outer = .ok e)
    (n : NtEntry) (h : e.validNtuple n = true) :
    (n.mcPos.Inside r ∧ external = false) ∨ (n.pos.Inside r ∧ n.scintFit = 1) := by
  have key : ∀ cut : ℝ → Bool, withCut (some r) cut true = true → cut r = true :=
    fun cut hc => (withCut_true (by simpa using h0) cut).1 hc r rfl
  cases k <;> simp only [new, reduceCtorEq] at he
  all_goals
    cases external <;> cases otherPos <;> simp at he <;> subst he <;>
      simp only [validNtuple, fvCutNtupleMC, fvCutNtupleReco] at h
  all_goals
    by_cases hm : n.mc = 1 <;> by_cases hs : n.scintFit = 1 <;>
      simp [hm, hs] at h
  all_goals
    first
    | (have := key _ h; simp [Pos.mag_lt_iff] at this; simp [this, hs])
    | (have := key _ h.2; simp [Pos.mag_lt_iff] at this; simp [this, hs])
    | (have := key _ h; simp at this)

example : ∃ e, new .energyMC (some 3500) false true none = .ok e ∧
    e.validNtuple Ex.entry = true := by
  refine ⟨_, rfl, ?_⟩
  simp only [validNtuple, fvCutNtupleMC, Ex.entry, withCut]
  norm_num [Pos.mag_lt_iff, Pos.Inside]

/-- **C68.** An extractor for the dimensions other than zradial3 can be created, with any
radius, unless simulated positions are asked for an external background, which raises
`ValueError`; it carries the name of the dimension. Undocumented dimensions raise
`IndexError`. -/
theorem c68_factory_partial (d : PyStr) (fv : Option ℝ) (external : Bool) (outer : Option ℝ) :
    (d ∉ documentedDims → factory d fv external outer = .error .indexError) ∧
    (d ∈ documentedDims → d ≠ lit "zradial3_mc" → d ≠ lit "zradial3_reco" →
      (external = true → d ≠ lit "radial_mc" ∧ d ≠ lit "radial3_mc") →
      ∃ e, factory d fv external outer = .ok e ∧ e.name = d ∧ e.fvRadius = fv ∧
        e.external = external) ∧
    (d = lit "radial_mc" ∨ d = lit "radial3_mc" →
      factory d fv true outer = .error .valueError) := by
  refine ⟨?_, ?_, ?_⟩
  · intro h
    simp only [documentedDims, List.mem_cons, List.not_mem_nil, or_false, not_or] at h
    unfold factory
    simp only [h, if_false]
  · intro h h1 h2 h3
    simp only [documentedDims, List.mem_cons, List.not_mem_nil, or_false] at h
    rcases h with rfl | rfl | rfl | rfl | rfl | rfl | rfl | rfl | rfl
    all_goals
      cases external <;> simp at h1 h2 h3 <;> exact ⟨_, rfl, rfl, rfl, rfl⟩
  · rintro (rfl | rfl) <;> rfl

example : lit "energy_mc" ∈ documentedDims ∧ lit "neutrons_mc" ∉ documentedDims := by
  simp [documentedDims]

/-- **C68, failure.** The documented zradial3 extractors can never be created, neither by
the factory nor directly. -/
theorem c68_zradial3_negation (fv : Option ℝ) (external otherPos : Bool) (outer : Option ℝ) :
    lit "zradial3_mc" ∈ documentedDims ∧ lit "zradial3_reco" ∈ documentedDims ∧
    factory (lit "zradial3_mc") fv external outer = .error .typeError ∧
    factory (lit "zradial3_reco") fv external outer = .error .typeError ∧
    new .zradial3MC fv external otherPos outer = .error .typeError ∧
    new .zradial3Reco fv external otherPos outer = .error .typeError :=
  ⟨by simp [documentedDims], by simp [documentedDims], rfl, rfl, rfl, rfl⟩

/-- **C83.** The value filled from an ntuple entry: the energies are the columns, `radial`
is the distance from the centre, and `radial3` the cube of its ratio to the outer radius,
between 0 and 1 exactly inside that radius. -/
theorem c83_values (d : PyStr) (fv : Option ℝ) (external : Bool) (outer : Option ℝ)
    (e : Extractor) (he : factory d fv external outer = .ok e) (n : NtEntry) :
    (d = lit "energy_mc" → e.valueNtuple n = n.mcEdepQuenched) ∧
    (d = lit "energy_truth" → e.valueNtuple n = n.mcEdep) ∧
    (d = lit "energy_reco" → e.valueNtuple n = n.energy) ∧
    (∀ p, (d = lit "radial_mc" ∧ p = n.mcPos) ∨ (d = lit "radial_reco" ∧ p = n.pos) →
      0 ≤ e.valueNtuple n ∧ e.valueNtuple n ^ 2 = p.x ^ 2 + p.y ^ 2 + p.z ^ 2) ∧
    (∀ p R, (d = lit "radial3_mc" ∧ p = n.mcPos) ∨ (d = lit "radial3_reco" ∧ p = n.pos) →
      (outer = some R ∧ 0 < R ∨ outer = none ∧ R = 5997) →
      0 ≤ e.valueNtuple n ∧
      e.valueNtuple n ^ 2 * R ^ 6 = (p.x ^ 2 + p.y ^ 2 + p.z ^ 2) ^ 3 ∧
      (e.valueNtuple n < 1 ↔ p.Inside R)) := by
  obtain ⟨-, -, -, hc⟩ := factory_cases he
  have hout : ∀ R : ℝ, (outer = some R ∧ 0 < R ∨ outer = none ∧ R = 5997) →
      outerOf outer = R ∧ 0 < R := by
    rintro R (⟨rfl, hR⟩ | ⟨rfl, rfl⟩)
    · exact ⟨by simp [outerOf, hR.ne'], hR⟩
    · exact ⟨rfl, by norm_num⟩
  have h3 : ∀ (p : Pos) (R : ℝ), 0 < R → 0 ≤ (p.mag / R) ^ 3 ∧
      ((p.mag / R) ^ 3) ^ 2 * R ^ 6 = (p.x ^ 2 + p.y ^ 2 + p.z ^ 2) ^ 3 ∧
      ((p.mag / R) ^ 3 < 1 ↔ p.Inside R) := by
    intro p R hR
    have hm := p.mag_nonneg
    refine ⟨by positivity, ?_, ?_⟩
    · rw [← Pos.mag_sq]; field_simp
    · rw [← Pos.mag_lt_iff, pow_lt_one_iff_of_nonneg (by positivity) (by norm_num),
        div_lt_one hR]
  have h2 := Pos.mag_sq
  have h1 := Pos.mag_nonneg
  rcases hc with ⟨rfl, hk, ho⟩ | ⟨rfl, hk, ho⟩ | ⟨rfl, hk, ho⟩ | ⟨rfl, hk, ho, rfl⟩ |
    ⟨rfl, hk, ho⟩ | ⟨rfl, hk, ho, rfl, hR⟩ | ⟨rfl, hk, ho, hR⟩ <;>
    simp [valueNtuple, hk, h1, h2]
  all_goals
    rintro p R rfl hout'
    rw [hR, (hout R hout').1]
    exact h3 _ _ (hout R hout').2

example : ∃ e, factory (lit "radial3_mc") none false (some 3500) = .ok e := ⟨_, rfl⟩

/-- **C83, root files.** The values taken from a root file are the same functions of the
simulated or reconstructed quantities as those taken from an ntuple holding them. -/
theorem c83_root_values_agree (d : PyStr) (fv : Option ℝ) (external : Bool)
    (outer : Option ℝ) (e : Extractor) (he : factory d fv external outer = .ok e)
    (ds : RootDS) (ev : RootEV) (p : Pos) (ps : List Pos) (hp : ds.particles = p :: ps)
    (n : NtEntry) (h1 : n.mcPos = p) (h2 : n.pos = ev.pos) (h3 : n.mcEdepQuenched = ds.quenched)
    (h4 : n.mcEdep = ds.edep) (h5 : n.energy = ev.energy) :
    (d ∈ simulatedDims → e.valueRootMC ds = .ok (e.valueNtuple n)) ∧
    (d ∉ simulatedDims → e.valueRootReco ev = e.valueNtuple n) := by
  obtain ⟨-, -, -, hc⟩ := factory_cases he
  rcases hc with ⟨rfl, hk, ho⟩ | ⟨rfl, hk, ho⟩ | ⟨rfl, hk, ho⟩ | ⟨rfl, hk, ho, rfl⟩ |
    ⟨rfl, hk, ho⟩ | ⟨rfl, hk, ho, rfl, hR⟩ | ⟨rfl, hk, ho, hR⟩ <;>
    simp [valueNtuple, valueRootMC, valueRootReco, hk, h1, h2, h3, h4, h5, hp, simulatedDims]

/-- **C84, ntuples.** For an external background, entries without a reconstructed vertex are
never selected. -/
theorem c84_external_ntuple (d : PyStr) (fv : Option ℝ) (outer : Option ℝ) (e : Extractor)
    (he : factory d fv true outer = .ok e) (n : NtEntry) (hn : n.scintFit ≠ 1) :
    e.validNtuple n = false := by
  obtain ⟨hfv, hex, -, hc⟩ := factory_cases he
  rcases hc with ⟨rfl, hk, ho⟩ | ⟨rfl, hk, ho⟩ | ⟨rfl, hk, ho⟩ | ⟨rfl, hk, ho, h⟩ |
    ⟨rfl, hk, ho⟩ | ⟨rfl, hk, ho, h, -⟩ | ⟨rfl, hk, ho, -⟩ <;>
    first | cases h | simp [validNtuple, hk, hex, hn]

example : ∃ e, factory (lit "energy_truth") none true none = .ok e ∧
    ({ Ex.entry with scintFit := 0 } : NtEntry).scintFit ≠ 1 := ⟨_, rfl, by decide⟩

/-- **C84, ntuples.** Entries without simulation are not selected for the simulated quantities,
entries without a reconstructed vertex not for the reconstructed ones, and entries without a
positive reconstructed energy not for the reconstructed energy. -/
theorem c84_invalid_ntuple (d : PyStr) (fv : Option ℝ) (external : Bool) (outer : Option ℝ)
    (e : Extractor) (he : factory d fv external outer = .ok e) (n : NtEntry) :
    (d ∈ simulatedDims → n.mc ≠ 1 → e.validNtuple n = false) ∧
    (d ∉ simulatedDims → n.scintFit ≠ 1 → e.validNtuple n = false) ∧
    (d = lit "energy_reco" → n.energy ≤ 0 → e.validNtuple n = false) := by
  obtain ⟨hfv, hex, -, hc⟩ := factory_cases he
  rcases hc with ⟨rfl, hk, ho⟩ | ⟨rfl, hk, ho⟩ | ⟨rfl, hk, ho⟩ | ⟨rfl, hk, ho, h⟩ |
    ⟨rfl, hk, ho⟩ | ⟨rfl, hk, ho, h, -⟩ | ⟨rfl, hk, ho, -⟩ <;>
    refine ⟨fun hd hn => ?_, fun hd hn => ?_, fun hd hn => ?_⟩ <;>
    first
    | exact absurd hd (by decide)
    | exact absurd (by decide) hd
    | simp [validNtuple, hk, hn]

example : ∃ e, factory (lit "energy_reco") none false none = .ok e ∧
    ({ Ex.entry with energy := 0 } : NtEntry).energy ≤ 0 := ⟨_, rfl, le_refl _⟩

/-- **C84, root files.** Reconstructed events without a fit that holds a valid energy are not selected
for the reconstructed energy, and those without one that holds a valid position not for the
reconstructed radius. -/
theorem c84_invalid_root (fv : Option ℝ) (external : Bool) (ds : RootDS) (ev : RootEV) :
    (∃ e, factory (lit "energy_reco") fv external none = .ok e ∧
      ((ev.fitExists = false ∨ ev.containsEnergy = false ∨ ev.validEnergy = false) →
        e.validRootReco ev ds = .ok false)) ∧
    (∃ e, factory (lit "radial_reco") fv external none = .ok e ∧
      ((ev.fitExists = false ∨ ev.containsPosition = false ∨ ev.validPosition = false) →
        e.validRootReco ev ds = .ok false)) := by
  constructor
  · refine ⟨⟨.energyReco, lit "energy_reco", fv, external, false, avRadius⟩, by simp [factory, new],
      fun h => ?_⟩
    rcases h with h | h | h <;> simp [validRootReco, h]
  · refine ⟨⟨.radialReco, lit "radial_reco", fv, external, false, avRadius⟩, by simp [factory, new],
      fun h => ?_⟩
    rcases h with h | h | h <;> simp [validRootReco, h]

example : ({ Ex.ev with validEnergy := false } : RootEV).validEnergy = false := rfl

/-- **C84, failure for root files.** An external event without a triggered event, or with several, is
selected when there is no fiducial radius, and stops the whole filling with an exception when there is
one. -/
theorem c84_external_root_negation (d : PyStr) (hd : d = lit "energy_mc" ∨ d = lit "energy_truth")
    (ds : RootDS) (h : ds.evs.length ≠ 1) (r : ℝ) (hr : r ≠ 0) :
    (∃ e, factory d none true none = .ok e ∧ e.validRootMC ds = .ok true) ∧
    (∃ e, factory d (some r) true none = .ok e ∧ e.validRootMC ds = .error .valueError) := by
  have hcut : ∀ e : Extractor, e.otherPos = true → e.fvCutRootMC r ds = .error .valueError := by
    intro e he
    unfold fvCutRootMC
    rw [he]
    match hevs : ds.evs with
    | [] => rfl
    | [_] => exact absurd (by rw [hevs]; rfl) h
    | _ :: _ :: _ => rfl
  rcases hd with rfl | rfl <;> refine ⟨⟨_, rfl, rfl⟩, ⟨_, rfl, ?_⟩⟩ <;>
    simp [validRootMC, withCut, hr, hcut]

example : ({ Ex.ds with evs := [] } : RootDS).evs.length ≠ 1 ∧
    ({ Ex.ds with evs := Ex.ds.evs ++ Ex.ds.evs } : RootDS).evs.length ≠ 1 ∧ (3500 : ℝ) ≠ 0 :=
  ⟨by simp, by simp [Ex.ds], by norm_num⟩

/-- **C84, failure for empty events.** Internal events without any simulated particle are
selected from root files too, and asking for the radius of one stops the filling. -/
theorem c84_no_particle_negation (ds : RootDS) (h : ds.particles = []) :
    ∃ e, factory (lit "radial_mc") none false none = .ok e ∧ e.validRootMC ds = .ok true ∧
      e.valueRootMC ds = .error .indexError := by
  refine ⟨_, rfl, rfl, ?_⟩
  simp [valueRootMC, h]

/-- **C84, failure for radial3.** The reconstructed radial3 value is taken from root events
whose position is invalid (the energy is checked instead), and not from events with a
valid position but no energy. -/
theorem c84_radial3_reco_negation (ds : RootDS) :
    ∃ e, factory (lit "radial3_reco") none false none = .ok e ∧
      (∀ ev : RootEV, ev.fitExists = true → ev.containsEnergy = true → ev.validEnergy = true →
        ev.validPosition = false → e.validRootReco ev ds = .ok true) ∧
      (∀ ev : RootEV, ev.validPosition = true → ev.validEnergy = false →
        e.validRootReco ev ds = .ok false) := by
  refine ⟨_, rfl, ?_, ?_⟩
  · intro ev h1 h2 h3 _
    simp [validRootReco, h1, h2, h3, withCut]
  · intro ev _ h2
    simp [validRootReco, h2]

example : Ex.ev.fitExists = true ∧ Ex.ev.containsEnergy = true ∧ Ex.ev.validEnergy = true ∧
    ({ Ex.ev with validPosition := false } : RootEV).validPosition = false := ⟨rfl, rfl, rfl, rfl⟩

end Verif
