import Verif.Lemmas.ConfigLoad
import Mathlib.Data.List.Sort
import Mathlib.Tactic.NormNum

/-!
# Properties of configurations: C54, C56, C58
-/

namespace Verif

/-! ## C56: order and index -/

section c56
variable {α : Type} (nameOf : α → PyStr)

/-- The configuration after a history of additions. -/
def built (name : PyStr) (adds : List α) : Config α :=
  adds.foldl (Config.addPar nameOf) ⟨name, []⟩

theorem built_concat (name : PyStr) (adds : List α) (p : α) :
    built nameOf name (adds ++ [p]) = (built nameOf name adds).addPar nameOf p := by
  simp [built, List.foldl_append]

/-- C56: the listed parameters are those added, each at the place of its first
addition. -/
theorem c56_listed (name : PyStr) (adds : List α) :
    (built nameOf name adds).getPars = firstSeen (adds.map nameOf) := by
  induction adds using List.reverseRecOn with
  | nil => rfl
  | append_singleton adds p ih =>
    have ih' : (built nameOf name adds).pars.map Prod.fst = firstSeen (adds.map nameOf) := ih
    rw [built_concat, List.map_append, List.map_singleton, firstSeen_concat]
    rw [Config.getPars, Config.addPar]
    dsimp only
    rw [keys_dictSet, ih']
    simp only [mem_firstSeen]

/-- C56: looking up a name gives the parameter added last under that name, and a
`KeyError` for a name never added. -/
theorem c56_lookup (name : PyStr) (adds : List α) (n : PyStr) :
    (built nameOf name adds).getPar n =
      match adds.reverse.find? (fun p => nameOf p = n) with
      | some p => .ok p
      | none => .error .keyError := by
  induction adds using List.reverseRecOn with
  | nil => rfl
  | append_singleton adds p ih =>
    rw [built_concat, List.reverse_append, List.reverse_singleton, List.singleton_append,
      List.find?_cons]
    unfold Config.getPar at ih ⊢
    rw [Config.addPar]
    dsimp only
    rw [assoc_dictSet]
    by_cases h : nameOf p = n
    · simp [h]
    · simp only [h, if_false, decide_false]
      exact ih

theorem built_nodup (name : PyStr) (adds : List α) : (built nameOf name adds).getPars.Nodup := by
  rw [c56_listed]; exact nodup_firstSeen _

/-- C56: the index of a name is its position in the list of names; a name never
added raises `IndexError`. -/
theorem c56_index (name : PyStr) (adds : List α) (n : PyStr) (i : ℕ) :
    ((built nameOf name adds).getIndex n = .ok i ↔
      (built nameOf name adds).getPars[i]? = some n) ∧
    ((built nameOf name adds).getIndex n = .error .indexError ↔ n ∉ adds.map nameOf) := by
  refine ⟨config_getIndex_ok (built_nodup nameOf name adds) n i, ?_⟩
  have hm : n ∈ adds.map nameOf ↔ n ∈ (built nameOf name adds).getPars := by
    rw [c56_listed, mem_firstSeen]
  rw [hm, Config.getIndex]
  cases h : (built nameOf name adds).getPars.findIdx? (fun p => p = n) with
  | none =>
    simp only [true_iff]
    rw [List.findIdx?_eq_none_iff] at h
    intro hn
    simpa using h n hn
  | some j =>
    simp only [reduceCtorEq, false_iff, not_not]
    exact List.mem_of_getElem? ((findIdx_eq_some (built_nodup nameOf name adds) n j).1 h)

/-- C56: looking up by the index of a name, or by the same index counted from the
end, gives the parameter of that name. -/
theorem c56_by_index (name : PyStr) (adds : List α) (n : PyStr) (i : ℕ)
    (h : (built nameOf name adds).getIndex n = .ok i) :
    ∃ p, nameOf p = n ∧ (built nameOf name adds).getPar n = .ok p ∧
      (built nameOf name adds).getParByIndex i = .ok p ∧
      (built nameOf name adds).getParByIndex
        ((i : ℤ) - (built nameOf name adds).getPars.length) = .ok p := by
  have hi := (c56_index nameOf name adds n i).1.1 h
  have hlt : i < (built nameOf name adds).getPars.length := (List.getElem?_eq_some_iff.1 hi).1
  have hmem : n ∈ adds.map nameOf := by
    have := List.mem_of_getElem? hi
    rwa [c56_listed, mem_firstSeen] at this
  have hl := c56_lookup nameOf name adds n
  cases hf : adds.reverse.find? (fun p => nameOf p = n) with
  | none =>
    obtain ⟨p, hp, rfl⟩ := List.mem_map.1 hmem
    rw [List.find?_eq_none] at hf
    exact absurd (hf p (List.mem_reverse.2 hp)) (by simp)
  | some p =>
    rw [hf] at hl
    have hp : nameOf p = n := by simpa using List.find?_some hf
    refine ⟨p, hp, hl, ?_, ?_⟩
    · unfold Config.getParByIndex
      simp only [show ¬ ((i : ℤ) < 0) by omega, if_false, Int.toNat_natCast, hi, hl]
    · unfold Config.getParByIndex
      have h1 : (i : ℤ) - (built nameOf name adds).getPars.length < 0 := by omega
      have h2 : (i : ℤ) - (built nameOf name adds).getPars.length +
          (built nameOf name adds).getPars.length = i := by omega
      simp only [h1, if_true, h2, show ¬ ((i : ℤ) < 0) by omega, if_false, Int.toNat_natCast, hi,
        hl]

/-- C56: an index outside the list raises `IndexError`. -/
theorem c56_out_of_range (c : Config α) (i : ℤ)
    (h : (c.getPars.length : ℤ) ≤ i ∨ i < -(c.getPars.length : ℤ)) :
    c.getParByIndex i = .error .indexError := by
  unfold Config.getParByIndex
  rcases h with h | h
  · have h0 : ¬ i < 0 := by omega
    have : c.getPars[i.toNat]? = none := by rw [List.getElem?_eq_none_iff]; omega
    simp only [h0, if_false, this]
  · have h0 : i < 0 := by omega
    have h1 : i + (c.getPars.length : ℤ) < 0 := by omega
    simp only [h0, if_true, h1]

/-- C56: the shape has one entry per listed parameter, in the listed order: the
number of bins of that parameter. -/
theorem c56_shape {β : Type} (binsOf : α → β) (name : PyStr) (adds : List α) :
    ∃ shape, (built nameOf name adds).getShape binsOf = .ok shape ∧
      shape.length = (built nameOf name adds).getPars.length ∧
      ∀ (i : ℕ) (n : PyStr), (built nameOf name adds).getIndex n = .ok i →
        ∃ p, (built nameOf name adds).getPar n = .ok p ∧ shape[i]? = some (binsOf p) := by
  have hall : ∀ n ∈ (built nameOf name adds).getPars,
      ∃ p, (built nameOf name adds).getPar n = .ok p := by
    intro n hn
    obtain ⟨i, hi⟩ := List.getElem?_of_mem hn
    obtain ⟨p, -, hp, -⟩ := c56_by_index nameOf name adds n i
      ((c56_index nameOf name adds n i).1.2 hi)
    exact ⟨p, hp⟩
  have key : ∀ l : List PyStr, (∀ n ∈ l, ∃ p, (built nameOf name adds).getPar n = .ok p) →
      ∃ shape, l.mapM (fun n => ((built nameOf name adds).getPar n).map binsOf) = .ok shape ∧
        shape.length = l.length ∧
        ∀ (i : ℕ) (n : PyStr), l[i]? = some n →
          ∃ p, (built nameOf name adds).getPar n = .ok p ∧ shape[i]? = some (binsOf p) := by
    intro l hl
    clear hall
    induction l with
    | nil => exact ⟨[], rfl, rfl, by simp⟩
    | cons n l ih =>
      obtain ⟨shape, h1, h2, h3⟩ := ih (fun m hm => hl m (List.mem_cons_of_mem _ hm))
      obtain ⟨p, hp⟩ := hl n (by simp)
      refine ⟨binsOf p :: shape, ?_, by simp [h2], ?_⟩
      · rw [List.mapM_cons, hp, h1]; rfl
      · intro i m him
        cases i with
        | zero =>
          rw [List.getElem?_cons_zero, Option.some.injEq] at him
          subst him
          exact ⟨p, hp, rfl⟩
        | succ i => exact h3 i m him
  obtain ⟨shape, h1, h2, h3⟩ := key _ hall
  exact ⟨shape, h1, h2, fun i n hi => h3 i n ((c56_index nameOf name adds n i).1.1 hi)⟩

end c56

/-- A history with an overwritten parameter. -/
def exHistory : List SPar :=
  [⟨lit "energy_mc", 0, 10, 100⟩, ⟨lit "radial_mc", 0, 6000, 60⟩, ⟨lit "energy_mc", 0, 5, 50⟩]

example : (built SPar.name (lit "c") exHistory).getIndex (lit "radial_mc") = .ok 1 := by
  decide +kernel
example : (built SPar.name (lit "c") exHistory).getPar (lit "energy_mc") =
    .ok ⟨lit "energy_mc", 0, 5, 50⟩ := by decide +kernel
example : (built SPar.name (lit "c") exHistory).getShape SPar.bins = .ok [50, 60] := by
  decide +kernel

/-! ## C54: round trip of spectral configurations -/

/-- C54: dumping a spectral configuration and loading it again gives the same
parameters in the same order with the same ranges and bins, under the given
name. -/
theorem c54_round_trip (c : SpectraConfig) (name : PyStr) (hne : c.pars ≠ [])
    (hnd : c.getPars.Nodup) (hname : ∀ e ∈ c.pars, e.2.name = e.1) :
    ∃ d, c.dump = .ok d ∧ SpectraConfig.load d name = .ok ⟨name, c.pars⟩ := by
  refine ⟨[(lit "parameters", c.pars.map (fun e => (e.1, e.2.toDict)))], ?_, ?_⟩
  · unfold SpectraConfig.dump
    rw [foldlM_getPar hnd]
    rfl
  · have ha : assoc [(lit "parameters", c.pars.map (fun e => (e.1, e.2.toDict)))]
        (lit "parameters") = some (c.pars.map (fun e => (e.1, e.2.toDict))) := by
      rw [assoc_cons, if_pos rfl]
    have hr : (c.pars.map (fun e => (e.1, e.2.toDict))).foldl
        (fun ps e => dictSet ps e.1 (SPar.ofDict e.1 e.2)) [] = c.pars := by
      rw [foldl_dictSet_fresh Prod.fst (fun e => SPar.ofDict e.1 e.2)]
      · rw [List.map_map, List.nil_append]
        conv_rhs => rw [← List.map_id c.pars]
        refine List.map_congr_left (fun e he => ?_)
        obtain ⟨k, p⟩ := e
        have : p.name = k := hname _ he
        subst this
        rfl
      · rw [List.map_map]; exact hnd
      · simp
    unfold SpectraConfig.load
    rw [ha]
    cases hp : c.pars.map (fun e => (e.1, e.2.toDict)) with
    | nil => exact absurd (List.map_eq_nil_iff.1 hp) hne
    | cons e l =>
      rw [hp] at hr
      dsimp only
      rw [hr]

/-- C54: loading a dictionary and dumping the configuration gives the dictionary
back: nothing of the file is lost. -/
theorem c54_load_dump (d : Dict AxisDict) (name : PyStr) (hne : d ≠ [])
    (hnd : (d.map Prod.fst).Nodup) :
    ∃ c, SpectraConfig.load [(lit "parameters", d)] name = .ok c ∧ c.name = name ∧
      c.getPars = d.map Prod.fst ∧ c.dump = .ok [(lit "parameters", d)] := by
  have hpars : d.foldl (fun ps e => dictSet ps e.1 (SPar.ofDict e.1 e.2)) [] =
      d.map (fun e => (e.1, SPar.ofDict e.1 e.2)) := by
    rw [foldl_dictSet_fresh Prod.fst (fun e => SPar.ofDict e.1 e.2) d [] hnd (by simp)]
    rfl
  have hkeys : (⟨name, d.map (fun e => (e.1, SPar.ofDict e.1 e.2))⟩ : SpectraConfig).getPars =
      d.map Prod.fst := by
    simp [Config.getPars, List.map_map, Function.comp_def]
  refine ⟨⟨name, d.map (fun e => (e.1, SPar.ofDict e.1 e.2))⟩, ?_, rfl, hkeys, ?_⟩
  · have ha : assoc [(lit "parameters", d)] (lit "parameters") = some d := by
      rw [assoc_cons, if_pos rfl]
    unfold SpectraConfig.load
    rw [ha]
    cases hp : d with
    | nil => exact absurd hp hne
    | cons e l =>
      rw [hp] at hpars
      dsimp only
      rw [hpars]
  · unfold SpectraConfig.dump
    rw [foldlM_getPar (by rw [hkeys]; exact hnd)]
    simp only [bind, Except.bind, pure, Except.pure, List.map_map]
    congr 3
    conv_rhs => rw [← List.map_id d]
    exact List.map_congr_left (fun e _ => rfl)

/-- C54: a dictionary without parameters is refused. -/
theorem c54_refused (config : Dict (Dict AxisDict)) (name : PyStr) :
    SpectraConfig.load config name = .error .keyError ↔
      (assoc config (lit "parameters")).getD [] = [] := by
  unfold SpectraConfig.load
  cases assoc config (lit "parameters") with
  | none => simp
  | some d => cases d <;> simp

/-- C54 fails for the empty configuration: what it dumps cannot be loaded. -/
theorem c54_empty_negation (n name : PyStr) :
    ∃ d, SpectraConfig.dump ⟨n, []⟩ = .ok d ∧ SpectraConfig.load d name = .error .keyError :=
  ⟨[(lit "parameters", [])], rfl, rfl⟩

example : ∃ d, SpectraConfig.dump (built SPar.name (lit "c") exHistory) = .ok d ∧
    SpectraConfig.load d (lit "again") =
      .ok ⟨lit "again", (built SPar.name (lit "c") exHistory).pars⟩ :=
  c54_round_trip (built SPar.name (lit "c") exHistory) _ (by decide +kernel) (by decide +kernel) (by decide +kernel)

/-! ## C58: dimension and type of a name -/

/-- C58: the dimension of `dimension_type` is the part before the last
underscore. -/
theorem c58_dimension (dim type : PyStr) (h : '_' ∉ type) : getDim (dim ++ '_' :: type) = dim :=
  getDim_append h

/-- C58: the dimensions reported are those of the parameters, one for each. -/
theorem c58_dimensions (names : List PyStr) : List.Perm (getDims names) (names.map getDim) :=
  (List.perm_insertionSort _ names).map getDim

theorem sortedNames_sorted (names : List PyStr) : (sortedNames names).Pairwise (· ≤ ·) :=
  List.pairwise_insertionSort _ _

/-- C58: if every name has the form `dimension_type`, then a reported type `t` of
`dim` is the part after the underscore of a parameter `dim_t`; with several
parameters of one dimension the alphabetically first is reported. -/
theorem c58_type_partial (names : List PyStr) (hsep : ∀ n ∈ names, '_' ∈ n) (dim t : PyStr)
    (h : getDimType names dim = .ok t) :
    dim ++ '_' :: t ∈ names ∧ '_' ∉ t ∧
      ∀ t', '_' ∉ t' → dim ++ '_' :: t' ∈ names → dim ++ '_' :: t ≤ dim ++ '_' :: t' := by
  unfold getDimType at h
  cases hf : (sortedNames names).find? (fun par => getDim par = dim) with
  | none => rw [hf] at h; cases h
  | some par =>
    rw [hf] at h
    have ht : lastPart par = t := by simpa using h
    have hd : getDim par = dim := by simpa using List.find?_some hf
    have hm : par ∈ names := (List.mem_insertionSort _).1 (List.mem_of_find?_eq_some hf)
    have hpar : dim ++ '_' :: t = par := by rw [← ht, ← hd]; exact getDim_lastPart (hsep par hm)
    refine ⟨hpar ▸ hm, ht ▸ lastPart_no_sep par, ?_⟩
    intro t' ht' hm'
    rw [hpar]
    obtain ⟨-, as, bs, hl, has⟩ := List.find?_eq_some_iff_append.1 hf
    have hs := sortedNames_sorted names
    have hm2 : dim ++ '_' :: t' ∈ sortedNames names := (List.mem_insertionSort _).2 hm'
    rw [hl] at hs hm2
    rcases List.mem_append.1 hm2 with h1 | h1
    · have := has _ h1
      rw [getDim_append ht'] at this
      simp at this
    · rcases List.mem_cons.1 h1 with h1 | h1
      · rw [h1]; exact List.le_refl _
      · exact (List.pairwise_cons.1 (List.pairwise_append.1 hs).2.1).1 _ h1

/-- C58: a type is reported exactly for the dimensions of the parameters; every
other dimension raises `IndexError`. -/
theorem c58_known (names : List PyStr) (dim : PyStr) :
    ((∃ t, getDimType names dim = .ok t) ↔ dim ∈ getDims names) ∧
    (getDimType names dim = .error .indexError ↔ dim ∉ getDims names) := by
  have hmem : dim ∈ getDims names ↔ ∃ n ∈ sortedNames names, getDim n = dim := by
    rw [getDims, List.mem_map]
  unfold getDimType
  cases hf : (sortedNames names).find? (fun par => getDim par = dim) with
  | none =>
    have : dim ∉ getDims names := by
      rw [hmem]
      rintro ⟨n, hn, hd⟩
      exact absurd (List.find?_eq_none.1 hf n hn) (by simp [hd])
    simp [this]
  | some par =>
    have : dim ∈ getDims names :=
      hmem.2 ⟨par, List.mem_of_find?_eq_some hf, by simpa using List.find?_some hf⟩
    simp [this]

/-- C58 fails for a name without underscore: it has the empty dimension, its type
is the whole name, and the two do not make up a parameter. -/
theorem c58_type_negation :
    getDim (lit "energy") = [] ∧ getDimType [lit "energy"] [] = .ok (lit "energy") ∧
      [] ++ '_' :: lit "energy" ∉ [lit "energy"] := by
  decide +kernel

example : getDimType [lit "radial_mc", lit "energy_truth", lit "energy_mc"] (lit "energy") =
    .ok (lit "mc") := by decide +kernel
example : getDim (lit "energy_smeared_mc") = lit "energy_smeared" := by decide +kernel

end Verif
