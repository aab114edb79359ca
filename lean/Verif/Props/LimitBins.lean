import Verif.Spec.LimitBins
import Verif.Lemmas.LimitSummary
import Verif.Props.PlotGraph

/-! # Limits with statistics per bin: C49 -/

namespace Verif

theorem bin_rows {fit : Option ℝ → Except PyErr FitOut} {k : ℕ} {st pens : ℝ → List ℝ} {m : List ℝ}
    (hk : m.length = k) : ∀ {scales : List ℝ},
    (∀ x ∈ scales, (npCloseReal x 0 → fit none = .ok ⟨st x, pens x⟩) ∧
      (¬ npCloseReal x 0 → fit (some x) = .ok ⟨st x, pens x⟩)) →
    (∀ x ∈ scales, (st x).length = k) →
    scales.mapM (limitRow fit m) = Except.ok (ε := PyErr)
      (scales.map (fun x => (List.zipWith (fun a b => a - b) (st x) m, pens x))) := by
  intro scales
  induction scales with
  | nil => intro _ _; rfl
  | cons x l ih =>
    intro h hb
    have hx : fit (signalAt x) = .ok ⟨st x, pens x⟩ := by
      unfold signalAt
      split
      · exact (h x List.mem_cons_self).1 (by assumption)
      · exact (h x List.mem_cons_self).2 (by assumption)
    have hl := ih (fun y hy => h y (List.mem_cons_of_mem _ hy))
      (fun y hy => hb y (List.mem_cons_of_mem _ hy))
    rw [List.mapM_cons, hl]
    simp only [limitRow, hx, bind, Except.bind, setRow, if_pos ((hb x List.mem_cons_self).trans hk.symm),
      pure, Except.pure, List.map_cons]

theorem entry_iff {scales : List ℝ} {k : ℕ} (hk : 0 < k) {st : ℝ → List ℝ} {m : List ℝ}
    (hm : m.length = k) (hb : ∀ x ∈ scales, (st x).length = k) (p : ℕ) (v : ℝ) :
    (scales.map (fun x => List.zipWith (fun a b => a - b) (st x) m)).flatten[p]? = some v ↔
      EntryAt scales st m (p / k) (p % k) v := by
  have hrows : ∀ row ∈ scales.map (fun x => List.zipWith (fun a b => a - b) (st x) m),
      row.length = k := by
    intro row hr
    obtain ⟨x, hx, rfl⟩ := List.mem_map.1 hr
    rw [List.length_zipWith, hb x hx, hm, min_self]
  rw [(flatten_rows hk _ hrows).2 p, List.getElem?_map]
  unfold EntryAt
  constructor
  · intro h
    cases hx : scales[p / k]? with
    | none => rw [hx] at h; cases h
    | some x =>
      rw [hx] at h
      simp only [Option.map_some, Option.bind_some, List.getElem?_zipWith] at h
      cases ha : (st x)[p % k]? with
      | none => rw [ha] at h; cases h
      | some a =>
        cases hc : m[p % k]? with
        | none => rw [ha, hc] at h; cases h
        | some b =>
          rw [ha, hc] at h
          simp only [Option.some.injEq] at h
          exact ⟨x, a, b, rfl, ha, rfl, h.symm⟩
  · rintro ⟨x, a, b, h1, h2, h3, rfl⟩
    simp only [h1, Option.map_some, Option.bind_some, List.getElem?_zipWith, h2, h3]

/-- **C49 for statistics per bin**, exactly, for fit parameters that all have a sigma. With the
smallest number of all in bin `c` for the scaling number `i`, the scalings are searched from number
`i * k + c` on, not from number `i`: if there is no such scaling, a `ValueError` is raised; otherwise
the limit is the first crossing from there on; and if there is none, a `LimitError` or an `IndexError`
is raised. -/
theorem c49_per_bin {fit : Option ℝ → Except PyErr FitOut} {k : ℕ} {st pens : ℝ → List ℝ}
    {m : List ℝ} {scales : List ℝ} {minStat : Option (List ℝ)} {sigmas : List (Option ℝ)} (limit : ℝ)
    (hf : BinFits fit scales k st pens m) (hk : 0 < k) (hmin : minStat = none ∨ minStat = some [0])
    (hn : scales ≠ []) (hs : scales.Pairwise (· < ·)) (hsig : ∀ s ∈ sigmas, s ≠ none) :
    ∃ i c, LeastEntry scales st m i c ∧
      (scales.length ≤ i * k + c → getLimit scales sigmas fit minStat limit = .error .valueError) ∧
      ∀ b, scales[i * k + c]? = some b →
        (∀ x, getLimit scales sigmas fit minStat limit = .ok x ↔
          FirstCrossing scales (binTotal st pens m) b limit x) ∧
        ((∀ y ∈ scales, b ≤ y → binTotal st pens m y ≤ limit) →
          getLimit scales sigmas fit minStat limit = .error .limitError ∨
          getLimit scales sigmas fit minStat limit = .error .indexError) := by
  have hrows : ∀ row ∈ scales.map (fun x => List.zipWith (fun a b => a - b) (st x) m),
      row.length = k := by
    intro row hr
    obtain ⟨x, hx, rfl⟩ := List.mem_map.1 hr
    rw [List.length_zipWith, hf.bins x hx, hf.size, min_self]
  have hfl := flatten_rows hk _ hrows
  have hne : (scales.map (fun x => List.zipWith (fun a b => a - b) (st x) m)).flatten ≠ [] := by
    intro h
    have h1 := hfl.1
    rw [h, List.length_nil, List.length_map] at h1
    have : 0 < scales.length := List.length_pos_of_ne_nil hn
    have : 0 < scales.length * k := Nat.mul_pos this hk
    omega
  obtain ⟨p, v, hp, hv, hleast⟩ := npArgmin_spec hne
  have hg : getLimit scales sigmas fit minStat limit =
      readLimit scales sigmas k (scales.map (binTotal st pens m)) p limit := by
    obtain ⟨pn, hpn⟩ := hf.without
    have hms : minStatOf fit minStat = .ok m := by
      rcases hmin with rfl | rfl
      · simp only [minStatOf, hpn, Except.map]
      · simp only [minStatOf, if_true, hpn, Except.map]
    unfold getLimit
    rw [hms]
    simp only [bind, Except.bind]
    rw [bin_rows hf.size hf.fits hf.bins]
    simp only [List.map_map, Function.comp_def, hp, hf.size]
    rfl
  have hany : sigmas.any Option.isNone = false := by
    rw [List.any_eq_false]
    intro s hs'
    cases s with
    | none => exact absurd rfl (hsig _ hs')
    | some v => simp
  have hpk : p / k * k + p % k = p := Nat.div_add_mod' p k
  refine ⟨p / k, p % k, ⟨v, (entry_iff hk hf.size hf.bins p v).1 hv, ?_⟩, ?_, ?_⟩
  · intro i' c' v' he
    have hc' : c' < k := by
      obtain ⟨x, a, b, -, -, h3, -⟩ := he
      have := (List.getElem?_eq_some_iff.1 h3).1
      rw [hf.size] at this
      exact this
    have h1 : (i' * k + c') / k = i' := by
      rw [Nat.add_comm, Nat.add_mul_div_right _ _ hk, Nat.div_eq_of_lt hc', zero_add]
    have h2 : (i' * k + c') % k = c' := by
      rw [Nat.add_comm, Nat.add_mul_mod_self_right, Nat.mod_eq_of_lt hc']
    have := hleast (i' * k + c') v' ((entry_iff hk hf.size hf.bins _ v').2 (by rw [h1, h2]; exact he))
    refine ⟨this.1, fun h => this.2 ?_⟩
    rcases h with h | ⟨rfl, h⟩
    · calc i' * k + c' < i' * k + k := by omega
        _ = (i' + 1) * k := by ring
        _ ≤ p / k * k := Nat.mul_le_mul_right k h
        _ ≤ p := Nat.div_mul_le_self p k
    · omega
  · rw [hpk]
    intro hlen
    rw [hg]
    unfold readLimit
    rw [List.drop_of_length_le (by rw [List.length_map]; exact hlen)]
    rfl
  · rw [hpk]
    intro b hb
    rw [hg]
    have hjl := (List.getElem?_eq_some_iff.1 hb).1
    have key : ∀ x, readLimit scales sigmas k (scales.map (binTotal st pens m)) p limit = .ok x ↔
        readLimit scales sigmas 1 (scales.map (binTotal st pens m)) p limit = .ok x := by
      intro x
      unfold readLimit
      cases ((scales.map (binTotal st pens m)).drop p).findIdx?
          (fun x => @decide (limit < x) (Classical.propDecidable _)) with
      | some i => exact Iff.rfl
      | none =>
        dsimp only
        cases npArgmax ((scales.map (binTotal st pens m)).drop p) with
        | error e => simp only [bind, Except.bind]
        | ok i =>
          simp only [bind, Except.bind, hany]
          constructor
          · intro h
            cases hq : scales[p + i * k]? <;> rw [hq] at h <;> cases h
          · intro h
            cases hq : scales[p + i * 1]? <;> rw [hq] at h <;> cases h
    rcases readLimit_spec hs (sigmas := sigmas) (binTotal st pens m) hb limit with
      ⟨x, hx, he⟩ | ⟨hall, he⟩
    · rw [hany] at he
      simp only [Bool.false_eq_true, if_false] at he
      refine ⟨fun y => ?_, fun h => absurd hx.2.2.1 (not_lt.2 (h x hx.1 hx.2.1))⟩
      rw [key, he]
      refine ⟨fun h => ?_, fun h => ?_⟩
      · injection h with h; subst h; exact hx
      · rw [hx.unique h]
    · rw [hany] at he
      simp only [Bool.false_eq_true, if_false] at he
      refine ⟨fun y => ?_, fun _ => ?_⟩
      · rw [key, he]
        exact ⟨fun h => (by cases h), fun h => absurd h.2.2.1 (not_lt.2 (hall y h.1 h.2.1))⟩
      · unfold readLimit
        have hnone : ((scales.map (binTotal st pens m)).drop p).findIdx?
            (fun x => @decide (limit < x) (Classical.propDecidable _)) = none := by
          rw [List.findIdx?_eq_none_iff]
          intro w hw
          obtain ⟨q, hq⟩ := List.mem_iff_getElem?.1 hw
          rw [List.getElem?_drop, List.getElem?_map, Option.map_eq_some_iff] at hq
          obtain ⟨y, hy, rfl⟩ := hq
          have := hall y (List.mem_of_getElem? hy) ((index_le hs hb hy).1.2 (by omega))
          simpa using this
        rw [hnone]
        have hne2 : ((scales.map (binTotal st pens m)).drop p).map (fun x => -x) ≠ [] := by
          intro h
          have := congrArg List.length h
          simp at this
          omega
        obtain ⟨i, v, hi, -, -⟩ := npArgmin_spec hne2
        simp only [npArgmax, hi, bind, Except.bind, hany]
        cases scales[p + i * k]? with
        | none => exact .inr rfl
        | some x => exact .inl rfl

/-- **C49, the part that holds for statistics per bin.** When the smallest number of all is the one in
the first bin for the first scaling, the limit is the first crossing, as it should be when the first
scaling is the best. -/
theorem c49_per_bin_partial {fit : Option ℝ → Except PyErr FitOut} {k : ℕ} {st pens : ℝ → List ℝ}
    {m : List ℝ} {scales : List ℝ} {minStat : Option (List ℝ)} {sigmas : List (Option ℝ)} (limit : ℝ)
    (hf : BinFits fit scales k st pens m) (hk : 0 < k) (hmin : minStat = none ∨ minStat = some [0])
    (hs : scales.Pairwise (· < ·)) (hsig : ∀ s ∈ sigmas, s ≠ none)
    (hleast : LeastEntry scales st m 0 0) (x : ℝ) :
    getLimit scales sigmas fit minStat limit = .ok x ↔
      x ∈ scales ∧ limit < binTotal st pens m x ∧
        ∀ y ∈ scales, y < x → binTotal st pens m y ≤ limit := by
  obtain ⟨v, hve, hl⟩ := hleast
  obtain ⟨b, a, a', h0, -⟩ := id hve
  have hn : scales ≠ [] := List.ne_nil_of_mem (List.mem_of_getElem? h0)
  obtain ⟨i, c, ⟨w, hw, hw'⟩, -, h2⟩ := c49_per_bin (sigmas := sigmas) limit hf hk hmin hn hs hsig
  have hi : i = 0 ∧ c = 0 := by
    by_contra hne
    have h3 := (hl i c w hw).1
    have h4 := (hw' 0 0 v hve).2 (by omega)
    linarith
  obtain ⟨rfl, rfl⟩ := hi
  have hb : scales[0 * k + 0]? = some b := by rw [Nat.zero_mul]; exact h0
  rw [(h2 b hb).1 x]
  have hle : ∀ w ∈ scales, b ≤ w := by
    intro w hw
    obtain ⟨q, hq⟩ := List.mem_iff_getElem?.1 hw
    exact (index_le hs h0 hq).1.2 (Nat.zero_le _)
  constructor
  · rintro ⟨g1, -, g3, g4⟩
    exact ⟨g1, g3, fun y hy hyx => g4 y hy (hle y hy) hyx⟩
  · rintro ⟨g1, g3, g4⟩
    exact ⟨g1, hle x g1, g3, fun y hy _ hyx => g4 y hy hyx⟩

/-- C49 for statistics per bin is not vacuous: three scalings with two bins, the smallest number in
the first bin for the first scaling. -/
example : BinFits (exBinFit [(1, [0, 1]), (2, [1, 5]), (3, [4, 6])]) [1, 2, 3] 2
      (fun x => if x = 1 then [0, 1] else if x = 2 then [1, 5] else [4, 6]) (fun _ => []) [0, 0] ∧
    LeastEntry [1, 2, 3] (fun x => if x = 1 then [0, 1] else if x = 2 then [1, 5] else [4, 6])
      [0, 0] 0 0 := by
  have c1 : ¬ npCloseReal 1 0 := by unfold npCloseReal; norm_num
  have c2 : ¬ npCloseReal 2 0 := by unfold npCloseReal; norm_num
  have c3 : ¬ npCloseReal 3 0 := by unfold npCloseReal; norm_num
  refine ⟨⟨?_, ?_, ⟨[], rfl⟩, rfl⟩, ?_⟩
  · intro x hx
    simp only [List.mem_cons, List.not_mem_nil, or_false] at hx
    rcases hx with rfl | rfl | rfl
    · exact ⟨fun h => absurd h c1, fun _ => by norm_num [exBinFit]⟩
    · exact ⟨fun h => absurd h c2, fun _ => by norm_num [exBinFit]⟩
    · exact ⟨fun h => absurd h c3, fun _ => by norm_num [exBinFit]⟩
  · intro x hx
    simp only [List.mem_cons, List.not_mem_nil, or_false] at hx
    rcases hx with rfl | rfl | rfl <;> norm_num
  · refine ⟨0, ⟨1, 0, 0, rfl, by norm_num, rfl, by norm_num⟩, ?_⟩
    rintro i c v ⟨x, a, b, h1, h2, h3, rfl⟩
    have hx := List.mem_of_getElem? h1
    have hb : b = 0 := by
      have := List.mem_of_getElem? h3
      simpa using this
    subst hb
    have ha := List.mem_of_getElem? h2
    refine ⟨?_, fun h => by omega⟩
    simp only [List.mem_cons, List.not_mem_nil, or_false] at hx
    rcases hx with rfl | rfl | rfl <;> norm_num at ha <;> rcases ha with rfl | rfl <;> norm_num

end Verif
