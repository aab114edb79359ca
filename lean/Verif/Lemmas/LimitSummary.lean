import Verif.Spec.LimitSummary
import Verif.Lemmas.Limit
import Verif.Props.Limit

/-! # Lemmas about the summary of a limit -/

namespace Verif

variable {fit : Option ℝ → Except PyErr FitOut} {found : Option ℝ → List ℝ} {scales : List ℝ}
  {pars : List SummaryPar} {st : ℝ → ℝ} {best pens : ℝ → List ℝ}

theorem BestScale.unique {scales : List ℝ} {st : ℝ → ℝ} {b b' : ℝ} (h : BestScale scales st b)
    (h' : BestScale scales st b') : b = b' := by
  have e : st b' = st b := le_antisymm (h'.2 b h.1).1 (h.2 b' h'.1).1
  exact le_antisymm ((h.2 b' h'.1).2 e) ((h'.2 b h.1).2 e.symm)

theorem bestScale_of_index (hs : scales.Pairwise (· < ·)) {j : ℕ} {b : ℝ} (hb : scales[j]? = some b)
    (hmin : ∀ k y, scales[k]? = some y → st b ≤ st y ∧ (k < j → st b < st y)) :
    BestScale scales st b := by
  refine ⟨List.mem_of_getElem? hb, fun y hy => ?_⟩
  obtain ⟨k, hk, rfl⟩ := List.getElem_of_mem hy
  have hk? : scales[k]? = some scales[k] := List.getElem?_eq_getElem hk
  obtain ⟨h1, h2⟩ := hmin k _ hk?
  refine ⟨h1, fun he => ?_⟩
  rw [(index_le hs hb hk?).1]
  by_contra hc
  have := h2 (not_le.1 hc)
  linarith

theorem index_unique (hs : scales.Pairwise (· < ·)) {i j : ℕ} {x : ℝ} (hi : scales[i]? = some x)
    (hj : scales[j]? = some x) : i = j :=
  le_antisymm ((index_le hs hi hj).1.1 le_rfl) ((index_le hs hj hi).1.1 le_rfl)

/-- The results of fits with plain numbers. -/
noncomputable abbrev scalarResults (found : Option ℝ → List ℝ) (scales : List ℝ)
    (pars : List SummaryPar) (st : ℝ → ℝ) (pens : ℝ → List ℝ) (m : ℝ) : LimitResults :=
  loopResults (pars.map SummaryPar.name) found scales (scales.map (fun x => ([st x - m], pens x)))

theorem range_getD {n : ℕ} {l : List ℝ} (h : l.length = n) :
    (List.range n).map (fun j => l.getD j 0) = l := by
  apply List.ext_getElem
  · simp [h]
  · intro i h1 h2
    simp [List.getD_eq_getElem?_getD, h2]

theorem scalar_fullStats (h : SummaryResults fit found scales pars st best pens) (m : ℝ) :
    (scalarResults found scales pars st pens m).getFullStats =
      .ok (scales.map (fun x => [st x - m + (pens x).sum])) := by
  obtain ⟨fs, h1, h2, h3⟩ := full_stats_rows (r := scalarResults found scales pars st pens m)
    (by simp [loopResults])
  rw [h1]
  congr 1
  apply List.ext_getElem?
  intro i
  rw [List.getElem?_map]
  cases hi : scales[i]? with
  | none =>
    rw [List.getElem?_eq_none_iff] at hi
    simp only [Option.map_none, List.getElem?_eq_none_iff]
    simp only [loopResults] at h2
    omega
  | some x =>
    have hx := List.mem_of_getElem? hi
    have hr : (scalarResults found scales pars st pens m).stats[i]? = some [st x - m] := by
      simp only [loopResults, List.getElem?_map, hi, Option.map_some]
    rw [(h3 i _ hr).2]
    have hp : (scalarResults found scales pars st pens m).penaltyRow i = pens x := by
      simp only [LimitResults.penaltyRow, loopResults, List.getElem?_map, hi, Option.map_some]
      exact range_getD (by simpa using h.pens x hx)
    rw [hp]
    simp

theorem mapM_ok_of {α β : Type} {f : α → Except PyErr β} : ∀ {l : List α},
    (∀ a ∈ l, ∃ b, f a = .ok b) →
    ∃ r, l.mapM f = .ok r ∧ List.Forall₂ (fun a b => f a = .ok b) l r := by
  intro l
  induction l with
  | nil => intro _; exact ⟨[], rfl, .nil⟩
  | cons a l ih =>
    intro h
    obtain ⟨b, hb⟩ := h a List.mem_cons_self
    obtain ⟨r, h1, h2⟩ := ih (fun a' ha' => h a' (List.mem_cons_of_mem _ ha'))
    refine ⟨b :: r, ?_, .cons hb h2⟩
    rw [List.mapM_cons, hb, h1]
    rfl

theorem findIdx?_name_nodup {l : List PyStr} (h : l.Nodup) {j : ℕ} {x : PyStr} (hj : l[j]? = some x) :
    l.findIdx? (fun p => p = x) = some j := by
  obtain ⟨hl, rfl⟩ := List.getElem?_eq_some_iff.1 hj
  rw [List.findIdx?_eq_some_iff_getElem]
  refine ⟨hl, by simp, fun k hk => ?_⟩
  simp only [decide_eq_true_eq]
  intro e
  have := (List.Nodup.getElem_inj_iff h).1 e
  omega

theorem found_at (h : SummaryResults fit found scales pars st best pens) {x : ℝ} (hx : x ∈ scales) :
    found (signalAt x) = best x := by
  unfold signalAt
  split
  · exact (h.found x hx).1 (by assumption)
  · exact (h.found x hx).2 (by assumption)

theorem summaryLine_ok (h : SummaryFits fit found scales pars st best pens) (m : ℝ) {i j : ℕ} {y : ℝ}
    {p : SummaryPar} (hi : scales[i]? = some y) (hj : pars[j]? = some p) :
    ∃ l, summaryLine (scalarResults found scales pars st pens m) i p = .ok l ∧ l.name = p.name ∧
      l.prior = p.prior ∧ some l.sigma = p.sigma ∧ (best y)[j]? = some l.bestFit ∧
      (pens y)[j]? = some l.penalty := by
  have hy := List.mem_of_getElem? hi
  have hil := (List.getElem?_eq_some_iff.1 hi).1
  have hjl := (List.getElem?_eq_some_iff.1 hj).1
  have hidx : (scalarResults found scales pars st pens m).getIndex p.name = .ok j := by
    unfold LimitResults.getIndex
    simp only [loopResults]
    rw [findIdx?_name_nodup h.names (by rw [List.getElem?_map, hj]; rfl)]
  obtain ⟨s, hs⟩ := Option.ne_none_iff_exists'.1 (h.sigmas p (List.mem_of_getElem? hj))
  have hb : (best y)[j]? = some ((best y).getD j 0) := by
    have : j < (best y).length := by rw [h.best y hy]; exact hjl
    simp [List.getD_eq_getElem?_getD, this]
  have hp : (pens y)[j]? = some ((pens y).getD j 0) := by
    have : j < (pens y).length := by rw [h.pens y hy]; exact hjl
    simp [List.getD_eq_getElem?_getD, this]
  refine ⟨⟨p.name, (best y).getD j 0, p.prior, s, (pens y).getD j 0⟩, ?_, rfl, rfl, hs.symm, hb, hp⟩
  unfold summaryLine LimitResults.getBestFit LimitResults.getPenaltyTerm
  simp only [bind, Except.bind, hidx, hs]
  simp only [loopResults, if_pos hil, hi, List.getElem?_map, Option.map_some, found_at h.toSummaryResults hy]

theorem summaryAt_ok (h : SummaryFits fit found scales pars st best pens) (m : ℝ) (ok : Bool) (d : ℝ)
    {i : ℕ} {y : ℝ} (hi : scales[i]? = some y) :
    ∃ s, summaryAt ok d pars (scalarResults found scales pars st pens m)
        (scales.map (fun x => [st x - m + (pens x).sum])) i = .ok s ∧ s.found = ok ∧ s.decays = d ∧
      s.About pars best pens (fun x => st x - m + (pens x).sum) y := by
  obtain ⟨ls, h1, h2⟩ := mapM_ok_of (l := pars)
    (f := summaryLine (scalarResults found scales pars st pens m) i) (fun p hp => by
      obtain ⟨j, hj⟩ := List.mem_iff_getElem?.1 hp
      obtain ⟨l, hl, _⟩ := summaryLine_ok h m hi hj
      exact ⟨l, hl⟩)
  refine ⟨⟨ok, d, ls, st y - m + (pens y).sum⟩, ?_, rfl, rfl, h2.length_eq.symm, ?_, rfl⟩
  · unfold summaryAt
    simp only [bind, Except.bind, h1, List.getElem?_map, hi, Option.map_some, List.sum_cons,
      List.sum_nil, add_zero]
  · intro j p hj
    obtain ⟨l, hl, hr⟩ := summaryLine_ok h m hi hj
    refine ⟨l, ?_, hr⟩
    have hjl := (List.getElem?_eq_some_iff.1 hj).1
    obtain ⟨l', hl'⟩ : ∃ l', ls[j]? = some l' :=
      ⟨_, List.getElem?_eq_getElem (by rw [← h2.length_eq]; exact hjl)⟩
    have := (List.forall₂_iff_get.1 h2).2 j hjl (by rw [← h2.length_eq]; exact hjl)
    obtain ⟨_, e1⟩ := List.getElem?_eq_some_iff.1 hj
    obtain ⟨_, e2⟩ := List.getElem?_eq_some_iff.1 hl'
    simp only [List.get_eq_getElem, e1, e2] at this
    rw [hl] at this
    cases this
    exact hl'

theorem scalar_any (limit v : ℝ) :
    ([v].any (fun v => @decide (limit < v) (Classical.propDecidable _))) =
      @decide (limit < v) (Classical.propDecidable _) := by simp

theorem scalar_findIdx (F : ℝ → ℝ) (j : ℕ) (limit : ℝ) :
    ((scales.map (fun x => [F x])).drop j).findIdx?
      (fun row => row.any (fun v => @decide (limit < v) (Classical.propDecidable _))) =
    ((scales.map F).drop j).findIdx? (fun x => @decide (limit < x) (Classical.propDecidable _)) := by
  rw [← List.map_drop, ← List.map_drop, List.findIdx?_map, List.findIdx?_map]
  congr 1
  funext x
  exact scalar_any limit (F x)

theorem flatten_singletons (F : ℝ → ℝ) (l : List ℝ) : (l.map (fun x => [F x])).flatten = l.map F := by
  induction l with
  | nil => rfl
  | cons a l ih => simp [ih]

/-- What `get_limit` with its summary comes to for plain numbers. -/
theorem getLimitLog_scalar {m : ℝ} {minStat : Option (List ℝ)} (limit : ℝ)
    (h : SummaryFits fit found scales pars st best pens) (hm : RelativeTo fit minStat m)
    (hn : scales ≠ []) (hs : scales.Pairwise (· < ·)) :
    ∃ (j : ℕ) (b : ℝ), scales[j]? = some b ∧ BestScale scales st b ∧
      ((∃ (i : ℕ) (x y : ℝ) (s : LimitSummary), scales[j + i]? = some x ∧ scales[i]? = some y ∧
        FirstCrossing scales (fun x => st x - m + (pens x).sum) b limit x ∧ s.found = true ∧
        s.decays = x ∧ s.About pars best pens (fun x => st x - m + (pens x).sum) y ∧
        getLimit scales (pars.map SummaryPar.sigma) fit minStat limit = .ok x ∧
        getLimitLog scales pars fit minStat limit found = ⟨some s, none, .ok x⟩) ∨
      ∃ (i : ℕ) (x y : ℝ) (s : LimitSummary) (M : ℝ), scales[j + i]? = some x ∧ scales[i]? = some y ∧
        (∀ y ∈ scales, b ≤ y → st y - m + (pens y).sum ≤ limit) ∧
        LargestFrom scales (fun x => st x - m + (pens x).sum) b x ∧
        LargestValue scales (fun x => st x - m + (pens x).sum) M ∧ s.found = false ∧
        s.decays = x ∧ s.About pars best pens (fun x => st x - m + (pens x).sum) y ∧
        getLimit scales (pars.map SummaryPar.sigma) fit minStat limit = .error .limitError ∧
        getLimitLog scales pars fit minStat limit found =
          ⟨some s, some (M, x), .error .limitError⟩) := by
  have hne : scales.map (fun x => st x - m) ≠ [] := by simpa using hn
  obtain ⟨j, v, hj, hv, hmin⟩ := npArgmin_spec hne
  rw [List.getElem?_map, Option.map_eq_some_iff] at hv
  obtain ⟨b, hb, rfl⟩ := hv
  have hbest : BestScale scales st b := bestScale_of_index hs hb (fun k y hk => by
    have := hmin k (st y - m) (by rw [List.getElem?_map, hk]; rfl)
    exact ⟨by linarith [this.1], fun h => by linarith [this.2 h]⟩)
  have hjl := (List.getElem?_eq_some_iff.1 hb).1
  have e1 : ((scales.map (fun x => ([st x - m], pens x))).map Prod.fst).flatten =
      scales.map (fun x => st x - m) := by
    rw [List.map_map]
    exact flatten_singletons (fun x => st x - m) scales
  have hany : (pars.map SummaryPar.sigma).any Option.isNone = false := by
    rw [List.any_eq_false]
    intro s hs'
    obtain ⟨p, hp, rfl⟩ := List.mem_map.1 hs'
    have := h.sigmas p hp
    cases hq : p.sigma with
    | none => exact absurd hq this
    | some v => simp
  have hlim : getLimit scales (pars.map SummaryPar.sigma) fit minStat limit =
      readLimit scales (pars.map SummaryPar.sigma) 1
        (scales.map (fun x => st x - m + (pens x).sum)) j limit := by
    unfold getLimit
    rw [minStatOf_ok hm]
    simp only [bind, Except.bind]
    rw [rows_ok m h.fits]
    simp only [e1, hj]
    simp only [List.map_map, Function.comp_def, List.sum_cons, List.sum_nil, add_zero,
      List.length_cons, List.length_nil, zero_add]
  have hlog : getLimitLog scales pars fit minStat limit found =
      match summaryFound scales pars (scalarResults found scales pars st pens m)
        (scales.map (fun x => [st x - m + (pens x).sum])) j limit with
      | .ok (s, x) => ⟨some s, none, .ok x⟩
      | .error .indexError => summaryNone scales pars (scalarResults found scales pars st pens m)
        (scales.map (fun x => [st x - m + (pens x).sum])) j
      | .error e => ⟨none, none, .error e⟩ := by
    unfold getLimitLog
    rw [minStatOf_ok hm]
    simp only [bind, Except.bind]
    rw [rows_ok m h.fits]
    simp only [e1, hj, scalar_fullStats h.toSummaryResults m]
    rfl
  refine ⟨j, b, hb, hbest, ?_⟩
  rcases readLimit_spec hs (sigmas := pars.map SummaryPar.sigma)
      (fun x => st x - m + (pens x).sum) hb limit with ⟨x, hx, he⟩ | ⟨hall, he⟩
  · left
    rw [hany] at he
    simp only [Bool.false_eq_true, if_false] at he
    obtain ⟨k, hk, hkx⟩ := List.getElem_of_mem hx.1
    have hk? : scales[k]? = some x := by rw [← hkx]; exact List.getElem?_eq_getElem hk
    have hjk := (index_le hs hb hk?).1.1 hx.2.1
    have hy : scales[k - j]? = some (scales[k - j]'(by omega)) := List.getElem?_eq_getElem _
    obtain ⟨s, h1, h2, h3, h4⟩ := summaryAt_ok h m true x hy
    have hjk' : j + (k - j) = k := by omega
    refine ⟨k - j, x, _, s, by rw [hjk']; exact hk?, hy, hx, h2, h3, h4, by rw [hlim, he], ?_⟩
    rw [hlog]
    unfold summaryFound
    rw [scalar_findIdx (fun x => st x - m + (pens x).sum)]
    have hf : ((scales.map (fun x => st x - m + (pens x).sum)).drop j).findIdx?
        (fun x => @decide (limit < x) (Classical.propDecidable _)) = some (k - j) := by
      rw [List.findIdx?_eq_some_iff_getElem]
      refine ⟨by simp; omega, ?_, ?_⟩
      · simp only [List.getElem_drop, List.getElem_map, decide_eq_true_eq, hjk', hkx]
        exact hx.2.2.1
      · intro i hi
        have hi? : scales[j + i]? = some (scales[j + i]'(by omega)) := List.getElem?_eq_getElem _
        have := hx.2.2.2 _ (List.getElem_mem (by omega : j + i < scales.length))
          ((index_le hs hb hi?).1.2 (by omega)) ((index_le hs hi? hk?).2.2 (by omega))
        simp only [List.getElem_drop, List.getElem_map, decide_eq_true_eq, not_lt]
        exact this
    simp only [hf, hjk', hk?, h1, bind, Except.bind]
  · right
    rw [hany] at he
    simp only [Bool.false_eq_true, if_false] at he
    have hne2 : ((scales.map (fun x => st x - m + (pens x).sum)).drop j).map (fun x => -x) ≠ [] := by
      intro h
      have := congrArg List.length h
      simp at this
      omega
    obtain ⟨i, v, hi, hv, hvm⟩ := npArgmin_spec hne2
    have hil : j + i < scales.length := by
      have := (List.getElem?_eq_some_iff.1 hv).1
      simp at this
      omega
    have hx? : scales[j + i]? = some (scales[j + i]'hil) := List.getElem?_eq_getElem _
    have hy? : scales[i]? = some (scales[i]'(by omega)) := List.getElem?_eq_getElem _
    rw [List.getElem?_map, List.getElem?_drop, List.getElem?_map, hx?] at hv
    simp only [Option.map_some, Option.some.injEq] at hv
    obtain ⟨s, h1, h2, h3, h4⟩ := summaryAt_ok h m false (scales[j + i]'hil) hy?
    obtain ⟨a, l, hal⟩ := List.exists_cons_of_ne_nil hn
    obtain ⟨M, hM, hMv⟩ : ∃ M, npMax (scales.map (fun x => st x - m + (pens x).sum)) = .ok M ∧
        LargestValue scales (fun x => st x - m + (pens x).sum) M := by
      rw [hal]
      refine ⟨_, rfl, ?_⟩
      have key : ∀ (l : List ℝ) (F : ℝ → ℝ) (a : ℝ),
          (∃ y ∈ a :: l, F y = (l.map F).foldl max (F a)) ∧
          ∀ y ∈ a :: l, F y ≤ (l.map F).foldl max (F a) := by
        clear * -
        intro l F
        have gen : ∀ (l : List ℝ) (c : ℝ), (c = (l.map F).foldl max c ∨
            ∃ y ∈ l, F y = (l.map F).foldl max c) ∧ c ≤ (l.map F).foldl max c ∧
            ∀ y ∈ l, F y ≤ (l.map F).foldl max c := by
          intro l
          induction l with
          | nil => intro c; simp
          | cons x l ih =>
            intro c
            rw [List.map_cons, List.foldl_cons]
            obtain ⟨h1, h2, h3⟩ := ih (max c (F x))
            refine ⟨?_, le_trans (le_max_left _ _) h2, ?_⟩
            · rcases h1 with h1 | ⟨y, hy, h1⟩
              · rcases le_total c (F x) with hc | hc
                · right
                  refine ⟨x, List.mem_cons_self, ?_⟩
                  rw [max_eq_right hc] at h1 ⊢
                  exact h1
                · left
                  rw [max_eq_left hc] at h1 ⊢
                  exact h1
              · exact .inr ⟨y, List.mem_cons_of_mem _ hy, h1⟩
            · intro y hy
              rcases List.mem_cons.1 hy with rfl | hy
              · exact le_trans (le_max_right _ _) h2
              · exact h3 y hy
        intro a
        obtain ⟨h1, h2, h3⟩ := gen l (F a)
        refine ⟨?_, ?_⟩
        · rcases h1 with h1 | ⟨y, hy, h1⟩
          · exact ⟨a, List.mem_cons_self, h1⟩
          · exact ⟨y, List.mem_cons_of_mem _ hy, h1⟩
        · intro y hy
          rcases List.mem_cons.1 hy with rfl | hy
          · exact h2
          · exact h3 y hy
      exact key l _ a
    refine ⟨i, _, _, s, M, hx?, hy?, hall, ?_, hMv, h2, h3, h4, by rw [hlim, he], ?_⟩
    · refine ⟨List.getElem_mem _, (index_le hs hb hx?).1.2 (by omega), ?_⟩
      intro y hy hby
      obtain ⟨k, hk, rfl⟩ := List.getElem_of_mem hy
      have hk? : scales[k]? = some scales[k] := List.getElem?_eq_getElem hk
      have hjk := (index_le hs hb hk?).1.1 hby
      have := hvm (k - j) (-(st scales[k] - m + (pens scales[k]).sum)) (by
        rw [List.getElem?_map, List.getElem?_drop, List.getElem?_map,
          show j + (k - j) = k by omega, hk?]
        rfl)
      rw [← hv] at this
      refine ⟨by linarith [this.1], fun heq => ?_⟩
      rw [(index_le hs hx? hk?).1]
      by_contra hc
      have h5 := this.2 (by omega)
      linarith
    · rw [hlog]
      have hf : ((scales.map (fun x => st x - m + (pens x).sum)).drop j).findIdx?
          (fun x => @decide (limit < x) (Classical.propDecidable _)) = none := by
        rw [List.findIdx?_eq_none_iff]
        intro w hw
        obtain ⟨k, hk⟩ := List.mem_iff_getElem?.1 hw
        rw [List.getElem?_drop, List.getElem?_map, Option.map_eq_some_iff] at hk
        obtain ⟨y, hy, rfl⟩ := hk
        have := hall y (List.mem_of_getElem? hy) ((index_le hs hb hy).1.2 (by omega))
        simpa using this
      unfold summaryFound
      rw [scalar_findIdx (fun x => st x - m + (pens x).sum), hf]
      dsimp only
      unfold summaryNone
      rw [← List.map_drop, flatten_singletons (fun x => st x - m + (pens x).sum),
        flatten_singletons (fun x => st x - m + (pens x).sum), List.map_drop]
      simp only [npArgmax, hi, bind, Except.bind, hx?, h1, hM]

/-! ### a parameter without sigma -/

theorem getIndex_name (h : SummaryResults fit found scales pars st best pens) (m : ℝ) {j : ℕ}
    {p : SummaryPar} (hj : pars[j]? = some p) :
    (scalarResults found scales pars st pens m).getIndex p.name = .ok j := by
  unfold LimitResults.getIndex
  simp only [loopResults]
  rw [findIdx?_name_nodup h.names (by rw [List.getElem?_map, hj]; rfl)]

theorem summaryLine_or (h : SummaryResults fit found scales pars st best pens) (m : ℝ) {i : ℕ} {y : ℝ}
    {p : SummaryPar} (hi : scales[i]? = some y) (hp : p ∈ pars) :
    (p.sigma ≠ none → ∃ l, summaryLine (scalarResults found scales pars st pens m) i p = .ok l) ∧
    (p.sigma = none →
      summaryLine (scalarResults found scales pars st pens m) i p = .error .typeError) := by
  obtain ⟨j, hj⟩ := List.mem_iff_getElem?.1 hp
  have hidx := getIndex_name h m hj
  have hil := (List.getElem?_eq_some_iff.1 hi).1
  constructor <;> intro hs
  · obtain ⟨s, hs⟩ := Option.ne_none_iff_exists'.1 hs
    unfold summaryLine LimitResults.getBestFit LimitResults.getPenaltyTerm
    simp only [bind, Except.bind, hidx, hs]
    simp only [loopResults, if_pos hil, hi, List.getElem?_map, Option.map_some]
    exact ⟨_, rfl⟩
  · unfold summaryLine LimitResults.getBestFit
    simp only [bind, Except.bind, hidx, hs]
    simp only [loopResults, if_pos hil]

theorem summaryAt_error (h : SummaryResults fit found scales pars st best pens) (m : ℝ) (ok : Bool)
    (d : ℝ) (full : List (List ℝ)) {i : ℕ} {y : ℝ} (hi : scales[i]? = some y)
    (hsig : ∃ p ∈ pars, p.sigma = none) :
    summaryAt ok d pars (scalarResults found scales pars st pens m) full i = .error .typeError := by
  have key : ∀ l : List SummaryPar, (∀ p ∈ l, p ∈ pars) → (∃ p ∈ l, p.sigma = none) →
      l.mapM (summaryLine (scalarResults found scales pars st pens m) i) = .error .typeError := by
    intro l
    induction l with
    | nil => intro _ h; simp at h
    | cons p l ih =>
      intro hl hx
      obtain ⟨h1, h2⟩ := summaryLine_or h m hi (hl p (by simp))
      rw [List.mapM_cons]
      by_cases hp : p.sigma = none
      · rw [h2 hp]; rfl
      · obtain ⟨b, hb⟩ := h1 hp
        obtain ⟨q, hq, hqs⟩ := hx
        rw [hb]
        simp only [bind, Except.bind]
        rw [ih (fun q hq => hl q (by simp [hq])) ⟨q, by
          rcases List.mem_cons.1 hq with rfl | hq
          · exact absurd hqs hp
          · exact hq, hqs⟩]
  unfold summaryAt
  rw [key pars (fun _ h => h) hsig]
  rfl

theorem getLimitLog_error {m : ℝ} {minStat : Option (List ℝ)} (limit : ℝ)
    (h : SummaryResults fit found scales pars st best pens) (hm : RelativeTo fit minStat m)
    (hn : scales ≠ []) (hsig : ∃ p ∈ pars, p.sigma = none) :
    getLimitLog scales pars fit minStat limit found = ⟨none, none, .error .typeError⟩ := by
  have hne : scales.map (fun x => st x - m) ≠ [] := by simpa using hn
  obtain ⟨j, v, hj, hv, -⟩ := npArgmin_spec hne
  have hjl : j < scales.length := by
    have := (List.getElem?_eq_some_iff.1 hv).1
    simpa using this
  have e1 : ((scales.map (fun x => ([st x - m], pens x))).map Prod.fst).flatten =
      scales.map (fun x => st x - m) := by
    rw [List.map_map]
    exact flatten_singletons (fun x => st x - m) scales
  have hlog : getLimitLog scales pars fit minStat limit found =
      match summaryFound scales pars (scalarResults found scales pars st pens m)
        (scales.map (fun x => [st x - m + (pens x).sum])) j limit with
      | .ok (s, x) => ⟨some s, none, .ok x⟩
      | .error .indexError => summaryNone scales pars (scalarResults found scales pars st pens m)
        (scales.map (fun x => [st x - m + (pens x).sum])) j
      | .error e => ⟨none, none, .error e⟩ := by
    unfold getLimitLog
    rw [minStatOf_ok hm]
    simp only [bind, Except.bind]
    rw [rows_ok m h.fits]
    simp only [e1, hj, scalar_fullStats h m]
    rfl
  rw [hlog]
  unfold summaryFound
  rw [scalar_findIdx (fun x => st x - m + (pens x).sum)]
  cases hf : ((scales.map (fun x => st x - m + (pens x).sum)).drop j).findIdx?
      (fun x => @decide (limit < x) (Classical.propDecidable _)) with
  | some i =>
    have hi : j + i < scales.length := by
      obtain ⟨h1, -⟩ := List.findIdx?_eq_some_iff_getElem.1 hf
      simp at h1
      omega
    have hx? : scales[j + i]? = some (scales[j + i]'hi) := List.getElem?_eq_getElem _
    have hy? : scales[i]? = some (scales[i]'(by omega)) := List.getElem?_eq_getElem _
    simp only [hx?, summaryAt_error h m _ _ _ hy? hsig, bind, Except.bind]
  | none =>
    have hne2 : ((scales.map (fun x => st x - m + (pens x).sum)).drop j).map (fun x => -x) ≠ [] := by
      intro h
      have := congrArg List.length h
      simp at this
      omega
    obtain ⟨i, v, hi, hv, -⟩ := npArgmin_spec hne2
    have hil : j + i < scales.length := by
      have := (List.getElem?_eq_some_iff.1 hv).1
      simp at this
      omega
    have hx? : scales[j + i]? = some (scales[j + i]'hil) := List.getElem?_eq_getElem _
    have hy? : scales[i]? = some (scales[i]'(by omega)) := List.getElem?_eq_getElem _
    have e2 : ((scales.map (fun x => [st x - m + (pens x).sum])).drop j).flatten =
        (scales.map (fun x => st x - m + (pens x).sum)).drop j := by
      rw [← List.map_drop, ← List.map_drop]
      exact flatten_singletons (fun x => st x - m + (pens x).sum) _
    simp only
    unfold summaryNone npArgmax
    simp only [e2, hi, hx?, summaryAt_error h m _ _ _ hy? hsig, bind, Except.bind]

end Verif
