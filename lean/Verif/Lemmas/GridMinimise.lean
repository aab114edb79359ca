import Verif.Lemmas.GridSearch
import Verif.Lemmas.Names

/-! Helper lemmas about `minimise` and `reset_grids`. -/

namespace Verif

theorem setBest_ok {st : Stat} {p : FitPar} {vs : List ℝ} {i : ℕ} {x : ℝ}
    (hv : p.getValues = .ok vs) (hx : vs[i]? = some x) (hs : p.sigma ≠ some 0) :
    ∃ pen, GridSearch.setBest st p i = .ok { p with bestFit := some x, penaltyTerm := some pen } ∧
      (p.sigma = none → pen = 0) ∧
      (∀ sigma, p.sigma = some sigma → st.penalty x p.prior sigma = .ok pen) := by
  unfold GridSearch.setBest FitPar.getValueAt
  simp only [hv, bind, Except.bind, hx]
  cases hsig : p.sigma with
  | none => exact ⟨0, rfl, fun _ => rfl, fun s h => by cases h⟩
  | some sigma =>
    have h0 : sigma ≠ 0 := by rintro rfl; exact hs hsig
    obtain ⟨pen, hpen⟩ : ∃ pen, st.penalty x p.prior sigma = .ok pen := by
      unfold Stat.penalty
      rw [if_neg h0]
      cases st <;> exact ⟨_, rfl⟩
    simp only [hpen]
    refine ⟨pen, rfl, fun h => (by cases h), fun s h => ?_⟩
    cases h
    exact hpen

/-- What `minimise` leaves in a parameter. -/
def BestOf (st : Stat) (p : FitPar) (x : ℝ) (p' : FitPar) : Prop :=
  ∃ pen, p' = { p with bestFit := some x, penaltyTerm := some pen } ∧
      (p.sigma = none → pen = 0) ∧
      (∀ sigma, p.sigma = some sigma → st.penalty x p.prior sigma = .ok pen)

theorem setBests_ok {st : Stat} {pars : List FitPar} {vss : List (List ℝ)}
    (hv : HasValues pars vss) : ∀ {idx : List ℕ} {w : List ℝ}, ValuesAt vss idx w →
    (∀ p ∈ pars, p.sigma ≠ some 0) →
    ∃ pars', GridSearch.setBests st idx pars = .ok pars' ∧ pars'.length = pars.length ∧
      pars'.map FitPar.bestFit = w.map some ∧
      ∀ (i : ℕ) (p : FitPar) (x : ℝ), pars[i]? = some p → w[i]? = some x →
        ∃ p', pars'[i]? = some p' ∧ BestOf st p x p' := by
  induction hv with
  | nil =>
    intro idx w h _
    rw [valuesAt_nil_iff] at h
    obtain ⟨rfl, rfl⟩ := h
    exact ⟨[], rfl, rfl, rfl, fun i p x h => by simp at h⟩
  | @cons p vs pars vss hp _ ih =>
    intro idx w h hs
    cases idx with
    | nil => exact absurd h.2 (by simp)
    | cons i idx =>
      cases w with
      | nil => have := h.1; simp at this
      | cons x w =>
        rw [valuesAt_cons_iff] at h
        obtain ⟨pen, hb, hb'⟩ := setBest_ok (st := st) hp h.1 (hs p List.mem_cons_self)
        obtain ⟨pars', h1, h2, h3, h4⟩ := ih h.2 (fun q hq => hs q (List.mem_cons_of_mem _ hq))
        refine ⟨{ p with bestFit := some x, penaltyTerm := some pen } :: pars', ?_, ?_, ?_, ?_⟩
        · simp only [GridSearch.setBests, hb, h1, bind, Except.bind]
        · simp [h2]
        · simp [h3]
        · intro k q y hq hy
          cases k with
          | zero =>
            simp only [List.getElem?_cons_zero, Option.some.injEq] at hq hy
            subst hq; subst hy
            exact ⟨_, rfl, pen, rfl, hb'⟩
          | succ k =>
            simp only [List.getElem?_cons_succ] at hq hy ⊢
            exact h4 k q y hq hy

theorem Setup.shape {g : GridSearch} {vss : List (List ℝ)}
    {funct : List ℝ → Except PyErr (FitVal × ℝ)} {F : List ℝ → FitVal} {P : List ℝ → ℝ}
    (h : g.Setup vss funct F P) : vss.map List.length = g.fitShape ∧ ∀ n ∈ g.fitShape, 0 < n := by
  have hc := h.counts
  unfold GridSearch.fitShape
  generalize g.pars = pars at hc
  clear h
  induction hc with
  | nil => simp
  | cons hp _ ih =>
    refine ⟨by simp [hp.1, ih.1], ?_⟩
    intro n hn
    rcases List.mem_cons.1 hn with rfl | hn
    · rw [← hp.1]; exact List.length_pos_of_ne_nil hp.2
    · exact ih.2 n hn

/-- The whole of `minimise`, for any values (also repeated ones). -/
theorem minimise_ok {g : GridSearch} (hr : g.Ready) {vss : List (List ℝ)}
    {funct : List ℝ → Except PyErr (FitVal × ℝ)} {F : List ℝ → FitVal} {P : List ℝ → ℝ}
    (h : g.Setup vss funct F P) (st : Stat) :
    ∃ (pts : List (List ℝ × List ℕ)) (g₁ g' : GridSearch) (raw pen : NdArray ℝ) (idx : List ℕ)
      (w : List ℝ),
      GridSearch.gridPoints g.pars = .ok pts ∧ g.fillGrid funct pts = .ok g₁ ∧
      g.minimise funct st = .ok (g', raw, pen) ∧ g₁.Ready ∧
      (∃ pars', g' = { g₁ with pars := pars' } ∧ pars'.length = g.pars.length ∧
        pars'.map FitPar.bestFit = w.map some ∧
        ∀ (i : ℕ) (p : FitPar) (x : ℝ), g.pars[i]? = some p → w[i]? = some x →
          ∃ p', pars'[i]? = some p' ∧ BestOf st p x p') ∧
      (∃ a b, g₁ = { g with stats := a, penalties := b }) ∧
      ValuesAt vss idx w ∧ FirstMin g.fitShape (fun idx =>
        sumIdx g.cellShape (fun j => g₁.stats.get (idx ++ j)) + g₁.penalties.get idx) idx ∧
      raw = ⟨g.cellShape, fun j => g₁.stats.get (idx ++ j)⟩ ∧
      pen = ⟨[], fun j => g₁.penalties.get (idx ++ j)⟩ := by
  obtain ⟨hshape, hpos⟩ := Setup.shape h
  obtain ⟨pts, hpts, hval, _⟩ := gridPoints_ok h.values
  have hin : ∀ pt ∈ pts, funct pt.1 = .ok (F pt.1, P pt.1) ∧ g.Fits (F pt.1) ∧
      InB g.fitShape pt.2 := by
    intro pt hpt
    have := h.returns _ (hval pt hpt).comb
    exact ⟨this.1, this.2, hshape ▸ (hval pt hpt).inB⟩
  obtain ⟨g₁, hg₁, hr₁, ⟨a, b, hab⟩, _, _⟩ := fillGrid_ok pts hr hin
  have e1 : g₁.fitShape = g.fitShape := by rw [hab]; rfl
  have e2 : g₁.cellShape = g.cellShape := by rw [hab]; rfl
  have e3 : g₁.useNumpy = g.useNumpy := by rw [hab]
  have e4 : g₁.pars = g.pars := by rw [hab]
  have hne : g₁.useNumpy = true ∨ g₁.fitShape ≠ [] := by
    rw [e3, e1]
    rcases h.nonempty with h | h
    · exact Or.inl h
    · right
      unfold GridSearch.fitShape
      simpa using h
  obtain ⟨idx, hidx, hfm⟩ := bestPosition_ok hr₁ (by rw [e1]; exact hpos) hne
  rw [e1, e2] at hfm
  obtain ⟨w, hw⟩ := ValuesAt.exists (vss := vss) (idx := idx) (by rw [hshape]; exact hfm.1)
  obtain ⟨pars', hp1, hp2, hp3, hp4⟩ := setBests_ok (st := st) h.values hw h.sigmas
  have hraw : ({ g₁ with pars := pars' } : GridSearch).getRawStat
      (idx.map (fun n : ℕ => (n : ℤ))) = .ok ⟨g.cellShape, fun j => g₁.stats.get (idx ++ j)⟩ := by
    unfold GridSearch.getRawStat
    exact take_ok (s := g.fitShape) (by rw [← e1, ← e2]; exact hr₁.1) hfm.1
  have hbins : pars'.map FitPar.bins = g.fitShape := by
    unfold GridSearch.fitShape
    apply List.ext_getElem?
    intro i
    rcases Nat.lt_or_ge i g.pars.length with hi | hi
    · have hwl : w.length = g.pars.length := by
        have := congrArg List.length hp3
        simp at this
        omega
      obtain ⟨p', hp', pen, hpe, _⟩ := hp4 i g.pars[i] (w[i]'(by omega))
        (List.getElem?_eq_getElem hi) (List.getElem?_eq_getElem _)
      simp [hp', hpe, List.getElem?_eq_getElem hi]
    · rw [List.getElem?_eq_none (by simp; omega), List.getElem?_eq_none (by simp; omega)]
  have hpen : ({ g₁ with pars := pars' } : GridSearch).getPenaltyTerm
      (idx.map (fun n : ℕ => (n : ℤ))) = .ok ⟨[], fun j => g₁.penalties.get (idx ++ j)⟩ := by
    unfold GridSearch.getPenaltyTerm GridSearch.outOfBounds GridSearch.fitShape
    simp only [hbins]
    rw [tupleGt_inB hfm.1]
    simp only [Bool.false_eq_true, if_false]
    exact take_ok (s := g.fitShape) (by rw [← e1]; simpa using hr₁.2) hfm.1
  refine ⟨pts, g₁, _, _, _, idx, w, hpts, hg₁, ?_, hr₁, ⟨pars', rfl, hp2, hp3, hp4⟩,
    ⟨a, b, hab⟩, hw, hfm, rfl, rfl⟩
  unfold GridSearch.minimise
  simp only [hpts, hg₁, hidx, e4, hp1, hraw, hpen, bind, Except.bind]

/-! ### resets -/

theorem natStr_no_sep (n : ℕ) : '_' ∉ GridSearch.natStr n := by
  intro h
  have := Nat.isDigit_of_mem_toDigits (by decide) (by decide) h
  exact absurd this (by decide)

theorem foldl_sep (l : List PyStr) (first : PyStr) :
    l.foldl (fun acc part => acc ++ lit "_" ++ part) first = ['_'].intercalate (first :: l) := by
  induction l generalizing first with
  | nil => simp
  | cons a l ih =>
    rw [List.foldl_cons, ih]
    cases l with
    | nil => simp [List.intercalate_cons_cons]
    | cons b l => simp [List.intercalate_cons_cons]

/-- The grid search after a reset to the given count and name. -/
def GridSearch.resetTo (g : GridSearch) (k : ℕ) (name : PyStr) : GridSearch :=
  { g with
    resets := k
    name := some (name ++ ['_'] ++ GridSearch.natStr k)
    stats := NdArray.zeros (g.fitShape ++ g.specShape)
    penalties := NdArray.zeros g.fitShape }

theorem resetGrids_first {g : GridSearch} {name : PyStr} (hn : g.name = some name)
    (h : g.resets = 0) : ∃ g', g.resetGrids = .ok g' ∧
      g' = g.resetTo 1 name := by
  refine ⟨_, ?_, rfl⟩
  unfold GridSearch.resetGrids
  rw [hn]
  simp only [h, if_true]
  rfl

theorem resetGrids_next {g : GridSearch} {name : PyStr} {k : ℕ}
    (hn : g.name = some (name ++ ['_'] ++ GridSearch.natStr (k + 1))) (h : g.resets = k + 1) :
    ∃ g', g.resetGrids = .ok g' ∧
      g' = g.resetTo (k + 2) name := by
  refine ⟨_, ?_, rfl⟩
  unfold GridSearch.resetGrids
  rw [hn]
  have hsplit : pySplit '_' (name ++ ['_'] ++ GridSearch.natStr (k + 1)) =
      pySplit '_' name ++ [GridSearch.natStr (k + 1)] := by
    rw [List.append_assoc, List.singleton_append, pySplit_append,
      pySplit_of_not_mem (natStr_no_sep (k + 1))]
  have hne := pySplit_ne_nil '_' name
  obtain ⟨first, rest, hfr⟩ := List.exists_cons_of_ne_nil hne
  simp only [h, Nat.succ_ne_zero, if_false, hsplit, hfr, List.cons_append, List.dropLast_concat]
  have hj : ['_'].intercalate (first :: rest) = name := by
    rw [← hfr]; exact List.intercalate_splitOn '_'
  rw [foldl_sep, hj]
  rfl

theorem resetsTo_name {g g' : GridSearch} {name : PyStr} (hn : g.name = some name)
    (h0 : g.resets = 0) {k : ℕ} (h : ResetsTo g (k + 1) g') :
    g' = g.resetTo (k + 1) name := by
  induction k generalizing g' with
  | zero =>
    cases h with
    | succ h1 h2 =>
      cases h1
      obtain ⟨g'', h3, h4⟩ := resetGrids_first hn h0
      rw [h2] at h3
      cases h3
      exact h4
  | succ k ih =>
    cases h with
    | succ h1 h2 =>
      have h3 := ih h1
      obtain ⟨g'', h4, h5⟩ := resetGrids_next (g := g.resetTo (k + 1) name) (name := name) (k := k)
        rfl rfl
      rw [← h3] at h4
      rw [h2] at h4
      cases h4
      rw [h5]
      rfl

theorem resetsTo_exists {g : GridSearch} {name : PyStr} (hn : g.name = some name)
    (h0 : g.resets = 0) (k : ℕ) : ∃ g', ResetsTo g (k + 1) g' := by
  induction k with
  | zero =>
    obtain ⟨g', h, _⟩ := resetGrids_first hn h0
    exact ⟨g', .succ (.zero g) h⟩
  | succ k ih =>
    obtain ⟨g', h⟩ := ih
    have h3 := resetsTo_name hn h0 h
    obtain ⟨g'', h4, _⟩ := resetGrids_next (g := g') (name := name) (k := k)
      (by rw [h3]; rfl) (by rw [h3]; rfl)
    exact ⟨g'', .succ h h4⟩

/-! ### errors -/

theorem npIndex_long {s : List ℕ} {idx : List ℤ} (h : s.length < idx.length) :
    npIndex s idx = .error .indexError := by
  induction s generalizing idx with
  | nil =>
    cases idx with
    | nil => simp at h
    | cons i idx => rfl
  | cons n s ih =>
    cases idx with
    | nil => simp at h
    | cons i idx =>
      have := ih (idx := idx) (by simpa using h)
      simp only [npIndex, this, bind, Except.bind]
      split
      · rfl
      · split <;> rfl

theorem npIndex_out {s idx : List ℕ} (hl : idx.length = s.length) (h : ¬ InB s idx) :
    npIndex s (idx.map (fun n : ℕ => (n : ℤ))) = .error .indexError := by
  induction s generalizing idx with
  | nil =>
    have : idx = [] := List.eq_nil_of_length_eq_zero hl
    subst this
    simp at h
  | cons n s ih =>
    cases idx with
    | nil => simp at hl
    | cons i idx =>
      simp only [inB_cons_cons, not_and_or] at h
      have hneg : ¬ ((i : ℤ) < 0 ∧ -(n : ℤ) ≤ (i : ℤ)) := by omega
      by_cases hi : i < n
      · have h2 : ¬ InB s idx := by
          rcases h with h | h
          · exact absurd hi h
          · exact h
        have := ih (by simpa using hl) h2
        simp only [List.map_cons, npIndex, this, bind, Except.bind, hneg, if_false]
        split <;> rfl
      · have hc : ¬ (0 ≤ (i : ℤ) ∧ (i : ℤ) < (n : ℤ)) := by omega
        simp only [List.map_cons, npIndex, hc, if_false, hneg]

theorem bcastRev_spec : ∀ {s t r : List ℕ}, bcastRev s t = some r →
    r.length = max s.length t.length ∧ ((∀ n ∈ s, 0 < n) → (∀ n ∈ t, 0 < n) → ∀ n ∈ r, 0 < n)
  | [], t, r, h => by
    simp only [bcastRev, Option.some.injEq] at h
    subst h
    exact ⟨by simp, fun _ ht => ht⟩
  | n :: s, [], r, h => by
    simp only [bcastRev, Option.some.injEq] at h
    subst h
    exact ⟨by simp, fun hs _ => hs⟩
  | n :: s, m :: t, r, h => by
    simp only [bcastRev] at h
    have key : ∀ k : ℕ, (k = n ∨ k = m) → (bcastRev s t).map (k :: ·) = some r →
        r.length = max (n :: s).length (m :: t).length ∧
        ((∀ x ∈ n :: s, 0 < x) → (∀ x ∈ m :: t, 0 < x) → ∀ x ∈ r, 0 < x) := by
      intro k hk h
      obtain ⟨r', hr', rfl⟩ := Option.map_eq_some_iff.1 h
      obtain ⟨h1, h2⟩ := bcastRev_spec hr'
      refine ⟨by simp [h1], fun hs ht x hx => ?_⟩
      rcases List.mem_cons.1 hx with rfl | hx
      · rcases hk with rfl | rfl
        · exact hs _ List.mem_cons_self
        · exact ht _ List.mem_cons_self
      · exact h2 (fun y hy => hs y (List.mem_cons_of_mem _ hy))
          (fun y hy => ht y (List.mem_cons_of_mem _ hy)) x hx
    split at h
    · exact key n (Or.inl rfl) h
    · split at h
      · exact key m (Or.inr rfl) h
      · split at h
        · exact key n (Or.inl rfl) h
        · cases h

theorem bcast_spec {s t r : List ℕ} (h : bcast s t = some r) :
    r.length = max s.length t.length ∧ ((∀ n ∈ s, 0 < n) → (∀ n ∈ t, 0 < n) → ∀ n ∈ r, 0 < n) := by
  unfold bcast at h
  obtain ⟨r', hr', rfl⟩ := Option.map_eq_some_iff.1 h
  obtain ⟨h1, h2⟩ := bcastRev_spec hr'
  refine ⟨by simpa using h1, fun hs ht n hn => ?_⟩
  exact h2 (by simpa using hs) (by simpa using ht) n (by simpa using hn)

theorem assign_shape {α : Type} {a b r : NdArray α} {idx : List ℤ} (h : a.assign idx b = .ok r) :
    r.shape = a.shape := by
  unfold NdArray.assign at h
  cases hi : npIndex a.shape idx with
  | error e => simp [hi, bind, Except.bind] at h
  | ok p =>
    simp only [hi, bind, Except.bind] at h
    split at h
    · cases h; rfl
    · cases h

theorem fillPoint_shape {g g' : GridSearch} {funct : List ℝ → Except PyErr (FitVal × ℝ)}
    {pt : List ℝ × List ℕ} (h : g.fillPoint funct pt = .ok g') :
    ∃ a b, g' = { g with stats := a, penalties := b } ∧ a.shape = g.stats.shape ∧
      b.shape = g.penalties.shape := by
  have hset : ∀ (g g' : GridSearch) (r : FitVal) (x : ℝ) (idx : List ℤ),
      (do let g₁ ← g.setStat r idx; g₁.setPenaltyTerm x idx : Except PyErr GridSearch) = .ok g' →
      ∃ a b, g' = { g with stats := a, penalties := b } ∧ a.shape = g.stats.shape ∧
        b.shape = g.penalties.shape := by
    intro g g' r x idx h
    unfold GridSearch.setStat at h
    by_cases ho : g.outOfBounds idx = true
    · simp [ho, bind, Except.bind] at h
    · cases r with
      | scalar y => simp [ho, bind, Except.bind] at h
      | array a =>
        simp only [ho, if_false, bind, Except.bind, Bool.false_eq_true] at h
        cases ha : g.stats.assign idx a with
        | error e => simp [ha] at h
        | ok s =>
          simp only [ha] at h
          unfold GridSearch.setPenaltyTerm at h
          split at h
          · cases h
          · simp only [bind, Except.bind] at h
            cases hb : g.penalties.assign idx ⟨[], fun _ => x⟩ with
            | error e => simp [hb] at h
            | ok t =>
              simp only [hb] at h
              cases h
              exact ⟨s, t, rfl, assign_shape ha, assign_shape hb⟩
  unfold GridSearch.fillPoint at h
  cases hf : funct pt.1 with
  | error e => simp [hf, bind, Except.bind] at h
  | ok rx =>
    obtain ⟨r, x⟩ := rx
    simp only [hf, bind, Except.bind] at h
    rcases Bool.eq_false_or_eq_true g.perBin with hp | hp <;> cases r
    · simp only [hp] at h; cases h
    · simp only [hp] at h; exact hset _ _ _ _ _ h
    · simp only [hp] at h; exact hset _ _ _ _ _ h
    · simp only [hp] at h; exact hset _ _ _ _ _ h

theorem fillGrid_shape {funct : List ℝ → Except PyErr (FitVal × ℝ)} (pts : List (List ℝ × List ℕ)) :
    ∀ {g g' : GridSearch}, g.fillGrid funct pts = .ok g' →
    ∃ a b, g' = { g with stats := a, penalties := b } ∧ a.shape = g.stats.shape ∧
      b.shape = g.penalties.shape := by
  induction pts with
  | nil =>
    intro g g' h
    cases h
    exact ⟨g.stats, g.penalties, rfl, rfl, rfl⟩
  | cons pt pts ih =>
    intro g g' h
    simp only [GridSearch.fillGrid, bind, Except.bind] at h
    cases hp : g.fillPoint funct pt with
    | error e => simp [hp] at h
    | ok g₁ =>
      simp only [hp] at h
      obtain ⟨a, b, rfl, h1, h2⟩ := fillPoint_shape hp
      obtain ⟨c, d, rfl, h3, h4⟩ := ih h
      exact ⟨c, d, rfl, h3.trans h1, h4.trans h2⟩

theorem length_unravelIdx (s : List ℕ) (k : ℕ) : (unravelIdx s k).length = s.length := by
  induction s generalizing k with
  | nil => rfl
  | cons n s ih => simp [unravelIdx, ih]

theorem setBests_bins {st : Stat} : ∀ {idx : List ℕ} {pars pars' : List FitPar},
    GridSearch.setBests st idx pars = .ok pars' → pars'.map FitPar.bins = pars.map FitPar.bins
  | [], pars, pars', h => by cases pars <;> cases h <;> rfl
  | _ :: _, [], pars', h => by cases h; rfl
  | i :: idx, p :: pars, pars', h => by
    simp only [GridSearch.setBests, bind, Except.bind] at h
    cases hb : GridSearch.setBest st p i with
    | error e => simp [hb] at h
    | ok q =>
      simp only [hb] at h
      cases hr : GridSearch.setBests st idx pars with
      | error e => simp [hr] at h
      | ok r =>
        simp only [hr] at h
        cases h
        have hq : q.bins = p.bins := by
          unfold GridSearch.setBest at hb
          cases hv : p.getValueAt i with
          | error e => simp [hv, bind, Except.bind] at hb
          | ok x =>
            simp only [hv, bind, Except.bind] at hb
            split at hb
            · split at hb
              · cases hb
              · cases hb; rfl
            · cases hb; rfl
        simp [hq, setBests_bins hr]

end Verif
