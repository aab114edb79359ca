import Verif.Model.LimitSave
import Verif.Props.StoreResults
import Verif.Props.Limit
import Verif.Lemmas.Except

/-! # C123: what setting a limit saves -/

namespace Verif

/-- What it takes for limit results to be loaded again after saving, see C88: `n` scalings. -/
structure Saveable (r : FullLimit) (n : ℕ) : Prop where
  config : ConfigOk r.spectraConfig
  loadable : Loadable r.fitConfig
  order : FileOrder r.fitConfig
  limit : RateConfig r.limitConfig.spectraName r.limitConfig
  rate : ∃ p, r.limitConfig.config.getPar (lit "rate") = .ok p ∧ p.bins = n
  fits : r.fitResults.length = n

/-- The results `r` tell what was found for every scaling, and otherwise agree with the ones `before`
the run. For the scaling `x` the fit was done without signal if `x` is zero up to the tolerance of
`numpy.isclose` and with the signal scaled to `x` otherwise; recorded are its statistic less `m` (bin
by bin, or for all bins alike), its penalty terms and its best fits. -/
structure Recorded (before : FullLimit) (scales : List ℝ) (fit : Option ℝ → Except PyErr FitOut)
    (m : List ℝ) (binShape : List ℕ) (best : Option ℝ → List ℝ) (r : FullLimit) : Prop where
  name : r.name = before.name
  config : r.spectraConfig = before.spectraConfig
  limit : SameFit (some before.limitConfig) (some r.limitConfig)
  pars : SamePars before.fitConfig r.fitConfig
  shapes : r.stats.shape = scales.length :: binShape ∧
    r.penaltyTerms.shape = [scales.length, before.fitConfig.pars.length] ∧
    r.bestFits.shape = [scales.length, before.fitConfig.pars.length]
  rows : ∀ (i : ℕ) x, scales[i]? = some x → ∃ sig o,
    (|x| ≤ 1 / 10 ^ 8 → sig = none) ∧ (1 / 10 ^ 8 < |x| → sig = some x) ∧ fit sig = .ok o ∧
    (∀ cell, InB binShape cell →
      (o.stat.length = m.length ∧ r.stats.get (i :: cell) =
        o.stat.getD (ravelIdx binShape cell) 0 - m.getD (ravelIdx binShape cell) 0) ∨
      ∃ y, o.stat = [y] ∧ r.stats.get (i :: cell) = y - m.getD (ravelIdx binShape cell) 0) ∧
    ∀ j < before.fitConfig.pars.length, r.penaltyTerms.get [i, j] = o.pens.getD j 0 ∧
      r.bestFits.get [i, j] = (best sig).getD j 0

/-- The files after a run: as before but for `path`, from which results are loaded that record the
run. -/
def SavedAt (disk disk' : Disk) (path : PyStr) (recorded : FullLimit → Prop) : Prop :=
  (∀ p, p ≠ path → disk' p = disk p) ∧
  ∃ f r, disk' path = some f ∧ f.spectrum = none ∧ f.fitResults = none ∧
    loadLimitResults f = .ok r ∧ recorded r

/-- What the statistics are compared with: the given number, if it is not zero, or else the statistic
of the fit without signal. -/
def ComparedWith (fit : Option ℝ → Except PyErr FitOut) (minStat : Option (List ℝ)) (m : List ℝ) :
    Prop :=
  (∃ x, x ≠ 0 ∧ minStat = some [x] ∧ m = [x]) ∨
  ((∀ x, minStat = some [x] → x = 0) ∧ ∃ o, fit none = .ok o ∧ m = o.stat)

theorem comparedWith_of {fit : Option ℝ → Except PyErr FitOut} {minStat : Option (List ℝ)} {m : List ℝ}
    (h : minStatOf fit minStat = .ok m) : ComparedWith fit minStat m := by
  have key : ∀ m, (fit none).map FitOut.stat = .ok m → ∃ o, fit none = .ok o ∧ m = o.stat := by
    intro m h
    cases ho : fit none with
    | error e => rw [ho] at h; cases h
    | ok o => rw [ho] at h; cases h; exact ⟨o, rfl, rfl⟩
  rcases minStat with _ | _ | ⟨x, _ | ⟨y, l⟩⟩
  · exact .inr ⟨fun x h => (by cases h), key m h⟩
  · exact .inr ⟨fun x h => (by cases h), key m h⟩
  · unfold minStatOf at h
    dsimp only at h
    by_cases hx : x = 0
    · rw [if_pos hx] at h
      exact .inr ⟨fun y hy => (by cases hy; exact hx), key m h⟩
    · rw [if_neg hx] at h
      cases h
      exact .inl ⟨x, hx, rfl, rfl⟩
  · cases h

theorem mapM_except_get {α β : Type} {f : α → Except PyErr β} {l : List α} {r : List β}
    (h : l.mapM f = .ok r) {i : ℕ} {x : α} (hi : l[i]? = some x) :
    ∃ y, f x = .ok y ∧ r[i]? = some y := by
  induction l generalizing r i with
  | nil => simp at hi
  | cons a l ih =>
    rw [List.mapM_cons] at h
    cases h1 : f a with
    | error e => rw [h1] at h; cases h
    | ok b =>
      cases h2 : l.mapM f with
      | error e => rw [h1, h2] at h; cases h
      | ok bs =>
        rw [h1, h2] at h
        cases h
        cases i with
        | zero =>
          simp only [List.getElem?_cons_zero, Option.some.injEq] at hi
          subst hi
          exact ⟨b, h1, rfl⟩
        | succ i => exact ih h2 (by simpa using hi)

theorem dumpLimitAt_saved {before : FullLimit} {scales : List ℝ} (h : Saveable before scales.length)
    {fit : Option ℝ → Except PyErr FitOut} {m : List ℝ} (binShape : List ℕ)
    (best : Option ℝ → List ℝ) {rows : List (List ℝ × List ℝ)}
    (hmap : scales.mapM (limitRow fit m) = .ok rows) (disk : Disk) (path : PyStr) :
    ∃ d, dumpLimitAt disk path (recordRows before binShape best scales rows) = (d, .ok ()) ∧
      (m.length = binShape.prod → SavedAt disk d path (Recorded before scales fit m binShape best)) := by
  have hrows := mapM_except_length hmap
  have hr : LimitOk (recordRows before binShape best scales rows) scales.length :=
    ⟨h.rate, by simp [recordRows, rowArray, hrows], by simp [recordRows, rowArray],
      ⟨binShape, by simp [recordRows, rowArray, hrows]⟩, h.fits⟩
  obtain ⟨f, r', h1, h2, h3, h4, h5, h6, h7, h8, h9, h10, h11, -⟩ :=
    c88_round_trip_partial (disk path) false _ _ hr h.config h.loadable h.order h.limit rfl
  have hrec : m.length = binShape.prod → Recorded before scales fit m binShape best r' := by
    intro hm
    refine ⟨h5, h6, h7, h8, ⟨?_, ?_, ?_⟩, ?_⟩
    · rw [h9]; simp [recordRows, rowArray, hrows]
    · rw [h10.1]; simp [recordRows, rowArray, hrows]
    · rw [h11.1]; simp [recordRows, rowArray]
    · intro i x hx
      have hi : i < scales.length := (List.getElem?_eq_some_iff.1 hx).1
      obtain ⟨y, hy, hri⟩ := mapM_except_get hmap hx
      unfold limitRow at hy
      simp only [bind, Except.bind] at hy
      cases ho : fit (signalAt x) with
      | error e => rw [ho] at hy; cases hy
      | ok o =>
        rw [ho] at hy
        dsimp only at hy
        cases hset : setRow m.length o.stat with
        | error e => rw [hset] at hy; cases hy
        | ok row =>
          rw [hset] at hy
          cases hy
          refine ⟨signalAt x, o, ?_, ?_, ho, ?_, ?_⟩
          · intro h
            unfold signalAt npCloseReal
            rw [if_pos (by simpa using h)]
          · intro h
            unfold signalAt npCloseReal
            rw [if_neg (by simpa using h)]
          · intro cell hcell
            have hk : ravelIdx binShape cell < m.length := hm ▸ ravelIdx_lt hcell
            have hst : r'.stats.get (i :: cell) =
                (List.zipWith (fun a b => a - b) row m).getD (ravelIdx binShape cell) 0 := by
              rw [h9]
              simp [recordRows, rowArray, hri]
            have hz : ∀ l : List ℝ, l.length = m.length →
                (List.zipWith (fun a b => a - b) l m).getD (ravelIdx binShape cell) 0 =
                  l.getD (ravelIdx binShape cell) 0 - m.getD (ravelIdx binShape cell) 0 := by
              intro l hl
              simp [List.getD_eq_getElem?_getD, List.getElem?_zipWith, List.getElem?_eq_getElem hk,
                List.getElem?_eq_getElem (hl ▸ hk)]
            unfold setRow at hset
            split at hset
            · cases hset
              exact .inl ⟨‹_›, by rw [hst, hz _ ‹_›]⟩
            · split at hset
              · cases hset
                refine .inr ⟨_, ‹_›, ?_⟩
                rw [hst, hz _ (by simp)]
                simp [List.getD_eq_getElem?_getD, hk]
              · cases hset
          · intro j hj
            constructor
            · rw [h10.2 _ (by rw [h10.1]; simp [recordRows, rowArray, InB, hrows, hi, hj])]
              simp [recordRows, rowArray, ravelIdx, hri]
            · rw [h11.2 _ (by rw [h11.1]; simp [recordRows, rowArray, InB, hi, hj])]
              simp [recordRows, rowArray, ravelIdx, hx]
  refine ⟨disk.write path f, ?_, fun hm => ⟨?_, f, r', ?_, h2, h3, h4, hrec hm⟩⟩
  · unfold dumpLimitAt
    rw [h1]
  · intro p hp
    simp [Disk.write, hp]
  · simp [Disk.write]

theorem minStatOf_error {fit : Option ℝ → Except PyErr FitOut}
    (hf : ∀ sig, fit sig ≠ .error .limitError) {minStat : Option (List ℝ)} {e : PyErr}
    (h : minStatOf fit minStat = .error e) : e ≠ .limitError := by
  rintro rfl
  have key : (fit none).map FitOut.stat ≠ .error .limitError := by
    intro h
    cases ho : fit none with
    | error e =>
      rw [ho] at h
      cases h
      exact hf none ho
    | ok o => rw [ho] at h; cases h
  rcases minStat with _ | _ | ⟨x, _ | ⟨y, l⟩⟩
  · exact key h
  · exact key h
  · unfold minStatOf at h
    dsimp only at h
    by_cases hx : x = 0
    · rw [if_pos hx] at h
      exact key h
    · rw [if_neg hx] at h
      cases h
  · cases h

theorem limitRows_error {fit : Option ℝ → Except PyErr FitOut}
    (hf : ∀ sig, fit sig ≠ .error .limitError) {m : List ℝ} {e : PyErr} :
    ∀ {scales : List ℝ}, scales.mapM (limitRow fit m) = .error e → e ≠ .limitError
  | [], h => by cases h
  | x :: l, h => by
    rw [List.mapM_cons] at h
    cases h1 : limitRow fit m x with
    | error e' =>
      rw [h1] at h
      cases h
      unfold limitRow at h1
      simp only [bind, Except.bind] at h1
      rintro rfl
      cases ho : fit (signalAt x) with
      | error e =>
        rw [ho] at h1
        cases h1
        exact hf _ ho
      | ok o =>
        rw [ho] at h1
        dsimp only at h1
        unfold setRow at h1
        split at h1
        · rename_i hs
          split at hs
          · cases hs
          · split at hs <;> cases hs
            cases h1
        · cases h1
    | ok b =>
      cases h2 : l.mapM (limitRow fit m) with
      | error e' =>
        rw [h1, h2] at h
        cases h
        exact limitRows_error hf h2
      | ok bs => rw [h1, h2] at h; cases h

theorem npArgmin_error {l : List ℝ} {e : PyErr} (h : npArgmin l = .error e) : e = .valueError := by
  cases l <;> cases h
  rfl

/-- The two ways a search that reaches the end is saved. -/
theorem getLimitSaving_cases (scales : List ℝ) (sigmas : List (Option ℝ))
    (fit : Option ℝ → Except PyErr FitOut) (minStat : Option (List ℝ)) (limit : ℝ)
    (a : SaveArgs) (before : FullLimit) (binShape : List ℕ) (best : Option ℝ → List ℝ)
    (disk : Disk) :
    (∃ e, getLimit scales sigmas fit minStat limit = .error e ∧
      ((∀ sig, fit sig ≠ .error .limitError) → e ≠ .limitError) ∧
      getLimitSaving scales sigmas fit minStat limit a before binShape best disk =
        (disk, .error e)) ∨
    ∃ m rows, minStatOf fit minStat = .ok m ∧ scales.mapM (limitRow fit m) = .ok rows ∧
      ((∃ x, getLimit scales sigmas fit minStat limit = .ok x ∧
        ((saveFound a disk (recordRows before binShape best scales rows)).2 ≠ .error .indexError →
        getLimitSaving scales sigmas fit minStat limit a before binShape best disk =
          ((saveFound a disk (recordRows before binShape best scales rows)).1,
            (saveFound a disk (recordRows before binShape best scales rows)).2.map fun _ => x))) ∨
      (getLimit scales sigmas fit minStat limit = .error .limitError ∧
        getLimitSaving scales sigmas fit minStat limit a before binShape best disk =
          ((saveNone a disk (recordRows before binShape best scales rows)).1,
            match (saveNone a disk (recordRows before binShape best scales rows)).2 with
            | .ok () => .error .limitError
            | .error e => .error e))) := by
  unfold getLimit getLimitSaving
  cases hm : minStatOf fit minStat with
  | error e => exact .inl ⟨e, rfl, fun hf => minStatOf_error hf hm, rfl⟩
  | ok m =>
    simp only [bind, Except.bind]
    cases hrows : scales.mapM (limitRow fit m) with
    | error e => exact .inl ⟨e, rfl, fun hf => limitRows_error hf hrows, rfl⟩
    | ok rows =>
      dsimp only
      cases hmin : npArgmin (rows.map Prod.fst).flatten with
      | error e => exact .inl ⟨e, rfl, fun _ => by rw [npArgmin_error hmin]; simp, rfl⟩
      | ok minBin =>
        dsimp only
        have hlen : rows.length = scales.length := mapM_except_length hrows
        generalize hr : recordRows before binShape best scales rows = r
        generalize hf : rows.map (fun r => r.1.sum + r.2.sum) = full
        have hfl : full.length = scales.length := by rw [← hf, List.length_map, hlen]
        unfold readLimit limitFound
        cases hi : (full.drop minBin).findIdx? (fun x => @decide (limit < x) (Classical.propDecidable _)) with
        | some i =>
          have hlt : minBin + i < scales.length := by
            have := (List.findIdx?_eq_some_iff_findIdx_eq.1 hi).1
            rw [List.length_drop] at this
            omega
          simp only [List.getElem?_eq_getElem hlt]
          by_cases hs : sigmas.any Option.isNone = true
          · rw [if_pos hs, if_pos hs]
            exact .inl ⟨_, rfl, fun _ => by simp, rfl⟩
          · rw [if_neg hs, if_neg hs]
            refine .inr ⟨m, rows, rfl, hrows, .inl ⟨_, rfl, fun hne => ?_⟩⟩
            rw [hr] at hne ⊢
            generalize saveFound a disk r = p at hne ⊢
            obtain ⟨d, res⟩ := p
            cases res with
            | ok u => rfl
            | error e =>
              cases e <;> first | rfl | exact absurd rfl hne
        | none =>
          dsimp only
          unfold limitNone
          cases hmax : npArgmax (full.drop minBin) with
          | error e =>
            exact .inl ⟨e, rfl, fun _ => by rw [npArgmin_error hmax]; simp, rfl⟩
          | ok i =>
            simp only [bind, Except.bind]
            cases hsc : scales[minBin + i * m.length]? with
            | none => exact .inl ⟨_, rfl, fun _ => by simp, rfl⟩
            | some y =>
              dsimp only
              by_cases hs : sigmas.any Option.isNone = true
              · rw [if_pos hs, if_pos hs]
                exact .inl ⟨_, rfl, fun _ => by simp, rfl⟩
              · rw [if_neg hs, if_neg hs]
                refine .inr ⟨m, rows, rfl, hrows, .inr ⟨rfl, ?_⟩⟩
                rw [hr]
                generalize saveNone a disk r = p
                obtain ⟨d, res⟩ := p
                cases res <;> rfl

/-- **C123, a limit is found.** Storing does not change the limit. Without spectra nothing but the
asked file is written: the given name, with `.hdf5` at its end, or else a name made from that of the
results and the time. The file is new, whatever was there before, and holds the statistics, penalty
terms and best fits of every scaling. -/
theorem c123_limit_found (scales : List ℝ) (sigmas : List (Option ℝ))
    (fit : Option ℝ → Except PyErr FitOut) (minStat : Option (List ℝ)) (limit x : ℝ)
    (hx : getLimit scales sigmas fit minStat limit = .ok x) (a : SaveArgs) (ha : a.spectra = false)
    (before : FullLimit) (hb : Saveable before scales.length) (binShape : List ℕ)
    (hbin : ∀ m, ComparedWith fit minStat m → m.length = binShape.prod)
    (best : Option ℝ → List ℝ) (disk : Disk) :
    (getLimitSaving scales sigmas fit minStat limit a before binShape best disk).2 = .ok x ∧
    (a.limit = false →
      (getLimitSaving scales sigmas fit minStat limit a before binShape best disk).1 = disk) ∧
    (a.limit = true → ∃ m path, ComparedWith fit minStat m ∧
      (∀ f, a.fname = some f → f ≠ [] →
        (lit ".hdf5" <:+ f → path = f) ∧ (¬ lit ".hdf5" <:+ f → path = f ++ lit ".hdf5")) ∧
      (a.fname = none ∨ a.fname = some [] →
        path = a.dir ++ lit "/" ++ before.name ++ lit "_" ++ a.stamp ++ lit ".hdf5") ∧
      SavedAt disk
        (getLimitSaving scales sigmas fit minStat limit a before binShape best disk).1 path
        (Recorded before scales fit m binShape best)) := by
  rcases getLimitSaving_cases scales sigmas fit minStat limit a before binShape best disk with
    ⟨e, he, -, -⟩ | ⟨m, rows, hm, hrows, ⟨y, hy, h⟩ | ⟨he, -⟩⟩
  · rw [hx] at he; cases he
  · rw [hx] at hy
    cases hy
    cases hl : a.limit with
    | false =>
      have e1 : saveFound a disk (recordRows before binShape best scales rows) = (disk, .ok ()) := by
        simp [saveFound, hl, ha]
      rw [h (by rw [e1]; simp), e1]
      exact ⟨rfl, fun _ => rfl, fun h => by cases h⟩
    | true =>
      obtain ⟨d, hd, hsave⟩ := dumpLimitAt_saved hb binShape best hrows disk (a.limitFile before.name)
      have e1 : saveFound a disk (recordRows before binShape best scales rows) = (d, .ok ()) := by
        have : (recordRows before binShape best scales rows).name = before.name := rfl
        simp [saveFound, hl, ha, this, hd]
      rw [h (by rw [e1]; simp), e1]
      refine ⟨rfl, (fun h => by cases h), fun _ => ⟨m, a.limitFile before.name,
        comparedWith_of hm, ?_, ?_, hsave (hbin m (comparedWith_of hm))⟩⟩
      · intro f hf hne
        obtain ⟨c, f, rfl⟩ := List.exists_cons_of_ne_nil hne
        have hsuf : lit ".hdf5" <:+ c :: f ↔ (c :: f).drop ((c :: f).length - 5) = lit ".hdf5" := by
          rw [List.suffix_iff_eq_drop, eq_comm]
          rfl
        unfold SaveArgs.limitFile
        rw [hf]
        dsimp only
        constructor
        · intro h
          rw [if_neg (not_not.2 (hsuf.1 h))]
        · intro h
          rw [if_pos (mt hsuf.2 h)]
      · intro hf
        have : a.limitFile before.name = a.defaultFile before.name := by
          unfold SaveArgs.limitFile
          rcases hf with hf | hf <;> rw [hf]
        rw [this]
        simp [SaveArgs.defaultFile, List.append_assoc]
  · rw [hx] at he; cases he

/-- **C123, no limit is found.** After the last scaling a `LimitError` is raised, and the results are
saved under the default name, whatever name was given, if they are to be stored (fits do not raise
`LimitError` themselves). If something else goes wrong before, nothing is saved. -/
theorem c123_no_limit (scales : List ℝ) (sigmas : List (Option ℝ))
    (fit : Option ℝ → Except PyErr FitOut) (minStat : Option (List ℝ)) (limit : ℝ) (e : PyErr)
    (he : getLimit scales sigmas fit minStat limit = .error e) (a : SaveArgs) (ha : a.spectra = false)
    (before : FullLimit) (hb : Saveable before scales.length) (binShape : List ℕ)
    (hbin : ∀ m, ComparedWith fit minStat m → m.length = binShape.prod)
    (best : Option ℝ → List ℝ) (disk : Disk) :
    (getLimitSaving scales sigmas fit minStat limit a before binShape best disk).2 = .error e ∧
    (((e = .limitError → a.limit = true → ∃ sig, fit sig = .error .limitError) ∧
      (getLimitSaving scales sigmas fit minStat limit a before binShape best disk).1 = disk) ∨
      e = .limitError ∧ a.limit = true ∧ ∃ m, ComparedWith fit minStat m ∧
      SavedAt disk
        (getLimitSaving scales sigmas fit minStat limit a before binShape best disk).1
        (a.dir ++ lit "/" ++ before.name ++ lit "_" ++ a.stamp ++ lit ".hdf5")
        (Recorded before scales fit m binShape best)) := by
  rcases getLimitSaving_cases scales sigmas fit minStat limit a before binShape best disk with
    ⟨e', he', hl, h⟩ | ⟨m, rows, hm, hrows, ⟨y, hy, h⟩ | ⟨he', h⟩⟩
  · rw [he] at he'
    cases he'
    rw [h]
    refine ⟨rfl, .inl ⟨fun h1 _ => ?_, rfl⟩⟩
    by_contra hne
    exact hl (fun sig hs => hne ⟨sig, hs⟩) h1
  · rw [he] at hy; cases hy
  · rw [he] at he'
    cases he'
    cases hl : a.limit with
    | false =>
      have e1 : saveNone a disk (recordRows before binShape best scales rows) = (disk, .ok ()) := by
        simp [saveNone, hl, ha]
      rw [h, e1]
      exact ⟨rfl, .inl ⟨(fun _ h => by cases h), rfl⟩⟩
    | true =>
      obtain ⟨d, hd, hsave⟩ := dumpLimitAt_saved hb binShape best hrows disk (a.defaultFile before.name)
      have e1 : saveNone a disk (recordRows before binShape best scales rows) = (d, .ok ()) := by
        have : (recordRows before binShape best scales rows).name = before.name := rfl
        simp [saveNone, hl, ha, this, hd]
      rw [h, e1]
      refine ⟨rfl, .inr ⟨rfl, rfl, m, comparedWith_of hm, ?_⟩⟩
      have : a.dir ++ lit "/" ++ before.name ++ lit "_" ++ a.stamp ++ lit ".hdf5" =
          a.defaultFile before.name := by
        simp [SaveArgs.defaultFile, List.append_assoc]
      rw [this]
      exact hsave (hbin m (comparedWith_of hm))

/-- **C123, negation: the given name.** When no limit is found, the file the user asked for is not
written: it is as before the call, or still missing. -/
theorem c123_given_name_negation (scales : List ℝ) (sigmas : List (Option ℝ))
    (fit : Option ℝ → Except PyErr FitOut) (minStat : Option (List ℝ)) (limit : ℝ)
    (he : getLimit scales sigmas fit minStat limit = .error .limitError) (a : SaveArgs)
    (ha : a.spectra = false) (before : FullLimit) (hb : Saveable before scales.length)
    (binShape : List ℕ) (hbin : ∀ m, ComparedWith fit minStat m → m.length = binShape.prod)
    (best : Option ℝ → List ℝ) (disk : Disk) (f : PyStr)
    (hne : f ≠ a.dir ++ lit "/" ++ before.name ++ lit "_" ++ a.stamp ++ lit ".hdf5") :
    (getLimitSaving scales sigmas fit minStat limit { a with fname := some f } before binShape best
      disk).1 f = disk f := by
  rcases (c123_no_limit scales sigmas fit minStat limit _ he { a with fname := some f } ha before hb
    binShape hbin best disk).2 with ⟨-, h⟩ | ⟨-, -, m, -, h, -⟩
  · rw [h]
  · exact h f hne

/-- **C123, negation: spectra.** Asked to store the spectra, `get_limit` never returns a limit. If
there is one, it raises a `TypeError` after saving the results. -/
theorem c123_spectra_negation (scales : List ℝ) (sigmas : List (Option ℝ))
    (fit : Option ℝ → Except PyErr FitOut) (minStat : Option (List ℝ)) (limit : ℝ) (a : SaveArgs)
    (ha : a.spectra = true) (before : FullLimit) (hb : Saveable before scales.length)
    (binShape : List ℕ) (best : Option ℝ → List ℝ) (disk : Disk) :
    (∀ x, (getLimitSaving scales sigmas fit minStat limit a before binShape best disk).2 ≠ .ok x) ∧
    ∀ x, getLimit scales sigmas fit minStat limit = .ok x →
      (getLimitSaving scales sigmas fit minStat limit a before binShape best disk).2 =
        .error .typeError := by
  have hbind : bindCall dumpParams 2 2 [lit "append", lit "group_name"] = .error .typeError := by
    decide
  rcases getLimitSaving_cases scales sigmas fit minStat limit a before binShape best disk with
    ⟨e, he, -, h⟩ | ⟨m, rows, hm, hrows, ⟨y, hy, h⟩ | ⟨he, h⟩⟩
  · rw [h, he]
    exact ⟨fun x h => (by cases h), fun x h => (by cases h)⟩
  · have e1 : (saveFound a disk (recordRows before binShape best scales rows)).2 =
        .error .typeError := by
      obtain ⟨d, hd, -⟩ := dumpLimitAt_saved hb binShape best hrows disk (a.limitFile before.name)
      have : (recordRows before binShape best scales rows).name = before.name := rfl
      cases hl : a.limit <;> simp [saveFound, hl, ha, this, hd, hbind]
    rw [h (by rw [e1]; simp), e1]
    exact ⟨fun x h => (by cases h), fun x _ => rfl⟩
  · rw [h, he]
    refine ⟨fun x => ?_, fun x h => (by cases h)⟩
    dsimp only
    split <;> simp

/-- A fit whose statistic is the scaling. -/
def exScaleFit : Option ℝ → Except PyErr FitOut
  | none => .ok ⟨[0], []⟩
  | some x => .ok ⟨[x], []⟩

/-- The hypotheses hold for two scalings, with a threshold that is reached and one that is not. -/
example : getLimit [1, 2] [] exScaleFit none (3 / 2) = .ok 2 ∧
    getLimit [1, 2] [] exScaleFit none 5 = .error .limitError ∧
    Saveable Ex.limit ([1, 2] : List ℝ).length ∧
    (∀ m, ComparedWith exScaleFit none m → m.length = ([] : List ℕ).prod) := by
  have c1 : ¬ npCloseReal 1 0 := by unfold npCloseReal; norm_num
  have c2 : ¬ npCloseReal 2 0 := by unfold npCloseReal; norm_num
  refine ⟨?_, ?_, ⟨Ex.search_ok.2, exGlobal_loadable, exGlobal_order, Ex.limit_rate,
    Ex.limit_ok.rate, rfl⟩, ?_⟩
  · norm_num [getLimit, minStatOf, exScaleFit, Except.map, bind, Except.bind, List.mapM_cons,
      limitRow, signalAt, c1, c2, setRow, pure, Except.pure, npArgmin, argminAux, readLimit,
      List.findIdx?_cons]
  · norm_num [getLimit, minStatOf, exScaleFit, Except.map, bind, Except.bind, List.mapM_cons,
      limitRow, signalAt, c1, c2, setRow, pure, Except.pure, npArgmin, argminAux, readLimit,
      List.findIdx?_cons, npArgmax]
  · rintro m (⟨x, -, h, -⟩ | ⟨-, o, h, rfl⟩)
    · cases h
    · cases h
      rfl

end Verif
