import Verif.Lemmas.FitFrame
import Verif.Spec.FitExamples
import Mathlib.Tactic.NormNum

/-! # C65: the penalty of a fit -/

namespace Verif

theorem penalty_eq_pull {st : Stat} {v p s : ℝ} (hs : s ≠ 0) :
    st.penalty v p s = .ok (pull st v p s) := by
  unfold Stat.penalty pull
  rw [if_neg hs]
  cases st <;> simp
  norm_num

/-- One round of the penalty loop. -/
noncomputable def penaltyStep (st : Stat) (total : ℝ) (p : Param) : Except PyErr ℝ :=
  match p.value with
  | none => .error .valueError
  | some v =>
    match p.sigma with
    | none => .ok total
    | some sigma => do
      let t ← st.penalty v p.prior sigma
      .ok (total + t)

theorem totalPenalty_eq (st : Stat) (ps : List Param) :
    totalPenalty st ps = ps.foldlM (penaltyStep st) 0 := rfl

theorem penaltyStep_ok {st : Stat} {p : Param} {v : ℚ} {x : ℝ} (hv : p.value = some v)
    (hs : p.sigma ≠ some 0) : penaltyStep st x p = .ok (x + penaltyOf st p v) := by
  unfold penaltyStep penaltyOf
  rw [hv]
  cases hsig : p.sigma with
  | none => simp
  | some s =>
    have h0 : s ≠ 0 := by rintro rfl; exact hs hsig
    simp only [penalty_eq_pull h0]
    rfl

theorem foldlM_penalty {st : Stat} {ps : List Param} {vs : List ℚ}
    (h : List.Forall₂ (fun p v => p.value = some v ∧ p.sigma ≠ some 0) ps vs) (x : ℝ) :
    ps.foldlM (penaltyStep st) x = .ok (x + (List.zipWith (penaltyOf st) ps vs).sum) := by
  induction h generalizing x with
  | nil => simp; rfl
  | cons hpv _ ih =>
    rw [List.foldlM_cons, penaltyStep_ok hpv.1 hpv.2]
    simp only [bind, Except.bind]
    rw [ih, List.zipWith_cons_cons, List.sum_cons, add_assoc]

/-- **C65, the sum.** The total penalty is the sum of the pulls of the parameters that have a
sigma, each at its current value. -/
theorem c65_sum (st : Stat) (ps : List Param) (vs : List ℚ)
    (h : List.Forall₂ (fun p v => p.value = some v ∧ p.sigma ≠ some 0) ps vs) :
    totalPenalty st ps = .ok (List.zipWith (penaltyOf st) ps vs).sum := by
  rw [totalPenalty_eq, foldlM_penalty h, zero_add]

/-- **C65, no contribution.** Parameters without sigma can be left out. -/
theorem c65_without_sigma (st : Stat) (ps : List Param) (h : ∀ p ∈ ps, p.value ≠ none) :
    totalPenalty st ps = totalPenalty st (ps.filter (fun p => p.sigma.isSome)) := by
  rw [totalPenalty_eq, totalPenalty_eq]
  generalize (0 : ℝ) = x
  induction ps generalizing x with
  | nil => rfl
  | cons p ps ih =>
    have ih := ih fun q hq => h q (List.mem_cons_of_mem _ hq)
    cases hs : p.sigma with
    | none =>
      rw [List.filter_cons_of_neg (by simp [hs]), ← ih, List.foldlM_cons]
      obtain ⟨v, hv⟩ := Option.ne_none_iff_exists'.1 (h p List.mem_cons_self)
      have : penaltyStep st x p = .ok x := by unfold penaltyStep; rw [hv]; simp only [hs]
      rw [this]; rfl
    | some s =>
      rw [List.filter_cons_of_pos (by simp [hs]), List.foldlM_cons, List.foldlM_cons]
      cases hp : penaltyStep st x p with
      | error e => rfl
      | ok y => exact ih y

/-- **C65, errors.** A parameter without a value is a `ValueError`, a zero sigma divides by
zero, when the parameters before it are fine. -/
theorem c65_errors (st : Stat) (pre post : List Param) (p : Param) (vs : List ℚ)
    (h : List.Forall₂ (fun p v => p.value = some v ∧ p.sigma ≠ some 0) pre vs) :
    (p.value = none → totalPenalty st (pre ++ p :: post) = .error .valueError) ∧
    (p.value ≠ none → p.sigma = some 0 →
      totalPenalty st (pre ++ p :: post) = .error .zeroDivision) := by
  have key : ∀ e, (∀ x, penaltyStep st x p = .error e) →
      totalPenalty st (pre ++ p :: post) = .error e := by
    intro e he
    rw [totalPenalty_eq, List.foldlM_append, foldlM_penalty h]
    simp only [bind, Except.bind, List.foldlM_cons, he]
  refine ⟨fun hv => key _ fun x => by unfold penaltyStep; rw [hv], fun hv hs => key _ fun x => ?_⟩
  obtain ⟨v, hv⟩ := Option.ne_none_iff_exists'.1 hv
  unfold penaltyStep
  rw [hv]
  simp [hs, Stat.penalty, bind, Except.bind]

/-- **C65, in an evaluation.** Whenever an evaluation succeeds, the penalty it returns is the sum
of the pulls at the values passed to it, whatever values the parameters had before. -/
theorem c65_evaluation (env : FitEnv) (f : Fit) (args : List ℚ) (st st' : FitState)
    (hn : f.pars.Nodup) (hl : args.length = f.pars.length)
    (r : StatValue × Option (List ℕ)) (penalty : ℝ)
    (h : funct env f args st = (st', .ok (r, penalty))) :
    penalty = (List.zipWith (penaltyOf f.stat) (f.pars.map st.params) args).sum := by
  rcases hfl : f.floating with _ | fl
  · rw [funct_none hfl] at h; cases h
  · rw [funct_some hfl, FitM.bind_ok (setValues_ok _ _ hl.le st)] at h
    have hk := keepsParams_contents env f fl
      { st with params := withValues f.pars args st.params }
    rcases hc : contents env f fl { st with params := withValues f.pars args st.params } with
      ⟨st1, c | c⟩
    · rw [FitM.bind_error hc] at h; cases h
    · rw [FitM.bind_ok hc, FitM.read_bind, FitM.read_bind] at h
      rw [hc] at hk
      dsimp only at hk
      rw [hk, withValues_map hn hl] at h
      unfold evaluate at h
      split at h
      · cases h
      · simp only [FitM.lift, bind, Except.bind] at h
        split at h
        · cases h
        · split at h
          · cases h
          · rename_i x hpen
            have hres : penalty = x := by
              revert h
              generalize reshapeStat _ _ _ = q
              intro h
              cases q with
              | error e => cases h
              | ok q => cases h; rfl
            subst hres
            have hsig : ∀ (ps : List Param) (y z : ℝ), ps.foldlM (penaltyStep f.stat) y = .ok z →
                ∀ p ∈ ps, p.sigma ≠ some 0 := by
              intro ps
              induction ps with
              | nil => intro _ _ _ p hp; cases hp
              | cons p ps ih =>
                intro y z hz q hq
                rw [List.foldlM_cons] at hz
                cases hp : penaltyStep f.stat y p with
                | error e => rw [hp] at hz; cases hz
                | ok w =>
                  rw [hp] at hz
                  rcases List.mem_cons.1 hq with rfl | hq
                  · intro h0
                    unfold penaltyStep at hp
                    split at hp
                    · cases hp
                    · simp [h0, Stat.penalty, bind, Except.bind] at hp
                  · exact ih w z hz q hq
            have hs := hsig _ _ _ (totalPenalty_eq .. ▸ hpen)
            have hF : List.Forall₂ (fun (p : Param) (v : ℚ) => p.value = some v ∧ p.sigma ≠ some 0)
                (List.zipWith (fun p v => { st.params p with value := some v }) f.pars args)
                args := by
              clear * - hs hl
              generalize f.pars = ps at hs hl
              induction ps generalizing args with
              | nil => cases args with
                | nil => exact .nil
                | cons _ _ => simp at hl
              | cons p ps ih =>
                cases args with
                | nil => simp at hl
                | cons v args =>
                  rw [List.zipWith_cons_cons] at hs ⊢
                  exact .cons ⟨rfl, hs _ List.mem_cons_self⟩
                    (ih _ (fun q hq => hs q (List.mem_cons_of_mem _ hq)) (by simpa using hl))
            rw [c65_sum _ _ _ hF] at hpen
            cases hpen
            clear * - hl
            congr 1
            generalize f.pars = ps at hl
            induction ps generalizing args with
            | nil => cases args <;> rfl
            | cons p ps ih =>
              cases args with
              | nil => rfl
              | cons v args =>
                simp only [List.zipWith_cons_cons, List.map_cons]
                rw [ih _ (by simpa using hl)]
                rfl

/-- **C65, too many values.** More values than parameters are an `IndexError`. -/
theorem c65_too_many (env : FitEnv) (f : Fit) (args : List ℚ) (st : FitState)
    (hf : f.floating ≠ none) (hl : f.pars.length < args.length) :
    (funct env f args st).2 = .error .indexError := by
  obtain ⟨fl, hfl⟩ := Option.ne_none_iff_exists'.1 hf
  rw [funct_some hfl]
  have := setValues_many f.pars args hl st
  rcases hs : setValues f.pars args st with ⟨st', a | a⟩
  · rw [hs] at this
    simp only at this
    cases this
    simp only [FitM.bind_error hs]
  · rw [hs] at this; cases this

/-! ### cases that meet the hypotheses -/

theorem ex_contents_shapes :
    (contents Ex.fitEnv Ex.fit [(2, [lit "energy_mc"]), (3, [lit "energy_mc"])]
      { Ex.fitState with params := withValues [0, 1] [20, 5] Ex.fitState.params }).2.toOption.map
        (fun c => (c.1.shape, c.2.map NdArray.shape)) = some ([4], some [4]) := by
  decide +kernel

theorem flatten_vals_length (b : Bool) (a : NdArray ℚ) :
    (flatten b a).vals.length = if b then 1 else a.shape.prod := by
  unfold flatten
  cases b
  · simp only [List.length_map, Bool.false_eq_true, if_false]
    generalize a.shape = s
    induction s with
    | nil => simp [allIdx]
    | cons n s ih => simp [allIdx, ih, List.length_flatMap]
  · rfl

theorem evaluate_total {f : Fit} {ps : List Param} {vs : List ℚ} {shape : List ℕ}
    {obs exp : NdArray ℚ} (hb : f.statPerBin = false) (hp : f.perBin = false)
    (hs : obs.shape = exp.shape)
    (h : List.Forall₂ (fun p v => p.value = some v ∧ p.sigma ≠ some 0) ps vs) :
    ∃ v, evaluate f ps shape (obs, some exp) =
      .ok ((.total v, none), (List.zipWith (penaltyOf f.stat) ps vs).sum) := by
  have hlen : (flatten f.singleBin obs).vals.length = (flatten f.singleBin exp).vals.length := by
    rw [flatten_vals_length, flatten_vals_length, hs]
  have hdim : ∀ a, (flatten f.singleBin a).shape.length = 1 := by
    intro a; unfold flatten; cases f.singleBin <;> rfl
  have hstat : ∃ o v, f.stat.computeStatistic f.statPerBin (flatten f.singleBin obs)
      (flatten f.singleBin exp) = .ok o ∧ o.value = .total v := by
    unfold Stat.computeStatistic
    rw [if_neg (by rw [hdim]; simp), if_neg (by rw [hdim]; simp), if_neg (by simp [hlen]), hb]
    exact ⟨_, _, rfl, rfl⟩
  obtain ⟨o, v, ho, hv⟩ := hstat
  refine ⟨v, ?_⟩
  unfold evaluate
  simp only [ho, bind, Except.bind, c65_sum _ _ _ h, reshapeStat, hp, hv]
  rfl

/-- An evaluation at the rates 20 and 5: the first rate is five sigmas off, the second one has
no sigma. -/
example : ∃ st' r, funct Ex.fitEnv Ex.fit [20, 5] Ex.fitState = (st', .ok (r, 25)) := by
  have hsh := ex_contents_shapes
  rw [funct_some (f := Ex.fit) rfl, FitM.bind_ok (setValues_ok _ _ (by simp [Ex.fit]) _)]
  have hp : Ex.fit.pars = [0, 1] := rfl
  rw [hp]
  rcases hc : contents Ex.fitEnv Ex.fit [(2, [lit "energy_mc"]), (3, [lit "energy_mc"])]
      { Ex.fitState with params := withValues [0, 1] [20, 5] Ex.fitState.params } with
    ⟨st1, c | c⟩
  · rw [hc] at hsh; cases hsh
  · rw [hc] at hsh
    obtain ⟨obs, exp⟩ := c
    simp only [Except.toOption, Option.map_some, Option.some.injEq, Prod.mk.injEq] at hsh
    obtain ⟨h1, h2⟩ := hsh
    cases exp with
    | none => cases h2
    | some exp =>
      simp only [Option.map_some, Option.some.injEq] at h2
      have hk := keepsParams_contents Ex.fitEnv Ex.fit
        [(2, [lit "energy_mc"]), (3, [lit "energy_mc"])]
        { Ex.fitState with params := withValues [0, 1] [20, 5] Ex.fitState.params }
      rw [hc] at hk
      dsimp only at hk
      rw [FitM.bind_ok hc, FitM.read_bind, FitM.read_bind, hk,
        withValues_map (by decide) (by rfl)]
      obtain ⟨r, hr⟩ := evaluate_total (f := Ex.fit) (shape := (st1.view Ex.fit.data).data.shape)
        (ps := List.zipWith (fun p v => { Ex.fitState.params p with value := some v }) [0, 1]
          [20, 5]) (vs := [20, 5]) rfl rfl (h1.trans h2.symm)
        (.cons ⟨rfl, by simp [Ex.fitState, Ex.fitParam]⟩
          (.cons ⟨rfl, by simp [Ex.fitState, Ex.fitParam]⟩ .nil))
      refine ⟨st1, (.total r, none), ?_⟩
      rw [hr]
      have : (List.zipWith (penaltyOf Ex.fit.stat)
          (List.zipWith (fun p v => { Ex.fitState.params p with value := some v }) [0, 1] [20, 5])
          [20, 5]).sum = 25 := by
        simp [Ex.fitState, Ex.fitParam, penaltyOf, pull, Ex.fit]
        norm_num
      rw [this]
      rfl

example := c65_sum .bcLL [⟨.rate, lit "rate", none, 10, some 2, some 20⟩,
  ⟨.rate, lit "rate", none, 10, none, some 5⟩] [20, 5]
  (.cons ⟨rfl, by simp⟩ (.cons ⟨rfl, by simp⟩ .nil))
example := c65_errors .bcLL [⟨.rate, lit "rate", none, 10, some 2, some 20⟩] []
  ⟨.rate, lit "rate", none, 10, some 0, some 5⟩ [20] (.cons ⟨rfl, by simp⟩ .nil)
example := c65_too_many Ex.fitEnv Ex.fit [1, 2, 3] Ex.fitState (by simp [Ex.fit])
  (by simp [Ex.fit])

end Verif
