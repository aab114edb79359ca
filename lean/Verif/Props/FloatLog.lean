import Verif.Lemmas.FloatStatLog
import Verif.Props.FloatStat
import Verif.Props.TestStatistic

/-!
# C149: statistics with logarithms in floating point arithmetic

The Baker-Cousins statistics and the extended likelihood are differences of larger numbers, in which
digits cancel: what is computed is off by a few roundings of these numbers, however small the statistic
is.
-/

namespace Verif

open Real

variable {R : Rounding}

theorem logUpTo_nonneg {w : ℝ} {lg : ℚ → ℚ} (h : LogUpTo w lg) : 0 ≤ w := by
  have h2 := h 2 (by norm_num)
  have hp : 0 < |log ((2 : ℚ) : ℝ)| := by
    rw [abs_pos]
    push_cast
    exact (log_pos one_lt_two).ne'
  by_contra hw
  have := mul_neg_of_neg_of_pos (not_le.1 hw) hp
  linarith [abs_nonneg ((lg 2 : ℝ) - log ((2 : ℚ) : ℝ))]

theorem sum_zipWith {α β : Type} (f : α → β → ℝ) (a : List α) (b : List β) :
    (List.zipWith f a b).sum = ((a.zip b).map fun x => f x.1 x.2).sum := by
  rw [List.map_zip_eq_zipWith]; rfl

theorem stat_error {w : ℝ} {lg : ℚ → ℚ} (hlg : LogUpTo w lg) (hw : w ≤ 1 / 100) {tot : List ℚ → ℚ}
    (ht : R.Totals tot) {st : Stat} (hp : st ≠ .pearson) (hy : st ≠ .neyman) {obs exp : List ℚ}
    (hl : obs.length = exp.length) (ho : ∀ x ∈ obs, Content x) (he : ∀ x ∈ exp, Content x)
    (hn : (obs.length + 6) * (R.u : ℝ) ≤ 1 / 100) :
    |(R.computeStat lg tot st obs exp : ℝ) -
      (st.compute (obs.map (fun x : ℚ => (x : ℝ))) (exp.map (fun x : ℚ => (x : ℝ)))).value| ≤
        (2 * w + (3 * obs.length + 8) * R.u) * statSize st obs exp ∧
    |(st.compute (obs.map (fun x : ℚ => (x : ℝ))) (exp.map (fun x : ℚ => (x : ℝ)))).value| ≤
      statSize st obs exp := by
  have hw0 := logUpTo_nonneg hlg
  have h0 : (0 : ℝ) ≤ R.u := by exact_mod_cast R.u_nonneg
  have hN : (0 : ℝ) ≤ obs.length := Nat.cast_nonneg _
  have hNu : (0 : ℝ) ≤ obs.length * R.u := mul_nonneg hN h0
  have hzl : (obs.zip exp).length = obs.length := by rw [List.length_zip, hl, min_self]
  have hz : ∀ b ∈ obs.zip exp, Content b.1 ∧ Content b.2 := fun b hb =>
    ⟨ho _ (List.of_mem_zip hb).1, he _ (List.of_mem_zip hb).2⟩
  have hsz : ∀ b ∈ obs.zip exp, 0 ≤ binSize b.1 b.2 := fun b hb =>
    Rounding.binSize_nonneg' (Rounding.content_nonneg (hz b hb).1)
  set a : ℝ := w + (2 * obs.length + 6) * R.u with ha
  have ha0 : 0 ≤ a := by positivity
  have ha1 : a ≤ 1 / 10 := by rw [ha]; linarith
  have hfin : a + R.u * (1 + a) ≤ 2 * w + (3 * obs.length + 8) * R.u := by
    have : (R.u : ℝ) * a ≤ R.u * (1 / 10) := mul_le_mul_of_nonneg_left ha1 h0
    rw [ha] at this ⊢
    linarith
  have hle : a ≤ 2 * w + (3 * obs.length + 8) * R.u := by
    have : 0 ≤ (R.u : ℝ) * (1 + a) := by positivity
    linarith
  -- the Baker-Cousins classes
  have twice : ∀ (F : ℚ) (S s t : ℝ), |(F : ℝ) - S| ≤ a * s → |S| ≤ s → s ≤ t →
      |(R.mul 2 F : ℝ) - 2 * S| ≤ (2 * w + (3 * obs.length + 8) * R.u) * (2 * t) ∧ |2 * S| ≤ 2 * t := by
    intro F S s t h1 h2 h3
    have hs : 0 ≤ s := (abs_nonneg _).trans h2
    have e1 : |((2 * F : ℚ) : ℝ) - 2 * S| ≤ a * (2 * s) := by
      push_cast
      rw [← mul_sub, abs_mul, abs_two]
      linarith
    have e2 : |2 * S| ≤ 2 * s := by rw [abs_mul, abs_two]; linarith
    refine ⟨(R.rnd_error e1 e2).trans ?_, by linarith⟩
    exact mul_le_mul hfin (by linarith) (by positivity) (by positivity)
  have hbc : ∀ p : ℚ × ℚ → Bool,
      |(((((obs.zip exp).filter p).map fun b => R.bakerCousinsBin lg b.1 b.2).foldl R.add 0 : ℚ) : ℝ) -
        (((obs.zip exp).filter p).map fun b => Verif.bakerCousinsBin (b.1 : ℝ) (b.2 : ℝ)).sum| ≤
          a * (((obs.zip exp).filter p).map fun b => binSize b.1 b.2).sum ∧
      |(((obs.zip exp).filter p).map fun b => Verif.bakerCousinsBin (b.1 : ℝ) (b.2 : ℝ)).sum| ≤
        (((obs.zip exp).filter p).map fun b => binSize b.1 b.2).sum ∧
      (((obs.zip exp).filter p).map fun b => binSize b.1 b.2).sum ≤
        (List.zipWith binSize obs exp).sum := by
    intro p
    have hlen : (((obs.zip exp).filter p).length : ℝ) ≤ obs.length := by
      rw [← hzl]
      exact_mod_cast List.length_filter_le _ _
    have hlu : (((obs.zip exp).filter p).length : ℝ) * R.u ≤ obs.length * R.u :=
      mul_le_mul_of_nonneg_right hlen h0
    obtain ⟨e1, e2⟩ := R.bc_total_error hlg hw0 hw ((obs.zip exp).filter p)
      (fun b hb => hz b (List.mem_of_mem_filter hb)) (by linarith)
    refine ⟨e1.trans (mul_le_mul_of_nonneg_right ?_ ((abs_nonneg _).trans e2)), e2, ?_⟩
    · rw [ha]; linarith
    · rw [sum_zipWith]
      have : ∀ l : List (ℚ × ℚ), (∀ b ∈ l, 0 ≤ binSize b.1 b.2) →
          ((l.filter p).map fun b => binSize b.1 b.2).sum ≤ (l.map fun b => binSize b.1 b.2).sum := by
        intro l
        induction l with
        | nil => intro _; simp
        | cons b l ih =>
          intro h
          have i1 := ih fun b hb => h b (List.mem_cons_of_mem _ hb)
          have i2 := h b List.mem_cons_self
          rw [List.filter_cons]
          split <;> simp only [List.map_cons, List.sum_cons] <;> linarith
      exact this _ hsz
  have hall : (obs.zip exp).filter (fun _ => true) = obs.zip exp := List.filter_true _
  have hloop : ∀ f : ℚ → ℚ → ℚ, R.loopTotal f obs exp =
      ((obs.zip exp).map fun b => f b.1 b.2).foldl R.add 0 := by
    intro f
    unfold Rounding.loopTotal
    rw [List.foldl_map]
  have hloop' : ∀ f : ℝ → ℝ → ℝ,
      Verif.loopTotal f (obs.map (fun x : ℚ => (x : ℝ))) (exp.map (fun x : ℚ => (x : ℝ))) =
        ((obs.zip exp).map fun b => f (b.1 : ℝ) (b.2 : ℝ)).sum := by
    intro f
    unfold Verif.loopTotal
    rw [Rounding.zip_cast, List.foldl_map, List.sum_eq_foldl, List.foldl_map]
  cases st with
  | pearson => exact absurd rfl hp
  | neyman => exact absurd rfl hy
  | bcChi =>
    obtain ⟨e1, e2, e3⟩ := hbc fun _ => true
    rw [hall] at e1 e2 e3
    simp only [Rounding.computeStat, Stat.compute, hloop, hloop', statSize]
    exact twice _ _ _ _ e1 e2 e3
  | bcLL =>
    obtain ⟨e1, e2, e3⟩ := hbc fun _ => true
    rw [hall] at e1 e2 e3
    simp only [Rounding.computeStat, Stat.compute, hloop, hloop', statSize]
    refine ⟨e1.trans ?_, e2.trans e3⟩
    exact mul_le_mul hle e3 ((abs_nonneg _).trans e2) (by positivity)
  | bcChiUp =>
    obtain ⟨e1, e2, e3⟩ := hbc fun b => ¬ b.2 < b.1
    have f1 := Rounding.foldl_if (fun b : ℚ × ℚ => b.2 < b.1) R.add
      (fun b => R.bakerCousinsBin lg b.1 b.2) (obs.zip exp) 0
    have f2 : ((obs.map (fun x : ℚ => (x : ℝ))).zip (exp.map (fun x : ℚ => (x : ℝ)))).foldl
        (fun total b => if b.2 < b.1 then total else total + Verif.bakerCousinsBin b.1 b.2) 0 =
        (((obs.zip exp).filter fun b => ¬ b.2 < b.1).map fun b =>
          Verif.bakerCousinsBin (b.1 : ℝ) (b.2 : ℝ)).sum := by
      rw [Rounding.zip_cast, List.foldl_map, List.sum_eq_foldl,
        ← Rounding.foldl_if (fun b : ℚ × ℚ => b.2 < b.1) (fun x y : ℝ => x + y)
          (fun b => Verif.bakerCousinsBin (b.1 : ℝ) (b.2 : ℝ))]
      simp only [Rat.cast_lt]
    simp only [Rounding.computeStat, Stat.compute, statSize]
    rw [f1, f2]
    exact twice _ _ _ _ e1 e2 e3
  | extLL =>
    have h1 : R.u ≤ 1 / 100 := by
      have : (R.u : ℝ) ≤ ((1 / 100 : ℚ) : ℝ) := by push_cast; linarith
      exact_mod_cast this
    have hobs0 : ∀ b ∈ obs.zip exp, (0 : ℝ) ≤ (b.1 : ℝ) := fun b hb => by
      exact_mod_cast Rounding.content_nonneg (hz b hb).1
    have e1 := R.fold_error (obs.zip exp) (fun b => R.mul b.1 (lg (R.clamp b.2)))
      (fun b => (b.1 : ℝ) * log (clampEps (b.2 : ℝ)))
      (fun b => (b.1 : ℝ) + b.1 * |log (clampEps (b.2 : ℝ))|) (c := w + 6 * R.u) (by linarith)
      (fun b hb => R.ext_error hlg hw0 hw h1 (hz b hb).1 (hz b hb).2)
      (fun b hb => by
        rw [abs_mul, abs_of_nonneg (hobs0 b hb)]
        linarith [hobs0 b hb]) (by rw [hzl]; linarith)
    have e2 := R.tot_error ht exp (fun x hx => Rounding.content_nonneg (he x hx))
      (by rw [← hl]; linarith)
    rw [hzl] at e1
    rw [← hl] at e2
    have hexp : exp = (obs.zip exp).map Prod.snd := by
      rw [← List.unzip_snd, List.unzip_zip hl]
    have e3 : (exp.map (fun x : ℚ => (x : ℝ))).sum =
        ((obs.zip exp).map fun b => (b.2 : ℝ)).sum := by
      conv_lhs => rw [hexp]
      rw [List.map_map]; rfl
    have e4 : ∀ l : List (ℚ × ℚ), (∀ b ∈ l, Content b.1 ∧ Content b.2) →
        0 ≤ (l.map fun b => (b.2 : ℝ)).sum ∧
        (l.map fun b => (b.2 : ℝ)).sum +
          (l.map fun b => (b.1 : ℝ) + b.1 * |log (clampEps (b.2 : ℝ))|).sum ≤
          (l.map fun b => extSize b.1 b.2).sum ∧
        |(l.map fun b => (b.1 : ℝ) * log (clampEps (b.2 : ℝ))).sum| ≤
          (l.map fun b => (b.1 : ℝ) + b.1 * |log (clampEps (b.2 : ℝ))|).sum := by
      intro l
      induction l with
      | nil => intro _; simp
      | cons b l ih =>
        intro h
        obtain ⟨i1, i2, i3⟩ := ih fun b hb => h b (List.mem_cons_of_mem _ hb)
        have k1 : (0 : ℝ) ≤ b.1 := by exact_mod_cast Rounding.content_nonneg (h b List.mem_cons_self).1
        have k2 : (0 : ℝ) ≤ b.2 := by exact_mod_cast Rounding.content_nonneg (h b List.mem_cons_self).2
        have k3 : clampEps (b.2 : ℝ) = max (b.2 : ℝ) (1 / 10 ^ 34) := by
          rw [Rounding.clampEps_cast, Rounding.clampQ_eq]
        have k4 : extSize b.1 b.2 =
            b.1 + max (b.2 : ℝ) (1 / 10 ^ 34) + b.1 * |log (clampEps (b.2 : ℝ))| := by
          rw [k3]; rfl
        have k5 := le_max_left (b.2 : ℝ) (1 / 10 ^ 34)
        simp only [List.map_cons, List.sum_cons]
        refine ⟨by linarith, by rw [k4]; linarith, ?_⟩
        refine (abs_add_le _ _).trans (add_le_add ?_ i3)
        rw [abs_mul, abs_of_nonneg k1]
        linarith
    obtain ⟨i1, i2, i3⟩ := e4 _ hz
    simp only [Rounding.computeStat, Stat.compute, hloop, hloop', statSize]
    rw [sum_zipWith]
    set T := ((obs.zip exp).map fun b => (b.1 : ℝ) * log (clampEps (b.2 : ℝ))).sum with hT
    set E := (exp.map (fun x : ℚ => (x : ℝ))).sum with hE
    set Q := ((obs.zip exp).map fun b => (b.1 : ℝ) + b.1 * |log (clampEps (b.2 : ℝ))|).sum with hQ
    set Z := ((obs.zip exp).map fun b => extSize b.1 b.2).sum with hZ
    set F := ((obs.zip exp).map fun b => R.mul b.1 (lg (R.clamp b.2))).foldl R.add 0 with hF
    rw [← e3] at i1 i2
    have hQ0 : 0 ≤ Q := (abs_nonneg _).trans i3
    have k1 : |((tot exp - F : ℚ) : ℝ) - (E - T)| ≤ a * Z := by
      push_cast
      have : (tot exp : ℝ) - F - (E - T) = ((tot exp : ℝ) - E) - (F - T) := by ring
      rw [this]
      refine (abs_sub _ _).trans ((add_le_add e2 e1).trans ?_)
      have m1 : 51 / 50 * (obs.length * (R.u : ℝ)) * E ≤ a * E :=
        mul_le_mul_of_nonneg_right (by rw [ha]; linarith) i1
      have m2 : (w + 6 * R.u + 2 * obs.length * (R.u : ℝ)) * Q = a * Q := by rw [ha]; ring
      have m3 : a * (E + Q) ≤ a * Z := mul_le_mul_of_nonneg_left i2 ha0
      rw [m2]
      linarith
    have k2 : |E - T| ≤ Z := by
      refine (abs_sub _ _).trans ?_
      rw [abs_of_nonneg i1]
      linarith
    exact ⟨(R.rnd_error k1 k2).trans (mul_le_mul_of_nonneg_right hfin ((abs_nonneg _).trans k2)), k2⟩

/-- **C149.** In floating point arithmetic, and with logarithms that are right up to the relative error
`w`, the Baker-Cousins statistics and the extended likelihood of `n` bins are off by at most `2 w` and
`3 n + 8` roundings of the sizes of the numbers they are computed from. -/
theorem c149_accuracy {w : ℝ} {lg : ℚ → ℚ} (hlg : LogUpTo w lg) (hw : w ≤ 1 / 100)
    {tot : List ℚ → ℚ} (ht : R.Totals tot) {st : Stat} (hp : st ≠ .pearson) (hy : st ≠ .neyman)
    {obs exp : List ℚ} (hl : obs.length = exp.length) (ho : ∀ x ∈ obs, Content x)
    (he : ∀ x ∈ exp, Content x) (hn : (obs.length + 6) * (R.u : ℝ) ≤ 1 / 100) :
    ∃ v S, R.computeStatistic lg tot st false obs exp = .ok (.inl v) ∧
      (st.computeStatistic false (floatArr obs) (floatArr exp)).map StatOut.value = .ok (.total S) ∧
      |(v : ℝ) - S| ≤ (2 * w + (3 * obs.length + 8) * R.u) * statSize st obs exp := by
  have hlen : ¬ (floatArr obs).vals.length ≠ (floatArr exp).vals.length := by
    simpa [floatArr] using hl
  refine ⟨_, _, ?_, ?_, (stat_error hlg hw ht hp hy hl ho he hn).1⟩
  · unfold Rounding.computeStatistic
    rw [if_neg (not_not.2 hl)]; rfl
  · unfold Stat.computeStatistic
    rw [if_neg (by simp [floatArr]), if_neg (by simp [floatArr]), if_neg hlen]; rfl

theorem bc_same {w : ℝ} {lg : ℚ → ℚ} (hlg : LogUpTo w lg) (h4 : R.u ≤ 1 / 4)
    (hbig : 1 ≤ R.big) {x : ℚ} (hx : Content x) (h0 : x ≠ 0) : R.bakerCousinsBin lg x x = 0 := by
  have h1 : lg 1 = 0 := by
    have := hlg 1 one_pos
    simpa using this
  have hc := (R.eps_lt h4 hx).1
  have hn : ¬ x < R.eps := fun h => h0 (hc.1 h)
  have hcl : R.clamp x = x := if_neg hn
  unfold Rounding.bakerCousinsBin
  dsimp only
  rw [hcl, if_neg hn]
  have hd : R.div x x = 1 := by
    unfold Rounding.div
    rw [div_self h0]
    exact_mod_cast R.int 1 (by simpa using hbig)
  rw [hd, h1]
  simp [Rounding.sub, Rounding.mul, Rounding.add, R.rnd_zero]

/-- **C149, agreement.** Where data and expectation agree, and in every bin there is something, the
Baker-Cousins statistics are exactly zero, in total and in every bin. -/
theorem c149_agreement {w : ℝ} {lg : ℚ → ℚ} (hlg : LogUpTo w lg) (h4 : R.u ≤ 1 / 4)
    (hbig : 1 ≤ R.big) {tot : List ℚ → ℚ} (ht : R.Totals tot) {st : Stat} (hst : st = .bcChi ∨ st = .bcChiUp ∨ st = .bcLL)
    {obs : List ℚ} (ho : ∀ x ∈ obs, Content x ∧ x ≠ 0) :
    R.computeStatistic lg tot st false obs obs = .ok (.inl 0) ∧
    R.computeStatistic lg tot st true obs obs = .ok (.inr (List.replicate obs.length 0)) := by
  have hbin : ∀ x ∈ obs, R.bakerCousinsBin lg x x = 0 := fun x hx =>
    bc_same hlg h4 hbig (ho x hx).1 (ho x hx).2
  have hloop : R.loopTotal (R.bakerCousinsBin lg) obs obs = 0 := by
    unfold Rounding.loopTotal
    clear ho
    induction obs with
    | nil => rfl
    | cons x l ih =>
      rw [List.zip_cons_cons, List.foldl_cons, hbin x List.mem_cons_self]
      have : R.add 0 0 = 0 := by simp [Rounding.add, R.rnd_zero]
      rw [this]
      exact ih fun y hy => hbin y (List.mem_cons_of_mem _ hy)
  have hup : (obs.zip obs).foldl (fun total b => if b.2 < b.1 then total
      else R.add total (R.bakerCousinsBin lg b.1 b.2)) 0 = 0 := by
    clear ho hloop
    induction obs with
    | nil => rfl
    | cons x l ih =>
      rw [List.zip_cons_cons, List.foldl_cons, hbin x List.mem_cons_self]
      have : R.add 0 0 = 0 := by simp [Rounding.add, R.rnd_zero]
      rw [if_neg (lt_irrefl _), this]
      exact ih fun y hy => hbin y (List.mem_cons_of_mem _ hy)
  have hbins : List.zipWith (R.bakerCousinsBin lg) obs obs = List.replicate obs.length 0 := by
    clear ho hloop hup
    induction obs with
    | nil => rfl
    | cons x l ih =>
      rw [List.zipWith_cons_cons, hbin x List.mem_cons_self,
        ih fun y hy => hbin y (List.mem_cons_of_mem _ hy)]
      rfl
  have h2 : R.mul 2 0 = 0 := by simp [Rounding.mul, R.rnd_zero]
  have hbins2 : (List.zipWith (R.bakerCousinsBin lg) obs obs).map (R.mul 2) =
      List.replicate obs.length 0 := by
    rw [hbins, List.map_replicate, h2]
  have htot : tot (List.replicate obs.length 0) = 0 := by
    have := R.total_near ht (List.replicate obs.length 0)
    simpa using this
  have hcl : R.allClose 0 0 := by
    unfold Rounding.allClose
    have e1 : 0 ≤ R.rnd (1 / 10 ^ 8) := R.rnd_nonneg (by norm_num)
    have e3 : R.mul (R.rnd (1 / 10 ^ 5)) |0| = 0 := by simp [Rounding.mul, R.rnd_zero]
    rw [e3]
    have e4 : 0 ≤ R.add (R.rnd (1 / 10 ^ 8)) 0 := by
      unfold Rounding.add
      exact R.rnd_nonneg (by linarith)
    simpa [Rounding.sub, R.rnd_zero] using e4
  have hcompute : R.computeStat lg tot st obs obs = 0 := by
    rcases hst with rfl | rfl | rfl
    · simp only [Rounding.computeStat, hloop, h2]
    · simp only [Rounding.computeStat, hup, h2]
    · simp only [Rounding.computeStat, hloop]
  constructor
  · unfold Rounding.computeStatistic
    rw [if_neg (not_not.2 rfl)]
    simp only [Bool.false_eq_true, if_false, hcompute]
  · unfold Rounding.computeStatistic
    rw [if_neg (not_not.2 rfl), if_pos rfl]
    unfold Rounding.statBins
    rcases hst with rfl | rfl | rfl
    · dsimp only
      rw [hbins2, htot, hcompute, if_pos hcl]; rfl
    · dsimp only
      rw [hbins2, htot, hcompute, if_pos hcl]; rfl
    · dsimp only
      rw [hbins]; rfl

/-- **C149, choices.** Models for the same data are judged by the sum of the statistic and `m` penalty
terms. The computed sum is off by at most `2 w` and `3 n + 2 m + 16` roundings of the sizes of the
numbers in it, `n` being the number of bins; a model that is not worse than another one by the computed
sums is not worse by more than both errors. -/
theorem c149_best {w : ℝ} {lg : ℚ → ℚ} (hlg : LogUpTo w lg) (hw : w ≤ 1 / 100)
    {tot : List ℚ → ℚ} (ht : R.Totals tot) {st : Stat} (hp : st ≠ .pearson) (hy : st ≠ .neyman)
    {obs : List ℚ} (ho : ∀ x ∈ obs, Content x) {ι : Type} (exp : ι → List ℚ)
    (hl : ∀ i, obs.length = (exp i).length) (he : ∀ i, ∀ x ∈ exp i, Content x)
    (pars : ι → List (ℚ × ℚ × ℚ)) {m : ℕ} (hm : ∀ i, (pars i).length = m)
    (hs : ∀ i, ∀ p ∈ pars i, p.2.2 ≠ 0) (hn : (obs.length + m + 6) * (R.u : ℝ) ≤ 1 / 100) :
    ∃ (a : ι → ℚ) (A P : ι → ℝ),
      (∀ i, R.judged lg tot st obs (exp i) (pars i) = .ok (a i)) ∧
      (∀ i, judgedExactly st obs (exp i) (pars i) = .ok (A i + P i)) ∧
      (∀ i, judgedExactly st obs (exp i) [] = .ok (A i)) ∧
      (∀ i, |(a i : ℝ) - (A i + P i)| ≤
        (2 * w + (3 * obs.length + 2 * m + 16) * R.u) * (statSize st obs (exp i) + P i)) ∧
      ∀ i j, a i ≤ a j → A i + P i ≤ A j + P j +
        (2 * w + (3 * obs.length + 2 * m + 16) * R.u) *
          ((statSize st obs (exp i) + P i) + (statSize st obs (exp j) + P j)) := by
  have hw0 := logUpTo_nonneg hlg
  have h0 : (0 : ℝ) ≤ R.u := by exact_mod_cast R.u_nonneg
  have hNu : (0 : ℝ) ≤ obs.length * R.u := by positivity
  have hMu : (0 : ℝ) ≤ m * R.u := by positivity
  have h6 : (R.u : ℝ) ≤ 1 / 600 := by linarith
  have h4 : R.u ≤ 1 / 4 := by
    have : (R.u : ℝ) ≤ ((1 / 4 : ℚ) : ℝ) := by push_cast; linarith
    exact_mod_cast this
  have h1 : R.u ≤ 1 := by linarith
  have key : ∀ i, ∃ (a : ℚ) (A P : ℝ), R.judged lg tot st obs (exp i) (pars i) = .ok a ∧
      judgedExactly st obs (exp i) (pars i) = .ok (A + P) ∧
      judgedExactly st obs (exp i) [] = .ok A ∧
      |(a : ℝ) - (A + P)| ≤
        (2 * w + (3 * obs.length + 2 * m + 16) * R.u) * (statSize st obs (exp i) + P) := by
    intro i
    obtain ⟨e1, e2⟩ := stat_error hlg hw ht hp hy (hl i) ho (he i) (by linarith)
    obtain ⟨ps, f1, f2, f3, f4⟩ := penalties_rel (R := R) h4 st (pars i) (hs i)
    have f5 := penalties_total h1 ps f4 6 0 0 (le_refl _)
      ((Rounding.Rel.refl (le_refl _)).mono R.u_nonneg h1 (by omega))
    rw [f3, hm i, zero_add] at f5
    set p := (ps.map Prod.fst).foldl R.add 0 with hpdef
    set P := (ps.map Prod.snd).sum with hPdef
    set A := (st.compute (obs.map (fun x : ℚ => (x : ℝ)))
      ((exp i).map (fun x : ℚ => (x : ℝ)))).value with hA
    set v := R.computeStat lg tot st obs (exp i) with hv
    set s := statSize st obs (exp i) with hsdef
    have hlen : ¬ (floatArr obs).vals.length ≠ (floatArr (exp i)).vals.length := by
      simpa [floatArr] using hl i
    have hc : ∃ o e, st.computeStatistic false (floatArr obs) (floatArr (exp i)) =
        .ok ⟨.total A, o, e⟩ := by
      refine ⟨(st.compute (floatArr obs).vals (floatArr (exp i)).vals).observed,
        (st.compute (floatArr obs).vals (floatArr (exp i)).vals).expected, ?_⟩
      unfold Stat.computeStatistic
      rw [if_neg (by simp [floatArr]), if_neg (by simp [floatArr]), if_neg hlen]
      rfl
    obtain ⟨o, e, hc⟩ := hc
    refine ⟨R.add v p, A, (P : ℝ), ?_, ?_, ?_, ?_⟩
    · unfold Rounding.judged Rounding.computeStatistic
      rw [if_neg (not_not.2 (hl i))]
      simp only [bind, Except.bind, f1, Bool.false_eq_true, if_false]
      rfl
    · unfold judgedExactly
      simp only [bind, Except.bind, hc, f2]
      congr 2
      rw [Rat.cast_list_sum, List.map_map]
      rfl
    · unfold judgedExactly
      simp only [bind, Except.bind, hc, List.mapM_nil, pure, Except.pure, List.sum_nil, add_zero]
    · -- the penalties
      have hP0 : (0 : ℝ) ≤ P := by exact_mod_cast f5.right
      have hp0 : (0 : ℝ) ≤ p := by exact_mod_cast f5.left
      have hb : 1 - ((m : ℝ) + 6) * R.u ≤ (1 - (R.u : ℝ)) ^ (6 + m) := by
        have := one_add_mul_le_pow (a := -(R.u : ℝ)) (by linarith) (6 + m)
        push_cast at this
        rw [show (1 : ℝ) + -(R.u : ℝ) = 1 - R.u by ring] at this
        linarith
      have g1 : (1 - (R.u : ℝ)) ^ (6 + m) * P ≤ p := by exact_mod_cast f5.lower
      have g2 : (1 - (R.u : ℝ)) ^ (6 + m) * p ≤ P := by exact_mod_cast f5.upper
      set x : ℝ := ((m : ℝ) + 6) * R.u with hx
      have hx0 : 0 ≤ x := by positivity
      have hx1 : x ≤ 1 / 100 := by rw [hx]; linarith
      have g3 : (1 - x) * P ≤ p := (mul_le_mul_of_nonneg_right hb hP0).trans g1
      have g4 : (1 - x) * p ≤ P := (mul_le_mul_of_nonneg_right hb hp0).trans g2
      have g5 : (p : ℝ) ≤ (1 + 51 / 50 * x) * P := by
        have c1 : 1 ≤ (1 - x) * (1 + 51 / 50 * x) := by nlinarith
        have c2 : (p : ℝ) * 1 ≤ p * ((1 - x) * (1 + 51 / 50 * x)) := mul_le_mul_of_nonneg_left c1 hp0
        have c3 : (1 + 51 / 50 * x) * ((1 - x) * p) ≤ (1 + 51 / 50 * x) * P :=
          mul_le_mul_of_nonneg_left g4 (by positivity)
        linarith
      have hxP : 0 ≤ x * P := mul_nonneg hx0 hP0
      have g6 : |(p : ℝ) - P| ≤ 51 / 50 * x * P := by
        rw [abs_le]
        constructor <;> linarith
      have hs0 : 0 ≤ s := (abs_nonneg _).trans e2
      have k1 : |((v + p : ℚ) : ℝ) - (A + P)| ≤
          (2 * w + (3 * obs.length + 8) * R.u + 51 / 50 * x) * (s + P) := by
        push_cast
        have : (v : ℝ) + p - (A + P) = (v - A) + (p - P) := by ring
        rw [this]
        refine (abs_add_le _ _).trans ((add_le_add e1 g6).trans ?_)
        have c1 : 0 ≤ (2 * w + (3 * obs.length + 8) * (R.u : ℝ)) * P := by positivity
        have c2 : 0 ≤ 51 / 50 * x * s := by positivity
        linarith
      have k2 : |A + P| ≤ s + P := by
        refine (abs_add_le _ _).trans ?_
        rw [abs_of_nonneg hP0]
        linarith
      refine (R.rnd_error k1 k2).trans (mul_le_mul_of_nonneg_right ?_ (by positivity))
      set y : ℝ := 2 * w + (3 * obs.length + 8) * R.u + 51 / 50 * x with hy'
      have hy1 : y ≤ 1 / 10 := by rw [hy', hx]; linarith
      have hy2 : (R.u : ℝ) * y ≤ R.u * (1 / 10) := mul_le_mul_of_nonneg_left hy1 h0
      have hy3 : y + R.u * (1 + y) = y + R.u + R.u * y := by ring
      rw [hy3]
      have hy4 : y ≤ 2 * w + (3 * obs.length + 2 * m + 74 / 5) * R.u := by rw [hy', hx]; linarith
      linarith
  choose a A P k1 k2 k3 k4 using key
  refine ⟨a, A, P, k1, k2, k3, k4, fun i j hij => ?_⟩
  have hij' : (a i : ℝ) ≤ a j := by exact_mod_cast hij
  have e1 := (abs_le.1 (k4 i)).1
  have e2 := (abs_le.1 (k4 j)).2
  rw [mul_add]
  linarith

theorem forall₂_zipWith {P : ℚ → ℝ → ℝ → Prop} {f : ℚ → ℚ → ℚ} {F : ℝ → ℝ → ℝ} {z : ℚ → ℚ → ℝ} :
    ∀ (obs exp : List ℚ), (∀ o ∈ obs, ∀ e ∈ exp, P (f o e) (F o e) (z o e)) →
    List.Forall₂ (fun (v : ℚ) (b : ℝ × ℝ) => P v b.1 b.2) (List.zipWith f obs exp)
      ((List.zipWith F (obs.map (fun x : ℚ => (x : ℝ))) (exp.map (fun x : ℚ => (x : ℝ)))).zip
        (List.zipWith z obs exp))
  | [], _, _ => .nil
  | _ :: _, [], _ => .nil
  | o :: obs, e :: exp, h => by
    simp only [List.zipWith_cons_cons, List.map_cons, List.zip_cons_cons]
    exact .cons (h o List.mem_cons_self e List.mem_cons_self) (forall₂_zipWith obs exp
      fun o ho e he => h o (List.mem_cons_of_mem _ ho) e (List.mem_cons_of_mem _ he))

theorem ext_bin_error {w : ℝ} {lg : ℚ → ℚ} (hlg : LogUpTo w lg) (hw : w ≤ 1 / 100)
    (h1 : R.u ≤ 1 / 100) {o e : ℚ} (ho : Content o) (he : Content e) :
    |(R.sub (R.clamp e) (R.mul o (lg (R.clamp e))) : ℝ) - Stat.extLL.cell o e| ≤
      (w + 8 * R.u) * extSize o e := by
  have hw0 := logUpTo_nonneg hlg
  have h4 : R.u ≤ 1 / 4 := by linarith
  have h0 : (0 : ℝ) ≤ R.u := by exact_mod_cast R.u_nonneg
  have h1' : (R.u : ℝ) ≤ 1 / 100 := by
    have : (R.u : ℝ) ≤ ((1 / 100 : ℚ) : ℝ) := Rat.cast_le.2 h1
    push_cast at this; exact this
  have ho' : (0 : ℝ) ≤ o := by exact_mod_cast Rounding.content_nonneg ho
  have k1 := R.ext_error hlg hw0 hw h1 ho he
  have k2 := R.clamp_near h4 he
  have hE : (Rounding.clampQ e : ℝ) = clampEps (e : ℝ) := (Rounding.clampEps_cast e).symm
  have hz : extSize o e = o + clampEps (e : ℝ) + o * |log (clampEps (e : ℝ))| := by
    rw [Rounding.clampEps_cast, Rounding.clampQ_eq]; rfl
  rw [hE] at k2
  have hEp : 0 < clampEps (e : ℝ) := clampEps_pos _
  set E := clampEps (e : ℝ) with hEdef
  set L := |log E| with hL
  have hL0 : 0 ≤ L := abs_nonneg _
  have k3 : |((R.clamp e - R.mul o (lg (R.clamp e)) : ℚ) : ℝ) - (E - o * log E)| ≤
      (w + 6 * R.u) * extSize o e := by
    push_cast
    have : (R.clamp e : ℝ) - R.mul o (lg (R.clamp e)) - (E - o * log E) =
        ((R.clamp e : ℝ) - E) - (R.mul o (lg (R.clamp e)) - o * log E) := by ring
    rw [this]
    refine (abs_sub _ _).trans ((add_le_add k2 k1).trans ?_)
    rw [hz]
    have c1 : 0 ≤ (w + 5 * R.u) * E := by positivity
    linarith
  have k4 : |E - o * log E| ≤ extSize o e := by
    refine (abs_sub _ _).trans ?_
    rw [abs_of_pos hEp, abs_mul, abs_of_nonneg ho', hz]
    linarith
  refine (R.rnd_error k3 k4).trans (mul_le_mul_of_nonneg_right ?_ ((abs_nonneg _).trans k4))
  have : (R.u : ℝ) * (w + 6 * R.u) ≤ R.u * (1 / 10) := mul_le_mul_of_nonneg_left (by linarith) h0
  linarith

theorem chi_bin_error {w : ℝ} {lg : ℚ → ℚ} (hlg : LogUpTo w lg) (hw : w ≤ 1 / 100)
    (h1 : R.u ≤ 1 / 100) {o e : ℚ} (ho : Content o) (he : Content e) :
    |(R.mul 2 (R.bakerCousinsBin lg o e) : ℝ) - 2 * bakerCousinsBin (o : ℝ) (e : ℝ)| ≤
      (w + 8 * R.u) * (2 * binSize o e) ∧
    |2 * bakerCousinsBin (o : ℝ) (e : ℝ)| ≤ 2 * binSize o e := by
  have hw0 := logUpTo_nonneg hlg
  have h0 : (0 : ℝ) ≤ R.u := by exact_mod_cast R.u_nonneg
  have h1' : (R.u : ℝ) ≤ 1 / 100 := by
    have : (R.u : ℝ) ≤ ((1 / 100 : ℚ) : ℝ) := Rat.cast_le.2 h1
    push_cast at this; exact this
  have k1 := R.bc_error hlg hw0 hw h1 ho he
  have k2 := Rounding.bc_size (e := e) ho
  have k3 : |((2 * R.bakerCousinsBin lg o e : ℚ) : ℝ) - 2 * bakerCousinsBin (o : ℝ) (e : ℝ)| ≤
      (w + 6 * R.u) * (2 * binSize o e) := by
    push_cast
    rw [← mul_sub, abs_mul, abs_two]
    linarith
  have k4 : |2 * bakerCousinsBin (o : ℝ) (e : ℝ)| ≤ 2 * binSize o e := by
    rw [abs_mul, abs_two]; linarith
  refine ⟨(R.rnd_error k3 k4).trans (mul_le_mul_of_nonneg_right ?_ ((abs_nonneg _).trans k4)), k4⟩
  have : (R.u : ℝ) * (w + 6 * R.u) ≤ R.u * (1 / 10) := mul_le_mul_of_nonneg_left (by linarith) h0
  linarith

/-- **C149, bins.** The values per bin are off by at most `w` and eight roundings of the sizes of the
numbers in the bin. `BakerCousinsChi` compares the sum of its bins with the total and raises a
`ValueError` if they differ; rounding errors do not make it do so as long as they are smaller than what
`numpy.allclose` tolerates, `1e-8`. (`BakerCousinsChiUp`: C36.) -/
theorem c149_bins {w : ℝ} {lg : ℚ → ℚ} (hlg : LogUpTo w lg) (hw : w ≤ 1 / 100)
    {tot : List ℚ → ℚ} (ht : R.Totals tot) {st : Stat}
    (hst : st = .bcLL ∨ st = .extLL ∨ st = .bcChi) {obs exp : List ℚ} (hl : obs.length = exp.length)
    (ho : ∀ x ∈ obs, Content x) (he : ∀ x ∈ exp, Content x)
    (hn : (obs.length + 6) * (R.u : ℝ) ≤ 1 / 100)
    (hc : st = .bcChi → (4 * w + (6 * obs.length + 20) * R.u) * statSize st obs exp ≤ 1 / 10 ^ 8) :
    ∃ vs Ss, R.computeStatistic lg tot st true obs exp = .ok (.inr vs) ∧
      st.PerBin (obs.map (fun x : ℚ => (x : ℝ))) (exp.map (fun x : ℚ => (x : ℝ))) Ss ∧
      Ss.length = obs.length ∧
      List.Forall₂ (fun (v : ℚ) (b : ℝ × ℝ) => |(v : ℝ) - b.1| ≤ (w + 8 * R.u) * b.2) vs
        (Ss.zip (List.zipWith (fun o e => statSize st [o] [e]) obs exp)) := by
  have hw0 := logUpTo_nonneg hlg
  have h0 : (0 : ℝ) ≤ R.u := by exact_mod_cast R.u_nonneg
  have hNu : (0 : ℝ) ≤ obs.length * R.u := by positivity
  have h1 : R.u ≤ 1 / 100 := by
    have : (R.u : ℝ) ≤ ((1 / 100 : ℚ) : ℝ) := by push_cast; linarith
    exact_mod_cast this
  have hl' : (obs.map (fun x : ℚ => (x : ℝ))).length = (exp.map (fun x : ℚ => (x : ℝ))).length := by
    simpa using hl
  have hlen : ∀ F : ℝ → ℝ → ℝ, (List.zipWith F (obs.map (fun x : ℚ => (x : ℝ)))
      (exp.map (fun x : ℚ => (x : ℝ)))).length = obs.length := by
    intro F; simp [hl]
  rcases hst with rfl | rfl | rfl
  · refine ⟨List.zipWith (R.bakerCousinsBin lg) obs exp, _, ?_,
      perBin_of hl' (fun h => by rcases h with h | h <;> cases h), hlen _, ?_⟩
    · unfold Rounding.computeStatistic
      rw [if_neg (not_not.2 hl)]; rfl
    · refine forall₂_zipWith (P := fun v S z => |(v : ℝ) - S| ≤ (w + 8 * R.u) * z) obs exp fun o hoo e hee => ?_
      have hz : statSize .bcLL [o] [e] = binSize o e := by simp [statSize]
      rw [hz]
      refine (R.bc_error hlg hw0 hw h1 (ho o hoo) (he e hee)).trans
        (mul_le_mul_of_nonneg_right (by linarith) (Rounding.binSize_nonneg'
          (Rounding.content_nonneg (ho o hoo))))
  · refine ⟨List.zipWith (fun o e => R.sub (R.clamp e) (R.mul o (lg (R.clamp e)))) obs exp, _, ?_,
      perBin_of hl' (fun h => by rcases h with h | h <;> cases h), hlen _, ?_⟩
    · unfold Rounding.computeStatistic
      rw [if_neg (not_not.2 hl)]; rfl
    · refine forall₂_zipWith (P := fun v S z => |(v : ℝ) - S| ≤ (w + 8 * R.u) * z) obs exp fun o hoo e hee => ?_
      have hz : statSize .extLL [o] [e] = extSize o e := by simp [statSize]
      rw [hz]
      exact ext_bin_error hlg hw h1 (ho o hoo) (he e hee)
  · have hexact : (List.zipWith Stat.bcChi.cell (obs.map (fun x : ℚ => (x : ℝ)))
        (exp.map (fun x : ℚ => (x : ℝ)))).sum =
        (Stat.bcChi.compute (obs.map (fun x : ℚ => (x : ℝ)))
          (exp.map (fun x : ℚ => (x : ℝ)))).value := by
      rw [compute_value _ hl', ← List.map_uncurry_zip_eq_zipWith]
      rfl
    have hstats : (List.zipWith (R.bakerCousinsBin lg) obs exp).map (R.mul 2) =
        List.zipWith (fun o e => R.mul 2 (R.bakerCousinsBin lg o e)) obs exp := List.map_zipWith ..
    have hz : ∀ b ∈ obs.zip exp, Content b.1 ∧ Content b.2 := fun b hb =>
      ⟨ho _ (List.of_mem_zip hb).1, he _ (List.of_mem_zip hb).2⟩
    have hzl : (obs.zip exp).length = obs.length := by rw [List.length_zip, hl, min_self]
    set stats := List.zipWith (fun o e => R.mul 2 (R.bakerCousinsBin lg o e)) obs exp with hs
    have hs' : stats = (obs.zip exp).map fun b => R.mul 2 (R.bakerCousinsBin lg b.1 b.2) := by
      rw [hs, List.map_zip_eq_zipWith]; rfl
    -- the two sums
    obtain ⟨e1, e2⟩ := stat_error hlg hw ht (st := .bcChi) (by simp) (by simp) hl ho he hn
    have e3 : |(tot stats : ℝ) -
        (Stat.bcChi.compute (obs.map (fun x : ℚ => (x : ℝ)))
          (exp.map (fun x : ℚ => (x : ℝ)))).value| ≤
        (w + 8 * R.u + 2 * obs.length * R.u) * statSize .bcChi obs exp := by
      have := R.total_error ht (obs.zip exp) (fun b => R.mul 2 (R.bakerCousinsBin lg b.1 b.2))
        (fun b => 2 * bakerCousinsBin (b.1 : ℝ) (b.2 : ℝ)) (fun b => 2 * binSize b.1 b.2)
        (c := w + 8 * R.u) (by linarith)
        (fun b hb => (chi_bin_error hlg hw h1 (hz b hb).1 (hz b hb).2).1)
        (fun b hb => (chi_bin_error hlg hw h1 (hz b hb).1 (hz b hb).2).2) (by rw [hzl]; linarith)
      rw [← hs', hzl] at this
      have g1 : ((obs.zip exp).map fun b => 2 * bakerCousinsBin (b.1 : ℝ) (b.2 : ℝ)).sum =
          (Stat.bcChi.compute (obs.map (fun x : ℚ => (x : ℝ)))
            (exp.map (fun x : ℚ => (x : ℝ)))).value := by
        rw [compute_value _ hl', Rounding.zip_cast, List.map_map]
        rfl
      have g2 : ((obs.zip exp).map fun b => 2 * binSize b.1 b.2).sum = statSize .bcChi obs exp := by
        rw [List.sum_map_mul_left]
        simp only [statSize, sum_zipWith]
      rw [g1, g2] at this
      exact this
    have hX : 0 ≤ statSize .bcChi obs exp := (abs_nonneg _).trans e2
    have hcl : R.allClose (tot stats) (R.computeStat lg tot .bcChi obs exp) := by
      unfold Rounding.allClose
      set F := R.computeStat lg tot .bcChi obs exp with hF
      set S := (Stat.bcChi.compute (obs.map (fun x : ℚ => (x : ℝ)))
            (exp.map (fun x : ℚ => (x : ℝ)))).value with hS
      set X := statSize .bcChi obs exp with hXd
      have c0 := hc rfl
      have c1 : |(tot stats : ℝ) - F| ≤ (3 * w + (5 * obs.length + 16) * R.u) * X := by
        have : (tot stats : ℝ) - F = ((tot stats : ℝ) - S) - (F - S) := by ring
        rw [this]
        refine (abs_sub _ _).trans ((add_le_add e3 e1).trans (le_of_eq ?_))
        ring
      have c2 : (3 * w + (5 * obs.length + 16) * (R.u : ℝ)) * X ≤
          5 / 6 * ((4 * w + (6 * obs.length + 20) * R.u) * X) := by
        rw [← mul_assoc]
        exact mul_le_mul_of_nonneg_right (by linarith) hX
      have c3 : |tot stats - F| ≤ 5 / 6 / 10 ^ 8 := by
        have : |(tot stats : ℝ) - F| ≤ ((5 / 6 / 10 ^ 8 : ℚ) : ℝ) := by push_cast; linarith
        exact_mod_cast this
      have c4 : |R.sub (tot stats) F| ≤ 101 / 100 * (5 / 6 / 10 ^ 8) := by
        have k := R.rel (tot stats - F)
        have k2 := abs_sub_abs_le_abs_sub (R.rnd (tot stats - F)) (tot stats - F)
        have k3 : R.u * |tot stats - F| ≤ 1 / 100 * |tot stats - F| :=
          mul_le_mul_of_nonneg_right h1 (abs_nonneg _)
        change |R.rnd (tot stats - F)| ≤ _
        linarith
      have c5 : 99 / 100 / 10 ^ 8 ≤ R.rnd (1 / 10 ^ 8) := by
        have k := R.rel (1 / 10 ^ 8)
        rw [abs_of_nonneg (by norm_num : (0 : ℚ) ≤ 1 / 10 ^ 8)] at k
        have k3 : R.u * (1 / 10 ^ 8) ≤ 1 / 100 * (1 / 10 ^ 8) :=
          mul_le_mul_of_nonneg_right h1 (by norm_num)
        have := (abs_le.1 k).1
        linarith
      have c6 : R.rnd (1 / 10 ^ 8) ≤ R.add (R.rnd (1 / 10 ^ 8)) (R.mul (R.rnd (1 / 10 ^ 5)) |F|) := by
        have k0 : 0 ≤ R.mul (R.rnd (1 / 10 ^ 5)) |F| :=
          R.rnd_nonneg (mul_nonneg (R.rnd_nonneg (by norm_num)) (abs_nonneg _))
        have := R.mono (show R.rnd (1 / 10 ^ 8) ≤ R.rnd (1 / 10 ^ 8) +
          R.mul (R.rnd (1 / 10 ^ 5)) |F| by linarith)
        rw [R.idem] at this
        exact this
      have c7 : (101 / 100 * (5 / 6 / 10 ^ 8) : ℚ) ≤ 99 / 100 / 10 ^ 8 := by norm_num
      linarith
    refine ⟨stats, _, ?_, perBin_of hl' (fun _ => by rw [hexact]; exact allClose_refl _), hlen _, ?_⟩
    · unfold Rounding.computeStatistic
      rw [if_neg (not_not.2 hl), if_pos rfl]
      unfold Rounding.statBins
      dsimp only
      rw [hstats, if_pos hcl]
      rfl
    · refine forall₂_zipWith (P := fun v S z => |(v : ℝ) - S| ≤ (w + 8 * R.u) * z) obs exp fun o hoo e hee => ?_
      have hz : statSize .bcChi [o] [e] = 2 * binSize o e := by simp [statSize]
      rw [hz]
      exact (chi_bin_error hlg hw h1 (ho o hoo) (he e hee)).1

/-- **C149, sign** (violated). Where expectation and data nearly agree, the computed Baker-Cousins
statistics of python's floats are negative although the exact ones are not: here for every logarithm
that is right up to one part in a thousand. -/
theorem c149_sign_negation {w : ℝ} {lg : ℚ → ℚ} (hlg : LogUpTo w lg) (hw : w ≤ 1 / 1000)
    (tot : List ℚ → ℚ) {st : Stat} (hst : st = .bcChi ∨ st = .bcLL) :
    ∃ o e v : ℚ, Content o ∧ Content e ∧
      (binary 53 (by norm_num)).Rep o ∧ (binary 53 (by norm_num)).Rep e ∧
      (binary 53 (by norm_num)).computeStatistic lg tot st false [o] [e] = .ok (.inl v) ∧ v < 0 ∧
      ∃ S, st.Total [(o : ℝ)] [(e : ℝ)] S ∧ 0 ≤ S := by
  set R := binary 53 (by norm_num) with hR
  have hw0 := logUpTo_nonneg hlg
  have hu : R.u = (1 / 2) ^ 53 := rfl
  have h4 : R.u ≤ 1 / 4 := double_u
  set o : ℚ := 3 / 2 + 1 / 2 ^ 51 with hod
  have ho : Content o := .inr (by rw [hod]; norm_num)
  have he : Content (3 / 2) := .inr (by norm_num)
  have hno : ¬ o < R.eps := fun h => absurd ((R.eps_lt h4 ho).1.1 h) (by rw [hod]; norm_num)
  have hne : ¬ (3 / 2 : ℚ) < R.eps := fun h => absurd ((R.eps_lt h4 he).1.1 h) (by norm_num)
  have hcl : R.clamp (3 / 2) = 3 / 2 := if_neg hne
  have hsub : R.sub (3 / 2) o = -1 / 2 ^ 51 := by
    change roundBits 53 (3 / 2 - (3 / 2 + 1 / 2 ^ 51)) = _
    decide +kernel
  have hdiv : R.div o (3 / 2) = 1 + 1 / 2 ^ 52 := by
    change roundBits 53 ((3 / 2 + 1 / 2 ^ 51) / (3 / 2)) = _
    decide +kernel
  -- the product with the logarithm
  have hL : (lg (1 + 1 / 2 ^ 52) : ℝ) ≤ 1001 / 1000 / 2 ^ 52 := by
    have k := hlg (1 + 1 / 2 ^ 52) (by norm_num)
    push_cast at k
    have k1 : log (1 + 1 / 2 ^ 52 : ℝ) ≤ 1 / 2 ^ 52 := by
      have := log_le_sub_one_of_pos (show (0 : ℝ) < 1 + 1 / 2 ^ 52 by positivity)
      linarith
    have k0 : 0 ≤ log (1 + 1 / 2 ^ 52 : ℝ) := log_nonneg (by norm_num)
    rw [abs_of_nonneg k0] at k
    have k2 := (abs_le.1 k).2
    have k3 : w * log (1 + 1 / 2 ^ 52 : ℝ) ≤ 1 / 1000 * (1 / 2 ^ 52) :=
      mul_le_mul hw k1 k0 (by norm_num)
    linarith
  have hL' : lg (1 + 1 / 2 ^ 52) ≤ 1001 / 1000 / 2 ^ 52 := by
    have : (lg (1 + 1 / 2 ^ 52) : ℝ) ≤ ((1001 / 1000 / 2 ^ 52 : ℚ) : ℝ) := by push_cast; exact hL
    exact_mod_cast this
  have hmul : R.mul o (lg (1 + 1 / 2 ^ 52)) < 1 / 2 ^ 51 := by
    have k1 : o * lg (1 + 1 / 2 ^ 52) ≤ 8 / 5 / 2 ^ 52 := by
      have h16 : o ≤ 3 / 2 + 1 / 1000 := by rw [hod]; norm_num
      have h0o : 0 ≤ o := by rw [hod]; norm_num
      have := mul_le_mul_of_nonneg_left hL' h0o
      have h2 : o * (1001 / 1000 / 2 ^ 52) ≤ (3 / 2 + 1 / 1000) * (1001 / 1000 / 2 ^ 52) :=
        mul_le_mul_of_nonneg_right h16 (by norm_num)
      have h3 : ((3 / 2 + 1 / 1000) * (1001 / 1000 / 2 ^ 52) : ℚ) ≤ 8 / 5 / 2 ^ 52 := by norm_num
      linarith
    have k2 := R.mono k1
    have k3 := (abs_le.1 (R.rel (8 / 5 / 2 ^ 52))).2
    rw [abs_of_nonneg (by norm_num : (0 : ℚ) ≤ 8 / 5 / 2 ^ 52)] at k3
    have k4 : R.u * (8 / 5 / 2 ^ 52) ≤ 1 / 100 * (8 / 5 / 2 ^ 52) :=
      mul_le_mul_of_nonneg_right (by rw [hu]; norm_num) (by norm_num)
    have k5 : (1 / 100 * (8 / 5 / 2 ^ 52) + 8 / 5 / 2 ^ 52 : ℚ) < 1 / 2 ^ 51 := by norm_num
    change R.rnd (o * lg (1 + 1 / 2 ^ 52)) < _
    linarith
  have neg : ∀ x : ℚ, x < 0 → R.rnd x < 0 := by
    intro x hx
    have k := (abs_le.1 (R.rel x)).2
    rw [abs_of_neg hx] at k
    have : R.u * -x ≤ 1 / 4 * -x := mul_le_mul_of_nonneg_right h4 (by linarith)
    linarith
  have hbin : R.bakerCousinsBin lg o (3 / 2) < 0 := by
    unfold Rounding.bakerCousinsBin
    dsimp only
    rw [hcl, if_neg hno, hdiv, hsub]
    refine neg _ ?_
    have : (-1 / 2 ^ 51 : ℚ) = -(1 / 2 ^ 51) := by norm_num
    rw [this]
    linarith
  have hloop : R.loopTotal (R.bakerCousinsBin lg) [o] [3 / 2] < 0 := by
    change R.rnd (0 + R.bakerCousinsBin lg o (3 / 2)) < 0
    rw [zero_add]
    exact neg _ hbin
  have hexact := c35_nonneg st (by rcases hst with rfl | rfl <;> simp) [(o : ℝ)] [((3 / 2 : ℚ) : ℝ)] rfl
  have hrep : R.Rep o := by
    change roundBits 53 (3 / 2 + 1 / 2 ^ 51) = 3 / 2 + 1 / 2 ^ 51
    decide +kernel
  have hrep' : R.Rep (3 / 2) := by
    change roundBits 53 (3 / 2) = 3 / 2
    decide +kernel
  refine ⟨o, 3 / 2, R.computeStat lg tot st [o] [3 / 2], ho, he, hrep, hrep', ?_, ?_, hexact⟩
  · unfold Rounding.computeStatistic
    rw [if_neg (by simp)]; rfl
  · rcases hst with rfl | rfl
    · change R.rnd (2 * R.loopTotal (R.bakerCousinsBin lg) [o] [3 / 2]) < 0
      exact neg _ (by linarith)
    · exact hloop

/-! ### python's floats, three bins, one of them without data and one without expectation -/

theorem exists_log {w : ℝ} (hw : 0 < w) : ∃ lg, LogUpTo w lg := by
  have key : ∀ x : ℚ, ∃ y : ℚ, 0 < x → |(y : ℝ) - log x| ≤ w * |log x| := by
    intro x
    by_cases h : log (x : ℝ) = 0
    · exact ⟨0, fun _ => by simp [h]⟩
    · have hp : 0 < w * |log (x : ℝ)| := mul_pos hw (abs_pos.2 h)
      obtain ⟨y, h1, h2⟩ := exists_rat_btwn (sub_lt_self (log (x : ℝ)) hp)
      exact ⟨y, fun _ => by rw [abs_le]; constructor <;> linarith⟩
  choose lg h using key
  exact ⟨lg, h⟩

theorem totals_fold (R : Rounding) : R.Totals (fun l => l.foldl R.add 0) := fun l =>
  ⟨Rounding.comb l .zero, by rw [Rounding.comb_leaves]; exact .refl _, (R.comb_sum l .zero).symm⟩

theorem double_small {n : ℝ} (_ : 0 ≤ n) (h : n ≤ 100) :
    n * ((binary 53 (by norm_num)).u : ℝ) ≤ 1 / 100 := by
  have : ((binary 53 (by norm_num)).u : ℝ) ≤ 1 / 10 ^ 4 := by
    change (((1 / 2 : ℚ) ^ 53 : ℚ) : ℝ) ≤ _
    norm_num
  calc n * ((binary 53 (by norm_num)).u : ℝ) ≤ 100 * (1 / 10 ^ 4) :=
        mul_le_mul h this (by exact_mod_cast (binary 53 (by norm_num)).u_nonneg) (by norm_num)
    _ = 1 / 100 := by norm_num

example {lg : ℚ → ℚ} (h : LogUpTo (1 / 10 ^ 15) lg) :=
  c149_accuracy h (by norm_num) (totals_fold (binary 53 (by norm_num))) (st := .bcChiUp) (by simp)
    (by simp) (obs := [3, 0, 5]) (exp := [5 / 2, 1, 0]) rfl three_obs three_exp
    (double_small (by positivity) (by norm_num))

example : ∃ lg, LogUpTo (1 / 10 ^ 15) lg := exists_log (by positivity)

example {lg : ℚ → ℚ} (h : LogUpTo (1 / 10 ^ 15) lg) :=
  c149_agreement h double_u (by change 1 ≤ 2 ^ 53; norm_num) (totals_fold (binary 53 (by norm_num)))
    (st := .bcChi) (.inl rfl) (obs := [3, 1 / 2]) (by
      intro x hx
      simp only [List.mem_cons, List.not_mem_nil, or_false] at hx
      rcases hx with rfl | rfl <;> norm_num [Content])

/-- Two models, the second with its parameter further from the prior. -/
example {lg : ℚ → ℚ} (h : LogUpTo (1 / 10 ^ 15) lg) :=
  c149_best h (by norm_num) (totals_fold (binary 53 (by norm_num))) (st := .extLL) (by simp)
    (by simp) (obs := [3, 0, 5]) three_obs (ι := Bool)
    (fun b => if b then [5 / 2, 1, 0] else [3, 0, 5])
    (by intro b; cases b <;> rfl) (by intro b; cases b; exacts [three_obs, three_exp])
    (fun b => if b then [(3, 1, 1 / 3)] else [(2, 1, 1 / 3)]) (m := 1) (by intro b; cases b <;> rfl)
    (by intro b p hp; cases b <;> simp_all) (double_small (by positivity) (by norm_num))

/-- One bin, and the sum of the bins is compared with the total. -/
example {lg : ℚ → ℚ} (h : LogUpTo (1 / 10 ^ 15) lg) :=
  c149_bins h (by norm_num) (totals_fold (binary 53 (by norm_num))) (st := .bcChi) (.inr (.inr rfl))
    (obs := [3]) (exp := [3]) rfl (by simp [Content]; norm_num) (by simp [Content]; norm_num)
    (double_small (by positivity) (by norm_num)) (by
      intro _
      have hz : statSize .bcChi [3] [3] = 12 := by
        have : max (3 : ℝ) (1 / 10 ^ 34) = 3 := max_eq_left (by norm_num)
        simp only [statSize, binSize, List.zipWith_cons_cons, List.zipWith_nil_left, List.sum_cons,
          List.sum_nil, Rat.cast_ofNat, this]
        norm_num
      rw [hz]
      change (4 * (1 / 10 ^ 15) + (6 * ([3] : List ℚ).length + 20) * (((1 / 2 : ℚ) ^ 53 : ℚ) : ℝ)) *
        12 ≤ _
      norm_num)

example {lg : ℚ → ℚ} (h : LogUpTo (1 / 10 ^ 15) lg) (tot : List ℚ → ℚ) :=
  c149_sign_negation h (by norm_num) tot (st := .bcChi) (.inl rfl)

end Verif
