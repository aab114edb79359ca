import Verif.Spec.Coarser
import Verif.Props.MoreData
import Verif.Props.Merge
import Verif.Props.SingleBin

/-! # Lemmas on limits with coarser bins -/

namespace Verif

open Session Real

variable {env : FitEnv} {keyOf : ℕ → PyStr} {a a' : FitArgs} {ts ts' : List Spectrum} {r d r' d' : ℕ}
  {st st' : FitState} {rnd : ℝ → ℚ} {obs bkg sig : List ℝ}

/-- The statistic without the part that depends on the observed numbers only. -/
def Stat.core : Stat → Stat
  | .extLL => .bcLL
  | s => s

theorem Stat.core_ne (s : Stat) : s.core ≠ .extLL := by cases s <;> simp [Stat.core]

theorem bin_excess (s : Stat) {o e : ℝ} (ho : zeroThreshold ≤ o) (he : zeroThreshold ≤ e) :
    s.bin o e - s.bin o o = s.core.bin o e := by
  rw [threshold_eq] at ho he
  have hpos := statEps_pos
  have hz : bakerCousinsBin o o = 0 := (bakerCousinsBin_eq_zero ho ho).2 rfl
  cases s with
  | bcChi => simp [Stat.bin, Stat.core, hz]
  | bcChiUp => simp [Stat.bin, Stat.core, hz]
  | bcLL => simp [Stat.bin, Stat.core, hz]
  | neyman => simp [Stat.bin, Stat.core, (neymanBin_eq_zero ho ho).2 rfl]
  | pearson => simp [Stat.bin, Stat.core, (pearsonBin_eq_zero ho ho).2 rfl]
  | extLL =>
    simp only [Stat.bin, Stat.core, bakerCousinsBin, clampEps_of_ge ho, clampEps_of_ge he]
    rw [if_neg (not_lt.2 ho), log_div (by linarith) (by linarith)]
    ring

/-- The excess over the expected background, when that is observed. -/
theorem sumBins_excess (s : Stat) (hl : bkg.length = sig.length) (hb : ∀ b ∈ bkg, zeroThreshold ≤ b)
    (hs : ∀ k ∈ sig, 0 ≤ k) {x : ℝ} (hx : 0 ≤ x) :
    s.sumBins bkg (expectedAt bkg sig x) - s.sumBins bkg bkg =
      s.core.sumBins bkg (expectedAt bkg sig x) := by
  unfold Stat.sumBins expectedAt
  induction bkg generalizing sig with
  | nil => simp
  | cons b bkg ih =>
    cases sig with
    | nil => simp at hl
    | cons k sig =>
      have hb0 := hb b (by simp)
      have h1 := bin_excess s hb0 (e := b + x * k)
        (by have := mul_nonneg hx (hs k (by simp)); linarith)
      have h2 := ih (sig := sig) (by simpa using hl) (fun b hb' => hb b (by simp [hb']))
        (fun k hk => hs k (by simp [hk]))
      simp only [List.zipWith_cons_cons, List.zip_cons_cons, List.map_cons, List.sum_cons]
      linarith

theorem sumBins_nonneg (s : Stat) (o e : List ℝ) : 0 ≤ s.core.sumBins o e := by
  unfold Stat.sumBins
  refine List.sum_nonneg fun v hv => ?_
  obtain ⟨b, -, rfl⟩ := List.mem_map.1 hv
  exact bin_nonneg s.core_ne _ _

/-- Merging bins, with the expected background observed. -/
theorem sumBins_merge (s : Stat) (groups : List (List (ℝ × ℝ))) (hne : ∀ g ∈ groups, g ≠ [])
    (hb : ∀ g ∈ groups, ∀ b ∈ g, zeroThreshold ≤ b.1 ∧ 0 ≤ b.2) {x : ℝ} (hx : 0 ≤ x) :
    s.core.sumBins ((groups.map groupSum).map Prod.fst)
        (expectedAt ((groups.map groupSum).map Prod.fst) ((groups.map groupSum).map Prod.snd) x) ≤
      s.core.sumBins (groups.flatten.map Prod.fst)
        (expectedAt (groups.flatten.map Prod.fst) (groups.flatten.map Prod.snd) x) := by
  set f : ℝ × ℝ → ℝ × ℝ := fun b => (b.1, b.1 + x * b.2) with hf
  have hexp : ∀ L : List (ℝ × ℝ), expectedAt (L.map Prod.fst) (L.map Prod.snd) x =
      L.map (fun b => b.1 + x * b.2) := fun L => by
    unfold expectedAt
    induction L with
    | nil => rfl
    | cons b L ih => simp [ih]
  have hsum : ∀ g : List (ℝ × ℝ), groupSum (g.map f) = f (groupSum g) := fun g => by
    simp only [groupSum, hf, List.map_map]
    refine Prod.ext rfl ?_
    induction g with
    | nil => simp
    | cons b g ih =>
      simp only [List.map_cons, List.sum_cons, Function.comp] at ih ⊢
      linarith
  have h := c130_merge s.core (groups.map (List.map f))
    (by
      intro g hg
      obtain ⟨g', hg', rfl⟩ := List.mem_map.1 hg
      simpa using hne g' hg')
    (by
      intro g hg b hb'
      obtain ⟨g', hg', rfl⟩ := List.mem_map.1 hg
      obtain ⟨p, hp, rfl⟩ := List.mem_map.1 hb'
      obtain ⟨p1, p2⟩ := hb g' hg' p hp
      have h0 : 0 < zeroThreshold := statEps_pos
      have hm := mul_nonneg hx p2
      have hne := s.core_ne
      cases hc : s.core with
      | extLL => exact absurd hc hne
      | neyman => exact ⟨p1, .inr (by dsimp only [f]; linarith)⟩
      | _ => exact ⟨.inr p1, by dsimp only [f]; linarith, .inr (by dsimp only [f]; linarith)⟩)
    _ _ ((total_iff _ (by rw [List.length_map, List.length_map]) _).2 rfl)
    ((total_iff _ (by rw [List.length_map, List.length_map _ (as := List.map groupSum _)]) _).2 rfl)
  have e1 : (groups.map (List.map f)).flatten = groups.flatten.map f := by
    rw [List.map_flatten]
  have e2 : (groups.map (List.map f)).map groupSum = (groups.map groupSum).map f := by
    simp only [List.map_map]
    exact List.map_congr_left fun g _ => hsum g
  rw [e1, e2] at h
  unfold Stat.sumBins
  rw [hexp, hexp]
  simp only [List.map_map] at h ⊢
  exact h

theorem groupSum_counts {g : List (ℝ × ℝ)} (hne : g ≠ [])
    (hb : ∀ b ∈ g, zeroThreshold ≤ b.1 ∧ 0 ≤ b.2) :
    zeroThreshold ≤ (groupSum g).1 ∧ 0 ≤ (groupSum g).2 := by
  have h0 : 0 < zeroThreshold := statEps_pos
  cases g with
  | nil => exact absurd rfl hne
  | cons b g =>
    simp only [groupSum, List.map_cons, List.sum_cons]
    have h1 : 0 ≤ (g.map Prod.fst).sum := List.sum_nonneg fun v hv => by
      obtain ⟨p, hp, rfl⟩ := List.mem_map.1 hv
      exact h0.le.trans (hb p (by simp [hp])).1
    have h2 : 0 ≤ (g.map Prod.snd).sum := List.sum_nonneg fun v hv => by
      obtain ⟨p, hp, rfl⟩ := List.mem_map.1 hv
      exact (hb p (by simp [hp])).2
    have := hb b (by simp)
    exact ⟨by linarith, by linarith⟩

/-- When the expected background is observed, the excess from scaling zero on decides. -/
theorem FitArgs.Counts.asimov (h : a.Counts r d ts st bkg bkg sig) (hb : ∀ b ∈ bkg, zeroThreshold ≤ b)
    (hs : ∀ k ∈ sig, 0 ≤ k) (search : GridSearch) (hpars : search.pars = []) :
    ∃ ses st' w, init keyOf a st = (st', .ok ses) ∧
      Fitter.limitInit ⟨ses, st', search⟩ r true = (w, .ok ()) ∧
      ∀ (calls : List LimitCall) (scales : List ℝ), Testable rnd (allScales calls ++ scales) →
      PlainScales rnd scales → 0 ∈ scales → ∀ (sigmas : List (Option ℝ)), (∀ s ∈ sigmas, s ≠ none) →
      ∀ (limit : ℝ),
        (∀ x, ((w.afterCalls env rnd r calls).limitOf env rnd r scales sigmas none limit).2 = .ok x ↔
          FirstCrossing scales (fun y => a.stat.core.sumBins bkg (expectedAt bkg sig y)) 0 limit x) ∧
        (((w.afterCalls env rnd r calls).limitOf env rnd r scales sigmas none limit).2 =
            .error .limitError ↔
          ∀ y ∈ scales, 0 ≤ y → a.stat.core.sumBins bkg (expectedAt bkg sig y) ≤ limit) := by
  obtain ⟨ses, st', w, h1, h2, h3⟩ := h.outcome (env := env) (keyOf := keyOf) (rnd := rnd) search hpars
  refine ⟨ses, st', w, h1, h2, fun calls scales ht hp hz sigmas hsg limit => ?_⟩
  obtain ⟨b, hbest, k1, k2⟩ := h3 calls scales ht hp sigmas hsg limit
  have hl := h.lengths.2
  have hex : ∀ y ∈ scales, a.stat.sumBins bkg (expectedAt bkg sig y) - a.stat.sumBins bkg bkg =
      a.stat.core.sumBins bkg (expectedAt bkg sig y) := fun y hy =>
    sumBins_excess _ hl hb hs (hp.nonneg y hy)
  have e0 := expectedAt_zero (bkg := bkg) (sig := sig) hl
  obtain rfl : b = 0 := by
    refine le_antisymm ((hbest.2 0 hz).2 ?_) (hp.nonneg b hbest.1)
    have n1 := (hbest.2 0 hz).1
    have n2 := hex b hbest.1
    have n3 := sumBins_nonneg a.stat bkg (expectedAt bkg sig b)
    dsimp only at n1 ⊢
    rw [e0] at n1 ⊢
    linarith
  constructor
  · intro x
    rw [k1 x]
    constructor
    · rintro ⟨f1, f2, f3, f4⟩
      refine ⟨f1, f2, f3.trans_eq (hex x f1), fun y hy h0 hyx => ?_⟩
      exact (hex y hy).symm.trans_le (f4 y hy h0 hyx)
    · rintro ⟨f1, f2, f3, f4⟩
      refine ⟨f1, f2, f3.trans_eq (hex x f1).symm, fun y hy h0 hyx => ?_⟩
      exact (hex y hy).trans_le (f4 y hy h0 hyx)
  · rw [k2]
    exact ⟨fun hall y hy h0 => (hex y hy).symm.trans_le (hall y hy h0),
      fun hall y hy h0 => (hex y hy).trans_le (hall y hy h0)⟩

/-- A larger excess is above the threshold earlier. -/
theorem crossing_larger {scales : List ℝ} {F F' : ℝ → ℝ} {b limit : ℝ}
    (hF : ∀ y ∈ scales, b ≤ y → F' y ≤ F y) :
    (∀ x', FirstCrossing scales F' b limit x' → ∃ x, x ≤ x' ∧ FirstCrossing scales F b limit x) ∧
    ((∀ y ∈ scales, b ≤ y → F y ≤ limit) → ∀ y ∈ scales, b ≤ y → F' y ≤ limit) := by
  refine ⟨?_, fun h y hy hb => (hF y hy hb).trans (h y hy hb)⟩
  rintro x' ⟨f1, f2, f3, -⟩
  classical
  obtain ⟨y, hy, hmin⟩ := Finset.exists_min_image
    (scales.toFinset.filter fun y => b ≤ y ∧ limit < F y) id
    ⟨x', by
      simp only [Finset.mem_filter, List.mem_toFinset]
      exact ⟨f1, f2, f3.trans_le (hF x' f1 f2)⟩⟩
  simp only [Finset.mem_filter, List.mem_toFinset, id] at hy hmin
  refine ⟨y, hmin x' ⟨f1, f2, f3.trans_le (hF x' f1 f2)⟩, hy.1, hy.2.1, hy.2.2, fun z hz hbz hzy => ?_⟩
  by_contra hcon
  exact absurd (hmin z ⟨hz, hbz, not_le.1 hcon⟩) (not_le.2 hzy)

/-! ### one bin -/

theorem compared_sum (x : NdArray ℚ) :
    comparedContents true x = [(comparedContents false x).sum] := by
  rw [compared_single]
  simp only [comparedContents, Bool.false_eq_true, if_false]
  rw [NdArray.sum, ← sum_allIdx, Rat.cast_list_sum, List.map_map]
  rfl

theorem FitArgs.Given.inOneBin (h : a.Given ts st) : a.inOneBin.Given ts st :=
  ⟨h.region, h.some, h.alloc, h.own, h.able, h.fixed⟩

theorem FitArgs.Settings.inOneBin (h : a.Settings st) : a.inOneBin.Settings st :=
  ⟨h.floating, h.fixed, h.dimension, h.perBin⟩

theorem FitArgs.LimitOn.inOneBin (h : a.LimitOn r d ts st) : a.inOneBin.LimitOn r d ts st :=
  ⟨h.given.inOneBin, h.settings.inOneBin, h.signal, h.data, h.axes, h.fit, h.decays, h.region⟩

theorem FitArgs.Counts.inOneBin (h : a.Counts r d ts st obs bkg sig) (hs : a.singleBin = false) :
    a.inOneBin.Counts r d ts st [obs.sum] [bkg.sum] [sig.sum] where
  limitOn := h.limitOn.inOneBin
  fixed := h.fixed
  floating := h.floating
  statPerBin := h.statPerBin
  contents := by
    obtain ⟨ns, c, h1, h2, rfl, rfl, rfl⟩ := h.contents
    refine ⟨ns, c, h1, h2, ?_, ?_, ?_⟩
    · rw [hs]; exact (compared_sum _).symm
    · rw [hs]; exact (compared_sum _).symm
    · rw [hs]
      show _ = (comparedContents true (c r)).map _
      rw [compared_sum, List.map_cons, List.map_nil]
      congr 1
      generalize comparedContents false (c r) = L
      induction L with
      | nil => simp
      | cons x L ih => rw [List.map_cons, List.sum_cons, List.sum_cons, ih]; ring

theorem FitArgs.Evaluable.inOneBin (h : a.Evaluable env keyOf d st) :
    a.inOneBin.Evaluable env keyOf d st :=
  ⟨h.data, h.str, h.cache, h.backgrounds, h.axes, h.dims, h.decays, h.names, h.pars, h.globals, h.rates⟩

theorem FitArgs.OwnRates.inOneBin (h : a.OwnRates st) : a.inOneBin.OwnRates st :=
  ⟨h.floating, h.config, h.one, h.sigmas, h.statPerBin, h.perBin⟩

/-- The statistic of the sums is not larger. -/
theorem total_inOneBin {s : Stat} {o e : NdArray ℚ} (hshape : e.shape = o.shape)
    (hne : ∃ idx, InB o.shape idx) (hm : s.MergeableArrays o e) {v w : ℝ}
    (hv : s.Total (comparedContents false o) (comparedContents false e) v)
    (hw : s.Total (comparedContents true o) (comparedContents true e) w) : w ≤ v := by
  have h1 : ∀ x : NdArray ℚ, comparedContents false x = ravel x := fun x => by
    simp [comparedContents, ravel]
  rw [compared_sum, compared_sum, h1, h1] at hw
  rw [h1, h1] at hv
  have hz := ravel_zip hshape
  have hl : (ravel o).length = (ravel e).length := by simp [ravel, hshape]
  have e1 : ((ravel o).zip (ravel e)).map Prod.fst = ravel o := List.map_fst_zip hl.le
  have e2 : ((ravel o).zip (ravel e)).map Prod.snd = ravel e := List.map_snd_zip hl.ge
  refine c130_merge s [(ravel o).zip (ravel e)] (fun g hg => ?_) (fun g hg b hb => ?_) v w ?_ ?_
  · rw [List.mem_singleton.1 hg, hz]
    obtain ⟨idx, hi⟩ := hne
    exact List.ne_nil_of_mem (List.mem_map_of_mem (mem_allIdx.2 hi))
  · rw [List.mem_singleton.1 hg, hz] at hb
    obtain ⟨idx, hi, rfl⟩ := List.mem_map.1 hb
    exact hm idx (mem_allIdx.1 hi)
  · rw [List.flatten_cons, List.flatten_nil, List.append_nil, e1, e2]
    exact hv
  · simp only [List.map_cons, List.map_nil, groupSum]
    rw [e1, e2]
    exact hw

end Verif
