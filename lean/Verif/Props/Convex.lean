import Verif.Lemmas.StatConvex
import Verif.Props.Limit

/-! # C132: statistics are convex in the signal, and everything above a limit is excluded -/

namespace Verif

/-- **C132, convexity.** For fixed observations and background, each of the six statistics is a
convex function of the strength of the signal, as long as the contents count. -/
theorem c132_convex (st : Stat) (obs bkg sig : List ℝ) (hlen : bkg.length = sig.length)
    (x y t : ℝ) (ht : 0 ≤ t) (ht' : t ≤ 1)
    (hx : st.Sound obs (expectedAt bkg sig x)) (hy : st.Sound obs (expectedAt bkg sig y))
    (u v w : ℝ) (hv : st.Total obs (expectedAt bkg sig x) v)
    (hw : st.Total obs (expectedAt bkg sig y) w)
    (hu : st.Total obs (expectedAt bkg sig ((1 - t) * x + t * y)) u) :
    u ≤ (1 - t) * v + t * w := by
  have hl : ∀ z, (expectedAt bkg sig z).length = bkg.length := by
    intro z; simp [expectedAt, hlen]
  have hlo : obs.length = bkg.length := by rw [hx.length_eq, hl]
  rw [total_iff st (hlo.trans (hl _).symm)] at hu hv hw
  rw [hu, hv, hw]
  exact sum_zip_convex ht ht' hlen hx hy

/-- Two bins with 0 and 3 events, backgrounds 1 and 2, and a signal in the second bin. -/
example : Stat.bcLL.Sound [0, 3] (expectedAt [1, 2] [0, 1] 0) ∧
    Stat.bcLL.Sound [0, 3] (expectedAt [1, 2] [0, 1] 4) ∧
    Stat.neyman.Sound [1, 3] (expectedAt [1, 2] [0, 1] 4) := by
  simp only [Stat.Sound, Stat.SoundBin, expectedAt, List.zipWith_cons_cons, List.zipWith_nil_right,
    List.forall₂_cons]
  norm_num [zeroThreshold]

theorem total_exists (st : Stat) {obs bkg sig : List ℝ} (hlen : bkg.length = sig.length) {x : ℝ}
    (hx : st.Sound obs (expectedAt bkg sig x)) (y : ℝ) :
    ∃ v, st.Total obs (expectedAt bkg sig y) v := by
  have hl : ∀ z, (expectedAt bkg sig z).length = bkg.length := by
    intro z; simp [expectedAt, hlen]
  exact ⟨_, (total_iff st (by rw [hx.length_eq, hl, hl]) _).2 rfl⟩

/-- **C132, above.** When a stronger signal does not fit better, an even stronger signal does
not fit better either. -/
theorem c132_above (st : Stat) (obs bkg sig : List ℝ) (hlen : bkg.length = sig.length)
    (hsig : ∀ s ∈ sig, 0 ≤ s) (x y z : ℝ) (hxy : x < y) (hyz : y ≤ z)
    (hx : st.Sound obs (expectedAt bkg sig x)) (u v w : ℝ)
    (hu : st.Total obs (expectedAt bkg sig x) u) (hv : st.Total obs (expectedAt bkg sig y) v)
    (hw : st.Total obs (expectedAt bkg sig z) w) (huv : u ≤ v) : v ≤ w := by
  have hz : st.Sound obs (expectedAt bkg sig z) := sound_above (hxy.le.trans hyz) hsig hx
  have hd : 0 < z - x := by linarith
  have e : (1 - (y - x) / (z - x)) * x + (y - x) / (z - x) * z = y := by
    field_simp; ring
  have ht : 0 < (y - x) / (z - x) := div_pos (by linarith) hd
  have hc := c132_convex st obs bkg sig hlen x z ((y - x) / (z - x)) ht.le
    ((div_le_one hd).2 (by linarith)) hx hz v u w hu hw (by rw [e]; exact hv)
  generalize (y - x) / (z - x) = t at *
  have h1 : 0 ≤ t * (w - v) := by
    have : (1 - t) * u ≤ (1 - t) * v := by
      refine mul_le_mul_of_nonneg_left huv ?_
      by_contra hneg
      have h2 : 1 < t := by linarith
      nlinarith
    linarith
  nlinarith

/-- **C132, limits.** A limit is set by fits without floating backgrounds: the statistic at the
scaling `x` is that of the background plus `x` times the signal. Some tested scaling is allowed,
that is, not above the threshold relative to `m`. Then everything above the limit is excluded:
for every real scaling from the limit on, tested or not, the statistic is above the threshold.
And the true crossing lies in the last step: there is a tested scaling directly below the limit
such that every real scaling from the best one up to it is allowed. -/
theorem c132_limit (st : Stat) (obs bkg sig : List ℝ) (hlen : bkg.length = sig.length)
    (hsig : ∀ s ∈ sig, 0 ≤ s) {fit : Option ℝ → Except PyErr FitOut} {stat : ℝ → ℝ}
    {pens : ℝ → List ℝ} {m : ℝ} {scales : List ℝ} {minStat : Option (List ℝ)}
    {sigmas : List (Option ℝ)} {limit : ℝ} (hf : ScalarFits fit scales stat pens)
    (hpens : ∀ x ∈ scales, (pens x).sum = 0)
    (hstat : ∀ x ∈ scales, st.Sound obs (expectedAt bkg sig x) ∧
      st.Total obs (expectedAt bkg sig x) (stat x))
    (hm : RelativeTo fit minStat m) (hs : scales.Pairwise (· < ·))
    (hallowed : ∃ z ∈ scales, stat z - m ≤ limit) (x : ℝ)
    (hx : getLimit scales sigmas fit minStat limit = .ok x) :
    (∀ y v, x ≤ y → st.Total obs (expectedAt bkg sig y) v → limit < v - m) ∧
    ∃ b ∈ scales, ∃ z ∈ scales, BestScale scales stat b ∧ b ≤ z ∧ z < x ∧
      (∀ y ∈ scales, y ≤ z ∨ x ≤ y) ∧
      ∀ y v, b ≤ y → y ≤ z → st.Total obs (expectedAt bkg sig y) v → v - m ≤ limit := by
  have hn : scales ≠ [] := by
    obtain ⟨z, hz, -⟩ := hallowed
    exact List.ne_nil_of_mem hz
  have hsigmas : ∀ s ∈ sigmas, s ≠ none := by
    rintro s hs' rfl
    rw [c49_sigma_negation limit hf hm hn hs hs'] at hx
    cases hx
  obtain ⟨b, hb, hg, -⟩ := c49_limit_partial limit hf hm hn hs hsigmas
  obtain ⟨hx1, hx2, hx3, hx4⟩ := (hg x).1 hx
  dsimp only at hx3 hx4
  rw [hpens x hx1, add_zero] at hx3
  obtain ⟨z₀, hz₀, hz₀'⟩ := hallowed
  have hbz := (hb.2 z₀ hz₀).1
  have hbx : b < x := by
    refine lt_of_le_of_ne hx2 ?_
    rintro rfl
    linarith
  have hall : ∀ y ∈ scales, b ≤ y → y < x → stat y - m ≤ limit := by
    intro y hy h1 h2
    have := hx4 y hy h1 h2
    rwa [hpens y hy, add_zero] at this
  refine ⟨fun y v hy hv => ?_, b, hb.1, ?_⟩
  · have := c132_above st obs bkg sig hlen hsig b x y hbx hy (hstat b hb.1).1 _ _ _
      (hstat b hb.1).2 (hstat x hx1).2 hv (hb.2 x hx1).1
    linarith
  · -- the largest tested scaling below `x`
    have hmax : ∃ z ∈ scales, z < x ∧ ∀ y ∈ scales, y < x → y ≤ z := by
      have : ∀ l : List ℝ, (∃ a ∈ l, a < x) → ∃ z ∈ l, z < x ∧ ∀ y ∈ l, y < x → y ≤ z := by
        intro l
        induction l with
        | nil => rintro ⟨a, ha, -⟩; cases ha
        | cons a l ih =>
          rintro ⟨c, hc, hcx⟩
          by_cases hl : ∃ a ∈ l, a < x
          · obtain ⟨z, h1, h2, h3⟩ := ih hl
            by_cases haz : a < x ∧ z < a
            · refine ⟨a, by simp, haz.1, fun y hy hyx => ?_⟩
              rcases List.mem_cons.1 hy with rfl | hy
              · exact le_rfl
              · exact (h3 y hy hyx).trans haz.2.le
            · refine ⟨z, by simp [h1], h2, fun y hy hyx => ?_⟩
              rcases List.mem_cons.1 hy with rfl | hy
              · by_contra hyz
                exact haz ⟨hyx, not_le.1 hyz⟩
              · exact h3 y hy hyx
          · refine ⟨a, by simp, ?_, fun y hy hyx => ?_⟩
            · rcases List.mem_cons.1 hc with rfl | hc
              · exact hcx
              · exact absurd ⟨c, hc, hcx⟩ hl
            · rcases List.mem_cons.1 hy with rfl | hy
              · exact le_rfl
              · exact absurd ⟨y, hy, hyx⟩ hl
      exact this scales ⟨b, hb.1, hbx⟩
    obtain ⟨z, hz1, hz2, hz3⟩ := hmax
    have hbz' := hz3 b hb.1 hbx
    refine ⟨z, hz1, hb, hbz', hz2, fun y hy => ?_, fun y v h1 h2 hv => ?_⟩
    · by_cases h : y < x
      · exact .inl (hz3 y hy h)
      · exact .inr (not_lt.1 h)
    · rcases eq_or_lt_of_le hbz' with heq | hlt
      · have hyb : y = b := le_antisymm (h2.trans heq.ge) h1
        subst hyb
        obtain ⟨hs1, hs2⟩ := hstat y hb.1
        have hll : obs.length = (expectedAt bkg sig y).length := hs1.length_eq
        rw [total_iff st hll] at hs2 hv
        rw [hv, ← hs2]
        exact hall y hb.1 le_rfl hbx
      · have hd : 0 < z - b := by linarith
        have e : (1 - (y - b) / (z - b)) * b + (y - b) / (z - b) * z = y := by
          field_simp; ring
        have ht : 0 ≤ (y - b) / (z - b) := div_nonneg (by linarith) hd.le
        have ht' : (y - b) / (z - b) ≤ 1 := (div_le_one hd).2 (by linarith)
        have hc := c132_convex st obs bkg sig hlen b z _ ht ht' (hstat b hb.1).1 (hstat z hz1).1
          v _ _ (hstat b hb.1).2 (hstat z hz1).2 (by rw [e]; exact hv)
        have h3 := mul_le_mul_of_nonneg_left (hall b hb.1 le_rfl hbx)
          (show 0 ≤ 1 - (y - b) / (z - b) by linarith)
        have h4 := mul_le_mul_of_nonneg_left (hall z hz1 hbz' hz2) ht
        linarith

/-- **C132, finer steps.** With further scalings between the tested ones a limit is still found;
it is at most the limit before, and above every scaling below that. -/
theorem c132_finer (st : Stat) (obs bkg sig : List ℝ) (hlen : bkg.length = sig.length)
    (hsig : ∀ s ∈ sig, 0 ≤ s) {fit : Option ℝ → Except PyErr FitOut} {stat : ℝ → ℝ}
    {pens : ℝ → List ℝ} {m : ℝ} {scales finer : List ℝ} {minStat : Option (List ℝ)}
    {sigmas : List (Option ℝ)} {limit : ℝ} (hf : ScalarFits fit finer stat pens)
    (hpens : ∀ x ∈ finer, (pens x).sum = 0)
    (hstat : ∀ x ∈ finer, st.Sound obs (expectedAt bkg sig x) ∧
      st.Total obs (expectedAt bkg sig x) (stat x))
    (hm : RelativeTo fit minStat m) (hs : scales.Pairwise (· < ·)) (hs' : finer.Pairwise (· < ·))
    (hsub : ∀ x ∈ scales, x ∈ finer)
    (hallowed : ∃ z ∈ scales, stat z - m ≤ limit) (x : ℝ)
    (hx : getLimit scales sigmas fit minStat limit = .ok x) :
    ∃ x', getLimit finer sigmas fit minStat limit = .ok x' ∧ x' ≤ x ∧
      ∀ z ∈ scales, z < x → z < x' := by
  obtain ⟨z₀, hz₀, hz₀'⟩ := hallowed
  have hne : scales ≠ [] := List.ne_nil_of_mem hz₀
  have hne' : finer ≠ [] := List.ne_nil_of_mem (hsub _ hz₀)
  have hfs : ScalarFits fit scales stat pens := fun y hy => hf y (hsub y hy)
  have hsigmas : ∀ s ∈ sigmas, s ≠ none := by
    rintro s hs' rfl
    rw [c49_sigma_negation limit hfs hm hne hs hs'] at hx
    cases hx
  obtain ⟨habove, b, hb, z, hz, hbest, hbz, hzx, hgap, hbelow⟩ := c132_limit st obs bkg sig hlen hsig
    hfs (fun y hy => hpens y (hsub y hy)) (fun y hy => hstat y (hsub y hy)) hm hs ⟨z₀, hz₀, hz₀'⟩ x hx
  obtain ⟨b', hb', hg', hg''⟩ := c49_limit_partial limit hf hm hne' hs' hsigmas
  have hb'z : stat b' - m ≤ limit := by
    have := (hb'.2 z₀ (hsub _ hz₀)).1
    linarith
  have hb'x : b' < x := by
    by_contra hcon
    have := habove b' _ (not_lt.1 hcon) (hstat b' hb'.1).2
    linarith
  have hxmem : x ∈ scales := by
    obtain ⟨c, -, hc, -⟩ := c49_limit_partial limit hfs hm hne hs hsigmas
    exact ((hc x).1 hx).1
  have hxabove := habove x _ le_rfl (hstat x (hsub _ hxmem)).2
  -- a crossing is found
  have hfound : ∃ x', getLimit finer sigmas fit minStat limit = .ok x' := by
    have : ∀ l : List ℝ, (∃ a ∈ l, b' ≤ a ∧ limit < stat a - m) →
        ∃ a ∈ l, (b' ≤ a ∧ limit < stat a - m) ∧ ∀ y ∈ l, b' ≤ y → limit < stat y - m → a ≤ y := by
      intro l
      induction l with
      | nil => rintro ⟨a, ha, -⟩; cases ha
      | cons a l ih =>
        rintro ⟨c, hc, hcx⟩
        by_cases hl : ∃ a ∈ l, b' ≤ a ∧ limit < stat a - m
        · obtain ⟨d, h1, h2, h3⟩ := ih hl
          by_cases had : (b' ≤ a ∧ limit < stat a - m) ∧ a < d
          · refine ⟨a, by simp, had.1, fun y hy hyb hyl => ?_⟩
            rcases List.mem_cons.1 hy with rfl | hy
            · exact le_rfl
            · exact had.2.le.trans (h3 y hy hyb hyl)
          · refine ⟨d, by simp [h1], h2, fun y hy hyb hyl => ?_⟩
            rcases List.mem_cons.1 hy with rfl | hy
            · by_contra hyd
              exact had ⟨⟨hyb, hyl⟩, not_le.1 hyd⟩
            · exact h3 y hy hyb hyl
        · have hca : c = a := by
            rcases List.mem_cons.1 hc with h | h
            · exact h
            · exact absurd ⟨c, h, hcx⟩ hl
          subst hca
          refine ⟨c, by simp, hcx, fun y hy hyb hyl => ?_⟩
          rcases List.mem_cons.1 hy with rfl | hy
          · exact le_rfl
          · exact absurd ⟨y, hy, hyb, hyl⟩ hl
    obtain ⟨a, ha, ⟨ha1, ha2⟩, ha3⟩ := this finer ⟨x, hsub _ hxmem, hb'x.le, hxabove⟩
    refine ⟨a, (hg' a).2 ⟨ha, ha1, ?_, fun y hy h1 h2 => ?_⟩⟩
    · dsimp only
      rw [hpens a ha, add_zero]
      exact ha2
    · dsimp only
      rw [hpens y hy, add_zero]
      by_contra hcon
      exact absurd (ha3 y hy h1 (not_le.1 hcon)) (not_le.2 h2)
  obtain ⟨x', hx'⟩ := hfound
  obtain ⟨f1, f2, f3, f4⟩ := (hg' x').1 hx'
  dsimp only at f3 f4
  rw [hpens x' f1, add_zero] at f3
  refine ⟨x', hx', ?_, fun y hy hyx => ?_⟩
  · by_contra hcon
    have := f4 x (hsub _ hxmem) hb'x.le (not_le.1 hcon)
    rw [hpens x (hsub _ hxmem), add_zero] at this
    linarith
  · -- everything above `x'` is excluded, so `z`, which is allowed, is below
    have hex := c132_above st obs bkg sig hlen hsig b' x'
    have hyz : y ≤ z := (hgap y hy).resolve_right (not_le.2 hyx)
    refine hyz.trans_lt ?_
    by_contra hcon
    have hx'z := not_lt.1 hcon
    have hzal := hbelow z _ hbz le_rfl (hstat z (hsub _ hz)).2
    have hbx' : b' < x' := by
      refine lt_of_le_of_ne f2 ?_
      rintro rfl
      linarith
    have := hex z hbx' hx'z (hstat b' hb'.1).1 _ _ _ (hstat b' hb'.1).2 (hstat x' f1).2
      (hstat z (hsub _ hz)).2 (hb'.2 x' f1).1
    linarith

end Verif
