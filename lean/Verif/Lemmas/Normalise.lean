import Verif.Spec.Normalise
import Verif.Lemmas.FitFound
import Verif.Props.Linear

/-! Helper lemmas: objects whose spectra have been scaled. -/

namespace Verif

open Session

/-- The same objects, but spectra may be scaled to other numbers of decays. -/
structure Renormalised (st st' : FitState) : Prop where
  cfgs : st'.cfgs = st.cfgs
  next : st'.next = st.next
  params : st'.params = st.params
  cache : st'.cache = st.cache
  rest : ∀ q, (st'.objs q).background = (st.objs q).background ∧ (st'.objs q).cfg = (st.objs q).cfg ∧
    (st'.objs q).fit = (st.objs q).fit
  view : ∀ q, st'.view q = st.view q ∨ ((st.view q).numDecays ≠ 0 ∧
    ∃ n, n ≠ 0 ∧ st'.view q = ((st.view q).scale n).st)

theorem scaled_scale {st : FitState} {r : ℕ} (h : (st.view r).numDecays ≠ 0) (n : ℚ) :
    (st.scaled r n).view r = ((st.view r).scale n).st := by
  have hs : (st.view r).scale n = .ok { st.view r with
      data := (st.view r).data.smul (n / (st.view r).numDecays), numDecays := n } := by
    unfold Spectrum.scale
    rw [if_neg h]
  rw [hs]
  simp only [FitState.view, scaled_self h n, (scaled_rest h n).1, Outcome.ok]
  congr 1
  refine congrArg (NdArray.mk _) (funext fun idx => ?_)
  simp only [NdArray.norm, NdArray.smul]
  split
  · rfl
  · simp

theorem renormalised_after {st : FitState} {l : List (ℕ × ℚ)}
    (hl : ∀ e ∈ l, (st.view e.1).numDecays ≠ 0 ∧ e.2 ≠ 0) :
    Renormalised st (st.afterScaling l) ∧
      ∀ q, q ∉ l.map Prod.fst → (st.afterScaling l).view q = st.view q := by
  induction l using List.reverseRecOn with
  | nil => exact ⟨⟨rfl, rfl, rfl, rfl, fun _ => ⟨rfl, rfl, rfl⟩, fun _ => .inl rfl⟩, fun _ _ => rfl⟩
  | append_singleton l e ih =>
    obtain ⟨ih1, ih2⟩ := ih fun x hx => hl x (by simp [hx])
    obtain ⟨h1, h2⟩ := hl e (by simp)
    have e0 : st.afterScaling (l ++ [e]) = (st.afterScaling l).scaled e.1 e.2 := by
      unfold FitState.afterScaling; rw [List.foldl_append]; rfl
    rw [e0]
    generalize st.afterScaling l = s at ih1 ih2
    have hd : (s.view e.1).numDecays ≠ 0 := by
      rcases ih1.view e.1 with h | ⟨h, n, hn, hv⟩
      · rw [h]; exact h1
      · rw [hv]
        have := ((c09_scale (st.view e.1) n).1 h).2.2.2.1
        rw [this]; exact hn
    obtain ⟨r1, r2, r3, r4⟩ := scaled_rest hd e.2
    refine ⟨⟨r1.trans ih1.cfgs, r2.trans ih1.next, r3.trans ih1.params, r4.trans ih1.cache,
      fun q => ?_, fun q => ?_⟩, fun q hq => ?_⟩
    · by_cases hq : q = e.1
      · subst hq
        rw [scaled_self hd]
        exact ih1.rest e.1
      · rw [scaled_objs hd _ hq]
        exact ih1.rest q
    · by_cases hq : q = e.1
      · subst hq
        refine .inr ⟨h1, e.2, h2, ?_⟩
        rw [scaled_scale hd]
        rcases ih1.view e.1 with h | ⟨h, n, hn, hv⟩
        · rw [h]
        · rw [hv, (c09_scale_scale _ n e.2 h hn).2]
      · rw [scaled_view hd _ hq]
        exact ih1.view q
    · simp only [List.map_append, List.map_cons, List.map_nil, List.mem_append, List.mem_singleton,
        not_or] at hq
      rw [scaled_view hd _ hq.2]
      exact ih2 q hq.1

section

variable {roi : Dict (ℚ × ℚ)} {s : Spectrum} {n : ℚ}

theorem scale_axes (s : Spectrum) (n : ℚ) :
    (s.scale n).st.cfg = s.cfg ∧ (s.scale n).st.data.shape = s.data.shape := by
  unfold Spectrum.scale
  split <;> exact ⟨rfl, rfl⟩

theorem CanShrink.scaled (h : CanShrink roi s) (n : ℚ) : CanShrink roi (s.scale n).st := by
  obtain ⟨e1, e2⟩ := scale_axes s n
  refine ⟨⟨?_, ?_, ?_⟩, ?_, ?_, ?_, ?_⟩
  · rw [e1]; exact h.wf.axes
  · rw [e1]; exact h.wf.names
  · rw [e1, e2]; exact h.wf.shape
  · rw [e1]; exact h.aligned
  · rw [e1]; exact h.dims
  · rw [e1]; exact h.edges
  · rw [e1]; exact h.has

theorem ShrunkScaled.scaled {m : ℚ} {t : Spectrum} (hs : s.numDecays ≠ 0) (hn : n ≠ 0)
    (h : ShrunkScaled roi s m t) : ShrunkScaled roi (s.scale n).st m t := by
  obtain ⟨kw, h1, h2, rfl, h4⟩ := h
  obtain ⟨c1, c2, c3⟩ := c122_scale_shrink s n hs kw
  have hd : (s.shrink kw).st.numDecays ≠ 0 := fun h0 => by
    have := ((c09_scale (s.shrink kw).st m).2 h0).1
    rw [h4] at this; cases this
  obtain ⟨d1, d2⟩ := c09_scale_scale _ n m hd hn
  refine ⟨kw, by rw [(scale_axes s n).1]; exact h1, c1.trans h2, ?_, ?_⟩
  · rw [c2, d2]
  · rw [c2]; exact d1

theorem ShrunkScaled.decays {m : ℚ} {t : Spectrum} (hroi : IsDict roi) (hc : CanShrink roi s)
    (h : ShrunkScaled roi s m t) : s.numDecays ≠ 0 := by
  obtain ⟨kw, h1, h2, rfl, h4⟩ := h
  intro h0
  have hT : ShrunkTo roi s (s.shrink kw).st :=
    ⟨kw, h1, h2, ⟨⟨rfl, rfl, rfl, rfl, rfl⟩, rfl, fun _ _ => rfl⟩⟩
  have := (shrunkTo_same_axes hroi hc hc rfl hT hT).2.2
  have := ((c09_scale (s.shrink kw).st m).2 (by rw [this]; exact h0)).1
  rw [h4] at this; cases this

theorem RegionContents.scaled (hroi : IsDict roi) (hcan : CanShrink roi s) {ns : List PyStr}
    {c : NdArray ℚ} (hs : s.numDecays ≠ 0) (h : RegionContents roi ns s c) :
    RegionContents roi ns (s.scale n).st (c.smul (n / s.numDecays)) := by
  obtain ⟨t, ⟨kw, h1, h2, h3⟩, h4, h5⟩ := h
  have hT : ShrunkTo roi s (s.shrink kw).st :=
    ⟨kw, h1, h2, ⟨⟨rfl, rfl, rfl, rfl, rfl⟩, rfl, fun _ _ => rfl⟩⟩
  have hd := (shrunkTo_same_axes hroi hcan hcan rfl hT hT).2.2
  obtain ⟨c1, c2, -⟩ := c122_scale_shrink s n hs kw
  have hsc : (s.shrink kw).st.scale n = .ok { (s.shrink kw).st with
      data := (s.shrink kw).st.data.smul (n / s.numDecays), numDecays := n } := by
    unfold Spectrum.scale
    rw [hd, if_neg hs]
  refine ⟨{ t with data := t.data.smul (n / s.numDecays), numDecays := n },
    ⟨kw, by rw [(scale_axes s n).1]; exact h1, c1.trans h2, ?_⟩, h4, fun idx hi => ?_⟩
  · obtain ⟨⟨a1, a2, a3, a4, a5⟩, b1, b2⟩ := h3
    rw [c2, hsc]
    exact ⟨⟨a1, a2, rfl, a4, a5⟩, b1, fun idx hi => by
      show (s.shrink kw).st.data.get idx * _ = t.data.get idx * _
      rw [b2 idx hi]⟩
  · show c.get idx * _ = _
    rw [h5 idx hi, ← sumIdx_mul]
    refine sumIdx_congr fun full _ => ?_
    rw [ite_mul, zero_mul]
    rfl

end

namespace Renormalised

variable {st st' : FitState} (h : Renormalised st st')

include h

theorem cfg (q : ℕ) : (st'.view q).cfg = (st.view q).cfg := by
  rcases h.view q with e | ⟨-, n, -, e⟩
  · rw [e]
  · rw [e, (scale_axes _ _).1]

theorem decays {q : ℕ} (hq : (st.view q).numDecays ≠ 0) : (st'.view q).numDecays ≠ 0 := by
  rcases h.view q with e | ⟨h1, n, hn, e⟩
  · rw [e]; exact hq
  · rw [e, ((c09_scale _ n).1 h1).2.2.2.1]; exact hn

theorem can {roi : Dict (ℚ × ℚ)} {q : ℕ} (hq : CanShrink roi (st.view q)) :
    CanShrink roi (st'.view q) := by
  rcases h.view q with e | ⟨h1, n, hn, e⟩
  · rw [e]; exact hq
  · rw [e]; exact hq.scaled n

theorem suppliable {roi : Dict (ℚ × ℚ)} {d : List (ℕ × ℚ)} {ts : List Spectrum}
    (hs : Suppliable roi d ts st) : Suppliable roi d ts st' := by
  refine ⟨fun q hq => h.next ▸ hs.alloc q hq, ?_, hs.region, fun e he => by rw [h.cfg]; exact hs.dims e he,
    fun e he => by rw [h.cfg]; exact hs.names e he, hs.shrunk.imp fun e t ht => ?_, hs.axes⟩
  · have : (fun e : ℕ × ℚ => (st'.objs e.1).cfg) = fun e => (st.objs e.1).cfg :=
      funext fun e => (h.rest e.1).2.1
    rw [this]; exact hs.own
  · rcases h.view e.1 with e' | ⟨h1, n, hn, e'⟩
    · rw [e']; exact ht
    · rw [e']; exact ht.scaled h1 hn

theorem given {a : FitArgs} {ts : List Spectrum} (hg : a.Given ts st) : a.Given ts st' := by
  refine ⟨hg.region, hg.some, fun q hq => h.next ▸ hg.alloc q hq, ?_, fun q hq => h.can (hg.able q hq),
    h.suppliable hg.fixed⟩
  have : (fun q => (st'.objs q).cfg) = fun q => (st.objs q).cfg := funext fun q => (h.rest q).2.1
  rw [this]; exact hg.own

theorem settings {a : FitArgs} (hs : a.Settings st) : a.Settings st' := by
  refine ⟨fun hf => ?_, hs.fixed, by rw [h.params]; exact hs.dimension, hs.perBin⟩
  rcases hs.floating hf with h1 | ⟨r, hr, h2⟩
  · exact .inl h1
  · exact .inr ⟨r, hr, by rw [(h.rest r).2.2]; exact h2⟩

theorem ownPars (a : FitArgs) : a.ownPars st' = a.ownPars st := by
  unfold FitArgs.ownPars
  rw [show (fun r => (st'.objs r).fit.getD []) = fun r => (st.objs r).fit.getD [] from
    funext fun r => by rw [(h.rest r).2.2]]

theorem parameters (a : FitArgs) : a.parameters st' = a.parameters st := by
  unfold FitArgs.parameters
  rw [h.ownPars]

theorem penaltyAt (a : FitArgs) (u : List ℝ) : a.penaltyAt st' u = a.penaltyAt st u := by
  unfold FitArgs.penaltyAt
  rw [h.parameters, h.params]

theorem evaluable {env : FitEnv} {keyOf : ℕ → PyStr} {a : FitArgs} {d : ℕ}
    (he : a.Evaluable env keyOf d st) : a.Evaluable env keyOf d st' := by
  refine ⟨he.data, he.str, h.cache.trans he.cache, ?_, fun r hr => by rw [h.cfg, h.cfg]; exact he.axes r hr,
    by rw [h.cfg]; exact he.dims, fun r hr => h.decays (he.decays r hr), ?_, ?_, ?_, ?_⟩
  · have : (fun r => (st'.objs r).background) = fun r => (st.objs r).background :=
      funext fun r => (h.rest r).1
    rw [this]; exact he.backgrounds
  · rw [h.ownPars]; exact he.names
  · rw [h.parameters]; exact he.pars
  · rw [h.params]; exact he.globals
  · rw [h.ownPars, h.params]; exact he.rates

theorem ownRates {a : FitArgs} (ho : a.OwnRates st) : a.OwnRates st' := by
  refine ⟨ho.floating, ho.config, fun r hr => ?_, ?_, ho.statPerBin, ho.perBin⟩
  · rw [(h.rest r).2.2]; exact ho.one r hr
  · rw [h.parameters, h.params]; exact ho.sigmas

theorem limitOn {a : FitArgs} {r d : ℕ} {ts : List Spectrum} (hl : a.LimitOn r d ts st) :
    a.LimitOn r d ts st' := by
  refine ⟨h.given hl.given, h.settings hl.settings, hl.signal, hl.data,
    fun q hq => by rw [h.cfg, h.cfg]; exact hl.axes q hq, by rw [(h.rest r).2.2]; exact hl.fit,
    h.decays hl.decays, by rw [h.cfg]; exact hl.region⟩

/-- Contents of the region are multiplied, as are the decays. -/
theorem contents : ∃ k : ℕ → ℚ, ∀ q, k q ≠ 0 ∧ (st'.view q = st.view q → k q = 1) ∧
    (st'.view q).numDecays = k q * (st.view q).numDecays ∧
    ∀ (roi : Dict (ℚ × ℚ)) (ns : List PyStr) (c : NdArray ℚ), IsDict roi → CanShrink roi (st.view q) →
      RegionContents roi ns (st.view q) c → RegionContents roi ns (st'.view q) (c.smul (k q)) := by
  have : ∀ q, ∃ k : ℚ, k ≠ 0 ∧ (st'.view q = st.view q → k = 1) ∧
    (st'.view q).numDecays = k * (st.view q).numDecays ∧
    ∀ (roi : Dict (ℚ × ℚ)) (ns : List PyStr) (c : NdArray ℚ), IsDict roi → CanShrink roi (st.view q) →
      RegionContents roi ns (st.view q) c → RegionContents roi ns (st'.view q) (c.smul k) := by
    intro q
    rcases h.view q with e | ⟨h1, n, hn, e⟩
    · refine ⟨1, one_ne_zero, fun _ => rfl, by rw [e, one_mul], fun roi ns c _ _ hc => ?_⟩
      rw [e]
      have : c.smul 1 = c := by simp [NdArray.smul]
      rw [this]; exact hc
    · refine ⟨n / (st.view q).numDecays, div_ne_zero hn h1, fun he => ?_, ?_, fun roi ns c hr hs hc => ?_⟩
      · have := ((c09_scale _ n).1 h1).2.2.2.1
        rw [← e, he] at this
        rw [this]; exact div_self (this ▸ h1)
      · rw [e, ((c09_scale _ n).1 h1).2.2.2.1, div_mul_cancel₀ _ h1]
      · rw [e]; exact hc.scaled hr hs h1
  choose k hk using this
  exact ⟨k, hk⟩

end Renormalised

theorem term_scaled {k : ℚ} (hk : k ≠ 0) (v n x : ℚ) : v / (k * n) * (x * k) = v / n * x := by
  rw [div_mul_eq_mul_div, div_mul_eq_mul_div, show v * (x * k) = k * (v * x) by ring,
    mul_div_mul_left _ _ hk]

theorem sumAt_scaled {a : FitArgs} {st st' : FitState} {k : ℕ → ℚ} (hk : ∀ q, k q ≠ 0)
    (hn : ∀ q, (st'.view q).numDecays = k q * (st.view q).numDecays) (hsig : ∀ r ∈ a.signal.toList, k r = 1)
    (rates : List ℚ) (c : ℕ → NdArray ℚ) (idx : List ℕ) :
    a.sumAt st' rates (fun q => (c q).smul (k q)) idx = a.sumAt st rates c idx := by
  unfold FitArgs.sumAt
  simp only [hn, NdArray.smul, term_scaled (hk _)]
  congr 2
  refine List.map_congr_left fun r hr => ?_
  rw [hsig r hr, mul_one]

end Verif
