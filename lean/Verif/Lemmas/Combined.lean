import Verif.Spec.Combined
import Verif.Lemmas.Fixing
import Verif.Lemmas.Outside
import Verif.Props.Add

/-! Helper lemmas: fixed backgrounds with the same total. -/

namespace Verif

open Session

/-- As `regionContents_kernel`: the cells that contribute are part of the region. -/
theorem regionContents_inside {roi : Dict (ℚ × ℚ)} (hr : IsDict roi) {s₀ : Spectrum}
    (hs₀ : CanShrink roi s₀) {ns : List PyStr} {c₀ : NdArray ℚ} (h₀ : RegionContents roi ns s₀ c₀) :
    ∃ (sub : List ℕ) (names : List PyStr) (rs : List (ℕ × ℕ)),
      (∀ full, InB sub full → InB s₀.data.shape (List.zipWith (fun r i => r.1 + i) rs full) ∧
        InRegion roi s₀.cfg (List.zipWith (fun r i => r.1 + i) rs full)) ∧
      ∀ (s : Spectrum) (c : NdArray ℚ), CanShrink roi s → s.cfg = s₀.cfg → RegionContents roi ns s c →
        ∀ idx, InB c₀.shape idx → c.get idx = sumIdx sub (fun full =>
          if pick ns names full = idx then s.data.get (List.zipWith (fun r i => r.1 + i) rs full)
          else 0) := by
  obtain ⟨t₀, ht₀, p₀⟩ := h₀
  obtain ⟨kw, hk⟩ := hs₀.asks
  obtain ⟨rs, a1, a2, a3, a4⟩ := hs₀.shrunk hr hk
  refine ⟨(s₀.shrink kw).st.data.shape, s₀.cfg.map SPar.name, rs, ?_, ?_⟩
  · intro full hf
    exact ⟨slice_inB hs₀.wf a1 a4.1 hf,
      slice_inRegion hs₀.wf hs₀.dims hk a1 (by rw [← a4.1.1]; exact hf)⟩
  · intro s c hs hc ⟨t, ht, p⟩
    have hk' : AsksRoi s.cfg roi kw := hc ▸ hk
    have a1' : AsksEdges s kw rs := by
      unfold AsksEdges BoundKeys at a1 ⊢
      rw [hc]; exact a1
    obtain ⟨b3, b4⟩ := c16_shrink_edges s hs.wf hs.aligned kw rs a1'
    have hself' : ShrunkTo roi s (s.shrink kw).st :=
      ⟨kw, hk', b3, ⟨⟨rfl, rfl, rfl, rfl, rfl⟩, rfl, fun _ _ => rfl⟩⟩
    obtain ⟨⟨-, e2, -⟩, e6, e7⟩ := shrunkTo_unique hr hs hself' ht
    obtain ⟨c1, c2, -⟩ := shrunkTo_same_axes hr hs₀ hs hc ht₀ ht
    have hsub : (s.shrink kw).st.data.shape = (s₀.shrink kw).st.data.shape := by rw [b4.1.1, a4.1.1]
    have hn : t.cfg.map SPar.name = s₀.cfg.map SPar.name := by rw [shrunkTo_cfg ht, hc]
    have hsh : c.shape = c₀.shape := by rw [p.1, p₀.1, c1, c2]
    intro idx hi
    rw [p.2 idx (hsh ▸ hi), hn, ← e6, hsub]
    refine sumIdx_congr fun full hf => ?_
    rw [← e7 full (hsub ▸ hf), b4.1.2 full (hsub ▸ hf)]

namespace FitArgs

variable {a b : FitArgs} {d q : ℕ} {st : FitState}

theorem summed_contents {l : List (ℕ × ℚ)} {t : Spectrum}
    (h : Summed (l.map (fun e => (st.view e.1, e.2))) t) :
    t.numDecays = (l.map Prod.snd).sum ∧ ∀ idx, t.data.get idx = fixedAt st l idx := by
  have scaled : ∀ (s : Spectrum) (v : ℚ), (s.scale v).err = none → (s.scale v).st.numDecays = v ∧
      ∀ idx, (s.scale v).st.data.get idx = v / s.numDecays * s.data.get idx := by
    intro s v hs
    by_cases h0 : s.numDecays = 0
    · rw [((c09_scale s v).2 h0).1] at hs
      cases hs
    · obtain ⟨-, h2, -, h4, -⟩ := (c09_scale s v).1 h0
      exact ⟨h4, fun idx => by rw [h2]; ring⟩
  induction l generalizing t with
  | nil => exact absurd h id
  | cons e l ih =>
    cases l with
    | nil =>
      obtain ⟨h1, rfl⟩ := h
      obtain ⟨k1, k2⟩ := scaled _ _ h1
      refine ⟨by rw [k1]; simp, fun idx => by rw [k2]; simp [fixedAt]⟩
    | cons e' l =>
      obtain ⟨u, hu, h1, h2, rfl⟩ := h
      obtain ⟨k1, k2⟩ := scaled _ _ h1
      obtain ⟨m1, m2⟩ := ih hu
      obtain ⟨-, -, n3, -, -, n6, -⟩ := (c05_add _ _).1 h2
      refine ⟨?_, fun idx => ?_⟩
      · rw [n6, m1, k1, List.map_cons (l := e' :: l), List.sum_cons, add_comm]
      · rw [n3, m2, k2]
        unfold fixedAt
        rw [List.map_cons (l := e' :: l), List.sum_cons, add_comm]

theorem Combines.sameTotal (h : a.Combines b q d st) : a.SameTotal b d st where
  rest := by rw [h.rest]
  total idx hi _ := by
    obtain ⟨t, h1, h2, h3⟩ := h.sum
    obtain ⟨k1, k2⟩ := summed_contents h1
    rw [← k2, ← h3 idx hi, h.rest]
    unfold fixedAt
    simp only [List.map_cons, List.map_nil, List.sum_cons, List.sum_nil, add_zero]
    rw [h2, k1, div_self h.decays, one_mul]

/-- What fixed backgrounds contribute to a bin of the region. -/
theorem fixedAt_region {ns : List PyStr} {c : ℕ → NdArray ℚ}
    {names : List PyStr} {rs : List (ℕ × ℕ)} {sub : List ℕ} {idx : List ℕ} (l : List (ℕ × ℚ))
    (h : ∀ e ∈ l, (c e.1).get idx = sumIdx sub (fun full => if pick ns names full = idx then
      (st.view e.1).data.get (List.zipWith (fun r i => r.1 + i) rs full) else 0)) :
    (l.map (fun e => e.2 / (st.view e.1).numDecays * (c e.1).get idx)).sum =
      sumIdx sub (fun full => if pick ns names full = idx then
        fixedAt st l (List.zipWith (fun r i => r.1 + i) rs full) else 0) := by
  unfold fixedAt
  rw [sumIdx_ite_list l sub (fun e full => e.2 / (st.view e.1).numDecays *
    (st.view e.1).data.get (List.zipWith (fun r i => r.1 + i) rs full))]
  congr 1
  refine List.map_congr_left fun e he => ?_
  rw [h e he, mul_comm, ← sumIdx_mul]
  refine sumIdx_congr fun full _ => ?_
  rw [ite_mul, zero_mul, mul_comm]

namespace SameTotal

variable (h : a.SameTotal b d st)
include h

/-- The totals in the region. -/
theorem region {roi : Dict (ℚ × ℚ)} (hroi : roi = inOrder a.roi) (hr : IsDict roi) {ns : List PyStr}
    {c : ℕ → NdArray ℚ} (hd : CanShrink roi (st.view d)) (hcd : RegionContents roi ns (st.view d) (c d))
    (ha : ∀ r ∈ a.fixed.map Prod.fst ++ b.fixed.map Prod.fst, CanShrink roi (st.view r) ∧
      (st.view r).cfg = (st.view d).cfg ∧ RegionContents roi ns (st.view r) (c r))
    {idx : List ℕ} (hi : InB (c d).shape idx) :
    (b.fixed.map (fun e => e.2 / (st.view e.1).numDecays * (c e.1).get idx)).sum =
      (a.fixed.map (fun e => e.2 / (st.view e.1).numDecays * (c e.1).get idx)).sum := by
  subst hroi
  obtain ⟨sub, names, rs, k1, k2⟩ := regionContents_inside hr hd hcd
  rw [fixedAt_region (sub := sub) (ns := ns) (names := names) (rs := rs) b.fixed
      fun e he => by
        obtain ⟨b1, b2, b3⟩ := ha e.1 (List.mem_append_right _ (List.mem_map_of_mem he))
        exact k2 _ _ b1 b2 b3 idx hi,
    fixedAt_region (sub := sub) (ns := ns) (names := names) (rs := rs) a.fixed
      fun e he => by
        obtain ⟨b1, b2, b3⟩ := ha e.1 (List.mem_append_left _ (List.mem_map_of_mem he))
        exact k2 _ _ b1 b2 b3 idx hi]
  refine sumIdx_congr fun full hf => ?_
  obtain ⟨f1, f2⟩ := k1 full hf
  rw [h.total _ f1 f2]

theorem penaltyAt (u : List ℝ) : b.penaltyAt st u = a.penaltyAt st u := by
  rw [h.rest]; rfl

theorem ownRates (ho : a.OwnRates st) : b.OwnRates st := by
  rw [h.rest]
  exact ⟨ho.floating, ho.config, ho.one, ho.sigmas, ho.statPerBin, ho.perBin⟩

theorem settings (hs : a.Settings st) : b.Settings st := by
  rw [h.rest]
  exact ⟨hs.floating, hs.fixed, hs.dimension, hs.perBin⟩

theorem kept : b.kept = a.kept := by rw [h.rest]; rfl

theorem evaluable {env : FitEnv} {keyOf : ℕ → PyStr} (he : a.Evaluable env keyOf d st)
    (hax : ∀ r ∈ b.fixed.map Prod.fst, (st.view r).cfg = (st.view d).cfg) :
    b.Evaluable env keyOf d st := by
  rw [h.rest]
  refine ⟨he.data, he.str, he.cache, he.backgrounds, fun r hr => ?_, he.dims, he.decays,
    he.names, he.pars, he.globals, he.rates⟩
  rcases List.mem_append.1 hr with hr | hr
  · exact he.axes r (List.mem_append_left _ hr)
  · exact hax r hr

theorem withSignal (r : ℕ) : (a.withSignal r).SameTotal (b.withSignal r) d st where
  rest := congrArg (fun e : FitArgs => e.withSignal r) h.rest
  total := h.total

end SameTotal

end FitArgs

end Verif
