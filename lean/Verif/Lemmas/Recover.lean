import Verif.Spec.Recover
import Verif.Props.FitWhole
import Verif.Props.Closure

/-! Helper lemmas: contents of the region are linear in the contents of the spectra. -/

namespace Verif

/-- The contents of the region are determined. -/
theorem regionContents_unique {roi : Dict (ℚ × ℚ)} (hr : IsDict roi) {s : Spectrum}
    (hs : CanShrink roi s) {ns : List PyStr} {c c' : NdArray ℚ} (h : RegionContents roi ns s c)
    (h' : RegionContents roi ns s c') :
    c'.shape = c.shape ∧ ∀ idx, InB c.shape idx → c'.get idx = c.get idx := by
  obtain ⟨t, ht, h1, h2⟩ := h
  obtain ⟨t', ht', h1', h2'⟩ := h'
  obtain ⟨⟨-, e2, -⟩, e6, e7⟩ := shrunkTo_unique hr hs ht ht'
  have hsh : c'.shape = c.shape := by rw [h1, h1', e2, e6]
  refine ⟨hsh, fun idx hi => ?_⟩
  rw [h2 idx hi, h2' idx (hsh ▸ hi), e2, ← e6]
  refine sumIdx_congr fun full hf => ?_
  rw [e7 full hf]

theorem slice_inB {s t : Spectrum} (hs : s.WF) {kw : List (PyStr × ℚ)} {rs : List (ℕ × ℕ)}
    (h : AsksEdges s kw rs) (ht : IsSlice s rs t) {full : List ℕ} (hf : InB t.data.shape full) :
    InB s.data.shape (List.zipWith (fun r i => r.1 + i) rs full) := by
  have h2 := h.2.2
  have hsh := hs.shape
  rw [ht.1] at hf
  clear * - h2 hsh hf
  generalize s.cfg = cfg at h2 hsh
  generalize s.data.shape = sh at hsh ⊢
  induction h2 generalizing full sh with
  | nil =>
    cases hf
    cases sh with
    | nil => exact .nil
    | cons _ _ => simp at hsh
  | @cons p r cfg rs h1 _ ih =>
    cases sh with
    | nil => simp at hsh
    | cons n sh =>
      simp only [List.map_cons, List.cons.injEq] at hsh hf
      obtain ⟨i, full, hi, hf', rfl⟩ := List.forall₂_cons_right_iff.1 hf
      refine .cons ?_ (ih hf' sh hsh.2)
      have := h1.2.1
      rw [← hsh.1] at this
      have hr : r.2 ≤ n := by exact_mod_cast this
      show r.1 + i < n
      omega

/-- How the contents of the region depend on those of the spectrum: `K` does not depend on the
spectrum, only on the axes. -/
theorem regionContents_kernel {roi : Dict (ℚ × ℚ)} (hr : IsDict roi) {s₀ : Spectrum}
    (hs₀ : CanShrink roi s₀) {ns : List PyStr} {c₀ : NdArray ℚ} (h₀ : RegionContents roi ns s₀ c₀) :
    ∃ (sub : List ℕ) (names : List PyStr) (rs : List (ℕ × ℕ)), sub = rs.map (fun r => r.2 - r.1) ∧
      (∀ full, InB sub full → InB s₀.data.shape (List.zipWith (fun r i => r.1 + i) rs full)) ∧
      ∀ (s : Spectrum) (c : NdArray ℚ), CanShrink roi s → s.cfg = s₀.cfg → RegionContents roi ns s c →
        c.shape = c₀.shape ∧ ∀ idx, InB c₀.shape idx → c.get idx = sumIdx sub (fun full =>
          if pick ns names full = idx then s.data.get (List.zipWith (fun r i => r.1 + i) rs full)
          else 0) := by
  obtain ⟨t₀, ht₀, p₀⟩ := h₀
  obtain ⟨kw, hk⟩ := hs₀.asks
  obtain ⟨rs, a1, a2, a3, a4⟩ := hs₀.shrunk hr hk
  have hself : ShrunkTo roi s₀ (s₀.shrink kw).st :=
    ⟨kw, hk, a3, ⟨⟨rfl, rfl, rfl, rfl, rfl⟩, rfl, fun _ _ => rfl⟩⟩
  refine ⟨(s₀.shrink kw).st.data.shape, s₀.cfg.map SPar.name, rs, a4.1.1, ?_, ?_⟩
  · intro full hf
    exact slice_inB hs₀.wf a1 a4.1 hf
  · intro s c hs hc ⟨t, ht, p⟩
    have hk' : AsksRoi s.cfg roi kw := hc ▸ hk
    have a1' : AsksEdges s kw rs := by
      unfold AsksEdges BoundKeys at a1 ⊢
      rw [hc]; exact a1
    obtain ⟨b3, b4⟩ := c16_shrink_edges s hs.wf hs.aligned kw rs a1'
    have hself' : ShrunkTo roi s (s.shrink kw).st :=
      ⟨kw, hk', b3, ⟨⟨rfl, rfl, rfl, rfl, rfl⟩, rfl, fun _ _ => rfl⟩⟩
    obtain ⟨⟨-, e2, -⟩, e6, e7⟩ := shrunkTo_unique hr hs hself' ht
    obtain ⟨c1, c2, -⟩ := shrunkTo_same_axes hr hs₀ hs hc ht₀ ht
    have hsub : (s.shrink kw).st.data.shape = (s₀.shrink kw).st.data.shape := by rw [b4.1.1, a4.1.1]
    have hn : t.cfg.map SPar.name = s₀.cfg.map SPar.name := by rw [shrunkTo_cfg ht, hc]
    have hsh : c.shape = c₀.shape := by rw [p.1, p₀.1, c1, c2]
    refine ⟨hsh, fun idx hi => ?_⟩
    rw [p.2 idx (hsh ▸ hi), hn, ← e6, hsub]
    refine sumIdx_congr fun full hf => ?_
    rw [← e7 full (hsub ▸ hf), b4.1.2 full (hsub ▸ hf)]

/-- A spectrum that is a combination of others has the same combination in the region. -/
theorem regionContents_linear {roi : Dict (ℚ × ℚ)} (hr : IsDict roi) {ns : List PyStr}
    {s : ℕ → Spectrum} {c : ℕ → NdArray ℚ} {d : ℕ} {l : List (ℚ × ℕ)}
    (hs : ∀ r ∈ d :: l.map Prod.snd, CanShrink roi (s r) ∧ (s r).cfg = (s d).cfg ∧
      RegionContents roi ns (s r) (c r))
    (h : ∀ full, InB (s d).data.shape full →
      (s d).data.get full = (l.map (fun e => e.1 * (s e.2).data.get full)).sum)
    {idx : List ℕ} (hi : InB (c d).shape idx) :
    (c d).get idx = (l.map (fun e => e.1 * (c e.2).get idx)).sum := by
  obtain ⟨a1, -, a3⟩ := hs d (by simp)
  obtain ⟨sub, names, rs, -, k2, k3⟩ := regionContents_kernel hr a1 a3
  rw [(k3 _ _ a1 rfl a3).2 idx hi]
  have e1 : ∀ full, InB sub full → (if pick ns names full = idx then
      (s d).data.get (List.zipWith (fun r i => r.1 + i) rs full) else 0) =
      if pick ns names full = idx then (l.map (fun e => e.1 *
        (s e.2).data.get (List.zipWith (fun r i => r.1 + i) rs full))).sum else 0 := by
    intro full hf
    rw [h _ (k2 full hf)]
  rw [sumIdx_congr e1, sumIdx_ite_list]
  congr 1
  refine List.map_congr_left fun e he => ?_
  obtain ⟨b1, b2, b3⟩ := hs e.2 (List.mem_cons_of_mem _ (List.mem_map_of_mem he))
  rw [(k3 _ _ b1 b2 b3).2 idx hi, mul_comm, ← sumIdx_mul]
  refine sumIdx_congr fun full _ => ?_
  rw [ite_mul, zero_mul, mul_comm]

/-- The terms of the sum of the given spectra. -/
def FitArgs.sumTerms (a : FitArgs) (st : FitState) (rates : List ℚ) : List (ℚ × ℕ) :=
  a.fixed.map (fun e => (e.2 / (st.view e.1).numDecays, e.1)) ++
  List.zipWith (fun r v => (v / (st.view r).numDecays, r)) a.floating rates ++
  a.signal.toList.map (fun r => (1, r))

theorem sumAt_terms (a : FitArgs) (st : FitState) (rates : List ℚ) (x : ℕ → NdArray ℚ) (idx : List ℕ) :
    a.sumAt st rates x idx = ((a.sumTerms st rates).map (fun e => e.1 * (x e.2).get idx)).sum := by
  unfold FitArgs.sumAt FitArgs.sumTerms
  simp only [List.map_append, List.sum_append, List.map_map, Function.comp_def, one_mul,
    List.map_zipWith]

theorem sumTerms_mem {a : FitArgs} {st : FitState} {rates : List ℚ} {e : ℚ × ℕ}
    (h : e ∈ a.sumTerms st rates) :
    e.2 ∈ a.floating ++ a.signal.toList ++ a.fixed.map Prod.fst := by
  unfold FitArgs.sumTerms at h
  simp only [List.mem_append, List.mem_map] at h ⊢
  rcases h with (⟨x, hx, rfl⟩ | h) | ⟨r, hr, rfl⟩
  · exact .inr ⟨x, hx, rfl⟩
  · left; left
    rw [← List.map_uncurry_zip_eq_zipWith, List.mem_map] at h
    obtain ⟨⟨r, v⟩, hm, rfl⟩ := h
    exact (List.of_mem_zip hm).1
  · exact .inl (.inr hr)

theorem exists_map_eq {l : List ℕ} (hn : l.Nodup) {m : List ℚ} (hl : m.length = l.length) :
    ∃ f : ℕ → ℚ, l.map f = m := by
  induction l generalizing m with
  | nil => exact ⟨fun _ => 0, by rw [List.length_eq_zero_iff.1 hl]; rfl⟩
  | cons x l ih =>
    cases m with
    | nil => simp at hl
    | cons y m =>
      obtain ⟨hx, hn⟩ := List.nodup_cons.1 hn
      obtain ⟨f, hf⟩ := ih hn (m := m) (by simpa using hl)
      refine ⟨Function.update f x y, ?_⟩
      rw [List.map_cons, Function.update_self, ← hf]
      congr 1
      refine List.map_congr_left fun z hz => ?_
      rw [Function.update_of_ne]
      rintro rfl
      exact hx hz

end Verif
