import Verif.Lemmas.Recover

/-! Helper lemmas: fits whose data are a combination of the floating backgrounds. -/

namespace Verif

open Session

variable {env : FitEnv} {rnd : ℝ → ℚ} {g : GridSearch} {vss : List (List ℝ)}

theorem RateSearch.injective_comb {n : ℕ} (h : RateSearch rnd g vss n) {w w' : List ℝ}
    (hw : Combination vss w) (hw' : Combination vss w') (e : w.map rnd = w'.map rnd) : w = w' := by
  have hi := h.injective
  clear h
  induction hw generalizing w' with
  | nil => cases hw'; rfl
  | @cons x vs w vss hx _ ih =>
    obtain ⟨y, w₂, hy, hw₂, rfl⟩ := List.forall₂_cons_right_iff.1 hw'
    simp only [List.map_cons, List.cons.injEq] at e
    rw [hi vs (by simp) x hx y hy e.1, ih hw₂ e.2 fun vs hvs => hi vs (by simp [hvs])]

theorem RateSearch.nonzero_comb {n : ℕ} (h : RateSearch rnd g vss n) {w : List ℝ}
    (hw : Combination vss w) : ∀ x ∈ w.map rnd, x ≠ 0 := by
  intro x hx
  obtain ⟨y, hy, rfl⟩ := List.mem_map.1 hx
  obtain ⟨vs, hvs, hm⟩ := forall₂_mem_left hw hy
  exact h.nonzero vs hvs y hm

theorem sumAt_base (a : FitArgs) (st : FitState) (rates : List ℚ) (x : ℕ → NdArray ℚ) (idx : List ℕ) :
    a.sumAt st rates x idx =
      (a.fixed.map (fun e => e.2 / (st.view e.1).numDecays * (x e.1).get idx)).sum +
      (a.signal.toList.map (fun r => (x r).get idx)).sum +
      (List.zipWith (fun r v => v / (st.view r).numDecays * (x r).get idx) a.floating rates).sum := by
  unfold FitArgs.sumAt; ring

/-- A fit with one rate for each of the backgrounds `fl`, whose expected contents are `base` and the
contents `cc` of the backgrounds, scaled from `n` decays to their rates; and the data are
this at `w₀`. -/
theorem recovers_core {f : Fit} {u : FitState} {sh : List ℕ} {obs : NdArray ℚ} {base : List ℕ → ℚ}
    {fl : List ℕ} {n : ℕ → ℚ} {cc : ℕ → NdArray ℚ} {fl' : List (ℕ × List PyStr)}
    (hready : FitReady env f u) (hsearch : RateSearch rnd g vss fl.length) (hne : fl ≠ [])
    (hlen : f.pars.length = fl.length) (f3 : f.statPerBin = false) (f4 : f.perBin = false)
    (f5 : f.singleBin = false) (f6 : f.floating = some fl') (hst : f.stat ≠ .bcChiUp)
    (hsig : ∀ p ∈ f.pars, (u.params p).sigma ≠ some 0) (hobs : obs.shape = sh)
    (hev : ∀ w, Combination vss w → ∃ e, evaluatedContents env f (w.map rnd) u = .ok (obs, some e) ∧
      e.shape = sh ∧ ∀ idx, InB sh idx → e.get idx = base idx +
        (List.zipWith (fun r v => v / n r * (cc r).get idx) fl (w.map rnd)).sum)
    (w₀ : List ℝ) (hw₀ : Combination vss w₀)
    (htruth : ∀ idx, InB sh idx → obs.get idx = base idx +
        (List.zipWith (fun r v => v / n r * (cc r).get idx) fl (w₀.map rnd)).sum)
    (hcount : ∀ w, Combination vss w → ∀ idx, InB sh idx → zeroThreshold ≤ ((base idx +
        (List.zipWith (fun r v => v / n r * (cc r).get idx) fl (w.map rnd)).sum : ℚ) : ℝ))
    (hprior : List.Forall₂ (fun p v => (u.params p).sigma ≠ none →
      ((v : ℚ) : ℝ) = (u.params p).prior) f.pars (w₀.map rnd))
    (hdec : ∀ r ∈ fl, n r ≠ 0) (hind : Independent sh (fl.map cc)) :
    ∃ result, (fitGrid env f rnd g u).2 = .ok result ∧ FoundExactly f.stat w₀ result := by
  have len : ∀ w, Combination vss w → (w.map rnd).length = fl.length := fun w hw => by
    rw [List.length_map, hw.length_eq, hsearch.number]
  have hcomp : ∀ e : NdArray ℚ, e.shape = sh → (comparedContents f.singleBin e =
      comparedContents f.singleBin obs ↔ ∀ idx, InB sh idx → e.get idx = base idx +
        (List.zipWith (fun r v => v / n r * (cc r).get idx) fl (w₀.map rnd)).sum) := by
    intro e he
    simp only [comparedContents, f5, Bool.false_eq_true, if_false, he, hobs]
    rw [List.map_inj_left]
    simp only [Rat.cast_inj, mem_allIdx]
    refine forall₂_congr fun idx hi => ?_
    rw [htruth idx hi]
  have hag : Agrees env f u (w₀.map rnd) := by
    obtain ⟨e, e1, e2, e3⟩ := hev w₀ hw₀
    exact ⟨⟨_, e, e1, (hcomp e e2).2 e3⟩, hprior⟩
  have hFS : FitSearch env f u rnd g vss :=
    { values := hsearch.values
      counts := hsearch.counts
      number := by rw [hsearch.number, hlen]
      floating := by rw [f6]; simp
      form := fun w r _ h => form_total hsearch.form f3 f4 h
      rates := fun w hw e hm _ => hsearch.nonzero_comb hw _ (List.of_mem_zip hm).2
      sigmas := hsearch.sigmas
      nonempty := .inr fun h0 => by
        have := hsearch.counts.length_eq
        rw [h0, hsearch.number] at this
        exact hne (List.length_eq_zero_iff.1 this.symm) }
  obtain ⟨F, P, hset⟩ := hFS.setup fun w hw => by
    obtain ⟨e, e1, e2, -⟩ := hev w hw
    obtain ⟨v, hv⟩ := funct_total (shape := sh) f6 (by rw [hlen]; exact len w hw) hready.pars f3 f4
      hsig (by
        rw [e1]
        show some (obs.shape, some e.shape) = _
        rw [e2, hobs])
    exact ⟨_, hv⟩
  have hall : ∀ w, Combination vss w → AllCount env f u (w.map rnd) := by
    intro w hw obs' e' h x hx
    obtain ⟨e, e1, e2, e3⟩ := hev w hw
    rw [e1] at h
    cases h
    simp only [comparedContents, f5, Bool.false_eq_true, if_false, e2, hobs, List.mem_append,
      List.mem_map, mem_allIdx] at hx
    rcases hx with ⟨idx, hi, rfl⟩ | ⟨idx, hi, rfl⟩
    · rw [htruth idx hi]
      exact hcount w₀ hw₀ idx hi
    · rw [e3 idx hi]
      exact hcount w hw idx hi
  obtain ⟨g', raw, pen, w, h1, h2, h3, -, h5, h6, h7, h8⟩ :=
    c133_closure_partial hready [] (by simp) hsearch.ready hset hsearch.nodup f3 hst
      hsig hall w₀ hw₀ hag
  have hw : w = w₀ := by
    refine h8 fun w hw hagw => hsearch.injective_comb hw hw₀ ?_
    obtain ⟨e, e1, e2, e3⟩ := hev w hw
    obtain ⟨⟨obs', e', a1, a2⟩, -⟩ := hagw
    rw [e1] at a1
    cases a1
    have heq := (hcomp e e2).1 a2
    have hz := hind (List.zipWith (fun r (x : ℚ × ℚ) => (x.1 - x.2) / n r) fl
      ((w.map rnd).zip (w₀.map rnd))) (by
        have l1 := len w hw
        have l2 := len w₀ hw₀
        simp only [List.length_zipWith, List.length_zip, List.length_map] at l1 l2 ⊢
        omega) fun idx hi => by
        have h1 := heq idx hi
        rw [e3 idx hi] at h1
        have h2 : (List.zipWith (fun r v => v / n r * (cc r).get idx) fl (w.map rnd)).sum -
            (List.zipWith (fun r v => v / n r * (cc r).get idx) fl (w₀.map rnd)).sum = 0 := by
          linarith
        rw [← h2]
        have l1 := len w hw
        have l2 := len w₀ hw₀
        clear * - l1 l2
        generalize w.map rnd = u, w₀.map rnd = v at l1 l2
        generalize fl = l at l1 l2
        induction l generalizing u v with
        | nil => simp
        | cons r l ih =>
          cases u with
          | nil => simp at l1
          | cons x u =>
            cases v with
            | nil => simp at l2
            | cons y v =>
              simp only [List.zip_cons_cons, List.zipWith_cons_cons, List.map_cons, List.sum_cons]
              rw [ih u v (by simpa using l1) (by simpa using l2)]
              ring
    have l1 := len w hw
    have l2 := len w₀ hw₀
    clear * - l1 l2 hz hdec
    generalize w.map rnd = u, w₀.map rnd = v at l1 l2 hz
    generalize fl = l at l1 l2 hz hdec
    induction l generalizing u v with
    | nil => rw [List.length_eq_zero_iff.1 l1, List.length_eq_zero_iff.1 l2]
    | cons r l ih =>
      cases u with
      | nil => simp at l1
      | cons x u =>
        cases v with
        | nil => simp at l2
        | cons y v =>
          simp only [List.zip_cons_cons, List.zipWith_cons_cons, List.mem_cons, forall_eq_or_imp] at hz
          rw [ih u v (by simpa using l1) (by simpa using l2) hz.2
            fun r hm => hdec r (List.mem_cons_of_mem _ hm)]
          have := hz.1
          rw [div_eq_zero_iff, or_iff_left (hdec r List.mem_cons_self), sub_eq_zero] at this
          rw [this]
  subst hw
  exact ⟨(g', raw, pen), h1, h3, h5, h6, h7⟩

end Verif
