import Verif.Lemmas.FitLimitFixed
import Verif.Lemmas.FitOff
import Verif.Lemmas.ConvScale

/-! Helper lemmas: limits set with a fit by grid search. -/

namespace Verif

open Session

variable {env : FitEnv} {rnd : ℝ → ℚ} {r : ℕ}

/-! ### the grid search -/

/-- The search differs only in the contents of its arrays and in what it has reported. -/
structure SearchLike (g0 g : GridSearch) : Prop where
  ready : g.Ready
  useNumpy : g.useNumpy = g0.useNumpy
  perBin : g.perBin = g0.perBin
  specShape : g.specShape = g0.specShape
  pars : List.Forall₂ (fun q p : FitPar =>
    ∃ x t, p = { q with bestFit := x, penaltyTerm := t }) g0.pars g.pars

theorem SearchLike.refl {g : GridSearch} (h : g.Ready) : SearchLike g g where
  ready := h
  useNumpy := rfl
  perBin := rfl
  specShape := rfl
  pars := List.forall₂_same.2 fun p _ => ⟨p.bestFit, p.penaltyTerm, rfl⟩

theorem forall₂_via {α β γ : Type} {R : α → β → Prop} {S : α → γ → Prop} {T : β → γ → Prop}
    (h : ∀ a b c, R a b → S a c → T b c) {l : List α} {m : List β} {n : List γ}
    (h1 : List.Forall₂ R l m) (h2 : List.Forall₂ S l n) : List.Forall₂ T m n := by
  induction h1 generalizing n with
  | nil => cases h2; exact .nil
  | cons ha _ ih => cases h2 with
    | cons hb hc => exact .cons (h _ _ _ ha hb) (ih hc)

theorem SearchLike.fits {g0 g : GridSearch} (hl : SearchLike g0 g) {v : FitVal} (h : g0.Fits v) :
    g.Fits v := by
  unfold GridSearch.Fits at *
  rw [hl.perBin, hl.specShape]
  exact h

theorem SearchLike.setup {g0 g : GridSearch} (hl : SearchLike g0 g) {vss : List (List ℝ)}
    {fn : List ℝ → Except PyErr (FitVal × ℝ)} {F : List ℝ → FitVal} {P : List ℝ → ℝ}
    (h : g0.Setup vss fn F P) : g.Setup vss fn F P where
  values := forall₂_via (fun _ _ _ ⟨x, t, e⟩ hv => by rw [e]; exact hv) hl.pars h.values
  counts := forall₂_via (fun _ _ _ ⟨x, t, e⟩ hv => by rw [e]; exact hv) hl.pars h.counts
  returns w hw := ⟨(h.returns w hw).1, hl.fits (h.returns w hw).2⟩
  sigmas p hp := by
    obtain ⟨i, hi⟩ := List.getElem?_of_mem hp
    obtain ⟨hi', -⟩ := List.getElem?_eq_some_iff.1 hi
    have hlen := hl.pars.length_eq
    have := (List.forall₂_iff_get.1 hl.pars).2 i (by omega) hi'
    obtain ⟨x, t, e⟩ := this
    have hpe : p = g.pars.get ⟨i, hi'⟩ := by
      rw [List.getElem?_eq_getElem hi'] at hi
      exact (Option.some.inj hi).symm
    have hq := h.sigmas _ (List.get_mem g0.pars ⟨i, by omega⟩)
    rw [hpe, e]
    exact hq
  nonempty := by
    rcases h.nonempty with h | h
    · exact .inl (hl.useNumpy.trans h)
    · right
      intro h0
      have := hl.pars.length_eq
      rw [h0] at this
      exact h (List.eq_nil_of_length_eq_zero this)

theorem valuesAt_unique {vss : List (List ℝ)} {idx : List ℕ} {w w' : List ℝ}
    (h : ValuesAt vss idx w) (h' : ValuesAt vss idx w') : w = w' := by
  obtain ⟨h1, -⟩ := h
  obtain ⟨h2, -⟩ := h'
  generalize vss.zip idx = l at h1 h2
  clear * - h1 h2
  induction h1 generalizing w' with
  | nil => cases h2; rfl
  | cons ha _ ih => cases h2 with
    | cons hb hc =>
      rw [ha] at hb
      rw [ih hc, Option.some.inj hb]

theorem ravel_eqv {α : Type} {a b : NdArray α} (h : a.Eqv b) : a.ravel = b.ravel := by
  unfold NdArray.ravel
  rw [← h.1]
  exact List.map_congr_left fun idx hi => h.2 idx (mem_allIdx.1 hi)

/-- The penalty of a parameter at its best fit. -/
theorem penalty_unique {st : Stat} {p : FitPar} {x t t' : ℝ} (h : p.sigma = none → t = 0)
    (h' : ∀ sigma, p.sigma = some sigma → st.penalty x p.prior sigma = .ok t)
    (k : p.sigma = none → t' = 0)
    (k' : ∀ sigma, p.sigma = some sigma → st.penalty x p.prior sigma = .ok t') : t = t' := by
  cases hs : p.sigma with
  | none => rw [h hs, k hs]
  | some s =>
    have := (h' s hs).symm.trans (k' s hs)
    exact Except.ok.inj this

theorem mapM_of_map {α β γ : Type} (k : α → β) {f : α → Except PyErr γ}
    (h : ∀ p q, k p = k q → f p = f q) {l m : List α} (hk : l.map k = m.map k) :
    l.mapM f = m.mapM f := by
  induction l generalizing m with
  | nil => cases m with
    | nil => rfl
    | cons _ _ => cases hk
  | cons a l ih => cases m with
    | nil => cases hk
    | cons b m =>
      obtain ⟨h1, h2⟩ := List.cons.inj hk
      rw [List.mapM_cons, List.mapM_cons, h _ _ h1, ih h2]

/-- Two searches over the same function give the same, whatever they did before. -/
theorem minimise_like {g0 g : GridSearch} (hr : g0.Ready) (hl : SearchLike g0 g)
    {vss : List (List ℝ)} (hn : ∀ vs ∈ vss, vs.Nodup)
    {fn fn0 : List ℝ → Except PyErr (FitVal × ℝ)} {F : List ℝ → FitVal} {P : List ℝ → ℝ}
    (h : g0.Setup vss fn F P) (h0 : g0.Setup vss fn0 F P) (st : Stat) :
    ∃ g' raw pen g0' raw0 pen0, g.minimise fn st = .ok (g', raw, pen) ∧
      g0.minimise fn0 st = .ok (g0', raw0, pen0) ∧ raw.ravel = raw0.ravel ∧ pen.ravel = pen0.ravel ∧
      Fitter.summaryPens g' = Fitter.summaryPens g0' ∧ SearchLike g0 g' := by
  have hg := hl.setup h
  obtain ⟨g', raw, pen, idx, w, a1, a2, a3, a4, a5, a6, a7⟩ := c44_best_fit hl.ready hg hn st
  obtain ⟨g0', raw0, pen0, idx0, w0, b1, b2, b3, b4, b5, b6, b7⟩ := c44_best_fit hr h0 hn st
  have hidx : idx = idx0 := by
    have h1 := a7 _ _ b2
    have h2 := b7 _ _ a2
    exact le_antisymm (h1.2 (le_antisymm h2.1 h1.1)) (h2.2 (le_antisymm h1.1 h2.1))
  subst hidx
  have hw : w = w0 := valuesAt_unique a2 b2
  subst hw
  obtain ⟨_, _, _, c1, c2, c3⟩ := c44_penalty_terms hl.ready hg st
  rw [a1] at c1
  cases c1
  obtain ⟨_, _, _, d1, d2, d3⟩ := c44_penalty_terms hr h0 st
  rw [b1] at d1
  cases d1
  obtain ⟨_, _, _, e1, e2, -⟩ := c75_reuse hl.ready hg st (funct' := fn) (F' := F) (P' := P) hg.returns
  rw [a1] at e1
  cases e1
  obtain ⟨pts, g₁, g'', _, _, p, v, -, -, f3, -, ⟨pars', f5, -, -, -⟩, ⟨a, b, hab⟩, -⟩ :=
    minimise_ok hl.ready hg st
  rw [a1] at f3
  cases f3
  have hlen := hl.pars.length_eq
  have hpar : ∀ (i : ℕ) (q p : FitPar), g0.pars[i]? = some q → g.pars[i]? = some p →
      ∃ x t, p = { q with bestFit := x, penaltyTerm := t } := by
    intro i q p hq hp
    obtain ⟨i1, rfl⟩ := List.getElem?_eq_some_iff.1 hq
    obtain ⟨i2, rfl⟩ := List.getElem?_eq_some_iff.1 hp
    exact (List.forall₂_iff_get.1 hl.pars).2 i i1 i2
  refine ⟨g', raw, pen, g0', raw0, pen0, a1, b1, ?_, ?_, ?_, ?_⟩
  · rw [ravel_eqv a4, ravel_eqv b4]
  · refine ravel_eqv ⟨a5.trans b5.symm, fun idx hi => ?_⟩
    rw [a5] at hi
    have : idx = [] := by
      cases idx with
      | nil => rfl
      | cons _ _ => exact absurd hi (by simp [InB])
    rw [this, a6, b6]
  · have hl' : g'.pars.length = g0'.pars.length := by omega
    have key : g'.pars.map FitPar.penaltyTerm = g0'.pars.map FitPar.penaltyTerm := by
      apply List.ext_getElem?
      intro i
      rw [List.getElem?_map, List.getElem?_map]
      rcases Nat.lt_or_ge i g0.pars.length with hi | hi
      · obtain ⟨x, t, p1, p2, p3⟩ := c3 i _ (List.getElem?_eq_getElem (by omega))
        obtain ⟨y, u, q1, q2, q3⟩ := d3 i _ (List.getElem?_eq_getElem hi)
        obtain ⟨x', t', hp⟩ := hpar i _ _ (List.getElem?_eq_getElem hi)
          (List.getElem?_eq_getElem (by omega))
        have hx : some x = some y := by
          have e1 : (g'.pars.map FitPar.bestFit)[i]? = (g0'.pars.map FitPar.bestFit)[i]? := by
            rw [a3, b3]
          rw [List.getElem?_map, List.getElem?_map, p1, q1] at e1
          exact Option.some.inj e1
        cases hx
        rw [hp] at p2 p3
        rw [p1, q1]
        simp only [Option.map_some, Option.some.injEq]
        exact penalty_unique p2 p3 q2 q3
      · rw [List.getElem?_eq_none (by omega), List.getElem?_eq_none (by omega)]
    unfold Fitter.summaryPens
    exact mapM_of_map FitPar.penaltyTerm (fun p q h => by simp only [h]) key
  · refine ⟨e2, ?_, ?_, ?_, ?_⟩
    · rw [f5, hab]; exact hl.useNumpy
    · rw [f5, hab]; exact hl.perBin
    · rw [f5, hab]; exact hl.specShape
    · rw [List.forall₂_iff_get]
      refine ⟨by omega, fun i h1 h2 => ?_⟩
      obtain ⟨x, t, p1, -, -⟩ := c3 i _ (List.getElem?_eq_getElem (by omega))
      obtain ⟨x', t', hp⟩ := hpar i _ _ (List.getElem?_eq_getElem h1)
          (List.getElem?_eq_getElem (by omega))
      rw [List.getElem?_eq_getElem h2] at p1
      refine ⟨some x, some t, ?_⟩
      simp only [List.get_eq_getElem]
      rw [Option.some.inj p1, hp]

/-! ### the objects -/

section objects

variable {f : Fit} {w0 : Fitter}

/-- The fits with and without signal. -/
theorem toFit_without (w0 : Fitter) :
    w0.without.ses.toFit = (w0.with r).ses.toFit.off := rfl

theorem scaled_rescaled {b : FitState} (hd : (b.view r).numDecays ≠ 0) (n : ℚ) :
    (b.scaled r n).view r = (b.view r).rescaled n := by
  simp only [FitState.view, scaled_self hd n, (scaled_rest hd n).1, Spectrum.rescaled]

/-- Scaling the signal between two fits. -/
theorem Inv.rescale {b s : FitState} {f : Fit} {n : ℚ}
    (hg : f.globals ≠ [] → SplineHom env.spline ∧ 0 < (b.view r).numDecays ∧ 0 < n)
    (hr : r ∉ f.floatingRefs) (hbg : isBg f r = false)
    (hlt : r < b.next) (hd : (b.view r).numDecays ≠ 0) (h : Inv env f b (fun _ => False) s) :
    Inv env f (b.scaled r n) (fun _ => False) (s.scaled r n) := by
  have ho := h.old r hlt (.inr hr)
  have hd' : (s.view r).numDecays ≠ 0 := by
    simp only [FitState.view] at hd ⊢
    rw [ho]; exact hd
  obtain ⟨b1, b2, b3, b4⟩ := scaled_rest hd n
  obtain ⟨s1, s2, s3, s4⟩ := scaled_rest hd' n
  have hfix : ∀ q, ((b.scaled r n).objs q).background = (b.objs q).background ∧
      ((b.scaled r n).objs q).fit = (b.objs q).fit ∧
      ((b.scaled r n).objs q).cfg = (b.objs q).cfg := by
    intro q
    by_cases hq : q = r
    · subst hq; rw [scaled_self hd n]; exact ⟨rfl, rfl, rfl⟩
    · rw [scaled_objs hd n hq]; exact ⟨rfl, rfl, rfl⟩
  have hsc : ∀ q, Scaling f (b.scaled r n) q = Scaling f b q := by
    intro q; unfold Scaling; rw [(hfix q).2.1]
  refine ⟨by rw [b1, s1, h.cfgs], by rw [b2, s2]; exact h.next, ?_, ?_, ?_, ?_, ?_, ?_⟩
  · intro q
    rw [b3, s3]
    exact h.params q
  · intro q hq hc
    rw [b2] at hq
    by_cases hqr : q = r
    · subst hqr
      rw [scaled_self hd n, scaled_self hd' n, ho]
    · rw [scaled_objs hd n hqr, scaled_objs hd' n hqr]
      exact h.old q hq hc
  · intro hg q hq
    have hqr : q ≠ r := fun e => hr (e ▸ hq)
    obtain ⟨h1, h2, h3, h4⟩ := h.orig hg q hq
    refine ⟨?_, ?_, ?_, ?_⟩
    · rw [scaled_objs hd n hqr, scaled_objs hd' n hqr]; exact h1
    · rw [scaled_objs hd n hqr, scaled_objs hd' n hqr]; exact h2
    · rw [hsc, scaled_view hd n hqr, scaled_view hd' n hqr]
      exact h3
    · rw [scaled_view hd' n hqr]; exact h4
  · intro hg
    rw [s4]; exact h.empty hg
  · intro e he
    rw [s4] at he
    have hgl : f.globals ≠ [] := fun h0 => by rw [h.empty h0] at he; cases he
    obtain ⟨hsp, hp, hn⟩ := hg hgl
    obtain ⟨q, P, t, hE⟩ := h.entries e he
    have her : e.2 ≠ r := by have := hE.new; omega
    obtain ⟨m1, m2, m3, m4⟩ := hE.made
    by_cases hqr : q = r
    · subst hqr
      obtain ⟨hal, hnorm⟩ := convFold_alike hE.conv (.refl _) (FitState.view_data_norm _ _)
      have ht0 : t.numDecays ≠ 0 := by rw [hal.numDecays]; exact hd
      refine ⟨q, P, t.rescaled n, hE.mem, ?_, ?_, hE.key, ?_, ?_, ?_, ⟨?_, ?_, ?_, ?_⟩⟩
      · rw [(hfix q).1]; exact hE.bg
      · rw [b3]; exact hE.vals
      · have := hE.conv
        unfold convFrom at this ⊢
        rw [scaled_rescaled hd, convFold_rescaled hsp _ _ (FitState.view_data_norm _ _) (.refl _)
          (FitState.view_data_norm _ _) (div_pos hn hp), this]
        rfl
      · rw [b2]; exact hE.new
      · rw [s2]; exact hE.old
      · rw [(hfix q).2.2, scaled_objs hd' n her]; exact m1
      · rw [(hfix q).2.1, scaled_objs hd' n her]; exact m2
      · rw [scaled_view hd' n her]
        refine .inr ⟨fun hb => absurd hb (by rw [hbg]; simp), ?_⟩
        rcases m3 with m3 | ⟨-, m, m3⟩
        · refine ⟨t.numDecays, ?_⟩
          rw [m3, rescaled_rescaled ht0 hn.ne', rescaled_self hnorm ht0]
        · exact ⟨m, by rw [m3, rescaled_rescaled ht0 hn.ne']⟩
      · rw [scaled_view hd' n her]; exact m4
    · refine ⟨q, P, t, hE.mem, ?_, ?_, hE.key, ?_, ?_, ?_, ⟨?_, ?_, ?_, ?_⟩⟩
      · rw [(hfix q).1]; exact hE.bg
      · rw [b3]; exact hE.vals
      · have := hE.conv
        unfold convFrom at this ⊢
        rw [scaled_view hd n hqr]
        exact this
      · rw [b2]; exact hE.new
      · rw [s2]; exact hE.old
      · rw [(hfix q).2.2, scaled_objs hd' n her]; exact m1
      · rw [(hfix q).2.1, scaled_objs hd' n her]; exact m2
      · rw [scaled_view hd' n her, hsc]; exact m3
      · rw [scaled_view hd' n her]; exact m4
  · rw [s4]; exact h.distinct

theorem FitReady.scaled {b : FitState} {f : Fit} (h : FitReady env f b)
    (hd : (b.view r).numDecays ≠ 0) (hdata : f.data ≠ r) {n : ℚ} (hn : n ≠ 0) :
    FitReady env f (b.scaled r n) := by
  obtain ⟨b1, b2, b3, b4⟩ := scaled_rest hd n
  have hbg : ∀ q, ((b.scaled r n).objs q).background = (b.objs q).background ∧
      ((b.scaled r n).objs q).fit = (b.objs q).fit := by
    intro q
    by_cases hq : q = r
    · subst hq; rw [scaled_self hd n]; exact ⟨rfl, rfl⟩
    · rw [scaled_objs hd n hq]; exact ⟨rfl, rfl⟩
  refine ⟨h.str, by rw [b4]; exact h.cache, ?_, h.apart, ?_, ?_, ?_, h.pars, ?_, ?_⟩
  · have := h.alloc
    unfold FitState.Allocated at *
    rw [b2]
    exact this
  · simp only [hbg]
    exact h.backgrounds
  · intro q hq
    rw [scaled_view hd n hdata]
    by_cases hqr : q = r
    · subst hqr
      obtain ⟨a1, a2, a3, a4, a5⟩ := h.axes q hq
      have hc := scaled_cfg hd n q
      have hs : ((b.scaled q n).view q).data.shape = (b.view q).data.shape := by
        simp only [FitState.view, scaled_self hd n]
        rfl
      refine ⟨?_, by rw [hc]; exact a2, by rw [hc]; exact a3, by rw [hc]; exact a4,
        by rw [hs]; exact a5⟩
      exact ⟨by rw [hc]; exact a1.axes, by rw [hc]; exact a1.names, by rw [hs, hc]; exact a1.shape⟩
    · rw [scaled_view hd n hqr]
      exact h.axes q hq
  · intro q hq
    by_cases hqr : q = r
    · subst hqr; rw [scaled_decays hd]; exact hn
    · rw [scaled_view hd n hqr]; exact h.decays q hq
  · rw [b3]; exact h.globals
  · simp only [hbg, b3]
    exact h.rates

/-- Without signal the value of the fit does not depend on the scaling of the signal. -/
theorem functValue_off {b : FitState} {f : Fit} (hd : (b.view r).numDecays ≠ 0)
    (hdata : f.data ≠ r) (hfix : ∀ e ∈ f.fixed, e.1 ≠ r) (hfl : r ∉ f.floatingRefs)
    (hs : f.signal = none) (n : ℚ) (args : List ℚ) {fl : List (ℕ × List PyStr)}
    (hf : f.floating = some fl) :
    functValue env f (b.scaled r n) args fl = functValue env f b args fl := by
  obtain ⟨b1, b2, b3, b4⟩ := scaled_rest hd n
  have hl : f.floatingRefs = fl.map Prod.fst := by simp [Fit.floatingRefs, hf]
  unfold functValue contentsValue
  rw [b3, scaled_view hd n hdata]
  have e1 : fixedValue f (b.scaled r n) = fixedValue f b := by
    unfold fixedValue
    cases hx : f.fixed with
    | none => rfl
    | some e => simp only; rw [scaled_view hd n (hfix e hx)]
  have e2 : ∀ P e, fl.foldlM (roundValue env f (b.scaled r n) P) e =
      fl.foldlM (roundValue env f b P) e := by
    intro P e
    have hmem : ∀ p ∈ fl, p.1 ≠ r := by
      intro p hp he
      exact hfl (by rw [hl, ← he]; exact List.mem_map_of_mem hp)
    clear hl hf
    induction fl generalizing e with
    | nil => rfl
    | cons p fl ih =>
      rw [List.foldlM_cons, List.foldlM_cons]
      have : roundValue env f (b.scaled r n) P e p = roundValue env f b P e p := by
        have hp := hmem p (by simp)
        unfold roundValue bgValue convFrom
        rw [scaled_view hd n hp, scaled_objs hd n hp]
      rw [this]
      congr 1
      funext e'
      exact ih e' fun q hq => hmem q (by simp [hq])
  have e3 : ∀ P e, signalValue env f (b.scaled r n) P e = signalValue env f b P e := by
    intro P e
    unfold signalValue
    rw [hs]
  rw [e1]
  simp only [e2, e3]

/-- The set-up of the search without signal, with the signal scaled meanwhile. -/
theorem FitGridSetup.scaled {b : FitState} {f : Fit} {g : GridSearch} {vss : List (List ℝ)}
    {F : List ℝ → FitVal} {P : List ℝ → ℝ} (hr : FitReady env f b)
    (h : FitGridSetup env f b rnd g vss F P) (hd : (b.view r).numDecays ≠ 0)
    (hdata : f.data ≠ r) (hfix : ∀ e ∈ f.fixed, e.1 ≠ r) (hfl : r ∉ f.floatingRefs)
    (hs : f.signal = none) {n : ℚ} (hn : n ≠ 0) :
    FitGridSetup env f (b.scaled r n) rnd g vss F P := by
  obtain ⟨fl, hf⟩ := Option.ne_none_iff_exists'.1 h.floating
  have hr' := hr.scaled hd hdata hn
  refine ⟨h.values, h.counts, h.number, ?_, ?_, h.sigmas, h.nonempty⟩
  · intro w hw
    have hfull : FullArgs f (w.map rnd) := by
      unfold FullArgs
      rw [List.length_map, ← h.number]
      exact hw.length_eq
    obtain ⟨s1, -, -, e1⟩ := funct_run hr (inv_start hr) hf hfull
    obtain ⟨s2, -, -, e2⟩ := funct_run hr' (inv_start hr') hf hfull
    obtain ⟨v, h1, h2⟩ := h.returns w hw
    refine ⟨v, ?_, h2⟩
    rw [e1] at h1
    rw [e2, functValue_off hd hdata hfix hfl hs n _ hf]
    exact h1
  · intro w hw
    have := h.rates w hw
    unfold NonzeroRates at *
    rw [(scaled_rest hd n).2.2.1]
    exact this

/-- The set-up of the search does not depend on earlier searches. -/
theorem FitGridSetup.like {b : FitState} {f : Fit} {g0 g : GridSearch} {vss : List (List ℝ)}
    {F : List ℝ → FitVal} {P : List ℝ → ℝ} (h : FitGridSetup env f b rnd g0 vss F P)
    (hl : SearchLike g0 g) : FitGridSetup env f b rnd g vss F P := by
  have hs := hl.setup h.setup
  refine ⟨hs.values, hs.counts, h.number, fun w hw => ?_, h.rates, hs.sigmas, hs.nonempty⟩
  obtain ⟨v, h1, h2, h3⟩ := h.returns w hw
  exact ⟨v, h1, h2, hl.fits h3⟩

end objects

/-! ### the fits during limit setting -/

/-- The invariant of limit setting with grid search. -/
structure GridInv (env : FitEnv) (r : ℕ) (w0 w : Fitter) : Prop where
  ses : SesLike r w0 w.ses
  search : SearchLike w0.search w.search
  objs : ∃ b, Base w0.st r b ∧ (w0.ses.parsOf true ≠ [] → 0 < (b.view r).numDecays) ∧
    Inv env (w0.with r).ses.toFit b (fun _ => False) w.st

theorem GridLimit.apart {w0 : Fitter} {vss : List (List ℝ)} {scales : List ℝ}
    (hg : GridLimit env rnd r w0 vss scales) : r ∉ (w0.with r).ses.toFit.floatingRefs := by
  intro hr
  have := (List.nodup_append.1 (moving_nodup hg.ready)).2.2 r hr r
    (by change r ∈ [r]; simp)
  exact this rfl

theorem GridLimit.lt {w0 : Fitter} {vss : List (List ℝ)} {scales : List ℝ}
    (hg : GridLimit env rnd r w0 vss scales) : r < w0.st.next :=
  moving_lt hg.ready (List.mem_append_right _ (by change r ∈ [r]; simp))

/-- A fit by grid search, whatever was done before. -/
theorem call_grid {w0 : Fitter} (h : LimitSignal r w0) (hfl : w0.ses.floating.getD [] ≠ [])
    (hmin : w0.ses.minimiser ≠ none) {vss : List (List ℝ)} (hnodup : ∀ vs ∈ vss, vs.Nodup)
    (hready : w0.search.Ready) {w v : Fitter} (hw : SesLike r w0 w.ses) (hv : SesLike r w0 v.ses)
    (hf : w.ses.toFit = v.ses.toFit) (hsearch : SearchLike w0.search w.search)
    (hsearch' : SearchLike w0.search v.search)
    {f : Fit} (hpart : w.ses.toFit = f ∨ w.ses.toFit = f.off)
    {c : FitState} (hrc : FitReady env f c) {F : List ℝ → FitVal} {P : List ℝ → ℝ}
    (hs : FitGridSetup env w.ses.toFit c rnd w0.search vss F P)
    {c' : FitState} (hrc' : FitReady env f c')
    (hs' : FitGridSetup env w.ses.toFit c' rnd w0.search vss F P)
    (iw : Inv env f c (fun _ => False) w.st)
    (iv : Inv env f c' (fun _ => False) v.st)
    (cw : ∀ q, w.ses.data = some q ∨ w.ses.fixed = some q ∨ w.ses.signal = some q →
      (w.st.view q).cfg = (w0.st.view q).cfg)
    (cv : ∀ q, v.ses.data = some q ∨ v.ses.fixed = some q ∨ v.ses.signal = some q →
      (v.st.view q).cfg = (w0.st.view q).cfg)
    (pw : ∀ q, (w.st.params q).dimension = (w0.st.params q).dimension)
    (pv : ∀ q, (v.st.params q).dimension = (w0.st.params q).dimension) :
    (w.call env rnd).2 = (v.call env rnd).2 ∧
    (w.fit env rnd).2 = (v.fit env rnd).2 ∧
    (w.call env rnd).1.ses = { w.ses with checked := true } ∧
    SearchLike w0.search (w.call env rnd).1.search ∧
    Inv env f c (fun _ => False) (w.call env rnd).1.st := by
  have nw : w.ses.floating.getD [] ≠ [] ∧ w.ses.minimiser ≠ none := by
    obtain ⟨_, _, -, -, e⟩ := hw
    rw [e]; exact ⟨hfl, hmin⟩
  have nv : v.ses.floating.getD [] ≠ [] ∧ v.ses.minimiser ≠ none := by
    obtain ⟨_, _, -, -, e⟩ := hv
    rw [e]; exact ⟨hfl, hmin⟩
  obtain ⟨sw, iw', ew⟩ := fitGrid_part hpart hrc (hs.like hsearch) iw
  obtain ⟨sv, iv', ev⟩ := fitGrid_part hpart hrc' (hs'.like hsearch') iv
  obtain ⟨g1, raw1, pen1, g0, raw0, pen0, a1, a2, a3, a4, a5, a6⟩ :=
    minimise_like hready hsearch hnodup hs.setup hs'.setup w.ses.toFit.stat
  obtain ⟨g2, raw2, pen2, g0', raw0', pen0', b1, b2, b3, b4, b5, b6⟩ :=
    minimise_like hready hsearch' hnodup hs'.setup hs'.setup w.ses.toFit.stat
  rw [a2] at b2
  cases b2
  have ecw : w.call env rnd = (⟨{ w.ses with checked := true }, sw, g1⟩,
      .ok ⟨raw1.ravel, some pen1.ravel⟩) := by
    unfold Fitter.call
    rw [call_run h hw cw pw]
    unfold runFit
    rw [if_neg nw.1, if_neg nw.2]
    simp only [ew, a1]
  have ecv : v.call env rnd = (⟨{ v.ses with checked := true }, sv, g2⟩,
      .ok ⟨raw2.ravel, some pen2.ravel⟩) := by
    unfold Fitter.call
    rw [call_run h hv cv pv]
    unfold runFit
    rw [if_neg nv.1, if_neg nv.2, ← hf]
    simp only [ev, b1]
  have e1 : (w.call env rnd).2 = (v.call env rnd).2 := by
    rw [ecw, ecv, a3, a4, b3, b4]
  refine ⟨e1, fit_of_call e1 ?_, ?_, ?_, ?_⟩
  · rw [ecw, ecv]
    exact a5.trans b5.symm
  · rw [ecw]
  · rw [ecw]; exact a6
  · rw [ecw]; exact iw'

/-- The objects of data, fixed background and signal keep their axes. -/
theorem inv_cfg {w0 : Fitter} (h : LimitSignal r w0) {vss : List (List ℝ)} {scales : List ℝ}
    (hg : GridLimit env rnd r w0 vss scales) {b s : FitState} (hb : Base w0.st r b)
    (hi : Inv env (w0.with r).ses.toFit b (fun _ => False) s) {ses : Session}
    (hs : SesLike r w0 ses) (q : ℕ)
    (hq : ses.data = some q ∨ ses.fixed = some q ∨ ses.signal = some q) :
    (s.view q).cfg = (w0.st.view q).cfg := by
  have hnot : q ∉ (w0.with r).ses.toFit.floatingRefs ∧ q < w0.st.next := by
    obtain ⟨t, c, ht, -, rfl⟩ := hs
    rcases hq with hq | hq | hq
    · have hq' : (w0.with r).ses.toFit.data = q := by
        change w0.ses.data.getD 0 = q
        rw [show w0.ses.data = some q from hq]; rfl
      exact ⟨hq' ▸ hg.ready.apart.1, hq' ▸ hg.ready.alloc.1⟩
    · have hq' : (q, w0.ses.fixedPars.getD []) ∈ (w0.with r).ses.toFit.fixed := by
        change _ ∈ w0.ses.fixed.map _
        rw [show w0.ses.fixed = some q from hq]; rfl
      exact ⟨hg.ready.apart.2 _ hq', hg.ready.alloc.2.1 _ hq'⟩
    · have : q = r := by
        have hq : t = some q := hq
        rcases ht with rfl | rfl
        · cases hq
        · exact (Option.some.inj hq).symm
      subst this
      exact ⟨hg.apart, hg.lt⟩
  have hrest := hb.rest h.decays
  have ho := hi.old q (by rw [hrest.2.1]; exact hnot.2) (.inr hnot.1)
  have : s.view q = b.view q := by
    simp only [FitState.view, ho, hi.cfgs]
  rw [this]
  exact hb.cfg h.decays q

theorem inv_params {w0 : Fitter} (h : LimitSignal r w0) {f : Fit} {b s : FitState}
    (hb : Base w0.st r b) (hi : Inv env f b (fun _ => False) s) (q : ℕ) :
    (s.params q).dimension = (w0.st.params q).dimension := by
  have h1 := congrArg Param.dimension (hi.params q)
  have h2 := (hb.rest h.decays).2.2.1
  rw [h2] at h1
  exact h1

theorem FitReady.base {w0 : Fitter} (h : LimitSignal r w0) {vss : List (List ℝ)} {scales : List ℝ}
    (hg : GridLimit env rnd r w0 vss scales) {b : FitState} (hb : Base w0.st r b) :
    FitReady env (w0.with r).ses.toFit b := by
  rcases hb with rfl | ⟨n, hn, rfl⟩
  · exact hg.ready
  · refine hg.ready.scaled h.decays ?_ hn
    obtain ⟨d, h1, h2⟩ := h.apart.1
    change w0.ses.data.getD 0 ≠ r
    rw [h1]; exact h2

theorem GridInv.without {w0 w : Fitter} (h : LimitSignal r w0) {vss : List (List ℝ)}
    {scales : List ℝ} (hg : GridLimit env rnd r w0 vss scales) (hi : GridInv env r w0 w) :
    GridInv env r w0 (w.without.call env rnd).1 ∧
    (w.without.call env rnd).2 = w0.freshReturn env rnd r none ∧
    (w.without.fit env rnd).2 = w0.fresh env rnd r none := by
  obtain ⟨b, hb, hpos, ho⟩ := hi.objs
  have hdr : (w0.with r).ses.toFit.data ≠ r := by
    obtain ⟨d, h1, h2⟩ := h.apart.1
    change w0.ses.data.getD 0 ≠ r
    rw [h1]; exact h2
  have hfx : ∀ e ∈ (w0.with r).ses.toFit.fixed, e.1 ≠ r := by
    intro e he her
    change e ∈ w0.ses.fixed.map _ at he
    cases hq : w0.ses.fixed with
    | none => rw [hq] at he; cases he
    | some q =>
      rw [hq] at he
      cases he
      exact h.apart.2 (by rw [hq]; exact congrArg some her)
  have hrb := FitReady.base h hg hb
  have hset : w.without.ses.toFit = (w0.with r).ses.toFit.off := by
    obtain ⟨c, hc⟩ := hi.ses.with none
    have : w.without.ses = { w0.ses with signal := none, checked := c } := hc
    rw [this]; rfl
  obtain ⟨F, P, hsetup⟩ := hg.off
  rw [toFit_without (r := r)] at hsetup
  have hsb : FitGridSetup env (w0.with r).ses.toFit.off b rnd w0.search vss F P := by
    rcases hb with rfl | ⟨n, hn, rfl⟩
    · exact hsetup
    · exact hsetup.scaled hg.ready.off h.decays hdr hfx hg.apart rfl hn
  have hself : SesLike r w0 w0.without.ses := (SesLike.self h).without
  have hcall := call_grid (env := env) (rnd := rnd) h hg.floating hg.minimiser hg.nodup hg.search
    (w := w.without) (v := w0.without) hi.ses.without hself (hset.trans (toFit_without w0).symm)
    hi.search (SearchLike.refl hg.search) (.inr hset) (c := b) hrb
    (by rw [hset]; exact hsb) (c' := w0.st) hg.ready
    (by rw [hset]; exact hsetup) ho (inv_start hg.ready)
    (inv_cfg h hg hb ho hi.ses.without) (fun _ _ => rfl) (inv_params h hb ho) (fun _ => rfl)
  obtain ⟨h1, h2, h3, h4, h5⟩ := hcall
  refine ⟨⟨?_, h4, b, hb, hpos, h5⟩, h1, h2⟩
  rw [h3]
  exact hi.ses.without.checked

theorem GridInv.withScaled {w0 w : Fitter} (h : LimitSignal r w0) {vss : List (List ℝ)}
    {scales : List ℝ} (hg : GridLimit env rnd r w0 vss scales) (hi : GridInv env r w0 w) {x : ℝ}
    (hx : x ∈ scales) (hc : ¬ npCloseReal x 0) (hn : rnd x ≠ 0) :
    GridInv env r w0 ((w.withScaled r (rnd x)).call env rnd).1 ∧
    ((w.withScaled r (rnd x)).call env rnd).2 = w0.freshReturn env rnd r (some x) ∧
    ((w.withScaled r (rnd x)).fit env rnd).2 = w0.fresh env rnd r (some x) := by
  obtain ⟨b, hb, hpos, ho⟩ := hi.objs
  have hlt : r < b.next := by rw [(hb.rest h.decays).2.1]; exact hg.lt
  have hgl : w0.ses.parsOf true ≠ [] → SplineHom env.spline ∧ 0 < (b.view r).numDecays ∧
      0 < rnd x := fun h0 => ⟨(hg.globals h0).1, hpos h0, (hg.globals h0).2.2 x hx hc⟩
  have hsc := ho.rescale (n := rnd x) hgl hg.apart
    (by change decide (some r ≠ some r) = false; simp) hlt (hb.decays h.decays)
  rw [hb.scaled h.decays] at hsc
  have hb' : Base w0.st r (w0.st.scaled r (rnd x)) := .inr ⟨rnd x, hn, rfl⟩
  have hrb := FitReady.base h hg hb'
  have hset : (w.withScaled r (rnd x)).ses.toFit = (w0.with r).ses.toFit := by
    obtain ⟨c, hc⟩ := hi.ses.with (some r)
    have : (w.withScaled r (rnd x)).ses = { w0.ses with signal := some r, checked := c } := hc
    rw [this]; rfl
  obtain ⟨F, P, hsetup⟩ := hg.on x hx hc
  have hself : SesLike r w0 (w0.withScaled r (rnd x)).ses := (SesLike.self h).on
  have hcall := call_grid (env := env) (rnd := rnd) h hg.floating hg.minimiser hg.nodup hg.search
    (w := w.withScaled r (rnd x)) (v := w0.withScaled r (rnd x)) hi.ses.on hself hset
    hi.search (SearchLike.refl hg.search) (.inl hset) (c := w0.st.scaled r (rnd x)) hrb
    (by rw [hset]; exact hsetup) (c' := w0.st.scaled r (rnd x)) hrb
    (by rw [hset]; exact hsetup) hsc (inv_start hrb)
    (inv_cfg h hg hb' hsc hi.ses.on) (fun q _ => scaled_cfg h.decays _ q) (inv_params h hb' hsc)
    (fun q => by
      have := (scaled_rest h.decays (rnd x)).2.2.1
      change ((w0.st.scaled r (rnd x)).params q).dimension = _
      rw [this])
  obtain ⟨h1, h2, h3, h4, h5⟩ := hcall
  refine ⟨⟨?_, h4, _, hb', fun h0 => ?_, h5⟩, h1, h2⟩
  · rw [h3]
    exact hi.ses.on.checked
  · rw [scaled_decays h.decays]; exact (hg.globals h0).2.2 x hx hc

theorem refines_grid {w0 : Fitter} (h : LimitSignal r w0) {vss : List (List ℝ)} {scales : List ℝ}
    (hg : GridLimit env rnd r w0 vss scales) :
    Refines env rnd r (Tested rnd scales) (GridInv env r w0) (w0.fresh env rnd r)
      (w0.freshReturn env rnd r) := by
  have hrun : ∀ w, GridInv env r w0 w → ∀ x, w.atScale rnd r x = (match signalAt x with
      | none => w.without
      | some x => w.withScaled r (rnd x), .ok ()) ∧
      w.statScale rnd r x = (match signalAt x with
      | none => w.without
      | some x => w.withScaled r (rnd x), .ok ()) := by
    intro w hw x
    obtain ⟨b, hb, -, ho⟩ := hw.objs
    have h1 := ho.old r (by rw [(hb.rest h.decays).2.1]; exact hg.lt) (.inr hg.apart)
    have h2 : w.st.view r = b.view r := by simp only [FitState.view, h1, ho.cfgs]
    refine atScale_run h hw.ses ?_ ?_ x
    · rw [h2]; exact hb.cfg h.decays r
    · rw [h2]; exact hb.decays h.decays
  have hstep : ∀ w, GridInv env r w0 w → ∀ x, Tested rnd scales x → ∀ v,
      v = (match signalAt x with
      | none => w.without
      | some x => w.withScaled r (rnd x)) →
      GridInv env r w0 (v.call env rnd).1 ∧ (v.call env rnd).2 = w0.freshReturn env rnd r (signalAt x) ∧
      (v.fit env rnd).2 = w0.fresh env rnd r (signalAt x) := by
    intro w hw x hx v hv
    unfold signalAt at hv ⊢
    by_cases hc : npCloseReal x 0
    · rw [if_pos hc] at hv ⊢
      subst hv
      exact hw.without h hg
    · rw [if_neg hc] at hv ⊢
      subst hv
      exact hw.withScaled h hg hx.1 hc (hx.2 hc)
  refine ⟨fun w hw => (hw.without h hg).1, fun w hw x hx => ⟨_, (hrun w hw x).1, ?_⟩,
    fun w hw x hx => ⟨_, (hrun w hw x).2, ?_⟩, fun w hw => (hw.without h hg).2.2⟩
  · exact ⟨(hstep w hw x hx _ rfl).1, (hstep w hw x hx _ rfl).2.2⟩
  · exact ⟨(hstep w hw x hx _ rfl).1, (hstep w hw x hx _ rfl).2.1⟩

theorem GridInv.self {w0 : Fitter} (h : LimitSignal r w0) {vss : List (List ℝ)} {scales : List ℝ}
    (hg : GridLimit env rnd r w0 vss scales) : GridInv env r w0 w0 :=
  ⟨SesLike.self h, SearchLike.refl hg.search, w0.st, .inl rfl, fun h0 => (hg.globals h0).2.1,
    inv_start hg.ready⟩

end Verif
