import Verif.Spec.Reorder
import Verif.Props.FitGrid
import Verif.Props.Closure

/-! # C136: the order of floating backgrounds and of parameters -/

namespace Verif

variable {env : FitEnv} {f f' : Fit} {st : FitState} {rnd : ℝ → ℚ}

theorem foldlM_perm {α β : Type} {k : β → α → Except PyErr β}
    (hk : ∀ e a b r, (k e a >>= fun e => k e b) = .ok r → (k e b >>= fun e => k e a) = .ok r)
    {l l' : List α} (h : l.Perm l') : ∀ e r, l.foldlM k e = .ok r → l'.foldlM k e = .ok r := by
  induction h with
  | nil => exact fun _ _ h => h
  | cons x _ ih =>
    intro e r h
    rw [List.foldlM_cons] at h ⊢
    cases hx : k e x with
    | error er => rw [hx] at h; cases h
    | ok e1 =>
      rw [hx] at h
      exact ih e1 r h
  | swap x y l =>
    intro e r h
    rw [List.foldlM_cons] at h ⊢
    simp only [List.foldlM_cons] at h ⊢
    cases hy : k e y with
    | error er => rw [hy] at h; cases h
    | ok e1 =>
      rw [hy] at h
      simp only [okBind] at h
      cases hx : k e1 x with
      | error er => rw [hx] at h; cases h
      | ok e2 =>
        rw [hx] at h
        have := hk e y x e2 (by rw [hy]; exact hx)
        cases hx' : k e x with
        | error er => rw [hx'] at this; cases this
        | ok e3 =>
          rw [hx'] at this
          simp only [okBind] at this h ⊢
          rw [this]
          exact h
  | trans _ _ ih1 ih2 => exact fun e r h => ih2 e r (ih1 e r h)

theorem add_comm_nd {a b : NdArray ℚ} (h : a.shape = b.shape) : a.add b = b.add a := by
  unfold NdArray.add
  rw [h]
  congr 1
  funext i
  exact add_comm _ _

theorem add_right_comm_nd (a b c : NdArray ℚ) : (a.add b).add c = (a.add c).add b := by
  unfold NdArray.add
  congr 1
  funext i
  exact add_right_comm _ _ _

theorem roundValue_swap (P : ℕ → Param) (e : Option (NdArray ℚ)) (a b : ℕ × List PyStr)
    (r : Option (NdArray ℚ))
    (h : (roundValue env f st P e a >>= fun e => roundValue env f st P e b) = .ok r) :
    (roundValue env f st P e b >>= fun e => roundValue env f st P e a) = .ok r := by
  unfold roundValue at h ⊢
  cases ha : bgValue env f st P a.1 with
  | error er => rw [ha] at h; cases h
  | ok wa =>
    rw [ha] at h
    simp only [okBind] at h ⊢
    cases hpa : wa.ndProject a.2 with
    | error er => rw [hpa] at h; cases h
    | ok pa =>
      rw [hpa] at h
      simp only [okBind] at h ⊢
      cases hb : bgValue env f st P b.1 with
      | error er =>
        rw [hb] at h
        cases hq : addProjection e pa with
        | error er => rw [hq] at h; cases h
        | ok q => rw [hq] at h; cases h
      | ok wb =>
        rw [hb] at h
        simp only [okBind] at h ⊢
        cases hpb : wb.ndProject b.2 with
        | error er =>
          rw [hpb] at h
          cases hq : addProjection e pa with
          | error er => rw [hq] at h; cases h
          | ok q => rw [hq] at h; cases h
        | ok pb =>
          rw [hpb] at h
          simp only [okBind] at h ⊢
          cases e with
          | none =>
            simp only [addProjection, okBind, pure, Except.pure] at h ⊢
            by_cases hs : pa.shape = pb.shape
            · rw [if_pos hs] at h
              rw [if_pos hs.symm, ← add_comm_nd hs]
              exact h
            · rw [if_neg hs] at h; cases h
          | some e =>
            simp only [addProjection] at h ⊢
            by_cases h1 : e.shape = pa.shape
            · rw [if_pos h1] at h
              simp only [okBind, pure, Except.pure] at h
              have hs : ∀ p : NdArray ℚ, (e.add p).shape = e.shape := fun _ => rfl
              rw [hs] at h
              by_cases h2 : e.shape = pb.shape
              · rw [if_pos h2] at h ⊢
                simp only [okBind, pure, Except.pure] at h ⊢
                rw [hs, if_pos h1]
                simp only [okBind]
                rw [add_right_comm_nd]
                exact h
              · rw [if_neg h2] at h; cases h
            · rw [if_neg h1] at h; cases h

theorem penaltyStep_swap (s : Stat) (x : ℝ) (p q : Param) (r : ℝ)
    (h : (penaltyStep s x p >>= fun x => penaltyStep s x q) = .ok r) :
    (penaltyStep s x q >>= fun x => penaltyStep s x p) = .ok r := by
  have key : ∀ p : Param, (∃ er, ∀ x, penaltyStep s x p = .error er) ∨
      ∃ t, ∀ x, penaltyStep s x p = .ok (x + t) := by
    intro p
    unfold penaltyStep
    cases p.value with
    | none => exact .inl ⟨_, fun _ => rfl⟩
    | some v =>
      cases hσ : p.sigma with
      | none => exact .inr ⟨0, fun x => by simp⟩
      | some σ =>
        dsimp only
        cases s.penalty v p.prior σ with
        | error er => exact .inl ⟨er, fun _ => rfl⟩
        | ok t => exact .inr ⟨t, fun _ => rfl⟩
  rcases key p with ⟨er, hp⟩ | ⟨t, hp⟩
  · rw [hp] at h; cases h
  rcases key q with ⟨er, hq⟩ | ⟨u, hq⟩
  · rw [hp] at h; simp only [okBind, hq] at h; cases h
  simp only [hp, hq, okBind] at h ⊢
  rw [add_right_comm]
  exact h

theorem withValues_perm {ps ps' : List ℕ} {a a' : List ℚ} (P : ℕ → Param) (hn : ps.Nodup)
    (hn' : ps'.Nodup) (hl : a.length = ps.length) (hp : ps'.Perm ps)
    (h : (ps'.zip a').Perm (ps.zip a)) : withValues ps' a' P = withValues ps a P := by
  funext p
  by_cases hm : p ∈ ps
  · obtain ⟨i, hi, rfl⟩ := List.getElem_of_mem hm
    have hz : (ps[i], a[i]'(by omega)) ∈ ps.zip a := by
      rw [List.mem_iff_getElem]
      exact ⟨i, by simp; omega, by simp⟩
    rw [withValues_mem hn hz, withValues_mem hn' (h.symm.subset hz)]
  · rw [withValues_not_mem hm, withValues_not_mem fun h => hm (hp.subset h)]

theorem Reordered.symm (h : Reordered f f') : Reordered f' f where
  same := by
    have := h.same
    rw [this]
  floating := by
    obtain ⟨fl, fl', h1, h2, h3⟩ := h.floating
    exact ⟨fl', fl, h2, h1, h3.symm⟩
  pars := h.pars.symm

theorem SameValues.symm {α : Type} {a a' : List α} (h : SameValues f f' a a') :
    SameValues f' f a' a :=
  ⟨h.length', h.length, h.values.symm⟩

theorem functValue_perm (h : Reordered f f') (hn : f.pars.Nodup) {fl fl' : List (ℕ × List PyStr)}
    (hfl : fl'.Perm fl) {a a' : List ℚ} (ha : SameValues f f' a a')
    {r : (StatValue × Option (List ℕ)) × ℝ} (hr : functValue env f st a fl = .ok r) :
    functValue env f' st a' fl' = .ok r := by
  have hn' : f'.pars.Nodup := h.pars.nodup_iff.2 hn
  have hP := withValues_perm st.params hn hn' ha.length h.pars ha.values
  unfold functValue at hr ⊢
  rw [hP]
  generalize withValues f.pars a st.params = P at hr ⊢
  have hsame := h.same
  obtain ⟨flo, prs, hfp⟩ : ∃ flo prs, f' = { f with floating := flo, pars := prs } := ⟨_, _, hsame⟩
  have hps := h.pars
  clear h ha hsame hP hn hn'
  subst hfp
  dsimp only at hps ⊢
  cases hc : contentsValue env f st P fl with
  | error er => rw [hc] at hr; cases hr
  | ok c =>
    rw [hc] at hr
    have hc' : contentsValue env { f with floating := flo, pars := prs } st P fl' = .ok c := by
      unfold contentsValue at hc ⊢
      dsimp only
      cases h1 : (st.view f.data).ndProject f.dataPars with
      | error er => rw [h1] at hc; cases hc
      | ok o =>
        rw [h1] at hc
        simp only [okBind] at hc ⊢
        have e1 : fixedValue { f with floating := flo, pars := prs } st = fixedValue f st := rfl
        rw [e1]
        cases h2 : fixedValue f st with
        | error er => rw [h2] at hc; cases hc
        | ok e =>
          rw [h2] at hc
          simp only [okBind] at hc ⊢
          have e2 : roundValue env { f with floating := flo, pars := prs } st P =
            roundValue env f st P := rfl
          rw [e2]
          cases h3 : fl.foldlM (roundValue env f st P) e with
          | error er => rw [h3] at hc; cases hc
          | ok e' =>
            rw [h3] at hc
            rw [foldlM_perm (roundValue_swap P) hfl.symm _ _ h3]
            exact hc
    rw [hc']
    simp only [okBind] at hr ⊢
    unfold evaluate at hr ⊢
    cases hc2 : c.2 with
    | none => rw [hc2] at hr; cases hr
    | some ex =>
      rw [hc2] at hr
      dsimp only at hr ⊢
      cases h1 : f.stat.computeStatistic f.statPerBin (flatten f.singleBin c.1)
          (flatten f.singleBin ex) with
      | error er => rw [h1] at hr; cases hr
      | ok out =>
        rw [h1] at hr
        simp only [okBind] at hr ⊢
        cases h2 : totalPenalty f.stat (f.pars.map P) with
        | error er => rw [h2] at hr; cases hr
        | ok t =>
          rw [h2] at hr
          have : totalPenalty f.stat (prs.map P) = .ok t := by
            rw [totalPenalty_eq] at h2 ⊢
            exact foldlM_perm (penaltyStep_swap f.stat) (hps.symm.map P) _ _ h2
          rw [this]
          exact hr

theorem Reordered.ready (h : Reordered f f') (hr : FitReady env f st) : FitReady env f' st := by
  obtain ⟨fl, fl', h1, h2, h3⟩ := h.floating
  have hrefs : f'.floatingRefs.Perm f.floatingRefs := by
    unfold Fit.floatingRefs
    rw [h1, h2]
    exact h3.map _
  have hsame := h.same
  have hdata : f'.data = f.data := by rw [hsame]
  have hfixed : f'.fixed = f.fixed := by rw [hsame]
  have hsignal : f'.signal = f.signal := by rw [hsame]
  have hglob : f'.globals = f.globals := by rw [hsame]
  have hmov : f'.moving.Perm f.moving := by
    unfold Fit.moving
    rw [hsignal]
    exact hrefs.append_right _
  exact
    { str := hr.str
      cache := hr.cache
      alloc := by
        rw [hdata, hfixed]
        exact ⟨hr.alloc.1, hr.alloc.2.1, fun r hm => hr.alloc.2.2 r (hmov.subset hm)⟩
      apart := by
        rw [hdata, hfixed]
        exact ⟨fun hm => hr.apart.1 (hrefs.subset hm),
          fun b hb hm => hr.apart.2 b hb (hrefs.subset hm)⟩
      backgrounds := (hmov.map _).nodup_iff.2 hr.backgrounds
      axes := by
        rw [hdata]
        exact fun r hm => hr.axes r (hmov.subset hm)
      decays := fun r hm => hr.decays r (hmov.subset hm)
      pars := h.pars.nodup_iff.2 hr.pars
      globals := by
        rw [hglob]
        exact fun p hp => ⟨h.pars.symm.subset (hr.globals p hp).1, (hr.globals p hp).2⟩
      rates := fun r hm p hp =>
        ⟨h.pars.symm.subset (hr.rates r (hrefs.subset hm) p hp).1,
          (hr.rates r (hrefs.subset hm) p hp).2⟩ }

/-- **C136, evaluations.** A fit whose floating backgrounds or parameters are listed in another
order gives the same statistic and the same penalty at the same values of the parameters, after any
evaluations. (Partial: the suppositions of C62.) -/
theorem c136_evaluate_partial (hr : FitReady env f st) (h : Reordered f f')
    (hist hist' : List (List ℚ)) (hh : ∀ a ∈ hist, FullArgs f a ∧ NonzeroRates f st a)
    (hh' : ∀ a ∈ hist', FullArgs f' a ∧ NonzeroRates f' st a) {a a' : List ℚ}
    (ha : SameValues f f' a a') (r : (StatValue × Option (List ℕ)) × ℝ) :
    (funct env f a (afterEvaluations env f hist st)).2 = .ok r ↔
      (funct env f' a' (afterEvaluations env f' hist' st)).2 = .ok r := by
  have hr' := h.ready hr
  obtain ⟨fl, fl', h1, h2, h3⟩ := h.floating
  obtain ⟨_, -, -, e⟩ := funct_run hr (inv_after hr hh) h1 ha.length
  obtain ⟨_, -, -, e'⟩ := funct_run hr' (inv_after hr' hh') h2 ha.length'
  rw [e, e']
  exact ⟨functValue_perm h hr.pars h3 ha, functValue_perm h.symm hr'.pars h3.symm ha.symm⟩

theorem SameValues.rounded {w w' : List ℝ} (h : SameValues f f' w w') (rnd : ℝ → ℚ) :
    SameValues f f' (w.map rnd) (w'.map rnd) where
  length := by rw [List.length_map, h.length]
  length' := by rw [List.length_map, h.length']
  values := by
    rw [List.zip_map_right, List.zip_map_right]
    exact h.values.map _

/-- Every combination of the one fit is one of the other. -/
theorem SameValues.combination {vss vss' : List (List ℝ)} (h : SameValues f f' vss vss')
    {w : List ℝ} (hw : Combination vss w) : ∃ w', Combination vss' w' ∧ SameValues f f' w w' := by
  let R : ℕ × List ℝ → ℕ × ℝ → Prop := fun e x => e.1 = x.1 ∧ x.2 ∈ e.2
  have h1 : ∀ (ps : List ℕ) (vss : List (List ℝ)) (w : List ℝ), Combination vss w →
      List.Forall₂ R (ps.zip vss) (ps.zip w) := by
    intro ps vss w hw
    induction hw generalizing ps with
    | nil => simp
    | cons hx _ ih =>
      cases ps with
      | nil => simp
      | cons p ps => exact .cons ⟨rfl, hx⟩ (ih ps)
  obtain ⟨L, hL, hp⟩ := List.perm_comp_forall₂ h.values (h1 f.pars vss w hw)
  have h2 : ∀ (ps : List ℕ) (vss : List (List ℝ)) (L : List (ℕ × ℝ)), vss.length = ps.length →
      List.Forall₂ R (ps.zip vss) L →
      ∃ w', Combination vss w' ∧ L = ps.zip w' ∧ w'.length = ps.length := by
    intro ps
    induction ps with
    | nil =>
      intro vss L hl h
      rw [List.zip_nil_left] at h
      cases h
      rw [List.length_nil, List.length_eq_zero_iff] at hl
      subst hl
      exact ⟨[], .nil, rfl, rfl⟩
    | cons p ps ih =>
      intro vss L hl h
      cases vss with
      | nil => simp at hl
      | cons vs vss =>
        rw [List.zip_cons_cons] at h
        obtain ⟨x, L', hx, hL', rfl⟩ := List.forall₂_cons_left_iff.1 h
        obtain ⟨w', i1, i2, i3⟩ := ih vss L' (by simpa using hl) hL'
        refine ⟨x.2 :: w', .cons hx.2 i1, ?_, by simp [i3]⟩
        rw [List.zip_cons_cons, ← i2]
        obtain ⟨x1, x2⟩ := x
        have : p = x1 := hx.1
        rw [this]
  obtain ⟨w', i1, i2, i3⟩ := h2 f'.pars vss' L h.length' hL
  refine ⟨w', i1, ?_, i3, i2 ▸ hp⟩
  rw [hw.length_eq, h.length]

variable {g g' : GridSearch} {vss vss' : List (List ℝ)}

/-- Values of the parameters are determined by their association. -/
theorem SameValues.inj {w v w' : List ℝ} (hn : f'.pars.Nodup) (h : SameValues f f' w w')
    (h2 : SameValues f f' w v) : w' = v := by
  have hp : (f'.pars.zip w').Perm (f'.pars.zip v) := h.values.trans h2.values.symm
  have hl := h.length'
  have hl2 := h2.length'
  clear h h2
  generalize f'.pars = ps at *
  induction ps generalizing w' v with
  | nil =>
    rw [List.length_nil, List.length_eq_zero_iff] at hl hl2
    rw [hl, hl2]
  | cons p ps ih =>
    cases w' with
    | nil => simp at hl
    | cons x w' =>
      cases v with
      | nil => simp at hl2
      | cons y v =>
        rw [List.nodup_cons] at hn
        have hx : (p, x) ∈ (p :: ps).zip (y :: v) := hp.subset (by simp)
        rw [List.zip_cons_cons, List.mem_cons] at hx
        have hxy : x = y := by
          rcases hx with hx | hx
          · exact (Prod.mk.inj hx).2
          · exact absurd (List.of_mem_zip hx).1 hn.1
        subst hxy
        rw [List.zip_cons_cons, List.zip_cons_cons, List.perm_cons] at hp
        rw [ih hn.2 hp (by simpa using hl) (by simpa using hl2)]

/-- **C136, fits.** Fits by grid search over the same values, of two fits that differ only in the
order of floating backgrounds or of parameters: one returns if and only if the other does, the
smallest statistic plus penalty is the same, and if no other combination has it, every parameter
has the same best fit. -/
theorem c136_fit_partial (hr : FitReady env f st) (hs : Reordered f f')
    (hist hist' : List (List ℚ)) (hh : ∀ a ∈ hist, FullArgs f a ∧ NonzeroRates f st a)
    (hh' : ∀ a ∈ hist', FullArgs f' a ∧ NonzeroRates f' st a) (hg : g.Ready) (hg' : g'.Ready)
    (h : FitSearch env f st rnd g vss) (h' : FitSearch env f' st rnd g' vss')
    (hv : SameValues f f' vss vss') (hn : ∀ vs ∈ vss, vs.Nodup) :
    ((∃ res, (fitGrid env f rnd g (afterEvaluations env f hist st)).2 = .ok res) ↔
      ∃ res, (fitGrid env f' rnd g' (afterEvaluations env f' hist' st)).2 = .ok res) ∧
    ∀ b raw pen b' raw' pen',
      (fitGrid env f rnd g (afterEvaluations env f hist st)).2 = .ok (b, raw, pen) →
      (fitGrid env f' rnd g' (afterEvaluations env f' hist' st)).2 = .ok (b', raw', pen') →
      raw.sum + pen.get [] = raw'.sum + pen'.get [] ∧
      ∃ w w', Combination vss w ∧ b.pars.map FitPar.bestFit = w.map some ∧
        Combination vss' w' ∧ b'.pars.map FitPar.bestFit = w'.map some ∧
        ((∀ u s p, Combination vss u → (funct env f (u.map rnd) st).2 = .ok (s, p) →
          (toFitVal s).cells.sum + p = raw.sum + pen.get [] → u = w) → SameValues f f' w w') := by
  have hr' := hs.ready hr
  have hn' : ∀ vs ∈ vss', vs.Nodup := by
    intro vs hvs
    obtain ⟨i, hi, rfl⟩ := List.getElem_of_mem hvs
    have hl := hv.length'
    have hz : (f'.pars[i]'(by omega), vss'[i]) ∈ f'.pars.zip vss' := by
      rw [List.mem_iff_getElem]
      exact ⟨i, by simp; omega, by simp⟩
    exact hn _ (List.of_mem_zip (hv.values.subset hz)).2
  have ev : ∀ {w w' : List ℝ}, SameValues f f' w w' → ∀ r,
      (funct env f (w.map rnd) st).2 = .ok r ↔ (funct env f' (w'.map rnd) st).2 = .ok r :=
    fun hw r => c136_evaluate_partial hr hs [] [] (by simp) (by simp) (hw.rounded rnd) r
  refine ⟨?_, ?_⟩
  · rw [c93_returns_partial hr hist hh hg h hn, c93_returns_partial hr' hist' hh' hg' h' hn']
    constructor
    · intro he w' hw'
      obtain ⟨w, hw, hww⟩ := hv.symm.combination hw'
      obtain ⟨r, hr⟩ := he w hw
      exact ⟨r, (ev hww.symm r).1 hr⟩
    · intro he w hw
      obtain ⟨w', hw', hww⟩ := hv.combination hw
      obtain ⟨r, hr⟩ := he w' hw'
      exact ⟨r, (ev hww r).2 hr⟩
  · intro b raw pen b' raw' pen' hb hb'
    obtain ⟨idx, w, s, p, a1, a2, a3, a4, a5, a6, a7⟩ := c93_returned_partial hr hist hh hg h hn hb
    obtain ⟨idx', w', s', p', b1, b2, b3, b4, b5, b6, b7⟩ :=
      c93_returned_partial hr' hist' hh' hg' h' hn' hb'
    obtain ⟨v, hv1, hv2⟩ := hv.combination a1.comb
    obtain ⟨v', hv1', hv2'⟩ := hv.symm.combination b1.comb
    have c1 := (ev hv2 _).1 a3
    have c2 := (ev hv2'.symm _).2 b3
    obtain ⟨j, hj⟩ := valuesAt_of_comb hv1
    obtain ⟨j', hj'⟩ := valuesAt_of_comb hv1'
    obtain ⟨s1, p1, d1, d2, -⟩ := b7 _ _ hj
    rw [c1] at d1
    cases d1
    obtain ⟨s2, p2, d3, d4, -⟩ := a7 _ _ hj'
    rw [c2] at d3
    cases d3
    have hsum : raw.sum + pen.get [] = (toFitVal s).cells.sum + p := by
      rw [a6, a4.sum_eq]
    have hsum' : raw'.sum + pen'.get [] = (toFitVal s').cells.sum + p' := by
      rw [b6, b4.sum_eq]
    refine ⟨by rw [hsum, hsum']; exact le_antisymm d4 d2, w, w', a1.comb, a2, b1.comb, b2, ?_⟩
    intro hu
    have := hu v' s' p' hv1' c2 (by rw [hsum]; exact le_antisymm d2 d4)
    rw [← this]
    exact hv2'.symm

/-! ### a case that meets the hypotheses -/

namespace Ex

/-- The fit `fitGlobal` with its backgrounds and its parameters in another order. -/
def fitReordered : Fit := { fitGlobal with
  floating := some [(3, [lit "energy_mc"]), (2, [lit "energy_mc"])]
  pars := [1, 2, 0] }

/-- The grid search `fitSearch [5, 3]` in that order. -/
def searchReordered : GridSearch :=
  GridSearch.new [gridPar (lit "rate") none [7], gridPar (lit "shift") none [20],
    gridPar (lit "rate") (some 2) [5, 3]] [4] (some (lit "fit")) false

end Ex

theorem ex_reordered : Reordered Ex.fitGlobal Ex.fitReordered where
  same := rfl
  floating := ⟨_, _, rfl, rfl, .swap _ _ _⟩
  pars := by decide

theorem ex_sameValues {α : Type} (a b c : α) :
    SameValues Ex.fitGlobal Ex.fitReordered [a, b, c] [c, a, b] where
  length := rfl
  length' := rfl
  values := by
    show List.Perm [(1, c), (2, a), (0, b)] [(2, a), (0, b), (1, c)]
    exact (List.Perm.swap _ _ _).trans (.cons _ (.swap _ _ _))

/-- The combinations of the reordered search. -/
theorem ex_combination_reordered {w : List ℝ} (h : Combination [[7], [20], [5, 3]] w) :
    ∃ x, (x = 5 ∨ x = 3) ∧ w = [7, 20, x] := by
  obtain ⟨a, _, ha, h1, rfl⟩ := List.forall₂_cons_right_iff.1 h
  obtain ⟨b, _, hb, h2, rfl⟩ := List.forall₂_cons_right_iff.1 h1
  obtain ⟨x, _, hx, h3, rfl⟩ := List.forall₂_cons_right_iff.1 h2
  cases h3
  simp only [List.mem_singleton] at ha hb
  subst ha hb
  exact ⟨x, by simpa using hx, rfl⟩

theorem ex_fitSearch_reordered : FitSearch Ex.fitEnv Ex.fitReordered Ex.fitState Ex.toInt
    Ex.searchReordered [[7], [20], [5, 3]] where
  values := .cons rfl (.cons rfl (.cons rfl .nil))
  counts := .cons ⟨rfl, by simp⟩ (.cons ⟨rfl, by simp⟩ (.cons ⟨rfl, by simp⟩ .nil))
  number := rfl
  floating := by simp [Ex.fitReordered]
  form := fun w r _ hr => form_total rfl rfl rfl hr
  rates := by
    intro w hw e he hk
    obtain ⟨x, hx, rfl⟩ := ex_combination_reordered hw
    have : e = (1, Ex.toInt 7) ∨ e = (2, Ex.toInt 20) ∨ e = (0, Ex.toInt x) := by
      simpa [Ex.fitReordered] using he
    rcases this with rfl | rfl | rfl
    · simp [Ex.toInt]
    · simp [Ex.fitState, Ex.fitParam] at hk
    · rcases hx with rfl | rfl <;> simp [Ex.toInt]
  sigmas := by
    intro q hq
    have : q = Ex.gridPar (lit "rate") none [7] ∨ q = Ex.gridPar (lit "shift") none [20] ∨
        q = Ex.gridPar (lit "rate") (some 2) [5, 3] := by
      simpa [Ex.searchReordered, GridSearch.new] using hq
    rcases this with rfl | rfl | rfl <;> simp [Ex.gridPar]
  nonempty := Or.inr (by simp [Ex.searchReordered, GridSearch.new])

/-- Both fits return, with the same smallest statistic plus penalty. -/
example : ∃ b raw pen b' raw' pen',
    (fitGrid Ex.fitEnv Ex.fitGlobal Ex.toInt (Ex.fitSearch [5, 3]) Ex.fitState).2 =
      .ok (b, raw, pen) ∧
    (fitGrid Ex.fitEnv Ex.fitReordered Ex.toInt Ex.searchReordered Ex.fitState).2 =
      .ok (b', raw', pen') ∧ raw.sum + pen.get [] = raw'.sum + pen'.get [] := by
  have hn : ∀ vs ∈ ([[20], [5, 3], [7]] : List (List ℝ)), vs.Nodup := by
    intro vs h
    simp at h
    rcases h with rfl | rfl | rfl <;> norm_num
  obtain ⟨h1, h2⟩ := c136_fit_partial ex_ready ex_reordered [] [] (by simp) (by simp) ⟨rfl, rfl⟩
    ⟨rfl, rfl⟩ ex_fitSearch ex_fitSearch_reordered (ex_sameValues _ _ _) hn
  obtain ⟨F, P, h⟩ := ex_setup
  have hret := (c93_returns_partial ex_ready [] (by simp) ⟨rfl, rfl⟩ ex_fitSearch hn).2
    fun w hw => ⟨_, (h.returns w hw).choose_spec.1⟩
  obtain ⟨⟨b, raw, pen⟩, e⟩ := hret
  obtain ⟨⟨b', raw', pen'⟩, e'⟩ := h1.1 ⟨_, e⟩
  exact ⟨b, raw, pen, b', raw', pen', e, e', (h2 _ _ _ _ _ _ e e').1⟩

/-! ### where it fails -/

/-- **C136, background names.** With two backgrounds of the same background name the expectation
depends on the order of the backgrounds: both are given the spectrum of the first. -/
theorem c136_names_negation :
    Reordered Ex.fitGlobal Ex.fitReordered ∧
    SameValues Ex.fitGlobal Ex.fitReordered [(20 : ℚ), 5, 7] [7, 20, 5] ∧
    expectedList (evaluatedContents Ex.fitEnv Ex.fitGlobal [20, 5, 7] Ex.sameName) ≠
      expectedList (evaluatedContents Ex.fitEnv Ex.fitReordered [7, 20, 5] Ex.sameName) ∧
    expectedList (evaluatedContents Ex.fitEnv Ex.fitGlobal [20, 5, 7] Ex.fitState) =
      expectedList (evaluatedContents Ex.fitEnv Ex.fitReordered [7, 20, 5] Ex.fitState) :=
  ⟨ex_reordered, ex_sameValues _ _ _, by decide +kernel, by decide +kernel⟩

end Verif
