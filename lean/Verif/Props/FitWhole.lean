import Verif.Lemmas.FitWholeRun

/-!
# C137: from the arguments of the constructor to the evaluated contents

The theorems about evaluations (C62, C91, C93, C100, C133, C134, C136) suppose a fit that is ready
(`FitReady`). Here such fits are made by the constructor.
-/

namespace Verif

open Session

section

variable {env : FitEnv} {keyOf : ℕ → PyStr} {a : FitArgs} {ts : List Spectrum} {d : ℕ} {st : FitState}

/-- **C137, ready.** A fit constructed with data and floating backgrounds, and perhaps fixed
backgrounds and a signal, has what the theorems about evaluations suppose (`FitReady`), and what it
evaluates are exactly the given spectra, in the given order, with the parameters of the region;
its parameters are those of the given configuration followed by those of the backgrounds. (Partial:
the suppositions of C62 and C99.) -/
theorem c137_ready_partial (hg : a.Given ts st) (he : a.Evaluable env keyOf d st)
    (hfl : a.floating ≠ []) :
    ∃ ses st' ns, init keyOf a st = (st', .ok ses) ∧ Constructed a ts st ses st' ∧
      RoiNames (st.view d).cfg (inOrder a.roi) ns ∧ ses.toFit = a.read st d ses.fixed ns ∧
      FitReady env ses.toFit st' := by
  obtain ⟨ses, st', b, ns, h1, h2, h3, h4, h5, -, h7, h8⟩ := whole_run hg he hfl
  exact ⟨ses, st', ns, h1, h8, h4, by rw [h7]; exact h5, by rw [h5]; exact read_ready hg he h2 h3⟩

/-- **C137, contents.** A fit constructed with data, floating backgrounds, each with one rate, and
perhaps fixed backgrounds and a signal, without global parameters. Whatever has been evaluated
before, an evaluation compares the contents of the data in the region with the sum of the contents
in the region of every given spectrum: fixed backgrounds scaled from their decays to the given
numbers, floating ones to the values of their rates, and the signal as it is. (Partial: the
suppositions of C62 and C99; at most one axis is projected out, see C11.) -/
theorem c137_contents_partial (hg : a.Given ts st) (he : a.Evaluable env keyOf d st)
    (hfl : a.floating ≠ []) (hglob : ∀ e ∈ a.config, e.2.2 = false)
    (hl : (st.view d).cfg.length ≤ a.roi.length + 1) :
    ∃ ses st' ns, init keyOf a st = (st', .ok ses) ∧
      RoiNames (st.view d).cfg (inOrder a.roi) ns ∧ ∃ c : ℕ → NdArray ℚ,
      (∀ r ∈ a.kept ++ a.fixed.map Prod.fst,
        RegionContents (inOrder a.roi) ns (st.view r) (c r) ∧ (c r).shape = (c d).shape) ∧
      ∀ (hist : List (List ℚ)), (∀ x ∈ hist, a.Values st x) → ∀ (args : List ℚ),
        args.length = (a.parameters st).length → ∀ (rate : ℕ → ℚ),
        (∀ r ∈ a.floating, ∃ p, (st.objs r).fit = some [p] ∧
          (p, rate r) ∈ (a.parameters st).zip args) →
        ∃ e, evaluatedContents env ses.toFit args (afterEvaluations env ses.toFit hist st') =
            .ok (c d, some e) ∧ e.shape = (c d).shape ∧ ∀ idx, InB (c d).shape idx →
          e.get idx =
            (a.fixed.map (fun x => x.2 / (st.view x.1).numDecays * (c x.1).get idx)).sum +
            (a.floating.map (fun r => rate r / (st.view r).numDecays * (c r).get idx)).sum +
            (a.signal.toList.map (fun r => (c r).get idx)).sum := by
  obtain ⟨ses, st', b, ns, h1, h2, h3, h4, h5, h6, h7, h8⟩ := whole_run hg he hfl
  refine ⟨ses, st', ns, h1, h4, ?_⟩
  have hready := read_ready (b := b) (ns := ns) hg he h2 h3
  have hreg := inOrder_isDict hg.region
  have hdk : d ∈ a.kept := by simp [FitArgs.kept, he.data]
  have hmk : ∀ r ∈ a.floating ++ a.signal.toList, r ∈ a.kept := fun r hr => by
    simp only [FitArgs.kept, List.mem_append] at hr ⊢; tauto
  have hlt : ∀ r ∈ a.kept, r < st.next := hg.alloc
  -- every spectrum has the axes of the data
  have hcfg : ∀ r ∈ a.kept ++ a.fixed.map Prod.fst, (st.view r).cfg = (st.view d).cfg := by
    intro r hr
    by_cases hrd : r = d
    · rw [hrd]
    · refine he.axes r ?_
      simp only [FitArgs.kept, he.data, List.mem_append, Option.toList_some, List.mem_singleton] at hr ⊢
      tauto
  obtain ⟨c, hc⟩ := region_run hg he.data hcfg h2 h4 hl
  have hcd := hc d (List.mem_append_left _ hdk)
  have hshape : ∀ r ∈ a.kept ++ a.fixed.map Prod.fst, (c r).shape = (c d).shape := fun r hr =>
    (hc r hr).2.2
  refine ⟨c, fun r hr => ⟨(hc r hr).1, hshape r hr⟩, ?_⟩
  intro hist hhist args hargs rate hrate
  -- the fixed background
  obtain ⟨fixed, f1, f2⟩ : ∃ fixed : List (NdArray ℚ),
      List.Forall₂ (fun t p => (st'.view t).ndProject ns = .ok p ∧ p.shape = (c d).shape)
        b.toList fixed ∧
      ∀ idx, InB (c d).shape idx → (fixed.map (fun p => p.get idx)).sum =
        (a.fixed.map (fun x => x.2 / (st.view x.1).numDecays * (c x.1).get idx)).sum := by
    cases hb : b with
    | none =>
      refine ⟨[], .nil, fun idx _ => ?_⟩
      rw [h6.1 hb]; rfl
    | some t =>
      have hne : a.fixed ≠ [] := fun hn => by rw [h6.2 hn] at hb; cases hb
      obtain ⟨p, k1, k2, k3⟩ := fixed_run hg hne hcfg h4 hl (h2.total t hb) hc
      exact ⟨[p], .cons ⟨k1, k2⟩ .nil, fun idx hi => by
        rw [List.map_singleton, List.sum_singleton, k3 idx hi]⟩
  have hgl : a.globalPars = [] := by
    unfold FitArgs.globalPars
    rw [List.filter_eq_nil_iff.2 fun e he => by simp [hglob e he]]
    rfl
  have hval : ∀ x, a.Values st x → FullArgs (a.read st d b ns) x ∧
      NonzeroRates (a.read st d b ns) st' x := by
    intro x hx
    refine ⟨hx.1, fun e he hk => hx.2 e he ?_⟩
    rw [h3.params] at hk
    exact hk
  rw [h5]
  obtain ⟨e, e1, e2, e3⟩ := evaluated_run (signal := a.signal.toList.map c) hready hfl hgl (hcd.2.1 hdk)
    (fun r hr => by
      have hk := hmk r (List.mem_append_left _ hr)
      have hm : r ∈ a.kept ++ a.fixed.map Prod.fst := List.mem_append_left _ hk
      exact ⟨(hc r hm).2.1 hk, hshape r hm, h3.fit r (hlt r hk),
        (final_axes hg he h2 (List.mem_append_left _ hr)).2.2.1⟩) f1
    (by
      rw [List.forall₂_map_right_iff, List.forall₂_same]
      intro r hr
      have hk := hmk r (List.mem_append_right _ hr)
      have hm : r ∈ a.kept ++ a.fixed.map Prod.fst := List.mem_append_left _ hk
      exact ⟨(hc r hm).2.1 hk, hshape r hm⟩) hist (fun x hx => hval x (hhist x hx)) args hargs rate hrate
  refine ⟨e, e1, e2, fun idx hi => ?_⟩
  rw [e3 idx hi, f2 idx hi, List.map_map]
  rfl

/-- **C137, the call.** The first `fit()` of a constructed fit hands exactly this fit to the minimiser,
and returns what the minimiser returns. (Partial: the suppositions of C62 and C99.) -/
theorem c137_fit_partial (hg : a.Given ts st) (he : a.Evaluable env keyOf d st)
    (hfl : a.floating ≠ []) (hs : a.Settings st) :
    ∃ ses st' ns, init keyOf a st = (st', .ok ses) ∧
      RoiNames (st.view d).cfg (inOrder a.roi) ns ∧
      ∀ (ρ : Type) (mini : Fit → FitM ρ), ses.fit mini st' =
        (({ ses with checked := true }, (mini (a.read st d ses.fixed ns) st').1),
          (mini (a.read st d ses.fixed ns) st').2.map .inr) := by
  obtain ⟨ses, st', ns, h1, h2, h3, h4, -⟩ := c137_ready_partial hg he hfl
  obtain ⟨ses1, st1, k1, -, -, -, -, k2, k3⟩ := c99_ready_partial keyOf a ts st hg
    (by rw [he.data]; simp) (.inr hfl) hs
  rw [h1] at k1
  cases k1
  refine ⟨ses, st', ns, h1, h3, fun ρ mini => ?_⟩
  rw [k3]
  have hf : ¬ (ses.floating.getD [] = []) := by
    rw [h2.floating, if_neg hfl]; exact hfl
  have ht : ({ ses with checked := true } : Session).toFit = a.read st d ses.fixed ns := h4
  have hm : ses.minimiser ≠ none := by rw [k2]; simp
  have hrun : runFit mini { ses with checked := true } st' =
      ((mini (a.read st d ses.fixed ns) st').1, (mini (a.read st d ses.fixed ns) st').2.map .inr) := by
    unfold runFit
    rw [if_neg hf, if_neg hm, ht]
    rcases mini (a.read st d ses.fixed ns) st' with ⟨s, e | x⟩ <;> rfl
  unfold Session.fit
  rw [if_pos rfl, hrun]

end

/-! ### cases that meet the hypotheses -/

/-- Data, a fixed background, two floating ones and a signal. -/
def exWhole : FitArgs where
  roi := [(lit "energy", (2, 1))]
  stat := .bcChi
  data := some 0
  fixed := [(1, 20)]
  floating := [2, 3]
  signal := some 4

theorem exWhole_given (config : Dict (ℕ × Bool)) : { exWhole with config }.Given
    [(((Ex.fitState.view 1).shrink exFitKw).st.scale 20).st] Ex.fitState where
  region := by
    show IsDict [(lit "energy", ((2 : ℚ), (1 : ℚ)))]
    unfold IsDict; decide
  some := by simp [exWhole]
  alloc := by
    intro r hr
    have : r = 0 ∨ r = 4 ∨ r = 2 ∨ r = 3 := by simpa [FitArgs.kept, exWhole] using hr
    rcases this with rfl | rfl | rfl | rfl <;> decide
  own := by
    show (([0, 4, 2, 3] ++ [1]).map (fun r => (Ex.fitObj r).cfg)).Nodup
    decide
  able := by
    intro r hr
    show CanShrink (inOrder [(lit "energy", ((2 : ℚ), (1 : ℚ)))]) _
    rw [exInit_roi]
    refine ex_fitState_canShrink r ?_
    have : r = 0 ∨ r = 4 ∨ r = 2 ∨ r = 3 ∨ r = 1 := by simpa [FitArgs.kept, exWhole] using hr
    omega
  fixed := by
    show Suppliable (inOrder [(lit "energy", ((2 : ℚ), (1 : ℚ)))]) [(1, 20)] _ _
    rw [exInit_roi]
    refine ⟨?_, by decide, by unfold IsDict; decide, fun _ _ => fitAxis_dims, fun _ _ => by
      show ([Ex.fitAxis].map SPar.name).Nodup
      simp, .cons ⟨exFitKw, exFit_asks, by decide +kernel, rfl, by decide +kernel⟩ .nil, ?_⟩
    · intro r hr
      obtain rfl : r = 1 := by simpa using hr
      decide
    · intro t ht t' ht'
      rw [List.mem_singleton.1 ht, List.mem_singleton.1 ht']
      exact ⟨rfl, rfl⟩

theorem exWhole_evaluable {config : Dict (ℕ × Bool)}
    (h : config = [] ∨ config = [(lit "global", (2, true))]) :
    { exWhole with config }.Evaluable Ex.fitEnv Ex.keyOf 0 Ex.fitState where
  data := rfl
  str := ex_ready.str
  cache := rfl
  backgrounds := by
    show ([2, 3, 4].map (fun r => (Ex.fitObj r).background)).Nodup
    decide
  axes := fun _ _ => rfl
  dims := by
    intro p hp
    obtain rfl : p = Ex.fitAxis := by simpa [FitState.view, Ex.fitState] using hp
    exact ⟨lit "energy", lit "mc", by decide, rfl⟩
  decays := by
    intro r hr
    have : r = 2 ∨ r = 3 ∨ r = 4 := by simpa [exWhole] using hr
    rcases this with rfl | rfl | rfl <;> simp [FitState.view, Ex.fitState, Ex.fitObj]
  names := by
    show (config.map Prod.fst ++ [0, 1].map Ex.keyOf).Nodup
    rcases h with rfl | rfl <;> decide
  pars := by
    show (config.map (fun e : PyStr × ℕ × Bool => e.2.1) ++ [0, 1]).Nodup
    rcases h with rfl | rfl <;> decide
  globals := by
    intro e he _
    rcases h with rfl | rfl
    · simp at he
    · rw [List.mem_singleton.1 he]; simp [Ex.fitState, Ex.fitParam]
  rates := by
    intro p hp
    have : p = 0 ∨ p = 1 := by
      have : p ∈ [0, 1] := hp
      simpa using this
    rcases this with rfl | rfl <;> rfl

/-- with a global parameter -/
example := c137_ready_partial (exWhole_given [(lit "global", (2, true))])
  (exWhole_evaluable (.inr rfl)) (by simp [exWhole])

example := c137_fit_partial (exWhole_given [(lit "global", (2, true))])
  (exWhole_evaluable (.inr rfl)) (by simp [exWhole])
  { floating := fun _ => .inl (by simp)
    fixed := (fun h => by cases h)
    dimension := by simp [Ex.fitState, Ex.fitParam]
    perBin := by simp [exWhole] }

example := c137_contents_partial (exWhole_given []) (exWhole_evaluable (.inl rfl)) (by simp [exWhole])
  (by simp) (by simp [FitState.view, Ex.fitState, exWhole])

/-- Values for the two rates, and an earlier evaluation. -/
example : { exWhole with config := [] }.Values Ex.fitState [5, 7] ∧
    ∀ r ∈ exWhole.floating, ∃ p, (Ex.fitState.objs r).fit = some [p] ∧
      (p, (if r = 2 then 5 else 7 : ℚ)) ∈ (exWhole.parameters Ex.fitState).zip [5, 7] := by
  refine ⟨⟨rfl, ?_⟩, ?_⟩
  · intro e he _
    have : e = (0, 5) ∨ e = (1, 7) := by
      have : e ∈ [((0 : ℕ), (5 : ℚ)), (1, 7)] := he
      simpa using this
    rcases this with rfl | rfl <;> norm_num
  · intro r hr
    have : r = 2 ∨ r = 3 := by simpa [exWhole] using hr
    rcases this with rfl | rfl
    · exact ⟨0, rfl, List.mem_cons_self⟩
    · exact ⟨1, rfl, List.mem_cons_of_mem _ List.mem_cons_self⟩

/-- The contents in the region from 1 to 2 are 20 / 4 for each bin of the fixed background,
5 / 10 times 3 and 4 and 7 / 10 times 2 and 1 for the floating ones, and 1 and 0 for the signal. -/
example : ((init Ex.keyOf exWhole Ex.fitState).2.bind fun ses =>
      expectedList (evaluatedContents Ex.fitEnv ses.toFit [5, 7]
        (init Ex.keyOf exWhole Ex.fitState).1)) =
    .ok (some [5 + 3 / 2 + 7 / 5 + 1, 5 + 2 + 7 / 10 + 0]) := by
  decide +kernel

end Verif
