import Verif.Model.FitGrid
import Verif.Props.FitCache
import Verif.Props.Minimise

/-! Helper lemmas: the grid search over the evaluations of a fit. -/

namespace Verif

variable {env : FitEnv} {f : Fit} {st0 : FitState}

/-- The evaluation of the fresh fit, as a function. -/
noncomputable def freshValue (env : FitEnv) (f : Fit) (rnd : ℝ → ℚ) (st : FitState) (w : List ℝ) :
    Except PyErr (FitVal × ℝ) :=
  ((funct env f (w.map rnd) st).2).map (fun r => (toFitVal r.1, r.2))

theorem minimise_eq (g : GridSearch) (fn : List ℝ → Except PyErr (FitVal × ℝ)) (st : Stat) :
    g.minimise fn st = (do
      let pts ← GridSearch.gridPoints g.pars
      let g ← g.fillGrid fn pts
      reportBest g st) := rfl

theorem fillPoint_congr (g : GridSearch) (fn : List ℝ → Except PyErr (FitVal × ℝ))
    (pt : List ℝ × List ℕ) {r : FitVal × ℝ} (h : fn pt.1 = .ok r) :
    g.fillPoint fn pt = g.fillPoint (fun _ => .ok r) pt := by
  unfold GridSearch.fillPoint
  rw [h]

/-- The loop of the grid search, when evaluations keep `I` and give `fresh`. -/
theorem fillGridM_keeps {I : FitState → Prop} {rnd : ℝ → ℚ}
    {fresh : List ℝ → Except PyErr (FitVal × ℝ)} (pts : List (List ℝ × List ℕ))
    (hstep : ∀ pt ∈ pts, ∀ s, I s → ∃ s', I s' ∧ functAt env f rnd pt.1 s = (s', fresh pt.1))
    (g : GridSearch) (s : FitState) (hs : I s) :
    ∃ s', I s' ∧ fillGridM (functAt env f rnd) g pts s = (s', g.fillGrid fresh pts) := by
  induction pts generalizing g s with
  | nil => exact ⟨s, hs, rfl⟩
  | cons pt pts ih =>
    obtain ⟨s1, i1, e1⟩ := hstep pt (by simp) s hs
    unfold fillGridM GridSearch.fillGrid
    cases hfr : fresh pt.1 with
    | error e =>
      rw [hfr] at e1
      rw [FitM.bind_error e1]
      refine ⟨s1, i1, ?_⟩
      unfold GridSearch.fillPoint
      rw [hfr]
      rfl
    | ok r =>
      rw [hfr] at e1
      rw [FitM.bind_ok e1, fillPoint_congr g _ pt hfr]
      cases hg : g.fillPoint (fun _ => .ok r) pt with
      | error e => exact ⟨s1, i1, rfl⟩
      | ok g' =>
        obtain ⟨s3, i3, e3⟩ := ih (fun q hq => hstep q (by simp [hq])) g' s1 i1
        exact ⟨s3, i3, e3⟩

theorem functAt_run {rnd : ℝ → ℚ} {w : List ℝ} {s s' : FitState}
    {r : Except PyErr ((StatValue × Option (List ℕ)) × ℝ)}
    (h : funct env f (w.map rnd) s = (s', r)) :
    functAt env f rnd w s = (s', r.map (fun r => (toFitVal r.1, r.2))) := by
  unfold functAt
  cases r with
  | error e => rw [FitM.bind_error h]; rfl
  | ok r => rw [FitM.bind_ok h]; rfl

theorem functAt_keeps (hr : FitReady env f st0) (hf : f.floating ≠ none) {rnd : ℝ → ℚ} {w : List ℝ}
    (h1 : FullArgs f (w.map rnd)) (h2 : NonzeroRates f st0 (w.map rnd)) {s : FitState}
    (hs : Inv env f st0 (fun _ => False) s) :
    ∃ s', Inv env f st0 (fun _ => False) s' ∧
      functAt env f rnd w s = (s', freshValue env f rnd st0 w) := by
  obtain ⟨s1, i1, e1⟩ := funct_keeps hr hs h1 h2
  refine ⟨s1, i1, ?_⟩
  obtain ⟨fl, hf⟩ := Option.ne_none_iff_exists'.1 hf
  obtain ⟨_, -, -, a⟩ := funct_run hr hs hf h1
  obtain ⟨_, -, -, b⟩ := funct_run hr (inv_start hr) hf h1
  unfold freshValue
  rw [b]
  rw [a] at e1
  subst e1
  exact functAt_run a

end Verif
