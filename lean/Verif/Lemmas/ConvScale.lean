import Verif.Lemmas.FitRun
import Verif.Lemmas.Shift
import Verif.Spec.ConvScale

/-! Helper lemmas: convolutions of a spectrum whose contents are multiplied by a number. -/

namespace Verif

theorem foldlM_map {α β ι : Type} {h : α → β} {g : α → ι → Except PyErr α}
    {g' : β → ι → Except PyErr β} (hg : ∀ a x, g' (h a) x = (g a x).map h) (l : List ι) (a : α) :
    l.foldlM g' (h a) = (l.foldlM g a).map h := by
  induction l generalizing a with
  | nil => rfl
  | cons x l ih =>
    rw [List.foldlM_cons, List.foldlM_cons, hg]
    cases g a x with
    | error e => rfl
    | ok b => exact ih b

theorem smul_zeros (sh : List ℕ) (k : ℚ) : (NdArray.zeros sh : NdArray ℚ).smul k = .zeros sh := by
  simp only [NdArray.smul, NdArray.zeros, zero_mul]

/-! ### smearing -/

theorem fill_times (acc : Spectrum) (w k m : ℚ) (kw : List (PyStr × ℚ)) :
    (acc.times k m).fill (w * k) kw =
      ⟨(acc.fill w kw).st.times k m, (acc.fill w kw).err⟩ := by
  unfold Spectrum.fill
  have h1 : (acc.times k m).pars = acc.pars := rfl
  have h2 : (acc.times k m).cfg = acc.cfg := rfl
  have h3 : (acc.times k m).data.shape = acc.data.shape := rfl
  rw [h1, h2, h3]
  split
  · rfl
  · cases acc.cfg.mapM (fun p => assoc kw p.name) with
    | none => rfl
    | some xs =>
      dsimp only
      split
      · split
        · simp only [Outcome.ok, Spectrum.times, NdArray.addAt, NdArray.smul]
          congr 3
          funext j
          split <;> ring
        · rfl
      · rfl

theorem fillOrRaise_times (acc : Spectrum) (w k m : ℚ) (kw : List (PyStr × ℚ)) :
    fillOrRaise (acc.times k m) (w * k) kw = (fillOrRaise acc w kw).map (Spectrum.times k m) := by
  unfold fillOrRaise
  rw [fill_times]
  dsimp only
  cases (acc.fill w kw).err <;> rfl

theorem smearCell_times {k : ℚ} (hk : k ≠ 0) (m : ℚ) (sigma : ℚ → ℚ) (weight : ℚ → ℚ → ℚ → ℚ)
    (ns : ℚ) (s : Spectrum) (i : ℕ) (p : SPar) (acc : Spectrum) (idx : List ℕ) :
    smearCell sigma weight ns (s.times k m) i p (acc.times k m) idx =
      (smearCell sigma weight ns s i p acc idx).map (Spectrum.times k m) := by
  unfold smearCell
  have h1 : (s.times k m).data.get idx = s.data.get idx * k := rfl
  have h2 : (s.times k m).cfg = s.cfg := rfl
  rw [h1, h2]
  dsimp only
  by_cases h0 : s.data.get idx = 0
  · rw [if_pos h0, if_pos (by rw [h0, zero_mul])]
    rfl
  · rw [if_neg h0, if_neg (mul_ne_zero h0 hk)]
    split
    · rfl
    · refine foldlM_map (h := Spectrum.times k m) (fun a x => ?_) _ _
      rw [← fillOrRaise_times]
      congr 1
      ring

theorem weightedSmear_times {k : ℚ} (hk : k ≠ 0) (m : ℚ) (suffix : PyStr) (sigma : ℚ → ℚ)
    (weight : ℚ → ℚ → ℚ → ℚ) (ns : ℚ) (s : Spectrum) (par : PyStr) :
    (s.times k m).weightedSmear suffix sigma weight ns par =
      (s.weightedSmear suffix sigma weight ns par).map (Spectrum.times k m) := by
  unfold Spectrum.weightedSmear
  have h1 : (s.times k m).pars = s.pars := rfl
  have h2 : (s.times k m).cfg = s.cfg := rfl
  have h3 : (s.times k m).getIndex par = s.getIndex par := rfl
  have h4 : (s.times k m).getPar par = s.getPar par := rfl
  have h5 : ({ s.times k m with
      name := (s.times k m).name ++ suffix
      data := NdArray.zeros (s.times k m).data.shape } : Spectrum) =
      Spectrum.times k m { s with name := s.name ++ suffix, data := .zeros s.data.shape } := by
    simp only [Spectrum.times, smul_zeros]
    rfl
  rw [h1, h2, h3, h4]
  by_cases hp : par ∉ s.pars
  · rw [if_pos hp, if_pos hp]; rfl
  · rw [if_neg hp, if_neg hp]
    cases s.getIndex par with
    | error e => rfl
    | ok i =>
      simp only [bind, Except.bind]
      by_cases hb : (s.cfg.any fun p => decide (p.bins = 0)) = true
      · rw [if_pos hb, if_pos hb]; rfl
      · rw [if_neg hb, if_neg hb]
        cases s.getPar par with
        | error e => rfl
        | ok p =>
          exact (congrArg (fun z => List.foldlM (smearCell sigma weight ns (s.times k m) i p) z
            (allIdx (s.cfg.map fun p => p.bins.toNat))) h5).trans
            (foldlM_map (fun a x => smearCell_times hk m _ _ _ _ _ _ _ _) _ _)

/-! ### shifting and scaling -/

theorem sliceSum_times (a : NdArray ℚ) (k : ℚ) (i j : ℕ) :
    sliceSum (a.smul k) i j = sliceSum a i j * k := by
  unfold sliceSum
  have h : (a.smul k).shape = a.shape := rfl
  rw [h]
  split
  · exact sumIdx_mul _ _
  · ring

theorem oldData_times (a : NdArray ℚ) (k : ℚ) (i j : ℕ) :
    oldData (a.smul k) i j = fun idx => oldData a i j idx * k := rfl

/-- What is added to a slice, multiplied. -/
def timesContrib (k : ℚ) (c : Except PyErr (Option (List ℕ → ℚ))) :
    Except PyErr (Option (List ℕ → ℚ)) := c.map (Option.map fun f idx => f idx * k)

theorem binLoop_times (k : ℚ) (n i : ℕ) (c : ℕ → Except PyErr (Option (List ℕ → ℚ)))
    (sh : List ℕ) : binLoop n i (fun b => timesContrib k (c b)) (.zeros sh) =
      (binLoop n i c (.zeros sh)).map (fun d => d.smul k) := by
  have key := foldlM_map (h := fun d : NdArray ℚ => d.smul k)
    (g := fun d bin => match c bin with
      | .error e => .error e
      | .ok none => .ok d
      | .ok (some f) => .ok (addSlice d i bin f))
    (g' := fun d bin => match timesContrib k (c bin) with
      | .error e => .error e
      | .ok none => .ok d
      | .ok (some f) => .ok (addSlice d i bin f)) (fun d b => by
    cases c b with
    | error e => rfl
    | ok o =>
      cases o with
      | none => rfl
      | some f =>
        simp only [timesContrib, Except.map, Option.map, addSlice, NdArray.smul]
        congr 2
        funext idx
        split <;> ring) (List.range n) (.zeros sh)
  rw [smul_zeros] at key
  exact key

theorem shiftByBinContrib_times {k : ℚ} (hk : 0 < k) (data : NdArray ℚ) (i : ℕ) (p : SPar)
    (v : ℚ) (b : ℕ) : shiftByBinContrib (data.smul k) i p v b =
      timesContrib k (shiftByBinContrib data i p v b) := by
  unfold shiftByBinContrib
  simp only [sliceSum_times, oldData_times, mul_pos_iff_of_pos_right hk]
  split
  · rfl
  · cases p.getBin (p.low + (b + 1 / 2) * p.width - v) with
    | error e => rfl
    | ok o =>
      simp only [bind, Except.bind, pure, Except.pure]
      split <;> rfl

theorem shiftByBin_times {k : ℚ} (hk : 0 < k) (m : ℚ) (str : ℚ → PyStr) (s : Spectrum)
    (dim : PyStr) (v : ℚ) : (s.times k m).shiftByBin str dim v =
      (s.shiftByBin str dim v).map (Spectrum.times k m) := by
  unfold Spectrum.shiftByBin
  have h3 : (s.times k m).getIndex dim = s.getIndex dim := rfl
  have h4 : (s.times k m).getPar dim = s.getPar dim := rfl
  have h5 : (s.times k m).data = s.data.smul k := rfl
  have h6 : (s.data.smul k).shape = s.data.shape := rfl
  rw [h3, h4, h5, h6]
  cases s.getPar dim with
  | error e => rfl
  | ok p =>
    simp only [bind, Except.bind]
    split
    · rfl
    · split
      · rfl
      · cases s.getIndex dim with
        | error e => rfl
        | ok i =>
          dsimp only
          rw [show shiftByBinContrib (s.data.smul k) i p v = fun b =>
            timesContrib k (shiftByBinContrib s.data i p v b) from
              funext fun b => shiftByBinContrib_times hk _ _ _ _ _, binLoop_times]
          cases binLoop p.bins.toNat i (shiftByBinContrib s.data i p v) (.zeros s.data.shape) <;> rfl

theorem trapezium_times {k : ℚ} (hk : 0 < k) (f : ℚ → ℚ) (a b : ℚ) :
    trapezium (fun x => f x * k) a b = trapezium f a b * k := by
  unfold trapezium
  rw [← abs_of_pos hk, ← abs_mul, abs_of_pos hk]
  congr 1
  ring

/-- The areas are multiplied, or do not depend on the contents. -/
theorem interpAreas_times {k : ℚ} (hk : 0 < k) (p : SPar) (f : ℚ → ℚ) (c : ℚ) (o : ℤ) (x : ℚ) :
    ∃ q a b, interpAreas p f c o x = (q, a, b) ∧
      (interpAreas p (fun x => f x * k) c o x = (q, a * k, b * k) ∨
        interpAreas p (fun x => f x * k) c o x = (q, a, b)) := by
  unfold interpAreas
  simp only [trapezium_times hk]
  split
  · split
    · exact ⟨_, _, _, rfl, .inl rfl⟩
    · exact ⟨_, _, _, rfl, .inr rfl⟩
  · split
    · exact ⟨_, _, _, rfl, .inl rfl⟩
    · exact ⟨_, _, _, rfl, .inr rfl⟩

theorem interpContrib_times {k : ℚ} (hk : 0 < k) (data : NdArray ℚ) (i : ℕ) (p : SPar)
    (f : ℚ → ℚ) (c0 : ℚ) : interpContrib (data.smul k) i p (fun x => f x * k) c0 =
      timesContrib k (interpContrib data i p f c0) := by
  have hk0 : k ≠ 0 := hk.ne'
  have hle : ∀ x : ℚ, x * k ≤ 0 ↔ x ≤ 0 := fun x => by
    constructor
    · intro h
      by_contra hx
      have := mul_pos (not_le.1 hx) hk
      linarith
    · intro h
      exact mul_nonpos_of_nonpos_of_nonneg h hk.le
  unfold interpContrib
  cases clampCentre p c0 with
  | none => rfl
  | some c =>
    dsimp only
    simp only [hle]
    split
    · rfl
    · cases p.getBin c with
      | error e => rfl
      | ok o =>
        simp only [bind, Except.bind]
        cases p.getBinCentre o with
        | error e => rfl
        | ok x =>
          dsimp only
          obtain ⟨q, a, b, e1, e2⟩ := interpAreas_times hk p f c o x
          have key : ∃ a' b', interpAreas p (fun x => f x * k) c o x = (q, a', b') ∧
              ((a' = 0 ∧ b' = 0) ↔ (a = 0 ∧ b = 0)) ∧ a' / (a' + b') = a / (a + b) ∧
              b' / (a' + b') = b / (a + b) := by
            rcases e2 with e2 | e2
            · refine ⟨_, _, e2, ?_, ?_, ?_⟩
              · simp [hk0]
              · rw [← add_mul, mul_div_mul_right _ _ hk0]
              · rw [← add_mul, mul_div_mul_right _ _ hk0]
            · exact ⟨_, _, e2, Iff.rfl, rfl, rfl⟩
          obtain ⟨a', b', e3, h0, hx, hy⟩ := key
          rw [e1, e3]
          dsimp only
          simp only [h0, hx, hy, sliceSum_times, oldData_times, hle]
          have hdiv : ∀ y z : ℚ, y * k / (z * k) = y / z := fun y z => mul_div_mul_right _ _ hk0
          simp only [hdiv]
          split
          · rfl
          · split
            · rfl
            · split
              · simp only [pure, Except.pure, timesContrib, Except.map, Option.map]
                congr 2
                funext idx
                ring
              · split
                · simp only [pure, Except.pure, timesContrib, Except.map, Option.map]
                  congr 2
                  funext idx
                  ring
                · simp only [pure, Except.pure, timesContrib, Except.map, Option.map]
                  congr 2
                  funext idx
                  ring

/-- A result of numpy, multiplied. -/
def NpResult.times (k m : ℚ) : NpResult → NpResult
  | .finite s => .finite (s.times k m)
  | .notFinite => .notFinite

theorem NpResult.times_orRaise (k m : ℚ) (r : NpResult) :
    (r.times k m).orRaise = r.orRaise.map (Spectrum.times k m) := by
  cases r <;> rfl

theorem renormalise_times {k : ℚ} (hk : 0 < k) (m : ℚ) (s : Spectrum) (name : PyStr)
    (d : NdArray ℚ) : renormalise (s.times k m) name (d.smul k) =
      (renormalise s name d).times k m := by
  unfold renormalise
  have h1 : (s.times k m).sum = s.sum * k := NdArray.smul_sum _ _
  rw [NdArray.smul_sum, h1]
  by_cases h : d.sum = 0
  · rw [if_pos h, if_pos (by rw [h, zero_mul])]; rfl
  · rw [if_neg h, if_neg (mul_ne_zero h hk.ne'), mul_div_mul_right _ _ hk.ne']
    simp only [NpResult.times, Spectrum.times, NdArray.smul]
    congr 3
    funext j
    ring

theorem sumAxis_smul (a : NdArray ℚ) (k : ℚ) (i : ℕ) :
    (a.smul k).sumAxis i = (a.sumAxis i).map (fun d => d.smul k) := by
  unfold NdArray.sumAxis
  have h : (a.smul k).shape = a.shape := rfl
  rw [h]
  cases a.shape[i]? with
  | none => rfl
  | some n =>
    simp only [Except.map, NdArray.smul]
    congr 2
    funext idx
    rw [Finset.sum_mul]

theorem project_times (s : Spectrum) (k m : ℚ) (dim : PyStr) :
    (s.times k m).project dim = (s.project dim).map (fun d => d.smul k) := by
  unfold Spectrum.project
  have h3 : (s.times k m).getIndex dim = s.getIndex dim := rfl
  have h2 : (s.times k m).cfg = s.cfg := rfl
  rw [h3, h2]
  cases s.getIndex dim with
  | error e => rfl
  | ok i =>
    refine foldlM_map (h := fun d : NdArray ℚ => d.smul k) (fun d b => ?_) _ _
    split <;> exact sumAxis_smul _ _ _

theorem interpolate1d_times {spline : List ℚ → List ℚ → Except PyErr (ℚ → ℚ)}
    (hs : SplineHom spline) {k : ℚ} (hk : 0 < k) (m : ℚ) (s : Spectrum) (dim : PyStr) :
    (s.times k m).interpolate1d spline dim =
      (s.interpolate1d spline dim).map (fun g x => g x * k) := by
  unfold Spectrum.interpolate1d
  have h4 : (s.times k m).getPar dim = s.getPar dim := rfl
  rw [h4, project_times]
  cases s.getPar dim with
  | error e => rfl
  | ok p =>
    simp only [bind, Except.bind]
    split
    · rfl
    · cases s.project dim with
      | error e => rfl
      | ok y =>
        simp only [Except.map]
        rw [show (y.smul k).toList1 = y.toList1.map (· * k) by
          unfold NdArray.toList1; rw [List.map_map]; rfl]
        exact hs k hk _ _

theorem shift_times {spline : List ℚ → List ℚ → Except PyErr (ℚ → ℚ)} (hs : SplineHom spline)
    {k : ℚ} (hk : 0 < k) (m : ℚ) (str : ℚ → PyStr) (s : Spectrum) (dim : PyStr) (v : ℚ) :
    (s.times k m).shift str spline dim v =
      (s.shift str spline dim v).map (NpResult.times k m) := by
  unfold Spectrum.shift
  have h3 : (s.times k m).getIndex dim = s.getIndex dim := rfl
  have h4 : (s.times k m).getPar dim = s.getPar dim := rfl
  have h5 : (s.times k m).data = s.data.smul k := rfl
  have h6 : (s.data.smul k).shape = s.data.shape := rfl
  have h7 : (s.times k m).name = s.name := rfl
  rw [h3, h4, shiftByBin_times hk, interpolate1d_times hs hk, h5, h6, h7]
  cases s.getPar dim with
  | error e => rfl
  | ok p =>
    simp only [bind, Except.bind]
    split
    · rfl
    · split
      · cases s.shiftByBin str dim v <;> rfl
      · cases s.interpolate1d spline dim with
        | error e => rfl
        | ok f =>
          simp only [Except.map]
          cases s.getIndex dim with
          | error e => rfl
          | ok i =>
            simp only [interpContrib_times hk, binLoop_times]
            cases binLoop p.bins.toNat i (fun bin => interpContrib s.data i p f
              (p.low + (bin + 1 / 2) * p.width - v)) (.zeros s.data.shape) with
            | error e => rfl
            | ok d =>
              simp only [Except.map, pure, Except.pure]
              rw [renormalise_times hk]

theorem scaleAxis_times {spline : List ℚ → List ℚ → Except PyErr (ℚ → ℚ)} (hs : SplineHom spline)
    {k : ℚ} (hk : 0 < k) (m : ℚ) (str : ℚ → PyStr) (s : Spectrum) (dim : PyStr) (v : ℚ) :
    (s.times k m).scaleAxis str spline dim v =
      (s.scaleAxis str spline dim v).map (NpResult.times k m) := by
  unfold Spectrum.scaleAxis
  have h3 : (s.times k m).getIndex dim = s.getIndex dim := rfl
  have h4 : (s.times k m).getPar dim = s.getPar dim := rfl
  have h5 : (s.times k m).data = s.data.smul k := rfl
  have h6 : (s.data.smul k).shape = s.data.shape := rfl
  have h7 : (s.times k m).name = s.name := rfl
  rw [h3, h4, interpolate1d_times hs hk, h5, h6, h7]
  cases s.interpolate1d spline dim with
  | error e => rfl
  | ok f =>
    simp only [bind, Except.bind, Except.map]
    cases s.getIndex dim with
    | error e => rfl
    | ok i =>
      cases s.getPar dim with
      | error e => rfl
      | ok p =>
        dsimp only
        split
        · rfl
        · have hb : binLoop p.bins.toNat i (fun b : ℕ => (p.getBinCentre b).bind fun x =>
                interpContrib (s.data.smul k) i p (fun x => f x * k) (x / v)) (.zeros s.data.shape) =
              (binLoop p.bins.toNat i (fun b : ℕ => (p.getBinCentre b).bind fun x =>
                interpContrib s.data i p f (x / v)) (.zeros s.data.shape)).map
                (fun d => d.smul k) := by
            rw [← binLoop_times]
            congr 1
            funext b
            cases p.getBinCentre b with
            | error e => rfl
            | ok x => exact interpContrib_times hk _ _ _ _ _
          simp only [Except.bind] at hb
          rw [hb]
          generalize binLoop p.bins.toNat i _ (NdArray.zeros s.data.shape) = l
          cases l with
          | error e => rfl
          | ok d =>
            simp only [Except.map, pure, Except.pure]
            rw [renormalise_times hk]

/-! ### all convolutions -/

theorem convolve_times {env : FitEnv} (hs : SplineHom env.spline) {k : ℚ} (hk : 0 < k) (m : ℚ)
    (kind : ParKind) (dim : Option PyStr) (v : ℚ) (s : Spectrum) :
    convolve env kind dim v (s.times k m) = (convolve env kind dim v s).map (Spectrum.times k m) := by
  cases kind with
  | rate => rfl
  | resolution =>
    cases dim with
    | none => rfl
    | some dim => exact weightedSmear_times hk.ne' m _ _ _ _ _ _
  | scale =>
    cases dim with
    | none =>
      simp only [convolve]
      split <;> rfl
    | some dim =>
      simp only [convolve]
      cases (setScaleFactor 1 v).2 with
      | some e => rfl
      | none =>
        simp only [scaleAxis_times hs hk]
        cases s.scaleAxis env.str env.spline dim v with
        | error e => rfl
        | ok r => exact NpResult.times_orRaise k m r
  | shift =>
    cases dim with
    | none => rfl
    | some dim =>
      simp only [convolve, shift_times hs hk]
      cases s.shift env.str env.spline dim v with
      | error e => rfl
      | ok r => exact NpResult.times_orRaise k m r

/-- A convolution of the spectrum scaled to other decays. -/
theorem convP_rescaled {env : FitEnv} (hs : SplineHom env.spline) (p : Param) {s : Spectrum}
    (hn : s.data.norm = s.data) {m : ℚ} (hk : 0 < m / s.numDecays) :
    convP env p (s.rescaled m) = (convP env p s).map (fun t => t.rescaled m) := by
  have h1 : s.rescaled m = s.times (m / s.numDecays) m := by
    simp only [Spectrum.rescaled, Spectrum.times]
    congr 1
    rw [← hn, NdArray.smul_norm, hn]
    simp only [NdArray.norm, NdArray.smul]
    congr 1
    funext idx
    have := congrArg (fun a : NdArray ℚ => a.get idx) hn
    simp only [NdArray.norm] at this
    by_cases hi : InB s.data.shape idx
    · exact if_pos hi
    · rw [if_neg hi] at this
      exact (if_neg hi).trans (by rw [← this, zero_mul])
  unfold convP
  rw [h1]
  cases p.value with
  | none => rfl
  | some v =>
    dsimp only
    rw [convolve_times hs hk]
    cases hc : convolve env p.kind p.dimension v s with
    | error e => rfl
    | ok t =>
      have ha := convolve_alike hc
      simp only [Except.map, Spectrum.times, Spectrum.norm, Spectrum.rescaled, ha.numDecays]
      congr 2
      rw [NdArray.smul_norm]

theorem convFold_rescaled {env : FitEnv} (hs : SplineHom env.spline) (chain : Bool)
    (ps : List Param) {s a : Spectrum} (hn : s.data.norm = s.data) (ha : Alike s a)
    (hna : a.data.norm = a.data) {m : ℚ} (hk : 0 < m / s.numDecays) :
    convFold env chain (s.rescaled m) ps (a.rescaled m) =
      (convFold env chain s ps a).map (fun t => t.rescaled m) := by
  induction ps generalizing a with
  | nil => rfl
  | cons p ps ih =>
    unfold convFold at ih ⊢
    rw [List.foldlM_cons, List.foldlM_cons]
    have h1 : (bif chain then a.rescaled m else s.rescaled m) =
        (bif chain then a else s).rescaled m := by cases chain <;> rfl
    have h2 : (bif chain then a else s).data.norm = (bif chain then a else s).data := by
      cases chain
      · exact hn
      · exact hna
    have h3 : Alike s (bif chain then a else s) := by
      cases chain
      · exact .refl _
      · exact ha
    rw [h1, convP_rescaled hs p h2 (by rw [h3.numDecays]; exact hk)]
    cases hc : convP env p (bif chain then a else s) with
    | error e => rfl
    | ok t =>
      have := convP_alike hc
      exact ih (h3.trans this.1) this.2

end Verif
