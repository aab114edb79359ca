import Verif.Lemmas.FitEval
import Verif.Lemmas.Shift

/-! Helper lemmas about the expected contents. -/

namespace Verif

open Spectrum

/-! ### projecting a scaled spectrum -/

/-- `b` is `a` times `c`. -/
def IsTimes (c : ℚ) (a b : NdArray ℚ) : Prop :=
  b.shape = a.shape ∧ ∀ idx, InB a.shape idx → b.get idx = c * a.get idx

theorem sumAxis_times {c : ℚ} {a b a' : NdArray ℚ} {k : ℕ} (h : IsTimes c a b)
    (ha : a.sumAxis k = .ok a') : ∃ b', b.sumAxis k = .ok b' ∧ IsTimes c a' b' := by
  obtain ⟨n, hn, hs, hg⟩ := NdArray.sumAxis_ok ha
  refine ⟨⟨a.shape.eraseIdx k, fun idx => ∑ j ∈ Finset.range n, (b.get (idx.insertIdx k j) : ℚ)⟩,
    ?_, ?_⟩
  · simp only [NdArray.sumAxis, h.1, hn]
  · refine ⟨hs.symm, fun idx hi => ?_⟩
    rw [hs] at hi
    rw [hg, Finset.mul_sum]
    show (∑ j ∈ Finset.range n, b.get (idx.insertIdx k j)) = _
    refine Finset.sum_congr rfl fun j hj => ?_
    exact h.2 _ (inB_insertIdx hn hi (Finset.mem_range.1 hj))

theorem ndProject_times {s t : Spectrum} {c : ℚ} (hc : t.cfg = s.cfg) (hd : IsTimes c s.data t.data)
    {dims : List PyStr} {p : NdArray ℚ} (h : s.ndProject dims = .ok p) :
    ∃ q, t.ndProject dims = .ok q ∧ IsTimes c p q := by
  unfold ndProject at h ⊢
  have hi : ∀ d, t.getIndex d = s.getIndex d := by
    intro d; unfold getIndex pars; rw [hc]
  have hm : dims.mapM t.getIndex = dims.mapM s.getIndex := by
    congr 1; funext d; exact hi d
  rw [hm, hc]
  cases hx : dims.mapM s.getIndex with
  | error e => rw [hx] at h; cases h
  | ok axes =>
    rw [hx] at h
    simp only [bind, Except.bind] at h ⊢
    split at h
    · rename_i hl
      rw [if_pos hl]
      rw [← Except.ok.inj h]
      exact ⟨_, rfl, hd⟩
    · rename_i hl
      rw [if_neg hl]
      have key : ∀ (l : List ℕ) (a b : NdArray ℚ) (p : NdArray ℚ), IsTimes c a b →
          l.foldlM (fun (proj : NdArray ℚ) i =>
            if i ∉ axes then proj.sumAxis i else pure proj) a = .ok p →
          ∃ q, l.foldlM (fun (proj : NdArray ℚ) i =>
            if i ∉ axes then proj.sumAxis i else pure proj) b = .ok q ∧ IsTimes c p q := by
        intro l
        induction l with
        | nil => intro a b p hab h; rw [← Except.ok.inj h]; exact ⟨b, rfl, hab⟩
        | cons i l ih =>
          intro a b p hab h
          rw [List.foldlM_cons] at h ⊢
          by_cases hi : i ∉ axes
          · rw [if_pos hi] at h ⊢
            cases ha : a.sumAxis i with
            | error e => rw [ha] at h; cases h
            | ok a' =>
              rw [ha] at h
              obtain ⟨b', hb', hab'⟩ := sumAxis_times hab ha
              rw [hb']
              exact ih a' b' p hab' h
          · rw [if_neg hi] at h ⊢
            exact ih a b p hab h
      exact key _ _ _ _ hd h

theorem rescaled_times (s : Spectrum) (m : ℚ) :
    IsTimes (m / s.numDecays) s.data (s.rescaled m).data := by
  refine ⟨rfl, fun idx hi => ?_⟩
  have : (s.rescaled m).data.get idx = (s.data.smul (m / s.numDecays)).get idx :=
    NdArray.norm_get (a := s.data.smul (m / s.numDecays)) hi
  rw [this]
  simp only [NdArray.smul]
  ring

/-! ### convolving -/

theorem appliedTo_iff {env : FitEnv} {kind : ParKind} {dim : Option PyStr} {v : ℚ} {s t : Spectrum} :
    AppliedTo env kind dim v s t ↔ convolve env kind dim v s = .ok t := by
  have fin : ∀ x : Except PyErr NpResult, (x >>= NpResult.orRaise) = .ok t ↔ x = .ok (.finite t) := by
    intro x
    rcases x with e | ⟨y⟩ | _
    · exact ⟨fun h => (by cases h), fun h => (by cases h)⟩
    · exact ⟨fun h => (by cases h; rfl), fun h => (by cases h; rfl)⟩
    · exact ⟨fun h => (by cases h), fun h => (by cases h)⟩
  constructor
  · intro h
    cases h with
    | lightYield dim _ _ _ hv h => unfold convolve; simp only [if_pos hv]; exact h
    | energyResolution dim _ _ _ hv h => unfold convolve; simp only [if_neg (not_lt.2 hv)]; exact h
    | scale dim _ _ _ hv h =>
      unfold convolve
      simp only [setScaleFactor, if_neg (not_le.2 hv)]
      exact (fin _).2 h
    | shift dim _ _ _ h =>
      unfold convolve
      exact (fin _).2 h
  · intro h
    unfold convolve at h
    split at h
    · cases h
    · cases h
    · by_cases hv : 10 < v
      · simp only [if_pos hv] at h; exact .lightYield _ _ _ _ hv h
      · simp only [if_neg hv] at h; exact .energyResolution _ _ _ _ (not_lt.1 hv) h
    · split at h <;> cases h
    · split at h
      · cases h
      · next hs =>
        refine .scale _ _ _ _ ?_ ((fin _).1 h)
        unfold setScaleFactor at hs
        split at hs
        · cases hs
        · next hv => exact not_le.1 hv
    · cases h
    · exact .shift _ _ _ _ ((fin _).1 h)

theorem convP_of {env : FitEnv} {st : FitState} {P : ℕ → Param} {p : ℕ} {v : ℚ} {s t : Spectrum}
    (hP : P p = { st.params p with value := some v })
    (hc : convolve env (st.params p).kind (st.params p).dimension v s = .ok t) :
    convP env (P p) s = .ok { t with data := t.data.norm } := by
  unfold convP
  rw [hP]
  simp only [hc, Except.map]
  rfl

theorem convFold_of {env : FitEnv} {st : FitState} {pars : List ℕ} {args : List ℚ}
    (hn : pars.Nodup) {ps : List ℕ} {s t : Spectrum}
    (h : Convolved env st (pars.zip args) ps s t) (orig : Spectrum) :
    convFold env true orig (ps.map (withValues pars args st.params)) s = .ok t := by
  induction h with
  | nil s => rfl
  | cons p v ps s t u hv hc _ ih =>
    unfold convFold
    rw [List.map_cons, List.foldlM_cons]
    simp only [cond_true]
    rw [convP_of (withValues_mem hn hv) (appliedTo_iff.1 hc)]
    exact ih

theorem convolved_of_convFold {env : FitEnv} {st : FitState} {pars : List ℕ} {args : List ℚ}
    (hn : pars.Nodup) {ps : List ℕ} (hv : ∀ p ∈ ps, ∃ v, (p, v) ∈ pars.zip args)
    {orig s t : Spectrum}
    (h : convFold env true orig (ps.map (withValues pars args st.params)) s = .ok t) :
    Convolved env st (pars.zip args) ps s t := by
  induction ps generalizing s with
  | nil => rw [← Except.ok.inj h]; exact .nil s
  | cons p ps ih =>
    obtain ⟨v, hp⟩ := hv p (by simp)
    unfold convFold at h
    rw [List.map_cons, List.foldlM_cons] at h
    simp only [cond_true] at h
    cases hc : convolve env (st.params p).kind (st.params p).dimension v s with
    | error e =>
      unfold convP at h
      rw [withValues_mem hn hp] at h
      simp only [hc] at h
      cases h
    | ok u =>
      rw [convP_of (withValues_mem hn hp) hc] at h
      exact .cons p v ps s u t hp (appliedTo_iff.2 hc) (ih (fun q hq => hv q (by simp [hq])) h)

theorem convP_of_single {env : FitEnv} {st : FitState} {pars : List ℕ} {args : List ℚ}
    (hn : pars.Nodup) {p : ℕ} {s t : Spectrum} (h : Convolved env st (pars.zip args) [p] s t) :
    convP env (withValues pars args st.params p) s = .ok t := by
  cases h with
  | cons p v ps s t u hv hc h =>
    cases h with
    | nil => exact convP_of (withValues_mem hn hv) (appliedTo_iff.1 hc)

theorem convFold_last {env : FitEnv} {st : FitState} {pars : List ℕ} {args : List ℚ}
    (hn : pars.Nodup) {ps : List ℕ} {s t : Spectrum}
    (h : LastConvolved env st (pars.zip args) ps s t) :
    convFold env false s (ps.map (withValues pars args st.params)) s = .ok t := by
  rcases h with ⟨rfl, rfl⟩ | ⟨init, last, rfl, h1, h2⟩
  · rfl
  · have key : ∀ (l : List ℕ) (a : Spectrum),
        (∀ p ∈ l, ∃ u, Convolved env st (pars.zip args) [p] s u) →
        convFold env false s ((l ++ [last]).map (withValues pars args st.params)) a = .ok t := by
      intro l
      induction l with
      | nil =>
        intro a _
        unfold convFold
        simp only [List.nil_append, List.map_cons, List.map_nil, List.foldlM_cons,
          List.foldlM_nil, cond_false, convP_of_single hn h2]
        rfl
      | cons p l ih =>
        intro a hl
        obtain ⟨u, hu⟩ := hl p (by simp)
        have := ih u (fun q hq => hl q (by simp [hq]))
        unfold convFold at this ⊢
        rw [List.cons_append, List.map_cons, List.foldlM_cons]
        simp only [cond_false, convP_of_single hn hu]
        exact this
    exact key init s h1

/-! ### adding up -/

/-- The expectation so far is the sum of these terms. -/
def Sums (sh : List ℕ) (e : Option (NdArray ℚ)) (terms : List (List ℕ → ℚ)) : Prop :=
  match e with
  | none => terms = []
  | some a => a.shape = sh ∧ ∀ idx, InB sh idx → a.get idx = (terms.map (fun t => t idx)).sum

theorem addProjection_sums {sh : List ℕ} {e : Option (NdArray ℚ)} {terms : List (List ℕ → ℚ)}
    (h : Sums sh e terms) {p : NdArray ℚ} (hp : p.shape = sh) {g : List ℕ → ℚ}
    (hg : ∀ idx, InB sh idx → p.get idx = g idx) :
    ∃ a, addProjection e p = .ok a ∧ Sums sh (some a) (terms ++ [g]) := by
  cases e with
  | none =>
    refine ⟨p, rfl, hp, fun idx hi => ?_⟩
    rw [show terms = [] from h]
    simp [hg idx hi]
  | some a =>
    obtain ⟨h1, h2⟩ := h
    refine ⟨a.add p, ?_, h1, fun idx hi => ?_⟩
    · unfold addProjection
      simp only
      rw [if_pos (h1.trans hp.symm)]
    · simp [NdArray.add, h2 idx hi, hg idx hi]

variable {env : FitEnv} {f : Fit} {st : FitState}

theorem isBg_signal {b : ℕ × List PyStr} (h : f.signal = some b) : isBg f b.1 = false := by
  unfold isBg
  simp [h]

theorem roundValue_of (hr : FitReady env f st) {args : List ℚ} {b : ℕ × List PyStr} {x : BgTerm}
    (hb : b.1 ∈ f.floatingRefs) (hx : IsBgTerm env f st args b x) {sh : List ℕ}
    (hsh : x.proj.shape = sh) {e : Option (NdArray ℚ)} {terms : List (List ℕ → ℚ)}
    (h : Sums sh e terms) :
    ∃ a, roundValue env f st (withValues f.pars args st.params) e b = .ok (some a) ∧
      Sums sh (some a) (terms ++ [fun idx => x.rate / (st.view b.1).numDecays * x.proj.get idx]) := by
  have hmv : b.1 ∈ f.moving := by simp [Fit.moving, hb]
  have hconv : convFrom env f st b.1 (withValues f.pars args st.params) = .ok x.spectrum := by
    unfold convFrom
    rw [isBg_floating hr hb]
    exact convFold_of hr.pars hx.conv _
  have hal := (convFold_alike hconv (.refl _) (FitState.view_data_norm _ _)).1
  obtain ⟨p, hp, hv⟩ := hx.rate
  have hbg : bgValue env f st (withValues f.pars args st.params) b.1 =
      .ok (x.spectrum.rescaled x.rate) := by
    unfold bgValue
    rw [hconv, hp]
    simp only [okBind, Option.getD_some, List.map_cons, List.map_nil]
    unfold rateAll
    rw [List.foldlM_cons]
    unfold rateP
    rw [withValues_mem hr.pars hv]
    simp only
    rw [if_neg (by rw [hal.numDecays]; exact hr.decays _ hmv)]
    rfl
  obtain ⟨q, hq, hqt⟩ := ndProject_times (rescaled_alike_cfg x.spectrum x.rate)
    (rescaled_times x.spectrum x.rate) hx.proj
  obtain ⟨a, ha, hs⟩ := addProjection_sums h (hqt.1.trans hsh)
    (g := fun idx => x.rate / (st.view b.1).numDecays * x.proj.get idx)
    (fun idx hi => by rw [hqt.2 idx (by rw [hsh]; exact hi), hal.numDecays])
  refine ⟨a, ?_, hs⟩
  unfold roundValue
  rw [hbg, okBind, hq, okBind, ha]
  rfl

theorem loopValue_of (hr : FitReady env f st) {args : List ℚ} {sh : List ℕ}
    {l : List (ℕ × List PyStr)} {xs : List BgTerm}
    (hx : List.Forall₂ (IsBgTerm env f st args) l xs) (hl : ∀ b ∈ l, b.1 ∈ f.floatingRefs)
    (hsh : ∀ x ∈ xs, x.proj.shape = sh) {e : Option (NdArray ℚ)} {terms : List (List ℕ → ℚ)}
    (h : Sums sh e terms) :
    ∃ e', l.foldlM (roundValue env f st (withValues f.pars args st.params)) e = .ok e' ∧
      Sums sh e' (terms ++ List.zipWith (fun b x idx =>
        x.rate / (st.view b.1).numDecays * x.proj.get idx) l xs) ∧ (l ≠ [] → e' ≠ none) ∧
      (e ≠ none → e' ≠ none) := by
  induction hx generalizing e terms with
  | nil => exact ⟨e, rfl, by simpa using h, fun h => absurd rfl h, id⟩
  | @cons b x l xs hbx _ ih =>
    obtain ⟨a, ha, hs⟩ := roundValue_of hr (hl b (by simp)) hbx (hsh x (by simp)) h
    obtain ⟨e', h1, h2, h3, h4⟩ := ih (fun c hc => hl c (by simp [hc]))
      (fun y hy => hsh y (by simp [hy])) hs
    refine ⟨e', ?_, ?_, fun _ => h4 (by simp), fun _ => h4 (by simp)⟩
    · rw [List.foldlM_cons, ha, okBind]
      exact h1
    · rw [List.zipWith_cons_cons]
      simpa using h2

end Verif
