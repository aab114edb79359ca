import Verif.Lemmas.FitFrame
import Verif.Lemmas.FitFixed
import Verif.Lemmas.FitConv
import Verif.Props.Shrink
import Verif.Props.Rebin

/-! Helper lemmas: the steps of an evaluation of a fit, by value. -/

namespace Verif

open Spectrum

/-- The spectrum with the entries outside its shape forgotten. -/
def Spectrum.norm (s : Spectrum) : Spectrum := { s with data := s.data.norm }

/-- Applying one parameter that is not a rate. -/
def convP (env : FitEnv) (p : Param) (s : Spectrum) : Except PyErr Spectrum :=
  match p.value with
  | none => .error .valueError
  | some v => (convolve env p.kind p.dimension v s).map Spectrum.norm

/-- The spectrum scaled to `m` decays. -/
def Spectrum.rescaled (s : Spectrum) (m : ℚ) : Spectrum :=
  { s with data := (s.data.smul (m / s.numDecays)).norm, numDecays := m }

/-- Applying one rate. -/
def rateP (p : Param) (s : Spectrum) : Except PyErr Spectrum :=
  match p.value with
  | none => .error .valueError
  | some v => if s.numDecays = 0 then .error .zeroDivision else .ok (s.rescaled v)

/-- Applying rates one after the other. -/
def rateAll (ps : List Param) (s : Spectrum) : Except PyErr Spectrum :=
  ps.foldlM (fun s p => rateP p s) s

theorem rescaled_rescaled {s : Spectrum} {m n : ℚ} (hs : s.numDecays ≠ 0) (hm : m ≠ 0) :
    (s.rescaled m).rescaled n = s.rescaled n := by
  simp only [rescaled]
  congr 1
  rw [NdArray.smul_norm]
  congr 1
  simp only [NdArray.smul]
  congr 1
  funext idx
  field_simp

theorem rescaled_self {s : Spectrum} (hn : s.data.norm = s.data) (hs : s.numDecays ≠ 0) :
    s.rescaled s.numDecays = s := by
  have h1 : s.data.smul 1 = s.data := by
    simp only [NdArray.smul, mul_one]
  simp only [rescaled, div_self hs, h1, hn]

theorem rescaled_alike_cfg (s : Spectrum) (m : ℚ) : (s.rescaled m).cfg = s.cfg := rfl

theorem convP_alike {env : FitEnv} {p : Param} {s t : Spectrum} (h : convP env p s = .ok t) :
    Alike s t ∧ t.data.norm = t.data := by
  unfold convP at h
  split at h
  · cases h
  · rename_i v _
    cases hc : convolve env p.kind p.dimension v s with
    | error e => rw [hc] at h; cases h
    | ok u =>
      rw [hc] at h
      simp only [Except.map] at h
      rw [← Except.ok.inj h]
      have := convolve_alike hc
      exact ⟨⟨this.cfg, this.numDecays, this.shape⟩, NdArray.norm_norm _⟩

/-! ### changes of the state -/

/-- Only objects are added. -/
structure Frame (st st' : FitState) : Prop where
  cfgs : st'.cfgs = st.cfgs
  params : st'.params = st.params
  cache : st'.cache = st.cache
  next : st.next ≤ st'.next
  objs : ∀ q, q < st.next → st'.objs q = st.objs q

theorem Frame.refl (st : FitState) : Frame st st := ⟨rfl, rfl, rfl, le_rfl, fun _ _ => rfl⟩

theorem Frame.trans {a b c : FitState} (h : Frame a b) (h' : Frame b c) : Frame a c :=
  ⟨h'.cfgs.trans h.cfgs, h'.params.trans h.params, h'.cache.trans h.cache, h.next.trans h'.next,
    fun q hq => (h'.objs q (hq.trans_le h.next)).trans (h.objs q hq)⟩

theorem Frame.view {st st' : FitState} (h : Frame st st') {q : ℕ} (hq : q < st.next) :
    st'.view q = st.view q := by
  simp only [FitState.view, h.objs q hq, h.cfgs]

/-- Only the contents of the object `c` change. -/
structure FrameAt (c : ℕ) (st st' : FitState) : Prop where
  cfgs : st'.cfgs = st.cfgs
  params : st'.params = st.params
  cache : st'.cache = st.cache
  next : st'.next = st.next
  objs : ∀ q, q ≠ c → st'.objs q = st.objs q
  cfg : (st'.objs c).cfg = (st.objs c).cfg
  background : (st'.objs c).background = (st.objs c).background
  fit : (st'.objs c).fit = (st.objs c).fit

theorem FrameAt.refl (c : ℕ) (st : FitState) : FrameAt c st st :=
  ⟨rfl, rfl, rfl, rfl, fun _ _ => rfl, rfl, rfl, rfl⟩

theorem FrameAt.trans {k : ℕ} {a b c : FitState} (h : FrameAt k a b) (h' : FrameAt k b c) :
    FrameAt k a c :=
  ⟨h'.cfgs.trans h.cfgs, h'.params.trans h.params, h'.cache.trans h.cache, h'.next.trans h.next,
    fun q hq => (h'.objs q hq).trans (h.objs q hq), h'.cfg.trans h.cfg,
    h'.background.trans h.background, h'.fit.trans h.fit⟩

theorem FrameAt.view {c : ℕ} {st st' : FitState} (h : FrameAt c st st') {q : ℕ} (hq : q ≠ c) :
    st'.view q = st.view q := by
  simp only [FitState.view, h.objs q hq, h.cfgs]

theorem frameAt_write (st : FitState) (c : ℕ) (s : Spectrum) (h : s.cfg = (st.view c).cfg) :
    FrameAt c st (st.write c s) where
  cfgs := st.write_cfgs_same c s h
  params := rfl
  cache := rfl
  next := rfl
  objs q hq := st.objs_write_old c s hq
  cfg := st.cfg_write c s c
  background := by simp only [FitState.write, Function.update_self]
  fit := by simp only [FitState.write, Function.update_self]

/-- A call that succeeds and does not change the axes. -/
theorem call_frame {c : ℕ} {f : Spectrum → Outcome} {st : FitState}
    (h : (f (st.view c)).err = none) (hc : (f (st.view c)).st.cfg = (st.view c).cfg) :
    ∃ st', FitM.call c f st = (st', .ok ()) ∧ FrameAt c st st' ∧
      st'.view c = (f (st.view c)).st.norm :=
  ⟨_, FitM.call_run h, frameAt_write st c _ hc, st.view_write_self c _⟩

/-! ### applying one parameter -/

theorem applyTo_error {env : FitEnv} {p : Param} {r : ℕ} {st : FitState} {e : PyErr}
    (hk : p.kind ≠ .rate) (h : convP env p (st.view r) = .error e) :
    applyTo env p r st = (st, .error e) := by
  unfold convP at h
  unfold applyTo
  cases hv : p.value with
  | none => rw [hv] at h; rw [← Except.error.inj h]; rfl
  | some v =>
    rw [hv] at h
    simp only [if_neg hk]
    cases hc : convolve env p.kind p.dimension v (st.view r) with
    | ok u => simp only [hc, Except.map] at h; cases h
    | error e' =>
      simp only [hc, Except.map] at h
      rw [FitM.read_bind, hc, FitM.lift_bind, Except.error.inj h]

theorem applyTo_ok {env : FitEnv} {p : Param} {r : ℕ} {st : FitState} {t : Spectrum}
    (hk : p.kind ≠ .rate) (h : convP env p (st.view r) = .ok t) :
    ∃ st', applyTo env p r st = (st', .ok st.next) ∧ Frame st st' ∧ st'.next = st.next + 1 ∧
      st'.view st.next = t ∧ (st'.objs st.next).cfg = (st.objs r).cfg := by
  unfold convP at h
  unfold applyTo
  cases hv : p.value with
  | none => rw [hv] at h; cases h
  | some v =>
    rw [hv] at h
    simp only [if_neg hk]
    cases hc : convolve env p.kind p.dimension v (st.view r) with
    | error e => simp only [hc, Except.map] at h; cases h
    | ok u =>
      simp only [hc, Except.map] at h
      have hcfg : u.cfg = ((st.copy r).view st.next).cfg := by
        rw [st.view_copy_new]; exact (convolve_alike hc).cfg
      refine ⟨(st.copy r).write st.next u, ?_, ⟨?_, rfl, rfl, ?_, ?_⟩, rfl, ?_, ?_⟩
      · rw [FitM.read_bind, hc, FitM.lift_bind]
        rfl
      · rw [FitState.write_cfgs_same _ _ _ hcfg, FitState.copy_cfgs]
      · simp
      · intro q hq
        rw [FitState.objs_write_old _ _ _ hq.ne, FitState.objs_copy_old _ _ hq.ne]
      · rw [FitState.view_write_self]; exact Except.ok.inj h
      · rw [FitState.cfg_write, FitState.objs_copy_new]

theorem applyTo_rate {env : FitEnv} {p : Param} {c : ℕ} {st : FitState} (hk : p.kind = .rate) :
    ∃ st', FrameAt c st st' ∧ match rateP p (st.view c) with
      | .ok w => applyTo env p c st = (st', .ok c) ∧ st'.view c = w
      | .error e => applyTo env p c st = (st', .error e) ∧ st'.view c = st.view c := by
  unfold applyTo rateP
  cases hv : p.value with
  | none => exact ⟨st, .refl _ _, rfl, rfl⟩
  | some v =>
    simp only [hk, if_true]
    by_cases h0 : (st.view c).numDecays = 0
    · refine ⟨st.write c (st.view c), frameAt_write _ _ _ rfl, ?_⟩
      rw [if_pos h0]
      refine ⟨?_, ?_⟩
      · have : (FitM.call c (fun s => s.scale v)) st =
            (st.write c (st.view c), .error .zeroDivision) := by
          unfold FitM.call Spectrum.scale
          simp only [h0, if_true]
          rfl
        exact FitM.bind_error this
      · rw [FitState.view_write_self, FitState.view_data_norm]
    · rw [if_neg h0]
      have hs := scale_run v h0
      obtain ⟨st', h1, h2, h3⟩ := call_frame (st := st) (c := c) (f := fun s => s.scale v)
        (by rw [hs]; rfl) (by rw [hs]; rfl)
      refine ⟨st', h2, ?_, ?_⟩
      · rw [FitM.bind_ok h1]; rfl
      · rw [h3, hs]; rfl

/-! ### applying several -/

/-- The loop over the global parameters: `chain` for backgrounds (each parameter is applied to
the last result), otherwise for the signal (each is applied to the original). -/
def makeFold (env : FitEnv) (chain : Bool) (r : ℕ) (ps : List ℕ) (a : ℕ) : FitM ℕ :=
  ps.foldlM (fun a p => do
    let par ← FitM.read (fun st => st.params p)
    applyTo env par (bif chain then a else r)) a

/-- The same by value. -/
def convFold (env : FitEnv) (chain : Bool) (s : Spectrum) (ps : List Param) (a : Spectrum) :
    Except PyErr Spectrum :=
  ps.foldlM (fun a p => convP env p (bif chain then a else s)) a

theorem convFold_alike {env : FitEnv} {chain : Bool} {s : Spectrum} {ps : List Param}
    {a t : Spectrum} (h : convFold env chain s ps a = .ok t) (ha : Alike s a)
    (hn : a.data.norm = a.data) : Alike s t ∧ t.data.norm = t.data := by
  unfold convFold at h
  refine foldlM_invariant (P := fun x => Alike s x ∧ x.data.norm = x.data) ?_ ⟨ha, hn⟩ h
  intro b p b' hb hb'
  have := convP_alike hb'
  refine ⟨?_, this.2⟩
  cases chain with
  | true => exact hb.1.trans this.1
  | false => exact this.1

theorem makeFold_run {env : FitEnv} {chain : Bool} {r : ℕ} (ps : List ℕ) (a : ℕ) (st : FitState)
    (ha : a < st.next) (hr : r < st.next) (hk : ∀ p ∈ ps, (st.params p).kind ≠ .rate)
    (hc : (st.objs a).cfg = (st.objs r).cfg) :
    ∃ st', Frame st st' ∧ match convFold env chain (st.view r) (ps.map st.params) (st.view a) with
      | .ok t => ∃ c, makeFold env chain r ps a st = (st', .ok c) ∧ st'.view c = t ∧
          c < st'.next ∧ ((c = a ∧ ps = []) ∨ st.next ≤ c) ∧ (st'.objs c).cfg = (st.objs r).cfg
      | .error e => makeFold env chain r ps a st = (st', .error e) := by
  induction ps generalizing a st with
  | nil => exact ⟨st, .refl _, a, rfl, rfl, ha, .inl ⟨rfl, rfl⟩, hc⟩
  | cons p ps ih =>
    have hkp := hk p (by simp)
    have hsrc : (st.view (bif chain then a else r)) = (bif chain then st.view a else st.view r) := by
      cases chain <;> rfl
    have hsc : (st.objs (bif chain then a else r)).cfg = (st.objs r).cfg := by
      cases chain
      · rfl
      · exact hc
    have hmf : ∀ x, makeFold env chain r (p :: ps) a x =
        (applyTo env (x.params p) (bif chain then a else r) >>= fun a' =>
          makeFold env chain r ps a') x := by
      intro x
      unfold makeFold
      rw [List.foldlM_cons]
      rfl
    have hcf : convFold env chain (st.view r) ((p :: ps).map st.params) (st.view a) =
        (convP env (st.params p) (bif chain then st.view a else st.view r) >>= fun x =>
          convFold env chain (st.view r) (ps.map st.params) x) := by
      unfold convFold
      rw [List.map_cons, List.foldlM_cons]
    cases hcv : convP env (st.params p) (bif chain then st.view a else st.view r) with
    | error e =>
      refine ⟨st, .refl _, ?_⟩
      rw [hcf, hcv]
      simp only [bind, Except.bind]
      rw [hmf, FitM.bind_error (applyTo_error hkp (by rw [hsrc]; exact hcv))]
    | ok t =>
      obtain ⟨st1, e1, e2, e3, e4, e5⟩ := applyTo_ok (env := env) hkp
        (r := (bif chain then a else r)) (st := st) (by rw [hsrc]; exact hcv)
      have hn : st.next < st1.next := by omega
      obtain ⟨st', f1, f2⟩ := ih st.next st1 hn (hr.trans hn)
        (fun q hq => by rw [e2.params]; exact hk q (by simp [hq]))
        (by rw [e5, hsc, e2.objs r hr])
      refine ⟨st', e2.trans f1, ?_⟩
      rw [hcf, hcv]
      simp only [bind, Except.bind]
      rw [e2.params, e4, e2.view hr] at f2
      have hrun : makeFold env chain r (p :: ps) a st = makeFold env chain r ps st.next st1 := by
        rw [hmf, FitM.bind_ok e1]
      rw [hrun]
      cases hcf' : convFold env chain (st.view r) (ps.map st.params) t with
      | error e => rw [hcf'] at f2; exact f2
      | ok u =>
        rw [hcf'] at f2
        obtain ⟨c, g1, g2, g3, g4, g5⟩ := f2
        refine ⟨c, g1, g2, g3, .inr ?_, by rw [g5, e2.objs r hr]⟩
        rcases g4 with ⟨rfl, -⟩ | g4
        · exact le_rfl
        · omega

theorem applyAll_eq (env : FitEnv) (ps : List ℕ) (r : ℕ) :
    applyAll env ps r = makeFold env true r ps r := rfl

/-- The rates of a background, applied in place. -/
theorem applyAll_rates {env : FitEnv} (ps : List ℕ) (c : ℕ) (st : FitState)
    (hk : ∀ p ∈ ps, (st.params p).kind = .rate) :
    ∃ st', FrameAt c st st' ∧
      (match rateAll (ps.map st.params) (st.view c) with
        | .ok w => applyAll env ps c st = (st', .ok c) ∧ st'.view c = w
        | .error e => applyAll env ps c st = (st', .error e)) ∧
      (st'.view c = st.view c ∨
        (ps ≠ [] ∧ (st.view c).numDecays ≠ 0 ∧ ∃ m, st'.view c = (st.view c).rescaled m)) ∧
      ((st.view c).numDecays ≠ 0 → (∀ p ∈ ps, (st.params p).value ≠ some 0) →
        (st'.view c).numDecays ≠ 0) := by
  induction ps generalizing st with
  | nil => exact ⟨st, .refl _ _, ⟨rfl, rfl⟩, .inl rfl, fun h _ => h⟩
  | cons p ps ih =>
    obtain ⟨st1, e1, e2⟩ := applyTo_rate (env := env) (c := c) (st := st) (hk p (by simp))
    have hrun : applyAll env (p :: ps) c st =
        (applyTo env (st.params p) c >>= fun a => applyAll env ps a) st := by
      unfold applyAll
      rw [List.foldlM_cons]
      rfl
    have hval : rateAll ((p :: ps).map st.params) (st.view c) =
        (rateP (st.params p) (st.view c) >>= fun x => rateAll (ps.map st.params) x) := by
      unfold rateAll
      rw [List.map_cons, List.foldlM_cons]
    rw [hrun, hval]
    cases hr : rateP (st.params p) (st.view c) with
    | error e =>
      rw [hr] at e2
      refine ⟨st1, e1, ?_, .inl e2.2, ?_⟩
      · simp only [bind, Except.bind]
        exact FitM.bind_error e2.1
      · rw [e2.2]; exact fun h _ => h
    | ok w =>
      rw [hr] at e2
      have hw : ∃ v, (st.params p).value = some v ∧ (st.view c).numDecays ≠ 0 ∧
          w = (st.view c).rescaled v := by
        unfold rateP at hr
        split at hr
        · cases hr
        · rename_i v hv
          split at hr
          · cases hr
          · rename_i h0
            exact ⟨v, hv, h0, (Except.ok.inj hr).symm⟩
      obtain ⟨v, hv, h0, rfl⟩ := hw
      obtain ⟨st', f1, f2, f3, f4⟩ := ih st1 (fun q hq => by
        rw [e1.params]; exact hk q (by simp [hq]))
      rw [e1.params, e2.2] at f2
      rw [e2.2] at f3
      refine ⟨st', e1.trans f1, ?_, .inr ⟨by simp, h0, ?_⟩, ?_⟩
      · rw [FitM.bind_ok e2.1]
        exact f2
      · rcases f3 with f3 | ⟨-, hv0, m, f3⟩
        · exact ⟨v, f3⟩
        · exact ⟨m, by rw [f3, rescaled_rescaled (m := v) h0 hv0]⟩
      · intro _ hz
        refine f4 ?_ (fun q hq => by rw [e1.params]; exact hz q (by simp [hq]))
        rw [e2.2]
        exact fun h => hz p (by simp) (by rw [hv]; exact congrArg some h)

/-! ### shrinking and rebinning to the data -/

theorem call_same {c : ℕ} {f : Spectrum → Outcome} {st : FitState}
    (h : (f (st.view c)).err = none) (he : (st.view c).Eqv (f (st.view c)).st) :
    ∃ st', FitM.call c f st = (st', .ok ()) ∧ FrameAt c st st' ∧ st'.view c = st.view c := by
  obtain ⟨⟨a1, a2, a3, a4, a5⟩, hd⟩ := he
  obtain ⟨st', e1, e2, e3⟩ := call_frame h a2
  refine ⟨st', e1, e2, ?_⟩
  rw [e3]
  have hn : (f (st.view c)).st.data.norm = (st.view c).data := by
    rw [← NdArray.norm_of_eqv hd, FitState.view_data_norm]
  cases hv : st.view c
  simp only [hv] at a1 a2 a3 a4 a5 hn
  simp only [Spectrum.norm, hn, a1, a2, a3, a4, a5]

theorem edge_zero (p : SPar) : p.edge 0 = p.low := by simp [SPar.edge]

theorem edge_bins {p : SPar} (h : p.WF) : p.edge p.bins = p.high := by
  have : (p.bins : ℚ) ≠ 0 := by exact_mod_cast h.1.ne'
  unfold SPar.edge
  field_simp
  ring

/-- Keyword arguments that ask for the whole range of every axis. -/
def fullKw (axes : List SPar) : List (PyStr × ℚ) :=
  axes.flatMap (fun p => [(p.name ++ lit "_low", p.low), (p.name ++ lit "_high", p.high)])

theorem asksRoi_full {all axes d : List SPar}
    (h : List.Forall₂ (fun p q : SPar => (∃ dim, OfDim p.name dim ∧ OfDim q.name dim) ∧
      q.low = p.low ∧ q.high = p.high ∧ q.bins = p.bins) d axes) (hs : ∀ p ∈ axes, p ∈ all) :
    AsksRoi all (d.map (fun p => (getDim p.name, (p.low, p.high)))) (fullKw axes) := by
  induction h with
  | nil => exact .nil
  | @cons p q d axes h1 _ ih =>
    obtain ⟨⟨dim, hp, hq⟩, h2, h3, -⟩ := h1
    rw [List.map_cons, ofDim_getDim hp, ← h2, ← h3]
    exact .cons q dim _ _ _ _ (hs q (by simp)) hq (ih (fun r hr => hs r (by simp [hr])))

theorem data_isDict {axes d : List SPar}
    (h : List.Forall₂ (fun p q : SPar => (∃ dim, OfDim p.name dim ∧ OfDim q.name dim) ∧
      q.low = p.low ∧ q.high = p.high ∧ q.bins = p.bins) d axes) (hd : DistinctDims axes)
    (hn : (axes.map SPar.name).Nodup) :
    IsDict (d.map (fun p => (getDim p.name, (p.low, p.high)))) := by
  have h1 : (d.map (fun p => getDim p.name)) = axes.map (fun p => getDim p.name) := by
    clear hd hn
    induction h with
    | nil => rfl
    | cons h1 _ ih =>
      obtain ⟨⟨dim, hp, hq⟩, -⟩ := h1
      rw [List.map_cons, List.map_cons, ih, ofDim_getDim hp, ofDim_getDim hq]
  have h2 : (axes.map (fun p => getDim p.name)).Nodup := by
    rw [List.nodup_map_iff_inj_on (List.Nodup.of_map _ hn)]
    intro p hp q hq he
    exact hd p hp q hq _ (hasDim_iff.2 rfl) (hasDim_iff.2 he.symm)
  rw [IsDict, List.map_map]
  rw [← h1] at h2
  exact h2

theorem fullKw_mem {axes : List SPar} {e : PyStr × ℚ} : e ∈ fullKw axes ↔
    ∃ p ∈ axes, e = (p.name ++ lit "_low", p.low) ∨ e = (p.name ++ lit "_high", p.high) := by
  simp [fullKw]

theorem fullKw_isDict {axes : List SPar} (hn : (axes.map SPar.name).Nodup) :
    IsDict (fullKw axes) := by
  induction axes with
  | nil => exact List.nodup_nil
  | cons p axes ih =>
    rw [List.map_cons, List.nodup_cons] at hn
    have key : ∀ k ∈ (fullKw axes).map Prod.fst, k ≠ p.name ++ lit "_low" ∧
        k ≠ p.name ++ lit "_high" := by
      intro k hk
      obtain ⟨e, he, rfl⟩ := List.mem_map.1 hk
      obtain ⟨q, hq, he | he⟩ := fullKw_mem.1 he
      · have hne : q.name ≠ p.name := fun h => hn.1 (h ▸ List.mem_map_of_mem hq)
        rw [he]
        exact ⟨fun h => hne (append_low_inj.1 h), low_ne_high⟩
      · have hne : q.name ≠ p.name := fun h => hn.1 (h ▸ List.mem_map_of_mem hq)
        rw [he]
        exact ⟨fun h => low_ne_high h.symm, fun h => hne (append_high_inj.1 h)⟩
    have hcons : (fullKw (p :: axes)).map Prod.fst =
        (p.name ++ lit "_low") :: (p.name ++ lit "_high") :: (fullKw axes).map Prod.fst := rfl
    rw [IsDict, hcons, List.nodup_cons, List.nodup_cons]
    refine ⟨?_, fun h => (key _ h).2 rfl, ih hn.2⟩
    intro h
    rcases List.mem_cons.1 h with h | h
    · exact low_ne_high h
    · exact (key _ h).1 rfl

/-- Shrinking to the whole range changes nothing. -/
theorem shrink_full {s : Spectrum} (hs : s.WF) (ha : ∀ p ∈ s.cfg, p.Aligned) :
    (s.shrink (fullKw s.cfg)).err = none ∧ s.Eqv (s.shrink (fullKw s.cfg)).st := by
  have hasks : AsksEdges s (fullKw s.cfg) (s.cfg.map (fun p => (0, p.bins.toNat))) := by
    refine ⟨fullKw_isDict hs.names, ?_, ?_⟩
    · intro e he
      obtain ⟨p, hp, he | he⟩ := fullKw_mem.1 he
      · exact ⟨p, hp, .inl (by rw [he])⟩
      · exact ⟨p, hp, .inr (by rw [he])⟩
    · rw [List.forall₂_map_right_iff, List.forall₂_same]
      intro p hp
      have hb := hs.axes p hp
      have hb' : ((p.bins.toNat : ℕ) : ℤ) = p.bins := Int.toNat_of_nonneg hb.1.le
      refine ⟨Nat.zero_le _, hb'.le, .inl ?_, .inl ?_⟩
      · simp only [Nat.cast_zero, edge_zero]
        exact fullKw_mem.2 ⟨p, hp, .inl rfl⟩
      · rw [hb', edge_bins hb]
        exact fullKw_mem.2 ⟨p, hp, .inr rfl⟩
  obtain ⟨h1, ⟨h2, h3, h4, h5, h6, h7⟩⟩ := shrink_isSub hs ha hasks
  refine ⟨h1, ⟨h4, ?_, h5, h6, h7⟩, ?_⟩
  · rw [h3]
    have : ∀ (l : List SPar), (∀ p ∈ l, p.WF) →
        List.zipWith subAxis l (l.map (fun p => (0, p.bins.toNat))) = l := by
      intro l
      induction l with
      | nil => intro _; rfl
      | cons p l ih =>
        intro hl
        have hb := hl p (by simp)
        have hb' : ((p.bins.toNat : ℕ) : ℤ) = p.bins := Int.toNat_of_nonneg hb.1.le
        rw [List.map_cons, List.zipWith_cons_cons, ih (fun q hq => hl q (by simp [hq]))]
        congr 1
        simp only [subAxis, Nat.cast_zero, edge_zero, hb', edge_bins hb, sub_zero]
    exact this _ hs.axes
  · obtain ⟨g1, g2⟩ := h2
    have hsh : s.data.shape = s.cfg.map (fun p => p.bins.toNat) := by
      have := congrArg (List.map Int.toNat) hs.shape
      simpa [List.map_map, Function.comp_def] using this
    have hsh' : (s.shrink (fullKw s.cfg)).st.data.shape = s.data.shape := by
      rw [g1, hsh, List.map_map]
      rfl
    refine ⟨hsh'.symm, fun idx hi => ?_⟩
    rw [g2 idx (by rw [hsh']; exact hi)]
    congr 1
    rw [hsh] at hi
    clear * - hi
    generalize s.cfg = cfg at hi
    induction cfg generalizing idx with
    | nil => cases idx with
      | nil => rfl
      | cons a b => simp [InB] at hi
    | cons p cfg ih => cases idx with
      | nil => simp [InB] at hi
      | cons a b =>
        simp only [List.map_cons, List.zipWith_cons_cons, Nat.zero_add]
        rw [← ih b (by cases hi; assumption)]

theorem onDataAxes_alike {d s u : Spectrum} (h : OnDataAxes d s) (hc : u.cfg = s.cfg)
    (hs : u.data.shape = s.data.shape) : OnDataAxes d u where
  wf := ⟨by rw [hc]; exact h.wf.axes, by rw [hc]; exact h.wf.names,
    by rw [hs, hc]; exact h.wf.shape⟩
  aligned := by rw [hc]; exact h.aligned
  dims := by rw [hc]; exact h.dims
  same := by rw [hc]; exact h.same
  shape := hs.trans h.shape

theorem shrinkToData_same {data c : ℕ} {st : FitState}
    (h : OnDataAxes (st.view data) (st.view c)) :
    ∃ st', shrinkToData data c st = (st', .ok ()) ∧ FrameAt c st st' ∧ st'.view c = st.view c := by
  have hkw : dataKw (st.view c).pars (st.view data).cfg = .ok (fullKw (st.view c).cfg) :=
    roiKw_of_asks h.dims (asksRoi_full h.same (fun _ hp => hp))
      (data_isDict h.same h.dims h.wf.names)
  obtain ⟨h1, h2⟩ := shrink_full h.wf h.aligned
  unfold shrinkToData
  simp only [FitM.read_bind, hkw, FitM.lift_bind]
  exact call_same h1 h2

theorem rebin_same {data c : ℕ} {st : FitState} (h : OnDataAxes (st.view data) (st.view c)) :
    ∃ st', FitM.call c (fun s => s.rebin (st.view data).data.shape) st = (st', .ok ()) ∧
      FrameAt c st st' ∧ st'.view c = st.view c := by
  obtain ⟨h1, h2⟩ := c14_rebin_self (st.view c) h.wf
  rw [h.shape] at h1 h2
  exact call_same h1 h2

end Verif
