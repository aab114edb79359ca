import Verif.Spec.Sharing
import Verif.Lemmas.Fill

/-! # Lemmas on programs with several spectra -/

namespace Verif

/-! ### the functions that make spectra keep the axes and the regions of interest -/

theorem fill_keeps (s : Spectrum) (w : ℚ) (kw : List (PyStr × ℚ)) :
    (s.fill w kw).st = { s with data := (s.fill w kw).st.data } := by
  unfold Spectrum.fill
  split
  · rfl
  · split
    · rfl
    · split
      · dsimp only; split <;> rfl
      · rfl

theorem add_keeps (s t : Spectrum) :
    (s.add t).st.cfg = s.cfg ∧ (s.add t).st.rois = s.rois := by
  unfold Spectrum.add; split <;> exact ⟨rfl, rfl⟩

theorem scale_keeps (s : Spectrum) (n : ℚ) :
    (s.scale n).st.cfg = s.cfg ∧ (s.scale n).st.rois = s.rois := by
  unfold Spectrum.scale; split <;> exact ⟨rfl, rfl⟩

theorem rebin_rois (s : Spectrum) (ns : List ℕ) : (s.rebin ns).st.rois = s.rois := by
  unfold Spectrum.rebin
  split
  · rfl
  · dsimp only
    split
    · rfl
    · split <;> rfl

/-- `t` has the axes and the regions of interest of `s`. -/
def KeepsAxes (s t : Spectrum) : Prop := t.cfg = s.cfg ∧ t.rois = s.rois

theorem foldlM_keeps {α : Type*} {f : Spectrum → α → Except PyErr Spectrum}
    (hf : ∀ a x b, f a x = .ok b → KeepsAxes a b) (l : List α) :
    ∀ a b, l.foldlM f a = .ok b → KeepsAxes a b := by
  induction l with
  | nil => intro a b h; cases h; exact ⟨rfl, rfl⟩
  | cons x l ih =>
    intro a b h
    rw [List.foldlM_cons] at h
    cases hx : f a x with
    | error e => rw [hx] at h; cases h
    | ok c =>
      rw [hx] at h
      have h1 := hf a x c hx
      have h2 := ih c b h
      exact ⟨h2.1.trans h1.1, h2.2.trans h1.2⟩

theorem fillOrRaise_keeps {a b : Spectrum} {w : ℚ} {kw : List (PyStr × ℚ)}
    (h : fillOrRaise a w kw = .ok b) : KeepsAxes a b := by
  unfold fillOrRaise at h
  split at h
  · cases h
  · cases h; rw [fill_keeps]; exact ⟨rfl, rfl⟩

theorem fillOrSkip_keeps {a b : Spectrum} {kw : List (PyStr × ℚ)}
    (h : fillOrSkip a kw = .ok b) : KeepsAxes a b := by
  unfold fillOrSkip at h
  split at h
  · cases h; exact ⟨rfl, rfl⟩
  · cases h
  · cases h; rw [fill_keeps]; exact ⟨rfl, rfl⟩

theorem renormalise_keeps {s t : Spectrum} {name : PyStr} {d : NdArray ℚ}
    (h : renormalise s name d = .finite t) : KeepsAxes s t := by
  unfold renormalise at h
  split at h
  · cases h
  · cases h; exact ⟨rfl, rfl⟩

theorem bindOk {α β : Type} {x : Except PyErr α} {f : α → Except PyErr β} {b : β}
    (h : (x >>= f) = .ok b) : ∃ a, x = .ok a ∧ f a = .ok b := by
  cases x with
  | error e => cases h
  | ok a => exact ⟨a, rfl, h⟩

theorem shiftByBin_keeps {str : ℚ → PyStr} {s t : Spectrum} {dim : PyStr} {x : ℚ}
    (h : s.shiftByBin str dim x = .ok t) : KeepsAxes s t := by
  unfold Spectrum.shiftByBin at h
  obtain ⟨p, -, h⟩ := bindOk h
  dsimp only at h
  split at h
  · obtain ⟨_, h1, -⟩ := bindOk h
    cases h1
  split at h
  · obtain ⟨_, h1, -⟩ := bindOk h
    cases h1
  obtain ⟨k, -, h⟩ := bindOk h
  obtain ⟨d, -, h⟩ := bindOk h
  cases h; exact ⟨rfl, rfl⟩

theorem shift_keeps {str : ℚ → PyStr} {spline : List ℚ → List ℚ → Except PyErr (ℚ → ℚ)}
    {s t : Spectrum} {dim : PyStr} {x : ℚ}
    (h : s.shift str spline dim x = .ok (.finite t)) : KeepsAxes s t := by
  unfold Spectrum.shift at h
  obtain ⟨p, -, h⟩ := bindOk h
  dsimp only at h
  split at h
  · obtain ⟨_, h1, -⟩ := bindOk h
    cases h1
  split at h
  · obtain ⟨u, hu, h⟩ := bindOk h
    cases h; exact shiftByBin_keeps hu
  · obtain ⟨f, -, h⟩ := bindOk h
    obtain ⟨k, -, h⟩ := bindOk h
    obtain ⟨d, -, h⟩ := bindOk h
    exact renormalise_keeps (Except.ok.inj h)

theorem scaleAxis_keeps {str : ℚ → PyStr} {spline : List ℚ → List ℚ → Except PyErr (ℚ → ℚ)}
    {s t : Spectrum} {dim : PyStr} {x : ℚ}
    (h : s.scaleAxis str spline dim x = .ok (.finite t)) : KeepsAxes s t := by
  unfold Spectrum.scaleAxis at h
  obtain ⟨f, -, h⟩ := bindOk h
  obtain ⟨k, -, h⟩ := bindOk h
  obtain ⟨p, -, h⟩ := bindOk h
  dsimp only at h
  split at h
  · obtain ⟨_, h1, -⟩ := bindOk h
    cases h1
  obtain ⟨d, -, h⟩ := bindOk h
  exact renormalise_keeps (Except.ok.inj h)

theorem weightedSmear_keeps {suffix : PyStr} {sigma : ℚ → ℚ} {weight : ℚ → ℚ → ℚ → ℚ} {ns : ℚ}
    {s t : Spectrum} {par : PyStr}
    (h : s.weightedSmear suffix sigma weight ns par = .ok t) : KeepsAxes s t := by
  unfold Spectrum.weightedSmear at h
  by_cases hn : par ∉ s.pars
  · rw [if_pos hn] at h
    obtain ⟨_, h1, -⟩ := bindOk h
    cases h1
  rw [if_neg hn] at h
  obtain ⟨k, -, h⟩ := bindOk h
  dsimp only at h
  split at h
  · obtain ⟨_, h1, -⟩ := bindOk h
    cases h1
  obtain ⟨p, -, h⟩ := bindOk h
  have key := fun hf => foldlM_keeps hf _ _ _ h
  refine key (fun a x b hab => ?_)
  unfold smearCell at hab
  dsimp only at hab
  split at hab
  · cases hab; exact ⟨rfl, rfl⟩
  · split at hab
    · cases hab
    · exact foldlM_keeps (fun _ _ _ h => fillOrRaise_keeps h) _ _ _ hab

theorem randomSmear_keeps {suffix : PyStr} {draws : List ℕ → ℕ → ℚ} {s t : Spectrum} {par : PyStr}
    (h : s.randomSmear suffix draws par = .ok t) : KeepsAxes s t := by
  unfold Spectrum.randomSmear at h
  by_cases hn : par ∉ s.pars
  · rw [if_pos hn] at h
    obtain ⟨_, h1, -⟩ := bindOk h
    cases h1
  rw [if_neg hn] at h
  obtain ⟨k, -, h⟩ := bindOk h
  dsimp only at h
  split at h
  · obtain ⟨_, h1, -⟩ := bindOk h
    cases h1
  have key := fun hf => foldlM_keeps hf _ _ _ h
  refine key (fun a x b hab => ?_)
  exact foldlM_keeps (fun _ _ _ h => fillOrSkip_keeps h) _ _ _ hab

theorem randomSmearRadial_keeps {suffix : PyStr} {s t : Spectrum} {par : PyStr}
    (h : s.randomSmearRadial suffix par = .ok t) : KeepsAxes s t := by
  unfold Spectrum.randomSmearRadial at h
  dsimp only at h
  split at h
  · obtain ⟨_, h1, -⟩ := bindOk h
    cases h1
  split at h
  · obtain ⟨_, h1, -⟩ := bindOk h
    cases h1
  have key := fun hf => foldlM_keeps hf _ _ _ h
  refine key (fun a x b hab => ?_)
  split at hab
  · cases hab; exact ⟨rfl, rfl⟩
  · cases hab

theorem Making.run_keeps {s t : Spectrum} {m : Making} (h : m.run s = .ok (.finite t)) :
    KeepsAxes s t := by
  have hm : ∀ {x : Except PyErr Spectrum}, x.map NpResult.finite = .ok (.finite t) → x = .ok t := by
    intro x hx
    cases x with
    | error e => cases hx
    | ok a => cases hx; rfl
  cases m with
  | shift => exact shift_keeps h
  | shiftByBin => exact shiftByBin_keeps (hm h)
  | scale => exact scaleAxis_keeps h
  | weightedSmear => exact weightedSmear_keeps (hm h)
  | randomSmear => exact randomSmear_keeps (hm h)
  | randomSmearRadial => exact randomSmearRadial_keeps (hm h)

theorem Method.outcome_keeps {others : ℕ → Option Spectrum} {s : Spectrum} {m : Method} {o : Outcome}
    (hm : ¬ m.ChangesAxes) (ho : m.outcome others s = some o) : KeepsAxes s o.st := by
  cases m with
  | fill w kw => cases ho; rw [fill_keeps]; exact ⟨rfl, rfl⟩
  | add j =>
    simp only [Method.outcome, Option.map_eq_some_iff] at ho
    obtain ⟨t, -, rfl⟩ := ho
    exact add_keeps s t
  | scale n => cases ho; exact scale_keeps s n
  | _ => exact absurd trivial hm

/-! ### programs -/

/-- What exists after a program. -/
def heapAfter (prog : List Stmt) : SHeap := SHeap.empty.run 0 prog

theorem run_snoc (h : SHeap) (n : ℕ) (prog : List Stmt) (st : Stmt) :
    h.run n (prog ++ [st]) = (h.run n prog).step (n + prog.length) st := by
  induction prog generalizing h n with
  | nil => rfl
  | cons a prog ih =>
    simp only [List.cons_append, SHeap.run, ih, List.length_cons]
    congr 1; omega

theorem heapAfter_snoc (prog : List Stmt) (st : Stmt) :
    heapAfter (prog ++ [st]) = (heapAfter prog).step prog.length st := by
  unfold heapAfter; rw [run_snoc, Nat.zero_add]

theorem Uses.snoc {prog : List Stmt} {c n : ℕ} (st : Stmt) (h : Uses prog c n) :
    Uses (prog ++ [st]) c n := by
  have hm : ∀ {k : ℕ} {a : Stmt}, prog[k]? = some a → (prog ++ [st])[k]? = some a := by
    intro k a h
    rw [List.getElem?_append_left (List.getElem?_eq_some_iff.1 h).1]; exact h
  induction h with
  | create h => exact .create (hm h)
  | load h => exact .load (hm h)
  | like h _ ih => exact .like (hm h) ih
  | make h _ ih => exact .make (hm h) ih

theorem Uses.append {prog : List Stmt} {c n : ℕ} (more : List Stmt) (h : Uses prog c n) :
    Uses (prog ++ more) c n := by
  induction more using List.reverseRecOn with
  | nil => rwa [List.append_nil]
  | append_singleton more st ih => rw [← List.append_assoc]; exact ih.snoc st

theorem Uses.unique {prog : List Stmt} {c c' n : ℕ} (h : Uses prog c n) (h' : Uses prog c' n) :
    c = c' := by
  induction h with
  | create h =>
    cases h' with
    | create h2 => rw [h] at h2; injection h2 with e; injection e
    | load h2 => rw [h] at h2; injection h2 with e; cases e
    | like h2 => rw [h] at h2; injection h2 with e; cases e
    | make h2 => rw [h] at h2; injection h2 with e; cases e
  | load h =>
    cases h' with
    | create h2 => rw [h] at h2; injection h2 with e; cases e
    | load h2 => rfl
    | like h2 => rw [h] at h2; injection h2 with e; cases e
    | make h2 => rw [h] at h2; injection h2 with e; cases e
  | like h _ ih =>
    cases h' with
    | create h2 => rw [h] at h2; injection h2 with e; cases e
    | load h2 => rw [h] at h2; injection h2 with e; cases e
    | like h2 h3 => rw [h] at h2; injection h2 with e; injection e with _ _ e; subst e; exact ih h3
    | make h2 => rw [h] at h2; injection h2 with e; cases e
  | make h _ ih =>
    cases h' with
    | create h2 => rw [h] at h2; injection h2 with e; cases e
    | load h2 => rw [h] at h2; injection h2 with e; cases e
    | like h2 => rw [h] at h2; injection h2 with e; cases e
    | make h2 h3 => rw [h] at h2; injection h2 with e; injection e with e; subst e; exact ih h3

/-- What holds of the objects after every program. -/
structure HeapInv (prog : List Stmt) (h : SHeap) : Prop where
  obj_lt : ∀ i o, h.objs i = some o → i < prog.length
  cfg_lt : ∀ c a, h.configs c = some a → c < prog.length
  roi_lt : ∀ i o, h.objs i = some o → o.roiDict < prog.length
  cfg_ex : ∀ i o, h.objs i = some o → ∃ a, h.configs o.config = some a
  uses : ∀ i o, h.objs i = some o → Uses prog o.config i
  roi_cfg : ∀ i j o q, h.objs i = some o → h.objs j = some q → o.roiDict = q.roiDict →
    o.config = q.config

theorem HeapInv.snoc_same {prog : List Stmt} {h : SHeap} (H : HeapInv prog h) (st : Stmt) :
    HeapInv (prog ++ [st]) h := by
  have hl : prog.length < (prog ++ [st]).length := by simp
  exact ⟨fun i o e => (H.obj_lt i o e).trans hl, fun c a e => (H.cfg_lt c a e).trans hl,
    fun i o e => (H.roi_lt i o e).trans hl, H.cfg_ex, fun i o e => (H.uses i o e).snoc st, H.roi_cfg⟩

/-- A new object. -/
theorem HeapInv.put {prog : List Stmt} {h : SHeap} (H : HeapInv prog h) (st : Stmt) (s : Spectrum)
    {c r : ℕ} (hc : ∃ a, h.configs c = some a) (hu : Uses (prog ++ [st]) c prog.length)
    (hr : r < (prog ++ [st]).length)
    (hrc : ∀ i o, h.objs i = some o → o.roiDict = r → o.config = c) :
    HeapInv (prog ++ [st]) (h.put prog.length c r s) := by
  have H' := H.snoc_same st
  have hcase : ∀ i o, (h.put prog.length c r s).objs i = some o →
      (i = prog.length ∧ o.config = c ∧ o.roiDict = r) ∨ h.objs i = some o := by
    intro i o e
    simp only [SHeap.put, Function.update_apply] at e
    split at e
    · rename_i hi
      cases e; exact .inl ⟨hi, rfl, rfl⟩
    · exact .inr e
  refine ⟨?_, H'.cfg_lt, ?_, ?_, ?_, ?_⟩
  · intro i o e
    rcases hcase i o e with ⟨rfl, -, -⟩ | e
    · simp
    · exact H'.obj_lt i o e
  · intro i o e
    rcases hcase i o e with ⟨-, -, e3⟩ | e
    · rw [e3]; exact hr
    · exact H'.roi_lt i o e
  · intro i o e
    rcases hcase i o e with ⟨-, e2, -⟩ | e
    · rw [e2]; exact hc
    · exact H'.cfg_ex i o e
  · intro i o e
    rcases hcase i o e with ⟨rfl, e2, -⟩ | e
    · rw [e2]; exact hu
    · exact H'.uses i o e
  · intro i j o q e e' hoq
    rcases hcase i o e with ⟨-, e2, e3⟩ | e <;> rcases hcase j q e' with ⟨-, f2, f3⟩ | e'
    · rw [e2, f2]
    · rw [e2]; exact (hrc j q e' (by rw [← hoq, e3])).symm
    · rw [f2]; exact hrc i o e (by rw [hoq, f3])
    · exact H'.roi_cfg i j o q e e' hoq

theorem heapInv (prog : List Stmt) : HeapInv prog (heapAfter prog) := by
  induction prog using List.reverseRecOn with
  | nil =>
    exact ⟨fun i o e => (by cases e), fun i o e => (by cases e), fun i o e => (by cases e),
      fun i o e => (by cases e), fun i o e => (by cases e), fun i j o q e => (by cases e)⟩
  | append_singleton prog st ih =>
    rw [heapAfter_snoc]
    generalize heapAfter prog = h at ih
    have hget : (prog ++ [st])[prog.length]? = some st := by simp
    have hlen : prog.length < (prog ++ [st]).length := by simp
    cases st with
    | config axes =>
      have H' := ih.snoc_same (.config axes)
      refine ⟨H'.obj_lt, ?_, H'.roi_lt, ?_, H'.uses, H'.roi_cfg⟩
      · intro c a e
        simp only [SHeap.step, Function.update_apply] at e
        split at e
        · rename_i hc; rw [hc]; exact hlen
        · exact H'.cfg_lt c a e
      · intro i o e
        simp only [SHeap.step, Function.update_apply]
        split
        · exact ⟨_, rfl⟩
        · exact H'.cfg_ex i o e
    | create name d c =>
      simp only [SHeap.step]
      split
      · exact ih.snoc_same _
      · rename_i cfg hc
        have H2 : HeapInv prog { h with roiDicts := Function.update h.roiDicts prog.length [] } :=
          ⟨ih.obj_lt, ih.cfg_lt, ih.roi_lt, ih.cfg_ex, ih.uses, ih.roi_cfg⟩
        refine H2.put _ _ ⟨cfg, hc⟩ (.create hget) hlen ?_
        intro i o e e2
        exact absurd (ih.roi_lt i o e) (by omega)
    | createLike name d i =>
      simp only [SHeap.step]
      split
      · exact ih.snoc_same _
      · rename_i o ho
        split
        · exact ih.snoc_same _
        · rename_i cfg hc
          have H2 : HeapInv prog { h with roiDicts := Function.update h.roiDicts prog.length [] } :=
            ⟨ih.obj_lt, ih.cfg_lt, ih.roi_lt, ih.cfg_ex, ih.uses, ih.roi_cfg⟩
          refine H2.put _ _ ⟨cfg, hc⟩ (.like hget ((ih.uses i o ho).snoc _)) hlen ?_
          intro i o e e2
          exact absurd (ih.roi_lt i o e) (by omega)
    | load s =>
      simp only [SHeap.step]
      have H' := ih.snoc_same (.load s)
      have hcase : ∀ i o, (SHeap.put { h with
          configs := Function.update h.configs prog.length (some s.cfg)
          roiDicts := Function.update h.roiDicts prog.length s.rois }
          prog.length prog.length prog.length s).objs i = some o →
          (i = prog.length ∧ o.config = prog.length ∧ o.roiDict = prog.length) ∨
            h.objs i = some o := by
        intro i o e
        simp only [SHeap.put, Function.update_apply] at e
        split at e
        · rename_i hi
          cases e; exact .inl ⟨hi, rfl, rfl⟩
        · exact .inr e
      refine ⟨?_, ?_, ?_, ?_, ?_, ?_⟩
      · intro i o e
        rcases hcase i o e with ⟨rfl, -, -⟩ | e
        · simp
        · exact H'.obj_lt i o e
      · intro c a e
        simp only [SHeap.put, Function.update_apply] at e
        split at e
        · rename_i hc; rw [hc]; exact hlen
        · exact H'.cfg_lt c a e
      · intro i o e
        rcases hcase i o e with ⟨-, -, e3⟩ | e
        · rw [e3]; exact hlen
        · exact H'.roi_lt i o e
      · intro i o e
        simp only [SHeap.put, Function.update_apply]
        split
        · exact ⟨_, rfl⟩
        · rename_i hne
          rcases hcase i o e with ⟨-, e2, -⟩ | e
          · exact absurd e2 hne
          · exact H'.cfg_ex i o e
      · intro i o e
        rcases hcase i o e with ⟨rfl, e2, -⟩ | e
        · rw [e2]; exact .load hget
        · exact H'.uses i o e
      · intro i j o q e e' hoq
        rcases hcase i o e with ⟨-, e2, e3⟩ | e <;> rcases hcase j q e' with ⟨-, f2, f3⟩ | e'
        · rw [e2, f2]
        · exact absurd (ih.roi_lt j q e') (by omega)
        · exact absurd (ih.roi_lt i o e) (by omega)
        · exact H'.roi_cfg i j o q e e' hoq
    | make i m =>
      simp only [SHeap.step]
      split
      · rename_i o s ho hs
        split
        · refine ih.put _ _ (ih.cfg_ex i o ho) (.make hget ((ih.uses i o ho).snoc _))
            ((ih.roi_lt i o ho).trans hlen) ?_
          intro j q e e2
          exact ih.roi_cfg j i q o e ho e2
        · exact ih.snoc_same _
      · exact ih.snoc_same _
    | call i m =>
      simp only [SHeap.step]
      split
      · rename_i o s ho hs
        split
        · rename_i r hr
          have H' := ih.snoc_same (.call i m)
          have hcase : ∀ j q, (h.write i o r.st).objs j = some q →
              ∃ q', h.objs j = some q' ∧ q.config = q'.config ∧ q.roiDict = q'.roiDict := by
            intro j q e
            simp only [SHeap.write, Function.update_apply] at e
            split at e
            · rename_i hi
              cases e; subst hi; exact ⟨o, ho, rfl, rfl⟩
            · exact ⟨q, e, rfl, rfl⟩
          refine ⟨?_, ?_, ?_, ?_, ?_, ?_⟩
          · intro j q e
            obtain ⟨q', e', -, -⟩ := hcase j q e
            exact H'.obj_lt j q' e'
          · intro c a e
            simp only [SHeap.write, Function.update_apply] at e
            split at e
            · rename_i hc
              obtain ⟨a', ha'⟩ := ih.cfg_ex i o ho
              rw [hc]; exact H'.cfg_lt _ a' ha'
            · exact H'.cfg_lt c a e
          · intro j q e
            obtain ⟨q', e', -, e2⟩ := hcase j q e
            rw [e2]; exact H'.roi_lt j q' e'
          · intro j q e
            obtain ⟨q', e', e1, -⟩ := hcase j q e
            simp only [SHeap.write, Function.update_apply]
            split
            · exact ⟨_, rfl⟩
            · rw [e1]; exact H'.cfg_ex j q' e'
          · intro j q e
            obtain ⟨q', e', e1, -⟩ := hcase j q e
            rw [e1]; exact H'.uses j q' e'
          · intro j k q p e f hqp
            obtain ⟨q', e', e1, e2⟩ := hcase j q e
            obtain ⟨p', f', f1, f2⟩ := hcase k p f
            rw [e1, f1]
            exact H'.roi_cfg j k q' p' e' f' (by rw [← e2, ← f2, hqp])
        · exact ih.snoc_same _
      · exact ih.snoc_same _

end Verif
