import Verif.Spec.FitWhole
import Verif.Props.FitInit

/-! Helper lemmas: what the constructor of fits leaves alone, and what it makes of the fit
configuration. -/

namespace Verif

open Session

/-- Nothing is evaluated, names and parameters of the spectra stay, parameters are only renamed. -/
structure MadeFrom (st st' : FitState) : Prop where
  cache : st'.cache = st.cache
  next : st.next ≤ st'.next
  background : ∀ q, q < st.next → (st'.objs q).background = (st.objs q).background
  fit : ∀ q, q < st.next → (st'.objs q).fit = (st.objs q).fit
  params : ∀ p, st'.params p = { st.params p with name := (st'.params p).name }

theorem MadeFrom.refl (st : FitState) : MadeFrom st st := ⟨rfl, le_rfl, fun _ _ => rfl, fun _ _ => rfl, fun _ => rfl⟩

theorem MadeFrom.trans {st st' st'' : FitState} (h : MadeFrom st st') (h' : MadeFrom st' st'') :
    MadeFrom st st'' where
  cache := h'.cache.trans h.cache
  next := h.next.trans h'.next
  background q hq := (h'.background q (hq.trans_le h.next)).trans (h.background q hq)
  fit q hq := (h'.fit q (hq.trans_le h.next)).trans (h.fit q hq)
  params p := by
    rw [h'.params p, h.params p]

/-- The computation has a frame. -/
def FitM.Making {α : Type} (m : FitM α) : Prop := ∀ st, MadeFrom st (m st).1

namespace FitM

theorem Making.pure {α : Type} (a : α) : Making (pure a : FitM α) := fun st => .refl st
theorem Making.raise {α : Type} (e : PyErr) : Making (raise e : FitM α) := fun st => .refl st
theorem Making.lift {α : Type} (x : Except PyErr α) : Making (lift x) := fun st => .refl st
theorem Making.read {α : Type} (f : FitState → α) : Making (read f) := fun st => .refl st

theorem Making.copy (r : ℕ) : Making (copy r) := fun st =>
  ⟨rfl, Nat.le_succ _,
    fun q hq => by
      show (Function.update st.objs st.next (st.objs r) q).background = _
      rw [Function.update_of_ne hq.ne],
    fun q hq => by
      show (Function.update st.objs st.next (st.objs r) q).fit = _
      rw [Function.update_of_ne hq.ne], fun _ => rfl⟩

theorem Making.call (r : ℕ) (f : Spectrum → Outcome) : Making (call r f) := fun st => by
  refine ⟨rfl, le_rfl, fun q _ => ?_, fun q _ => ?_, fun _ => rfl⟩
  all_goals
    simp only [FitM.call, FitState.write]
    by_cases h : q = r
    · subst h; rw [Function.update_self]
    · rw [Function.update_of_ne h]

theorem Making.bind {α β : Type} {m : FitM α} {f : α → FitM β} (hm : Making m)
    (hf : ∀ a, Making (f a)) : Making (m >>= f) := by
  intro st
  have h1 := hm st
  rcases hms : m st with ⟨st', a | a⟩
  · rw [bind_error hms]; rw [hms] at h1; exact h1
  · rw [bind_ok hms]; rw [hms] at h1; exact h1.trans (hf a st')

theorem Making.forM {α : Type} {f : α → FitM Unit} (hf : ∀ a, Making (f a)) (l : List α) :
    Making (l.forM f) := by
  induction l with
  | nil => exact Making.pure ()
  | cons a l ih => exact Making.bind (hf a) fun _ => ih

end FitM

open FitM

theorem making_shrinkSpectra (roi : Dict (ℚ × ℚ)) (r : ℕ) : Making (shrinkSpectra roi r) :=
  .bind (.read _) fun _ => .bind (.lift _) fun _ => .call _ _

theorem making_shrinkIf (roi : Dict (ℚ × ℚ)) (b : Bool) (r : ℕ) : Making (shrinkIf roi b r) := by
  unfold shrinkIf
  split
  · exact making_shrinkSpectra _ _
  · exact .pure _

theorem making_shrinkOrCheck (roi : Dict (ℚ × ℚ)) (b : Bool) (r : ℕ) :
    Making (shrinkOrCheck roi b r) := by
  unfold shrinkOrCheck
  cases b with
  | true => exact making_shrinkSpectra _ _
  | false => exact fun st => .refl st

theorem making_prepareFixed (roi : Dict (ℚ × ℚ)) (b : Bool) (e : ℕ × ℚ) :
    Making (prepareFixed roi b e) :=
  .bind (.copy _) fun _ => .bind (making_shrinkIf _ _ _) fun _ => .bind (.call _ _) fun _ => .pure _

theorem making_makeFixed (roi : Dict (ℚ × ℚ)) (b : Bool) (d : List (ℕ × ℚ)) :
    Making (Verif.makeFixed roi b d) := by
  cases d with
  | nil => exact .raise _
  | cons e d =>
    refine .bind (making_prepareFixed _ _ _) fun total => .bind (fun st => ?_) fun _ =>
      .bind (Making.forM (fun e => .bind (making_prepareFixed _ _ _) fun c =>
        .bind (.read _) fun s => .call _ _) d) fun _ => .pure _
    refine ⟨rfl, le_rfl, fun q _ => ?_, fun q _ => ?_, fun _ => rfl⟩
    all_goals
      simp only [FitM.change]
      by_cases h : q = total
      · subst h; rw [Function.update_self]
      · rw [Function.update_of_ne h]

theorem making_makeFixedBackground (roi : Dict (ℚ × ℚ)) (b : Bool) (d : List (ℕ × ℚ)) :
    Making (makeFixedBackground roi b d) :=
  .bind (making_makeFixed _ _ _) fun _ => .bind (.read _) fun _ => .bind (.lift _) fun _ =>
    .bind (.lift _) fun _ => .pure _

/-! ### the setters -/

theorem made_setData (ses : Session) (st : FitState) (r : ℕ) (b : Bool) :
    MadeFrom st (ses.setData st r b).1.2 := by
  unfold setData
  have h := making_shrinkOrCheck ses.roi b r st
  rcases hm : shrinkOrCheck ses.roi b r st with ⟨st1, e | a⟩ <;> rw [hm] at h
  · exact h
  · simp only
    split <;> exact h

theorem made_setSignal (ses : Session) (st : FitState) (r : ℕ) (b : Bool) :
    MadeFrom st (ses.setSignal st r b).1.2 := by
  unfold setSignal
  have h := making_shrinkIf ses.roi b r st
  rcases hm : shrinkIf ses.roi b r st with ⟨st1, e | a⟩ <;> rw [hm] at h
  · exact h
  · simp only
    split <;> exact h

theorem made_makeFixed (ses : Session) (st : FitState) (d : List (ℕ × ℚ)) (b : Bool) :
    MadeFrom st (ses.makeFixed st d b).1.2 := by
  unfold Session.makeFixed
  have h := making_makeFixedBackground ses.roi b d st
  rcases hm : makeFixedBackground ses.roi b d st with ⟨st1, e | ⟨t, ps⟩⟩ <;> rw [hm] at h
  · exact h
  · exact h

theorem made_addConfig (keyOf : ℕ → PyStr) (config : Dict (ℕ × Bool)) (st : FitState) (r : ℕ) :
    MadeFrom st (addConfig keyOf config st r).2 := by
  unfold addConfig
  generalize (st.objs r).fit.getD [] = ps
  induction ps generalizing config st with
  | nil => exact .refl st
  | cons p ps ih =>
    refine MadeFrom.trans ?_ (ih _ _)
    refine ⟨rfl, le_rfl, fun _ _ => rfl, fun _ _ => rfl, fun q => ?_⟩
    by_cases h : q = p
    · subst h; simp only [Function.update_self]
    · simp only [Function.update_of_ne h]

theorem made_floatingLoop (keyOf : ℕ → PyStr) (roi : Dict (ℚ × ℚ)) (b : Bool)
    (config : Dict (ℕ × Bool)) (st : FitState) (rs : List ℕ) :
    MadeFrom st (floatingLoop keyOf roi b config st rs).2.1 := by
  induction rs generalizing config st with
  | nil => exact .refl st
  | cons r rs ih =>
    rw [floatingLoop]
    have h0 := made_addConfig keyOf config st r
    have h := h0.trans (making_shrinkOrCheck roi b r (addConfig keyOf config st r).2)
    rcases hm : shrinkOrCheck roi b r (addConfig keyOf config st r).2 with ⟨st1, e | a⟩ <;>
      rw [hm] at h
    · exact h
    · dsimp only
      split
      · exact h
      · have h2 := h.trans (ih (addConfig keyOf config st r).1 st1)
        rcases hm2 : floatingLoop keyOf roi b (addConfig keyOf config st r).1 st1 rs with
          ⟨c2, st2, e | pss⟩ <;> rw [hm2] at h2 <;> exact h2

theorem made_setFloating (keyOf : ℕ → PyStr) (ses : Session) (st : FitState) (rs : List ℕ)
    (b : Bool) : MadeFrom st (setFloating keyOf ses st rs b).1.2 := by
  unfold setFloating
  have h := made_floatingLoop keyOf ses.roi b ses.config st rs
  rcases hm : floatingLoop keyOf ses.roi b ses.config st rs with ⟨c, st1, e | pss⟩ <;>
    rw [hm] at h <;> exact h

theorem made_setIf {α : Type} {set : Session → FitState → α → SesResult Unit}
    (h : ∀ ses st x, MadeFrom st (set ses st x).1.2) (o : Option α) (ses : Session) (st : FitState) :
    MadeFrom st (setIf set o ses st).1.2 := by
  cases o with
  | none => exact .refl st
  | some x => exact h ses st x

theorem made_thenDo {r : SesResult Unit} {f : Session → FitState → SesResult Unit} {st : FitState}
    (hr : MadeFrom st r.1.2) (hf : ∀ ses st, MadeFrom st (f ses st).1.2) :
    MadeFrom st (thenDo r f).1.2 := by
  rcases r with ⟨⟨ses, st1⟩, e | u⟩
  · exact hr
  · exact hr.trans (hf ses st1)

theorem made_init (keyOf : ℕ → PyStr) (a : FitArgs) (st : FitState) :
    MadeFrom st (Session.init keyOf a st).1 := by
  have h : MadeFrom st (thenDo (thenDo (initSpectra keyOf a st) (shrinkAllIf a.shrink))
      (initMinimiser a)).1.2 := by
    refine made_thenDo (made_thenDo ?_ fun ses st => ?_) fun ses st => ?_
    · unfold initSpectra
      exact made_thenDo (made_thenDo (made_thenDo
        (made_setIf (fun ses st x => made_setData ses st x true) _ _ _)
        fun ses st => made_setIf (fun ses st x => made_makeFixed ses st x true) _ _ _)
        fun ses st => made_setIf (fun ses st x => made_setFloating keyOf ses st x true) _ _ _)
        fun ses st => made_setIf (fun ses st x => made_setSignal ses st x true) _ _ _
    · unfold shrinkAllIf
      split
      · exact Making.forM (making_shrinkSpectra ses.roi) _ st
      · exact .refl st
    · unfold initMinimiser setMinimiser
      simp only
      cases checkAllSpectra { ses with perBin := a.perBin } st with
      | ok u => exact .refl st
      | error e =>
        simp only
        split <;> exact .refl st
  unfold Session.init
  generalize thenDo (thenDo (initSpectra keyOf a st) (shrinkAllIf a.shrink)) (initMinimiser a) = x at h
  rcases x with ⟨w, e | u⟩ <;> exact h

/-! ### the fit configuration -/

theorem dictSet_new {α : Type} {d : Dict α} {k : PyStr} (h : k ∉ d.map Prod.fst) (v : α) :
    dictSet d k v = d ++ [(k, v)] := by
  induction d with
  | nil => rfl
  | cons x d ih =>
    rw [List.map_cons, List.mem_cons, not_or] at h
    rw [dictSet, if_neg (Ne.symm h.1), ih h.2]
    rfl

/-- Parameters with new names are put at the end. -/
theorem entered_new {keyOf : ℕ → PyStr} {config : Dict (ℕ × Bool)} {ps : List ℕ}
    (h : (config.map Prod.fst ++ ps.map keyOf).Nodup) :
    entered keyOf config ps = config ++ ps.map (fun p => (keyOf p, (p, false))) := by
  induction ps generalizing config with
  | nil => simp [entered]
  | cons p ps ih =>
    have hp : keyOf p ∉ config.map Prod.fst := by
      rw [List.nodup_append] at h
      intro hm
      exact h.2.2 _ hm _ (by simp) rfl
    show entered keyOf (dictSet config (keyOf p) (p, false)) ps = _
    rw [dictSet_new hp, ih]
    · simp
    · simpa using h

/-! ### spectra with the same axes -/

/-- Spectra with the same axes have the same axes when they have been shrunk. -/
theorem shrunkTo_same_axes {roi : Dict (ℚ × ℚ)} (hr : IsDict roi) {s s' t t' : Spectrum}
    (hs : CanShrink roi s) (hs' : CanShrink roi s') (hc : s'.cfg = s.cfg) (h : ShrunkTo roi s t)
    (h' : ShrunkTo roi s' t') :
    t'.cfg = t.cfg ∧ t'.data.shape = t.data.shape ∧ t.numDecays = s.numDecays := by
  have hw := (h.region hr hs).2.wf
  have hw' := (h'.region hr hs').2.wf
  obtain ⟨kw, hk, -, he⟩ := h
  obtain ⟨kw', hk', -, he'⟩ := h'
  obtain rfl : kw' = kw := by
    have e1 := roiKw_of_asks hs.dims hk hr
    have e2 := roiKw_of_asks hs.dims (hc ▸ hk') hr
    rw [e1] at e2
    cases e2; rfl
  obtain ⟨rs, h1, -, -, h4⟩ := hs.shrunk hr hk
  have h1' : AsksEdges s' kw' rs := by
    unfold AsksEdges BoundKeys at h1 ⊢
    rw [hc]; exact h1
  obtain ⟨-, h4'⟩ := c16_shrink_edges s' hs'.wf hs'.aligned kw' rs h1'
  have hcfg : t'.cfg = t.cfg := by
    rw [(isSub_eqv h4 he).2.1, (isSub_eqv h4' he').2.1, hc]
  refine ⟨hcfg, ?_, (isSub_eqv h4 he).2.2.2.1⟩
  have e1 := hw.shape
  have e2 := hw'.shape
  rw [hcfg, ← e1] at e2
  exact List.map_injective_iff.2 (fun a b h => by simpa using h) e2

end Verif
