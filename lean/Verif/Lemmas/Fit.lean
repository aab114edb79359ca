import Verif.Spec.Fit
import Verif.Lemmas.NdArray
import Verif.Lemmas.Names

/-! Helper lemmas about fits. -/

namespace Verif

namespace FitM

theorem bind_run {α β : Type} (m : FitM α) (f : α → FitM β) (st : FitState) :
    (m >>= f) st = match m st with
      | (st', .ok a) => f a st'
      | (st', .error e) => (st', .error e) := rfl

theorem bind_ok {α β : Type} {m : FitM α} {f : α → FitM β} {st st' : FitState} {a : α}
    (h : m st = (st', .ok a)) : (m >>= f) st = f a st' := by
  rw [bind_run, h]

theorem bind_error {α β : Type} {m : FitM α} {f : α → FitM β} {st st' : FitState} {e : PyErr}
    (h : m st = (st', .error e)) : (m >>= f) st = (st', .error e) := by
  rw [bind_run, h]

theorem pure_run {α : Type} (a : α) (st : FitState) : (pure a : FitM α) st = (st, .ok a) := rfl

theorem read_bind {α β : Type} (g : FitState → α) (f : α → FitM β) (st : FitState) :
    (read g >>= f) st = f (g st) st := rfl

theorem lift_bind {α β : Type} (x : Except PyErr α) (f : α → FitM β) (st : FitState) :
    (lift x >>= f) st = match x with
      | .ok a => f a st
      | .error e => (st, .error e) := by
  cases x <;> rfl

theorem change_bind {β : Type} (g : FitState → FitState) (f : Unit → FitM β) (st : FitState) :
    (change g >>= f) st = f () (g st) := rfl

theorem copy_bind {β : Type} (r : ℕ) (f : ℕ → FitM β) (st : FitState) :
    (copy r >>= f) st = f st.next (st.copy r) := rfl

theorem call_run {r : ℕ} {f : Spectrum → Outcome} {st : FitState}
    (h : (f (st.view r)).err = none) : call r f st = (st.write r (f (st.view r)).st, .ok ()) := by
  unfold call
  simp only [h]

end FitM

/-! ### arrays -/

namespace NdArray

theorem norm_of_eqv {a b : NdArray ℚ} (h : a.Eqv b) : a.norm = b.norm := by
  obtain ⟨h1, h2⟩ := h
  unfold norm
  rw [← h1]
  congr 1
  funext idx
  by_cases hi : InB a.shape idx
  · rw [if_pos hi, if_pos hi, h2 idx hi]
  · rw [if_neg hi, if_neg hi]

theorem norm_eqv (a : NdArray ℚ) : a.norm.Eqv a :=
  ⟨rfl, fun idx hi => by simp only [norm] at hi ⊢; rw [if_pos hi]⟩

@[simp] theorem norm_norm (a : NdArray ℚ) : a.norm.norm = a.norm := norm_of_eqv (norm_eqv a)

@[simp] theorem norm_shape (a : NdArray ℚ) : a.norm.shape = a.shape := rfl

theorem norm_get {a : NdArray ℚ} {idx : List ℕ} (h : InB a.shape idx) : a.norm.get idx = a.get idx :=
  (norm_eqv a).2 idx h

theorem smul_norm (a : NdArray ℚ) (c : ℚ) : (a.norm.smul c).norm = (a.smul c).norm :=
  norm_of_eqv ⟨rfl, fun idx hi => by
    have h : a.norm.get idx = a.get idx := norm_get hi
    simp only [smul, h]⟩

end NdArray

/-! ### state -/

namespace FitState

@[simp] theorem view_data_norm (st : FitState) (r : ℕ) : (st.view r).data.norm = (st.view r).data :=
  NdArray.norm_norm _

@[simp] theorem write_next (st : FitState) (r : ℕ) (s : Spectrum) : (st.write r s).next = st.next := rfl
@[simp] theorem write_params (st : FitState) (r : ℕ) (s : Spectrum) :
    (st.write r s).params = st.params := rfl
@[simp] theorem write_cache (st : FitState) (r : ℕ) (s : Spectrum) :
    (st.write r s).cache = st.cache := rfl
@[simp] theorem copy_next (st : FitState) (r : ℕ) : (st.copy r).next = st.next + 1 := rfl
@[simp] theorem copy_params (st : FitState) (r : ℕ) : (st.copy r).params = st.params := rfl
@[simp] theorem copy_cache (st : FitState) (r : ℕ) : (st.copy r).cache = st.cache := rfl
@[simp] theorem copy_cfgs (st : FitState) (r : ℕ) : (st.copy r).cfgs = st.cfgs := rfl

/-- The new object is seen as the old one. -/
theorem view_copy_new (st : FitState) (r : ℕ) : (st.copy r).view st.next = st.view r := by
  simp only [view, copy, Function.update_self]

theorem objs_copy_new (st : FitState) (r : ℕ) : (st.copy r).objs st.next = st.objs r := by
  simp only [copy, Function.update_self]

theorem objs_copy_old (st : FitState) (r : ℕ) {q : ℕ} (h : q ≠ st.next) :
    (st.copy r).objs q = st.objs q := by
  simp only [copy, Function.update_of_ne h]

theorem view_copy_old (st : FitState) (r : ℕ) {q : ℕ} (h : q ≠ st.next) :
    (st.copy r).view q = st.view q := by
  simp only [view, objs_copy_old st r h, copy_cfgs]

theorem view_write_self (st : FitState) (r : ℕ) (s : Spectrum) :
    (st.write r s).view r = { s with data := s.data.norm } := by
  simp only [view, write, Function.update_self]

theorem objs_write_old (st : FitState) (r : ℕ) (s : Spectrum) {q : ℕ} (h : q ≠ r) :
    (st.write r s).objs q = st.objs q := by
  simp only [write, Function.update_of_ne h]

theorem cfg_write (st : FitState) (r : ℕ) (s : Spectrum) (q : ℕ) :
    ((st.write r s).objs q).cfg = (st.objs q).cfg := by
  by_cases h : q = r
  · subst h; simp only [write, Function.update_self]
  · rw [objs_write_old st r s h]

/-- Writing a spectrum leaves others with another configuration alone. -/
theorem view_write_old (st : FitState) (r : ℕ) (s : Spectrum) {q : ℕ} (h : q ≠ r)
    (hc : (st.objs q).cfg ≠ (st.objs r).cfg) : (st.write r s).view q = st.view q := by
  simp only [view, objs_write_old st r s h]
  simp only [write, Function.update_of_ne hc]

/-- Writing with unchanged axes leaves all configurations alone. -/
theorem write_cfgs_same (st : FitState) (r : ℕ) (s : Spectrum) (h : s.cfg = (st.view r).cfg) :
    (st.write r s).cfgs = st.cfgs := by
  simp only [write]
  rw [h]
  exact Function.update_eq_self _ _

theorem view_write_other (st : FitState) (r : ℕ) (s : Spectrum) (h : s.cfg = (st.view r).cfg)
    {q : ℕ} (hq : q ≠ r) : (st.write r s).view q = st.view q := by
  simp only [view, objs_write_old st r s hq, write_cfgs_same st r s h]

end FitState

end Verif
