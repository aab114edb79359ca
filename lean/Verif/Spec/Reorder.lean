import Verif.Spec.FitGrid

/-! # Vocabulary of the property about the order of backgrounds and parameters -/

namespace Verif

/-- `f'` is the fit `f` with its floating backgrounds and its parameters in another order. -/
structure Reordered (f f' : Fit) : Prop where
  same : f' = { f with floating := f'.floating, pars := f'.pars }
  floating : ∃ fl fl', f.floating = some fl ∧ f'.floating = some fl' ∧ fl'.Perm fl
  pars : f'.pars.Perm f.pars

/-- `a'` gives to each parameter of `f'` what `a` gives to it as a parameter of `f`. -/
structure SameValues {α : Type} (f f' : Fit) (a a' : List α) : Prop where
  length : a.length = f.pars.length
  length' : a'.length = f'.pars.length
  values : (f'.pars.zip a').Perm (f.pars.zip a)

end Verif
