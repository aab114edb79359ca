import Verif.Spec.MoreData

/-! # Vocabulary of the properties about limits with fixed and with floating backgrounds -/

namespace Verif

/-- `b` are the arguments `a` with all floating backgrounds given as fixed ones with the `rates` as numbers
of decays, somewhere among the fixed ones. -/
structure FitArgs.FixingAll (a b : FitArgs) (rates : List ℚ) : Prop where
  fixed : b.fixed.Perm (a.floating.zip rates ++ a.fixed)
  rest : b = { a with floating := [], fixed := b.fixed }

end Verif
