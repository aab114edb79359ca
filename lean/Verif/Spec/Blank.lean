import Verif.Spec.Fixing
import Verif.Spec.Outside

/-! # Vocabulary of the properties about spectra that hold nothing in the region of a fit -/

namespace Verif

/-- The spectrum holds nothing in the region: the cells that are part of it hold zero. -/
def BlankInside (roi : Dict (ℚ × ℚ)) (s : Spectrum) : Prop :=
  ∀ idx, InB s.data.shape idx → InRegion roi s.cfg idx → s.data.get idx = 0

/-- `b` are the arguments `a` without one floating background, the spectrum `q` between `l₁` and `l₂`. -/
structure FitArgs.Without (a b : FitArgs) (l₁ : List ℕ) (q : ℕ) (l₂ : List ℕ) : Prop where
  floating : a.floating = l₁ ++ q :: l₂
  rest : b = { a with floating := l₁ ++ l₂ }

/-- `b` are the arguments `a` without one fixed background, the spectrum `q` with `v` decays. -/
structure FitArgs.WithoutFixed (a b : FitArgs) (q : ℕ) (v : ℚ) : Prop where
  fixed : a.fixed.Perm ((q, v) :: b.fixed)
  rest : b = { a with fixed := b.fixed }

/-- `x` is the first of the values at which `P` is smallest. -/
def FirstSmallest (vs : List ℝ) (P : ℝ → ℝ) (x : ℝ) : Prop :=
  ∃ i : ℕ, vs[i]? = some x ∧ ∀ (j : ℕ) y, vs[j]? = some y → P x ≤ P y ∧ (P y = P x → i ≤ j)

end Verif
