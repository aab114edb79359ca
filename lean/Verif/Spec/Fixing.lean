import Verif.Spec.LimitWhole

/-! # Vocabulary of the properties about fixing a floating background -/

namespace Verif

/-- `b` are the arguments `a` with one floating background, the spectrum `q` between `l₁` and `l₂`, given
as a fixed background with `v` decays instead, somewhere among the fixed ones. -/
structure FitArgs.Fixing (a b : FitArgs) (l₁ : List ℕ) (q : ℕ) (l₂ : List ℕ) (v : ℚ) : Prop where
  floating : a.floating = l₁ ++ q :: l₂
  fixed : b.fixed.Perm ((q, v) :: a.fixed)
  rest : b = { a with floating := l₁ ++ l₂, fixed := b.fixed }

/-- The penalty of the rate of the floating background `q` at the value `x`: nothing if the rate has no
sigma. -/
noncomputable def FitArgs.ratePenalty (a : FitArgs) (st : FitState) (q : ℕ) (x : ℝ) : ℝ :=
  (((st.objs q).fit.getD []).map (fun p => match (st.params p).sigma with
    | none => 0
    | some sigma => pull a.stat x (st.params p).prior sigma)).sum

end Verif
