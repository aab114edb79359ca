import Verif.Spec.Sensitivity
import Verif.Spec.LimitWhole

/-! # Vocabulary of the properties about expected limits with floating backgrounds -/

namespace Verif

/-- The suppositions of C152 for expected limits: fit, sensitivity study, and limit on the signal `r` can be made from the arguments `a`
in the state `st`; `search` has the values `vss`, among which are the priors of the rates; the data hold nothing
in the region; the region holds the background `B u` at the rates `u`, and the signal `sig` for each decay. -/
structure FitArgs.Expects (a : FitArgs) (env : FitEnv) (keyOf : ℕ → PyStr) (rnd : ℝ → ℚ)
    (rateOf : ℕ → Option ℕ) (par : ℕ → ℕ) (r d : ℕ) (ts : List Spectrum) (st : FitState) (search : GridSearch)
    (vss : List (List ℝ)) (B : List ℝ → List ℝ) (sig : List ℝ) : Prop where
  limit : a.LimitOn r d ts st
  evaluable : (a.withSignal r).Evaluable env keyOf d st
  own : a.OwnRates st
  fixed : a.fixed ≠ []
  rates : ∀ q ∈ a.floating, (st.objs q).fit = some [par q] ∧ rateOf q = some (par q)
  grid : RateSearch rnd search vss a.floating.length
  same : List.Forall₂ (fun p (q : FitPar) => q.prior = (st.params p).prior ∧
    q.sigma = (st.params p).sigma) (a.parameters st) search.pars
  exact : ∀ vs ∈ vss, ∀ x ∈ vs, ((rnd x : ℚ) : ℝ) = x
  stat : a.stat ≠ .extLL
  prior : Combination vss (a.floating.map (fun q => (st.params (par q)).prior))
  contents : ∃ (ns : List PyStr) (c : ℕ → NdArray ℚ), RoiNames (st.view d).cfg (inOrder a.roi) ns ∧
    (∀ q ∈ (a.withSignal r).kept ++ a.fixed.map Prod.fst, RegionContents (inOrder a.roi) ns (st.view q) (c q)) ∧
    (∀ idx, InB (c d).shape idx → (c d).get idx = 0) ∧
    (∀ u, B u = comparedContents a.singleBin (a.backgroundAt st c (c d).shape (u.map rnd))) ∧
    sig = (comparedContents a.singleBin (c r)).map (fun s => s / ((st.view r).numDecays : ℝ))

/-- Parameter `p'` has `k` times the prior of `p`, and a sigma that is at most `k` times that of `p`, if this has
one. -/
def Param.Times (k : ℝ) (p p' : Param) : Prop :=
  p'.prior = k * p.prior ∧ (p.sigma = none ∨
    ∃ s s', p.sigma = some s ∧ p'.sigma = some s' ∧ 0 < s' ∧ s' ≤ k * s)

end Verif
