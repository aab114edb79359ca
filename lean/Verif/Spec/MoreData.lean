import Verif.Spec.LimitWhole
import Verif.Spec.Convex

/-! # Vocabulary of the properties about limits with more events -/

namespace Verif

/-- A limit on the signal `r` from a fit made with the arguments `a`, of data and fixed backgrounds, with
one test statistic for all bins. In the bins of the region `obs` events are observed, `bkg` are expected
from the fixed backgrounds, and `sig` for each decay of the signal. -/
structure FitArgs.Counts (a : FitArgs) (r d : ℕ) (ts : List Spectrum) (st : FitState)
    (obs bkg sig : List ℝ) : Prop where
  limitOn : a.LimitOn r d ts st
  fixed : a.fixed ≠ []
  floating : a.floating = []
  statPerBin : a.statPerBin = false
  contents : ∃ ns c, RoiNames (st.view d).cfg (inOrder a.roi) ns ∧
    (∀ q ∈ (a.withSignal r).kept ++ a.fixed.map Prod.fst,
      RegionContents (inOrder a.roi) ns (st.view q) (c q)) ∧
    obs = comparedContents a.singleBin (c d) ∧
    bkg = comparedContents a.singleBin (a.fixedTotal st c (c d).shape) ∧
    sig = (comparedContents a.singleBin (c r)).map (fun x => x / ((st.view r).numDecays : ℝ))

/-- Increasing scalings, none of them negative, none rounded, and none close to zero but zero itself. -/
structure PlainScales (rnd : ℝ → ℚ) (scales : List ℝ) : Prop where
  some : scales ≠ []
  increasing : scales.Pairwise (· < ·)
  nonneg : ∀ x ∈ scales, 0 ≤ x
  zero : ∀ x ∈ scales, npCloseReal x 0 → x = 0
  exact : ∀ x ∈ scales, ¬ npCloseReal x 0 → ((rnd x : ℚ) : ℝ) = x

end Verif
