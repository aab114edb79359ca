import Verif.Spec.Outside

/-! # Vocabulary of the properties about fits with `single_bin` -/

namespace Verif

open Classical in
/-- The number of events of a spectrum in the region: the sum of the cells that are part of it. -/
noncomputable def regionTotal (roi : Dict (ℚ × ℚ)) (s : Spectrum) : ℚ :=
  sumIdx s.data.shape (fun idx => if InRegion roi s.cfg idx then s.data.get idx else 0)

/-- Two sets of objects that are the same but for axes and contents, with the same numbers of events in
the region in the spectra `qs`. -/
structure SameTotals (roi : Dict (ℚ × ℚ)) (qs : List ℕ) (st st' : FitState) : Prop extends
    SameObjects roi qs st st' where
  totals : ∀ q ∈ qs, regionTotal roi (st'.view q) = regionTotal roi (st.view q)

/-- The objects after calls of `rebin` with the numbers of bins `ns`, for every spectrum of the list in
order. -/
def FitState.afterRebinning (st : FitState) (ns l : List ℕ) : FitState :=
  l.foldl (fun st q => (FitM.call q (fun s => s.rebin ns) st).1) st

end Verif
