import Verif.Spec.FitLimit

/-! # Vocabulary of the properties about limits of fits without floating backgrounds -/

namespace Verif

/-- What a fit without floating backgrounds compares: the projections `a` of the data, `b` of the
fixed background and `s` of the signal as it is at the start, of the same shape. -/
structure ComparedProjections (w : Fitter) (r : ℕ) (a b s : NdArray ℚ) : Prop where
  data : ∃ d ps, w.ses.data = some d ∧ w.ses.dataPars = some ps ∧ (w.st.view d).ndProject ps = .ok a
  fixed : ∃ d ps, w.ses.fixed = some d ∧ w.ses.fixedPars = some ps ∧
    (w.st.view d).ndProject ps = .ok b
  signal : ∃ ps, w.ses.signalPars = some ps ∧ (w.st.view r).ndProject ps = .ok s
  shape : b.shape = a.shape ∧ s.shape = a.shape

end Verif
