import Verif.Spec.Freedom

/-! # Vocabulary of the properties about the choice of the test statistic -/

namespace Verif

/-- The arguments of a fit with another test statistic. -/
def FitArgs.withStat (a : FitArgs) (s : Stat) : FitArgs := { a with stat := s }

end Verif
