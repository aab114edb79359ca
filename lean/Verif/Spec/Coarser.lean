import Verif.Spec.MoreData
import Verif.Spec.Merge

/-! # Vocabulary of the properties about limits with coarser bins -/

namespace Verif

/-- The same arguments, with `single_bin`. -/
def FitArgs.inOneBin (a : FitArgs) : FitArgs := { a with singleBin := true }

end Verif
