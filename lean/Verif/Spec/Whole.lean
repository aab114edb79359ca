import Verif.Model.Whole

/-! # C142, C143: vocabulary -/

namespace Verif

/-- Written as a float. -/
def PyNum.IsFloat : PyNum → Prop
  | .float _ => True
  | .int _ => False

end Verif
