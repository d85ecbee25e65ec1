import Verif.Real.Gt
import Verif.Real.Nets

/-!
# Checks of the shipped sheet of `Verif.Real.Gt`
-/

namespace Verif.Real

set_option maxRecDepth 100000

theorem gt_sheet : netGt.SheetOK netGtSteps gtRuns gt where
  sections := by decide +kernel
  numbers := by decide +kernel
  stock := by decide +kernel
  runs := by decide +kernel
  lines := by decide +kernel

end Verif.Real
