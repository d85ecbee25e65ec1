import Verif.Real.OneGt
import Verif.Real.Nets

/-!
# Checks of the shipped sheet of `Verif.Real.OneGt`
-/

namespace Verif.Real

set_option maxRecDepth 100000

theorem onegt_sheet : netGt.SheetOK netGtSteps onegtRuns onegt where
  sections := by decide +kernel
  numbers := by decide +kernel
  stock := by decide +kernel
  runs := by decide +kernel
  lines := by decide +kernel

end Verif.Real
