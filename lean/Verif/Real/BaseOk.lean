import Verif.Real.Base
import Verif.Real.Nets

/-!
# Checks of the shipped sheet of `Verif.Real.Base`
-/

namespace Verif.Real

set_option maxRecDepth 100000

theorem base_sheet : net.SheetOK netSteps baseRuns base where
  sections := by decide +kernel
  numbers := by decide +kernel
  stock := by decide +kernel
  runs := by decide +kernel
  lines := by decide +kernel

end Verif.Real
