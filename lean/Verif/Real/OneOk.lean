import Verif.Real.One
import Verif.Real.Nets

/-!
# Checks of the shipped sheet of `Verif.Real.One`
-/

namespace Verif.Real

set_option maxRecDepth 100000

theorem one_sheet : net.SheetOK netSteps oneRuns one where
  sections := by decide +kernel
  numbers := by decide +kernel
  stock := by decide +kernel
  runs := by decide +kernel
  lines := by decide +kernel

end Verif.Real
