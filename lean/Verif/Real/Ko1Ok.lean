import Verif.Real.Ko1
import Verif.Real.Nets

/-!
# Checks of the shipped sheet of `Verif.Real.Ko1`
-/

namespace Verif.Real

set_option maxRecDepth 100000

theorem ko1_sheet : netKo.SheetOK netKoSteps ko1Runs ko1 where
  sections := by decide +kernel
  numbers := by decide +kernel
  stock := by decide +kernel
  runs := by decide +kernel
  lines := by decide +kernel

end Verif.Real
