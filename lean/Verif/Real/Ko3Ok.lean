import Verif.Real.Ko3
import Verif.Real.Nets

/-!
# Checks of the shipped sheet of `Verif.Real.Ko3`
-/

namespace Verif.Real

set_option maxRecDepth 100000

theorem ko3_sheet : netKoR.SheetOK netKoRSteps ko3Runs ko3 where
  sections := by decide +kernel
  numbers := by decide +kernel
  stock := by decide +kernel
  runs := by decide +kernel
  lines := by decide +kernel

end Verif.Real
