import Verif.Real.Ko2
import Verif.Real.Nets

/-!
# Checks of the shipped sheet of `Verif.Real.Ko2`
-/

namespace Verif.Real

set_option maxRecDepth 100000

theorem ko2_sheet : netKoR.SheetOK netKoRSteps ko2Runs ko2 where
  sections := by decide +kernel
  numbers := by decide +kernel
  stock := by decide +kernel
  runs := by decide +kernel
  lines := by decide +kernel

end Verif.Real
