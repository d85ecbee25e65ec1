import Verif.Real.Steps

/-!
# Checks of the shipped network
-/

namespace Verif.Real

set_option maxRecDepth 100000

theorem names_ok : BlockNames names :=
  blockNames_of_chars (chars := chars) rfl (by decide +kernel) (by decide +kernel)

theorem net_ok : net.NetOK netSteps where
  names := names_ok
  blocks := by decide +kernel
  stations := by decide +kernel
  texts := by decide +kernel
  good := by decide +kernel

theorem netGt_ok : netGt.NetOK netGtSteps where
  names := names_ok
  blocks := by decide +kernel
  stations := by decide +kernel
  texts := by decide +kernel
  good := by decide +kernel

theorem netKo_ok : netKo.NetOK netKoSteps where
  names := names_ok
  blocks := by decide +kernel
  stations := by decide +kernel
  texts := by decide +kernel
  good := by decide +kernel

theorem netKoR_ok : netKoR.NetOK netKoRSteps where
  names := names_ok
  blocks := by decide +kernel
  stations := by decide +kernel
  texts := by decide +kernel
  good := by decide +kernel

end Verif.Real
