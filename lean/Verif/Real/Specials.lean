import Verif.Real.Net
import Verif.Proofs.CodedPlan

/-!
# What is special about the names of the shipped networks
-/

namespace Verif.Real

set_option maxRecDepth 100000

/-- for `net` -/
def netSpecial : CodedNet.Special := ⟨[3, 4], [61, 62, 63], [2], [1], [(2, 0), (5, 7)],
  [(0, 0), (1, 1), (1, 2), (1, 3), (1, 4), (2, 2), (3, 3), (4, 4), (5, 5), (6, 6), (7, 7), (8, 8),
    (9, 9), (10, 10), (11, 11)]⟩

/-- for `netGt` -/
def netGtSpecial : CodedNet.Special := ⟨[3, 4], [61, 62, 63], [2], [1], [(2, 0), (5, 7)],
  [(0, 0), (1, 1), (1, 2), (1, 3), (1, 4), (2, 2), (3, 3), (4, 4), (5, 5), (6, 6), (7, 7), (8, 8),
    (9, 9), (10, 10), (11, 11), (12, 12)]⟩

/-- for `netKo` -/
def netKoSpecial : CodedNet.Special := ⟨[], [61, 62, 63], [], [0], [], [(0, 0), (1, 1), (2, 2)]⟩

/-- for `netKoR` -/
def netKoRSpecial : CodedNet.Special :=
  ⟨[], [61, 62, 63], [], [0], [], [(0, 0), (1, 1), (1, 2), (2, 2), (3, 3), (4, 4)]⟩

theorem netSpecial_ok : net.SpecialOK netSpecial where
  quiet := by decide +kernel
  leftOut := by decide +kernel
  stm := by decide +kernel
  ko := by decide +kernel
  k1 := by decide +kernel
  within := by decide +kernel

theorem netGtSpecial_ok : netGt.SpecialOK netGtSpecial where
  quiet := by decide +kernel
  leftOut := by decide +kernel
  stm := by decide +kernel
  ko := by decide +kernel
  k1 := by decide +kernel
  within := by decide +kernel

theorem netKoSpecial_ok : netKo.SpecialOK netKoSpecial where
  quiet := by decide +kernel
  leftOut := by decide +kernel
  stm := by decide +kernel
  ko := by decide +kernel
  k1 := by decide +kernel
  within := by decide +kernel

theorem netKoRSpecial_ok : netKoR.SpecialOK netKoRSpecial where
  quiet := by decide +kernel
  leftOut := by decide +kernel
  stm := by decide +kernel
  ko := by decide +kernel
  k1 := by decide +kernel
  within := by decide +kernel

end Verif.Real
