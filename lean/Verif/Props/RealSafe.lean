import Verif.Props.RealData
import Verif.Real.Ends

/-!
# C67: plans for the shipped data

C66 applied to the shipped sheets, and what it leaves out there.
-/

namespace Verif.Real

set_option maxRecDepth 100000

theorem table_pairs : CodedNet.pairsOK table = true := by decide +kernel

theorem table_times : ∀ x ∈ table, (CodedNet.timeOK x.2.2.rAB && CodedNet.timeOK x.2.2.rBA &&
    CodedNet.timeOK x.2.2.icAB && CodedNet.timeOK x.2.2.icBA) = true := by decide +kernel

theorem base_ends : net.EndsOK baseEnds base where
  runs := by decide +kernel
  opposite := by decide +kernel

theorem gt_ends : netGt.EndsOK gtEnds gt where
  runs := by decide +kernel
  opposite := by decide +kernel

theorem one_ends : net.EndsOK oneEnds one where
  runs := by decide +kernel
  opposite := by decide +kernel

theorem onegt_ends : netGt.EndsOK onegtEnds onegt where
  runs := by decide +kernel
  opposite := by decide +kernel

theorem ko1_ends : netKo.EndsOK ko1Ends ko1 where
  runs := by decide +kernel
  opposite := by decide +kernel

theorem ko2_ends : netKoR.EndsOK ko2Ends ko2 where
  runs := by decide +kernel
  opposite := by decide +kernel

theorem ko3_ends : netKoR.EndsOK ko3Ends ko3 where
  runs := by decide +kernel
  opposite := by decide +kernel


theorem tableOK {N : CodedNet} (h : N.table = table) : N.TableOK where
  pairs := h ▸ table_pairs
  times := h ▸ table_times

/-- every feasible plan of the problem has the guarantees -/
def PlansSafe (td : Trains) (st : Stations) (table : List PathRow) (t1 : String) : Prop :=
  ∀ r delays dmax cat ts tt b σ, makeInput td st table t1 r delays = .ok (ts, tt) →
    buildProblem ts tt dmax cat = .ok b → Feasible b σ →
    SafePlan td st table t1 r delays (Departs ts tt b.dv σ)

/-- read as a good and safe sheet with the sections `cs` -/
def ReadSafe (d : Shipped) (cs : List CodedSection) : Prop :=
  ReadAs d cs ∧ SafeSheet (cs.map d.net.sec) d.net.stationTable d.net.pathTable

theorem shipped_safe : List.Forall₂ ReadSafe shipped kept :=
  .cons ⟨read_base, CodedNet.safeSheet_of_checks net_ok (tableOK rfl) base_ends⟩ <|
  .cons ⟨read_gt, CodedNet.safeSheet_of_checks netGt_ok (tableOK rfl) gt_ends⟩ <|
  .cons ⟨read_one, CodedNet.safeSheet_of_checks net_ok (tableOK rfl) one_ends⟩ <|
  .cons ⟨read_onegt, CodedNet.safeSheet_of_checks netGt_ok (tableOK rfl) onegt_ends⟩ <|
  .cons ⟨read_ko1, CodedNet.safeSheet_of_checks netKo_ok (tableOK rfl) ko1_ends⟩ <|
  .cons ⟨read_ko2, CodedNet.safeSheet_of_checks netKoR_ok (tableOK rfl) ko2_ends⟩ <|
  .cons ⟨read_ko3, CodedNet.safeSheet_of_checks netKoR_ok (tableOK rfl) ko3_ends⟩ .nil

theorem ReadSafe.plans {d : Shipped} {cs : List CodedSection} (h : ReadSafe d cs) :
    ∃ td, buildTimetables d.sheet d.net.stationTable d.net.pathTable = .ok td ∧
      LoadedFrom (cs.map d.net.sec) d.net.stationTable td ∧
      PlansSafe td d.net.stationTable d.net.pathTable d.start :=
  C66_data h.1.1 h.2 h.1.2

/-- **C67.** Each of the seven shipped sheets is read, and whatever the delays, the rounding, the
category of the variables and `d_max`, every feasible plan has the guarantees of `SafePlan`. -/
theorem C67_shipped : ∀ d ∈ shipped,
    ∃ td, buildTimetables d.sheet d.net.stationTable d.net.pathTable = .ok td ∧
      PlansSafe td d.net.stationTable d.net.pathTable d.start := by
  intro d hd
  obtain ⟨cs, -, h⟩ := forall₂_left shipped_safe hd
  obtain ⟨td, h1, -, h2⟩ := h.plans
  exact ⟨td, h1, h2⟩

end Verif.Real
