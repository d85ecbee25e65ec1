import Verif.Tests.Cases
import Verif.Tests.Certs

/-!
# The first problems of the tests: the numbers and the proofs of the optima are right
-/

namespace Verif.SolverTests

theorem oneWay_code : oneWay.code = some (oneWayCode, oneWayGoals) := by decide +kernel
theorem oneWay_lower : oneWayCode.lowerOK oneWay.objective oneWayLower = true := by decide +kernel
theorem oneWay_point : oneWayCode.pointOK oneWay.objective oneWayPoint = true := by decide +kernel
theorem oneWay_trees : oneWayCode.goalsOK oneWay.objective oneWayGoals oneWayTrees = true := by
  decide +kernel

theorem deadlock_code : deadlock.code = some (deadlockCode, deadlockGoals) := by decide +kernel
theorem deadlock_lower : deadlockCode.lowerOK deadlock.objective deadlockLower = true := by decide +kernel
theorem deadlock_point : deadlockCode.pointOK deadlock.objective deadlockPoint = true := by decide +kernel
theorem deadlock_trees : deadlockCode.goalsOK deadlock.objective deadlockGoals deadlockTrees = true := by
  decide +kernel

theorem circulation_code : circulation.code = some (circulationCode, circulationGoals) := by decide +kernel
theorem circulation_lower : circulationCode.lowerOK circulation.objective circulationLower = true := by decide +kernel
theorem circulation_point : circulationCode.pointOK circulation.objective circulationPoint = true := by decide +kernel
theorem circulation_trees : circulationCode.goalsOK circulation.objective circulationGoals circulationTrees = true := by
  decide +kernel

theorem stationTrack_code : stationTrack.code = some (stationTrackCode, stationTrackGoals) := by decide +kernel
theorem stationTrack_lower : stationTrackCode.lowerOK stationTrack.objective stationTrackLower = true := by decide +kernel
theorem stationTrack_point : stationTrackCode.pointOK stationTrack.objective stationTrackPoint = true := by decide +kernel
theorem stationTrack_trees : stationTrackCode.goalsOK stationTrack.objective stationTrackGoals stationTrackTrees = true := by
  decide +kernel

theorem mpSwitches_code : mpSwitches.code = some (mpSwitchesCode, mpSwitchesGoals) := by decide +kernel
theorem mpSwitches_lower : mpSwitchesCode.lowerOK mpSwitches.objective mpSwitchesLower = true := by decide +kernel
theorem mpSwitches_point : mpSwitchesCode.pointOK mpSwitches.objective mpSwitchesPoint = true := by decide +kernel
theorem mpSwitches_trees : mpSwitchesCode.goalsOK mpSwitches.objective mpSwitchesGoals mpSwitchesTrees = true := by
  decide +kernel

theorem mpNoStation_code : mpNoStation.code = some (mpNoStationCode, mpNoStationGoals) := by decide +kernel
theorem mpNoStation_lower : mpNoStationCode.lowerOK mpNoStation.objective mpNoStationLower = true := by decide +kernel
theorem mpNoStation_point : mpNoStationCode.pointOK mpNoStation.objective mpNoStationPoint = true := by decide +kernel
theorem mpNoStation_trees : mpNoStationCode.goalsOK mpNoStation.objective mpNoStationGoals mpNoStationTrees = true := by
  decide +kernel

theorem threeTrains_code : threeTrains.code = some (threeTrainsCode, threeTrainsGoals) := by decide +kernel
theorem threeTrains_lower : threeTrainsCode.lowerOK threeTrains.objective threeTrainsLower = true := by decide +kernel
theorem threeTrains_point : threeTrainsCode.pointOK threeTrains.objective threeTrainsPoint = true := by decide +kernel
theorem threeTrains_trees : threeTrainsCode.goalsOK threeTrains.objective threeTrainsGoals threeTrainsTrees = true := by
  decide +kernel

theorem trackCirc_code : trackCirc.code = some (trackCircCode, trackCircGoals) := by decide +kernel
theorem trackCirc_lower : trackCircCode.lowerOK trackCirc.objective trackCircLower = true := by decide +kernel
theorem trackCirc_point : trackCircCode.pointOK trackCirc.objective trackCircPoint = true := by decide +kernel
theorem trackCirc_other : trackCircCode.pointOK trackCirc.objective trackCircOther = true := by decide +kernel
theorem trackCirc_rest :
    (trackCirc.without [] [(.int 2, .str "B")]).code =
      some (trackCircCode, trackCircSettled) := by decide +kernel
theorem trackCirc_trees : trackCircCode.goalsOK trackCirc.objective trackCircSettled trackCircTrees = true := by
  decide +kernel

theorem trackCirc2_code : trackCirc2.code = some (trackCirc2Code, trackCirc2Goals) := by decide +kernel
theorem trackCirc2_lower : trackCirc2Code.lowerOK trackCirc2.objective trackCirc2Lower = true := by decide +kernel
theorem trackCirc2_point : trackCirc2Code.pointOK trackCirc2.objective trackCirc2Point = true := by decide +kernel
theorem trackCirc2_trees : trackCirc2Code.goalsOK trackCirc2.objective trackCirc2Goals trackCirc2Trees = true := by
  decide +kernel

end Verif.SolverTests
