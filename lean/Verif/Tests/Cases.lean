import Verif.Proofs.TestCase

/-!
# The tests of `railway_solvers/test/test_linear_solver.py` and `test_linear_solver_large.py`

Inputs and assertions of the tests that solve a problem. Decimal fractions are written as exact
rationals, and `pytest.approx` as equality.
-/

namespace Verif.SolverTests

/-- trains of `test_minimal_span_two_trains`, `railway_solvers/test/test_linear_solver.py`, lines 44-74, input `railway_solvers/test/inputs4QUBO/two_trains_going_one_way_simplest.py` -/
def oneWaySets : TrainSets where
  skipStation := .none
  paths := [(.int 0, [.str "A", .str "B"]), (.int 1, [.str "A", .str "B"])]
  J := [.int 0, .int 1]
  Jd := [(.str "A", [(.str "B", [[.int 0, .int 1]])])]
  Josingle := []
  Jround := []
  Jtrack := []
  Jswitch := []
  addSwithes := .none

/-- times of `test_minimal_span_two_trains` -/
def oneWayTimes : Timetable where
  tauPass := [("0_A_B", 4), ("1_A_B", 8)]
  tauHeadway := [("0_1_A_B", 2), ("1_0_A_B", 6)]
  tauStop := [("0_B", 1), ("1_B", 1)]
  tauPrep := []
  tauRes := some 1
  schedule := .none
  initialConditions := [("0_A", 3), ("1_A", 1)]
  penaltyWeights := [("0_A", 2), ("1_A", 1/2)]

/-- `test_minimal_span_two_trains`, lines 44-74 of `test_linear_solver.py` -/
def oneWay : Case where
  ts := oneWaySets
  tt := oneWayTimes
  dmax := 10
  cat := .integer
  objective := 1/5
  names := [(0, "Delays_0_A"), (2, "Delays_1_A"), (4, "y_0_1_one_station_A")]
  values := [(0, 0), (2, 4), (4, 1)]
  times := [((.int 1, .str "A"), 4, 5, 1)]
  impacts := [((.int 1, .str "A"), 5, 2/5)]

/-- trains of `test_deadlock_and_switches_two_trains`, `railway_solvers/test/test_linear_solver.py`, lines 77-122 -/
def deadlockSets : TrainSets where
  skipStation := .none
  paths := [(.int 0, [.str "A", .str "B"]), (.int 1, [.str "B", .str "A"])]
  J := [.int 0, .int 1]
  Jd := []
  Josingle := [((.str "A", .str "B"), [(.int 0, .int 1)])]
  Jround := []
  Jtrack := []
  Jswitch := [(.str "A", [[(.int 0, "out"), (.int 1, "in")]]), (.str "B", [[(.int 0, "in"), (.int 1,
    "out")]])]
  addSwithes := .none

/-- times of `test_deadlock_and_switches_two_trains` -/
def deadlockTimes : Timetable where
  tauPass := [("0_A_B", 4), ("1_B_A", 8)]
  tauHeadway := []
  tauStop := [("0_B", 1), ("1_A", 1)]
  tauPrep := []
  tauRes := some 1
  schedule := .none
  initialConditions := [("0_A", 3), ("1_B", 1)]
  penaltyWeights := [("0_A", 2), ("1_B", 1/2)]

/-- `test_deadlock_and_switches_two_trains`, lines 77-122 of `test_linear_solver.py` -/
def deadlock : Case where
  ts := deadlockSets
  tt := deadlockTimes
  dmax := 10
  cat := .integer
  objective := 7/20
  names := [(0, "Delays_0_A"), (3, "Delays_1_B"), (4, "z_0_1_A_B")]
  values := [(0, 0), (3, 7), (4, 1)]
  times := []
  impacts := []

/-- trains of `test_rolling_stock_circulation`, `railway_solvers/test/test_linear_solver.py`, lines 126-147, input `railway_solvers/test/inputs4QUBO/rolling_stock_circulation.py` -/
def circulationSets : TrainSets where
  skipStation := .none
  paths := [(.int 0, [.str "A", .str "B"]), (.int 1, [.str "B", .str "A"])]
  J := [.int 0, .int 1]
  Jd := []
  Josingle := []
  Jround := [(.str "B", [(.int 0, .int 1)])]
  Jtrack := []
  Jswitch := []
  addSwithes := .none

/-- times of `test_rolling_stock_circulation` -/
def circulationTimes : Timetable where
  tauPass := [("0_A_B", 4), ("1_B_A", 8)]
  tauHeadway := []
  tauStop := [("1_A", 0), ("0_B", 0)]
  tauPrep := [("1_B", 2)]
  tauRes := .none
  schedule := .none
  initialConditions := [("0_A", 3), ("1_B", 1)]
  penaltyWeights := [("0_A", 2), ("1_B", 1/2)]

/-- `test_rolling_stock_circulation`, lines 126-147 of `test_linear_solver.py` -/
def circulation : Case where
  ts := circulationSets
  tt := circulationTimes
  dmax := 10
  cat := .integer
  objective := 2/5
  names := [(0, "Delays_0_A"), (2, "Delays_1_B")]
  values := [(0, 0), (2, 8)]
  times := []
  impacts := []

/-- trains of `test_station_track_and_switches_two_trains`, `railway_solvers/test/test_linear_solver.py`, lines 151-199 -/
def stationTrackSets : TrainSets where
  skipStation := .none
  paths := [(.int 0, [.str "A", .str "B"]), (.int 1, [.str "A", .str "B"])]
  J := [.int 0, .int 1]
  Jd := []
  Josingle := []
  Jround := []
  Jtrack := [(.str "B", [[.int 0, .int 1]])]
  Jswitch := []
  addSwithes := some [.str "B"]

/-- times of `test_station_track_and_switches_two_trains` -/
def stationTrackTimes : Timetable where
  tauPass := [("0_A_B", 4), ("1_A_B", 4)]
  tauHeadway := []
  tauStop := [("0_B", 1), ("1_B", 1)]
  tauPrep := []
  tauRes := some 2
  schedule := .none
  initialConditions := [("0_A", 1), ("1_A", 1)]
  penaltyWeights := [("0_A", 2), ("1_A", 1/2)]

/-- `test_station_track_and_switches_two_trains`, lines 151-199 of `test_linear_solver.py` -/
def stationTrack : Case where
  ts := stationTrackSets
  tt := stationTrackTimes
  dmax := 5
  cat := .integer
  objective := 3/10
  names := [(0, "Delays_0_A"), (2, "Delays_1_A"), (4, "y_0_1_one_station_B")]
  values := [(0, 0), (2, 3), (4, 1)]
  times := []
  impacts := []

/-- trains of `test_M_P_with_switches_two_trains`, `railway_solvers/test/test_linear_solver.py`, lines 203-262 -/
def mpSwitchesSets : TrainSets where
  skipStation := .none
  paths := [(.int 0, [.str "A", .str "B"]), (.int 1, [.str "A", .str "B"])]
  J := [.int 0, .int 1]
  Jd := [(.str "A", [(.str "B", [[.int 0], [.int 1]])])]
  Josingle := []
  Jround := []
  Jtrack := [(.str "A", [[.int 0, .int 1]]), (.str "B", [[.int 0, .int 1]])]
  Jswitch := [(.str "A", [[(.int 0, "out"), (.int 1, "out")]]), (.str "B", [[(.int 0, "in"), (.int 1,
    "in")]])]
  addSwithes := .none

/-- times of `test_M_P_with_switches_two_trains` -/
def mpSwitchesTimes : Timetable where
  tauPass := [("0_A_B", 6), ("1_A_B", 2)]
  tauHeadway := []
  tauStop := [("0_B", 1), ("1_B", 1)]
  tauPrep := []
  tauRes := some 2
  schedule := .none
  initialConditions := [("0_A", 1), ("1_A", 5)]
  penaltyWeights := [("0_B", 1), ("1_B", 2)]

/-- `test_M_P_with_switches_two_trains`, lines 203-262 of `test_linear_solver.py` -/
def mpSwitches : Case where
  ts := mpSwitchesSets
  tt := mpSwitchesTimes
  dmax := 5
  cat := .integer
  objective := 2/5
  names := [(0, "Delays_0_A"), (1, "Delays_0_B"), (2, "Delays_1_A"), (3, "Delays_1_B"), (4,
    "y_0_1_one_station_A"), (5, "y_0_1_one_station_B"), (6, "z_in_0_1_B")]
  values := [(0, 2), (1, 2), (2, 0), (3, 0), (4, 1), (5, 0), (6, 0)]
  times := []
  impacts := []

/-- trains of `test_M_P_with_switches_two_trains_no_station`, `railway_solvers/test/test_linear_solver.py`, lines 266-311, input `railway_solvers/test/inputs4QUBO/mo_on_the_line.py` -/
def mpNoStationSets : TrainSets where
  skipStation := .none
  paths := [(.int 0, [.str "A", .str "B"]), (.int 1, [.str "A", .str "B"])]
  J := [.int 0, .int 1]
  Jd := [(.str "A", [(.str "B", [[.int 0], [.int 1]])])]
  Josingle := []
  Jround := []
  Jtrack := [(.str "A", [[.int 0, .int 1]])]
  Jswitch := [(.str "A", [[(.int 0, "out"), (.int 1, "out")]]), (.str "B", [[(.int 0, "in"), (.int 1,
    "in")]])]
  addSwithes := .none

/-- times of `test_M_P_with_switches_two_trains_no_station` -/
def mpNoStationTimes : Timetable where
  tauPass := [("0_A_B", 6), ("1_A_B", 2)]
  tauHeadway := []
  tauStop := [("0_B", 1), ("1_B", 1)]
  tauPrep := []
  tauRes := some 1
  schedule := .none
  initialConditions := [("0_A", 1), ("1_A", 5)]
  penaltyWeights := [("0_B", 1), ("1_B", 2)]

/-- `test_M_P_with_switches_two_trains_no_station`, lines 266-311 of `test_linear_solver.py` -/
def mpNoStation : Case where
  ts := mpNoStationSets
  tt := mpNoStationTimes
  dmax := 5
  cat := .integer
  objective := 1/5
  names := [(0, "Delays_0_A"), (1, "Delays_0_B"), (2, "Delays_1_A"), (3, "Delays_1_B"), (4,
    "y_0_1_one_station_A"), (5, "z_in_0_1_B")]
  values := [(0, 1), (1, 1), (2, 0), (3, 0), (4, 1), (5, 0)]
  times := []
  impacts := []

/-- trains of `test_swithes_three_trains`, `railway_solvers/test/test_linear_solver.py`, lines 315-373 -/
def threeTrainsSets : TrainSets where
  skipStation := .none
  paths := [(.int 0, [.str "A", .str "B"]), (.int 1, [.str "C", .str "B"])]
  J := [.int 0, .int 1]
  Jd := [(.str "A", [(.str "B", [[.int 0]])]), (.str "C", [(.str "B", [[.int 1]])])]
  Josingle := []
  Jround := []
  Jtrack := [(.str "B", [[.int 0, .int 1]])]
  Jswitch := [(.str "B", [[(.int 0, "in"), (.int 1, "in")]])]
  addSwithes := .none

/-- times of `test_swithes_three_trains` -/
def threeTrainsTimes : Timetable where
  tauPass := [("0_A_B", 4), ("1_C_B", 4)]
  tauHeadway := []
  tauStop := [("0_B", 1), ("1_B", 1)]
  tauPrep := []
  tauRes := some 2
  schedule := .none
  initialConditions := [("0_A", 1), ("1_C", 1)]
  penaltyWeights := [("0_B", 1), ("1_B", 2)]

/-- `test_swithes_three_trains`, lines 315-373 of `test_linear_solver.py` -/
def threeTrains : Case where
  ts := threeTrainsSets
  tt := threeTrainsTimes
  dmax := 5
  cat := .integer
  objective := 2/5
  names := [(0, "Delays_0_A"), (1, "Delays_0_B"), (2, "Delays_1_B"), (3, "Delays_1_C"), (4,
    "y_0_1_one_station_B"), (5, "z_in_0_1_B")]
  values := [(0, 2), (1, 2), (2, 0), (3, 0), (4, 0), (5, 0)]
  times := []
  impacts := []

/-- trains of `test_station_track_and_circulation`, `railway_solvers/test/test_linear_solver.py`, lines 376-434 -/
def trackCircSets : TrainSets where
  skipStation := .none
  paths := [(.int 0, [.str "A", .str "B"]), (.int 1, [.str "B", .str "A"]), (.int 2, [.str "A",
    .str "B"])]
  J := [.int 0, .int 1, .int 2]
  Jd := [(.str "A", [(.str "B", [[.int 0, .int 2]])]), (.str "B", [(.str "A", [[.int 1]])])]
  Josingle := []
  Jround := [(.str "B", [(.int 0, .int 1)])]
  Jtrack := [(.str "B", [[.int 0, .int 1, .int 2]])]
  Jswitch := []
  addSwithes := .none

/-- times of `test_station_track_and_circulation` -/
def trackCircTimes : Timetable where
  tauPass := [("0_A_B", 4), ("1_B_A", 4), ("2_A_B", 4)]
  tauHeadway := [("0_2_A_B", 2), ("2_0_A_B", 2)]
  tauStop := [("0_B", 0), ("1_A", 1), ("2_B", 1)]
  tauPrep := [("1_B", 5)]
  tauRes := some 1
  schedule := .none
  initialConditions := [("0_A", 1), ("1_B", 2), ("2_A", 2)]
  penaltyWeights := [("0_A", 2), ("1_B", 1/2), ("2_A", 1)]

/-- `test_station_track_and_circulation`, lines 376-434 of `test_linear_solver.py` -/
def trackCirc : Case where
  ts := trackCircSets
  tt := trackCircTimes
  dmax := 10
  cat := .integer
  objective := 4/5
  names := [(5, "y_0_2_one_station_A"), (6, "y_0_2_one_station_B"), (7, "y_1_2_one_station_B")]
  values := [(5, 1), (6, 1), (7, 1)]
  times := [((.int 0, .str "A"), 0, 1, 1), ((.int 1, .str "B"), 8, 10, 2), ((.int 2, .str "A"), 4, 6, 2),
    ((.int 2, .str "B"), 4, 11, 7)]
  impacts := []

/-- trains of `test_station_track_and_circulation2`, `railway_solvers/test/test_linear_solver.py`, lines 438-481, input `railway_solvers/test/inputs4QUBO/station_track_and_circ.py` -/
def trackCirc2Sets : TrainSets where
  skipStation := .none
  paths := [(.int 0, [.str "A", .str "B"]), (.int 1, [.str "B", .str "A"]), (.int 2, [.str "A",
    .str "B"])]
  J := [.int 0, .int 1, .int 2]
  Jd := [(.str "A", [(.str "B", [[.int 0, .int 2]])]), (.str "B", [(.str "A", [[.int 1]])])]
  Josingle := []
  Jround := [(.str "B", [(.int 0, .int 1)])]
  Jtrack := [(.str "B", [[.int 0, .int 1, .int 2]])]
  Jswitch := []
  addSwithes := .none

/-- times of `test_station_track_and_circulation2` -/
def trackCirc2Times : Timetable where
  tauPass := [("0_A_B", 4), ("1_B_A", 4), ("2_A_B", 4)]
  tauHeadway := [("0_2_A_B", 2), ("2_0_A_B", 2)]
  tauStop := [("0_B", 0), ("1_A", 1), ("2_B", 1)]
  tauPrep := [("1_B", 10)]
  tauRes := some 1
  schedule := .none
  initialConditions := [("0_A", 1), ("1_B", 2), ("2_A", 2)]
  penaltyWeights := [("0_A", 1), ("1_B", 1), ("2_A", 1)]

/-- `test_station_track_and_circulation2`, lines 438-481 of `test_linear_solver.py` -/
def trackCirc2 : Case where
  ts := trackCirc2Sets
  tt := trackCirc2Times
  dmax := 20
  cat := .integer
  objective := 19/20
  names := [(5, "y_0_2_one_station_A"), (6, "y_0_2_one_station_B"), (7, "y_1_2_one_station_B")]
  values := [(5, 0), (6, 0), (7, 0)]
  times := [((.int 0, .str "A"), 3, 4, 1), ((.int 1, .str "B"), 16, 18, 2), ((.int 2, .str "A"), 0, 2,
    2)]
  impacts := []

/-- trains of `test_station_followed_by_station_KO_STMcase`, `railway_solvers/test/test_linear_solver.py`, lines 483-529 -/
def koStmSets : TrainSets where
  skipStation := .none
  paths := [(.int 0, [.str "A", .str "B", .str "C"]), (.int 1, [.str "A", .str "B", .str "C"])]
  J := [.int 0, .int 1]
  Jd := [(.str "A", [(.str "B", [[.int 0, .int 1]])]), (.str "B", [(.str "C", [[.int 0, .int 1]])])]
  Josingle := []
  Jround := []
  Jtrack := [(.str "B", [[.int 0, .int 1]])]
  Jswitch := []
  addSwithes := .none

/-- times of `test_station_followed_by_station_KO_STMcase` -/
def koStmTimes : Timetable where
  tauPass := [("0_A_B", 0), ("1_A_B", 0), ("0_B_C", 4), ("1_B_C", 4)]
  tauHeadway := [("0_1_B_C", 2), ("1_0_B_C", 2), ("0_1_A_B", 0), ("1_0_A_B", 0)]
  tauStop := [("0_B", 3), ("1_B", 1), ("0_C", 1), ("1_C", 1)]
  tauPrep := []
  tauRes := .none
  schedule := .none
  initialConditions := [("0_A", 1), ("1_A", 2)]
  penaltyWeights := [("0_C", 2), ("1_C", 1)]

/-- `test_station_followed_by_station_KO_STMcase`, lines 483-529 of `test_linear_solver.py` -/
def koStm : Case where
  ts := koStmSets
  tt := koStmTimes
  dmax := 5
  cat := .integer
  objective := 3/5
  names := []
  values := []
  times := [((.int 0, .str "A"), 0, 1, 1), ((.int 0, .str "B"), 0, 4, 4), ((.int 0, .str "C"), 0, 9, 9),
    ((.int 1, .str "A"), 2, 4, 2), ((.int 1, .str "B"), 3, 6, 3), ((.int 1, .str "C"), 3, 11, 8)]
  impacts := []

/-- trains of `test_3stationsIC_STM_KO_case`, `railway_solvers/test/test_linear_solver.py`, lines 531-578 -/
def icStmKoSets : TrainSets where
  skipStation := .none
  paths := [(.int 0, [.str "KO(IC)", .str "KO(STM)", .str "KO"]), (.int 1, [.str "KO(IC)",
    .str "KO(STM)", .str "KO"])]
  J := [.int 0, .int 1]
  Jd := [(.str "KO(IC)", [(.str "KO(STM)", [[.int 0, .int 1]])]), (.str "KO(STM)", [(.str "KO",
    [[.int 0, .int 1]])])]
  Josingle := []
  Jround := []
  Jtrack := [(.str "KO(STM)", [[.int 0, .int 1]]), (.str "KO", [[.int 0, .int 1]])]
  Jswitch := []
  addSwithes := .none

/-- times of `test_3stationsIC_STM_KO_case` -/
def icStmKoTimes : Timetable where
  tauPass := [("0_KO(IC)_KO(STM)", 0), ("1_KO(IC)_KO(STM)", 0), ("0_KO(STM)_KO", 0), ("1_KO(STM)_KO", 0)]
  tauHeadway := [("0_1_KO(STM)_KO", 0), ("1_0_KO(STM)_KO", 0), ("0_1_KO(IC)_KO(STM)", 0),
    ("1_0_KO(IC)_KO(STM)", 0)]
  tauStop := [("0_KO(STM)", 3), ("1_KO(STM)", 1), ("0_KO", 1), ("1_KO", 1)]
  tauPrep := []
  tauRes := .none
  schedule := .none
  initialConditions := [("0_KO(IC)", 1), ("1_KO(IC)", 2)]
  penaltyWeights := [("0_KO", 2), ("1_KO", 1)]

/-- `test_3stationsIC_STM_KO_case`, lines 531-578 of `test_linear_solver.py` -/
def icStmKo : Case where
  ts := icStmKoSets
  tt := icStmKoTimes
  dmax := 5
  cat := .integer
  objective := 2/5
  names := []
  values := []
  times := [((.int 0, .str "KO(IC)"), 0, 1, 1), ((.int 0, .str "KO(STM)"), 0, 4, 4), ((.int 0,
    .str "KO"), 0, 5, 5), ((.int 1, .str "KO(IC)"), 2, 4, 2), ((.int 1, .str "KO(STM)"), 2, 5, 3),
    ((.int 1, .str "KO"), 2, 6, 4)]
  impacts := []

/-- trains of `test_QIP_problem1`, `railway_solvers/test/test_linear_solver.py`, lines 583-625, input `railway_solvers/test/inputs4QUBO/QIP_case_default.py` -/
def qip1Sets : TrainSets where
  skipStation := some [(.int 2, .str "A")]
  paths := [(.int 0, [.str "A", .str "B"]), (.int 1, [.str "A", .str "B"]), (.int 2, [.str "B",
    .str "A"])]
  J := [.int 0, .int 1, .int 2]
  Jd := [(.str "A", [(.str "B", [[.int 0, .int 1]])]), (.str "B", [(.str "A", [[.int 2]])])]
  Josingle := []
  Jround := []
  Jtrack := [(.str "B", [[.int 0, .int 1]])]
  Jswitch := []
  addSwithes := some [.str "B"]

/-- times of `test_QIP_problem1` -/
def qip1Times : Timetable where
  tauPass := [("0_A_B", 4), ("1_A_B", 8), ("2_B_A", 8)]
  tauHeadway := [("0_1_A_B", 2), ("1_0_A_B", 6)]
  tauStop := [("0_B", 1), ("1_B", 1)]
  tauPrep := []
  tauRes := some 1
  schedule := .none
  initialConditions := [("0_A", 4), ("1_A", 1), ("2_B", 8)]
  penaltyWeights := [("0_A", 2), ("1_A", 1), ("2_B", 1)]

/-- `test_QIP_problem1`, lines 583-625 of `test_linear_solver.py` -/
def qip1 : Case where
  ts := qip1Sets
  tt := qip1Times
  dmax := 10
  cat := .integer
  objective := 1/2
  names := [(0, "Delays_0_A"), (1, "Delays_0_B"), (2, "Delays_1_A"), (4, "Delays_2_B")]
  values := [(0, 0), (1, 0), (2, 5), (4, 0)]
  times := [((.int 0, .str "A"), 0, 4, 4), ((.int 1, .str "A"), 5, 6, 1), ((.int 2, .str "B"), 0, 8, 8),
    ((.int 0, .str "B"), 0, 9, 9)]
  impacts := [((.int 0, .str "A"), 10, 0), ((.int 1, .str "A"), 10, 1/2), ((.int 2, .str "B"), 10, 0)]

/-- trains of `test_QIP_problem2`, `railway_solvers/test/test_linear_solver.py`, lines 628-668, input `railway_solvers/test/inputs4QUBO/QIP_case_rerouted.py` -/
def qip2Sets : TrainSets where
  skipStation := some [(.int 2, .str "A")]
  paths := [(.int 0, [.str "A", .str "B"]), (.int 1, [.str "A", .str "B"]), (.int 2, [.str "B",
    .str "A"])]
  J := [.int 0, .int 1, .int 2]
  Jd := []
  Josingle := [((.str "A", .str "B"), [(.int 1, .int 2)])]
  Jround := []
  Jtrack := [(.str "B", [[.int 0, .int 1]])]
  Jswitch := [(.str "A", [[(.int 1, "out"), (.int 2, "in")]]), (.str "B", [[(.int 1, "in"), (.int 2,
    "out")]])]
  addSwithes := some [.str "B"]

/-- times of `test_QIP_problem2` -/
def qip2Times : Timetable where
  tauPass := [("0_A_B", 4), ("1_A_B", 8), ("2_B_A", 8)]
  tauHeadway := [("0_1_A_B", 2), ("1_0_A_B", 6)]
  tauStop := [("0_B", 1), ("1_B", 1)]
  tauPrep := []
  tauRes := some 1
  schedule := .none
  initialConditions := [("0_A", 4), ("1_A", 1), ("2_B", 8)]
  penaltyWeights := [("0_A", 2), ("1_A", 1), ("2_B", 1)]

/-- `test_QIP_problem2`, lines 628-668 of `test_linear_solver.py` -/
def qip2 : Case where
  ts := qip2Sets
  tt := qip2Times
  dmax := 10
  cat := .integer
  objective := 2/5
  names := [(0, "Delays_0_A"), (1, "Delays_0_B"), (2, "Delays_1_A"), (4, "Delays_2_B")]
  values := [(0, 0), (1, 0), (2, 1), (4, 3)]
  times := [((.int 0, .str "A"), 0, 4, 4), ((.int 1, .str "A"), 1, 2, 1), ((.int 2, .str "B"), 3, 11, 8),
    ((.int 0, .str "B"), 0, 9, 9)]
  impacts := [((.int 0, .str "A"), 10, 0), ((.int 1, .str "A"), 10, 1/10), ((.int 2, .str "B"), 10, 3/10)]

/-- trains of `test_QIP_problem3`, `railway_solvers/test/test_linear_solver.py`, lines 671-732 -/
def qip3Sets : TrainSets where
  skipStation := some [(.str "j3", .str "S1"), (.str "j4", .str "S1")]
  paths := [(.str "j1", [.str "S1", .str "S2"]), (.str "j2", [.str "S1", .str "S2"]), (.str "j3",
    [.str "S2", .str "S1"]), (.str "j4", [.str "S2", .str "S1"])]
  J := [.str "j1", .str "j2", .str "j3", .str "j4"]
  Jd := [(.str "S1", [(.str "S2", [[.str "j1", .str "j2"]])]), (.str "S2", [(.str "S1", [[.str "j3",
    .str "j4"]])])]
  Josingle := []
  Jround := []
  Jtrack := [(.str "S2", [[.str "j1", .str "j2"]])]
  Jswitch := []
  addSwithes := some [.str "S2"]

/-- times of `test_QIP_problem3` -/
def qip3Times : Timetable where
  tauPass := [("j1_S1_S2", 4), ("j2_S1_S2", 8), ("j3_S2_S1", 8), ("j4_S2_S1", 8)]
  tauHeadway := [("j1_j2_S1_S2", 2), ("j2_j1_S1_S2", 6), ("j3_j4_S2_S1", 2), ("j4_j3_S2_S1", 2)]
  tauStop := [("j1_S2", 1), ("j2_S2", 1)]
  tauPrep := []
  tauRes := some 1
  schedule := .none
  initialConditions := [("j1_S1", 4), ("j2_S1", 1), ("j3_S2", 8), ("j4_S2", 9)]
  penaltyWeights := [("j1_S1", 2), ("j2_S1", 1), ("j3_S2", 1), ("j4_S2", 1)]

/-- `test_QIP_problem3`, lines 671-732 of `test_linear_solver.py` -/
def qip3 : Case where
  ts := qip3Sets
  tt := qip3Times
  dmax := 10
  cat := .integer
  objective := 3/5
  names := [(0, "Delays_j1_S1"), (1, "Delays_j1_S2"), (2, "Delays_j2_S1"), (4, "Delays_j3_S2"), (5,
    "Delays_j4_S2")]
  values := [(0, 0), (1, 0), (2, 5), (4, 0), (5, 1)]
  times := []
  impacts := []

/-- trains of `test_MLP`, `railway_solvers/test/test_linear_solver.py`, lines 809-860 -/
def mlpSets : TrainSets where
  skipStation := some [(.int 2, .str "A")]
  paths := [(.int 0, [.str "A", .str "B"]), (.int 1, [.str "A", .str "B"]), (.int 2, [.str "B",
    .str "A"])]
  J := [.int 0, .int 1, .int 2]
  Jd := [(.str "A", [(.str "B", [[.int 0, .int 1]])]), (.str "B", [(.str "A", [[.int 2]])])]
  Josingle := []
  Jround := []
  Jtrack := [(.str "B", [[.int 0, .int 1]])]
  Jswitch := []
  addSwithes := some [.str "B"]

/-- times of `test_MLP` -/
def mlpTimes : Timetable where
  tauPass := [("0_A_B", 79/20), ("1_A_B", 161/20), ("2_B_A", 161/20)]
  tauHeadway := [("0_1_A_B", 39/20), ("1_0_A_B", 121/20)]
  tauStop := [("0_B", 1), ("1_B", 1)]
  tauPrep := []
  tauRes := some 1
  schedule := .none
  initialConditions := [("0_A", 4), ("1_A", 1), ("2_B", 8)]
  penaltyWeights := [("0_A", 2), ("1_A", 1), ("2_B", 1)]

/-- `test_MLP`, lines 809-860 of `test_linear_solver.py` -/
def mlp : Case where
  ts := mlpSets
  tt := mlpTimes
  dmax := 10
  cat := .continuous
  objective := 99/200
  names := [(0, "Delays_0_A"), (1, "Delays_0_B"), (2, "Delays_1_A"), (4, "Delays_2_B")]
  values := [(0, 0), (1, 81/20), (2, 99/20), (4, 0)]
  times := []
  impacts := []

/-- trains of `test_5_trains_all_cases`, `railway_solvers/test/test_linear_solver_large.py`, lines 13-76, input `railway_solvers/test/inputs4QUBO/5_trains_all_cases.py` -/
def fiveTrainsSets : TrainSets where
  skipStation := some [(.int 22, .str "C"), (.int 23, .str "A"), (.int 24, .str "D"), (.int 25, .str "C")]
  paths := [(.int 21, [.str "A", .str "B", .str "C"]), (.int 22, [.str "A", .str "B", .str "C"]),
    (.int 23, [.str "C", .str "B", .str "A"]), (.int 24, [.str "C", .str "D"]), (.int 25,
    [.str "D", .str "C"])]
  J := [.int 21, .int 22, .int 23, .int 24, .int 25]
  Jd := [(.str "A", [(.str "B", [[.int 21, .int 22]])]), (.str "B", [(.str "C", [[.int 21,
    .int 22]])])]
  Josingle := [((.str "C", .str "D"), [(.int 24, .int 25)])]
  Jround := [(.str "C", [(.int 22, .int 23)])]
  Jtrack := [(.str "B", [[.int 21, .int 22]]), (.str "C", [[.int 21, .int 24], [.int 22, .int 23]])]
  Jswitch := [(.str "B", [[(.int 21, "out"), (.int 22, "out")], [(.int 21, "in"), (.int 22, "in")]]),
    (.str "C", [[(.int 23, "out"), (.int 24, "out")], [(.int 22, "in"), (.int 24, "out")],
    [(.int 22, "in"), (.int 23, "out")], [(.int 21, "in"), (.int 24, "out")]]), (.str "D",
    [[(.int 24, "in"), (.int 25, "out")]])]
  addSwithes := .none

/-- times of `test_5_trains_all_cases` -/
def fiveTrainsTimes : Timetable where
  tauPass := [("21_A_B", 4), ("22_A_B", 8), ("21_B_C", 4), ("22_B_C", 8), ("23_C_B", 6), ("23_B_A", 6),
    ("24_C_D", 3), ("25_D_C", 3)]
  tauHeadway := [("21_22_A_B", 2), ("22_21_A_B", 6), ("21_22_B_C", 2), ("22_21_B_C", 6)]
  tauStop := [("21_B", 1), ("22_B", 1), ("21_C", 1), ("23_B", 1)]
  tauPrep := [("23_C", 3)]
  tauRes := some 1
  schedule := .none
  initialConditions := [("21_A", 6), ("22_A", 1), ("23_C", 26), ("24_C", 25), ("25_D", 28)]
  penaltyWeights := [("21_B", 2), ("22_B", 1/2), ("21_A", 2), ("22_A", 1/2), ("23_B", 4/5), ("24_C", 1/2),
    ("25_D", 1/2)]

/-- `test_5_trains_all_cases`, lines 13-76 of `test_linear_solver_large.py` -/
def fiveTrains : Case where
  ts := fiveTrainsSets
  tt := fiveTrainsTimes
  dmax := 10
  cat := .integer
  objective := 101/100
  names := []
  values := []
  times := [((.int 21, .str "A"), 0, 6, 6), ((.int 22, .str "A"), 7, 8, 1), ((.int 21, .str "B"), 0, 11,
    11), ((.int 22, .str "B"), 7, 17, 10), ((.int 23, .str "C"), 2, 28, 26), ((.int 23, .str "B"),
    2, 35, 33), ((.int 24, .str "C"), 1, 26, 25), ((.int 25, .str "D"), 2, 30, 28)]
  impacts := []

/-- trains of `test_many_trains_single_line`, `railway_solvers/test/test_linear_solver_large.py`, lines 79-102, input `railway_solvers/test/inputs4QUBO/many_trains_single_line.py` -/
def manyTrainsSets : TrainSets where
  skipStation := some [(.int 10, .str "B"), (.int 12, .str "B"), (.int 14, .str "B"), (.int 16, .str "B"),
    (.int 11, .str "A"), (.int 13, .str "A"), (.int 15, .str "A"), (.int 17, .str "A")]
  paths := [(.int 10, [.str "A", .str "B"]), (.int 12, [.str "A", .str "B"]), (.int 14, [.str "A",
    .str "B"]), (.int 16, [.str "A", .str "B"]), (.int 11, [.str "B", .str "A"]), (.int 13,
    [.str "B", .str "A"]), (.int 15, [.str "B", .str "A"]), (.int 17, [.str "B", .str "A"])]
  J := [.int 10, .int 11, .int 12, .int 13, .int 14, .int 15, .int 16, .int 17]
  Jd := [(.str "A", [(.str "B", [[.int 10, .int 12, .int 14, .int 16]])]), (.str "B", [(.str "A",
    [[.int 11, .int 13, .int 15, .int 17]])])]
  Josingle := [((.str "A", .str "B"), [(.int 10, .int 11), (.int 10, .int 13), (.int 10, .int 15), (.int 10,
    .int 17), (.int 12, .int 11), (.int 12, .int 13), (.int 12, .int 15), (.int 12, .int 17),
    (.int 14, .int 11), (.int 14, .int 13), (.int 14, .int 15), (.int 14, .int 17), (.int 16,
    .int 11), (.int 16, .int 13), (.int 16, .int 15), (.int 16, .int 17)])]
  Jround := []
  Jtrack := [(.str "A", [[.int 10, .int 12, .int 14, .int 16]]), (.str "B", [[.int 11, .int 13, .int 15,
    .int 17]])]
  Jswitch := []
  addSwithes := .none

/-- times of `test_many_trains_single_line` -/
def manyTrainsTimes : Timetable where
  tauPass := [("10_A_B", 4), ("12_A_B", 4), ("14_A_B", 4), ("16_A_B", 4), ("11_B_A", 4), ("13_B_A", 4),
    ("15_B_A", 4), ("17_B_A", 4)]
  tauHeadway := [("10_12_A_B", 2), ("10_14_A_B", 2), ("10_16_A_B", 2), ("12_14_A_B", 2), ("12_16_A_B", 2),
    ("14_16_A_B", 2), ("12_10_A_B", 2), ("14_10_A_B", 2), ("16_10_A_B", 2), ("14_12_A_B", 2),
    ("16_12_A_B", 2), ("16_14_A_B", 2), ("11_13_B_A", 2), ("11_15_B_A", 2), ("11_17_B_A", 2),
    ("13_15_B_A", 2), ("13_17_B_A", 2), ("15_17_B_A", 2), ("13_11_B_A", 2), ("15_11_B_A", 2),
    ("17_11_B_A", 2), ("15_13_B_A", 2), ("17_13_B_A", 2), ("17_15_B_A", 2)]
  tauStop := []
  tauPrep := []
  tauRes := some 1
  schedule := .none
  initialConditions := [("10_A", 5), ("12_A", 10), ("14_A", 20), ("16_A", 30), ("11_B", 5), ("13_B", 15), ("15_B",
    25), ("17_B", 35)]
  penaltyWeights := [("10_A", 1/2), ("12_A", 1/2), ("14_A", 1/2), ("16_A", 1/2), ("11_B", 1/2), ("13_B", 1/2),
    ("15_B", 1/2), ("17_B", 1/2)]

/-- `test_many_trains_single_line`, lines 79-102 of `test_linear_solver_large.py` -/
def manyTrains : Case where
  ts := manyTrainsSets
  tt := manyTrainsTimes
  dmax := 10
  cat := .integer
  objective := 1/4
  names := []
  values := []
  times := []
  impacts := []

/-- the test without the assertions about the values of some variables -/
def _root_.Verif.Case.without (c : Case) (vs : List ℕ) (calls : List (Val × Val)) : Case :=
  { c with
    values := c.values.filter fun a => decide (a.1 ∉ vs)
    times := c.times.filter fun a => decide (a.1 ∉ calls) }

end Verif.SolverTests
