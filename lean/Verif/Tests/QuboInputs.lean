import Verif.Proofs.TestCase

/-!
# The inputs of `test_solving_QUBO.py`
-/

namespace Verif.QuboInputs

/-- trains of `/repo/railway_solvers/test/inputs4QUBO/5_trains_all_cases.py`, lines 61-85 -/
def fiveTrainsSets : TrainSets where
  skipStation := some [(.int 22, .str "C"), (.int 23, .str "A"), (.int 24, .str "D"), (.int 25,
    .str "C")]
  paths := [(.int 21, [.str "A", .str "B", .str "C"]), (.int 22, [.str "A", .str "B", .str "C"]),
    (.int 23, [.str "C", .str "B", .str "A"]), (.int 24, [.str "C", .str "D"]), (.int 25, [.str "D",
    .str "C"])]
  J := [.int 21, .int 22, .int 23, .int 24, .int 25]
  Jd := [(.str "A", [(.str "B", [[.int 21, .int 22]])]), (.str "B", [(.str "C", [[.int 21, .int 22]])])]
  Josingle := [((.str "C", .str "D"), [(.int 24, .int 25)])]
  Jround := [(.str "C", [(.int 22, .int 23)])]
  Jtrack := [(.str "B", [[.int 21, .int 22]]), (.str "C", [[.int 21, .int 24], [.int 22, .int 23]])]
  Jswitch := [(.str "B", [[(.int 21, "out"), (.int 22, "out")], [(.int 21, "in"), (.int 22, "in")]]),
    (.str "C", [[(.int 23, "out"), (.int 24, "out")], [(.int 22, "in"), (.int 24, "out")], [(.int 22,
    "in"), (.int 23, "out")], [(.int 21, "in"), (.int 24, "out")]]), (.str "D", [[(.int 24, "in"),
    (.int 25, "out")]])]
  addSwithes := .none

/-- times, lines 25-59 -/
def fiveTrainsTimes : Timetable where
  tauPass := [("21_A_B", 4), ("22_A_B", 8), ("21_B_C", 4), ("22_B_C", 8), ("23_C_B", 6), ("23_B_A", 6),
    ("24_C_D", 3), ("25_D_C", 3)]
  tauHeadway := [("21_22_A_B", 2), ("22_21_A_B", 6), ("21_22_B_C", 2), ("22_21_B_C", 6)]
  tauStop := [("21_B", 1), ("22_B", 1), ("21_C", 1), ("23_B", 1)]
  tauPrep := [("23_C", 3)]
  tauRes := some 1
  schedule := .none
  initialConditions := [("21_A", 6), ("22_A", 1), ("23_C", 26), ("24_C", 25), ("25_D", 28)]
  penaltyWeights := [("21_B", 2), ("22_B", 1/2), ("21_A", 2), ("22_A", 1/2), ("23_B", 4/5), ("24_C",
    1/2), ("25_D", 1/2)]

/-- the problem, `d_max` of line 87, and the value of its optimum -/
def fiveTrains : Case where
  ts := fiveTrainsSets
  tt := fiveTrainsTimes
  dmax := 10
  cat := .integer
  objective := 101/100
  names := []
  values := []
  times := []
  impacts := []

/-- trains of `/repo/railway_solvers/test/inputs4QUBO/QIP_case_default.py`, lines 21-31 -/
def qipDefaultSets : TrainSets where
  skipStation := some [(.int 2, .str "A")]
  paths := [(.int 0, [.str "A", .str "B"]), (.int 1, [.str "A", .str "B"]), (.int 2, [.str "B",
    .str "A"])]
  J := [.int 0, .int 1, .int 2]
  Jd := [(.str "A", [(.str "B", [[.int 0, .int 1]])]), (.str "B", [(.str "A", [[.int 2]])])]
  Josingle := []
  Jround := []
  Jtrack := [(.str "B", [[.int 0, .int 1]])]
  Jswitch := []
  addSwithes := some [.str "B"]

/-- times, lines 10-18 -/
def qipDefaultTimes : Timetable where
  tauPass := [("0_A_B", 4), ("1_A_B", 8), ("2_B_A", 8)]
  tauHeadway := [("0_1_A_B", 2), ("1_0_A_B", 6)]
  tauStop := [("0_B", 1), ("1_B", 1)]
  tauPrep := []
  tauRes := some 1
  schedule := .none
  initialConditions := [("0_A", 4), ("1_A", 1), ("2_B", 8)]
  penaltyWeights := [("0_A", 2), ("1_A", 1), ("2_B", 1)]

/-- the problem, `d_max` of line 34, and the value of its optimum -/
def qipDefault : Case where
  ts := qipDefaultSets
  tt := qipDefaultTimes
  dmax := 10
  cat := .integer
  objective := 1/2
  names := []
  values := []
  times := []
  impacts := []

/-- trains of `/repo/railway_solvers/test/inputs4QUBO/QIP_case_rerouted.py`, lines 33-45 -/
def qipReroutedSets : TrainSets where
  skipStation := some [(.int 2, .str "A")]
  paths := [(.int 0, [.str "A", .str "B"]), (.int 1, [.str "A", .str "B"]), (.int 2, [.str "B",
    .str "A"])]
  J := [.int 0, .int 1, .int 2]
  Jd := []
  Josingle := [((.str "A", .str "B"), [(.int 1, .int 2)])]
  Jround := []
  Jtrack := [(.str "B", [[.int 0, .int 1]])]
  Jswitch := [(.str "A", [[(.int 1, "out"), (.int 2, "in")]]), (.str "B", [[(.int 1, "in"), (.int 2,
    "out")]])]
  addSwithes := some [.str "B"]

/-- times, lines 9-17 -/
def qipReroutedTimes : Timetable where
  tauPass := [("0_A_B", 4), ("1_A_B", 8), ("2_B_A", 8)]
  tauHeadway := [("0_1_A_B", 2), ("1_0_A_B", 6)]
  tauStop := [("0_B", 1), ("1_B", 1)]
  tauPrep := []
  tauRes := some 1
  schedule := .none
  initialConditions := [("0_A", 4), ("1_A", 1), ("2_B", 8)]
  penaltyWeights := [("0_A", 2), ("1_A", 1), ("2_B", 1)]

/-- the problem, `d_max` of line 47, and the value of its optimum -/
def qipRerouted : Case where
  ts := qipReroutedSets
  tt := qipReroutedTimes
  dmax := 10
  cat := .integer
  objective := 2/5
  names := []
  values := []
  times := []
  impacts := []

/-- trains of `/repo/railway_solvers/test/inputs4QUBO/many_trains_single_line.py`, lines 77-123 -/
def manyTrainsSets : TrainSets where
  skipStation := some [(.int 10, .str "B"), (.int 12, .str "B"), (.int 14, .str "B"), (.int 16,
    .str "B"), (.int 11, .str "A"), (.int 13, .str "A"), (.int 15, .str "A"), (.int 17, .str "A")]
  paths := [(.int 10, [.str "A", .str "B"]), (.int 12, [.str "A", .str "B"]), (.int 14, [.str "A",
    .str "B"]), (.int 16, [.str "A", .str "B"]), (.int 11, [.str "B", .str "A"]), (.int 13, [.str "B",
    .str "A"]), (.int 15, [.str "B", .str "A"]), (.int 17, [.str "B", .str "A"])]
  J := [.int 10, .int 11, .int 12, .int 13, .int 14, .int 15, .int 16, .int 17]
  Jd := [(.str "A", [(.str "B", [[.int 10, .int 12, .int 14, .int 16]])]), (.str "B", [(.str "A",
    [[.int 11, .int 13, .int 15, .int 17]])])]
  Josingle := [((.str "A", .str "B"), [(.int 10, .int 11), (.int 10, .int 13), (.int 10, .int 15),
    (.int 10, .int 17), (.int 12, .int 11), (.int 12, .int 13), (.int 12, .int 15), (.int 12, .int 17),
    (.int 14, .int 11), (.int 14, .int 13), (.int 14, .int 15), (.int 14, .int 17), (.int 16, .int 11),
    (.int 16, .int 13), (.int 16, .int 15), (.int 16, .int 17)])]
  Jround := []
  Jtrack := [(.str "A", [[.int 10, .int 12, .int 14, .int 16]]), (.str "B", [[.int 11, .int 13, .int 15,
    .int 17]])]
  Jswitch := []
  addSwithes := .none

/-- times, lines 13-75 -/
def manyTrainsTimes : Timetable where
  tauPass := [("10_A_B", 4), ("12_A_B", 4), ("14_A_B", 4), ("16_A_B", 4), ("11_B_A", 4), ("13_B_A", 4),
    ("15_B_A", 4), ("17_B_A", 4)]
  tauHeadway := [("10_12_A_B", 2), ("10_14_A_B", 2), ("10_16_A_B", 2), ("12_14_A_B", 2), ("12_16_A_B",
    2), ("14_16_A_B", 2), ("12_10_A_B", 2), ("14_10_A_B", 2), ("16_10_A_B", 2), ("14_12_A_B", 2),
    ("16_12_A_B", 2), ("16_14_A_B", 2), ("11_13_B_A", 2), ("11_15_B_A", 2), ("11_17_B_A", 2),
    ("13_15_B_A", 2), ("13_17_B_A", 2), ("15_17_B_A", 2), ("13_11_B_A", 2), ("15_11_B_A", 2),
    ("17_11_B_A", 2), ("15_13_B_A", 2), ("17_13_B_A", 2), ("17_15_B_A", 2)]
  tauStop := []
  tauPrep := []
  tauRes := some 1
  schedule := .none
  initialConditions := [("10_A", 5), ("12_A", 10), ("14_A", 20), ("16_A", 30), ("11_B", 5), ("13_B",
    15), ("15_B", 25), ("17_B", 35)]
  penaltyWeights := [("10_A", 1/2), ("12_A", 1/2), ("14_A", 1/2), ("16_A", 1/2), ("11_B", 1/2), ("13_B",
    1/2), ("15_B", 1/2), ("17_B", 1/2)]

/-- the problem, `d_max` of line 125, and the value of its optimum -/
def manyTrains : Case where
  ts := manyTrainsSets
  tt := manyTrainsTimes
  dmax := 10
  cat := .integer
  objective := 1/4
  names := []
  values := []
  times := []
  impacts := []

/-- trains of `/repo/railway_solvers/test/inputs4QUBO/mo_on_the_line.py`, lines 27-35 -/
def onTheLineSets : TrainSets where
  skipStation := .none
  paths := [(.int 0, [.str "A", .str "B"]), (.int 1, [.str "A", .str "B"])]
  J := [.int 0, .int 1]
  Jd := [(.str "A", [(.str "B", [[.int 0], [.int 1]])])]
  Josingle := []
  Jround := []
  Jtrack := [(.str "A", [[.int 0, .int 1]])]
  Jswitch := [(.str "A", [[(.int 0, "out"), (.int 1, "out")]]), (.str "B", [[(.int 0, "in"), (.int 1,
    "in")]])]
  addSwithes := .none

/-- times, lines 22-25 -/
def onTheLineTimes : Timetable where
  tauPass := [("0_A_B", 6), ("1_A_B", 2)]
  tauHeadway := []
  tauStop := [("0_B", 1), ("1_B", 1)]
  tauPrep := []
  tauRes := some 1
  schedule := .none
  initialConditions := [("0_A", 1), ("1_A", 5)]
  penaltyWeights := [("0_B", 1), ("1_B", 2)]

/-- the problem, `d_max` of line 37, and the value of its optimum -/
def onTheLine : Case where
  ts := onTheLineSets
  tt := onTheLineTimes
  dmax := 5
  cat := .integer
  objective := 1/5
  names := []
  values := []
  times := []
  impacts := []

/-- trains of `/repo/railway_solvers/test/inputs4QUBO/rolling_stock_circulation.py`, lines 9-17 -/
def circulationSets : TrainSets where
  skipStation := .none
  paths := [(.int 0, [.str "A", .str "B"]), (.int 1, [.str "B", .str "A"])]
  J := [.int 0, .int 1]
  Jd := []
  Josingle := []
  Jround := [(.str "B", [(.int 0, .int 1)])]
  Jtrack := []
  Jswitch := []
  addSwithes := .none

/-- times, lines 19-23 -/
def circulationTimes : Timetable where
  tauPass := [("0_A_B", 4), ("1_B_A", 8)]
  tauHeadway := []
  tauStop := [("1_A", 0), ("0_B", 0)]
  tauPrep := [("1_B", 2)]
  tauRes := .none
  schedule := .none
  initialConditions := [("0_A", 3), ("1_B", 1)]
  penaltyWeights := [("0_A", 2), ("1_B", 1/2)]

/-- the problem, `d_max` of line 25, and the value of its optimum -/
def circulation : Case where
  ts := circulationSets
  tt := circulationTimes
  dmax := 10
  cat := .integer
  objective := 2/5
  names := []
  values := []
  times := []
  impacts := []

/-- trains of `/repo/railway_solvers/test/inputs4QUBO/station_track_and_circ.py`, lines 27-35 -/
def trackCircSets : TrainSets where
  skipStation := .none
  paths := [(.int 0, [.str "A", .str "B"]), (.int 1, [.str "B", .str "A"]), (.int 2, [.str "A",
    .str "B"])]
  J := [.int 0, .int 1, .int 2]
  Jd := [(.str "A", [(.str "B", [[.int 0, .int 2]])]), (.str "B", [(.str "A", [[.int 1]])])]
  Josingle := []
  Jround := [(.str "B", [(.int 0, .int 1)])]
  Jtrack := [(.str "B", [[.int 0, .int 1, .int 2]])]
  Jswitch := []
  addSwithes := .none

/-- times, lines 20-25 -/
def trackCircTimes : Timetable where
  tauPass := [("0_A_B", 4), ("1_B_A", 4), ("2_A_B", 4)]
  tauHeadway := [("0_2_A_B", 2), ("2_0_A_B", 2)]
  tauStop := [("0_B", 0), ("1_A", 1), ("2_B", 1)]
  tauPrep := [("1_B", 10)]
  tauRes := some 1
  schedule := .none
  initialConditions := [("0_A", 1), ("1_B", 2), ("2_A", 2)]
  penaltyWeights := [("0_A", 1), ("1_B", 1), ("2_A", 1)]

/-- the problem, `d_max` of line 38, and the value of its optimum -/
def trackCirc : Case where
  ts := trackCircSets
  tt := trackCircTimes
  dmax := 20
  cat := .integer
  objective := 19/20
  names := []
  values := []
  times := []
  impacts := []

/-- trains of `/repo/railway_solvers/test/inputs4QUBO/track_occupation_simplest.py`, lines 27-35 -/
def trackSets : TrainSets where
  skipStation := .none
  paths := [(.int 0, [.str "A", .str "B"]), (.int 1, [.str "A", .str "B"])]
  J := [.int 0, .int 1]
  Jd := []
  Josingle := []
  Jround := []
  Jtrack := [(.str "B", [[.int 0, .int 1]])]
  Jswitch := [(.str "B", [[(.int 0, "in"), (.int 1, "in")], [(.int 0, "out"), (.int 1, "out")]])]
  addSwithes := .none

/-- times, lines 21-25 -/
def trackTimes : Timetable where
  tauPass := [("0_A_B", 4), ("1_A_B", 4)]
  tauHeadway := []
  tauStop := [("0_B", 1), ("1_B", 1)]
  tauPrep := []
  tauRes := some 2
  schedule := .none
  initialConditions := [("0_A", 1), ("1_A", 1)]
  penaltyWeights := [("0_A", 2), ("1_A", 1/2)]

/-- the problem, `d_max` of line 37, and the value of its optimum -/
def track : Case where
  ts := trackSets
  tt := trackTimes
  dmax := 10
  cat := .integer
  objective := 1/10
  names := []
  values := []
  times := []
  impacts := []

/-- trains of `/repo/railway_solvers/test/inputs4QUBO/two_trains_going_one_way_simplest.py`,
    lines 19-27 -/
def oneWaySets : TrainSets where
  skipStation := .none
  paths := [(.int 0, [.str "A", .str "B"]), (.int 1, [.str "A", .str "B"])]
  J := [.int 0, .int 1]
  Jd := [(.str "A", [(.str "B", [[.int 0, .int 1]])])]
  Josingle := []
  Jround := []
  Jtrack := []
  Jswitch := []
  addSwithes := .none

/-- times, lines 12-17 -/
def oneWayTimes : Timetable where
  tauPass := [("0_A_B", 4), ("1_A_B", 8)]
  tauHeadway := [("0_1_A_B", 2), ("1_0_A_B", 6)]
  tauStop := [("0_B", 1), ("1_B", 1)]
  tauPrep := []
  tauRes := some 1
  schedule := .none
  initialConditions := [("0_A", 3), ("1_A", 1)]
  penaltyWeights := [("0_A", 2), ("1_A", 1/2)]

/-- the problem, `d_max` of line 29, and the value of its optimum -/
def oneWay : Case where
  ts := oneWaySets
  tt := oneWayTimes
  dmax := 10
  cat := .integer
  objective := 1/5
  names := []
  values := []
  times := []
  impacts := []

/-- trains of `/repo/railway_solvers/test/inputs4QUBO/two_trains_going_opposite_ways_simplest.py`,
    lines 17-25 -/
def oppositeWaysSets : TrainSets where
  skipStation := .none
  paths := [(.int 0, [.str "A", .str "B"]), (.int 1, [.str "B", .str "A"])]
  J := [.int 0, .int 1]
  Jd := []
  Josingle := [((.str "A", .str "B"), [(.int 0, .int 1)])]
  Jround := []
  Jtrack := []
  Jswitch := [(.str "A", [[(.int 0, "out"), (.int 1, "in")]]), (.str "B", [[(.int 0, "in"), (.int 1,
    "out")]])]
  addSwithes := .none

/-- times, lines 27-31 -/
def oppositeWaysTimes : Timetable where
  tauPass := [("0_A_B", 4), ("1_B_A", 8)]
  tauHeadway := []
  tauStop := [("0_B", 1), ("1_A", 1)]
  tauPrep := []
  tauRes := some 1
  schedule := .none
  initialConditions := [("0_A", 3), ("1_B", 1)]
  penaltyWeights := [("0_A", 2), ("1_B", 1/2)]

/-- the problem, `d_max` of line 33, and the value of its optimum -/
def oppositeWays : Case where
  ts := oppositeWaysSets
  tt := oppositeWaysTimes
  dmax := 10
  cat := .integer
  objective := 7/20
  names := []
  values := []
  times := []
  impacts := []

end Verif.QuboInputs
