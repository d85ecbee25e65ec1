import Verif.Proofs.TestCase

/-!
# The problems of the tests in numbers, with proofs of their optima
-/

namespace Verif.SolverTests

/-- the problem of `oneWay` in numbers -/
def oneWayCode : Coded where
  ints := [true, true, true, true, true]
  facts := [
    sparse 1 [(0, 1)] 0,
    sparse 1 [(0, -1)] 10,
    sparse 2 [(1, 1)] 0,
    sparse 2 [(1, -1)] 10,
    sparse 3 [(2, 1)] 0,
    sparse 3 [(2, -1)] 10,
    sparse 4 [(3, 1)] 0,
    sparse 4 [(3, -1)] 10,
    sparse 5 [(4, 1)] 0,
    sparse 5 [(4, -1)] 1,
    sparse 5 [(0, -1), (2, 1), (4, -14)] 10,
    sparse 5 [(0, 1), (2, -1), (4, 14)] (-4),
    sparse 5 [(0, -1), (1, 1)] 0,
    sparse 5 [(2, -1), (3, 1)] 0]
  objective := sparse 5 [(0, 1/5), (2, 1/20)] 0

/-- the values asserted by `oneWay` -/
def oneWayGoals : List (ℕ × ℚ) :=
  [(0, 0), (2, 4), (4, 1), (2, 4), (2, 4)]

/-- no feasible assignment of `oneWay` is better -/
def oneWayLower : LpTree :=
  .split 4 0 (.leaf 1 [(14, 14/5), (4, 1/4), (11, 1/5)]) (.leaf 1 [(0, 1/4), (10, 1/20), (14,
  7/10)])

/-- the solution of `oneWay` that the test expects -/
def oneWayPoint : List ℚ :=
  [0, 0, 4, 4, 1]

/-- the asserted values of `oneWay` are the only optimal ones -/
def oneWayTrees : List (LpTree × LpTree) :=
  [(.leaf 1 [(0, 1)], .split 4 0 (.leaf 0 [(15, 1), (14, 5/14), (4, 5/56), (11,
  1/14)]) (.leaf 1 [(14, 4), (10, 1/5), (15, 14/5)])), (.split 4 0 (.leaf 0 [(15, 1), (11, 1/14),
  (4, 5/56), (14, 5/14)]) (.leaf 1 [(0, 1), (10, 1), (15, 14)]), .leaf 1 [(0, 4), (14, 20)]),
  (.split 4 0 (.leaf 0 [(15, 1), (11, 1/14), (4, 5/56), (14, 5/14)]) (.leaf 1 [(15, 1)]),
  .leaf 1 [(9, 1)]), (.split 4 0 (.leaf 0 [(15, 1), (11, 1/14), (4, 5/56), (14,
  5/14)]) (.leaf 1 [(0, 1), (10, 1), (15, 14)]), .leaf 1 [(0, 4), (14, 20)]),
  (.split 4 0 (.leaf 0 [(15, 1), (11, 1/14), (4, 5/56), (14, 5/14)]) (.leaf 1 [(0, 1), (10, 1),
  (15, 14)]), .leaf 1 [(0, 4), (14, 20)])]

/-- the problem of `deadlock` in numbers -/
def deadlockCode : Coded where
  ints := [true, true, true, true, true]
  facts := [
    sparse 1 [(0, 1)] 0,
    sparse 1 [(0, -1)] 10,
    sparse 2 [(1, 1)] 0,
    sparse 2 [(1, -1)] 10,
    sparse 3 [(2, 1)] 0,
    sparse 3 [(2, -1)] 10,
    sparse 4 [(3, 1)] 0,
    sparse 4 [(3, -1)] 10,
    sparse 5 [(4, 1)] 0,
    sparse 5 [(4, -1)] 1,
    sparse 5 [(0, -1), (1, 1)] 0,
    sparse 5 [(2, -1), (3, 1)] 0,
    sparse 5 [(0, 1), (2, -1), (4, 16)] (-6),
    sparse 5 [(0, -1), (2, 1), (4, -16)] 10,
    sparse 5 [(0, 1), (2, -1), (4, 17)] (-7),
    sparse 5 [(0, -1), (2, 1), (4, -5)] 10,
    sparse 5 [(0, 1), (2, -1), (4, 5)] 5,
    sparse 5 [(0, -1), (2, 1), (4, -17)] 10]
  objective := sparse 5 [(0, 1/5), (2, 1/20)] 0

/-- the values asserted by `deadlock` -/
def deadlockGoals : List (ℕ × ℚ) :=
  [(0, 0), (2, 7), (4, 1)]

/-- no feasible assignment of `deadlock` is better -/
def deadlockLower : LpTree :=
  .split 4 0 (.leaf 1 [(18, 17/5), (4, 1/4), (14, 1/5)]) (.leaf 1 [(0, 1/4), (17, 1/20), (18,
  17/20)])

/-- the solution of `deadlock` that the test expects -/
def deadlockPoint : List ℚ :=
  [0, 0, 7, 7, 1]

/-- the asserted values of `deadlock` are the only optimal ones -/
def deadlockTrees : List (LpTree × LpTree) :=
  [(.leaf 1 [(0, 1)], .split 4 0 (.leaf 0 [(19, 1), (18, 5/17), (4, 5/68), (14,
  1/17)]) (.leaf 1 [(18, 4), (17, 1/5), (19, 17/5)])), (.split 4 0 (.leaf 0 [(19, 1), (14, 1/17),
  (4, 5/68), (18, 5/17)]) (.leaf 1 [(19, 17), (0, 1), (17, 1)]), .leaf 1 [(0, 4), (18, 20)]),
  (.split 4 0 (.leaf 0 [(19, 1), (14, 1/17), (4, 5/68), (18, 5/17)]) (.leaf 1 [(19, 1)]),
  .leaf 1 [(9, 1)])]

/-- the problem of `circulation` in numbers -/
def circulationCode : Coded where
  ints := [true, true, true]
  facts := [
    sparse 1 [(0, 1)] 0,
    sparse 1 [(0, -1)] 10,
    sparse 2 [(1, 1)] 0,
    sparse 2 [(1, -1)] 10,
    sparse 3 [(2, 1)] 0,
    sparse 3 [(2, -1)] 10,
    sparse 3 [(1, -1), (2, 1)] 0,
    sparse 3 [(0, -1), (1, 1)] (-8)]
  objective := sparse 3 [(0, 1/5), (1, 1/20)] 0

/-- the values asserted by `circulation` -/
def circulationGoals : List (ℕ × ℚ) :=
  [(0, 0), (1, 8)]

/-- no feasible assignment of `circulation` is better -/
def circulationLower : LpTree :=
  .leaf 1 [(0, 1/4), (7, 1/20)]

/-- the solution of `circulation` that the test expects -/
def circulationPoint : List ℚ :=
  [0, 8, 8]

/-- the asserted values of `circulation` are the only optimal ones -/
def circulationTrees : List (LpTree × LpTree) :=
  [(.leaf 1 [(0, 1)], .leaf 1 [(8, 4), (7, 1/5)]), (.leaf 1 [(0, 1), (7, 1)], .leaf 1 [(0, 4), (8,
  20)])]

/-- the problem of `stationTrack` in numbers -/
def stationTrackCode : Coded where
  ints := [true, true, true, true, true]
  facts := [
    sparse 1 [(0, 1)] 0,
    sparse 1 [(0, -1)] 5,
    sparse 2 [(1, 1)] 0,
    sparse 2 [(1, -1)] 5,
    sparse 3 [(2, 1)] 0,
    sparse 3 [(2, -1)] 5,
    sparse 4 [(3, 1)] 0,
    sparse 4 [(3, -1)] 5,
    sparse 5 [(4, 1)] 0,
    sparse 5 [(4, -1)] 1,
    sparse 5 [(0, -1), (1, 1)] 0,
    sparse 5 [(2, -1), (3, 1)] 0,
    sparse 5 [(0, 1), (3, -1), (4, 8)] (-3),
    sparse 5 [(1, -1), (2, 1), (4, -8)] 5]
  objective := sparse 5 [(0, 2/5), (2, 1/10)] 0

/-- the values asserted by `stationTrack` -/
def stationTrackGoals : List (ℕ × ℚ) :=
  [(0, 0), (2, 3), (4, 1)]

/-- no feasible assignment of `stationTrack` is better -/
def stationTrackLower : LpTree :=
  .split 4 0 (.leaf 1 [(14, 16/5), (4, 1/10), (6, 2/5), (12, 2/5)]) (.leaf 1 [(0, 2/5), (2, 1/10),
  (13, 1/10), (14, 4/5)])

/-- the solution of `stationTrack` that the test expects -/
def stationTrackPoint : List ℚ :=
  [0, 0, 3, 5, 1]

/-- the asserted values of `stationTrack` are the only optimal ones -/
def stationTrackTrees : List (LpTree × LpTree) :=
  [(.leaf 1 [(0, 1)], .split 4 0 (.leaf 0 [(15, 1), (14, 5/16), (4, 1/32), (6, 1/8), (12,
  1/8)]) (.leaf 1 [(14, 2), (10, 1/5), (13, 1/5), (15, 8/5)])), (.split 4 0 (.leaf 0 [(15, 1),
  (12, 1/8), (4, 1/32), (6, 1/8), (14, 5/16)]) (.leaf 1 [(10, 1), (13, 1), (0, 1), (15, 8)]),
  .leaf 1 [(0, 4), (14, 10)]), (.split 4 0 (.leaf 0 [(15, 1), (12, 1/8), (4, 1/32), (6, 1/8), (14,
  5/16)]) (.leaf 1 [(15, 1)]), .leaf 1 [(9, 1)])]

/-- the problem of `mpSwitches` in numbers -/
def mpSwitchesCode : Coded where
  ints := [true, true, true, true, true, true, true]
  facts := [
    sparse 1 [(0, 1)] 0,
    sparse 1 [(0, -1)] 5,
    sparse 2 [(1, 1)] 0,
    sparse 2 [(1, -1)] 5,
    sparse 3 [(2, 1)] 0,
    sparse 3 [(2, -1)] 5,
    sparse 4 [(3, 1)] 0,
    sparse 4 [(3, -1)] 5,
    sparse 5 [(4, 1)] 0,
    sparse 5 [(4, -1)] 1,
    sparse 6 [(5, 1)] 0,
    sparse 6 [(5, -1)] 1,
    sparse 7 [(6, 1)] 0,
    sparse 7 [(6, -1)] 1,
    sparse 7 [(0, -1), (1, 1)] 0,
    sparse 7 [(2, -1), (3, 1)] 0,
    sparse 7 [(2, -1), (4, 9)] (-4),
    sparse 7 [(0, -1), (4, -1)] 5,
    sparse 7 [(5, -1), (6, 1)] 0,
    sparse 7 [(5, 1), (6, -1)] 0,
    sparse 7 [(0, 1), (3, -1), (5, 6)] (-1),
    sparse 7 [(1, -1), (2, 1), (5, -6)] 5,
    sparse 7 [(0, 1), (2, -1), (4, 11)] (-6),
    sparse 7 [(0, -1), (2, 1), (4, -3)] 5,
    sparse 7 [(0, 1), (2, -1), (6, 7)] (-2),
    sparse 7 [(0, -1), (2, 1), (6, -7)] 5]
  objective := sparse 7 [(1, 1/5), (3, 2/5)] 0

/-- the values asserted by `mpSwitches` -/
def mpSwitchesGoals : List (ℕ × ℚ) :=
  [(0, 2), (1, 2), (2, 0), (3, 0), (4, 1), (5, 0), (6, 0)]

/-- no feasible assignment of `mpSwitches` is better -/
def mpSwitchesLower : LpTree :=
  .split 4 0 (.leaf 0 [(16, 1), (26, 9), (4, 1)]) (.split 5 0 (.leaf 1 [(27, 7/5), (14, 1/5), (6,
  2/5), (19, 7/5), (4, 1/5), (24, 1/5)]) (.leaf 1 [(2, 1/5), (25, 2/5), (15, 2/5), (27, 14/5), (0,
  2/5), (18, 14/5)]))

/-- the solution of `mpSwitches` that the test expects -/
def mpSwitchesPoint : List ℚ :=
  [2, 2, 0, 0, 1, 0, 0]

/-- the asserted values of `mpSwitches` are the only optimal ones -/
def mpSwitchesTrees : List (LpTree × LpTree) :=
  [(.split 4 0 (.leaf 0 [(16, 1), (27, 9), (4, 1)]) (.split 5 0 (.leaf 1 [(4, 1), (28, 7), (19,
  7), (24, 1)]) (.leaf 0 [(25, 1), (0, 1), (18, 7), (15, 1), (28, 7), (26, 5/2), (2, 1/2)])),
  .leaf 1 [(26, 5), (14, 1), (15, 2), (4, 2)]), (.split 4 0 (.leaf 0 [(16, 1), (27, 9), (4,
  1)]) (.split 5 0 (.leaf 1 [(28, 7), (4, 1), (19, 7), (14, 1), (24, 1)]) (.leaf 0 [(25, 1), (2,
  1/2), (18, 7), (28, 7), (26, 5/2), (0, 1), (15, 1)])), .leaf 1 [(26, 5), (6, 2)]), (.leaf 1 [(4,
  1)], .split 5 0 (.leaf 1 [(14, 1/3), (27, 7/3), (15, 2/3), (26, 5/3), (19, 7/3), (24,
  1/3)]) (.leaf 0 [(25, 1), (14, 1/2), (0, 3/2), (15, 1), (26, 5/2), (27, 7), (18, 7)])),
  (.leaf 1 [(6, 1)], .split 4 0 (.leaf 0 [(16, 1), (4, 1), (27, 9)]) (.split 5 0 (.leaf 1 [(4,
  1/2), (14, 1/2), (28, 7/2), (19, 7/2), (26, 5/2), (24, 1/2)]) (.leaf 0 [(25, 1), (28, 7), (14,
  1/2), (0, 3/2), (15, 1), (26, 5/2), (18, 7)]))), (.split 4 0 (.leaf 0 [(27, 1), (4, 1/9), (16,
  1/9)]) (.leaf 1 [(27, 1)]), .leaf 1 [(9, 1)]), (.leaf 1 [(10, 1)], .split 4 0 (.leaf 0 [(16, 1),
  (4, 1), (27, 9)]) (.split 5 0 (.leaf 1 [(28, 1)]) (.leaf 0 [(28, 1), (18, 1), (0, 1/7), (15,
  1/7), (26, 5/14), (25, 1/7), (2, 1/14)]))), (.leaf 1 [(12, 1)], .split 4 0 (.leaf 0 [(16, 1),
  (4, 1), (27, 9)]) (.split 5 0 (.leaf 1 [(28, 1), (19, 1)]) (.leaf 0 [(18, 1), (2, 1/14), (26,
  5/14), (0, 1/7), (25, 1/7), (28, 1), (15, 1/7)])))]

/-- the problem of `mpNoStation` in numbers -/
def mpNoStationCode : Coded where
  ints := [true, true, true, true, true, true]
  facts := [
    sparse 1 [(0, 1)] 0,
    sparse 1 [(0, -1)] 5,
    sparse 2 [(1, 1)] 0,
    sparse 2 [(1, -1)] 5,
    sparse 3 [(2, 1)] 0,
    sparse 3 [(2, -1)] 5,
    sparse 4 [(3, 1)] 0,
    sparse 4 [(3, -1)] 5,
    sparse 5 [(4, 1)] 0,
    sparse 5 [(4, -1)] 1,
    sparse 6 [(5, 1)] 0,
    sparse 6 [(5, -1)] 1,
    sparse 6 [(0, -1), (1, 1)] 0,
    sparse 6 [(2, -1), (3, 1)] 0,
    sparse 6 [(2, -1), (4, 9)] (-4),
    sparse 6 [(0, -1), (4, -1)] 5,
    sparse 6 [(0, 1), (2, -1), (4, 10)] (-5),
    sparse 6 [(0, -1), (2, 1), (4, -2)] 5,
    sparse 6 [(0, 1), (2, -1), (5, 6)] (-1),
    sparse 6 [(0, -1), (2, 1), (5, -6)] 5]
  objective := sparse 6 [(1, 1/5), (3, 2/5)] 0

/-- the values asserted by `mpNoStation` -/
def mpNoStationGoals : List (ℕ × ℚ) :=
  [(0, 1), (1, 1), (2, 0), (3, 0), (4, 1), (5, 0)]

/-- no feasible assignment of `mpNoStation` is better -/
def mpNoStationLower : LpTree :=
  .split 4 0 (.leaf 0 [(14, 1), (20, 9), (4, 1)]) (.split 5 0 (.leaf 1 [(21, 6/5), (4, 1/5), (6,
  2/5), (12, 1/5), (18, 1/5)]) (.leaf 1 [(2, 1/5), (21, 12/5), (19, 2/5), (13, 2/5), (0, 2/5)]))

/-- the solution of `mpNoStation` that the test expects -/
def mpNoStationPoint : List ℚ :=
  [1, 1, 0, 0, 1, 0]

/-- the asserted values of `mpNoStation` are the only optimal ones -/
def mpNoStationTrees : List (LpTree × LpTree) :=
  [(.split 4 0 (.leaf 0 [(14, 1), (21, 9), (4, 1)]) (.split 5 0 (.leaf 1 [(4, 1), (22, 6), (18,
  1)]) (.leaf 0 [(19, 1), (0, 1), (2, 1/2), (22, 6), (13, 1), (20, 5/2)])), .leaf 1 [(20, 5), (12,
  1), (13, 2), (4, 2)]), (.split 4 0 (.leaf 0 [(14, 1), (21, 9), (4,
  1)]) (.split 5 0 (.leaf 1 [(22, 6), (4, 1), (12, 1), (18, 1)]) (.leaf 0 [(19, 1), (2, 1/2), (22,
  6), (13, 1), (20, 5/2), (0, 1)])), .leaf 1 [(20, 5), (6, 2)]), (.leaf 1 [(4, 1)],
  .split 4 0 (.leaf 0 [(4, 1), (14, 1), (21, 9)]) (.split 5 0 (.leaf 1 [(12, 1/3), (22, 2), (13,
  2/3), (20, 5/3), (18, 1/3)]) (.leaf 0 [(19, 1), (12, 1/2), (0, 3/2), (13, 1), (20, 5/2), (22,
  6)]))), (.leaf 1 [(6, 1)], .split 4 0 (.leaf 0 [(14, 1), (4, 1), (21,
  9)]) (.split 5 0 (.leaf 1 [(12, 1/2), (20, 5/2), (4, 1/2), (22, 3), (18, 1/2)]) (.leaf 0 [(19,
  1), (12, 1/2), (20, 5/2), (0, 3/2), (13, 1), (22, 6)]))), (.split 4 0 (.leaf 0 [(21, 1), (4,
  1/9), (14, 1/9)]) (.leaf 1 [(21, 1)]), .leaf 1 [(9, 1)]), (.leaf 1 [(10, 1)],
  .split 4 0 (.leaf 0 [(14, 1), (4, 1), (21, 9)]) (.split 5 0 (.leaf 1 [(22, 1)]) (.leaf 0 [(22,
  1), (2, 1/12), (0, 1/6), (13, 1/6), (19, 1/6), (20, 5/12)])))]

/-- the problem of `threeTrains` in numbers -/
def threeTrainsCode : Coded where
  ints := [true, true, true, true, true, true]
  facts := [
    sparse 1 [(0, 1)] 0,
    sparse 1 [(0, -1)] 5,
    sparse 2 [(1, 1)] 0,
    sparse 2 [(1, -1)] 5,
    sparse 3 [(2, 1)] 0,
    sparse 3 [(2, -1)] 5,
    sparse 4 [(3, 1)] 0,
    sparse 4 [(3, -1)] 5,
    sparse 5 [(4, 1)] 0,
    sparse 5 [(4, -1)] 1,
    sparse 6 [(5, 1)] 0,
    sparse 6 [(5, -1)] 1,
    sparse 6 [(0, -1), (1, 1)] 0,
    sparse 6 [(2, -1), (3, 1)] 0,
    sparse 6 [(4, -1), (5, 1)] 0,
    sparse 6 [(4, 1), (5, -1)] 0,
    sparse 6 [(0, 1), (3, -1), (4, 6)] (-1),
    sparse 6 [(1, -1), (2, 1), (4, -6)] 5,
    sparse 6 [(0, 1), (2, -1), (5, 7)] (-2),
    sparse 6 [(0, -1), (2, 1), (5, -7)] 5]
  objective := sparse 6 [(1, 1/5), (3, 2/5)] 0

/-- the values asserted by `threeTrains` -/
def threeTrainsGoals : List (ℕ × ℚ) :=
  [(0, 2), (1, 2), (3, 0), (2, 0), (4, 0), (5, 0)]

/-- no feasible assignment of `threeTrains` is better -/
def threeTrainsLower : LpTree :=
  .split 4 0 (.leaf 1 [(18, 1/5), (20, 7/5), (4, 1/5), (6, 2/5), (15, 7/5), (12,
  1/5)]) (.leaf 1 [(14, 14/5), (2, 1/5), (19, 2/5), (13, 2/5), (0, 2/5), (20, 14/5)])

/-- the solution of `threeTrains` that the test expects -/
def threeTrainsPoint : List ℚ :=
  [2, 2, 0, 0, 0, 0]

/-- the asserted values of `threeTrains` are the only optimal ones -/
def threeTrainsTrees : List (LpTree × LpTree) :=
  [(.split 4 0 (.leaf 1 [(21, 7), (4, 1), (15, 7), (18, 1)]) (.leaf 0 [(19, 1), (0, 1), (14, 7),
  (13, 1), (21, 7), (20, 5/2), (2, 1/2)]), .leaf 1 [(20, 5), (12, 1), (6, 2)]),
  (.split 4 0 (.leaf 1 [(18, 1), (21, 7), (4, 1), (15, 7), (12, 1)]) (.leaf 0 [(19, 1), (13, 1),
  (2, 1/2), (14, 7), (21, 7), (0, 1), (20, 5/2)]), .leaf 1 [(20, 5), (6, 2)]), (.leaf 1 [(6, 1)],
  .split 4 0 (.leaf 1 [(15, 7/2), (12, 1/2), (4, 1/2), (21, 7/2), (20, 5/2), (18,
  1/2)]) (.leaf 0 [(19, 1), (21, 7), (12, 1/2), (14, 7), (0, 3/2), (20, 5/2), (13, 1)])),
  (.leaf 1 [(4, 1)], .split 4 0 (.leaf 1 [(18, 1/3), (12, 1/3), (21, 7/3), (13, 2/3), (15, 7/3),
  (20, 5/3)]) (.leaf 0 [(19, 1), (14, 7), (12, 1/2), (0, 3/2), (13, 1), (21, 7), (20, 5/2)])),
  (.leaf 1 [(8, 1)], .split 4 0 (.leaf 1 [(21, 1)]) (.leaf 0 [(21, 1), (2, 1/14), (14, 1), (0,
  1/7), (13, 1/7), (19, 1/7), (20, 5/14)])), (.leaf 1 [(10, 1)], .split 4 0 (.leaf 1 [(21, 1),
  (15, 1)]) (.leaf 0 [(14, 1), (0, 1/7), (2, 1/14), (19, 1/7), (21, 1), (20, 5/14), (13, 1/7)]))]

/-- the problem of `trackCirc` in numbers -/
def trackCircCode : Coded where
  ints := [true, true, true, true, true, true, true, true, true]
  facts := [
    sparse 1 [(0, 1)] 0,
    sparse 1 [(0, -1)] 10,
    sparse 2 [(1, 1)] 0,
    sparse 2 [(1, -1)] 10,
    sparse 3 [(2, 1)] 0,
    sparse 3 [(2, -1)] 10,
    sparse 4 [(3, 1)] 0,
    sparse 4 [(3, -1)] 10,
    sparse 5 [(4, 1)] 0,
    sparse 5 [(4, -1)] 10,
    sparse 6 [(5, 1)] 0,
    sparse 6 [(5, -1)] 1,
    sparse 7 [(6, 1)] 0,
    sparse 7 [(6, -1)] 1,
    sparse 8 [(7, 1)] 0,
    sparse 8 [(7, -1)] 1,
    sparse 9 [(8, 1)] 0,
    sparse 9 [(8, -1)] 1,
    sparse 9 [(0, -1), (3, 1), (5, -11)] 10,
    sparse 9 [(0, 1), (3, -1), (5, 13)] (-3),
    sparse 9 [(1, -1), (2, 1)] 0,
    sparse 9 [(3, -1), (4, 1)] 0,
    sparse 9 [(5, -1), (6, 1)] 0,
    sparse 9 [(5, 1), (6, -1)] 0,
    sparse 9 [(0, 1), (4, -1), (6, 12)] (-2),
    sparse 9 [(6, -1), (8, 1)] 0,
    sparse 9 [(6, 1), (8, -1)] 0,
    sparse 9 [(0, 1), (4, -1), (8, 12)] (-2),
    sparse 9 [(1, -1), (3, 1), (8, -6)] 10,
    sparse 9 [(0, -1), (1, 1)] (-8)]
  objective := sparse 9 [(0, 1/5), (1, 1/20), (3, 1/10)] 0

/-- the values asserted by `trackCirc` -/
def trackCircGoals : List (ℕ × ℚ) :=
  [(5, 1), (6, 1), (8, 1), (0, 0), (1, 8), (3, 4), (4, 4)]

/-- no feasible assignment of `trackCirc` is better -/
def trackCircLower : LpTree :=
  .split 5 0 (.leaf 0 [(3, 1), (30, 13), (29, 1), (6, 1), (19, 1)]) (.leaf 1 [(0, 7/20), (29,
  3/20), (25, 3/5), (22, 3/5), (30, 3/5), (28, 1/10)])

/-- the solution of `trackCirc` that the test expects -/
def trackCircPoint : List ℚ :=
  [0, 8, 8, 4, 4, 1, 1, 0, 1]

/-- another solution of `trackCirc` -/
def trackCircOther : List ℚ :=
  [0, 8, 8, 4, 10, 1, 1, 0, 1]

/-- the values of `trackCirc` that the problem settles -/
def trackCircSettled : List (ℕ × ℚ) :=
  [(5, 1), (6, 1), (8, 1), (0, 0), (1, 8), (3, 4)]

/-- the asserted values of `trackCirc` are the only optimal ones -/
def trackCircTrees : List (LpTree × LpTree) :=
  [(.split 5 0 (.leaf 0 [(31, 1), (19, 1/13), (29, 1/65), (6, 7/65), (30, 4/13)]) (.leaf 1 [(31,
  1)]), .leaf 1 [(11, 1)]), (.split 5 0 (.leaf 0 [(31, 1), (19, 1/13), (29, 1/65), (6, 7/65), (30,
  4/13)]) (.leaf 1 [(31, 1), (22, 1)]), .leaf 1 [(13, 1)]), (.split 5 0 (.leaf 0 [(31, 1), (19,
  1/13), (29, 1/65), (6, 7/65), (30, 4/13)]) (.leaf 1 [(22, 1), (31, 1), (25, 1)]), .leaf 1 [(17,
  1)]), (.leaf 1 [(0, 1)], .split 5 0 (.leaf 0 [(31, 1), (30, 4/13), (29, 1/65), (6, 7/65), (19,
  1/13)]) (.leaf 1 [(25, 12/7), (29, 3/7), (31, 12/7), (22, 12/7), (30, 20/7), (28, 2/7)])),
  (.leaf 1 [(0, 1), (29, 1)], .split 5 0 (.leaf 0 [(29, 1), (19, 5), (31, 65), (6, 7), (30,
  20)]) (.leaf 1 [(30, 20/3), (25, 4), (31, 4), (0, 4/3), (22, 4), (28, 2/3)])),
  (.split 5 0 (.leaf 0 [(31, 1), (19, 1/13), (29, 1/65), (6, 7/65), (30, 4/13)]) (.leaf 1 [(0, 1),
  (29, 1), (25, 6), (22, 6), (31, 6), (28, 1)]), .leaf 1 [(29, 1/2), (0, 5/2), (30, 10)])]

/-- the problem of `trackCirc2` in numbers -/
def trackCirc2Code : Coded where
  ints := [true, true, true, true, true, true, true, true, true]
  facts := [
    sparse 1 [(0, 1)] 0,
    sparse 1 [(0, -1)] 20,
    sparse 2 [(1, 1)] 0,
    sparse 2 [(1, -1)] 20,
    sparse 3 [(2, 1)] 0,
    sparse 3 [(2, -1)] 20,
    sparse 4 [(3, 1)] 0,
    sparse 4 [(3, -1)] 20,
    sparse 5 [(4, 1)] 0,
    sparse 5 [(4, -1)] 20,
    sparse 6 [(5, 1)] 0,
    sparse 6 [(5, -1)] 1,
    sparse 7 [(6, 1)] 0,
    sparse 7 [(6, -1)] 1,
    sparse 8 [(7, 1)] 0,
    sparse 8 [(7, -1)] 1,
    sparse 9 [(8, 1)] 0,
    sparse 9 [(8, -1)] 1,
    sparse 9 [(0, -1), (3, 1), (5, -21)] 20,
    sparse 9 [(0, 1), (3, -1), (5, 23)] (-3),
    sparse 9 [(1, -1), (2, 1)] 0,
    sparse 9 [(3, -1), (4, 1)] 0,
    sparse 9 [(5, -1), (6, 1)] 0,
    sparse 9 [(5, 1), (6, -1)] 0,
    sparse 9 [(0, 1), (4, -1), (6, 22)] (-2),
    sparse 9 [(6, -1), (8, 1)] 0,
    sparse 9 [(6, 1), (8, -1)] 0,
    sparse 9 [(0, 1), (4, -1), (8, 22)] (-2),
    sparse 9 [(1, -1), (3, 1), (8, -16)] 20,
    sparse 9 [(0, -1), (1, 1)] (-13)]
  objective := sparse 9 [(0, 1/20), (1, 1/20), (3, 1/20)] 0

/-- the values asserted by `trackCirc2` -/
def trackCirc2Goals : List (ℕ × ℚ) :=
  [(5, 0), (6, 0), (8, 0), (0, 3), (1, 16), (3, 0)]

/-- no feasible assignment of `trackCirc2` is better -/
def trackCirc2Lower : LpTree :=
  .split 5 0 (.leaf 1 [(30, 23/10), (29, 1/20), (6, 3/20), (19, 1/10)]) (.leaf 1 [(0, 3/20), (29,
  1/10), (25, 4/5), (22, 4/5), (30, 4/5), (28, 1/20)])

/-- the solution of `trackCirc2` that the test expects -/
def trackCirc2Point : List ℚ :=
  [3, 16, 16, 0, 0, 0, 0, 0, 0]

/-- the asserted values of `trackCirc2` are the only optimal ones -/
def trackCirc2Trees : List (LpTree × LpTree) :=
  [(.leaf 1 [(10, 1)], .split 5 0 (.leaf 1 [(31, 1)]) (.leaf 0 [(31, 1), (28, 1/16), (29, 1/8),
  (22, 1), (0, 3/16), (25, 1), (30, 5/4)])), (.leaf 1 [(12, 1)], .split 5 0 (.leaf 1 [(23, 1),
  (31, 1)]) (.leaf 0 [(22, 1), (30, 5/4), (29, 1/8), (0, 3/16), (31, 1), (28, 1/16), (25, 1)])),
  (.leaf 1 [(16, 1)], .split 5 0 (.leaf 1 [(26, 1), (23, 1), (31, 1)]) (.leaf 0 [(25, 1), (0,
  3/16), (29, 1/8), (28, 1/16), (22, 1), (31, 1), (30, 5/4)])), (.split 5 0 (.leaf 1 [(31, 23),
  (6, 1), (19, 1)]) (.leaf 0 [(25, 1), (0, 3/16), (29, 1/8), (31, 1), (22, 1), (30, 5/4), (28,
  1/16)]), .leaf 1 [(30, 10), (29, 1/2), (6, 1/2)]), (.split 5 0 (.leaf 1 [(31, 23), (29, 1), (6,
  1), (19, 1)]) (.leaf 0 [(25, 1), (0, 3/16), (29, 1/8), (31, 1), (22, 1), (30, 5/4), (28,
  1/16)]), .split 5 0 (.leaf 1 [(19, 1), (31, 23), (6, 2), (30, 20)]) (.leaf 0 [(29, 1), (30, 10),
  (25, 8), (28, 1/2), (0, 3/2), (31, 8), (22, 8)])), (.leaf 1 [(6, 1)], .split 5 0 (.leaf 1 [(19,
  2/3), (29, 1/3), (31, 46/3), (30, 20/3)]) (.leaf 0 [(25, 1), (31, 1), (29, 1/8), (0, 3/16), (22,
  1), (30, 5/4), (28, 1/16)]))]

/-- the problem of `koStm` in numbers -/
def koStmCode : Coded where
  ints := [true, true, true, true, true, true, true, true]
  facts := [
    sparse 1 [(0, 1)] 0,
    sparse 1 [(0, -1)] 5,
    sparse 2 [(1, 1)] 0,
    sparse 2 [(1, -1)] 5,
    sparse 3 [(2, 1)] 0,
    sparse 3 [(2, -1)] 5,
    sparse 4 [(3, 1)] 0,
    sparse 4 [(3, -1)] 5,
    sparse 5 [(4, 1)] 0,
    sparse 5 [(4, -1)] 5,
    sparse 6 [(5, 1)] 0,
    sparse 6 [(5, -1)] 5,
    sparse 7 [(6, 1)] 0,
    sparse 7 [(6, -1)] 1,
    sparse 8 [(7, 1)] 0,
    sparse 8 [(7, -1)] 1,
    sparse 8 [(0, -1), (3, 1), (6, -4)] 5,
    sparse 8 [(0, 1), (3, -1), (6, 6)] (-1),
    sparse 8 [(1, -1), (4, 1), (7, -8)] 5,
    sparse 8 [(1, 1), (4, -1), (7, 6)] (-1),
    sparse 8 [(0, -1), (1, 1)] 0,
    sparse 8 [(1, -1), (2, 1)] 0,
    sparse 8 [(3, -1), (4, 1)] 0,
    sparse 8 [(4, -1), (5, 1)] 0,
    sparse 8 [(6, -1), (7, 1)] 0,
    sparse 8 [(6, 1), (7, -1)] 0,
    sparse 8 [(0, 1), (4, -1), (7, 7)] (-2),
    sparse 8 [(1, -1), (3, 1), (7, -7)] 5]
  objective := sparse 8 [(2, 2/5), (5, 1/5)] 0

/-- the values asserted by `koStm` -/
def koStmGoals : List (ℕ × ℚ) :=
  [(0, 0), (1, 0), (2, 0), (3, 2), (4, 3), (5, 3)]

/-- no feasible assignment of `koStm` is better -/
def koStmLower : LpTree :=
  .split 6 0 (.leaf 1 [(26, 2/5), (20, 2/5), (28, 14/5), (25, 14/5), (8, 2/5), (10, 1/5), (21,
  2/5)]) (.leaf 1 [(24, 8/5), (4, 2/5), (28, 8/5), (2, 1/5), (23, 1/5), (18, 1/5)])

/-- the solution of `koStm` that the test expects -/
def koStmPoint : List ℚ :=
  [0, 0, 0, 2, 3, 3, 1, 1]

/-- another solution of `koStm` -/
def koStmOther : List ℚ :=
  [0, 0, 0, 3, 3, 3, 1, 1]

/-- the values of `koStm` that the problem settles -/
def koStmSettled : List (ℕ × ℚ) :=
  [(0, 0), (1, 0), (2, 0), (4, 3), (5, 3)]

/-- the asserted values of `koStm` are the only optimal ones -/
def koStmTrees : List (LpTree × LpTree) :=
  [(.leaf 1 [(0, 1)], .split 6 0 (.leaf 0 [(29, 1), (28, 5/14), (20, 1/7), (21, 1/7), (8, 1/7),
  (10, 1/14), (25, 1), (26, 1/7)]) (.leaf 1 [(28, 5/3), (20, 1), (21, 2/3), (18, 1/3), (23, 1/3),
  (29, 8/3), (24, 8/3)])), (.leaf 1 [(2, 1)], .split 6 0 (.leaf 0 [(29, 1), (26, 1/7), (28, 5/14),
  (21, 1/7), (8, 1/7), (10, 1/14), (25, 1), (20, 1/7)]) (.leaf 1 [(23, 1/3), (28, 5/3), (21, 2/3),
  (24, 8/3), (18, 1/3), (29, 8/3)])), (.leaf 1 [(4, 1)], .split 6 0 (.leaf 0 [(29, 1), (26, 1/7),
  (20, 1/7), (28, 5/14), (8, 1/7), (10, 1/14), (25, 1), (21, 1/7)]) (.leaf 1 [(23, 1/2), (20,
  1/2), (28, 5/2), (24, 4), (0, 1/2), (18, 1/2), (29, 4)])), (.split 6 0 (.leaf 0 [(29, 1), (26,
  1/7), (20, 1/7), (21, 1/7), (8, 1/7), (10, 1/14), (25, 1), (28, 5/14)]) (.leaf 1 [(0, 1), (20,
  1), (24, 8), (18, 1), (29, 8)]), .leaf 1 [(20, 2), (21, 2), (0, 2), (23, 1), (28, 5)]),
  (.split 6 0 (.leaf 0 [(29, 1), (26, 1/7), (20, 1/7), (21, 1/7), (8, 1/7), (10, 1/14), (25, 1),
  (28, 5/14)]) (.leaf 1 [(23, 1), (20, 1), (24, 8), (0, 1), (18, 1), (29, 8)]), .leaf 1 [(20, 2),
  (21, 2), (0, 2), (28, 5)])]

/-- the problem of `icStmKo` in numbers -/
def icStmKoCode : Coded where
  ints := [true, true, true, true, true, true, true, true, true]
  facts := [
    sparse 1 [(0, 1)] 0,
    sparse 1 [(0, -1)] 5,
    sparse 2 [(1, 1)] 0,
    sparse 2 [(1, -1)] 5,
    sparse 3 [(2, 1)] 0,
    sparse 3 [(2, -1)] 5,
    sparse 4 [(3, 1)] 0,
    sparse 4 [(3, -1)] 5,
    sparse 5 [(4, 1)] 0,
    sparse 5 [(4, -1)] 5,
    sparse 6 [(5, 1)] 0,
    sparse 6 [(5, -1)] 5,
    sparse 7 [(6, 1)] 0,
    sparse 7 [(6, -1)] 1,
    sparse 8 [(7, 1)] 0,
    sparse 8 [(7, -1)] 1,
    sparse 9 [(8, 1)] 0,
    sparse 9 [(8, -1)] 1,
    sparse 9 [(0, -1), (3, 1), (6, -4)] 5,
    sparse 9 [(0, 1), (3, -1), (6, 6)] (-1),
    sparse 9 [(1, -1), (4, 1), (7, -6)] 5,
    sparse 9 [(1, 1), (4, -1), (7, 4)] 1,
    sparse 9 [(0, -1), (1, 1)] 0,
    sparse 9 [(1, -1), (2, 1)] 0,
    sparse 9 [(3, -1), (4, 1)] 0,
    sparse 9 [(4, -1), (5, 1)] 0,
    sparse 9 [(6, -1), (7, 1)] 0,
    sparse 9 [(6, 1), (7, -1)] 0,
    sparse 9 [(0, 1), (4, -1), (7, 7)] (-2),
    sparse 9 [(1, -1), (3, 1), (7, -7)] 5,
    sparse 9 [(7, -1), (8, 1)] 0,
    sparse 9 [(7, 1), (8, -1)] 0,
    sparse 9 [(1, 1), (5, -1), (8, 5)] 0,
    sparse 9 [(2, -1), (4, 1), (8, -7)] 5]
  objective := sparse 9 [(2, 2/5), (5, 1/5)] 0

/-- the values asserted by `icStmKo` -/
def icStmKoGoals : List (ℕ × ℚ) :=
  [(0, 0), (1, 0), (2, 0), (3, 2), (4, 2), (5, 2)]

/-- no feasible assignment of `icStmKo` is better -/
def icStmKoLower : LpTree :=
  .split 6 0 (.leaf 1 [(28, 2/5), (22, 2/5), (34, 14/5), (27, 14/5), (8, 2/5), (10, 1/5), (23,
  2/5)]) (.leaf 1 [(26, 7/5), (4, 2/5), (34, 7/5), (24, 1/5), (2, 1/5), (25, 1/5), (29, 1/5)])

/-- the solution of `icStmKo` that the test expects -/
def icStmKoPoint : List ℚ :=
  [0, 0, 0, 2, 2, 2, 1, 1, 1]

/-- the asserted values of `icStmKo` are the only optimal ones -/
def icStmKoTrees : List (LpTree × LpTree) :=
  [(.leaf 1 [(0, 1)], .split 6 0 (.leaf 0 [(35, 1), (34, 5/14), (22, 1/7), (23, 1/7), (8, 1/7),
  (10, 1/14), (27, 1), (28, 1/7)]) (.leaf 1 [(34, 5/3), (22, 1), (23, 2/3), (29, 1/3), (26, 7/3),
  (24, 1/3), (35, 7/3), (25, 1/3)])), (.leaf 1 [(2, 1)], .split 6 0 (.leaf 0 [(35, 1), (28, 1/7),
  (34, 5/14), (23, 1/7), (8, 1/7), (10, 1/14), (27, 1), (22, 1/7)]) (.leaf 1 [(34, 5/3), (23,
  2/3), (29, 1/3), (26, 7/3), (24, 1/3), (35, 7/3), (25, 1/3)])), (.leaf 1 [(4, 1)],
  .split 6 0 (.leaf 0 [(35, 1), (28, 1/7), (22, 1/7), (34, 5/14), (8, 1/7), (10, 1/14), (27, 1),
  (23, 1/7)]) (.leaf 1 [(25, 1/2), (34, 5/2), (29, 1/2), (26, 7/2), (2, 1/2), (35, 7/2), (24,
  1/2)])), (.split 6 0 (.leaf 0 [(35, 1), (28, 1/7), (22, 1/7), (23, 1/7), (8, 1/7), (10, 1/14),
  (27, 1), (34, 5/14)]) (.leaf 1 [(22, 1), (0, 1), (26, 7), (35, 7), (29, 1)]), .leaf 1 [(22, 2),
  (23, 2), (0, 2), (24, 1), (25, 1), (34, 5)]), (.split 6 0 (.leaf 0 [(35, 1), (28, 1/7), (22,
  1/7), (23, 1/7), (8, 1/7), (10, 1/14), (27, 1), (34, 5/14)]) (.leaf 1 [(0, 1), (22, 1), (26, 7),
  (29, 1), (35, 7), (24, 1)]), .leaf 1 [(22, 2), (23, 2), (0, 2), (25, 1), (34, 5)]),
  (.split 6 0 (.leaf 0 [(35, 1), (28, 1/7), (22, 1/7), (23, 1/7), (8, 1/7), (10, 1/14), (27, 1),
  (34, 5/14)]) (.leaf 1 [(25, 1), (22, 1), (26, 7), (0, 1), (29, 1), (35, 7), (24, 1)]),
  .leaf 1 [(23, 2), (0, 2), (22, 2), (34, 5)])]

/-- the problem of `qip1` in numbers -/
def qip1Code : Coded where
  ints := [true, true, true, true, true, true, true]
  facts := [
    sparse 1 [(0, 1)] 0,
    sparse 1 [(0, -1)] 10,
    sparse 2 [(1, 1)] 0,
    sparse 2 [(1, -1)] 10,
    sparse 3 [(2, 1)] 0,
    sparse 3 [(2, -1)] 10,
    sparse 4 [(3, 1)] 0,
    sparse 4 [(3, -1)] 10,
    sparse 5 [(4, 1)] 0,
    sparse 5 [(4, -1)] 10,
    sparse 6 [(5, 1)] 0,
    sparse 6 [(5, -1)] 1,
    sparse 7 [(6, 1)] 0,
    sparse 7 [(6, -1)] 1,
    sparse 7 [(0, -1), (2, 1), (5, -15)] 10,
    sparse 7 [(0, 1), (2, -1), (5, 13)] (-3),
    sparse 7 [(0, -1), (1, 1)] 0,
    sparse 7 [(2, -1), (3, 1)] 0,
    sparse 7 [(5, -1), (6, 1)] 0,
    sparse 7 [(5, 1), (6, -1)] 0,
    sparse 7 [(0, 1), (3, -1), (6, 13)] (-3),
    sparse 7 [(1, -1), (2, 1), (6, -11)] 10]
  objective := sparse 7 [(0, 1/5), (2, 1/10), (4, 1/10)] 0

/-- the values asserted by `qip1` -/
def qip1Goals : List (ℕ × ℚ) :=
  [(0, 0), (1, 0), (2, 5), (4, 0), (0, 0), (2, 5), (4, 0), (1, 0), (0, 0), (2, 5), (4, 0)]

/-- no feasible assignment of `qip1` is better -/
def qip1Lower : LpTree :=
  .split 5 0 (.leaf 1 [(22, 13/5), (4, 3/10), (8, 1/10), (15, 1/5)]) (.leaf 1 [(0, 3/10), (14,
  1/10), (8, 1/10), (22, 3/2)])

/-- the solution of `qip1` that the test expects -/
def qip1Point : List ℚ :=
  [0, 0, 5, 10, 0, 1, 1]

/-- another solution of `qip1` -/
def qip1Other : List ℚ :=
  [0, 4, 5, 10, 0, 1, 1]

/-- the values of `qip1` that the problem settles -/
def qip1Settled : List (ℕ × ℚ) :=
  [(0, 0), (2, 5), (4, 0), (0, 0), (2, 5), (4, 0), (0, 0), (2, 5), (4, 0)]

/-- the asserted values of `qip1` are the only optimal ones -/
def qip1Trees : List (LpTree × LpTree) :=
  [(.leaf 1 [(0, 1)], .split 5 0 (.leaf 0 [(23, 1), (22, 5/13), (4, 3/26), (8, 1/26), (15,
  1/13)]) (.leaf 1 [(22, 10/3), (14, 1/3), (8, 1/3), (23, 5)])), (.split 5 0 (.leaf 0 [(23, 1),
  (15, 1/13), (4, 3/26), (8, 1/26), (22, 5/13)]) (.leaf 1 [(0, 1), (14, 1), (23, 15)]),
  .leaf 1 [(0, 2), (8, 1), (22, 10)]), (.leaf 1 [(8, 1)], .split 5 0 (.leaf 0 [(8, 1), (15, 2),
  (4, 3), (23, 26), (22, 10)]) (.leaf 1 [(23, 15), (14, 1), (0, 3), (22, 10)])), (.leaf 1 [(0,
  1)], .split 5 0 (.leaf 0 [(23, 1), (22, 5/13), (4, 3/26), (8, 1/26), (15, 1/13)]) (.leaf 1 [(22,
  10/3), (14, 1/3), (8, 1/3), (23, 5)])), (.split 5 0 (.leaf 0 [(23, 1), (15, 1/13), (4, 3/26),
  (8, 1/26), (22, 5/13)]) (.leaf 1 [(0, 1), (14, 1), (23, 15)]), .leaf 1 [(0, 2), (8, 1), (22,
  10)]), (.leaf 1 [(8, 1)], .split 5 0 (.leaf 0 [(8, 1), (15, 2), (4, 3), (23, 26), (22,
  10)]) (.leaf 1 [(23, 15), (14, 1), (0, 3), (22, 10)])), (.leaf 1 [(0, 1)],
  .split 5 0 (.leaf 0 [(23, 1), (22, 5/13), (4, 3/26), (8, 1/26), (15, 1/13)]) (.leaf 1 [(22,
  10/3), (14, 1/3), (8, 1/3), (23, 5)])), (.split 5 0 (.leaf 0 [(23, 1), (15, 1/13), (4, 3/26),
  (8, 1/26), (22, 5/13)]) (.leaf 1 [(0, 1), (14, 1), (23, 15)]), .leaf 1 [(0, 2), (8, 1), (22,
  10)]), (.leaf 1 [(8, 1)], .split 5 0 (.leaf 0 [(8, 1), (15, 2), (4, 3), (23, 26), (22,
  10)]) (.leaf 1 [(23, 15), (14, 1), (0, 3), (22, 10)]))]

/-- the problem of `qip2` in numbers -/
def qip2Code : Coded where
  ints := [true, true, true, true, true, true, true]
  facts := [
    sparse 1 [(0, 1)] 0,
    sparse 1 [(0, -1)] 10,
    sparse 2 [(1, 1)] 0,
    sparse 2 [(1, -1)] 10,
    sparse 3 [(2, 1)] 0,
    sparse 3 [(2, -1)] 10,
    sparse 4 [(3, 1)] 0,
    sparse 4 [(3, -1)] 10,
    sparse 5 [(4, 1)] 0,
    sparse 5 [(4, -1)] 10,
    sparse 6 [(5, 1)] 0,
    sparse 6 [(5, -1)] 1,
    sparse 7 [(6, 1)] 0,
    sparse 7 [(6, -1)] 1,
    sparse 7 [(0, -1), (1, 1)] 0,
    sparse 7 [(2, -1), (3, 1)] 0,
    sparse 7 [(2, 1), (4, -1), (5, 25)] (-15),
    sparse 7 [(2, -1), (4, 1), (5, -11)] 10,
    sparse 7 [(0, 1), (3, -1), (6, 13)] (-3),
    sparse 7 [(1, -1), (2, 1), (6, -11)] 10,
    sparse 7 [(2, 1), (4, -1), (5, 26)] (-16),
    sparse 7 [(2, 1), (4, -1), (5, 10)] 0,
    sparse 7 [(2, -1), (4, 1), (5, -12)] 10]
  objective := sparse 7 [(0, 1/5), (2, 1/10), (4, 1/10)] 0

/-- the values asserted by `qip2` -/
def qip2Goals : List (ℕ × ℚ) :=
  [(0, 0), (1, 0), (2, 1), (4, 3), (0, 0), (2, 1), (4, 3), (1, 0), (0, 0), (2, 1), (4, 3)]

/-- no feasible assignment of `qip2` is better -/
def qip2Lower : LpTree :=
  .split 5 0 (.leaf 0 [(5, 1), (23, 26), (8, 1), (20, 1)]) (.split 6 0 (.leaf 1 [(24, 13/5), (4,
  1/5), (6, 1/5), (22, 1/10), (23, 6/5), (18, 1/5)]) (.leaf 1 [(0, 1/5), (2, 1/5), (19, 1/5), (24,
  11/5), (22, 1/10), (23, 6/5)]))

/-- the solution of `qip2` that the test expects -/
def qip2Point : List ℚ :=
  [0, 0, 1, 10, 3, 1, 1]

/-- the asserted values of `qip2` are the only optimal ones -/
def qip2Trees : List (LpTree × LpTree) :=
  [(.leaf 1 [(0, 1)], .split 5 0 (.leaf 0 [(0, 1), (24, 13), (20, 1/2), (23, 5), (8,
  1)]) (.split 6 0 (.leaf 0 [(25, 1), (4, 1/13), (24, 6/13), (23, 5/13), (22, 1/26), (18, 1/13),
  (6, 1/13)]) (.leaf 1 [(19, 1/2), (14, 1/2), (24, 3), (23, 5/2), (22, 1/4), (25, 11/2)]))),
  (.leaf 1 [(2, 1)], .split 5 0 (.leaf 0 [(0, 1), (20, 1/2), (8, 1), (23, 5), (24,
  13)]) (.split 6 0 (.leaf 0 [(25, 1), (18, 1/13), (24, 6/13), (15, 1/13), (22, 1/26), (23, 5/13),
  (4, 2/13)]) (.leaf 1 [(19, 1), (24, 6), (0, 1), (22, 1/2), (23, 5), (25, 11)]))),
  (.split 5 0 (.leaf 0 [(5, 1), (24, 26), (8, 1), (20, 1)]) (.split 6 0 (.leaf 0 [(22, 1), (18,
  2), (4, 2), (6, 2), (24, 12), (25, 26), (23, 10)]) (.leaf 1 [(14, 1), (19, 1), (0, 1), (25,
  11)])), .split 5 0 (.leaf 0 [(24, 1), (0, 1/13), (8, 1/13), (20, 1/26), (23,
  5/13)]) (.leaf 1 [(0, 1), (22, 1/2), (24, 6), (23, 5)])), (.split 5 0 (.leaf 0 [(0, 1), (20,
  1/2), (8, 1), (23, 5), (24, 13)]) (.split 6 0 (.leaf 0 [(25, 1), (18, 1/13), (24, 6/13), (15,
  1/13), (22, 1/26), (23, 5/13), (4, 2/13)]) (.leaf 1 [(14, 1), (19, 1), (24, 12), (0, 1), (22,
  1), (25, 11)])), .split 5 0 (.leaf 0 [(8, 1), (20, 1/2), (0, 1), (23, 5), (24,
  13)]) (.split 6 0 (.leaf 0 [(22, 1), (18, 2), (24, 12), (15, 2), (25, 26), (23, 10), (4,
  4)]) (.leaf 1 [(14, 1), (25, 11), (0, 3), (23, 10), (19, 1)]))), (.leaf 1 [(0, 1)],
  .split 5 0 (.leaf 0 [(0, 1), (24, 13), (20, 1/2), (23, 5), (8, 1)]) (.split 6 0 (.leaf 0 [(25,
  1), (4, 1/13), (24, 6/13), (23, 5/13), (22, 1/26), (18, 1/13), (6, 1/13)]) (.leaf 1 [(19, 1/2),
  (14, 1/2), (24, 3), (23, 5/2), (22, 1/4), (25, 11/2)]))), (.split 5 0 (.leaf 0 [(5, 1), (24,
  26), (8, 1), (20, 1)]) (.split 6 0 (.leaf 0 [(22, 1), (18, 2), (4, 2), (6, 2), (24, 12), (25,
  26), (23, 10)]) (.leaf 1 [(14, 1), (19, 1), (0, 1), (25, 11)])), .split 5 0 (.leaf 0 [(24, 1),
  (0, 1/13), (8, 1/13), (20, 1/26), (23, 5/13)]) (.leaf 1 [(0, 1), (22, 1/2), (24, 6), (23, 5)])),
  (.split 5 0 (.leaf 0 [(0, 1), (20, 1/2), (8, 1), (23, 5), (24, 13)]) (.split 6 0 (.leaf 0 [(25,
  1), (18, 1/13), (24, 6/13), (15, 1/13), (22, 1/26), (23, 5/13), (4, 2/13)]) (.leaf 1 [(14, 1),
  (19, 1), (24, 12), (0, 1), (22, 1), (25, 11)])), .split 5 0 (.leaf 0 [(8, 1), (20, 1/2), (0, 1),
  (23, 5), (24, 13)]) (.split 6 0 (.leaf 0 [(22, 1), (18, 2), (24, 12), (15, 2), (25, 26), (23,
  10), (4, 4)]) (.leaf 1 [(14, 1), (25, 11), (0, 3), (23, 10), (19, 1)]))), (.leaf 1 [(2, 1)],
  .split 5 0 (.leaf 0 [(0, 1), (20, 1/2), (8, 1), (23, 5), (24, 13)]) (.split 6 0 (.leaf 0 [(25,
  1), (18, 1/13), (24, 6/13), (15, 1/13), (22, 1/26), (23, 5/13), (4, 2/13)]) (.leaf 1 [(19, 1),
  (24, 6), (0, 1), (22, 1/2), (23, 5), (25, 11)]))), (.leaf 1 [(0, 1)], .split 5 0 (.leaf 0 [(0,
  1), (24, 13), (20, 1/2), (23, 5), (8, 1)]) (.split 6 0 (.leaf 0 [(25, 1), (4, 1/13), (24, 6/13),
  (23, 5/13), (22, 1/26), (18, 1/13), (6, 1/13)]) (.leaf 1 [(19, 1/2), (14, 1/2), (24, 3), (23,
  5/2), (22, 1/4), (25, 11/2)]))), (.split 5 0 (.leaf 0 [(5, 1), (24, 26), (8, 1), (20,
  1)]) (.split 6 0 (.leaf 0 [(22, 1), (18, 2), (4, 2), (6, 2), (24, 12), (25, 26), (23,
  10)]) (.leaf 1 [(14, 1), (19, 1), (0, 1), (25, 11)])), .split 5 0 (.leaf 0 [(24, 1), (0, 1/13),
  (8, 1/13), (20, 1/26), (23, 5/13)]) (.leaf 1 [(0, 1), (22, 1/2), (24, 6), (23, 5)])),
  (.split 5 0 (.leaf 0 [(0, 1), (20, 1/2), (8, 1), (23, 5), (24, 13)]) (.split 6 0 (.leaf 0 [(25,
  1), (18, 1/13), (24, 6/13), (15, 1/13), (22, 1/26), (23, 5/13), (4, 2/13)]) (.leaf 1 [(14, 1),
  (19, 1), (24, 12), (0, 1), (22, 1), (25, 11)])), .split 5 0 (.leaf 0 [(8, 1), (20, 1/2), (0, 1),
  (23, 5), (24, 13)]) (.split 6 0 (.leaf 0 [(22, 1), (18, 2), (24, 12), (15, 2), (25, 26), (23,
  10), (4, 4)]) (.leaf 1 [(14, 1), (25, 11), (0, 3), (23, 10), (19, 1)])))]

/-- the problem of `qip3` in numbers -/
def qip3Code : Coded where
  ints := [true, true, true, true, true, true, true, true, true]
  facts := [
    sparse 1 [(0, 1)] 0,
    sparse 1 [(0, -1)] 10,
    sparse 2 [(1, 1)] 0,
    sparse 2 [(1, -1)] 10,
    sparse 3 [(2, 1)] 0,
    sparse 3 [(2, -1)] 10,
    sparse 4 [(3, 1)] 0,
    sparse 4 [(3, -1)] 10,
    sparse 5 [(4, 1)] 0,
    sparse 5 [(4, -1)] 10,
    sparse 6 [(5, 1)] 0,
    sparse 6 [(5, -1)] 10,
    sparse 7 [(6, 1)] 0,
    sparse 7 [(6, -1)] 1,
    sparse 8 [(7, 1)] 0,
    sparse 8 [(7, -1)] 1,
    sparse 9 [(8, 1)] 0,
    sparse 9 [(8, -1)] 1,
    sparse 9 [(0, -1), (2, 1), (6, -15)] 10,
    sparse 9 [(0, 1), (2, -1), (6, 13)] (-3),
    sparse 9 [(4, -1), (5, 1), (8, -11)] 10,
    sparse 9 [(4, 1), (5, -1), (8, 13)] (-3),
    sparse 9 [(0, -1), (1, 1)] 0,
    sparse 9 [(2, -1), (3, 1)] 0,
    sparse 9 [(6, -1), (7, 1)] 0,
    sparse 9 [(6, 1), (7, -1)] 0,
    sparse 9 [(0, 1), (3, -1), (7, 13)] (-3),
    sparse 9 [(1, -1), (2, 1), (7, -11)] 10]
  objective := sparse 9 [(0, 1/5), (2, 1/10), (4, 1/10), (5, 1/10)] 0

/-- the values asserted by `qip3` -/
def qip3Goals : List (ℕ × ℚ) :=
  [(0, 0), (1, 0), (2, 5), (4, 0), (5, 1)]

/-- no feasible assignment of `qip3` is better -/
def qip3Lower : LpTree :=
  .split 6 0 (.leaf 1 [(28, 13/5), (4, 3/10), (8, 1/10), (10, 1/10), (19,
  1/5)]) (.split 8 0 (.leaf 1 [(0, 3/10), (18, 1/10), (29, 13/10), (10, 1/5), (28, 3/2), (21,
  1/10)]) (.leaf 1 [(0, 3/10), (18, 1/10), (8, 1/5), (20, 1/10), (28, 3/2), (29, 11/10)]))

/-- the solution of `qip3` that the test expects -/
def qip3Point : List ℚ :=
  [0, 0, 5, 10, 0, 1, 1, 1, 1]

/-- another solution of `qip3` -/
def qip3Other : List ℚ :=
  [0, 4, 5, 10, 0, 1, 1, 1, 1]

/-- the values of `qip3` that the problem settles -/
def qip3Settled : List (ℕ × ℚ) :=
  [(0, 0), (2, 5), (4, 0), (5, 1)]

/-- the asserted values of `qip3` are the only optimal ones -/
def qip3Trees : List (LpTree × LpTree) :=
  [(.leaf 1 [(0, 1)], .split 8 0 (.split 6 0 (.leaf 0 [(30, 1), (29, 1/2), (4, 3/26), (21, 1/26),
  (10, 1/13), (19, 1/13), (28, 5/13)]) (.leaf 0 [(0, 1), (29, 13/3), (18, 1/3), (21, 1/3), (10,
  2/3), (30, 5), (28, 10/3)])) (.split 6 0 (.leaf 0 [(30, 1), (8, 1/13), (4, 3/26), (29, 11/26),
  (20, 1/26), (19, 1/13), (28, 5/13)]) (.leaf 1 [(8, 2/3), (18, 1/3), (29, 11/3), (20, 1/3), (30,
  5), (28, 10/3)]))), (.split 6 0 (.split 8 0 (.leaf 0 [(30, 1), (19, 2/13), (4, 3/13), (21,
  1/13), (10, 2/13), (28, 10/13), (29, 2)]) (.leaf 0 [(20, 1), (19, 2), (4, 3), (29, 26), (8, 2),
  (28, 10), (30, 11)])) (.leaf 1 [(0, 1), (18, 1), (29, 15)]), .split 6 0 (.leaf 1 [(19, 2/3), (8,
  1/3), (10, 1/3), (28, 10/3), (29, 26/3)]) (.split 8 0 (.leaf 0 [(18, 1), (29, 15), (30, 13),
  (21, 1), (10, 2), (28, 10), (0, 3)]) (.leaf 1 [(8, 2), (30, 11), (20, 1), (28, 10), (0, 2)]))),
  (.leaf 1 [(8, 1)], .split 6 0 (.leaf 1 [(19, 2), (4, 3), (29, 26), (10, 1), (28,
  10)]) (.split 8 0 (.leaf 0 [(30, 1), (29, 15/13), (18, 1/13), (0, 3/13), (10, 2/13), (28,
  10/13), (21, 1/13)]) (.leaf 1 [(29, 15/2), (18, 1/2), (0, 3/2), (20, 1/2), (28, 5), (30,
  11/2)]))), (.split 6 0 (.split 8 0 (.leaf 0 [(30, 1), (19, 2/13), (4, 3/13), (21, 1/13), (10,
  2/13), (28, 10/13), (29, 2)]) (.leaf 0 [(29, 1), (19, 1/13), (4, 3/26), (8, 1/13), (20, 1/26),
  (28, 5/13), (30, 11/26)])) (.split 8 0 (.leaf 0 [(18, 1), (30, 13), (0, 3), (21, 1), (10, 2),
  (29, 15), (28, 10)]) (.leaf 1 [(8, 1), (20, 1), (30, 11)])),
  .split 8 0 (.split 6 0 (.leaf 0 [(10, 1), (19, 1), (4, 3/2), (21, 1/2), (30, 13), (29, 13/2),
  (28, 5)]) (.leaf 0 [(10, 1), (30, 15/2), (18, 1/2), (21, 1/2), (0, 3/2), (29, 13/2), (28,
  5)])) (.split 6 0 (.leaf 0 [(20, 1), (19, 2), (4, 3), (29, 11), (30, 26), (8, 2), (28,
  10)]) (.leaf 1 [(30, 15), (18, 1), (0, 3), (8, 1), (28, 10)])))]

/-- the problem of `mlp` in numbers -/
def mlpCode : Coded where
  ints := [false, false, false, false, false, true, true]
  facts := [
    sparse 1 [(0, 1)] 0,
    sparse 1 [(0, -1)] 10,
    sparse 2 [(1, 1)] 0,
    sparse 2 [(1, -1)] 10,
    sparse 3 [(2, 1)] 0,
    sparse 3 [(2, -1)] 10,
    sparse 4 [(3, 1)] 0,
    sparse 4 [(3, -1)] 10,
    sparse 5 [(4, 1)] 0,
    sparse 5 [(4, -1)] 10,
    sparse 6 [(5, 1)] 0,
    sparse 6 [(5, -1)] 1,
    sparse 7 [(6, 1)] 0,
    sparse 7 [(6, -1)] 1,
    sparse 7 [(0, -1), (2, 1), (5, -299/20)] 10,
    sparse 7 [(0, 1), (2, -1), (5, 261/20)] (-61/20),
    sparse 7 [(0, -1), (1, 1)] 0,
    sparse 7 [(2, -1), (3, 1)] 0,
    sparse 7 [(5, -1), (6, 1)] 0,
    sparse 7 [(5, 1), (6, -1)] 0,
    sparse 7 [(0, 1), (3, -1), (6, 131/10)] (-31/10),
    sparse 7 [(1, -1), (2, 1), (6, -109/10)] 10]
  objective := sparse 7 [(0, 1/5), (2, 1/10), (4, 1/10)] 0

/-- the values asserted by `mlp` -/
def mlpGoals : List (ℕ × ℚ) :=
  [(0, 0), (1, 81/20), (2, 99/20), (4, 0)]

/-- no feasible assignment of `mlp` is better -/
def mlpLower : LpTree :=
  .split 5 0 (.leaf 1 [(22, 131/50), (4, 1/10), (6, 1/5), (8, 1/10), (19, 131/50), (20,
  1/5)]) (.leaf 1 [(0, 3/10), (14, 1/10), (8, 1/10), (22, 299/200)])

/-- the solution of `mlp` that the test expects -/
def mlpPoint : List ℚ :=
  [0, 81/20, 99/20, 10, 0, 1, 1]

/-- another solution of `mlp` -/
def mlpOther : List ℚ :=
  [0, 0, 99/20, 10, 0, 1, 1]

/-- the values of `mlp` that the problem settles -/
def mlpSettled : List (ℕ × ℚ) :=
  [(0, 0), (2, 99/20), (4, 0)]

/-- the asserted values of `mlp` are the only optimal ones -/
def mlpTrees : List (LpTree × LpTree) :=
  [(.leaf 1 [(0, 1)], .split 5 0 (.leaf 0 [(23, 1), (22, 100/261), (4, 10/87), (8, 10/261), (15,
  20/261)]) (.leaf 1 [(22, 10/3), (14, 1/3), (8, 1/3), (23, 299/60)])), (.split 5 0 (.leaf 0 [(23,
  1), (4, 10/87), (8, 10/261), (15, 20/261), (22, 100/261)]) (.leaf 1 [(0, 1), (23, 299/20), (14,
  1)]), .leaf 1 [(0, 2), (8, 1), (22, 10)]), (.leaf 1 [(8, 1)], .split 5 0 (.leaf 0 [(8, 1), (4,
  3), (23, 261/10), (15, 2), (22, 10)]) (.leaf 1 [(14, 1), (0, 3), (23, 299/20), (22, 10)]))]

/-- the problem of `fiveTrains` in numbers -/
def fiveTrainsCode : Coded where
  ints := [true, true, true, true, true, true, true, true, true, true, true, true, true, true, true,
    true, true, true]
  facts := [
    sparse 1 [(0, 1)] 0,
    sparse 1 [(0, -1)] 10,
    sparse 2 [(1, 1)] 0,
    sparse 2 [(1, -1)] 10,
    sparse 3 [(2, 1)] 0,
    sparse 3 [(2, -1)] 10,
    sparse 4 [(3, 1)] 0,
    sparse 4 [(3, -1)] 10,
    sparse 5 [(4, 1)] 0,
    sparse 5 [(4, -1)] 10,
    sparse 6 [(5, 1)] 0,
    sparse 6 [(5, -1)] 10,
    sparse 7 [(6, 1)] 0,
    sparse 7 [(6, -1)] 10,
    sparse 8 [(7, 1)] 0,
    sparse 8 [(7, -1)] 10,
    sparse 9 [(8, 1)] 0,
    sparse 9 [(8, -1)] 10,
    sparse 10 [(9, 1)] 0,
    sparse 10 [(9, -1)] 1,
    sparse 11 [(10, 1)] 0,
    sparse 11 [(10, -1)] 1,
    sparse 12 [(11, 1)] 0,
    sparse 12 [(11, -1)] 1,
    sparse 13 [(12, 1)] 0,
    sparse 13 [(12, -1)] 1,
    sparse 14 [(13, 1)] 0,
    sparse 14 [(13, -1)] 1,
    sparse 15 [(14, 1)] 0,
    sparse 15 [(14, -1)] 1,
    sparse 16 [(15, 1)] 0,
    sparse 16 [(15, -1)] 1,
    sparse 17 [(16, 1)] 0,
    sparse 17 [(16, -1)] 1,
    sparse 18 [(17, 1)] 0,
    sparse 18 [(17, -1)] 1,
    sparse 18 [(0, -1), (3, 1), (10, -17)] 10,
    sparse 18 [(0, 1), (3, -1), (10, 11)] (-1),
    sparse 18 [(1, -1), (4, 1), (11, -13)] 10,
    sparse 18 [(1, 1), (4, -1), (11, 15)] (-5),
    sparse 18 [(0, -1), (1, 1)] 0,
    sparse 18 [(1, -1), (2, 1)] 0,
    sparse 18 [(3, -1), (4, 1)] 0,
    sparse 18 [(5, -1), (6, 1)] 0,
    sparse 18 [(7, 1), (8, -1), (9, 16)] (-6),
    sparse 18 [(7, -1), (8, 1), (9, -10)] 10,
    sparse 18 [(10, -1), (11, 1)] 0,
    sparse 18 [(10, 1), (11, -1)] 0,
    sparse 18 [(0, 1), (4, -1), (11, 10)] 0,
    sparse 18 [(1, -1), (3, 1), (11, -12)] 10,
    sparse 18 [(1, 1), (7, -1), (12, 20)] (-10),
    sparse 18 [(2, -1), (12, -1)] 10,
    sparse 18 [(4, -1), (5, 1)] 5,
    sparse 18 [(1, 1), (4, -1), (11, 10)] 0,
    sparse 18 [(1, -1), (4, 1), (11, -12)] 10,
    sparse 18 [(0, 1), (3, -1), (10, 10)] 0,
    sparse 18 [(0, -1), (3, 1), (10, -12)] 10,
    sparse 18 [(5, 1), (7, -1), (17, 10)] 0,
    sparse 18 [(5, -1), (7, 1), (17, -12)] 10,
    sparse 18 [(4, 1), (7, -1), (16, 18)] (-8),
    sparse 18 [(4, -1), (7, 1), (16, -4)] 10,
    sparse 18 [(1, 1), (7, -1), (13, 21)] (-11),
    sparse 18 [(1, -1), (7, 1), (13, -1)] 10,
    sparse 18 [(7, 1), (8, -1), (9, 11)] (-1),
    sparse 18 [(7, -1), (8, 1), (9, -11)] 10]
  objective := sparse 18 [(0, 1/5), (1, 1/5), (3, 1/20), (4, 1/20), (6, 2/25), (7, 1/20), (8, 1/20)] 0

/-- the values asserted by `fiveTrains` -/
def fiveTrainsGoals : List (ℕ × ℚ) :=
  [(0, 0), (3, 7), (1, 0), (4, 7), (5, 2), (6, 2), (7, 1), (8, 2)]

/-- no feasible assignment of `fiveTrains` is better -/
def fiveTrainsLower : LpTree :=
  .split 12 0 (.leaf 0 [(62, 1), (65, 400/21), (50, 20/21), (61,
  1/21)]) (.split 13 0 (.leaf 0 [(51, 1), (66, 21), (41, 1), (14, 1), (65, 1), (61,
  1)]) (.split 16 0 (.split 9 0 (.leaf 0 [(9, 1), (67, 18), (68, 16), (16, 1), (44, 1), (59,
  1)]) (.split 10 0 (.leaf 0 [(51, 1), (69, 15), (41, 1), (67, 18), (14, 1), (47, 15), (39, 1),
  (65, 1), (59, 1)]) (.leaf 1 [(0, 1/4), (2, 1/5), (36, 1/20), (67, 117/50), (52, 2/25), (43,
  2/25), (14, 23/100), (64, 1/20), (68, 11/20), (69, 17/20), (59,
  13/100)]))) (.split 9 0 (.split 17 0 (.split 10 0 (.leaf 1 [(37, 1/5), (70, 26/5), (6, 1/4), (8,
  1/4), (57, 2/25), (69, 4/5), (68, 52/25), (16, 9/50), (44, 13/100), (47, 3), (39, 1/5), (43,
  2/25)]) (.leaf 1 [(0, 3/10), (2, 1/5), (36, 1/10), (42, 1/20), (69, 4/5), (43, 2/25), (68,
  52/25), (16, 9/50), (44, 13/100), (70, 17/10), (57, 2/25)])) (.split 10 0 (.leaf 1 [(37, 1/5),
  (70, 26/5), (6, 1/4), (8, 1/4), (68, 4/5), (12, 2/25), (16, 1/10), (44, 1/20), (47, 3), (39,
  1/5)]) (.leaf 1 [(0, 19/50), (2, 1/5), (36, 9/50), (42, 13/100), (52, 2/25), (43, 2/25), (68,
  4/5), (16, 1/10), (44, 1/20), (70, 153/50)]))) (.split 10 0 (.leaf 1 [(37, 1/5), (69, 26/5), (6,
  1/4), (8, 1/4), (12, 2/25), (14, 1/10), (64, 1/20), (68, 11/20), (47, 3), (39,
  1/5)]) (.leaf 1 [(0, 12/25), (2, 1/5), (36, 7/25), (42, 23/100), (52, 2/25), (43, 2/25), (60,
  1/10), (64, 1/20), (68, 11/20), (69, 119/25), (67, 2/5)])))))

/-- the solution of `fiveTrains` that the test expects -/
def fiveTrainsPoint : List ℚ :=
  [0, 0, 0, 7, 7, 2, 2, 1, 2, 1, 1, 1, 1, 1, 0, 0, 1, 0]

/-- the asserted values of `fiveTrains` are the only optimal ones -/
def fiveTrainsTrees : List (LpTree × LpTree) :=
  [(.leaf 1 [(0, 1)], .split 16 0 (.split 13 0 (.leaf 0 [(38, 1), (66, 2601/70), (61, 93/28), (49,
  13/28), (59, 289/140), (52, 26/35), (43, 26/35), (16, 13/28), (65, 65/7), (48, 13/7), (14,
  117/20), (67, 279/4)]) (.split 12 0 (.leaf 0 [(38, 1), (66, 2601/70), (49, 13/28), (59,
  289/140), (52, 26/35), (43, 26/35), (16, 13/28), (65, 65/7), (48, 13/7), (50, 93/28), (14,
  117/20), (68, 465/7)]) (.split 9 0 (.leaf 0 [(9, 1), (66, 18), (59, 1), (44, 1), (16, 1), (69,
  16)]) (.split 10 0 (.leaf 0 [(48, 1), (66, 261/5), (49, 1/4), (59, 29/10), (52, 2/5), (43, 2/5),
  (69, 11/4), (64, 1/4), (65, 5), (47, 103/4), (39, 5/4), (14, 17/5), (70, 103/4)]) (.leaf 0 [(0,
  1), (66, 26/5), (36, 1/9), (59, 13/45), (52, 8/45), (43, 8/45), (69, 11/9), (64, 1/9), (65,
  20/9), (70, 17/9), (14, 23/45), (40, 4/9)]))))) (.split 13 0 (.leaf 0 [(38, 1), (8, 5/8), (61,
  23/10), (6, 13/40), (10, 13/25), (43, 13/25), (16, 13/40), (65, 13/2), (48, 13/10), (14, 21/8),
  (67, 483/10)]) (.split 9 0 (.split 17 0 (.split 10 0 (.leaf 0 [(37, 1), (8, 5/4), (6, 5/4), (69,
  4), (43, 2/5), (44, 13/20), (16, 9/10), (65, 5), (47, 15), (39, 1), (68, 52/5), (70, 26), (57,
  2/5)]) (.leaf 0 [(0, 1), (42, 1/10), (36, 1/5), (69, 8/5), (43, 4/25), (44, 13/50), (16, 9/25),
  (65, 2), (70, 17/5), (68, 104/25), (40, 2/5), (57, 4/25)])) (.split 12 0 (.leaf 0 [(38, 1), (8,
  5/8), (6, 13/40), (10, 629/200), (43, 13/25), (16, 13/40), (65, 13/2), (48, 13/10), (50, 23/10),
  (58, 21/8), (70, 46), (69, 63/2)]) (.split 10 0 (.leaf 0 [(37, 1), (8, 5/4), (6, 5/4), (10,
  2/5), (43, 2/5), (44, 1/4), (16, 1/2), (65, 5), (47, 15), (39, 1), (68, 4), (71,
  26)]) (.leaf 0 [(0, 1), (42, 13/58), (36, 9/29), (52, 4/29), (43, 4/29), (44, 5/58), (16, 5/29),
  (65, 50/29), (71, 153/29), (68, 40/29), (40, 10/29)])))) (.split 12 0 (.leaf 0 [(38, 1), (8,
  5/8), (6, 13/40), (10, 13/25), (43, 13/25), (68, 143/40), (64, 13/40), (65, 13/2), (48, 13/10),
  (50, 23/10), (14, 59/20), (69, 46)]) (.split 10 0 (.leaf 0 [(37, 1), (8, 5/4), (6, 5/4), (10,
  2/5), (43, 2/5), (68, 11/4), (64, 1/4), (65, 5), (47, 15), (39, 1), (14, 1/2), (70,
  26)]) (.leaf 1 [(42, 23/68), (36, 7/17), (66, 10/17), (52, 2/17), (43, 2/17), (68, 55/68), (64,
  5/68), (65, 25/17), (70, 7), (60, 5/34), (40, 5/17)])))))), (.split 10 0 (.leaf 0 [(8, 1), (37,
  4/5), (6, 1), (39, 4/5), (43, 8/25), (66, 104/5), (65, 4), (16, 1/5), (14, 1/5), (10, 8/25),
  (47, 12)]) (.leaf 1 [(0, 1), (36, 1), (66, 17)]), .split 12 0 (.leaf 0 [(6, 1), (66, 40), (14,
  5/2), (42, 1/2), (0, 2), (43, 4/5), (16, 1/2), (65, 10), (50, 2), (10,
  4/5)]) (.split 13 0 (.leaf 0 [(6, 1), (67, 42), (14, 5/2), (42, 1/2), (0, 2), (43, 4/5), (16,
  1/2), (61, 2), (65, 10), (10, 4/5)]) (.split 9 0 (.leaf 1 [(40, 10/9), (68, 40/9), (42, 13/18),
  (0, 20/9), (43, 4/9), (44, 5/18), (16, 5/9), (65, 50/9), (52, 4/9)]) (.split 10 0 (.leaf 0 [(6,
  1), (37, 2/5), (47, 6), (14, 1/5), (42, 1/2), (69, 52/5), (43, 4/25), (68, 11/10), (64, 1/10),
  (65, 2), (39, 2/5), (10, 4/25)]) (.split 16 0 (.leaf 0 [(36, 1), (69, 17), (40, 4), (14, 23/5),
  (70, 234/5), (0, 9), (43, 8/5), (68, 11), (64, 1), (65, 20), (52, 8/5), (59,
  13/5)]) (.leaf 1 [(40, 5/7), (60, 5/14), (42, 23/28), (0, 10/7), (43, 2/7), (68, 55/28), (64,
  5/28), (65, 25/7), (52, 2/7), (70, 10/7)])))))), (.leaf 1 [(2, 1)],
  .split 16 0 (.split 13 0 (.leaf 0 [(67, 1), (48, 17/840), (66, 129/140), (36, 1/84), (59,
  43/840), (0, 11/280), (43, 2/105), (16, 1/84), (52, 2/105), (47, 17/84), (14, 31/280), (61,
  1/21), (65, 5/21)]) (.split 12 0 (.leaf 0 [(68, 1), (48, 17/800), (66, 387/400), (36, 1/80),
  (59, 43/800), (0, 33/800), (43, 1/50), (16, 1/80), (52, 1/50), (47, 17/80), (14, 93/800), (50,
  1/20), (65, 1/4)]) (.split 9 0 (.leaf 0 [(2, 1), (48, 17/40), (66, 387/20), (36, 1/4), (59,
  43/40), (0, 33/40), (43, 2/5), (44, 53/40), (16, 63/40), (52, 2/5), (47, 17/4), (69, 106/5),
  (65, 5)]) (.split 10 0 (.leaf 0 [(39, 1), (48, 5/4), (66, 261/5), (36, 1/4), (59, 29/10), (70,
  93/4), (43, 2/5), (69, 11/4), (64, 1/4), (52, 2/5), (47, 55/2), (14, 17/5), (65,
  5)]) (.leaf 0 [(2, 1), (36, 1/4), (66, 117/10), (59, 13/20), (0, 5/4), (43, 2/5), (69, 11/4),
  (64, 1/4), (52, 2/5), (70, 17/4), (14, 23/20), (65, 5)]))))) (.split 10 0 (.leaf 0 [(39, 1), (6,
  5/4), (8, 5/4), (67, 26), (37, 1), (43, 2/5), (16, 1/4), (10, 2/5), (47, 15), (14, 1/4), (65,
  5)]) (.split 12 0 (.leaf 0 [(68, 1), (36, 43/400), (42, 19/200), (66, 1/4), (0, 63/400), (43,
  1/50), (16, 1/80), (52, 1/50), (67, 731/400), (60, 1/16), (50, 1/20), (65,
  1/4)]) (.split 13 0 (.leaf 0 [(69, 1), (36, 43/420), (42, 19/210), (66, 5/21), (0, 3/20), (43,
  2/105), (16, 1/84), (52, 2/105), (67, 731/420), (60, 5/84), (61, 1/21), (65,
  5/21)]) (.split 9 0 (.leaf 0 [(2, 1), (36, 9/10), (42, 13/20), (0, 19/10), (43, 2/5), (44, 1/4),
  (16, 1/2), (52, 2/5), (67, 153/10), (70, 4), (65, 5)]) (.leaf 1 [(36, 7/5), (42, 23/20), (66,
  2), (0, 12/5), (43, 2/5), (70, 11/4), (64, 1/4), (52, 2/5), (67, 119/5), (60, 1/2), (65,
  5)])))))), (.split 16 0 (.leaf 1 [(66, 18), (14, 1), (59, 1)]) (.split 10 0 (.leaf 0 [(14, 1),
  (67, 104), (10, 8/5), (8, 5), (43, 8/5), (6, 5), (65, 20), (39, 4), (37, 4), (16, 1), (47,
  60)]) (.leaf 1 [(42, 1), (67, 17), (36, 1), (0, 1)])), .split 12 0 (.leaf 0 [(8, 1), (48,
  52/37), (66, 1860/37), (49, 13/37), (14, 106/37), (38, 28/37), (43, 104/185), (16, 13/37), (65,
  260/37), (10, 104/185), (50, 93/37)]) (.split 13 0 (.leaf 0 [(8, 1), (48, 52/37), (67, 1953/37),
  (49, 13/37), (14, 106/37), (38, 28/37), (43, 104/185), (16, 13/37), (65, 260/37), (10, 104/185),
  (61, 93/37)]) (.split 9 0 (.split 17 0 (.leaf 1 [(39, 17/32), (36, 15/32), (0, 75/32), (68,
  39/2), (2, 43/32), (43, 3/4), (44, 39/32), (16, 27/16), (65, 75/8), (47, 255/32), (69, 15/2),
  (57, 3/4)]) (.split 16 0 (.leaf 0 [(70, 1), (58, 1/18), (52, 1/18), (59, 1/18), (69,
  2/3)]) (.split 10 0 (.leaf 0 [(8, 1), (39, 4/5), (58, 1/5), (6, 1), (37, 4/5), (71, 104/5), (43,
  8/25), (16, 1/5), (65, 4), (47, 12), (10, 13/25), (69, 12/5)]) (.leaf 0 [(42, 1), (36, 23/18),
  (58, 5/18), (0, 43/18), (2, 10/9), (43, 4/9), (16, 5/18), (65, 50/9), (71, 391/18), (52, 13/18),
  (69, 10/3)])))) (.split 10 0 (.leaf 0 [(8, 1), (37, 4/5), (64, 1/5), (6, 1), (39, 4/5), (69,
  104/5), (43, 8/25), (47, 12), (68, 11/5), (65, 4), (14, 2/5), (10,
  8/25)]) (.split 16 0 (.leaf 0 [(70, 1), (69, 85/234), (64, 5/234), (36, 5/234), (2, 10/117), (0,
  25/234), (43, 4/117), (68, 55/234), (65, 50/117), (14, 23/234), (52, 4/117), (59,
  1/18)]) (.leaf 1 [(36, 5/23), (64, 5/23), (60, 10/23), (0, 25/23), (43, 8/23), (2, 20/23), (68,
  55/23), (65, 100/23), (69, 85/23), (52, 8/23), (70, 40/23)])))))), (.split 10 0 (.leaf 0 [(8,
  1), (37, 4/5), (6, 1), (12, 8/25), (16, 1/5), (39, 4/5), (47, 12), (65, 4), (66, 104/5), (14,
  1/5)]) (.leaf 1 [(36, 1), (42, 1), (52, 1), (66, 17), (0, 1)]), .split 13 0 (.leaf 0 [(10, 1),
  (61, 5/2), (6, 5/8), (43, 1), (16, 5/8), (65, 25/2), (66, 105/2), (14, 25/8), (8, 5/8), (0,
  5/2)]) (.split 10 0 (.leaf 0 [(10, 1), (47, 75/2), (39, 5/2), (6, 25/8), (43, 1), (16, 5/8),
  (65, 25/2), (37, 5/2), (14, 5/8), (8, 25/8), (67, 65)]) (.split 12 0 (.leaf 0 [(52, 1), (68,
  50), (36, 9/4), (42, 13/8), (43, 1), (16, 5/8), (65, 25/2), (14, 25/8), (50, 5/2), (67, 153/4),
  (0, 19/4)]) (.split 9 0 (.leaf 0 [(52, 1), (2, 5/2), (36, 9/4), (42, 13/8), (43, 1), (44, 5/8),
  (16, 5/4), (65, 25/2), (69, 10), (67, 153/4), (0, 19/4)]) (.split 16 0 (.leaf 0 [(52, 1), (2,
  5/2), (36, 5/8), (59, 13/8), (70, 117/4), (43, 1), (69, 55/8), (64, 5/8), (65, 25/2), (14,
  23/8), (67, 85/8), (0, 25/8)]) (.leaf 1 [(2, 5/2), (36, 5/2), (70, 5), (42, 15/8), (43, 1), (69,
  55/8), (64, 5/8), (65, 25/2), (60, 5/4), (67, 85/2), (0, 5)])))))), (.split 10 0 (.leaf 0 [(8,
  1), (37, 4/5), (39, 4/5), (12, 8/25), (16, 1/5), (6, 1), (47, 12), (65, 4), (66, 104/5), (14,
  1/5)]) (.leaf 1 [(36, 1), (52, 1), (42, 1), (43, 1), (66, 17), (0, 1)]),
  .split 13 0 (.leaf 0 [(12, 1), (61, 5/2), (6, 5/8), (16, 5/8), (65, 25/2), (66, 105/2), (14,
  25/8), (8, 5/8), (0, 5/2)]) (.split 17 0 (.split 12 0 (.leaf 0 [(12, 1), (38, 25/13), (48, 5/2),
  (6, 5/8), (8, 125/104), (16, 5/8), (65, 25/2), (68, 1150/13), (50, 115/26), (14,
  525/104)]) (.split 16 0 (.split 9 0 (.leaf 0 [(43, 1), (47, 85/8), (70, 142/3), (36, 5/8), (59,
  7/3), (52, 1), (0, 59/12), (44, 71/24), (16, 43/12), (65, 25/2), (39, 17/24), (69, 42), (40,
  43/24)]) (.split 10 0 (.leaf 0 [(12, 1), (47, 75/2), (64, 5/8), (37, 5/2), (6, 25/8), (70,
  55/8), (65, 25/2), (39, 5/2), (14, 5/4), (8, 25/8), (71, 65)]) (.leaf 0 [(43, 1), (2, 5/2), (36,
  5/8), (59, 13/8), (52, 1), (69, 117/4), (70, 55/8), (64, 5/8), (65, 25/2), (14, 23/8), (71,
  85/8), (0, 25/8)]))) (.split 9 0 (.split 10 0 (.leaf 0 [(12, 1), (71, 65), (39, 5/2), (8, 25/8),
  (6, 25/8), (16, 5/8), (65, 25/2), (37, 5/2), (47, 75/2), (14, 5/8)]) (.leaf 0 [(43, 1), (2,
  5/2), (36, 9/4), (52, 1), (42, 13/8), (44, 5/8), (16, 5/4), (65, 25/2), (70, 10), (71, 153/4),
  (0, 19/4)])) (.split 10 0 (.leaf 0 [(12, 1), (70, 55/8), (39, 5/2), (8, 25/8), (6, 25/8), (71,
  65), (14, 5/4), (65, 25/2), (37, 5/2), (47, 75/2), (64, 5/8)]) (.leaf 1 [(2, 5/2), (36, 5/2),
  (69, 5), (42, 15/8), (70, 55/8), (64, 5/8), (65, 25/2), (60, 5/4), (71, 85/2), (0,
  5)]))))) (.split 10 0 (.leaf 0 [(12, 1), (47, 75/2), (39, 5/2), (68, 65), (6, 25/8), (16, 5/8),
  (65, 25/2), (37, 5/2), (10, 5/8), (8, 25/8), (58, 5/8), (67, 15/2)]) (.leaf 0 [(43, 1), (68,
  391/8), (52, 13/8), (42, 9/4), (16, 5/8), (65, 25/2), (2, 5/2), (0, 43/8), (36, 23/8), (58,
  5/8), (67, 15/2)])))), (.split 10 0 (.leaf 0 [(8, 1), (37, 4/5), (6, 1), (39, 4/5), (43, 8/25),
  (14, 1/5), (16, 1/5), (47, 12), (65, 4), (10, 8/25), (66, 104/5)]) (.split 13 0 (.leaf 0 [(42,
  1), (36, 18/13), (61, 20/13), (52, 8/13), (43, 8/13), (14, 25/13), (16, 5/13), (67, 420/13),
  (65, 100/13), (66, 306/13), (0, 38/13)]) (.split 12 0 (.leaf 0 [(42, 1), (36, 18/13), (52,
  8/13), (43, 8/13), (14, 25/13), (16, 5/13), (68, 400/13), (65, 100/13), (50, 20/13), (66,
  306/13), (0, 38/13)]) (.split 9 0 (.leaf 0 [(0, 1), (36, 9/29), (42, 13/58), (52, 4/29), (43,
  4/29), (69, 40/29), (16, 5/29), (44, 5/58), (65, 50/29), (66, 153/29), (40,
  10/29)]) (.split 16 0 (.leaf 0 [(36, 1), (40, 4), (64, 1), (59, 13/5), (52, 8/5), (43, 8/5),
  (14, 23/5), (69, 11), (70, 234/5), (0, 9), (65, 20), (66, 17)]) (.leaf 1 [(36, 1), (0, 1), (42,
  1), (60, 1), (66, 17), (70, 4)]))))), .split 10 0 (.leaf 0 [(14, 1), (66, 104), (37, 4), (43,
  8/5), (8, 5), (16, 1), (6, 5), (39, 4), (65, 20), (10, 8/5), (47,
  60)]) (.split 12 0 (.leaf 0 [(14, 1), (48, 26/53), (50, 93/106), (38, 14/53), (43, 52/265), (8,
  37/106), (16, 13/106), (10, 52/265), (67, 930/53), (65, 130/53), (49,
  13/106)]) (.split 13 0 (.leaf 0 [(14, 1), (48, 26/53), (61, 93/106), (38, 14/53), (43, 52/265),
  (8, 37/106), (16, 13/106), (10, 52/265), (68, 1953/106), (65, 130/53), (49,
  13/106)]) (.split 16 0 (.leaf 1 [(16, 5/18), (59, 13/18), (52, 4/9), (43, 4/9), (69, 13), (2,
  10/9), (66, 85/18), (36, 5/18), (65, 50/9), (0, 25/18)]) (.split 9 0 (.leaf 0 [(70, 1), (16,
  1/8), (52, 1/10), (43, 1/10), (42, 13/80), (2, 1/4), (44, 1/16), (66, 153/40), (36, 9/40), (65,
  5/4), (0, 19/40)]) (.leaf 1 [(0, 19/5), (52, 4/5), (43, 4/5), (36, 9/5), (64, 1/2), (70, 11/2),
  (66, 153/5), (2, 2), (65, 10), (42, 13/10)])))))), (.split 10 0 (.leaf 0 [(8, 1), (37, 4/5), (6,
  1), (39, 4/5), (43, 8/25), (16, 1/5), (65, 4), (47, 12), (14, 1/5), (10, 8/25), (66,
  104/5)]) (.split 13 0 (.leaf 0 [(42, 1), (36, 18/13), (61, 20/13), (52, 8/13), (43, 8/13), (16,
  5/13), (65, 100/13), (67, 420/13), (14, 25/13), (66, 306/13), (0,
  38/13)]) (.split 12 0 (.leaf 0 [(42, 1), (36, 18/13), (52, 8/13), (43, 8/13), (16, 5/13), (65,
  100/13), (68, 400/13), (14, 25/13), (50, 20/13), (66, 306/13), (0,
  38/13)]) (.split 9 0 (.leaf 0 [(2, 1), (36, 9/10), (69, 4), (52, 2/5), (43, 2/5), (44, 1/4),
  (16, 1/2), (65, 5), (42, 13/20), (66, 153/10), (0, 19/10)]) (.split 16 0 (.leaf 0 [(36, 1), (40,
  4), (70, 234/5), (59, 13/5), (52, 8/5), (43, 8/5), (69, 11), (64, 1), (65, 20), (0, 9), (14,
  23/5), (66, 17)]) (.leaf 1 [(36, 1), (0, 1), (69, 11), (64, 1), (42, 1), (60, 1), (66, 17), (70,
  4)]))))), .split 13 0 (.leaf 0 [(16, 1), (61, 4), (10, 8/5), (66, 84), (43, 8/5), (8, 1), (65,
  20), (14, 5), (6, 1), (0, 4)]) (.split 9 0 (.split 10 0 (.leaf 0 [(16, 1), (47, 30), (6, 5/2),
  (68, 52), (43, 4/5), (44, 1/2), (37, 2), (65, 10), (10, 4/5), (67, 8), (39, 2), (8,
  5/2)]) (.leaf 0 [(16, 1), (68, 153/5), (36, 9/5), (52, 4/5), (43, 4/5), (44, 1/2), (42, 13/10),
  (65, 10), (67, 8), (40, 2), (0, 29/5)])) (.split 10 0 (.leaf 0 [(16, 1), (39, 4), (10, 8/5),
  (37, 4), (43, 8/5), (8, 5), (65, 20), (47, 60), (14, 1), (6, 5), (68,
  104)]) (.split 12 0 (.leaf 0 [(16, 1), (36, 18/5), (52, 8/5), (43, 8/5), (42, 13/5), (65, 20),
  (69, 80), (14, 5), (50, 4), (68, 306/5), (0, 38/5)]) (.split 16 0 (.leaf 0 [(64, 1), (36, 1),
  (59, 13/5), (52, 8/5), (43, 8/5), (67, 11), (70, 234/5), (65, 20), (2, 4), (14, 23/5), (68, 17),
  (0, 5)]) (.leaf 1 [(2, 4), (36, 23/5), (42, 18/5), (52, 8/5), (43, 8/5), (60, 1), (65, 20), (70,
  4), (68, 391/5), (0, 43/5)]))))))]

/-- the problem of `manyTrains` in numbers -/
def manyTrainsCode : Coded where
  ints := [true, true, true, true, true, true, true, true, true, true, true, true, true, true, true,
    true, true, true, true, true, true, true, true, true, true, true, true, true, true, true,
    true, true, true, true, true, true]
  facts := [
    sparse 1 [(0, 1)] 0,
    sparse 1 [(0, -1)] 10,
    sparse 2 [(1, 1)] 0,
    sparse 2 [(1, -1)] 10,
    sparse 3 [(2, 1)] 0,
    sparse 3 [(2, -1)] 10,
    sparse 4 [(3, 1)] 0,
    sparse 4 [(3, -1)] 10,
    sparse 5 [(4, 1)] 0,
    sparse 5 [(4, -1)] 10,
    sparse 6 [(5, 1)] 0,
    sparse 6 [(5, -1)] 10,
    sparse 7 [(6, 1)] 0,
    sparse 7 [(6, -1)] 10,
    sparse 8 [(7, 1)] 0,
    sparse 8 [(7, -1)] 10,
    sparse 9 [(8, 1)] 0,
    sparse 9 [(8, -1)] 1,
    sparse 10 [(9, 1)] 0,
    sparse 10 [(9, -1)] 1,
    sparse 11 [(10, 1)] 0,
    sparse 11 [(10, -1)] 1,
    sparse 12 [(11, 1)] 0,
    sparse 12 [(11, -1)] 1,
    sparse 13 [(12, 1)] 0,
    sparse 13 [(12, -1)] 1,
    sparse 14 [(13, 1)] 0,
    sparse 14 [(13, -1)] 1,
    sparse 15 [(14, 1)] 0,
    sparse 15 [(14, -1)] 1,
    sparse 16 [(15, 1)] 0,
    sparse 16 [(15, -1)] 1,
    sparse 17 [(16, 1)] 0,
    sparse 17 [(16, -1)] 1,
    sparse 18 [(17, 1)] 0,
    sparse 18 [(17, -1)] 1,
    sparse 19 [(18, 1)] 0,
    sparse 19 [(18, -1)] 1,
    sparse 20 [(19, 1)] 0,
    sparse 20 [(19, -1)] 1,
    sparse 21 [(20, 1)] 0,
    sparse 21 [(20, -1)] 1,
    sparse 22 [(21, 1)] 0,
    sparse 22 [(21, -1)] 1,
    sparse 23 [(22, 1)] 0,
    sparse 23 [(22, -1)] 1,
    sparse 24 [(23, 1)] 0,
    sparse 24 [(23, -1)] 1,
    sparse 25 [(24, 1)] 0,
    sparse 25 [(24, -1)] 1,
    sparse 26 [(25, 1)] 0,
    sparse 26 [(25, -1)] 1,
    sparse 27 [(26, 1)] 0,
    sparse 27 [(26, -1)] 1,
    sparse 28 [(27, 1)] 0,
    sparse 28 [(27, -1)] 1,
    sparse 29 [(28, 1)] 0,
    sparse 29 [(28, -1)] 1,
    sparse 30 [(29, 1)] 0,
    sparse 30 [(29, -1)] 1,
    sparse 31 [(30, 1)] 0,
    sparse 31 [(30, -1)] 1,
    sparse 32 [(31, 1)] 0,
    sparse 32 [(31, -1)] 1,
    sparse 33 [(32, 1)] 0,
    sparse 33 [(32, -1)] 1,
    sparse 34 [(33, 1)] 0,
    sparse 34 [(33, -1)] 1,
    sparse 35 [(34, 1)] 0,
    sparse 35 [(34, -1)] 1,
    sparse 36 [(35, 1)] 0,
    sparse 36 [(35, -1)] 1,
    sparse 36 [(0, -1), (2, 1), (12, -7)] 10,
    sparse 36 [(0, 1), (2, -1), (12, 17)] (-7),
    sparse 36 [(0, 1), (4, -1), (13, 27)] (-17),
    sparse 36 [(0, 1), (6, -1), (14, 37)] (-27),
    sparse 36 [(2, -1), (4, 1), (19, -2)] 10,
    sparse 36 [(2, 1), (4, -1), (19, 22)] (-12),
    sparse 36 [(2, 1), (6, -1), (20, 32)] (-22),
    sparse 36 [(4, -1), (6, 1), (25, -2)] 10,
    sparse 36 [(4, 1), (6, -1), (25, 22)] (-12),
    sparse 36 [(1, -1), (3, 1), (30, -2)] 10,
    sparse 36 [(1, 1), (3, -1), (30, 22)] (-12),
    sparse 36 [(1, 1), (5, -1), (31, 32)] (-22),
    sparse 36 [(1, 1), (7, -1), (32, 42)] (-32),
    sparse 36 [(3, -1), (5, 1), (33, -2)] 10,
    sparse 36 [(3, 1), (5, -1), (33, 22)] (-12),
    sparse 36 [(3, 1), (7, -1), (34, 32)] (-22),
    sparse 36 [(5, -1), (7, 1), (35, -2)] 10,
    sparse 36 [(5, 1), (7, -1), (35, 22)] (-12),
    sparse 36 [(0, 1), (1, -1), (8, 14)] (-4),
    sparse 36 [(0, -1), (1, 1), (8, -14)] 10,
    sparse 36 [(0, 1), (3, -1), (9, 24)] (-14),
    sparse 36 [(0, -1), (3, 1), (9, -4)] 10,
    sparse 36 [(0, 1), (5, -1), (10, 34)] (-24),
    sparse 36 [(0, 1), (7, -1), (11, 44)] (-34),
    sparse 36 [(1, -1), (2, 1), (15, 9)] 1,
    sparse 36 [(1, 1), (2, -1), (15, -19)] 10,
    sparse 36 [(2, 1), (3, -1), (16, 19)] (-9),
    sparse 36 [(2, -1), (3, 1), (16, -9)] 10,
    sparse 36 [(2, 1), (5, -1), (17, 29)] (-19),
    sparse 36 [(2, 1), (7, -1), (18, 39)] (-29),
    sparse 36 [(1, 1), (4, -1), (21, -29)] 10,
    sparse 36 [(3, -1), (4, 1), (22, 9)] 1,
    sparse 36 [(3, 1), (4, -1), (22, -19)] 10,
    sparse 36 [(4, 1), (5, -1), (23, 19)] (-9),
    sparse 36 [(4, -1), (5, 1), (23, -9)] 10,
    sparse 36 [(4, 1), (7, -1), (24, 29)] (-19),
    sparse 36 [(1, 1), (6, -1), (26, -39)] 10,
    sparse 36 [(3, 1), (6, -1), (27, -29)] 10,
    sparse 36 [(5, -1), (6, 1), (28, 9)] 1,
    sparse 36 [(5, 1), (6, -1), (28, -19)] 10,
    sparse 36 [(6, 1), (7, -1), (29, 19)] (-9),
    sparse 36 [(6, -1), (7, 1), (29, -9)] 10,
    sparse 36 [(2, -1), (12, 15)] (-5),
    sparse 36 [(0, -1), (12, -5)] 10,
    sparse 36 [(4, -1), (13, 25)] (-15),
    sparse 36 [(6, -1), (14, 35)] (-25),
    sparse 36 [(4, -1), (19, 20)] (-10),
    sparse 36 [(6, -1), (20, 30)] (-20),
    sparse 36 [(6, -1), (25, 20)] (-10),
    sparse 36 [(3, -1), (30, 20)] (-10),
    sparse 36 [(5, -1), (31, 30)] (-20),
    sparse 36 [(7, -1), (32, 40)] (-30),
    sparse 36 [(5, -1), (33, 20)] (-10),
    sparse 36 [(7, -1), (34, 30)] (-20),
    sparse 36 [(7, -1), (35, 20)] (-10)]
  objective := sparse 36 [(0, 1/20), (1, 1/20), (2, 1/20), (3, 1/20), (4, 1/20), (5, 1/20), (6, 1/20), (7,
    1/20)] 0

/-- the values asserted by `manyTrains` -/
def manyTrainsGoals : List (ℕ × ℚ) :=
  []

/-- no feasible assignment of `manyTrains` is better -/
def manyTrainsLower : LpTree :=
  .split 16 0 (.leaf 1 [(0, 1/20), (2, 1/20), (127, 19/20), (6, 1/10), (8, 1/20), (10, 1/20), (12,
  1/20), (14, 1/20), (98, 1/20)]) (.split 23 0 (.leaf 1 [(0, 1/20), (2, 1/20), (4, 1/20), (6,
  1/20), (128, 19/20), (10, 1/10), (12, 1/20), (14, 1/20), (105,
  1/20)]) (.split 29 0 (.leaf 1 [(0, 1/20), (2, 1/20), (4, 1/20), (6, 1/20), (8, 1/20), (10,
  1/20), (129, 19/20), (14, 1/10), (112, 1/20)]) (.split 19 0 (.leaf 0 [(118, 1), (130, 20), (8,
  1)]) (.split 25 0 (.leaf 0 [(120, 1), (131, 20), (12, 1)]) (.split 30 0 (.leaf 0 [(121, 1),
  (132, 20), (6, 1)]) (.split 33 0 (.leaf 0 [(124, 1), (133, 20), (10,
  1)]) (.split 35 0 (.leaf 0 [(126, 1), (134, 20), (14, 1)]) (.split 9 0 (.leaf 0 [(115, 1), (135,
  39), (72, 5/8), (6, 13/8), (92, 13/8), (114, 5/8)]) (.split 12 0 (.leaf 0 [(114, 1), (136, 15),
  (4, 1)]) (.split 13 0 (.leaf 0 [(116, 1), (137, 25), (8, 1)]) (.split 17 0 (.leaf 0 [(5, 1),
  (138, 29), (10, 1), (100, 1)]) (.split 24 0 (.leaf 0 [(9, 1), (139, 29), (14, 1), (107,
  1)]) (.split 20 0 (.leaf 0 [(119, 1), (140, 30), (12, 1)]) (.split 31 0 (.leaf 0 [(122, 1),
  (141, 30), (10, 1)]) (.split 34 0 (.leaf 0 [(125, 1), (142, 30), (14,
  1)]) (.split 10 0 (.leaf 0 [(115, 1), (143, 221/4), (72, 5/8), (10, 13/8), (94, 13/8), (114,
  5/8)]) (.split 8 0 (.leaf 1 [(144, 7/5), (2, 3/20), (72, 1/20), (6, 1/20), (8, 1/20), (10,
  1/20), (12, 1/20), (14, 1/20), (90, 1/10), (136, 7/20)]) (.split 15 0 (.leaf 1 [(0, 1/5), (91,
  3/20), (145, 9/10), (99, 1/20), (8, 1/20), (10, 1/20), (12, 1/20), (14, 1/20), (144, 21/10),
  (96, 1/10), (127, 9/20)]) (.leaf 1 [(0, 1/20), (97, 1/10), (4, 3/20), (81, 1/20), (8, 1/20),
  (10, 1/20), (12, 1/20), (14, 1/20), (145, 19/10), (132, 1/10)])))))))))))))))))))

/-- the solution of `manyTrains` that the test expects -/
def manyTrainsPoint : List ℚ :=
  [4, 0, 1, 0, 0, 0, 0, 0, 0, 1, 1, 1, 1, 1, 1, 0, 1, 1, 1, 1, 1, 0, 0, 1, 1, 1, 0, 0, 0, 1, 1, 1,
  1, 1, 1, 1]

/-- the asserted values of `manyTrains` are the only optimal ones -/
def manyTrainsTrees : List (LpTree × LpTree) :=
  []

end Verif.SolverTests
