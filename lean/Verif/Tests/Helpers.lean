import Verif.Tests.Cases

/-!
# The tests of `railway_solvers/test/test_helpers.py`, and two tests of `test_linear_solver.py`

The assertions hold for the model; each is checked by the kernel.
-/

namespace Verif.HelperTests

/-- the integer `n` as the name of a train or station -/
abbrev t (n : Int) : Val := .int n
/-- a name -/
abbrev s (x : String) : Val := .str x

/-! ## `test_pairs`, lines 22-35 -/

example : occursAsPair (t 1) (t 2) [[t 1, t 2, t 3], [t 4], [t 5, t 6]] = true := by decide +kernel
example : occursAsPair (t 2) (t 1) [[t 1, t 2, t 3], [t 4], [t 5, t 6]] = true := by decide +kernel
example : occursAsPair (t 1) (t 4) [[t 1, t 2, t 3], [t 4], [t 5, t 6]] = false := by decide +kernel

/-- variables in the place of the numbers 1, 2, 3 of lines 28-35 -/
abbrev v (n : Int) : LpVar := dVar (t n) (t n) 0 .integer

/-- a dictionary of two levels -/
abbrev d1 : DelayVars := [(t 0, [(t 0, v 1), (t 1, v 2)]), (t 1, [(t 0, v 1)])]

example : upd2 d1 (t 0) (t 2) (v 3) =
    .ok [(t 0, [(t 0, v 1), (t 1, v 2), (t 2, v 3)]), (t 1, [(t 0, v 1)])] := by decide +kernel
example : upd2 d1 (t 2) (t 2) (v 3) =
    .ok [(t 0, [(t 0, v 1), (t 1, v 2)]), (t 1, [(t 0, v 1)]), (t 2, [(t 2, v 3)])] := by
  decide +kernel

/-! ## `test_trains_paths`, lines 38-46 -/

example : previousStation [t 0, t 1, t 2, t 4] (t 4) = .ok (t 2) := by decide +kernel
example : previousStation [t 1, t 0] (t 1) = .ok .none := by decide +kernel
example : subsequentStation [t 0, t 1, t 2] (t 2) = .ok .none := by decide +kernel
example : subsequentStation [t 0, t 1, t 2, t 4] (t 2) = .ok (t 4) := by decide +kernel
example : subsequentStation [t 1, t 0] (t 1) = .ok (t 0) := by decide +kernel

/-! ## `test_auxiliary_timetable_functions`, lines 49-75 -/

/-- `timetable` of lines 51-63 -/
def tt : Timetable where
  tauPass := [("0_0_1", 5), ("1_0_1", 7), ("2_1_0", 10)]
  tauHeadway := [("0_1_0_1", 2), ("1_0_0_1", 5)]
  tauStop := [("0_1", 1), ("1_1", 2), ("2_0", 1)]
  tauPrep := []
  tauRes := some 3
  schedule := some [("0_0", -10), ("1_0", 0), ("2_1", 0), ("0_1", -3), ("1_1", 9), ("2_0", 11)]
  initialConditions := [("0_0", 4), ("1_0", 1), ("2_1", 8)]
  penaltyWeights := [("0_0", 2), ("1_0", 1), ("2_1", 1)]

/-- `S` of line 71 -/
abbrev S : Dict Val (List Val) := [(t 0, [t 0, t 1]), (t 1, [t 0, t 1]), (t 2, [t 1, t 0])]

example : tauPass tt (t 0) (t 0) (t 1) = .ok 5 := by decide +kernel
example : tauRes tt = .ok 3 := by decide +kernel
example : penaltyWeights tt (t 1) (t 0) = 1 := by decide +kernel
example : penaltyWeights tt (t 1) (t 1) = 0 := by decide +kernel
example : penaltyWeights tt (t 2) (t 1) = 1 := by decide +kernel
example : earliestDepTime S tt (t 0) (t 0) = .ok 4 := by decide +kernel
example : earliestDepTime S tt (t 0) (t 1) = .ok 10 := by decide +kernel
example : earliestDepTime S tt (t 2) (t 0) = .ok 19 := by decide +kernel
example : earliestDepTime S tt (t 2) (t 1) = .ok 8 := by decide +kernel

/-! ## `test_helpers_of_train_sets`, lines 77-118 -/

/-- `train_sets` of lines 80-84; keys that the test leaves out are empty -/
def ts : TrainSets where
  skipStation := .none
  paths := [(t 1, [s "A", s "B"]), (t 2, [s "B", s "A"]), (t 3, [s "A", s "B"])]
  J := []
  Jd := []
  Josingle := []
  Jround := [(s "B", [(t 1, t 2)])]
  Jtrack := []
  Jswitch := [(s "B", [[(t 1, "out"), (t 3, "out")], [(t 1, "in"), (t 3, "in")]])]
  addSwithes := .none

/-- `train_sets` of lines 105-108 and of lines 113-116 -/
def tsLine (g : List (List Val)) : TrainSets where
  skipStation := .none
  paths := [(t 1, [s "A", s "B"]), (t 2, [s "C", s "B"]), (t 3, [s "A", s "B"])]
  J := []
  Jd := [(s "A", [(s "B", g)]), (s "C", [(s "B", [[t 2]])])]
  Josingle := []
  Jround := []
  Jtrack := []
  Jswitch := []
  addSwithes := .none

example : notTheSameRollingStock (t 0) (t 1) ts = true := by decide +kernel
example : notTheSameRollingStock (t 1) (t 2) ts = false := by decide +kernel
example : departureStation4switches (s "B") (t 1) [(t 1, "out"), (t 3, "out")] ts = .ok (s "B") := by
  decide +kernel
example : departureStation4switches (s "B") (t 1) [(t 1, "in"), (t 3, "in")] ts = .ok (s "A") := by
  decide +kernel
example : getM 2 3 4 = 5 := by decide +kernel
example : skipStation (t 1) (s "A") ts = false := by decide +kernel
example : previousTrainFromJround ts (t 2) (s "B") = t 1 := by decide +kernel
example : subsequentTrainAtJround ts (t 1) (s "B") = t 2 := by decide +kernel
example : previousTrainFromJround ts (t 1) (s "B") = .none := by decide +kernel
example : subsequentTrainAtJround ts (t 2) (s "B") = .none := by decide +kernel
example : enteringViaSameSwitches ts (s "B") (t 1) (t 3) = true := by decide +kernel
example : enteringViaSameSwitches ts (s "B") (t 1) (t 2) = false := by decide +kernel
example : enteringViaSameSwitches ts (s "A") (t 1) (t 3) = false := by decide +kernel
example : canMOonLine (t 1) (t 3) (s "B") (tsLine [[t 1, t 3]]) = .ok false := by decide +kernel
example : canMOonLine (t 1) (t 2) (s "B") (tsLine [[t 1, t 3]]) = .ok true := by decide +kernel
example : canMOonLine (t 1) (t 3) (s "B") (tsLine [[t 1], [t 3]]) = .ok true := by decide +kernel
example : canMOonLine (t 1) (t 2) (s "B") (tsLine [[t 1], [t 3]]) = .ok true := by decide +kernel

/-! ## `test_linear_varibles_creations`, `test_linear_solver.py`, lines 18-41 -/

/-- the names of the variables, with their keys -/
def delayNames (d : DelayVars) : List (Val × List (Val × String)) :=
  d.map fun p => (p.1, p.2.map fun q => (q.1, q.2.name))

example : (delayVariables SolverTests.oneWaySets 5 .integer).toOption.map delayNames =
    some [(t 0, [(s "A", "Delays_0_A"), (s "B", "Delays_0_B")]),
      (t 1, [(s "A", "Delays_1_A"), (s "B", "Delays_1_B")])] := by decide +kernel

/-- the four keys of every variable, and its name -/
def orderNames (y : OrderVars) : List (List Val × String) :=
  y.flatMap fun p => p.2.flatMap fun q => q.2.flatMap fun r => r.2.map fun x =>
    ([p.1, q.1, r.1, x.1], x.2.name)

example : (orderVariables SolverTests.oneWaySets).toOption.map orderNames =
    some [([t 0, t 1, s "one_station", s "A"], "y_0_1_one_station_A")] := by decide +kernel

/-! ## `test_constraint_labels`, `test_linear_solver.py`, lines 737-806

The two problems are those of `test_QIP_problem1` and `test_QIP_problem2`. -/

/-- no constraint has a name that PuLP made up: `_C` and a digit -/
def labelled (c : Case) : Bool :=
  match buildProblem c.ts c.tt 10 .integer with
  | .ok b => b.prob.constraints.all fun e =>
    match e.1.toList with
    | '_' :: 'C' :: d :: _ => !d.isDigit
    | _ => true
  | .error _ => false

example : labelled SolverTests.qip1 = true := by decide +kernel
example : labelled SolverTests.qip2 = true := by decide +kernel

end Verif.HelperTests
