import Verif.Proofs.TestCase

/-!
# The optimum of the input `track_occupation_simplest.py` (the other inputs of `test_solving_QUBO.py` give
problems that are also solved in `test_linear_solver.py`)
-/

namespace Verif.SolverTests

/-- the problem of `QuboInputs.track` in numbers -/
def trackSimplestCode : Coded where
  ints := [true, true, true, true, true, true]
  facts := [
    sparse 1 [(0, 1)] 0,
    sparse 1 [(0, -1)] 10,
    sparse 2 [(1, 1)] 0,
    sparse 2 [(1, -1)] 10,
    sparse 3 [(2, 1)] 0,
    sparse 3 [(2, -1)] 10,
    sparse 4 [(3, 1)] 0,
    sparse 4 [(3, -1)] 10,
    sparse 5 [(4, 1)] 0,
    sparse 5 [(4, -1)] 1,
    sparse 6 [(5, 1)] 0,
    sparse 6 [(5, -1)] 1,
    sparse 6 [(0, -1), (1, 1)] 0,
    sparse 6 [(2, -1), (3, 1)] 0,
    sparse 6 [(0, 1), (3, -1), (4, 11)] (-1),
    sparse 6 [(1, -1), (2, 1), (4, -11)] 10,
    sparse 6 [(0, 1), (2, -1), (5, 12)] (-2),
    sparse 6 [(0, -1), (2, 1), (5, -12)] 10,
    sparse 6 [(1, 1), (3, -1), (4, 12)] (-2),
    sparse 6 [(1, -1), (3, 1), (4, -12)] 10]
  objective := sparse 6 [(0, 1/5), (2, 1/20)] 0

/-- no values are asserted -/
def trackSimplestGoals : List (ℕ × ℚ) :=
  []

/-- no feasible assignment of `QuboInputs.track` is better -/
def trackSimplestLower : LpTree :=
  .split 5 0 (.leaf 1 [(20, 12/5), (4, 1/4), (16, 1/5)]) (.leaf 1 [(0, 1/4), (17, 1/20), (20,
  3/5)])

/-- a solution of `QuboInputs.track` with this value -/
def trackSimplestPoint : List ℚ :=
  [0, 1, 2, 3, 1, 1]

end Verif.SolverTests
