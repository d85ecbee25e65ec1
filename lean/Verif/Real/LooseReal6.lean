import Verif.Proofs.LooseSum
import Verif.Real.OptReal6

/-!
# Bounds of the delays in case 6 of `solve_real_problem.py` when rules are broken

Generated; see `Verif/Proofs/LooseTree.lean`. `d_max` is 40.
-/

namespace Verif.Real

set_option maxRecDepth 100000

/-- the departures: train and station -/
def real6SomeNodes : List (Nat × Nat) := [
  (9, 8), (9, 9), (11, 9), (0, 8), (0, 1), (22, 8), (21, 1), (21, 8), (21, 9), (8, 8), (8, 9),
  (11, 8), (11, 1), (11, 2), (11, 0), (12, 1), (22, 1), (26, 9), (26, 8), (0, 9), (12, 8), (12, 9),
  (19, 1), (19, 8), (19, 11), (19, 10), (16, 1), (16, 8), (16, 9), (26, 1), (26, 2), (26, 0),
  (22, 11), (9, 1), (8, 1)]

/-- the choices -/
def real6SomeChoices : List CodedNet.Choice := [
  .against 11 9 9 8, .against 22 21 8 1, .against 12 0 1 8, .against 8 26 8 9, .against 9 0 8 9,
  .first 19 21 1, .against 16 11 1 8, .first 8 16 8, .against 16 26 8 9, .against 16 0 1 8,
  .against 19 22 8 11, .first 12 9 1, .against 26 21 8 1, .against 8 0 1 8]

/-- the inequalities and their rules -/
def real6SomeArcs : KeyTree :=
  .node ⟨.run, 0, 1, 2, 10, 0, false⟩ 9474193 (.node ⟨.come, 1, 3, 1, 7, 0, false⟩ 11571333 (.node
  ⟨.come, 3, 6, 7, 6, 0, false⟩ 23154709 (.node ⟨.run, 0, 12, 13, 7, 0, false⟩ 11579409 (.node
  ⟨.come, 2, 1, 3, 9, 0, false⟩ 9482389 (.node ⟨.follow, 15, 10, 28, 2, 0, false⟩ 8454274 .none
  .none) (.node ⟨.run, 0, 35, 10, 6, 0, false⟩ 8421505 .none .none)) (.node
  ⟨.run, 0, 23, 24, 6, 0, false⟩ 20000897 (.node ⟨.run, 0, 33, 6, 6, 0, false⟩ 23158913 .none
  .none) .none)) (.node ⟨.run, 0, 6, 17, 8, 0, false⟩ 23158801 (.node
  ⟨.run, 0, 21, 22, 10, 0, false⟩ 12632209 (.node ⟨.run, 0, 31, 32, 3, 0, false⟩ 27369473 .none
  .none) .none) (.node ⟨.run, 0, 27, 28, 7, 0, false⟩ 16842881 (.node
  ⟨.come, 19, 27, 4, 5, 0, false⟩ 16777349 .none .none) .none))) (.node
  ⟨.run, 0, 8, 9, 11, 0, false⟩ 22106257 (.node ⟨.run, 0, 14, 15, 3, 0, false⟩ 11579393 (.node
  ⟨.come, 6, 4, 16, 6, 0, false⟩ 49173 (.node ⟨.run, 0, 19, 30, 7, 0, false⟩ 27369489 .none .none)
  .none) (.node ⟨.run, 0, 25, 26, 4, 0, false⟩ 20000929 (.node ⟨.run, 0, 34, 1, 7, 0, false⟩
  9474177 .none .none) .none)) (.node ⟨.run, 0, 18, 19, 8, 0, false⟩ 27369601 (.node
  ⟨.come, 8, 18, 10, 7, 0, false⟩ 27295877 (.node ⟨.come, 13, 27, 12, 5, 0, false⟩ 16822405 .none
  .none) .none) (.node ⟨.come, 18, 18, 28, 7, 0, false⟩ 27328645 (.node
  ⟨.run, 0, 20, 4, 9, 0, false⟩ 129 .none .none) .none)))) (.node ⟨.run, 0, 4, 5, 8, 0, false⟩ 17
  (.node ⟨.run, 0, 7, 8, 7, 0, false⟩ 22106241 (.node ⟨.run, 0, 13, 14, 2, 0, false⟩ 11579425
  (.node ⟨.run, 0, 3, 12, 8, 0, false⟩ 11579521 (.node ⟨.come, 17, 28, 18, 10, 0, false⟩ 16883861
  .none .none) (.node ⟨.come, 27, 35, 4, 5, 0, false⟩ 8388741 .none .none)) (.node
  ⟨.run, 0, 24, 25, 7, 0, false⟩ 20000945 (.node ⟨.follow, 23, 16, 34, 2, 0, false⟩ 12619794 .none
  .none) .none)) (.node ⟨.come, 7, 10, 18, 7, 0, false⟩ 8495253 (.node
  ⟨.come, 4, 7, 6, 5, 0, false⟩ 22110341 (.node ⟨.come, 20, 4, 27, 6, 0, false⟩ 65557 .none .none)
  .none) (.node ⟨.follow, 16, 28, 10, 4, 0, false⟩ 16810114 (.node ⟨.come, 9, 1, 20, 9, 0, false⟩
  9437333 .none .none) .none))) (.node ⟨.run, 0, 10, 11, 8, 0, false⟩ 8421521 (.node
  ⟨.come, 5, 16, 4, 5, 0, false⟩ 12583045 (.node ⟨.run, 0, 16, 21, 7, 0, false⟩ 12632193 (.node
  ⟨.run, 0, 30, 31, 2, 0, false⟩ 27369505 .none .none) .none) (.node
  ⟨.come, 14, 12, 27, 5, 0, false⟩ 11599893 (.node ⟨.come, 25, 19, 7, 5, 0, false⟩ 27349013 .none
  .none) .none)) (.node ⟨.come, 10, 20, 1, 9, 0, false⟩ 36997 (.node
  ⟨.follow, 12, 7, 23, 2, 0, false⟩ 22097938 (.node ⟨.come, 21, 24, 33, 6, 0, false⟩ 20013237 .none
  .none) .none) (.node ⟨.run, 0, 28, 29, 11, 0, false⟩ 16842897 (.node
  ⟨.come, 28, 4, 35, 6, 0, false⟩ 32789 .none .none) .none))))

/-- the bounds of the departures -/
def real6SomeTimes : TimeTree :=
  .node 10 0 10 (.node 29 0 69 (.node 32 0 72 (.node 57 0 97 (.node 52 6 92 (.node 72 0 112 .none
  .none) .none) (.node 46 0 86 .none .none)) (.node 59 6 99 (.node 59 0 99 (.node 45 0 85 .none
  .none) .none) (.node 39 0 79 .none .none))) (.node 44 4 84 (.node 76 4 116 (.node 65 4 105 (.node
  51 0 91 .none .none) .none) (.node 61 0 101 .none .none)) (.node 47 0 87 (.node 41 0 81 .none
  .none) (.node 65 4 105 .none .none)))) (.node 39 4 79 (.node 36 0 76 (.node 64 0 104 (.node 34 0
  74 (.node 75 6 115 .none .none) .none) (.node 53 0 93 .none .none)) (.node 40 0 80 (.node 27 0 67
  .none .none) (.node 46 0 86 .none .none))) (.node 57 0 97 (.node 51 0 91 (.node 51 0 91 (.node 22
  0 62 .none .none) .none) (.node 65 4 105 .none .none)) (.node 49 0 89 (.node 51 4 91 .none .none)
  (.node 70 0 110 .none .none))))

/-- some of the cases -/
def real6SomeCase0 : LooseTree :=
  .cases [] 4 (.cases [] 13 (.leaf [48, 2]) (.leaf [44, 45, 2, 46, 47, 6])) (.cases [] 0 (.cases []
  2 (.cases [] 1 (.cases [] 3 (.cases [] 9 (.leaf [1, 43, 2, 0]) (.cases [] 5 (.cases [] 12 (.leaf
  [12, 1, 0, 13, 42, 4, 5]) (.cases [] 11 (.leaf [40, 3, 41, 4, 0, 5]) (.cases [] 10 (.leaf
  [1, 38, 0, 39, 11]) (.cases [] 6 (.leaf [1, 10, 36, 0, 37, 7, 8, 9]) (.cases [] 7 (.cases [] 8
  (.leaf [31, 1, 3, 0, 32, 4, 5, 13, 33, 34, 35]) (.leaf [12, 1, 0, 29, 30])) (.leaf
  [1, 26, 3, 0, 27, 4, 28, 5, 6])))))) (.leaf [3, 22, 23, 24, 25]))) (.leaf [1, 21, 6, 0])) (.leaf
  [1, 10, 20, 2, 0, 11])) (.leaf [17, 1, 0, 18, 19])) (.leaf [14, 0, 15, 16, 7, 8, 9]))

/-- all cases -/
def real6SomeCases : LooseTree :=
  real6SomeCase0

theorem real6Some_cases : real6SomeCases.check real6SomeArcs 46 real6SomeChoices.length (.not []) [] real6SomeTimes 0 = true := by
  decide +kernel

theorem real6Some_plain : real6SomeCases.plain = true := by decide +kernel

theorem real6Some_choices : real6SomeChoices.all (CodedNet.Choice.ok net netSpecial real6Plan) = true := by
  decide +kernel

theorem real6Some_arcs : (real6SomeArcs.toList.all fun x =>
    net.arcOK netSpecial real6Plan real6SomeNodes real6SomeChoices x.1 &&
      net.keyOK real6Plan real6SomeNodes real6SomeChoices x.1 x.2) = true := by decide +kernel

theorem real6Some_times : net.startOK real6Plan real6SomeNodes 10 40 real6SomeTimes = true := by decide +kernel

end Verif.Real
