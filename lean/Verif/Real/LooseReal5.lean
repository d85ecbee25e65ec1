import Verif.Proofs.LooseSum
import Verif.Real.OptReal5

/-!
# Bounds of the delays in case 5 of `solve_real_problem.py` when rules are broken

Generated; see `Verif/Proofs/LooseTree.lean`. `d_max` is 40.
-/

namespace Verif.Real

set_option maxRecDepth 100000

/-- the departures: train and station -/
def real5SomeNodes : List (Nat × Nat) := [
  (20, 5), (20, 12), (20, 1), (20, 2), (20, 0), (10, 5), (10, 12), (10, 1), (10, 2), (10, 0),
  (17, 5), (17, 12), (17, 1), (17, 2), (17, 0), (13, 12), (13, 5), (1, 12), (4, 5), (4, 12),
  (4, 1), (4, 2), (4, 0), (1, 5), (1, 6), (23, 5), (23, 12), (23, 1), (23, 2), (23, 0), (21, 1),
  (19, 1), (19, 8), (19, 11), (19, 10), (12, 1), (9, 1), (9, 8), (9, 9)]

/-- the choices -/
def real5SomeChoices : List CodedNet.Choice := [
  .against 1 10 12 5, .against 13 17 12 5, .against 13 20 12 5, .against 1 4 12 5, .first 17 20 5,
  .first 10 4 5, .against 23 13 5 12, .first 19 21 1, .first 23 20 5, .first 23 17 5, .first 12 9 1]

/-- the inequalities and their rules -/
def real5SomeArcs : KeyTree :=
  .node ⟨.run, 0, 1, 2, 10, 0, false⟩ 21053633 (.node ⟨.run, 0, 2, 3, 4, 0, false⟩ 21053457 (.node
  ⟨.run, 0, 4, 5, 4, 0, false⟩ 21053441 (.node ⟨.run, 0, 9, 10, 4, 0, false⟩ 10526721 (.node
  ⟨.come, 5, 16, 1, 7, 0, false⟩ 13713493 (.node ⟨.run, 0, 29, 30, 4, 0, false⟩ 24211457 .none
  .none) (.node ⟨.run, 0, 38, 39, 10, 0, false⟩ 9474193 .none .none)) (.node
  ⟨.run, 0, 18, 24, 9, 0, false⟩ 1052753 (.node ⟨.run, 0, 34, 35, 4, 0, false⟩ 20000929 .none
  .none) .none)) (.node ⟨.run, 0, 14, 15, 2, 0, false⟩ 17895425 (.node
  ⟨.run, 0, 21, 22, 1, 0, false⟩ 4210721 (.node ⟨.come, 6, 1, 16, 9, 0, false⟩ 21024965 .none
  .none) .none) (.node ⟨.follow, 10, 1, 11, 5, 0, false⟩ 21041234 (.node
  ⟨.follow, 19, 26, 11, 5, 0, false⟩ 24186962 .none .none) .none))) (.node
  ⟨.run, 0, 7, 8, 4, 0, false⟩ 10526737 (.node ⟨.run, 0, 12, 13, 4, 0, false⟩ 17895441 (.node
  ⟨.run, 0, 19, 20, 9, 0, false⟩ 4210881 (.node ⟨.come, 8, 19, 18, 9, 0, false⟩ 4198597 .none
  .none) .none) (.node ⟨.follow, 12, 19, 6, 5, 0, false⟩ 4235346 (.node
  ⟨.follow, 17, 26, 1, 5, 0, false⟩ 24199250 .none .none) .none)) (.node
  ⟨.come, 1, 18, 6, 7, 0, false⟩ 1089621 (.node ⟨.come, 4, 11, 16, 9, 0, false⟩ 17879237 (.node
  ⟨.run, 0, 32, 33, 7, 0, false⟩ 20000897 .none .none) .none) (.node ⟨.run, 0, 27, 28, 4, 0, false⟩
  24211473 (.node ⟨.follow, 21, 36, 37, 2, 0, false⟩ 12619794 .none .none) .none)))) (.node
  ⟨.run, 0, 3, 4, 1, 0, false⟩ 21053473 (.node ⟨.run, 0, 6, 7, 10, 0, false⟩ 10526913 (.node
  ⟨.run, 0, 11, 12, 9, 0, false⟩ 17895617 (.node ⟨.come, 7, 18, 19, 7, 0, false⟩ 1065045 (.node
  ⟨.come, 14, 16, 26, 7, 0, false⟩ 13725781 .none .none) .none) (.node
  ⟨.run, 0, 24, 25, 15, 0, false⟩ 1052769 (.node ⟨.follow, 18, 1, 26, 5, 0, false⟩ 21065810 .none
  .none) .none)) (.node ⟨.run, 0, 16, 17, 9, 0, false⟩ 13684817 (.node
  ⟨.run, 0, 22, 23, 2, 0, false⟩ 4210689 (.node ⟨.follow, 16, 31, 32, 4, 0, false⟩ 22097938 .none
  .none) .none) (.node ⟨.run, 0, 26, 27, 10, 0, false⟩ 24211649 (.node
  ⟨.come, 13, 26, 16, 9, 0, false⟩ 24170693 .none .none) .none))) (.node
  ⟨.run, 0, 8, 9, 1, 0, false⟩ 10526753 (.node ⟨.run, 0, 13, 14, 1, 0, false⟩ 17895457 (.node
  ⟨.run, 0, 20, 21, 4, 0, false⟩ 4210705 (.node ⟨.come, 2, 6, 18, 9, 0, false⟩ 10490053 .none
  .none) .none) (.node ⟨.follow, 11, 6, 19, 5, 0, false⟩ 10502226 (.node
  ⟨.follow, 20, 11, 26, 5, 0, false⟩ 17920082 .none .none) .none)) (.node
  ⟨.come, 3, 16, 11, 7, 0, false⟩ 13701205 (.node ⟨.follow, 9, 11, 1, 5, 0, false⟩ 17907794 (.node
  ⟨.run, 0, 33, 34, 7, 0, false⟩ 20000945 .none .none) .none) (.node ⟨.run, 0, 28, 29, 1, 0, false⟩
  24211489 (.node ⟨.run, 0, 37, 38, 6, 0, false⟩ 9474177 .none .none) .none))))

/-- the bounds of the departures -/
def real5SomeTimes : TimeTree :=
  .node 10 0 10 (.node 41 0 81 (.node 55 0 95 (.node 33 0 73 (.node 61 7 101 (.node 57 0 97 .none
  .none) .none) (.node 44 6 84 (.node 38 4 78 .none .none) .none)) (.node 45 0 85 (.node 28 0 68
  (.node 65 4 105 .none .none) .none) (.node 57 0 97 .none .none))) (.node 60 4 100 (.node 38 0 78
  (.node 52 4 92 (.node 53 0 93 .none .none) .none) (.node 48 6 88 .none .none)) (.node 58 0 98
  (.node 41 0 81 (.node 22 0 62 .none .none) .none) (.node 62 0 102 .none .none)))) (.node 51 0 91
  (.node 56 0 96 (.node 37 0 77 (.node 43 0 83 (.node 46 0 86 .none .none) .none) (.node 33 0 73
  .none .none)) (.node 54 0 94 (.node 37 0 77 (.node 34 0 74 .none .none) .none) (.node 61 0 101
  .none .none))) (.node 23 0 63 (.node 42 4 82 (.node 24 0 64 (.node 61 0 101 .none .none) .none)
  (.node 47 0 87 .none .none)) (.node 59 0 99 (.node 42 0 82 (.node 28 0 68 .none .none) .none)
  (.node 66 4 106 .none .none))))

/-- some of the cases -/
def real5SomeCase0 : LooseTree :=
  .cases [] 3 (.cases [] 0 (.cases [] 2 (.cases [] 1 (.cases [] 7 (.cases [] 10 (.leaf
  [45, 15, 46, 0, 47, 1, 2, 3]) (.cases [] 6 (.leaf [44, 14, 8, 9, 10, 11]) (.cases [] 4 (.cases []
  5 (.cases [] 9 (.leaf [32, 43, 8, 22, 9, 0, 10, 1, 11, 2, 3]) (.leaf [13, 14, 26, 4, 22, 42, 17,
  5, 0, 28, 18, 6, 1, 29, 19, 7, 2, 30, 20, 3, 31])) (.leaf
  [16, 14, 25, 22, 4, 0, 5, 1, 6, 2, 7, 3])) (.cases [] 8 (.leaf
  [32, 41, 27, 0, 8, 1, 9, 2, 10, 3, 11]) (.leaf [13, 15, 4, 27, 0, 40, 5, 8, 1, 28, 6, 9, 2, 29,
  7, 10, 3, 30, 11, 31]))))) (.leaf [13, 15, 36, 4, 37, 0, 5, 38, 1, 6, 39, 2, 7, 3])) (.leaf
  [21, 12, 15, 0, 1, 2, 3])) (.cases [] 1 (.leaf [35, 12, 14, 8, 9, 10, 11]) (.cases [] 5 (.leaf
  [13, 21, 26, 4, 12, 17, 5, 18, 6, 19, 7, 20]) (.leaf [16, 21, 25, 12, 4, 5, 6, 7])))) (.leaf
  [34, 23, 16, 24, 17, 18, 19, 20])) (.leaf [33, 23, 24])

/-- all cases -/
def real5SomeCases : LooseTree :=
  real5SomeCase0

theorem real5Some_cases : real5SomeCases.check real5SomeArcs 60 real5SomeChoices.length (.not []) [] real5SomeTimes 0 = true := by
  decide +kernel

theorem real5Some_plain : real5SomeCases.plain = true := by decide +kernel

theorem real5Some_choices : real5SomeChoices.all (CodedNet.Choice.ok netGt netGtSpecial real5Plan) = true := by
  decide +kernel

theorem real5Some_arcs : (real5SomeArcs.toList.all fun x =>
    netGt.arcOK netGtSpecial real5Plan real5SomeNodes real5SomeChoices x.1 &&
      netGt.keyOK real5Plan real5SomeNodes real5SomeChoices x.1 x.2) = true := by decide +kernel

theorem real5Some_times : netGt.startOK real5Plan real5SomeNodes 10 40 real5SomeTimes = true := by decide +kernel

end Verif.Real
