import Verif.Proofs.LooseSum
import Verif.Real.OptReal4

/-!
# Bounds of the delays in case 4 of `solve_real_problem.py` when rules are broken

Generated; see `Verif/Proofs/LooseTree.lean`. `d_max` is 40.
-/

namespace Verif.Real

set_option maxRecDepth 100000

/-- the departures: train and station -/
def real4OneNodes : List (Nat × Nat) := [
  (13, 12), (13, 5), (18, 12), (18, 5), (18, 7), (10, 5), (10, 12), (10, 1), (10, 2), (10, 0),
  (25, 5), (1, 12), (1, 5), (1, 6), (20, 5), (20, 12), (20, 1), (20, 2), (20, 0), (23, 5),
  (23, 12), (23, 1), (23, 2), (23, 0), (17, 5), (25, 12), (25, 1), (25, 2), (25, 0), (24, 12),
  (24, 5), (9, 1), (9, 8), (9, 9), (16, 1), (8, 1), (8, 8), (8, 9), (12, 1), (9, 3), (17, 12),
  (17, 1), (17, 2), (17, 0), (21, 1), (19, 1), (19, 8), (19, 11), (19, 10), (17, 6), (10, 6),
  (23, 6)]

/-- the choices -/
def real4OneChoices : List CodedNet.Choice := [
  .against 25 18 5 12, .against 1 10 12 5, .against 13 20 12 5, .against 13 17 12 5,
  .against 23 13 5 12, .against 24 25 12 5, .first 8 16 1, .first 12 9 1, .against 1 17 12 5,
  .first 23 25 5, .first 19 21 1, .against 13 25 12 5, .first 10 17 5, .first 24 18 12,
  .first 23 20 5, .first 1 17 5, .first 1 10 5, .first 23 13 5, .against 23 18 5 12,
  .first 13 18 12, .first 20 25 5, .first 13 20 5, .first 13 25 5]

/-- the inequalities and their rules -/
def real4OneArcs : KeyTree :=
  .node ⟨.run, 0, 1, 2, 9, 0, false⟩ 13684817 (.node ⟨.run, 0, 3, 4, 9, 0, false⟩ 18948177 (.node
  ⟨.run, 0, 6, 7, 10, 0, false⟩ 10526913 (.node ⟨.come, 1, 11, 3, 9, 0, false⟩ 26288325 (.node
  ⟨.come, 4, 6, 12, 9, 0, false⟩ 10490053 (.node ⟨.come, 9, 20, 1, 9, 0, false⟩ 24170693 (.node
  ⟨.run, 0, 51, 6, 21, 0, false⟩ 10526801 .none .none) .none) (.node ⟨.run, 0, 46, 47, 7, 0, false⟩
  20000897 .none .none)) (.node ⟨.run, 0, 26, 27, 4, 0, false⟩ 26316817 (.node
  ⟨.come, 11, 30, 11, 7, 0, false⟩ 25268309 (.node ⟨.follow, 40, 3, 1, 5, 0, false⟩ 18927810 .none
  .none) .none) (.node ⟨.follow, 27, 30, 3, 5, 0, false⟩ 25239746 .none .none))) (.node
  ⟨.run, 0, 15, 16, 10, 0, false⟩ 21053633 (.node ⟨.run, 0, 22, 23, 1, 0, false⟩ 24211489 (.node
  ⟨.run, 0, 36, 37, 5, 0, false⟩ 8421505 (.node ⟨.come, 37, 20, 3, 9, 0, false⟩ 24191173 .none
  .none) .none) (.node ⟨.come, 23, 1, 11, 7, 0, false⟩ 13733973 .none .none)) (.node
  ⟨.come, 10, 1, 20, 7, 0, false⟩ 13725781 (.node ⟨.run, 0, 43, 44, 2, 0, false⟩ 17895425 (.node
  ⟨.follow, 41, 15, 11, 5, 0, false⟩ 21074002 .none .none) .none) (.node
  ⟨.run, 0, 50, 25, 18, 0, false⟩ 17895505 .none .none)))) (.node ⟨.run, 0, 8, 9, 1, 0, false⟩
  10526753 (.node ⟨.run, 0, 12, 13, 9, 0, false⟩ 1052753 (.node ⟨.run, 0, 20, 21, 10, 0, false⟩
  24211649 (.node ⟨.run, 0, 33, 34, 10, 0, false⟩ 9474193 (.node ⟨.track, 36, 2, 52, 0, 19, false⟩
  13725779 .none .none) .none) (.node ⟨.run, 0, 48, 49, 4, 0, false⟩ 20000929 .none .none)) (.node
  ⟨.run, 0, 28, 29, 2, 0, false⟩ 26316801 (.node ⟨.run, 0, 41, 42, 4, 0, false⟩ 17895441 (.node
  ⟨.track, 35, 20, 1, 0, 6, false⟩ 24170579 .none .none) .none) (.node
  ⟨.follow, 29, 20, 15, 5, 0, false⟩ 24199250 .none .none))) (.node ⟨.run, 0, 17, 18, 1, 0, false⟩
  21053473 (.node ⟨.come, 8, 25, 1, 9, 0, false⟩ 17879237 (.node ⟨.track, 15, 39, 40, 0, 0, false⟩
  12619795 (.node ⟨.come, 38, 3, 20, 7, 0, false⟩ 18968661 .none .none) .none) (.node
  ⟨.follow, 20, 11, 20, 5, 0, false⟩ 26308690 .none .none)) (.node ⟨.come, 12, 11, 30, 9, 0, false⟩
  26312901 (.node ⟨.follow, 19, 20, 11, 5, 0, false⟩ 24219730 (.node
  ⟨.track, 44, 15, 1, 0, 6, false⟩ 21024851 .none .none) .none) (.node
  ⟨.come, 18, 25, 12, 9, 0, false⟩ 17830085 .none .none))))) (.node ⟨.run, 0, 4, 5, 4, 0, false⟩
  18948209 (.node ⟨.run, 0, 7, 8, 4, 0, false⟩ 10526737 (.node ⟨.come, 3, 12, 6, 7, 0, false⟩
  1089621 (.node ⟨.come, 5, 1, 15, 7, 0, false⟩ 13713493 (.node ⟨.run, 0, 32, 33, 6, 0, false⟩
  9474177 (.node ⟨.come, 24, 11, 1, 9, 0, false⟩ 26267845 .none .none) .none) (.node
  ⟨.run, 0, 47, 48, 7, 0, false⟩ 20000945 .none .none)) (.node ⟨.run, 0, 27, 28, 1, 0, false⟩
  26316833 (.node ⟨.run, 0, 25, 41, 9, 0, false⟩ 17895617 (.node ⟨.follow, 39, 1, 3, 5, 0, false⟩
  13705410 .none .none) .none) (.node ⟨.follow, 30, 15, 20, 5, 0, false⟩ 21065810 .none .none)))
  (.node ⟨.run, 0, 16, 17, 4, 0, false⟩ 21053457 (.node ⟨.run, 0, 23, 24, 4, 0, false⟩ 24211457
  (.node ⟨.run, 0, 37, 38, 9, 0, false⟩ 8421521 (.node ⟨.track, 32, 25, 12, 0, 6, false⟩ 17829971
  .none .none) .none) (.node ⟨.follow, 26, 25, 6, 5, 0, false⟩ 17866834 .none .none)) (.node
  ⟨.run, 0, 30, 31, 9, 0, false⟩ 25264209 (.node ⟨.come, 17, 12, 25, 7, 0, false⟩ 1118293 (.node
  ⟨.track, 34, 6, 12, 0, 6, false⟩ 10489939 .none .none) .none) (.node
  ⟨.follow, 25, 6, 25, 5, 0, false⟩ 10555474 .none .none)))) (.node ⟨.run, 0, 9, 10, 4, 0, false⟩
  10526721 (.node ⟨.run, 0, 13, 14, 15, 0, false⟩ 1052769 (.node ⟨.run, 0, 21, 22, 4, 0, false⟩
  24211473 (.node ⟨.follow, 14, 35, 36, 4, 0, false⟩ 16810002 (.node
  ⟨.run, 0, 52, 20, 21, 0, false⟩ 24211537 .none .none) .none) (.node
  ⟨.come, 7, 1, 25, 7, 0, false⟩ 13701205 .none .none)) (.node ⟨.come, 6, 15, 1, 9, 0, false⟩
  21024965 (.node ⟨.run, 0, 42, 43, 1, 0, false⟩ 17895457 (.node ⟨.follow, 42, 11, 15, 5, 0, false⟩
  26296402 .none .none) .none) (.node ⟨.track, 31, 13, 50, 0, 16, false⟩ 1118291 .none .none)))
  (.node ⟨.run, 0, 18, 19, 4, 0, false⟩ 21053441 (.node ⟨.run, 0, 11, 26, 9, 0, false⟩ 26316993
  (.node ⟨.run, 0, 40, 32, 3, 0, false⟩ 9474065 (.node ⟨.follow, 15, 39, 32, 2, 0, false⟩ 12619794
  .none .none) .none) (.node ⟨.follow, 28, 3, 30, 5, 0, false⟩ 18972866 .none .none)) (.node
  ⟨.come, 2, 3, 11, 7, 0, false⟩ 18976853 (.node ⟨.follow, 22, 45, 46, 4, 0, false⟩ 22097938 (.node
  ⟨.track, 46, 11, 1, 0, 6, false⟩ 26267731 .none .none) .none) (.node
  ⟨.track, 33, 13, 51, 0, 19, false⟩ 1089619 .none .none)))))

/-- the bounds of the departures -/
def real4OneTimes : TimeTree :=
  .node 18 0 18 (.node 51 0 91 (.node 71 0 111 (.node 38 0 78 (.node 49 0 89 (.node 85 4 125 .none
  .none) (.node 61 0 101 .none .none)) (.node 70 0 110 (.node 42 0 82 .none .none) .none)) (.node
  67 0 107 (.node 68 4 108 (.node 47 0 87 .none .none) (.node 7 0 47 .none .none)) (.node 80 0 120
  (.node 57 0 97 .none .none) .none))) (.node 84 4 124 (.node 43 0 83 (.node 63 0 103 (.node 36 0
  76 .none .none) (.node 73 4 113 .none .none)) (.node 43 0 83 (.node 52 0 92 .none .none) .none))
  (.node 41 0 81 (.node 65 0 105 (.node 42 0 82 .none .none) .none) (.node 83 6 123 (.node 65 0 105
  .none .none) .none)))) (.node 60 4 100 (.node 80 0 120 (.node 42 0 82 (.node 59 0 99 (.node 30 0
  70 .none .none) (.node 69 0 109 .none .none)) (.node 74 4 114 (.node 13 0 53 .none .none) .none))
  (.node 32 0 72 (.node 55 0 95 (.node 37 0 77 .none .none) (.node 34 0 74 .none .none)) (.node 81
  0 121 (.node 59 7 99 .none .none) .none))) (.node 28 0 68 (.node 47 4 87 (.node 64 0 104 (.node
  46 4 86 .none .none) (.node 25 0 65 .none .none)) (.node 76 0 116 (.node 56 0 96 .none .none)
  .none)) (.node 56 6 96 (.node 69 0 109 (.node 52 6 92 .none .none) .none) (.node 76 0 116 (.node
  54 0 94 .none .none) .none))))

/-- some of the cases -/
def real4OneCase0 : LooseTree :=
  .breaks 10526913 (.breaks 17895617 (.breaks 18948177 (.breaks 10526737 (.breaks 17895441 (.breaks
  18948209 (.breaks 10526753 (.breaks 17895457 (.breaks 10526721 (.breaks 17895425 (.leaf
  [8, 50, 7, 3, 40, 1, 4, 41, 2, 5, 42, 6, 43]) (.leaf
  [8, 50, 7, 3, 40, 1, 4, 41, 2, 5, 42, 6, 43])) (.leaf
  [8, 50, 7, 3, 40, 1, 4, 41, 2, 5, 42, 6, 43])) (.leaf
  [8, 50, 7, 3, 40, 1, 4, 41, 2, 5, 42, 6, 43])) (.leaf
  [8, 50, 7, 3, 40, 1, 4, 41, 2, 5, 42, 6, 43])) (.leaf
  [8, 50, 7, 3, 40, 1, 4, 41, 2, 5, 42, 6, 43])) (.leaf
  [8, 50, 7, 3, 40, 1, 4, 41, 2, 5, 42, 6, 43])) (.leaf
  [8, 50, 7, 3, 40, 1, 4, 41, 2, 5, 42, 6, 43])) (.leaf
  [8, 50, 7, 3, 40, 1, 4, 41, 2, 5, 42, 6, 43])) (.leaf
  [8, 50, 7, 3, 40, 1, 4, 41, 2, 5, 42, 6, 43])) (.leaf
  [8, 50, 7, 3, 40, 1, 4, 41, 2, 5, 42, 6, 43])

/-- some of the cases -/
def real4OneCase1 : LooseTree :=
  .breaks 21053633 (.breaks 10526753 (.breaks 21053457 (.breaks 10526721 (.breaks 21053473 (.breaks
  21053441 (.leaf [8, 31, 3, 0, 16, 4, 11, 5, 12, 6, 13, 14]) (.leaf
  [8, 31, 3, 0, 16, 4, 11, 5, 12, 6, 13, 14])) (.leaf [8, 31, 3, 0, 16, 4, 11, 5, 12, 6, 13, 14]))
  (.leaf [8, 31, 3, 0, 16, 4, 11, 5, 12, 6, 13, 14])) (.leaf
  [8, 31, 3, 0, 16, 4, 11, 5, 12, 6, 13, 14])) (.leaf [8, 31, 3, 0, 16, 4, 11, 5, 12, 6, 13, 14]))
  (.leaf [8, 31, 3, 0, 16, 4, 11, 5, 12, 6, 13, 14])

/-- some of the cases -/
def real4OneCase2 : LooseTree :=
  .breaks 17879237 (.breaks 26288325 (.breaks 9474065 (.breaks 10526913 (.breaks 13713493 (.breaks
  18948177 (.breaks 9474177 (.breaks 10526737 (.breaks 18948209 (.breaks 21053633 (.breaks 9474193
  (.breaks 10526753 (.breaks 21053457 (.breaks 10526721 (.breaks 21053473 (.breaks 21053441 (.leaf
  [8, 37, 21, 7, 38, 3, 16, 1, 32, 4, 2, 11, 33, 5, 12, 6, 13, 14]) (.leaf [8, 37, 21, 7, 38, 3,
  16, 1, 32, 4, 2, 11, 33, 5, 12, 6, 13, 14])) (.leaf [8, 37, 21, 7, 38, 3, 16, 1, 32, 4, 2, 11,
  33, 5, 12, 6, 13, 14])) (.leaf [8, 37, 21, 7, 38, 3, 16, 1, 32, 4, 2, 11, 33, 5, 12, 6, 13, 14]))
  (.leaf [8, 37, 21, 7, 38, 3, 16, 1, 32, 4, 2, 11, 33, 5, 12, 6, 13, 14])) (.leaf [8, 37, 21, 7,
  38, 3, 16, 1, 32, 4, 2, 11, 33, 5, 12, 6, 13, 14])) (.leaf [8, 37, 21, 7, 38, 3, 16, 1, 32, 4, 2,
  11, 33, 5, 12, 6, 13, 14])) (.leaf [8, 37, 21, 7, 38, 3, 16, 1, 32, 4, 2, 11, 33, 5, 12, 6, 13,
  14])) (.leaf [8, 37, 21, 7, 38, 3, 16, 1, 32, 4, 2, 11, 33, 5, 12, 6, 13, 14])) (.leaf [8, 37,
  21, 7, 38, 3, 16, 1, 32, 4, 2, 11, 33, 5, 12, 6, 13, 14])) (.leaf [8, 37, 21, 7, 38, 3, 16, 1,
  32, 4, 2, 11, 33, 5, 12, 6, 13, 14])) (.leaf [8, 37, 21, 7, 38, 3, 16, 1, 32, 4, 2, 11, 33, 5,
  12, 6, 13, 14])) (.leaf [8, 37, 21, 7, 38, 3, 16, 1, 32, 4, 2, 11, 33, 5, 12, 6, 13, 14])) (.leaf
  [8, 37, 21, 7, 38, 3, 16, 1, 32, 4, 2, 11, 33, 5, 12, 6, 13, 14])) (.leaf
  [8, 70, 21, 7, 32, 3, 16, 1, 33, 4, 2, 11, 5, 12, 6, 13, 14])) (.leaf [8, 37, 21, 7, 38, 3, 16,
  1, 32, 4, 2, 11, 33, 5, 12, 6, 13, 14])) (.leaf
  [8, 37, 16, 7, 38, 3, 1, 11, 32, 4, 2, 12, 33, 5, 13, 6, 14])

/-- some of the cases -/
def real4OneCase3 : LooseTree :=
  .cases [] 16 (.breaks 1089619 (.breaks 10526801 (.breaks 10526913 (.breaks 10555474 (.breaks
  10526737 (.breaks 17879237 (.breaks 17895617 (.breaks 10526753 (.breaks 13713493 (.breaks
  17895441 (.breaks 10526721 (.breaks 17895457 (.breaks 21053633 (.breaks 17895425 (.breaks
  21053457 (.breaks 21053473 (.breaks 21053441 (.leaf [62, 63, 3, 60, 4, 21, 40, 5, 16, 41, 6, 42,
  11, 43, 12, 13, 14]) (.leaf [62, 63, 3, 60, 4, 21, 40, 5, 0, 16, 41, 6, 42, 11, 43, 12, 13, 14]))
  (.leaf [62, 63, 3, 60, 4, 21, 40, 5, 0, 16, 41, 6, 42, 11, 43, 12, 13, 14])) (.leaf [62, 63, 3,
  60, 4, 21, 40, 5, 0, 16, 41, 6, 42, 11, 43, 12, 13, 14])) (.leaf [62, 63, 3, 60, 4, 21, 5, 16,
  27, 6, 11, 17, 12, 18, 13, 19, 14, 20])) (.leaf [62, 63, 3, 60, 4, 21, 40, 5, 0, 16, 41, 6, 42,
  11, 43, 12, 13, 14])) (.leaf [62, 63, 3, 60, 4, 21, 5, 16, 27, 6, 11, 17, 12, 18, 13, 19, 14,
  20])) (.leaf [62, 63, 3, 60, 4, 21, 40, 5, 0, 16, 41, 6, 42, 11, 43, 12, 13, 14])) (.leaf [62,
  63, 3, 60, 4, 21, 5, 16, 27, 6, 11, 17, 12, 18, 13, 19, 14, 20])) (.leaf [62, 63, 3, 60, 4, 21,
  40, 5, 0, 16, 41, 6, 42, 11, 43, 12, 13, 14])) (.leaf [62, 63, 3, 60, 4, 21, 40, 5, 0, 16, 41, 6,
  42, 11, 43, 12, 13, 14])) (.leaf [62, 63, 3, 60, 4, 21, 5, 16, 27, 6, 11, 17, 12, 18, 13, 19, 14,
  20])) (.leaf [62, 63, 3, 60, 4, 21, 40, 5, 0, 16, 41, 6, 42, 11, 43, 12, 13, 14])) (.leaf [62,
  63, 3, 60, 4, 21, 40, 5, 0, 16, 41, 6, 42, 11, 43, 12, 13, 14])) (.leaf [62, 63, 3, 60, 4, 21,
  40, 5, 0, 16, 41, 6, 42, 11, 43, 12, 13, 14])) (.leaf [62, 63, 3, 60, 4, 21, 40, 5, 0, 16, 41, 6,
  42, 11, 43, 12, 13, 14])) (.leaf [62, 63, 3, 60, 4, 21, 40, 5, 0, 16, 41, 6, 42, 11, 43, 12, 13,
  14])) (.leaf [62, 63, 3, 60, 4, 21, 40, 5, 0, 16, 41, 6, 42, 11, 43, 12, 13, 14])) (.cases [] 14
  (.cases [] 20 (.breaks 1089621 (.breaks 10489939 (.cycle 12 [8, 76]) (.leaf [8, 3, 60, 4, 21, 5,
  27, 6, 57, 17, 11, 75, 18, 12, 19, 7, 1, 13, 20, 2, 14])) (.leaf [8, 21, 3, 27, 4, 57, 17, 5, 11,
  75, 18, 6, 12, 19, 7, 22, 1, 13, 20, 23, 2, 14, 24, 25])) (.breaks 1089621 (.breaks 10489939
  (.cycle 12 [8, 76]) (.leaf [8, 7, 74, 3, 1, 11, 4, 2, 12, 5, 13, 6, 14])) (.leaf
  [8, 21, 7, 74, 3, 0, 1, 11, 4, 2, 12, 5, 13, 6, 14]))) (.cases [] 9 (.breaks 1089621 (.breaks
  10489939 (.cycle 12 [8, 76]) (.leaf [8, 3, 60, 4, 21, 5, 16, 6, 11, 56, 12, 17, 45, 13, 18, 7, 1,
  14, 19, 2, 20])) (.leaf [8, 21, 3, 16, 4, 11, 56, 5, 12, 17, 45, 6, 13, 18, 7, 22, 1, 14, 19, 23,
  2, 20, 24, 25])) (.breaks 1089621 (.breaks 10489939 (.cycle 12 [8, 76]) (.leaf [8, 53, 3, 60, 17,
  4, 21, 18, 5, 16, 19, 6, 11, 20, 12, 13, 14])) (.leaf [8, 21, 7, 53, 3, 16, 1, 17, 4, 2, 11, 18,
  5, 12, 19, 6, 13, 20, 14]))))

/-- some of the cases -/
def real4OneCase4 : LooseTree :=
  .cases [] 14 (.breaks 17879237 (.breaks 26288325 (.breaks 10526913 (.breaks 13725781 (.breaks
  18948177 (.breaks 10526737 (.breaks 18948209 (.breaks 24199250 (.breaks 10526753 (.breaks
  21053633 (.breaks 10526721 (.breaks 21053457 (.breaks 21053473 (.breaks 21053441 (.leaf
  [52, 21, 7, 3, 27, 1, 4, 2, 57, 5, 11, 6, 12, 13, 14]) (.leaf
  [52, 21, 7, 3, 27, 1, 4, 2, 57, 5, 11, 6, 12, 13, 14])) (.leaf
  [52, 21, 7, 3, 27, 1, 4, 2, 57, 5, 11, 6, 12, 13, 14])) (.leaf
  [52, 21, 7, 3, 27, 1, 4, 2, 57, 5, 11, 6, 12, 13, 14])) (.leaf
  [52, 21, 7, 3, 27, 1, 4, 2, 57, 5, 11, 6, 12, 13, 14])) (.leaf
  [52, 21, 7, 3, 27, 1, 4, 2, 57, 5, 11, 6, 12, 13, 14])) (.leaf
  [52, 21, 7, 3, 27, 1, 4, 2, 57, 5, 11, 6, 12, 13, 14])) (.leaf
  [52, 21, 7, 3, 27, 1, 4, 2, 57, 5, 11, 6, 12, 13, 14])) (.leaf
  [52, 21, 7, 3, 27, 1, 4, 2, 57, 5, 11, 6, 12, 13, 14])) (.leaf
  [52, 21, 7, 3, 27, 1, 4, 2, 57, 5, 11, 6, 12, 13, 14])) (.leaf
  [52, 21, 7, 3, 27, 1, 4, 2, 57, 5, 11, 6, 12, 13, 14])) (.leaf
  [52, 21, 7, 3, 27, 1, 4, 2, 57, 5, 11, 6, 12, 13, 14])) (.leaf
  [52, 21, 7, 3, 27, 1, 4, 2, 57, 5, 11, 6, 12, 13, 14])) (.leaf
  [52, 21, 7, 3, 27, 1, 4, 2, 57, 5, 11, 6, 12, 13, 14])) (.leaf
  [27, 52, 7, 3, 1, 57, 4, 2, 11, 5, 12, 6, 13, 14])) (.breaks 17866834 (.breaks 17879237 (.breaks
  10526913 (.breaks 13713493 (.breaks 10526737 (.breaks 21053633 (.breaks 21065810 (.breaks
  10526753 (.breaks 21053457 (.breaks 24211649 (.breaks 10526721 (.breaks 21053473 (.breaks
  24211473 (.breaks 21053441 (.breaks 24211489 (.breaks 24211457 (.leaf
  [52, 21, 3, 16, 4, 11, 56, 5, 12, 17, 6, 13, 18, 14, 19, 20]) (.leaf [52, 21, 7, 3, 16, 1, 4, 2,
  11, 56, 5, 12, 17, 6, 13, 18, 14, 19, 20])) (.leaf [52, 21, 7, 3, 16, 1, 4, 2, 11, 56, 5, 12, 17,
  6, 13, 18, 14, 19, 20])) (.leaf [52, 21, 7, 3, 16, 1, 4, 2, 11, 56, 5, 12, 17, 6, 13, 18, 14, 19,
  20])) (.leaf [52, 21, 7, 3, 16, 1, 4, 2, 11, 56, 5, 12, 17, 6, 13, 18, 14, 19, 20])) (.leaf [52,
  21, 7, 3, 16, 1, 4, 2, 11, 56, 5, 12, 17, 6, 13, 18, 14, 19, 20])) (.leaf [52, 21, 7, 3, 16, 1,
  4, 2, 11, 56, 5, 12, 17, 6, 13, 18, 14, 19, 20])) (.leaf [52, 21, 7, 3, 16, 1, 4, 2, 11, 56, 5,
  12, 17, 6, 13, 18, 14, 19, 20])) (.leaf [52, 21, 7, 3, 16, 1, 4, 2, 11, 56, 5, 12, 17, 6, 13, 18,
  14, 19, 20])) (.leaf [52, 21, 7, 3, 16, 1, 4, 2, 11, 56, 5, 12, 17, 6, 13, 18, 14, 19, 20]))
  (.leaf [52, 21, 7, 3, 16, 1, 4, 2, 11, 56, 5, 12, 17, 6, 13, 18, 14, 19, 20])) (.leaf [52, 21, 7,
  3, 16, 1, 4, 2, 11, 56, 5, 12, 17, 6, 13, 18, 14, 19, 20])) (.leaf [52, 21, 7, 3, 16, 1, 4, 2,
  11, 56, 5, 12, 17, 6, 13, 18, 14, 19, 20])) (.leaf [52, 21, 7, 3, 16, 1, 4, 2, 11, 56, 5, 12, 17,
  6, 13, 18, 14, 19, 20])) (.leaf [52, 21, 7, 3, 16, 1, 4, 2, 11, 56, 5, 12, 17, 6, 13, 18, 14, 19,
  20])) (.leaf [16, 52, 7, 3, 1, 11, 56, 4, 2, 12, 17, 5, 13, 18, 6, 14, 19, 20])) (.leaf [52, 21,
  7, 3, 16, 1, 4, 2, 11, 56, 5, 12, 17, 6, 13, 18, 14, 19, 20]))

/-- some of the cases -/
def real4OneCase5 : LooseTree :=
  .breaks 17879237 (.breaks 22097938 (.breaks 26288325 (.breaks 10526913 (.breaks 13713493 (.breaks
  18948177 (.breaks 20000897 (.breaks 10526737 (.breaks 18948209 (.breaks 20000945 (.breaks
  21053633 (.breaks 10526753 (.breaks 20000929 (.breaks 21053457 (.breaks 10526721 (.breaks
  21053473 (.breaks 21053441 (.leaf [8, 21, 46, 7, 3, 16, 1, 47, 4, 2, 48, 11, 5, 49, 12, 6, 13,
  14]) (.leaf [8, 21, 46, 7, 3, 16, 1, 47, 4, 2, 48, 11, 5, 49, 12, 6, 13, 14])) (.leaf [8, 21, 46,
  7, 3, 16, 1, 47, 4, 2, 48, 11, 5, 49, 12, 6, 13, 14])) (.leaf [8, 21, 46, 7, 3, 16, 1, 47, 4, 2,
  48, 11, 5, 49, 12, 6, 13, 14])) (.leaf [8, 21, 46, 7, 3, 16, 1, 47, 4, 2, 48, 11, 5, 49, 12, 6,
  13, 14])) (.leaf [8, 21, 46, 7, 3, 16, 1, 47, 4, 2, 48, 11, 5, 49, 12, 6, 13, 14])) (.leaf [8,
  21, 46, 7, 3, 16, 1, 47, 4, 2, 48, 11, 5, 49, 12, 6, 13, 14])) (.leaf [8, 21, 46, 7, 3, 16, 1,
  47, 4, 2, 48, 11, 5, 49, 12, 6, 13, 14])) (.leaf [8, 21, 46, 7, 3, 16, 1, 47, 4, 2, 48, 11, 5,
  49, 12, 6, 13, 14])) (.leaf [8, 21, 46, 7, 3, 16, 1, 47, 4, 2, 48, 11, 5, 49, 12, 6, 13, 14]))
  (.leaf [8, 21, 46, 7, 3, 16, 1, 47, 4, 2, 48, 11, 5, 49, 12, 6, 13, 14])) (.leaf [8, 21, 46, 7,
  3, 16, 1, 47, 4, 2, 48, 11, 5, 49, 12, 6, 13, 14])) (.leaf [8, 21, 46, 7, 3, 16, 1, 47, 4, 2, 48,
  11, 5, 49, 12, 6, 13, 14])) (.leaf [8, 21, 46, 7, 3, 16, 1, 47, 4, 2, 48, 11, 5, 49, 12, 6, 13,
  14])) (.leaf [8, 21, 46, 7, 3, 16, 1, 47, 4, 2, 48, 11, 5, 49, 12, 6, 13, 14])) (.leaf [8, 21,
  46, 7, 3, 16, 1, 47, 4, 2, 48, 11, 5, 49, 12, 6, 13, 14])) (.leaf [8, 21, 46, 7, 3, 16, 1, 47, 4,
  2, 48, 11, 5, 49, 12, 6, 13, 14])) (.leaf
  [8, 16, 46, 7, 3, 1, 47, 11, 4, 2, 48, 12, 5, 49, 13, 6, 14])

/-- some of the cases -/
def real4OneCase6 : LooseTree :=
  .breaks 16810002 (.breaks 8421505 (.breaks 10526913 (.breaks 13713493 (.breaks 8421521 (.breaks
  10526737 (.breaks 21053633 (.breaks 10526753 (.breaks 21053457 (.breaks 10526721 (.breaks
  21053473 (.breaks 21053441 (.leaf [8, 34, 21, 35, 3, 16, 36, 4, 11, 5, 12, 6, 13, 14]) (.leaf
  [8, 34, 21, 35, 3, 16, 36, 4, 11, 5, 12, 6, 13, 14])) (.leaf
  [8, 34, 21, 35, 3, 16, 36, 4, 11, 5, 12, 6, 13, 14])) (.leaf
  [8, 34, 21, 35, 3, 16, 36, 4, 11, 5, 12, 6, 13, 14])) (.leaf
  [8, 34, 21, 35, 3, 16, 36, 4, 11, 5, 12, 6, 13, 14])) (.leaf
  [8, 34, 21, 35, 3, 16, 36, 4, 11, 5, 12, 6, 13, 14])) (.leaf
  [8, 34, 21, 35, 3, 16, 36, 4, 11, 5, 12, 6, 13, 14])) (.leaf
  [8, 34, 21, 35, 3, 16, 36, 4, 11, 5, 12, 6, 13, 14])) (.leaf
  [8, 34, 21, 35, 3, 16, 36, 4, 11, 5, 12, 6, 13, 14])) (.leaf
  [8, 34, 21, 35, 3, 16, 36, 4, 11, 5, 12, 6, 13, 14])) (.leaf
  [8, 34, 21, 35, 3, 16, 36, 4, 11, 5, 12, 6, 13, 14])) (.leaf
  [8, 34, 21, 35, 3, 16, 36, 4, 11, 5, 12, 6, 13, 14])) (.leaf
  [8, 34, 21, 35, 3, 16, 36, 4, 11, 5, 12, 6, 13, 14])

/-- some of the cases -/
def real4OneCase7 : LooseTree :=
  .breaks 1089621 (.breaks 12619795 (.breaks 24170693 (.breaks 9474065 (.breaks 10526913 (.breaks
  13684817 (.breaks 9474177 (.breaks 10526737 (.breaks 9474193 (.breaks 10526753 (.breaks 10526721
  (.leaf [8, 37, 31, 38, 3, 0, 32, 4, 33, 5, 6]) (.leaf
  [8, 37, 31, 7, 38, 3, 0, 1, 32, 4, 2, 33, 5, 6])) (.leaf
  [8, 37, 31, 7, 38, 3, 0, 1, 32, 4, 2, 33, 5, 6])) (.leaf
  [8, 37, 31, 7, 38, 3, 0, 1, 32, 4, 2, 33, 5, 6])) (.leaf
  [8, 37, 31, 7, 38, 3, 0, 1, 32, 4, 2, 33, 5, 6])) (.leaf
  [8, 37, 31, 7, 38, 3, 0, 1, 32, 4, 2, 33, 5, 6])) (.leaf
  [8, 37, 31, 7, 38, 3, 0, 1, 32, 4, 2, 33, 5, 6])) (.leaf
  [8, 37, 31, 7, 38, 3, 0, 1, 32, 4, 2, 33, 5, 6])) (.leaf
  [8, 70, 31, 7, 32, 3, 0, 1, 33, 4, 2, 5, 6])) (.leaf
  [8, 37, 31, 7, 38, 3, 0, 1, 32, 4, 2, 33, 5, 6])) (.leaf
  [8, 70, 31, 7, 32, 3, 0, 1, 33, 4, 2, 5, 6])) (.leaf
  [8, 37, 31, 7, 38, 3, 0, 1, 32, 4, 2, 33, 5, 6])

/-- some of the cases -/
def real4OneCase8 : LooseTree :=
  .cases [] 11 (.cases [] 5 (.breaks 26316817 (.breaks 18948209 (.breaks 26316833 (.breaks 26316801
  (.leaf [39, 7, 22, 1, 23, 2, 24, 25]) (.leaf [39, 7, 22, 1, 23, 2, 24, 25])) (.leaf
  [39, 7, 22, 1, 23, 2, 24, 25])) (.leaf [39, 7, 22, 1, 23, 2, 24, 25])) (.leaf
  [39, 7, 22, 1, 23, 2, 24, 25])) (.breaks 1089621 (.breaks 24170693 (.breaks 10526913 (.breaks
  13684817 (.breaks 13733973 (.breaks 10526737 (.breaks 26288325 (.breaks 26316993 (.breaks
  10526753 (.breaks 18948177 (.breaks 26316817 (.breaks 10526721 (.breaks 18948209 (.breaks
  26316833 (.breaks 26316801 (.leaf [8, 31, 3, 0, 51, 4, 7, 22, 5, 1, 23, 6, 2, 24, 25]) (.leaf
  [8, 31, 3, 0, 51, 4, 7, 29, 22, 5, 1, 28, 23, 6, 2, 24, 25])) (.leaf
  [8, 31, 3, 0, 51, 4, 7, 29, 22, 5, 1, 28, 23, 6, 2, 24, 25])) (.leaf
  [8, 31, 3, 0, 51, 4, 7, 29, 22, 5, 1, 28, 23, 6, 2, 24, 25])) (.leaf
  [8, 31, 3, 0, 51, 4, 7, 29, 22, 5, 1, 28, 23, 6, 2, 24, 25])) (.leaf
  [8, 31, 3, 0, 51, 4, 7, 29, 22, 5, 1, 28, 23, 6, 2, 24, 25])) (.leaf
  [8, 31, 3, 0, 51, 4, 7, 29, 22, 5, 1, 28, 23, 6, 2, 24, 25])) (.leaf
  [8, 31, 3, 0, 51, 4, 7, 29, 22, 5, 1, 28, 23, 6, 2, 24, 25])) (.leaf
  [8, 31, 3, 0, 51, 4, 7, 29, 22, 5, 1, 28, 23, 6, 2, 24, 25])) (.leaf
  [8, 31, 3, 0, 51, 4, 7, 29, 22, 5, 1, 28, 23, 6, 2, 24, 25])) (.leaf
  [8, 31, 3, 0, 51, 4, 7, 29, 22, 5, 1, 28, 23, 6, 2, 24, 25])) (.leaf
  [8, 31, 3, 0, 51, 4, 7, 29, 22, 5, 1, 28, 23, 6, 2, 24, 25])) (.leaf
  [8, 31, 3, 0, 51, 4, 7, 29, 22, 5, 1, 28, 23, 6, 2, 24, 25])) (.leaf
  [8, 31, 3, 0, 51, 4, 7, 29, 22, 5, 1, 28, 23, 6, 2, 24, 25])) (.leaf
  [8, 31, 3, 0, 51, 4, 7, 29, 22, 5, 1, 28, 23, 6, 2, 24, 25])) (.leaf
  [8, 31, 3, 0, 51, 4, 7, 29, 22, 5, 1, 28, 23, 6, 2, 24, 25]))) (.breaks 26288325 (.breaks
  10526913 (.breaks 13684817 (.breaks 18948177 (.breaks 10526737 (.breaks 18948209 (.breaks
  10526753 (.breaks 10526721 (.leaf [8, 64, 7, 3, 0, 1, 4, 2, 5, 6]) (.leaf
  [8, 64, 7, 3, 0, 1, 4, 2, 5, 6])) (.leaf [8, 64, 7, 3, 0, 1, 4, 2, 5, 6])) (.leaf
  [8, 64, 7, 3, 0, 1, 4, 2, 5, 6])) (.leaf [8, 64, 7, 3, 0, 1, 4, 2, 5, 6])) (.leaf
  [8, 64, 7, 3, 0, 1, 4, 2, 5, 6])) (.leaf [8, 64, 7, 3, 0, 1, 4, 2, 5, 6])) (.leaf
  [8, 64, 7, 3, 0, 1, 4, 2, 5, 6])) (.leaf [8, 64, 7, 3, 0, 1, 4, 2, 5, 6]))

/-- some of the cases -/
def real4OneCase9 : LooseTree :=
  .breaks 10526913 (.breaks 13684817 (.breaks 18948177 (.breaks 20000897 (.breaks 10526737 (.breaks
  18948209 (.breaks 20000945 (.breaks 10526753 (.breaks 20000929 (.breaks 10526721 (.leaf
  [8, 46, 31, 7, 3, 0, 1, 47, 4, 2, 48, 5, 49, 6]) (.leaf
  [8, 46, 31, 7, 3, 0, 1, 47, 4, 2, 48, 5, 49, 6])) (.leaf
  [8, 46, 31, 7, 3, 0, 1, 47, 4, 2, 48, 5, 49, 6])) (.leaf
  [8, 46, 31, 7, 3, 0, 1, 47, 4, 2, 48, 5, 49, 6])) (.leaf
  [8, 46, 31, 7, 3, 0, 1, 47, 4, 2, 48, 5, 49, 6])) (.leaf
  [8, 46, 31, 7, 3, 0, 1, 47, 4, 2, 48, 5, 49, 6])) (.leaf
  [8, 46, 31, 7, 3, 0, 1, 47, 4, 2, 48, 5, 49, 6])) (.leaf
  [8, 46, 31, 7, 3, 0, 1, 47, 4, 2, 48, 5, 49, 6])) (.leaf
  [8, 46, 31, 7, 3, 0, 1, 47, 4, 2, 48, 5, 49, 6])) (.leaf
  [8, 46, 31, 7, 3, 0, 1, 47, 4, 2, 48, 5, 49, 6])) (.leaf
  [8, 46, 31, 7, 3, 0, 1, 47, 4, 2, 48, 5, 49, 6])

/-- some of the cases -/
def real4OneCase10 : LooseTree :=
  .breaks 10526913 (.breaks 13684817 (.breaks 8421521 (.breaks 10526737 (.breaks 10526753 (.breaks
  10526721 (.leaf [8, 34, 31, 35, 3, 0, 36, 4, 5, 6]) (.leaf [8, 34, 31, 35, 3, 0, 36, 4, 5, 6]))
  (.leaf [8, 34, 31, 35, 3, 0, 36, 4, 5, 6])) (.leaf [8, 34, 31, 35, 3, 0, 36, 4, 5, 6])) (.leaf
  [8, 34, 31, 35, 3, 0, 36, 4, 5, 6])) (.leaf [8, 34, 31, 35, 3, 0, 36, 4, 5, 6])) (.leaf
  [8, 34, 31, 35, 3, 0, 36, 4, 5, 6])

/-- some of the cases -/
def real4OneCase11 : LooseTree :=
  .breaks 9474065 (.breaks 10526913 (.breaks 13684817 (.breaks 13725781 (.breaks 9474177 (.breaks
  10526737 (.breaks 24211649 (.breaks 9474193 (.breaks 10526753 (.breaks 24211473 (.breaks 10526721
  (.breaks 24211489 (.breaks 24211457 (.leaf
  [8, 37, 26, 38, 3, 0, 27, 32, 4, 17, 33, 5, 18, 6, 19, 20]) (.leaf
  [8, 37, 26, 38, 3, 0, 27, 32, 4, 17, 33, 5, 18, 6, 19, 20])) (.leaf
  [8, 37, 26, 38, 3, 0, 27, 32, 4, 17, 33, 5, 18, 6, 19, 20])) (.leaf
  [8, 37, 26, 38, 3, 0, 27, 32, 4, 17, 33, 5, 18, 6, 19, 20])) (.leaf
  [8, 37, 26, 38, 3, 0, 27, 32, 4, 17, 33, 5, 18, 6, 19, 20])) (.leaf
  [8, 37, 26, 38, 3, 0, 27, 32, 4, 17, 33, 5, 18, 6, 19, 20])) (.leaf
  [8, 37, 26, 38, 3, 0, 27, 32, 4, 17, 33, 5, 18, 6, 19, 20])) (.leaf
  [8, 37, 26, 38, 3, 0, 27, 32, 4, 17, 33, 5, 18, 6, 19, 20])) (.leaf
  [8, 37, 26, 38, 3, 0, 27, 32, 4, 17, 33, 5, 18, 6, 19, 20])) (.leaf
  [8, 37, 26, 38, 3, 0, 27, 32, 4, 17, 33, 5, 18, 6, 19, 20])) (.leaf
  [8, 37, 26, 38, 3, 0, 27, 32, 4, 17, 33, 5, 18, 6, 19, 20])) (.leaf
  [8, 37, 26, 38, 3, 0, 27, 32, 4, 17, 33, 5, 18, 6, 19, 20])) (.leaf
  [8, 37, 26, 38, 3, 0, 27, 32, 4, 17, 33, 5, 18, 6, 19, 20])) (.leaf
  [8, 70, 26, 32, 3, 0, 27, 33, 4, 17, 5, 18, 6, 19, 20])

/-- some of the cases -/
def real4OneCase12 : LooseTree :=
  .cases [] 5 (.breaks 26316817 (.breaks 18948209 (.breaks 26316833 (.breaks 26316801 (.leaf
  [39, 7, 22, 1, 23, 2, 24, 25]) (.leaf [39, 7, 22, 1, 23, 2, 24, 25])) (.leaf
  [39, 7, 22, 1, 23, 2, 24, 25])) (.leaf [39, 7, 22, 1, 23, 2, 24, 25])) (.leaf
  [39, 7, 22, 1, 23, 2, 24, 25])) (.cases [] 13 (.breaks 21024965 (.breaks 13684817 (.breaks
  13725781 (.breaks 10526737 (.breaks 24211649 (.breaks 24219730 (.breaks 10526753 (.breaks
  24211473 (.breaks 26312901 (.breaks 10526721 (.breaks 24211489 (.breaks 25239746 (.breaks
  18948177 (.breaks 24211457 (.breaks 18948209 (.leaf
  [8, 26, 3, 0, 27, 4, 17, 45, 5, 18, 29, 6, 19, 55, 1, 20, 2]) (.leaf
  [8, 26, 3, 0, 27, 4, 17, 45, 5, 18, 29, 6, 19, 55, 1, 20, 2])) (.leaf
  [8, 26, 3, 0, 27, 4, 17, 45, 5, 18, 29, 6, 19, 55, 1, 20, 2])) (.leaf
  [8, 26, 3, 0, 27, 4, 17, 45, 5, 18, 29, 6, 19, 55, 1, 20, 2])) (.leaf
  [8, 26, 3, 0, 27, 4, 17, 45, 5, 18, 29, 6, 19, 55, 1, 20, 2])) (.leaf
  [8, 26, 3, 0, 27, 4, 17, 45, 5, 18, 29, 6, 19, 55, 1, 20, 2])) (.leaf
  [8, 26, 3, 0, 27, 4, 17, 45, 5, 18, 29, 6, 19, 55, 1, 20, 2])) (.leaf
  [8, 26, 3, 0, 27, 4, 17, 45, 5, 18, 29, 6, 19, 55, 1, 20, 2])) (.leaf
  [8, 26, 3, 0, 27, 4, 17, 45, 5, 18, 29, 6, 19, 55, 1, 20, 2])) (.leaf
  [8, 26, 3, 0, 27, 4, 17, 45, 5, 18, 29, 6, 19, 55, 1, 20, 2])) (.leaf
  [8, 26, 3, 0, 27, 4, 17, 45, 5, 18, 29, 6, 19, 55, 1, 20, 2])) (.leaf
  [8, 26, 3, 0, 27, 4, 17, 45, 5, 18, 29, 6, 19, 55, 1, 20, 2])) (.leaf
  [8, 26, 3, 0, 27, 4, 17, 45, 5, 18, 29, 6, 19, 55, 1, 20, 2])) (.leaf
  [8, 26, 3, 0, 27, 4, 17, 45, 5, 18, 29, 6, 19, 55, 1, 20, 2])) (.leaf
  [8, 26, 3, 0, 27, 4, 17, 45, 5, 18, 29, 6, 19, 55, 1, 20, 2])) (.leaf [8, 26, 3, 0, 27, 4, 17,
  45, 5, 18, 29, 6, 19, 55, 28, 1, 20, 2])) (.breaks 10526913 (.breaks 13684817 (.breaks 13725781
  (.breaks 10526737 (.breaks 24211649 (.breaks 24219730 (.breaks 10526753 (.breaks 24211473
  (.breaks 26288325 (.breaks 10526721 (.breaks 18948177 (.breaks 18972866 (.breaks 24211489
  (.breaks 18948209 (.breaks 24211457 (.breaks 25264209 (.leaf [8, 26, 3, 0, 27, 4, 17, 45, 5, 18,
  7, 6, 1, 54, 19, 2, 20, 28]) (.leaf [8, 26, 3, 0, 27, 4, 17, 45, 5, 18, 7, 6, 1, 54, 19, 2, 20,
  28])) (.leaf [8, 26, 3, 0, 27, 4, 17, 45, 5, 18, 7, 6, 1, 54, 19, 2, 20, 28])) (.leaf [8, 26, 3,
  0, 27, 4, 17, 45, 5, 18, 7, 6, 1, 54, 19, 2, 20, 28])) (.leaf [8, 26, 3, 0, 27, 4, 17, 45, 5, 18,
  7, 6, 1, 54, 19, 2, 20, 28])) (.leaf [8, 26, 3, 0, 27, 4, 17, 45, 5, 18, 7, 6, 1, 54, 19, 2, 20,
  28])) (.leaf [8, 26, 3, 0, 27, 4, 17, 45, 5, 18, 7, 6, 1, 54, 19, 2, 20, 28])) (.leaf [8, 26, 3,
  0, 27, 4, 17, 45, 5, 18, 7, 6, 1, 54, 19, 2, 20, 28])) (.leaf [8, 26, 3, 0, 27, 4, 17, 45, 5, 18,
  7, 6, 1, 54, 19, 2, 20, 28])) (.leaf [8, 26, 3, 0, 27, 4, 17, 45, 5, 18, 7, 6, 1, 54, 19, 2, 20,
  28])) (.leaf [8, 26, 3, 0, 27, 4, 17, 45, 5, 18, 7, 6, 1, 54, 19, 2, 20, 28])) (.leaf [8, 26, 3,
  0, 27, 4, 17, 45, 5, 18, 7, 6, 1, 54, 19, 2, 20, 28])) (.leaf [8, 26, 3, 0, 27, 4, 17, 45, 5, 18,
  7, 6, 1, 54, 19, 2, 20, 28])) (.leaf [8, 26, 3, 0, 27, 4, 17, 45, 5, 18, 7, 6, 1, 54, 19, 2, 20,
  28])) (.leaf [8, 26, 3, 0, 27, 4, 17, 45, 5, 18, 7, 6, 1, 54, 19, 2, 20, 28])) (.leaf [8, 26, 3,
  0, 27, 4, 17, 45, 5, 18, 7, 6, 1, 54, 19, 2, 20, 28])) (.leaf [8, 26, 3, 0, 27, 4, 17, 45, 5, 18,
  7, 6, 1, 54, 19, 2, 20, 28])))

/-- some of the cases -/
def real4OneCase13 : LooseTree :=
  .breaks 21024965 (.breaks 26288325 (.breaks 26308690 (.breaks 10526913 (.breaks 13684817 (.breaks
  18948177 (.breaks 24211649 (.breaks 10526737 (.breaks 18948209 (.breaks 24211473 (.breaks
  10526753 (.breaks 24211489 (.breaks 10526721 (.breaks 24211457 (.leaf
  [8, 26, 7, 53, 3, 0, 1, 17, 4, 2, 18, 5, 19, 6, 20]) (.leaf
  [8, 26, 7, 53, 3, 0, 1, 17, 4, 2, 18, 5, 19, 6, 20])) (.leaf
  [8, 26, 7, 53, 3, 0, 1, 17, 4, 2, 18, 5, 19, 6, 20])) (.leaf
  [8, 26, 7, 53, 3, 0, 1, 17, 4, 2, 18, 5, 19, 6, 20])) (.leaf
  [8, 26, 7, 53, 3, 0, 1, 17, 4, 2, 18, 5, 19, 6, 20])) (.leaf
  [8, 26, 7, 53, 3, 0, 1, 17, 4, 2, 18, 5, 19, 6, 20])) (.leaf
  [8, 26, 7, 53, 3, 0, 1, 17, 4, 2, 18, 5, 19, 6, 20])) (.leaf
  [8, 26, 7, 53, 3, 0, 1, 17, 4, 2, 18, 5, 19, 6, 20])) (.leaf
  [8, 26, 7, 53, 3, 0, 1, 17, 4, 2, 18, 5, 19, 6, 20])) (.leaf
  [8, 26, 7, 53, 3, 0, 1, 17, 4, 2, 18, 5, 19, 6, 20])) (.leaf
  [8, 26, 7, 53, 3, 0, 1, 17, 4, 2, 18, 5, 19, 6, 20])) (.leaf
  [8, 26, 7, 53, 3, 0, 1, 17, 4, 2, 18, 5, 19, 6, 20])) (.leaf
  [8, 26, 7, 53, 3, 0, 1, 17, 4, 2, 18, 5, 19, 6, 20])) (.leaf
  [8, 26, 7, 53, 3, 0, 1, 17, 4, 2, 18, 5, 19, 6, 20])) (.leaf
  [8, 26, 7, 53, 3, 0, 1, 17, 4, 2, 18, 5, 19, 6, 20])

/-- some of the cases -/
def real4OneCase14 : LooseTree :=
  .breaks 22097938 (.breaks 10526913 (.breaks 13684817 (.breaks 13725781 (.breaks 20000897 (.breaks
  10526737 (.breaks 20000945 (.breaks 24211649 (.breaks 10526753 (.breaks 20000929 (.breaks
  24211473 (.breaks 10526721 (.breaks 24211489 (.breaks 24211457 (.leaf
  [8, 26, 46, 3, 0, 27, 47, 4, 48, 17, 5, 49, 18, 6, 19, 20]) (.leaf
  [8, 26, 46, 3, 0, 27, 47, 4, 48, 17, 5, 49, 18, 6, 19, 20])) (.leaf
  [8, 26, 46, 3, 0, 27, 47, 4, 48, 17, 5, 49, 18, 6, 19, 20])) (.leaf
  [8, 26, 46, 3, 0, 27, 47, 4, 48, 17, 5, 49, 18, 6, 19, 20])) (.leaf
  [8, 26, 46, 3, 0, 27, 47, 4, 48, 17, 5, 49, 18, 6, 19, 20])) (.leaf
  [8, 26, 46, 3, 0, 27, 47, 4, 48, 17, 5, 49, 18, 6, 19, 20])) (.leaf
  [8, 26, 46, 3, 0, 27, 47, 4, 48, 17, 5, 49, 18, 6, 19, 20])) (.leaf
  [8, 26, 46, 3, 0, 27, 47, 4, 48, 17, 5, 49, 18, 6, 19, 20])) (.leaf
  [8, 26, 46, 3, 0, 27, 47, 4, 48, 17, 5, 49, 18, 6, 19, 20])) (.leaf
  [8, 26, 46, 3, 0, 27, 47, 4, 48, 17, 5, 49, 18, 6, 19, 20])) (.leaf
  [8, 26, 46, 3, 0, 27, 47, 4, 48, 17, 5, 49, 18, 6, 19, 20])) (.leaf
  [8, 26, 46, 3, 0, 27, 47, 4, 48, 17, 5, 49, 18, 6, 19, 20])) (.leaf
  [8, 26, 46, 3, 0, 27, 47, 4, 48, 17, 5, 49, 18, 6, 19, 20])) (.leaf
  [8, 26, 46, 3, 0, 27, 47, 4, 48, 17, 5, 49, 18, 6, 19, 20])) (.leaf
  [8, 26, 46, 3, 0, 27, 47, 4, 48, 17, 5, 49, 18, 6, 19, 20])

/-- some of the cases -/
def real4OneCase15 : LooseTree :=
  .breaks 16810002 (.breaks 8421505 (.breaks 10526913 (.breaks 13725781 (.breaks 8421521 (.breaks
  10526737 (.breaks 24211649 (.breaks 10526753 (.breaks 24211473 (.breaks 10526721 (.breaks
  24211489 (.breaks 24211457 (.leaf [8, 34, 26, 35, 3, 27, 36, 4, 17, 5, 18, 6, 19, 20]) (.leaf
  [8, 34, 26, 35, 3, 27, 36, 4, 17, 5, 18, 6, 19, 20])) (.leaf
  [8, 34, 26, 35, 3, 27, 36, 4, 17, 5, 18, 6, 19, 20])) (.leaf
  [8, 34, 26, 35, 3, 27, 36, 4, 17, 5, 18, 6, 19, 20])) (.leaf
  [8, 34, 26, 35, 3, 27, 36, 4, 17, 5, 18, 6, 19, 20])) (.leaf
  [8, 34, 26, 35, 3, 27, 36, 4, 17, 5, 18, 6, 19, 20])) (.leaf
  [8, 34, 26, 35, 3, 27, 36, 4, 17, 5, 18, 6, 19, 20])) (.leaf
  [8, 34, 26, 35, 3, 27, 36, 4, 17, 5, 18, 6, 19, 20])) (.leaf
  [8, 34, 26, 35, 3, 27, 36, 4, 17, 5, 18, 6, 19, 20])) (.leaf
  [8, 34, 26, 35, 3, 27, 36, 4, 17, 5, 18, 6, 19, 20])) (.leaf
  [8, 34, 26, 35, 3, 27, 36, 4, 17, 5, 18, 6, 19, 20])) (.leaf
  [8, 34, 26, 35, 3, 27, 36, 4, 17, 5, 18, 6, 19, 20])) (.leaf
  [8, 34, 26, 35, 3, 27, 36, 4, 17, 5, 18, 6, 19, 20])

/-- some of the cases -/
def real4OneCase16 : LooseTree :=
  .breaks 17895617 (.breaks 26316993 (.breaks 17895441 (.breaks 26316817 (.breaks 17895457 (.breaks
  26316833 (.breaks 17895425 (.breaks 26316801 (.leaf [50, 30, 40, 22, 41, 23, 42, 24, 43, 25])
  (.leaf [50, 30, 40, 22, 41, 23, 42, 24, 43, 25])) (.leaf
  [50, 30, 40, 22, 41, 23, 42, 24, 43, 25])) (.leaf [50, 30, 40, 22, 41, 23, 42, 24, 43, 25]))
  (.leaf [50, 30, 40, 22, 41, 23, 42, 24, 43, 25])) (.leaf
  [50, 30, 40, 22, 41, 23, 42, 24, 43, 25])) (.leaf [50, 30, 40, 22, 41, 23, 42, 24, 43, 25]))
  (.leaf [50, 30, 40, 22, 41, 23, 42, 24, 43, 25])) (.leaf
  [50, 30, 40, 22, 41, 23, 42, 24, 43, 25])

/-- some of the cases -/
def real4OneCase17 : LooseTree :=
  .breaks 9474065 (.breaks 10526913 (.breaks 26316993 (.breaks 9474177 (.breaks 10526737 (.breaks
  26316817 (.breaks 9474193 (.breaks 10526753 (.breaks 26316833 (.breaks 10526721 (.breaks 26316801
  (.leaf [8, 37, 30, 38, 3, 22, 32, 4, 23, 33, 5, 24, 6, 25]) (.leaf
  [8, 37, 30, 38, 3, 22, 32, 4, 23, 33, 5, 24, 6, 25])) (.leaf
  [8, 37, 30, 38, 3, 22, 32, 4, 23, 33, 5, 24, 6, 25])) (.leaf
  [8, 37, 30, 38, 3, 22, 32, 4, 23, 33, 5, 24, 6, 25])) (.leaf
  [8, 37, 30, 38, 3, 22, 32, 4, 23, 33, 5, 24, 6, 25])) (.leaf
  [8, 37, 30, 38, 3, 22, 32, 4, 23, 33, 5, 24, 6, 25])) (.leaf
  [8, 37, 30, 38, 3, 22, 32, 4, 23, 33, 5, 24, 6, 25])) (.leaf
  [8, 37, 30, 38, 3, 22, 32, 4, 23, 33, 5, 24, 6, 25])) (.leaf
  [8, 37, 30, 38, 3, 22, 32, 4, 23, 33, 5, 24, 6, 25])) (.leaf
  [8, 37, 30, 38, 3, 22, 32, 4, 23, 33, 5, 24, 6, 25])) (.leaf
  [8, 37, 30, 38, 3, 22, 32, 4, 23, 33, 5, 24, 6, 25])) (.leaf
  [8, 70, 30, 32, 3, 22, 33, 4, 23, 5, 24, 6, 25])

/-- some of the cases -/
def real4OneCase18 : LooseTree :=
  .cases [] 2 (.breaks 26316993 (.breaks 21053633 (.breaks 26316817 (.breaks 10526753 (.breaks
  21053457 (.breaks 26316833 (.breaks 10526721 (.breaks 21053473 (.breaks 26316801 (.breaks
  21053441 (.leaf [8, 21, 39, 3, 16, 22, 4, 11, 23, 5, 12, 24, 6, 13, 25, 14]) (.leaf
  [8, 21, 39, 3, 16, 22, 4, 11, 23, 5, 12, 24, 6, 13, 25, 14])) (.leaf
  [8, 21, 39, 3, 16, 22, 4, 11, 23, 5, 12, 24, 6, 13, 25, 14])) (.leaf
  [8, 21, 39, 3, 16, 22, 4, 11, 23, 5, 12, 24, 6, 13, 25, 14])) (.leaf
  [8, 21, 39, 3, 16, 22, 4, 11, 23, 5, 12, 24, 6, 13, 25, 14])) (.leaf
  [8, 21, 39, 3, 16, 22, 4, 11, 23, 5, 12, 24, 6, 13, 25, 14])) (.leaf
  [8, 21, 39, 3, 16, 22, 4, 11, 23, 5, 12, 24, 6, 13, 25, 14])) (.leaf
  [8, 21, 39, 3, 16, 22, 4, 11, 23, 5, 12, 24, 6, 13, 25, 14])) (.leaf
  [8, 21, 39, 3, 16, 22, 4, 11, 23, 5, 12, 24, 6, 13, 25, 14])) (.leaf
  [8, 21, 39, 3, 16, 22, 4, 11, 23, 5, 12, 24, 6, 13, 25, 14])) (.leaf
  [8, 21, 39, 3, 16, 22, 4, 11, 23, 5, 12, 24, 6, 13, 25, 14])) (.breaks 10526913 (.breaks 13684817
  (.breaks 26316993 (.breaks 10526737 (.breaks 26316817 (.breaks 10526753 (.breaks 26316833
  (.breaks 10526721 (.breaks 26316801 (.leaf [8, 26, 39, 3, 0, 22, 4, 23, 5, 24, 6, 25]) (.leaf
  [8, 26, 39, 3, 0, 22, 4, 23, 5, 24, 6, 25])) (.leaf [8, 26, 39, 3, 0, 22, 4, 23, 5, 24, 6, 25]))
  (.leaf [8, 26, 39, 3, 0, 22, 4, 23, 5, 24, 6, 25])) (.leaf
  [8, 26, 39, 3, 0, 22, 4, 23, 5, 24, 6, 25])) (.leaf [8, 26, 39, 3, 0, 22, 4, 23, 5, 24, 6, 25]))
  (.leaf [8, 26, 39, 3, 0, 22, 4, 23, 5, 24, 6, 25])) (.leaf
  [8, 26, 39, 3, 0, 22, 4, 23, 5, 24, 6, 25])) (.leaf [8, 26, 39, 3, 0, 22, 4, 23, 5, 24, 6, 25]))
  (.leaf [8, 26, 39, 3, 0, 22, 4, 23, 5, 24, 6, 25]))

/-- some of the cases -/
def real4OneCase19 : LooseTree :=
  .cases [] 2 (.breaks 1089621 (.breaks 18976853 (.breaks 10526913 (.breaks 26312901 (.breaks
  26316993 (.breaks 10526737 (.breaks 25264209 (.breaks 26316817 (.breaks 10526753 (.breaks
  26316833 (.breaks 10526721 (.breaks 26316801 (.leaf [8, 30, 3, 29, 22, 4, 28, 23, 5, 24, 6, 25])
  (.leaf [8, 21, 30, 3, 16, 29, 22, 4, 11, 28, 23, 5, 12, 24, 6, 13, 25, 14])) (.leaf [8, 21, 30,
  3, 16, 29, 22, 4, 11, 28, 23, 5, 12, 24, 6, 13, 25, 14])) (.leaf [8, 21, 30, 3, 16, 29, 22, 4,
  11, 28, 23, 5, 12, 24, 6, 13, 25, 14])) (.leaf [8, 21, 30, 3, 16, 29, 22, 4, 11, 28, 23, 5, 12,
  24, 6, 13, 25, 14])) (.leaf [8, 21, 30, 3, 16, 29, 22, 4, 11, 28, 23, 5, 12, 24, 6, 13, 25, 14]))
  (.leaf [8, 21, 30, 3, 16, 29, 22, 4, 11, 28, 23, 5, 12, 24, 6, 13, 25, 14])) (.leaf [8, 21, 30,
  3, 16, 29, 22, 4, 11, 28, 23, 5, 12, 24, 6, 13, 25, 14])) (.leaf [8, 21, 30, 3, 16, 29, 22, 4,
  11, 28, 23, 5, 12, 24, 6, 13, 25, 14])) (.leaf [8, 21, 30, 3, 16, 29, 22, 4, 11, 28, 23, 5, 12,
  24, 6, 13, 25, 14])) (.leaf [8, 21, 30, 3, 16, 29, 22, 4, 11, 28, 23, 5, 12, 24, 6, 13, 25, 14]))
  (.leaf [8, 21, 30, 3, 16, 29, 22, 4, 11, 28, 23, 5, 12, 24, 6, 13, 25, 14])) (.leaf [8, 21, 30,
  3, 16, 29, 22, 4, 11, 28, 23, 5, 12, 24, 6, 13, 25, 14])) (.breaks 1089621 (.breaks 18976853
  (.breaks 10526913 (.breaks 26312901 (.breaks 26316993 (.breaks 10526737 (.breaks 25264209
  (.breaks 26316817 (.breaks 10526753 (.breaks 26316833 (.breaks 10526721 (.breaks 26316801 (.leaf
  [8, 30, 3, 29, 22, 4, 28, 23, 5, 24, 6, 25]) (.leaf
  [8, 30, 26, 3, 0, 29, 22, 4, 28, 23, 5, 24, 6, 25])) (.leaf
  [8, 30, 26, 3, 0, 29, 22, 4, 28, 23, 5, 24, 6, 25])) (.leaf
  [8, 30, 26, 3, 0, 29, 22, 4, 28, 23, 5, 24, 6, 25])) (.leaf
  [8, 30, 26, 3, 0, 29, 22, 4, 28, 23, 5, 24, 6, 25])) (.leaf
  [8, 30, 26, 3, 0, 29, 22, 4, 28, 23, 5, 24, 6, 25])) (.leaf
  [8, 30, 26, 3, 0, 29, 22, 4, 28, 23, 5, 24, 6, 25])) (.leaf
  [8, 30, 26, 3, 0, 29, 22, 4, 28, 23, 5, 24, 6, 25])) (.leaf
  [8, 30, 26, 3, 0, 29, 22, 4, 28, 23, 5, 24, 6, 25])) (.leaf
  [8, 30, 26, 3, 0, 29, 22, 4, 28, 23, 5, 24, 6, 25])) (.leaf
  [8, 30, 26, 3, 0, 29, 22, 4, 28, 23, 5, 24, 6, 25])) (.leaf
  [8, 30, 26, 3, 0, 29, 22, 4, 28, 23, 5, 24, 6, 25])) (.leaf
  [8, 30, 26, 3, 0, 29, 22, 4, 28, 23, 5, 24, 6, 25]))

/-- some of the cases -/
def real4OneCase20 : LooseTree :=
  .breaks 8421521 (.breaks 10526737 (.breaks 26316817 (.breaks 10526753 (.breaks 26316833 (.breaks
  10526721 (.breaks 26316801 (.leaf [8, 34, 30, 35, 3, 22, 36, 4, 23, 5, 24, 6, 25]) (.leaf
  [8, 34, 30, 35, 3, 22, 36, 4, 23, 5, 24, 6, 25])) (.leaf
  [8, 34, 30, 35, 3, 22, 36, 4, 23, 5, 24, 6, 25])) (.leaf
  [8, 34, 30, 35, 3, 22, 36, 4, 23, 5, 24, 6, 25])) (.leaf
  [8, 34, 30, 35, 3, 22, 36, 4, 23, 5, 24, 6, 25])) (.leaf
  [8, 34, 30, 35, 3, 22, 36, 4, 23, 5, 24, 6, 25])) (.leaf
  [8, 34, 30, 35, 3, 22, 36, 4, 23, 5, 24, 6, 25])) (.leaf
  [8, 34, 30, 35, 3, 22, 36, 4, 23, 5, 24, 6, 25])

/-- some of the cases -/
def real4OneCase21 : LooseTree :=
  .breaks 1052753 (.breaks 13684817 (.breaks 13713493 (.breaks 1052769 (.breaks 21053633 (.breaks
  21053457 (.breaks 21053473 (.breaks 21053441 (.leaf [15, 31, 9, 0, 16, 10, 11, 12, 13, 14])
  (.leaf [15, 31, 9, 0, 16, 10, 11, 12, 13, 14])) (.leaf [15, 31, 9, 0, 16, 10, 11, 12, 13, 14]))
  (.leaf [15, 31, 9, 0, 16, 10, 11, 12, 13, 14])) (.leaf [15, 31, 9, 0, 16, 10, 11, 12, 13, 14]))
  (.leaf [15, 31, 9, 0, 16, 10, 11, 12, 13, 14])) (.leaf [15, 31, 9, 0, 16, 10, 11, 12, 13, 14]))
  (.leaf [15, 31, 9, 0, 16, 10, 11, 12, 13, 14])) (.leaf [15, 31, 9, 0, 16, 10, 11, 12, 13, 14])

/-- some of the cases -/
def real4OneCase22 : LooseTree :=
  .breaks 1052753 (.breaks 17895617 (.breaks 21053633 (.breaks 1052769 (.breaks 17895441 (.breaks
  21053457 (.breaks 17895457 (.breaks 21053473 (.breaks 17895425 (.breaks 21053441 (.leaf
  [15, 50, 16, 9, 40, 11, 10, 41, 12, 42, 13, 43, 14]) (.leaf
  [15, 50, 7, 9, 40, 1, 10, 41, 2, 42, 43])) (.leaf
  [15, 50, 16, 9, 40, 11, 10, 41, 12, 42, 13, 43, 14])) (.leaf
  [15, 50, 7, 9, 40, 1, 10, 41, 2, 42, 43])) (.leaf
  [15, 50, 16, 9, 40, 11, 10, 41, 12, 42, 13, 43, 14])) (.leaf
  [15, 50, 7, 9, 40, 1, 10, 41, 2, 42, 43])) (.leaf
  [15, 50, 16, 9, 40, 11, 10, 41, 12, 42, 13, 43, 14])) (.leaf
  [15, 50, 16, 9, 40, 11, 10, 41, 12, 42, 13, 43, 14])) (.leaf
  [15, 50, 7, 9, 40, 1, 10, 41, 2, 42, 43])) (.leaf
  [15, 50, 16, 9, 40, 11, 10, 41, 12, 42, 13, 43, 14])) (.leaf
  [15, 50, 16, 9, 40, 11, 10, 41, 12, 42, 13, 43, 14])

/-- some of the cases -/
def real4OneCase23 : LooseTree :=
  .breaks 10490053 (.breaks 12619795 (.breaks 26288325 (.breaks 1052753 (.breaks 1118293 (.breaks
  9474065 (.breaks 18948177 (.breaks 1052769 (.breaks 9474177 (.breaks 17879237 (.breaks 18948209
  (.breaks 9474193 (.breaks 13713493 (.breaks 21053633 (.breaks 21053457 (.breaks 21053473 (.breaks
  21053441 (.leaf [15, 37, 7, 9, 44, 38, 1, 10, 32, 21, 2, 33, 16, 11, 12, 13, 14]) (.leaf [15, 37,
  7, 9, 44, 38, 1, 10, 32, 21, 2, 33, 0, 16, 11, 12, 13, 14])) (.leaf [15, 37, 7, 9, 44, 38, 1, 10,
  32, 21, 2, 33, 0, 16, 11, 12, 13, 14])) (.leaf [15, 37, 7, 9, 44, 38, 1, 10, 32, 21, 2, 33, 0,
  16, 11, 12, 13, 14])) (.leaf [15, 37, 7, 9, 44, 38, 1, 10, 32, 21, 2, 33, 0, 16, 11, 12, 13,
  14])) (.leaf [15, 37, 7, 9, 44, 38, 1, 10, 32, 21, 2, 33, 0, 16, 11, 12, 13, 14])) (.leaf [15,
  37, 7, 9, 44, 38, 1, 10, 32, 21, 2, 33, 0, 16, 11, 12, 13, 14])) (.leaf [15, 37, 7, 9, 44, 38, 1,
  10, 32, 21, 2, 33, 0, 16, 11, 12, 13, 14])) (.leaf [15, 37, 7, 9, 44, 38, 1, 10, 32, 21, 2, 33,
  0, 16, 11, 12, 13, 14])) (.leaf [15, 37, 7, 9, 44, 38, 1, 10, 32, 21, 2, 33, 0, 16, 11, 12, 13,
  14])) (.leaf [15, 37, 7, 9, 44, 38, 1, 10, 32, 21, 2, 33, 0, 16, 11, 12, 13, 14])) (.leaf [15,
  37, 7, 9, 44, 38, 1, 10, 32, 21, 2, 33, 0, 16, 11, 12, 13, 14])) (.leaf [15, 70, 7, 9, 44, 32, 1,
  10, 33, 21, 2, 0, 16, 11, 12, 13, 14])) (.leaf [15, 37, 21, 7, 9, 38, 0, 16, 1, 10, 32, 2, 11,
  33, 12, 13, 14])) (.leaf [15, 37, 7, 9, 44, 38, 1, 10, 32, 21, 2, 33, 0, 16, 11, 12, 13, 14]))
  (.leaf [15, 37, 7, 9, 44, 38, 1, 10, 32, 21, 2, 33, 0, 16, 11, 12, 13, 14])) (.leaf [15, 70, 7,
  9, 44, 32, 1, 10, 33, 21, 2, 0, 16, 11, 12, 13, 14])) (.leaf [15, 37, 21, 7, 9, 38, 16, 27, 1,
  10, 32, 2, 11, 17, 33, 12, 18, 13, 19, 14, 20])

/-- some of the cases -/
def real4OneCase24 : LooseTree :=
  .breaks 10490053 (.breaks 1052753 (.breaks 1118291 (.breaks 17895505 (.breaks 17879237 (.breaks
  17895617 (.breaks 13713493 (.breaks 13725781 (.breaks 17895441 (.breaks 17895457 (.breaks
  21053633 (.breaks 24211649 (.breaks 17895425 (.breaks 21053457 (.breaks 24211473 (.breaks
  21053473 (.breaks 24211489 (.breaks 21053441 (.breaks 24211457 (.leaf [15, 9, 10, 58, 59, 21, 40,
  16, 27, 41, 42, 11, 17, 43, 12, 18, 13, 19, 14, 20]) (.leaf [15, 7, 9, 1, 10, 58, 2, 59, 21, 40,
  0, 16, 41, 42, 11, 43, 12, 13, 14])) (.leaf [15, 9, 10, 58, 59, 21, 40, 16, 27, 41, 42, 11, 17,
  43, 12, 18, 13, 19, 14, 20])) (.leaf [15, 7, 9, 1, 10, 58, 2, 59, 21, 40, 0, 16, 41, 42, 11, 43,
  12, 13, 14])) (.leaf [15, 9, 10, 58, 59, 21, 40, 16, 27, 41, 42, 11, 17, 43, 12, 18, 13, 19, 14,
  20])) (.leaf [15, 7, 9, 1, 10, 58, 2, 59, 21, 40, 0, 16, 41, 42, 11, 43, 12, 13, 14])) (.leaf
  [15, 9, 10, 58, 59, 21, 40, 16, 27, 41, 42, 11, 17, 43, 12, 18, 13, 19, 14, 20])) (.leaf [15, 9,
  10, 58, 59, 21, 40, 16, 27, 41, 42, 11, 17, 43, 12, 18, 13, 19, 14, 20])) (.leaf [15, 7, 9, 1,
  10, 58, 2, 59, 21, 40, 0, 16, 41, 42, 11, 43, 12, 13, 14])) (.leaf [15, 9, 10, 58, 59, 21, 40,
  16, 27, 41, 42, 11, 17, 43, 12, 18, 13, 19, 14, 20])) (.leaf [15, 9, 10, 58, 59, 21, 40, 16, 27,
  41, 42, 11, 17, 43, 12, 18, 13, 19, 14, 20])) (.leaf [15, 9, 10, 58, 59, 21, 40, 16, 27, 41, 42,
  11, 17, 43, 12, 18, 13, 19, 14, 20])) (.leaf [15, 7, 9, 1, 10, 58, 2, 59, 21, 40, 0, 16, 41, 42,
  11, 43, 12, 13, 14])) (.leaf [15, 9, 10, 58, 59, 21, 40, 16, 27, 41, 42, 11, 17, 43, 12, 18, 13,
  19, 14, 20])) (.leaf [15, 9, 10, 58, 59, 21, 40, 16, 27, 41, 42, 11, 17, 43, 12, 18, 13, 19, 14,
  20])) (.leaf [15, 7, 9, 1, 10, 58, 2, 59, 21, 40, 0, 16, 41, 42, 11, 43, 12, 13, 14])) (.leaf
  [15, 7, 9, 1, 10, 58, 2, 59, 21, 40, 0, 16, 41, 42, 11, 43, 12, 13, 14])) (.leaf [15, 7, 9, 1,
  10, 58, 2, 59, 21, 40, 0, 16, 41, 42, 11, 43, 12, 13, 14])) (.leaf [15, 9, 10, 58, 59, 21, 40, 0,
  16, 27, 41, 42, 11, 17, 43, 12, 18, 13, 19, 14, 20])) (.leaf [15, 9, 10, 58, 59, 21, 40, 0, 16,
  27, 41, 42, 11, 17, 43, 12, 18, 13, 19, 14, 20])

/-- some of the cases -/
def real4OneCase25 : LooseTree :=
  .cases [] 14 (.cases [] 10 (.cases [] 21 (.cases [] 20 (.cases [] 5 (.breaks 1118293 (.breaks
  17829971 (.cycle 12 [44, 68]) (.leaf [39, 7, 22, 1, 23, 2, 24, 25])) (.leaf
  [39, 7, 22, 1, 23, 2, 24, 25])) (.breaks 1118293 (.breaks 17829971 (.cycle 12 [44, 68]) (.leaf
  [15, 9, 44, 10, 21, 0, 27, 57, 17, 11, 75, 18, 12, 19, 7, 1, 13, 20, 2, 14])) (.leaf [15, 21, 9,
  27, 10, 57, 17, 11, 75, 18, 12, 19, 7, 29, 22, 1, 13, 20, 28, 23, 2, 14, 24, 25]))) (.breaks
  1118293 (.breaks 17829971 (.cycle 12 [44, 68]) (.leaf [15, 7, 74, 9, 44, 1, 11, 10, 21, 2, 12,
  27, 13, 14, 17, 18, 19, 20])) (.leaf [15, 21, 7, 74, 9, 27, 1, 11, 10, 2, 12, 17, 13, 18, 14, 19,
  20]))) (.breaks 1118293 (.breaks 17829971 (.cycle 12 [44, 68]) (.cycle 1 [27, 57, 77])) (.cycle 1
  [27, 57, 77]))) (.breaks 1118293 (.breaks 17829971 (.cycle 12 [44, 68]) (.leaf
  [15, 46, 9, 44, 47, 10, 21, 48, 0, 27, 49, 57, 11, 12, 13, 14])) (.leaf [15, 21, 46, 7, 9, 27, 1,
  47, 10, 2, 48, 57, 49, 11, 12, 13, 14]))) (.cases [] 10 (.cases [] 17 (.breaks 1118293 (.breaks
  17829971 (.cycle 12 [44, 68]) (.cycle 1 [16, 56, 73])) (.cycle 1 [16, 56, 73])) (.cases [] 9
  (.cases [] 5 (.breaks 1118293 (.breaks 17829971 (.cycle 12 [44, 68]) (.leaf
  [39, 7, 22, 1, 23, 2, 24, 25])) (.leaf [39, 7, 22, 1, 23, 2, 24, 25])) (.breaks 1118293 (.breaks
  17829971 (.cycle 12 [44, 68]) (.leaf [15, 9, 44, 10, 21, 0, 16, 11, 56, 12, 17, 45, 13, 18, 7, 1,
  14, 19, 2, 20])) (.leaf [15, 21, 9, 16, 10, 11, 56, 12, 17, 45, 13, 18, 7, 29, 22, 1, 14, 19, 28,
  23, 2, 20, 24, 25]))) (.breaks 1118293 (.breaks 17829971 (.cycle 12 [44, 68]) (.leaf [15, 7, 53,
  9, 44, 1, 17, 10, 21, 2, 18, 16, 19, 11, 20, 12, 13, 14])) (.leaf [15, 21, 7, 53, 9, 16, 1, 17,
  10, 2, 11, 18, 12, 19, 13, 20, 14])))) (.breaks 1118293 (.breaks 17829971 (.cycle 12 [44, 68])
  (.leaf [15, 46, 9, 44, 47, 10, 21, 48, 16, 49, 11, 56, 12, 17, 13, 18, 14, 19, 20])) (.leaf [15,
  21, 46, 9, 16, 47, 10, 48, 11, 56, 49, 12, 17, 13, 18, 14, 19, 20])))

/-- some of the cases -/
def real4OneCase26 : LooseTree :=
  .breaks 10490053 (.breaks 1052753 (.breaks 1118293 (.breaks 8421505 (.breaks 1052769 (.breaks
  8421521 (.breaks 17879237 (.breaks 13684817 (.breaks 13713493 (.breaks 21053633 (.breaks 21053457
  (.breaks 21053473 (.breaks 21053441 (.leaf
  [15, 34, 9, 44, 35, 10, 36, 21, 0, 16, 11, 12, 13, 14]) (.leaf
  [15, 34, 9, 44, 35, 10, 36, 21, 0, 16, 11, 12, 13, 14])) (.leaf
  [15, 34, 9, 44, 35, 10, 36, 21, 0, 16, 11, 12, 13, 14])) (.leaf
  [15, 34, 9, 44, 35, 10, 36, 21, 0, 16, 11, 12, 13, 14])) (.leaf
  [15, 34, 9, 44, 35, 10, 36, 21, 0, 16, 11, 12, 13, 14])) (.leaf
  [15, 34, 9, 44, 35, 10, 36, 21, 0, 16, 11, 12, 13, 14])) (.leaf
  [15, 34, 7, 9, 44, 35, 1, 10, 36, 21, 2, 16, 11, 12, 13, 14])) (.leaf
  [15, 34, 7, 9, 44, 35, 1, 10, 36, 21, 2, 16, 11, 12, 13, 14])) (.leaf
  [15, 34, 9, 44, 35, 10, 36, 21, 0, 16, 11, 12, 13, 14])) (.leaf
  [15, 34, 9, 44, 35, 10, 36, 21, 0, 16, 11, 12, 13, 14])) (.leaf
  [15, 34, 9, 44, 35, 10, 36, 21, 0, 16, 11, 12, 13, 14])) (.leaf
  [15, 34, 21, 7, 9, 35, 16, 1, 10, 36, 2, 11, 12, 13, 14])) (.leaf
  [15, 34, 9, 44, 35, 10, 36, 21, 0, 16, 11, 12, 13, 14])) (.leaf
  [15, 34, 21, 7, 9, 35, 16, 1, 10, 36, 2, 11, 12, 13, 14])

/-- some of the cases -/
def real4OneCase27 : LooseTree :=
  .breaks 17879237 (.breaks 1052753 (.breaks 13713493 (.breaks 1052769 (.breaks 21053633 (.breaks
  21053457 (.breaks 21053473 (.breaks 21053441 (.leaf [61, 21, 9, 16, 10, 11, 12, 13, 14]) (.leaf
  [61, 21, 9, 16, 10, 11, 12, 13, 14])) (.leaf [61, 21, 9, 16, 10, 11, 12, 13, 14])) (.leaf
  [61, 21, 9, 16, 10, 11, 12, 13, 14])) (.leaf [61, 21, 9, 16, 10, 11, 12, 13, 14])) (.leaf
  [61, 21, 9, 16, 10, 11, 12, 13, 14])) (.leaf [61, 21, 9, 16, 10, 11, 12, 13, 14])) (.leaf
  [61, 21, 9, 16, 10, 11, 12, 13, 14])) (.leaf [16, 61, 9, 11, 10, 12, 13, 14])

/-- some of the cases -/
def real4OneCase28 : LooseTree :=
  .cases [] 5 (.breaks 26316817 (.breaks 18948209 (.breaks 26316833 (.breaks 26316801 (.leaf
  [39, 7, 22, 1, 23, 2, 24, 25]) (.leaf [39, 7, 22, 1, 23, 2, 24, 25])) (.leaf
  [39, 7, 22, 1, 23, 2, 24, 25])) (.leaf [39, 7, 22, 1, 23, 2, 24, 25])) (.leaf
  [39, 7, 22, 1, 23, 2, 24, 25])) (.cases [] 13 (.breaks 10490053 (.breaks 24170693 (.breaks
  1052753 (.breaks 13684817 (.breaks 13733973 (.breaks 1052769 (.breaks 26312901 (.breaks 25239746
  (.breaks 25264209 (.breaks 18948177 (.breaks 18948209 (.leaf
  [15, 31, 9, 0, 51, 10, 29, 55, 28, 1, 2]) (.leaf
  [15, 31, 9, 0, 51, 10, 29, 22, 55, 23, 1, 24, 2, 25])) (.leaf
  [15, 31, 9, 0, 51, 10, 29, 22, 55, 23, 1, 24, 2, 25])) (.leaf
  [15, 31, 9, 0, 51, 10, 29, 22, 55, 23, 1, 24, 2, 25])) (.leaf
  [15, 31, 9, 0, 51, 10, 29, 22, 55, 23, 1, 24, 2, 25])) (.leaf
  [15, 31, 9, 0, 51, 10, 29, 22, 55, 23, 1, 24, 2, 25])) (.leaf
  [15, 31, 9, 0, 51, 10, 29, 22, 55, 23, 1, 24, 2, 25])) (.leaf
  [15, 31, 9, 0, 51, 10, 29, 22, 55, 28, 23, 1, 24, 2, 25])) (.leaf
  [15, 31, 9, 0, 51, 10, 29, 22, 55, 23, 1, 24, 2, 25])) (.leaf
  [15, 31, 9, 0, 51, 10, 29, 22, 55, 23, 1, 24, 2, 25])) (.leaf
  [15, 31, 9, 0, 51, 10, 29, 22, 55, 28, 23, 1, 24, 2, 25])) (.leaf
  [15, 31, 9, 0, 51, 10, 29, 22, 55, 23, 1, 24, 2, 25])) (.breaks 10490053 (.breaks 24170693
  (.breaks 1052753 (.breaks 13684817 (.breaks 13733973 (.breaks 1052769 (.breaks 26288325 (.breaks
  18948177 (.breaks 18972866 (.breaks 18948209 (.breaks 25264209 (.leaf
  [15, 31, 9, 0, 51, 10, 7, 1, 54, 2, 28]) (.leaf
  [15, 31, 9, 0, 51, 10, 7, 22, 1, 54, 23, 2, 28, 24, 25])) (.leaf
  [15, 31, 9, 0, 51, 10, 7, 22, 1, 54, 23, 2, 28, 24, 25])) (.leaf
  [15, 31, 9, 0, 51, 10, 7, 22, 1, 54, 23, 2, 28, 24, 25])) (.leaf
  [15, 31, 9, 0, 51, 10, 7, 22, 1, 54, 23, 2, 28, 24, 25])) (.leaf
  [15, 31, 9, 0, 51, 10, 7, 22, 1, 54, 23, 2, 28, 24, 25])) (.leaf
  [15, 31, 9, 0, 51, 10, 7, 22, 1, 54, 23, 2, 28, 24, 25])) (.leaf
  [15, 31, 9, 0, 51, 10, 7, 22, 1, 54, 23, 2, 28, 24, 25])) (.leaf
  [15, 31, 9, 0, 51, 10, 7, 22, 1, 54, 23, 2, 28, 24, 25])) (.leaf
  [15, 31, 9, 0, 51, 10, 7, 22, 1, 54, 23, 2, 28, 24, 25])) (.leaf
  [15, 31, 9, 0, 51, 10, 7, 22, 1, 54, 23, 2, 28, 24, 25])) (.leaf
  [15, 31, 9, 0, 51, 10, 7, 22, 1, 54, 23, 2, 28, 24, 25])))

/-- some of the cases -/
def real4OneCase29 : LooseTree :=
  .cases [] 19 (.breaks 1052753 (.breaks 13684817 (.breaks 13705410 (.breaks 1052769 (.breaks
  18948177 (.breaks 18948209 (.leaf [15, 64, 9, 0, 72, 10, 1, 2]) (.leaf
  [15, 64, 9, 0, 72, 10, 1, 2])) (.leaf [15, 64, 9, 0, 72, 10, 1, 2])) (.leaf
  [15, 64, 9, 0, 72, 10, 1, 2])) (.leaf [15, 64, 9, 0, 72, 10, 1, 2])) (.leaf
  [15, 64, 9, 0, 72, 10, 1, 2])) (.leaf [15, 64, 9, 0, 72, 10, 1, 2])) (.breaks 1052753 (.breaks
  18927810 (.breaks 18948177 (.breaks 1052769 (.breaks 13684817 (.breaks 18948209 (.leaf
  [15, 7, 9, 71, 1, 10, 0, 2]) (.leaf [15, 7, 9, 71, 1, 10, 0, 2])) (.leaf
  [15, 7, 9, 71, 1, 10, 0, 2])) (.leaf [15, 7, 9, 71, 1, 10, 0, 2])) (.leaf
  [15, 7, 9, 71, 1, 10, 0, 2])) (.leaf [15, 7, 9, 71, 1, 10, 0, 2])) (.leaf
  [15, 7, 9, 71, 1, 10, 0, 2]))

/-- some of the cases -/
def real4OneCase30 : LooseTree :=
  .breaks 16810002 (.breaks 24170693 (.breaks 1052753 (.breaks 8421505 (.breaks 13684817 (.breaks
  1052769 (.breaks 8421521 (.leaf [15, 34, 31, 9, 35, 0, 10, 36]) (.leaf
  [15, 34, 31, 9, 35, 0, 10, 36])) (.leaf [15, 34, 31, 9, 35, 0, 10, 36])) (.leaf
  [15, 34, 31, 9, 35, 0, 10, 36])) (.leaf [15, 34, 31, 9, 35, 0, 10, 36])) (.leaf
  [15, 34, 31, 9, 35, 0, 10, 36])) (.leaf [15, 34, 31, 9, 35, 0, 10, 36])) (.leaf
  [15, 34, 31, 9, 35, 0, 10, 36])

/-- some of the cases -/
def real4OneCase31 : LooseTree :=
  .breaks 10490053 (.breaks 21024965 (.breaks 1052753 (.breaks 9474065 (.breaks 13684817 (.breaks
  13725781 (.breaks 1052769 (.breaks 9474177 (.breaks 24211649 (.breaks 9474193 (.breaks 24211473
  (.breaks 24211489 (.breaks 24211457 (.leaf
  [15, 37, 26, 9, 38, 0, 27, 10, 32, 17, 33, 18, 19, 20]) (.leaf
  [15, 37, 26, 9, 38, 0, 27, 10, 32, 17, 33, 18, 19, 20])) (.leaf
  [15, 37, 26, 9, 38, 0, 27, 10, 32, 17, 33, 18, 19, 20])) (.leaf
  [15, 37, 26, 9, 38, 0, 27, 10, 32, 17, 33, 18, 19, 20])) (.leaf
  [15, 37, 26, 9, 38, 0, 27, 10, 32, 17, 33, 18, 19, 20])) (.leaf
  [15, 37, 26, 9, 38, 0, 27, 10, 32, 17, 33, 18, 19, 20])) (.leaf
  [15, 37, 26, 9, 38, 0, 27, 10, 32, 17, 33, 18, 19, 20])) (.leaf [15, 37, 26, 7, 9, 38, 0, 27, 1,
  10, 32, 2, 17, 33, 18, 19, 20])) (.leaf [15, 37, 26, 9, 38, 0, 27, 10, 32, 17, 33, 18, 19, 20]))
  (.leaf [15, 37, 26, 9, 38, 0, 27, 10, 32, 17, 33, 18, 19, 20])) (.leaf
  [15, 70, 26, 9, 32, 0, 27, 10, 33, 17, 18, 19, 20])) (.leaf [15, 37, 26, 7, 9, 38, 0, 27, 1, 10,
  32, 2, 17, 33, 18, 19, 20])) (.leaf [15, 37, 26, 7, 9, 38, 0, 27, 1, 10, 32, 2, 17, 33, 18, 19,
  20])) (.leaf [15, 37, 26, 7, 9, 38, 0, 27, 1, 10, 32, 2, 17, 33, 18, 19, 20])

/-- some of the cases -/
def real4OneCase32 : LooseTree :=
  .breaks 26316817 (.breaks 18948209 (.breaks 26316833 (.breaks 26316801 (.leaf
  [39, 7, 22, 1, 23, 2, 24, 25]) (.leaf [39, 7, 22, 1, 23, 2, 24, 25])) (.leaf
  [39, 7, 22, 1, 23, 2, 24, 25])) (.leaf [39, 7, 22, 1, 23, 2, 24, 25])) (.leaf
  [39, 7, 22, 1, 23, 2, 24, 25])

/-- some of the cases -/
def real4OneCase33 : LooseTree :=
  .cases [] 10 (.cases [] 22 (.cases [] 17 (.cases [] 15 (.breaks 13725781 (.breaks 24170579
  (.cycle 1 [27, 73]) (.leaf [15, 26, 9, 0, 27, 10, 58, 17, 45, 59, 18, 7, 40, 1, 19, 41, 2, 20,
  42, 43])) (.leaf [15, 26, 9, 0, 27, 10, 58, 17, 45, 59, 18, 7, 40, 1, 19, 41, 2, 20, 42, 43]))
  (.breaks 13725781 (.breaks 24170579 (.cycle 1 [27, 73]) (.cycle 12 [44, 68])) (.cycle 12
  [44, 68]))) (.breaks 21024965 (.breaks 13684817 (.breaks 13725779 (.breaks 24211537 (.breaks
  24219730 (.breaks 24211473 (.breaks 26288325 (.breaks 26312901 (.breaks 18948177 (.breaks
  24211489 (.breaks 25264209 (.breaks 18948209 (.breaks 24211457 (.leaf
  [26, 0, 65, 66, 17, 45, 18, 7, 29, 1, 19, 28, 2, 20]) (.leaf
  [26, 0, 65, 66, 17, 45, 18, 7, 29, 1, 19, 28, 2, 20])) (.leaf
  [26, 0, 65, 66, 17, 45, 18, 7, 29, 1, 19, 28, 2, 20])) (.leaf
  [26, 0, 65, 66, 17, 45, 18, 7, 29, 1, 19, 28, 2, 20])) (.leaf
  [26, 0, 65, 66, 17, 45, 18, 7, 29, 1, 19, 28, 2, 20])) (.leaf
  [26, 0, 65, 66, 17, 45, 18, 7, 29, 1, 19, 28, 2, 20])) (.leaf
  [26, 0, 65, 66, 17, 45, 18, 7, 29, 1, 19, 28, 2, 20])) (.leaf
  [26, 0, 65, 66, 17, 45, 18, 7, 29, 1, 19, 28, 2, 20])) (.leaf
  [26, 0, 65, 66, 17, 45, 18, 7, 29, 1, 19, 28, 2, 20])) (.leaf
  [15, 26, 9, 0, 10, 65, 66, 17, 45, 18, 7, 1, 19, 2, 20])) (.leaf
  [15, 26, 9, 0, 10, 65, 66, 17, 45, 18, 7, 1, 19, 2, 20])) (.leaf
  [15, 26, 9, 0, 10, 65, 66, 17, 45, 18, 7, 1, 19, 2, 20])) (.leaf [15, 26, 9, 0, 10, 65, 66, 17,
  45, 18, 7, 29, 1, 19, 28, 2, 20])) (.leaf [15, 26, 9, 0, 10, 65, 66, 17, 45, 18, 7, 29, 1, 19,
  28, 2, 20]))) (.cycle 1 [27, 45, 78])) (.breaks 10490053 (.breaks 21024965 (.breaks 22097938
  (.breaks 1052753 (.breaks 13684817 (.breaks 13725781 (.breaks 20000897 (.breaks 1052769 (.breaks
  20000945 (.breaks 24211649 (.breaks 20000929 (.breaks 24211473 (.breaks 24211489 (.breaks
  24211457 (.leaf [15, 26, 46, 9, 0, 27, 47, 10, 48, 17, 49, 18, 19, 20]) (.leaf [15, 26, 46, 9,
  27, 47, 10, 48, 17, 45, 49, 18, 7, 1, 19, 2, 20])) (.leaf [15, 26, 46, 9, 27, 47, 10, 48, 17, 45,
  49, 18, 7, 1, 19, 2, 20])) (.leaf [15, 26, 46, 9, 27, 47, 10, 48, 17, 45, 49, 18, 7, 1, 19, 2,
  20])) (.leaf [15, 26, 46, 9, 27, 47, 10, 48, 17, 45, 49, 18, 7, 1, 19, 2, 20])) (.leaf [15, 26,
  46, 9, 27, 47, 10, 48, 17, 45, 49, 18, 7, 1, 19, 2, 20])) (.leaf [15, 26, 46, 9, 27, 47, 10, 48,
  17, 45, 49, 18, 7, 1, 19, 2, 20])) (.leaf
  [26, 46, 0, 27, 47, 48, 17, 45, 49, 18, 7, 1, 19, 2, 20])) (.leaf [15, 26, 46, 9, 27, 47, 10, 48,
  17, 45, 49, 18, 7, 1, 19, 2, 20])) (.leaf [15, 26, 46, 9, 0, 27, 47, 10, 48, 17, 45, 49, 18, 7,
  1, 19, 2, 20])) (.leaf [15, 26, 46, 9, 27, 47, 10, 48, 17, 45, 49, 18, 7, 1, 19, 2, 20])) (.leaf
  [26, 46, 0, 27, 47, 48, 17, 45, 49, 18, 7, 1, 19, 2, 20])) (.leaf [15, 26, 46, 9, 27, 47, 10, 48,
  17, 45, 49, 18, 7, 1, 19, 2, 20])) (.leaf [15, 26, 46, 9, 0, 27, 47, 10, 48, 17, 45, 49, 18, 7,
  1, 19, 2, 20])) (.leaf [26, 46, 0, 27, 47, 48, 17, 45, 49, 18, 7, 1, 19, 2, 20]))

/-- some of the cases -/
def real4OneCase34 : LooseTree :=
  .cases [] 18 (.breaks 26308690 (.breaks 1052753 (.breaks 13684817 (.breaks 24191173 (.breaks
  24211649 (.breaks 1052769 (.breaks 18948177 (.breaks 24211473 (.breaks 18948209 (.breaks 24211489
  (.breaks 24211457 (.leaf [15, 26, 53, 9, 0, 67, 17, 10, 1, 18, 2, 19, 20]) (.leaf
  [15, 26, 53, 9, 0, 67, 17, 10, 1, 18, 2, 19, 20])) (.leaf
  [15, 26, 53, 9, 0, 67, 17, 10, 1, 18, 2, 19, 20])) (.leaf
  [15, 26, 53, 9, 0, 67, 17, 10, 1, 18, 2, 19, 20])) (.leaf
  [15, 26, 53, 9, 0, 67, 17, 10, 1, 18, 2, 19, 20])) (.leaf
  [15, 26, 53, 9, 0, 67, 17, 10, 1, 18, 2, 19, 20])) (.leaf
  [15, 26, 53, 9, 0, 67, 17, 10, 1, 18, 2, 19, 20])) (.leaf
  [15, 26, 53, 9, 0, 67, 17, 10, 1, 18, 2, 19, 20])) (.leaf
  [15, 26, 53, 9, 0, 67, 17, 10, 1, 18, 2, 19, 20])) (.leaf
  [15, 26, 53, 9, 0, 67, 17, 10, 1, 18, 2, 19, 20])) (.leaf
  [15, 26, 53, 9, 0, 67, 17, 10, 1, 18, 2, 19, 20])) (.leaf
  [15, 26, 53, 9, 0, 67, 17, 10, 1, 18, 2, 19, 20])) (.breaks 26288325 (.breaks 13684817 (.breaks
  18948177 (.breaks 18968661 (.breaks 18948209 (.breaks 24211649 (.breaks 24211473 (.breaks
  24211489 (.breaks 24211457 (.leaf [26, 7, 0, 1, 69, 2, 17, 18, 19, 20]) (.leaf
  [26, 7, 0, 1, 69, 2, 17, 18, 19, 20])) (.leaf [26, 7, 0, 1, 69, 2, 17, 18, 19, 20])) (.leaf
  [26, 7, 0, 1, 69, 2, 17, 18, 19, 20])) (.leaf [26, 7, 0, 1, 69, 2, 17, 18, 19, 20])) (.leaf
  [15, 26, 7, 9, 0, 69, 10, 17, 18, 19, 20])) (.leaf [26, 7, 0, 1, 69, 2, 17, 18, 19, 20])) (.leaf
  [15, 26, 7, 9, 0, 69, 10, 17, 18, 19, 20])) (.leaf [26, 7, 0, 1, 69, 2, 17, 18, 19, 20])) (.leaf
  [15, 26, 7, 9, 0, 69, 10, 17, 18, 19, 20]))

/-- some of the cases -/
def real4OneCase35 : LooseTree :=
  .breaks 1052753 (.breaks 8421505 (.breaks 13684817 (.breaks 13725781 (.breaks 1052769 (.breaks
  8421521 (.breaks 24211649 (.breaks 24211473 (.breaks 24211489 (.breaks 24211457 (.leaf
  [15, 34, 26, 9, 35, 0, 27, 10, 36, 17, 18, 19, 20]) (.leaf
  [15, 34, 26, 9, 35, 0, 27, 10, 36, 17, 18, 19, 20])) (.leaf
  [15, 34, 26, 9, 35, 0, 27, 10, 36, 17, 18, 19, 20])) (.leaf
  [15, 34, 26, 9, 35, 0, 27, 10, 36, 17, 18, 19, 20])) (.leaf
  [15, 34, 26, 9, 35, 0, 27, 10, 36, 17, 18, 19, 20])) (.leaf
  [15, 34, 26, 9, 35, 0, 27, 10, 36, 17, 18, 19, 20])) (.leaf
  [15, 34, 26, 9, 35, 0, 27, 10, 36, 17, 18, 19, 20])) (.leaf
  [15, 34, 26, 9, 35, 0, 27, 10, 36, 17, 18, 19, 20])) (.leaf
  [15, 34, 26, 9, 35, 0, 27, 10, 36, 17, 18, 19, 20])) (.leaf
  [15, 34, 26, 9, 35, 0, 27, 10, 36, 17, 18, 19, 20])) (.leaf
  [15, 34, 26, 9, 35, 0, 27, 10, 36, 17, 18, 19, 20])

/-- some of the cases -/
def real4OneCase36 : LooseTree :=
  .breaks 1052753 (.breaks 13684817 (.breaks 18948177 (.breaks 1052769 (.breaks 18948209 (.leaf
  [61, 26, 7, 9, 0, 1, 10, 2]) (.leaf [61, 26, 7, 9, 0, 1, 10, 2])) (.leaf
  [61, 26, 7, 9, 0, 1, 10, 2])) (.leaf [61, 26, 7, 9, 0, 1, 10, 2])) (.leaf
  [61, 26, 7, 9, 0, 1, 10, 2])) (.leaf [61, 26, 7, 9, 0, 1, 10, 2])

/-- some of the cases -/
def real4OneCase37 : LooseTree :=
  .breaks 17895617 (.breaks 26316993 (.breaks 17895441 (.breaks 26316817 (.breaks 17895457 (.breaks
  26316833 (.breaks 17895425 (.breaks 26316801 (.leaf [50, 30, 40, 22, 41, 23, 42, 24, 43, 25])
  (.leaf [50, 30, 40, 22, 41, 23, 42, 24, 43, 25])) (.leaf
  [50, 30, 40, 22, 41, 23, 42, 24, 43, 25])) (.leaf [50, 30, 40, 22, 41, 23, 42, 24, 43, 25]))
  (.leaf [50, 30, 40, 22, 41, 23, 42, 24, 43, 25])) (.leaf
  [50, 30, 40, 22, 41, 23, 42, 24, 43, 25])) (.leaf [50, 30, 40, 22, 41, 23, 42, 24, 43, 25]))
  (.leaf [50, 30, 40, 22, 41, 23, 42, 24, 43, 25])) (.leaf
  [50, 30, 40, 22, 41, 23, 42, 24, 43, 25])

/-- some of the cases -/
def real4OneCase38 : LooseTree :=
  .cases [] 2 (.breaks 1052753 (.breaks 26316993 (.breaks 1052769 (.breaks 17879237 (.breaks
  26316817 (.breaks 13713493 (.breaks 26316833 (.breaks 21053633 (.breaks 26316801 (.breaks
  21053457 (.breaks 21053473 (.breaks 21053441 (.leaf
  [15, 39, 9, 44, 22, 10, 21, 23, 16, 24, 11, 25, 12, 13, 14]) (.leaf
  [15, 39, 9, 44, 22, 10, 21, 23, 16, 24, 11, 25, 12, 13, 14])) (.leaf
  [15, 39, 9, 44, 22, 10, 21, 23, 16, 24, 11, 25, 12, 13, 14])) (.leaf
  [15, 39, 9, 44, 22, 10, 21, 23, 16, 24, 11, 25, 12, 13, 14])) (.leaf
  [15, 39, 9, 44, 22, 10, 21, 23, 16, 24, 11, 25, 12, 13, 14])) (.leaf
  [15, 39, 9, 44, 22, 10, 21, 23, 16, 24, 11, 25, 12, 13, 14])) (.leaf
  [15, 39, 9, 44, 22, 10, 21, 23, 16, 24, 11, 25, 12, 13, 14])) (.leaf
  [15, 39, 9, 44, 22, 10, 21, 23, 16, 24, 11, 25, 12, 13, 14])) (.leaf
  [15, 39, 9, 44, 22, 10, 21, 23, 16, 24, 11, 25, 12, 13, 14])) (.leaf
  [15, 39, 9, 44, 22, 10, 21, 23, 16, 24, 11, 25, 12, 13, 14])) (.leaf
  [15, 39, 9, 44, 22, 10, 21, 23, 16, 24, 11, 25, 12, 13, 14])) (.leaf
  [15, 39, 9, 44, 22, 10, 21, 23, 16, 24, 11, 25, 12, 13, 14])) (.leaf
  [15, 39, 9, 44, 22, 10, 21, 23, 16, 24, 11, 25, 12, 13, 14])) (.cases [] 4 (.breaks 13684817
  (.breaks 26316993 (.breaks 1052769 (.breaks 26316817 (.breaks 26316833 (.breaks 26316801 (.leaf
  [15, 31, 39, 9, 0, 22, 10, 23, 24, 25]) (.leaf [15, 31, 39, 9, 0, 22, 10, 23, 24, 25])) (.leaf
  [15, 31, 39, 9, 0, 22, 10, 23, 24, 25])) (.leaf [15, 31, 39, 9, 0, 22, 10, 23, 24, 25])) (.leaf
  [15, 31, 39, 9, 0, 22, 10, 23, 24, 25])) (.leaf [15, 31, 39, 9, 0, 22, 10, 23, 24, 25])) (.leaf
  [15, 31, 39, 9, 0, 22, 10, 23, 24, 25])) (.breaks 10490053 (.breaks 21024965 (.breaks 25268309
  (.breaks 1052753 (.breaks 13684817 (.breaks 26316993 (.breaks 1052769 (.breaks 26316817 (.breaks
  26316833 (.breaks 26316801 (.leaf [15, 26, 39, 9, 0, 22, 10, 23, 24, 25]) (.leaf
  [26, 39, 0, 27, 22, 17, 23, 18, 24, 19, 25, 20])) (.leaf
  [26, 39, 0, 27, 22, 17, 23, 18, 24, 19, 25, 20])) (.leaf
  [26, 39, 0, 27, 22, 17, 23, 18, 24, 19, 25, 20])) (.leaf
  [26, 39, 0, 27, 22, 17, 23, 18, 24, 19, 25, 20])) (.leaf
  [26, 39, 0, 27, 22, 17, 23, 18, 24, 19, 25, 20])) (.leaf
  [26, 39, 0, 27, 22, 17, 23, 18, 24, 19, 25, 20])) (.leaf
  [26, 39, 0, 27, 22, 17, 23, 18, 24, 19, 25, 20])) (.leaf
  [26, 39, 0, 27, 22, 17, 23, 18, 24, 19, 25, 20])) (.leaf
  [26, 39, 0, 27, 22, 17, 23, 18, 24, 19, 25, 20])) (.leaf
  [26, 39, 0, 27, 22, 17, 23, 18, 24, 19, 25, 20])))

/-- some of the cases -/
def real4OneCase39 : LooseTree :=
  .cases [] 2 (.breaks 10490053 (.breaks 18976853 (.breaks 1118293 (.breaks 26312901 (.breaks
  26316993 (.breaks 17879237 (.breaks 25264209 (.breaks 26316817 (.breaks 13713493 (.breaks
  26316833 (.breaks 21053633 (.breaks 26316801 (.breaks 21053457 (.breaks 21053473 (.breaks
  21053441 (.leaf [15, 30, 44, 29, 22, 21, 28, 23, 16, 24, 11, 25, 12, 13, 14]) (.leaf [15, 30, 9,
  44, 29, 22, 10, 21, 28, 23, 16, 24, 11, 25, 12, 13, 14])) (.leaf [15, 30, 9, 44, 29, 22, 10, 21,
  28, 23, 16, 24, 11, 25, 12, 13, 14])) (.leaf [15, 30, 9, 44, 29, 22, 10, 21, 28, 23, 16, 24, 11,
  25, 12, 13, 14])) (.leaf [15, 30, 9, 44, 29, 22, 10, 21, 28, 23, 16, 24, 11, 25, 12, 13, 14]))
  (.leaf [15, 30, 9, 44, 29, 22, 10, 21, 28, 23, 16, 24, 11, 25, 12, 13, 14])) (.leaf [15, 30, 9,
  44, 29, 22, 10, 21, 28, 23, 16, 24, 11, 25, 12, 13, 14])) (.leaf [15, 30, 9, 44, 29, 22, 10, 21,
  28, 23, 16, 24, 11, 25, 12, 13, 14])) (.leaf [15, 30, 9, 44, 29, 22, 10, 21, 28, 23, 16, 24, 11,
  25, 12, 13, 14])) (.leaf [15, 30, 9, 44, 29, 22, 10, 21, 28, 23, 16, 24, 11, 25, 12, 13, 14]))
  (.leaf [15, 30, 9, 44, 29, 22, 10, 21, 28, 23, 16, 24, 11, 25, 12, 13, 14])) (.leaf [15, 30, 9,
  44, 29, 22, 10, 21, 28, 23, 16, 24, 11, 25, 12, 13, 14])) (.leaf [15, 30, 9, 44, 29, 22, 10, 21,
  28, 23, 16, 24, 11, 25, 12, 13, 14])) (.leaf [15, 21, 30, 9, 16, 29, 22, 10, 11, 28, 23, 12, 24,
  13, 25, 14])) (.leaf [15, 30, 9, 44, 29, 22, 10, 21, 28, 23, 16, 24, 11, 25, 12, 13, 14])) (.leaf
  [15, 21, 30, 9, 16, 29, 22, 10, 11, 28, 23, 12, 24, 13, 25, 14])) (.breaks 18976853 (.breaks
  1052753 (.breaks 26312901 (.breaks 26316993 (.breaks 1052769 (.breaks 25264209 (.breaks 26316817
  (.breaks 26316833 (.breaks 26316801 (.leaf [15, 30, 26, 9, 0, 29, 22, 10, 28, 23, 24, 25]) (.leaf
  [15, 30, 26, 9, 0, 29, 22, 10, 28, 23, 24, 25])) (.leaf
  [15, 30, 26, 9, 0, 29, 22, 10, 28, 23, 24, 25])) (.leaf
  [15, 30, 26, 9, 0, 29, 22, 10, 28, 23, 24, 25])) (.leaf
  [15, 30, 26, 9, 0, 29, 22, 10, 28, 23, 24, 25])) (.leaf
  [15, 30, 26, 9, 0, 29, 22, 10, 28, 23, 24, 25])) (.leaf
  [15, 30, 26, 9, 0, 29, 22, 10, 28, 23, 24, 25])) (.leaf
  [15, 30, 26, 9, 0, 29, 22, 10, 28, 23, 24, 25])) (.leaf
  [15, 30, 26, 9, 0, 29, 22, 10, 28, 23, 24, 25])) (.leaf
  [15, 30, 26, 9, 0, 29, 22, 10, 28, 23, 24, 25]))

/-- some of the cases -/
def real4OneCase40 : LooseTree :=
  .breaks 1052753 (.breaks 8421505 (.breaks 26316993 (.breaks 1052769 (.breaks 8421521 (.breaks
  26316817 (.breaks 26316833 (.breaks 26316801 (.leaf [15, 34, 30, 9, 35, 22, 10, 36, 23, 24, 25])
  (.leaf [15, 34, 30, 9, 35, 22, 10, 36, 23, 24, 25])) (.leaf
  [15, 34, 30, 9, 35, 22, 10, 36, 23, 24, 25])) (.leaf
  [15, 34, 30, 9, 35, 22, 10, 36, 23, 24, 25])) (.leaf
  [15, 34, 30, 9, 35, 22, 10, 36, 23, 24, 25])) (.leaf
  [15, 34, 30, 9, 35, 22, 10, 36, 23, 24, 25])) (.leaf
  [15, 34, 30, 9, 35, 22, 10, 36, 23, 24, 25])) (.leaf
  [15, 34, 30, 9, 35, 22, 10, 36, 23, 24, 25])) (.leaf [15, 34, 30, 9, 35, 22, 10, 36, 23, 24, 25])

/-- some of the cases -/
def real4OneCase41 : LooseTree :=
  .breaks 26316817 (.breaks 26316833 (.breaks 26316801 (.leaf [61, 30, 9, 22, 10, 23, 24, 25])
  (.leaf [61, 30, 9, 22, 10, 23, 24, 25])) (.leaf [61, 30, 9, 22, 10, 23, 24, 25])) (.leaf
  [61, 30, 9, 22, 10, 23, 24, 25])

/-- all cases -/
def real4OneCases : LooseTree :=
  .cases [] 1 (.cases [] 0 (.cases [] 3 real4OneCase0 (.cases [] 2 (.cases [] 4 real4OneCase1
  (.cases [] 6 (.cases [] 10 (.cases [] 7 real4OneCase2 (.cases [] 12 real4OneCase3 real4OneCase4))
  real4OneCase5) real4OneCase6)) (.cases [] 4 (.cases [] 6 (.cases [] 10 (.cases [] 7 real4OneCase7
  real4OneCase8) real4OneCase9) real4OneCase10) (.cases [] 6 (.cases [] 10 (.cases [] 7
  real4OneCase11 (.cases [] 9 real4OneCase12 real4OneCase13)) real4OneCase14) real4OneCase15))))
  (.cases [] 3 real4OneCase16 (.cases [] 6 (.cases [] 7 real4OneCase17 (.cases [] 5 real4OneCase18
  real4OneCase19)) real4OneCase20))) (.cases [] 0 (.cases [] 2 (.cases [] 4 real4OneCase21 (.cases
  [] 3 real4OneCase22 (.cases [] 8 (.cases [] 6 (.cases [] 7 real4OneCase23 (.cases [] 15
  real4OneCase24 real4OneCase25)) real4OneCase26) real4OneCase27))) (.cases [] 8 (.cases [] 4
  (.cases [] 6 (.cases [] 11 real4OneCase28 real4OneCase29) real4OneCase30) (.cases [] 6 (.cases []
  7 real4OneCase31 (.cases [] 9 (.cases [] 5 real4OneCase32 real4OneCase33) real4OneCase34))
  real4OneCase35)) real4OneCase36)) (.cases [] 8 (.cases [] 3 real4OneCase37 (.cases [] 6 (.cases
  [] 5 real4OneCase38 real4OneCase39) real4OneCase40)) real4OneCase41))

theorem real4One_part0 : real4OneCases.checkAt real4OneArcs 154 real4OneChoices.length
    [true, true, true]
    (.not []) [] real4OneTimes 0 = true := by decide +kernel

theorem real4One_part1 : real4OneCases.checkAt real4OneArcs 154 real4OneChoices.length
    [true, true, false, true]
    (.not []) [] real4OneTimes 0 = true := by decide +kernel

theorem real4One_part2 : real4OneCases.checkAt real4OneArcs 154 real4OneChoices.length
    [true, true, false, false, true]
    (.not []) [] real4OneTimes 0 = true := by decide +kernel

theorem real4One_part3 : real4OneCases.checkAt real4OneArcs 154 real4OneChoices.length
    [true, true, false, false, false]
    (.not []) [] real4OneTimes 0 = true := by decide +kernel

theorem real4One_part4 : real4OneCases.checkAt real4OneArcs 154 real4OneChoices.length
    [true, false]
    (.not []) [] real4OneTimes 0 = true := by decide +kernel

theorem real4One_part5 : real4OneCases.checkAt real4OneArcs 154 real4OneChoices.length
    [false, true, true]
    (.not []) [] real4OneTimes 0 = true := by decide +kernel

theorem real4One_part6 : real4OneCases.checkAt real4OneArcs 154 real4OneChoices.length
    [false, true, false]
    (.not []) [] real4OneTimes 0 = true := by decide +kernel

theorem real4One_part7 : real4OneCases.checkAt real4OneArcs 154 real4OneChoices.length
    [false, false]
    (.not []) [] real4OneTimes 0 = true := by decide +kernel

theorem real4One_cases : real4OneCases.check real4OneArcs 154 real4OneChoices.length (.not []) [] real4OneTimes 0 = true :=
  LooseTree.join (path := []) (LooseTree.join (LooseTree.join real4One_part0 (LooseTree.join
  real4One_part1 (LooseTree.join real4One_part2 real4One_part3))) real4One_part4) (LooseTree.join
  (LooseTree.join real4One_part5 real4One_part6) real4One_part7)

theorem real4One_choices : real4OneChoices.all (CodedNet.Choice.ok netGt netGtSpecial real4Plan) = true := by
  decide +kernel

theorem real4One_arcs : (real4OneArcs.toList.all fun x =>
    netGt.arcOK netGtSpecial real4Plan real4OneNodes real4OneChoices x.1 &&
      netGt.keyOK real4Plan real4OneNodes real4OneChoices x.1 x.2) = true := by decide +kernel

theorem real4One_times : netGt.startOK real4Plan real4OneNodes 18 40 real4OneTimes = true := by decide +kernel

end Verif.Real
