import Verif.Proofs.LooseSum
import Verif.Real.OptReal5

/-!
# Bounds of the delays in case 5 of `solve_real_problem.py` when rules are broken

Generated; see `Verif/Proofs/LooseTree.lean`. `d_max` is 40.
-/

namespace Verif.Real

set_option maxRecDepth 100000

/-- the departures: train and station -/
def real5OneNodes : List (Nat × Nat) := [
  (13, 12), (13, 5), (10, 2), (10, 0), (10, 1), (10, 5), (10, 12), (4, 1), (4, 2), (4, 0), (23, 5),
  (23, 12), (23, 1), (23, 2), (23, 0), (4, 5), (4, 12), (18, 12), (18, 5), (18, 7), (17, 5),
  (17, 12), (17, 1), (17, 2), (17, 0), (23, 6), (17, 6), (20, 1), (20, 2), (20, 0), (24, 12),
  (24, 5), (1, 12), (20, 5), (20, 12), (1, 5), (1, 6), (19, 8), (19, 11), (19, 10), (22, 8),
  (22, 1), (25, 5), (25, 12), (25, 1), (25, 2), (25, 0), (22, 11), (10, 6), (19, 1), (4, 6),
  (9, 1), (9, 8), (9, 9), (6, 2), (12, 1), (9, 3), (8, 1), (8, 8), (8, 9), (21, 1), (7, 1),
  (26, 8), (0, 1), (11, 2), (11, 0), (18, 1), (13, 2), (8, 0), (8, 2), (25, 6), (6, 0), (20, 7),
  (13, 1), (14, 0), (13, 0)]

/-- the choices -/
def real5OneChoices : List CodedNet.Choice := [
  .against 23 13 5 12, .first 23 17 6, .against 1 10 12 5, .against 1 4 12 5, .first 10 4 5,
  .against 13 17 12 5, .first 13 18 12, .first 24 18 12, .first 23 17 5, .against 19 22 8 11,
  .first 17 20 5, .first 1 4 5, .against 24 25 12 5, .first 10 4 6, .first 7 20 1, .first 12 9 1,
  .first 23 20 5, .against 25 18 5 12, .first 8 19 1, .first 19 21 1, .against 23 18 5 12,
  .against 13 20 12 5, .first 1 10 5, .against 17 18 5 12, .against 23 24 5 12, .first 26 22 8,
  .against 1 20 12 5, .first 4 0 1, .against 20 18 5 12, .first 10 11 2, .against 13 4 12 5,
  .first 4 20 5, .first 10 11 0, .first 1 17 5, .first 23 25 5, .first 13 18 1, .first 8 13 2,
  .against 6 10 0 2, .first 23 25 6, .first 24 25 5, .against 24 17 12 5, .first 10 17 5,
  .first 23 13 5, .first 13 17 5, .against 10 13 5 12, .first 13 24 12, .first 13 20 5,
  .against 24 20 12 5, .first 17 4 5, .first 1 20 5, .first 10 20 5, .first 25 18 5,
  .against 1 17 12 5, .against 24 25 5 6, .against 1 23 12 5, .first 13 14 0, .against 6 20 2 1,
  .against 13 25 12 5, .first 6 10 2, .first 20 25 5, .first 1 23 5, .against 1 10 5 6,
  .first 10 23 6]

/-- the inequalities and their rules -/
def real5OneArcs : KeyTree :=
  .node ⟨.run, 0, 1, 2, 9, 0, false⟩ 13684817 (.node ⟨.run, 0, 3, 4, 4, 0, false⟩ 10526721 (.node
  ⟨.run, 0, 6, 7, 10, 0, false⟩ 10526913 (.node ⟨.run, 0, 11, 12, 10, 0, false⟩ 24211649 (.node
  ⟨.come, 1, 11, 1, 9, 0, false⟩ 24170693 (.node ⟨.follow, 13, 1, 18, 5, 0, false⟩ 13705410 (.node
  ⟨.follow, 15, 31, 18, 5, 0, false⟩ 25239746 (.node ⟨.come, 96, 34, 31, 9, 0, false⟩ 21070021
  .none .none) .none) (.node ⟨.follow, 63, 16, 34, 5, 0, false⟩ 4276306 (.node
  ⟨.come, 110, 11, 33, 9, 0, false⟩ 24121541 .none .none) .none)) (.node
  ⟨.follow, 21, 21, 34, 5, 0, false⟩ 17907794 (.node ⟨.track, 45, 36, 49, 0, 19, false⟩ 1089619
  (.node ⟨.come, 106, 21, 33, 9, 0, false⟩ 17830085 .none .none) .none) (.node
  ⟨.run, 0, 73, 34, 5, 0, false⟩ 21053521 (.node ⟨.come, 113, 55, 28, 1, 0, false⟩ 6373397 .none
  .none) .none))) (.node ⟨.run, 0, 29, 30, 4, 0, false⟩ 21053441 (.node
  ⟨.follow, 17, 11, 21, 5, 0, false⟩ 24186962 (.node ⟨.follow, 40, 61, 50, 4, 0, false⟩ 22097938
  (.node ⟨.run, 0, 72, 55, 3, 0, false⟩ 6316065 .none .none) .none) (.node
  ⟨.run, 0, 69, 70, 3, 0, false⟩ 8421409 (.node ⟨.leave, 114, 28, 55, 1, 0, false⟩ 20996116 .none
  .none) .none)) (.node ⟨.run, 0, 52, 53, 6, 0, false⟩ 9474177 (.node
  ⟨.follow, 14, 18, 1, 5, 0, false⟩ 18927810 (.node ⟨.track, 88, 21, 1, 0, 6, false⟩ 17879123 .none
  .none) .none) (.node ⟨.follow, 64, 34, 16, 5, 0, false⟩ 20987986 (.node
  ⟨.leave, 123, 36, 49, 0, 18, false⟩ 1089620 .none .none) .none)))) (.node
  ⟨.run, 0, 16, 17, 9, 0, false⟩ 4210881 (.node ⟨.run, 0, 24, 25, 2, 0, false⟩ 17895425 (.node
  ⟨.run, 0, 38, 39, 7, 0, false⟩ 20000945 (.node ⟨.come, 36, 18, 43, 7, 0, false⟩ 18976853 (.node
  ⟨.track, 99, 36, 73, 0, 3, false⟩ 1130579 .none .none) .none) (.node
  ⟨.track, 24, 16, 33, 0, 6, false⟩ 4198483 (.node ⟨.track, 10, 16, 49, 0, 19, false⟩ 4235347 .none
  .none) .none)) (.node ⟨.run, 0, 50, 38, 7, 0, false⟩ 20000897 (.node
  ⟨.come, 50, 31, 11, 7, 0, false⟩ 25260117 (.node ⟨.follow, 71, 74, 67, 1, 0, false⟩ 13705234
  .none .none) .none) (.node ⟨.come, 61, 1, 16, 7, 0, false⟩ 13647957 (.node
  ⟨.follow, 119, 34, 43, 5, 0, false⟩ 21074002 .none .none) .none))) (.node
  ⟨.run, 0, 34, 35, 10, 0, false⟩ 21053633 (.node ⟨.run, 0, 46, 47, 2, 0, false⟩ 26316801 (.node
  ⟨.come, 41, 11, 18, 9, 0, false⟩ 24191173 (.node ⟨.track, 103, 43, 18, 0, 6, false⟩ 26288211
  .none .none) .none) (.node ⟨.track, 67, 36, 27, 0, 16, false⟩ 1118291 (.node
  ⟨.come, 116, 43, 1, 9, 0, false⟩ 26267845 .none .none) .none)) (.node
  ⟨.follow, 28, 51, 49, 4, 0, false⟩ 4235362 (.node ⟨.follow, 60, 65, 3, 1, 0, false⟩ 11575330
  (.node ⟨.track, 104, 19, 71, 0, 16, false⟩ 18976851 .none .none) .none) (.node
  ⟨.follow, 91, 1, 31, 5, 0, false⟩ 13729986 .none .none))))) (.node ⟨.run, 0, 8, 9, 1, 0, false⟩
  4210721 (.node ⟨.run, 0, 13, 14, 1, 0, false⟩ 24211489 (.node ⟨.run, 0, 22, 23, 4, 0, false⟩
  17895441 (.node ⟨.run, 0, 33, 36, 9, 0, false⟩ 1052753 (.node ⟨.run, 0, 59, 60, 9, 0, false⟩
  8421521 (.node ⟨.follow, 97, 21, 16, 5, 0, false⟩ 17842258 .none .none) .none) (.node
  ⟨.track, 65, 4, 65, 0, 1, false⟩ 10530819 (.node ⟨.track, 73, 70, 76, 0, 1, false⟩ 8441891 .none
  .none) .none)) (.node ⟨.come, 8, 16, 33, 9, 0, false⟩ 4198597 (.node
  ⟨.follow, 37, 58, 50, 2, 0, false⟩ 8466450 (.node ⟨.track, 100, 34, 33, 0, 6, false⟩ 20975699
  .none .none) .none) (.node ⟨.come, 58, 18, 34, 7, 0, false⟩ 18956373 (.node
  ⟨.track, 117, 55, 5, 0, 0, false⟩ 6332451 .none .none) .none))) (.node
  ⟨.come, 5, 33, 6, 7, 0, false⟩ 1089621 (.node ⟨.run, 0, 44, 45, 4, 0, false⟩ 26316817 (.node
  ⟨.follow, 18, 21, 11, 5, 0, false⟩ 17920082 (.node ⟨.track, 85, 11, 1, 0, 6, false⟩ 24170579
  .none .none) .none) (.node ⟨.come, 48, 18, 21, 7, 0, false⟩ 18944085 (.node
  ⟨.depart, 60, 65, 3, 1, 0, false⟩ 11575334 .none .none) .none)) (.node
  ⟨.come, 11, 1, 21, 7, 0, false⟩ 13701205 (.node ⟨.depart, 55, 8, 64, 1, 0, false⟩ 4194326 (.node
  ⟨.follow, 59, 3, 65, 2, 0, false⟩ 10530850 .none .none) .none) (.node
  ⟨.follow, 84, 21, 6, 5, 0, false⟩ 17866834 (.node ⟨.track, 84, 21, 49, 0, 19, false⟩ 17866835
  .none .none) .none)))) (.node ⟨.run, 0, 18, 19, 9, 0, false⟩ 18948177 (.node
  ⟨.follow, 4, 27, 26, 4, 0, false⟩ 17920098 (.node ⟨.run, 0, 41, 42, 8, 0, false⟩ 23158801 (.node
  ⟨.come, 6, 6, 33, 9, 0, false⟩ 10490053 (.node ⟨.follow, 102, 34, 6, 5, 0, false⟩ 21012562 .none
  .none) .none) (.node ⟨.track, 72, 67, 68, 0, 0, false⟩ 18927635 (.node
  ⟨.follow, 55, 8, 64, 0, 0, false⟩ 4194322 .none .none) .none)) (.node
  ⟨.track, 23, 36, 51, 0, 16, false⟩ 1065043 (.node ⟨.follow, 51, 63, 41, 2, 0, false⟩ 27353218
  (.node ⟨.follow, 3, 26, 27, 5, 0, false⟩ 24186978 .none .none) .none) (.node
  ⟨.track, 80, 43, 31, 0, 6, false⟩ 26312787 (.node ⟨.track, 17, 11, 27, 0, 16, false⟩ 24186963
  .none .none) .none))) (.node ⟨.follow, 9, 6, 16, 5, 0, false⟩ 10502226 (.node
  ⟨.run, 0, 48, 41, 6, 0, false⟩ 23158913 (.node ⟨.follow, 33, 11, 34, 5, 0, false⟩ 24199250 (.node
  ⟨.come, 54, 34, 33, 9, 0, false⟩ 20975813 .none .none) .none) (.node
  ⟨.follow, 78, 71, 26, 4, 0, false⟩ 26308706 (.node ⟨.track, 70, 43, 26, 0, 19, false⟩ 26308691
  .none .none) .none)) (.node ⟨.track, 31, 56, 57, 0, 0, false⟩ 12619795 (.node
  ⟨.come, 62, 16, 1, 9, 0, false⟩ 4247749 (.node ⟨.follow, 101, 6, 34, 5, 0, false⟩ 10567762 .none
  .none) .none) (.node ⟨.come, 89, 6, 1, 9, 0, false⟩ 10539205 .none .none)))))) (.node
  ⟨.run, 0, 5, 3, 1, 0, false⟩ 10526753 (.node ⟨.run, 0, 7, 5, 4, 0, false⟩ 10526737 (.node
  ⟨.run, 0, 12, 13, 4, 0, false⟩ 24211473 (.node ⟨.run, 0, 21, 22, 9, 0, false⟩ 17895617 (.node
  ⟨.run, 0, 36, 37, 15, 0, false⟩ 1052769 (.node ⟨.run, 0, 58, 59, 5, 0, false⟩ 8421505 (.node
  ⟨.follow, 31, 56, 52, 2, 0, false⟩ 12619794 .none .none) .none) (.node
  ⟨.run, 0, 65, 66, 2, 0, false⟩ 11579393 (.node ⟨.track, 112, 75, 0, 0, 14, false⟩ 14733315 .none
  .none) .none)) (.node ⟨.come, 20, 48, 38, 6, 0, false⟩ 23146629 (.node
  ⟨.come, 35, 43, 18, 9, 0, false⟩ 26288325 (.node ⟨.track, 94, 34, 1, 0, 6, false⟩ 21024851 .none
  .none) .none) (.node ⟨.track, 79, 32, 71, 0, 16, false⟩ 25268307 (.node
  ⟨.track, 118, 3, 72, 0, 1, false⟩ 10510371 .none .none) .none))) (.node
  ⟨.run, 0, 31, 32, 9, 0, false⟩ 25264209 (.node ⟨.run, 0, 43, 44, 9, 0, false⟩ 26316993 (.node
  ⟨.stock, 0, 55, 62, 5, 0, false⟩ 6320151 (.node ⟨.follow, 98, 16, 21, 5, 0, false⟩ 4264018 .none
  .none) .none) (.node ⟨.run, 0, 70, 58, 3, 0, false⟩ 8421393 (.node
  ⟨.follow, 56, 64, 8, 0, 0, false⟩ 16402 .none .none) .none)) (.node
  ⟨.run, 0, 53, 54, 10, 0, false⟩ 9474193 (.node ⟨.come, 53, 33, 34, 7, 0, false⟩ 1130581 (.node
  ⟨.leave, 107, 32, 71, 0, 15, false⟩ 25268308 .none .none) .none) (.node
  ⟨.track, 87, 2, 27, 0, 16, false⟩ 13701203 (.node ⟨.track, 126, 26, 0, 8, 0, false⟩ 24158307
  .none .none) .none)))) (.node ⟨.run, 0, 17, 8, 4, 0, false⟩ 4210705 (.node
  ⟨.run, 0, 26, 11, 21, 0, false⟩ 24211537 (.node ⟨.run, 0, 39, 40, 4, 0, false⟩ 20000929 (.node
  ⟨.come, 26, 43, 31, 9, 0, false⟩ 26312901 (.node ⟨.follow, 70, 43, 11, 5, 0, false⟩ 26308690
  .none .none) .none) (.node ⟨.follow, 69, 11, 43, 5, 0, false⟩ 24219730 (.node
  ⟨.follow, 27, 49, 51, 5, 0, false⟩ 10502242 .none .none) .none)) (.node
  ⟨.come, 2, 1, 11, 7, 0, false⟩ 13725781 (.node ⟨.track, 51, 63, 48, 0, 5, false⟩ 27353219 (.node
  ⟨.run, 0, 67, 18, 3, 0, false⟩ 18948289 .none .none) .none) (.node
  ⟨.follow, 83, 6, 21, 5, 0, false⟩ 10555474 (.node ⟨.track, 122, 11, 33, 0, 6, false⟩ 24121427
  .none .none) .none))) (.node ⟨.run, 0, 35, 28, 4, 0, false⟩ 21053457 (.node
  ⟨.come, 19, 38, 48, 6, 0, false⟩ 20013237 (.node ⟨.come, 43, 1, 34, 7, 0, false⟩ 13713493 (.node
  ⟨.track, 98, 16, 27, 0, 16, false⟩ 4264019 .none .none) .none) (.node
  ⟨.come, 75, 72, 3, 2, 0, false⟩ 6332453 (.node ⟨.come, 115, 1, 43, 7, 0, false⟩ 13733973 .none
  .none) .none)) (.node ⟨.track, 30, 28, 55, 0, 0, false⟩ 21000211 (.node
  ⟨.come, 42, 18, 11, 7, 0, false⟩ 18968661 (.node ⟨.come, 108, 71, 32, 17, 0, false⟩ 26312789
  .none .none) .none) (.node ⟨.track, 93, 2, 73, 0, 3, false⟩ 13713491 .none .none))))) (.node
  ⟨.run, 0, 9, 10, 2, 0, false⟩ 4210689 (.node ⟨.run, 0, 14, 15, 4, 0, false⟩ 24211457 (.node
  ⟨.run, 0, 23, 24, 1, 0, false⟩ 17895457 (.node ⟨.follow, 16, 18, 31, 5, 0, false⟩ 18972866 (.node
  ⟨.follow, 34, 34, 11, 5, 0, false⟩ 21065810 (.node ⟨.track, 46, 6, 33, 0, 6, false⟩ 10489939
  .none .none) .none) (.node ⟨.track, 68, 21, 33, 0, 6, false⟩ 17829971 (.node
  ⟨.track, 111, 76, 0, 0, 24, false⟩ 13688835 .none .none) .none)) (.node
  ⟨.follow, 22, 34, 21, 5, 0, false⟩ 21041234 (.node ⟨.come, 47, 21, 18, 9, 0, false⟩ 17899717
  (.node ⟨.track, 14, 18, 74, 0, 1, false⟩ 18927811 .none .none) .none) (.node
  ⟨.come, 82, 21, 31, 9, 0, false⟩ 17924293 (.node ⟨.follow, 120, 43, 34, 5, 0, false⟩ 26296402
  .none .none) .none))) (.node ⟨.come, 7, 33, 16, 7, 0, false⟩ 1065045 (.node
  ⟨.run, 0, 45, 46, 1, 0, false⟩ 26316833 (.node ⟨.depart, 29, 62, 28, 1, 0, false⟩ 7421974 (.node
  ⟨.come, 95, 31, 34, 7, 0, false⟩ 25247829 .none .none) .none) (.node
  ⟨.run, 0, 71, 43, 18, 0, false⟩ 26316881 (.node ⟨.come, 105, 33, 21, 7, 0, false⟩ 1118293 .none
  .none) .none)) (.node ⟨.come, 25, 31, 43, 7, 0, false⟩ 25268309 (.node
  ⟨.come, 57, 34, 18, 9, 0, false⟩ 21045445 (.node ⟨.come, 109, 33, 11, 7, 0, false⟩ 1142869 .none
  .none) .none) (.node ⟨.come, 90, 1, 6, 7, 0, false⟩ 13672533 (.node
  ⟨.track, 125, 49, 0, 0, 16, false⟩ 10580067 .none .none) .none)))) (.node
  ⟨.run, 0, 19, 20, 4, 0, false⟩ 18948209 (.node ⟨.run, 0, 28, 29, 1, 0, false⟩ 21053473 (.node
  ⟨.follow, 10, 16, 6, 5, 0, false⟩ 4235346 (.node ⟨.follow, 38, 50, 58, 4, 0, false⟩ 19955730
  (.node ⟨.leave, 76, 3, 72, 0, 0, false⟩ 10510372 .none .none) .none) (.node
  ⟨.track, 74, 68, 69, 0, 1, false⟩ 13664291 (.node ⟨.track, 18, 21, 26, 0, 19, false⟩ 17920083
  .none .none) .none)) (.node ⟨.run, 0, 51, 16, 18, 0, false⟩ 4210769 (.node
  ⟨.come, 49, 11, 31, 9, 0, false⟩ 24215749 (.node ⟨.track, 66, 66, 3, 0, 2, false⟩ 11575299 .none
  .none) .none) (.node ⟨.track, 86, 2, 26, 0, 19, false⟩ 13725779 (.node
  ⟨.come, 124, 49, 36, 20, 0, false⟩ 10489941 .none .none) .none))) (.node
  ⟨.come, 12, 21, 1, 9, 0, false⟩ 17879237 (.node ⟨.run, 0, 49, 6, 21, 0, false⟩ 10526801 (.node
  ⟨.come, 44, 34, 1, 9, 0, false⟩ 21024965 (.node ⟨.come, 81, 31, 21, 7, 0, false⟩ 25235541 .none
  .none) .none) (.node ⟨.run, 0, 27, 21, 18, 0, false⟩ 17895505 (.node
  ⟨.follow, 77, 26, 71, 5, 0, false⟩ 24219746 .none .none) .none)) (.node
  ⟨.run, 0, 57, 52, 3, 0, false⟩ 9474065 (.node ⟨.depart, 56, 64, 8, 1, 0, false⟩ 16406 (.node
  ⟨.depart, 30, 28, 62, 1, 0, false⟩ 21000214 .none .none) .none) (.node
  ⟨.follow, 92, 31, 1, 5, 0, false⟩ 25219266 .none .none))))))

/-- the bounds of the departures -/
def real5OneTimes : TimeTree :=
  .node 10 0 10 (.node 43 0 83 (.node 38 0 78 (.node 33 0 73 (.node 66 4 106 (.node 68 0 108 (.node
  59 0 99 .none .none) .none) (.node 91 6 131 .none .none)) (.node 58 0 98 (.node 61 0 101 (.node
  57 0 97 .none .none) .none) (.node 53 4 93 .none .none))) (.node 47 0 87 (.node 72 0 112 (.node
  51 0 91 (.node 60 0 100 .none .none) .none) (.node 10 0 50 .none .none)) (.node 27 0 67 (.node 75
  0 115 (.node 34 0 74 .none .none) .none) (.node 50 0 90 .none .none)))) (.node 37 0 77 (.node 42
  0 82 (.node 37 0 77 (.node 24 0 64 (.node 48 0 88 .none .none) .none) (.node 2 0 42 .none .none))
  (.node 61 7 101 (.node 57 0 97 (.node 35 0 75 .none .none) .none) (.node 5 0 45 .none .none)))
  (.node 61 0 101 (.node 45 0 85 (.node 48 6 88 (.node 39 0 79 .none .none) .none) (.node 28 0 68
  .none .none)) (.node 56 0 96 (.node 88 0 128 .none .none) (.node 57 0 97 .none .none))))) (.node
  52 4 92 (.node 42 4 82 (.node 41 0 81 (.node 28 0 68 (.node 77 4 117 (.node 44 4 84 .none .none)
  .none) (.node 51 0 91 .none .none)) (.node 59 0 99 (.node 65 4 105 (.node 50 0 90 .none .none)
  .none) (.node 34 0 74 .none .none))) (.node 57 0 97 (.node 76 4 116 (.node 33 0 73 (.node 27 0 67
  .none .none) .none) (.node 22 0 62 .none .none)) (.node 55 0 95 (.node 84 0 124 (.node 24 0 64
  .none .none) .none) (.node 59 6 99 .none .none)))) (.node 23 0 63 (.node 44 6 84 (.node 63 0 103
  (.node 41 0 81 (.node 50 6 90 .none .none) .none) (.node 46 0 86 .none .none)) (.node 26 0 66
  (.node 65 4 105 (.node 40 0 80 .none .none) .none) (.node 45 0 85 .none .none))) (.node 62 0 102
  (.node 54 0 94 (.node 53 0 93 (.node 42 0 82 .none .none) .none) (.node 38 4 78 .none .none))
  (.node 60 4 100 (.node 89 0 129 .none .none) (.node 24 0 64 .none .none)))))

/-- some of the cases -/
def real5OneCase0 : LooseTree :=
  .breaks 24170693 (.breaks 13701205 (.breaks 13713493 (.breaks 17895617 (.breaks 21053633 (.breaks
  17895441 (.breaks 21053457 (.breaks 17895457 (.breaks 21053473 (.breaks 17895425 (.breaks
  21053441 (.leaf [15, 0, 57, 76, 16, 27, 17, 28, 18, 22, 19, 23]) (.leaf
  [15, 0, 57, 76, 16, 27, 17, 28, 18, 22, 19, 23])) (.leaf
  [15, 0, 57, 76, 16, 27, 17, 28, 18, 22, 19, 23])) (.leaf
  [15, 0, 57, 76, 16, 27, 17, 28, 18, 22, 19, 23])) (.leaf
  [15, 0, 57, 76, 16, 27, 17, 28, 18, 22, 19, 23])) (.leaf
  [15, 0, 57, 76, 16, 27, 17, 28, 18, 22, 19, 23])) (.leaf
  [15, 0, 57, 76, 16, 27, 17, 28, 18, 22, 19, 23])) (.leaf
  [15, 0, 57, 76, 16, 27, 17, 28, 18, 22, 19, 23])) (.leaf
  [15, 0, 57, 76, 16, 27, 17, 28, 18, 22, 19, 23])) (.leaf
  [15, 0, 57, 76, 16, 27, 17, 28, 18, 22, 19, 23])) (.leaf
  [15, 0, 57, 76, 16, 27, 17, 28, 18, 22, 19, 23])) (.leaf [25, 15, 3, 0, 57, 76, 4, 16, 27, 2, 17,
  28, 1, 18, 22, 19, 23])

/-- some of the cases -/
def real5OneCase1 : LooseTree :=
  .cases [] 28 (.cases [] 17 (.breaks 13725781 (.breaks 24170579 (.cycle 1 [52, 137]) (.leaf [25,
  52, 80, 3, 13, 39, 4, 16, 47, 14, 2, 17, 27, 1, 18, 28, 19, 22, 23])) (.leaf [26, 25, 52, 80, 11,
  3, 13, 39, 12, 4, 16, 47, 14, 5, 2, 17, 27, 6, 1, 18, 28, 19, 22, 23])) (.cases [] 47 (.breaks
  13725781 (.breaks 24170579 (.cycle 1 [52, 137]) (.leaf
  [138, 90, 27, 13, 67, 28, 14, 22, 40, 23, 41, 42, 43])) (.leaf
  [138, 90, 27, 13, 67, 28, 14, 22, 40, 23, 41, 42, 43])) (.cases [] 15 (.breaks 13725781 (.breaks
  24170579 (.cycle 1 [52, 137]) (.leaf [25, 61, 52, 62, 3, 39, 55, 4, 16, 47, 56, 2, 17, 90, 27, 1,
  18, 13, 28, 19, 14, 22, 23])) (.leaf [26, 25, 61, 52, 11, 62, 3, 39, 12, 55, 4, 16, 47, 5, 56, 2,
  17, 90, 27, 6, 1, 18, 13, 28, 19, 14, 22, 23])) (.cases [] 7 (.breaks 13725781 (.breaks 24170579
  (.cycle 1 [52, 137]) (.leaf [25, 52, 3, 39, 4, 16, 47, 2, 17, 27, 127, 1, 18, 28, 63, 24, 19, 13,
  67, 22, 14, 23, 40, 41, 42, 43])) (.leaf [26, 25, 52, 63, 11, 3, 13, 67, 39, 7, 12, 4, 16, 47,
  14, 8, 40, 5, 2, 17, 27, 9, 41, 6, 1, 18, 28, 10, 42, 19, 22, 43, 23])) (.cases [] 12 (.breaks
  13725781 (.breaks 24170579 (.cycle 1 [52, 137]) (.leaf [25, 52, 3, 39, 4, 16, 47, 2, 17, 90, 27,
  1, 18, 13, 34, 28, 19, 14, 22, 24, 58, 23, 40, 41, 42, 43])) (.leaf [26, 25, 52, 11, 3, 39, 7,
  12, 4, 16, 47, 8, 5, 2, 17, 90, 27, 9, 6, 1, 18, 13, 34, 28, 10, 19, 14, 22, 24, 58, 23, 40, 41,
  42, 43])) (.breaks 13725781 (.breaks 24170579 (.cycle 1 [52, 137]) (.leaf [25, 52, 3, 39, 4, 16,
  47, 2, 17, 90, 27, 1, 18, 13, 67, 28, 19, 14, 22, 68, 23, 24])) (.leaf [26, 25, 52, 68, 11, 3,
  39, 24, 12, 4, 16, 47, 5, 2, 17, 90, 27, 6, 1, 18, 13, 28, 19, 14, 22, 23]))))))) (.cases [] 47
  (.cases [] 59 (.breaks 13725781 (.breaks 24170579 (.cycle 1 [52, 137]) (.leaf [25, 52, 138, 3,
  27, 179, 39, 4, 16, 28, 40, 2, 17, 22, 41, 1, 18, 23, 42, 19, 43])) (.leaf [25, 52, 138, 3, 27,
  179, 39, 4, 16, 28, 40, 2, 17, 22, 41, 1, 18, 23, 42, 19, 43])) (.breaks 13725781 (.breaks
  24170579 (.cycle 1 [52, 137]) (.leaf [26, 25, 52, 178, 11, 3, 27, 39, 12, 4, 16, 28, 5, 2, 17,
  22, 6, 1, 18, 23, 19])) (.leaf [26, 25, 52, 178, 11, 3, 27, 39, 12, 4, 16, 28, 5, 2, 17, 22, 6,
  1, 18, 23, 19]))) (.breaks 13725781 (.breaks 24170579 (.cycle 1 [52, 137]) (.leaf [25, 52, 3, 39,
  4, 16, 82, 2, 17, 113, 1, 18, 27, 127, 19, 28, 24, 22, 23])) (.leaf [26, 25, 52, 113, 11, 3, 27,
  127, 39, 12, 4, 16, 28, 24, 5, 2, 17, 22, 6, 1, 18, 23, 19])))

/-- some of the cases -/
def real5OneCase2 : LooseTree :=
  .breaks 13725779 (.breaks 24211537 (.breaks 10526737 (.breaks 24186962 (.breaks 24211649 (.breaks
  10526753 (.breaks 17895617 (.breaks 17899717 (.breaks 17907794 (.breaks 24211473 (.breaks
  10526721 (.breaks 17895441 (.breaks 18948177 (.breaks 21053633 (.breaks 24211489 (.breaks
  17895457 (.breaks 18948209 (.breaks 21053457 (.breaks 24211457 (.breaks 17895425 (.breaks
  21053473 (.breaks 21053441 (.leaf [25, 118, 3, 20, 4, 39, 7, 2, 16, 82, 47, 8, 1, 17, 13, 27, 9,
  18, 14, 28, 10, 19, 22, 23]) (.leaf [25, 118, 3, 20, 4, 39, 7, 2, 16, 82, 47, 8, 1, 17, 13, 27,
  9, 18, 14, 28, 10, 19, 22, 23])) (.leaf [25, 118, 3, 20, 4, 39, 7, 2, 16, 82, 47, 8, 1, 17, 13,
  27, 9, 18, 14, 28, 10, 19, 22, 23])) (.leaf [25, 118, 3, 20, 4, 39, 7, 2, 16, 82, 47, 8, 1, 17,
  13, 27, 9, 18, 14, 28, 10, 19, 22, 23])) (.leaf [25, 118, 3, 20, 4, 39, 7, 2, 16, 82, 47, 8, 1,
  17, 13, 27, 9, 18, 14, 28, 10, 19, 22, 23])) (.leaf [25, 118, 3, 20, 4, 39, 7, 2, 16, 82, 47, 8,
  1, 17, 13, 27, 9, 18, 14, 28, 10, 19, 22, 23])) (.leaf [25, 118, 3, 20, 4, 39, 7, 2, 16, 82, 47,
  8, 1, 17, 13, 27, 9, 18, 14, 28, 10, 19, 22, 23])) (.leaf [25, 118, 3, 20, 4, 39, 7, 2, 16, 82,
  47, 8, 1, 17, 13, 27, 9, 18, 14, 28, 10, 19, 22, 23])) (.leaf [25, 118, 3, 20, 4, 39, 7, 2, 16,
  82, 47, 8, 1, 17, 13, 27, 9, 18, 14, 28, 10, 19, 22, 23])) (.leaf [25, 118, 3, 20, 4, 39, 7, 2,
  16, 82, 47, 8, 1, 17, 13, 27, 9, 18, 14, 28, 10, 19, 22, 23])) (.leaf [25, 118, 3, 20, 4, 39, 7,
  2, 16, 82, 47, 8, 1, 17, 13, 27, 9, 18, 14, 28, 10, 19, 22, 23])) (.leaf [25, 118, 3, 20, 4, 39,
  7, 2, 16, 82, 47, 8, 1, 17, 13, 27, 9, 18, 14, 28, 10, 19, 22, 23])) (.leaf [25, 118, 3, 20, 4,
  39, 7, 2, 16, 82, 47, 8, 1, 17, 13, 27, 9, 18, 14, 28, 10, 19, 22, 23])) (.leaf [25, 118, 3, 20,
  4, 39, 7, 2, 16, 82, 47, 8, 1, 17, 13, 27, 9, 18, 14, 28, 10, 19, 22, 23])) (.leaf [25, 118, 3,
  20, 4, 39, 7, 2, 16, 82, 47, 8, 1, 17, 13, 27, 9, 18, 14, 28, 10, 19, 22, 23])) (.leaf [25, 118,
  3, 20, 4, 39, 7, 2, 16, 82, 47, 8, 1, 17, 13, 27, 9, 18, 14, 28, 10, 19, 22, 23])) (.leaf [25,
  118, 3, 20, 4, 39, 7, 2, 16, 82, 47, 8, 1, 17, 13, 27, 9, 18, 14, 28, 10, 19, 22, 23])) (.leaf
  [25, 118, 3, 20, 4, 39, 7, 2, 16, 82, 47, 8, 1, 17, 13, 27, 9, 18, 14, 28, 10, 19, 22, 23]))
  (.leaf [25, 118, 3, 20, 4, 39, 7, 2, 16, 82, 47, 8, 1, 17, 13, 27, 9, 18, 14, 28, 10, 19, 22,
  23])) (.leaf [26, 25, 118, 11, 3, 20, 12, 4, 39, 7, 5, 2, 16, 82, 47, 8, 6, 1, 17, 13, 27, 9, 18,
  14, 28, 10, 19, 22, 23])) (.leaf [25, 118, 3, 20, 4, 39, 7, 2, 16, 82, 47, 8, 1, 17, 13, 27, 9,
  18, 14, 28, 10, 19, 22, 23])) (.leaf [26, 25, 118, 11, 3, 20, 12, 4, 39, 7, 5, 2, 16, 82, 47, 8,
  6, 1, 17, 13, 27, 9, 18, 14, 28, 10, 19, 22, 23])) (.leaf [26, 25, 118, 11, 3, 20, 12, 4, 39, 7,
  5, 2, 16, 82, 47, 8, 6, 1, 17, 13, 27, 9, 18, 14, 28, 10, 19, 22, 23])

/-- some of the cases -/
def real5OneCase3 : LooseTree :=
  .breaks 21053473 (.breaks 21053441 (.leaf [105, 16, 47, 17, 27, 18, 28, 19, 22, 23]) (.leaf
  [105, 16, 47, 17, 27, 18, 28, 19, 22, 23])) (.leaf [105, 16, 47, 17, 27, 18, 28, 19, 22, 23])

/-- some of the cases -/
def real5OneCase4 : LooseTree :=
  .breaks 4210881 (.breaks 10526913 (.breaks 17895617 (.breaks 17907794 (.breaks 17920082 (.breaks
  4210705 (.breaks 10526737 (.breaks 17895441 (.breaks 21053633 (.breaks 24211649 (.breaks 4210721
  (.breaks 10526753 (.breaks 17895457 (.breaks 21053457 (.breaks 24211473 (.breaks 4210689 (.breaks
  10526721 (.breaks 17895425 (.breaks 21053473 (.breaks 24211489 (.breaks 21053441 (.breaks
  24211457 (.leaf [25, 115, 57, 11, 3, 16, 47, 73, 12, 4, 17, 27, 7, 5, 2, 18, 28, 8, 6, 1, 19, 22,
  9, 23, 10]) (.leaf [25, 115, 57, 11, 3, 16, 47, 73, 12, 4, 17, 27, 7, 5, 2, 18, 28, 8, 6, 1, 19,
  22, 9, 23, 10])) (.leaf [25, 115, 57, 11, 3, 16, 47, 73, 12, 4, 17, 27, 7, 5, 2, 18, 28, 8, 6, 1,
  19, 22, 9, 23, 10])) (.leaf [25, 115, 57, 11, 3, 16, 47, 73, 12, 4, 17, 27, 7, 5, 2, 18, 28, 8,
  6, 1, 19, 22, 9, 23, 10])) (.leaf [25, 115, 57, 11, 3, 16, 47, 73, 12, 4, 17, 27, 7, 5, 2, 18,
  28, 8, 6, 1, 19, 22, 9, 23, 10])) (.leaf [25, 115, 57, 11, 3, 16, 47, 73, 12, 4, 17, 27, 7, 5, 2,
  18, 28, 8, 6, 1, 19, 22, 9, 23, 10])) (.leaf [25, 115, 57, 11, 3, 16, 47, 73, 12, 4, 17, 27, 7,
  5, 2, 18, 28, 8, 6, 1, 19, 22, 9, 23, 10])) (.leaf [25, 115, 57, 11, 3, 16, 47, 73, 12, 4, 17,
  27, 7, 5, 2, 18, 28, 8, 6, 1, 19, 22, 9, 23, 10])) (.leaf [25, 115, 57, 11, 3, 16, 47, 73, 12, 4,
  17, 27, 7, 5, 2, 18, 28, 8, 6, 1, 19, 22, 9, 23, 10])) (.leaf [25, 115, 57, 11, 3, 16, 47, 73,
  12, 4, 17, 27, 7, 5, 2, 18, 28, 8, 6, 1, 19, 22, 9, 23, 10])) (.leaf [25, 115, 57, 11, 3, 16, 47,
  73, 12, 4, 17, 27, 7, 5, 2, 18, 28, 8, 6, 1, 19, 22, 9, 23, 10])) (.leaf [25, 115, 57, 11, 3, 16,
  47, 73, 12, 4, 17, 27, 7, 5, 2, 18, 28, 8, 6, 1, 19, 22, 9, 23, 10])) (.leaf [25, 115, 57, 11, 3,
  16, 47, 73, 12, 4, 17, 27, 7, 5, 2, 18, 28, 8, 6, 1, 19, 22, 9, 23, 10])) (.leaf [25, 115, 57,
  11, 3, 16, 47, 73, 12, 4, 17, 27, 7, 5, 2, 18, 28, 8, 6, 1, 19, 22, 9, 23, 10])) (.leaf [25, 115,
  57, 11, 3, 16, 47, 73, 12, 4, 17, 27, 7, 5, 2, 18, 28, 8, 6, 1, 19, 22, 9, 23, 10])) (.leaf [25,
  115, 57, 11, 3, 16, 47, 73, 12, 4, 17, 27, 7, 5, 2, 18, 28, 8, 6, 1, 19, 22, 9, 23, 10])) (.leaf
  [25, 115, 57, 11, 3, 16, 47, 73, 12, 4, 17, 27, 7, 5, 2, 18, 28, 8, 6, 1, 19, 22, 9, 23, 10]))
  (.leaf [25, 115, 57, 11, 3, 16, 47, 73, 12, 4, 17, 27, 7, 5, 2, 18, 28, 8, 6, 1, 19, 22, 9, 23,
  10])) (.leaf [25, 115, 57, 11, 3, 16, 47, 73, 12, 4, 17, 27, 7, 5, 2, 18, 28, 8, 6, 1, 19, 22, 9,
  23, 10])) (.leaf [25, 115, 57, 11, 3, 16, 47, 73, 12, 4, 17, 27, 7, 5, 2, 18, 28, 8, 6, 1, 19,
  22, 9, 23, 10])) (.leaf [25, 115, 57, 11, 3, 16, 47, 73, 12, 4, 17, 27, 7, 5, 2, 18, 28, 8, 6, 1,
  19, 22, 9, 23, 10])) (.leaf [25, 115, 57, 11, 3, 16, 47, 73, 12, 4, 17, 27, 7, 5, 2, 18, 28, 8,
  6, 1, 19, 22, 9, 23, 10])) (.leaf [25, 115, 57, 11, 3, 16, 47, 73, 12, 4, 17, 27, 7, 5, 2, 18,
  28, 8, 6, 1, 19, 22, 9, 23, 10])

/-- some of the cases -/
def real5OneCase5 : LooseTree :=
  .breaks 1089621 (.breaks 10526913 (.breaks 4210881 (.breaks 4247749 (.breaks 10526737 (.breaks
  4210705 (.breaks 10526753 (.breaks 13701205 (.breaks 4210721 (.breaks 10526721 (.breaks 17895617
  (.breaks 17920082 (.breaks 4210689 (.breaks 17895441 (.breaks 24199250 (.breaks 24211649 (.breaks
  17895457 (.breaks 21045445 (.breaks 21053633 (.breaks 24211473 (.breaks 17895425 (.breaks
  18948177 (.breaks 21053457 (.breaks 24211489 (.breaks 18948209 (.breaks 21053473 (.breaks
  24211457 (.breaks 21053441 (.leaf [25, 29, 3, 11, 93, 4, 12, 2, 57, 5, 1, 16, 73, 6, 17, 77, 7,
  18, 90, 27, 8, 19, 13, 28, 9, 14, 22, 10, 23]) (.leaf [25, 29, 3, 11, 93, 4, 12, 2, 57, 5, 1, 16,
  73, 6, 17, 77, 7, 18, 90, 27, 8, 19, 13, 28, 9, 14, 22, 10, 23])) (.leaf [25, 29, 3, 11, 93, 4,
  12, 2, 57, 5, 1, 16, 73, 6, 17, 77, 7, 18, 90, 27, 8, 19, 13, 28, 9, 14, 22, 10, 23])) (.leaf
  [25, 29, 3, 11, 93, 4, 12, 2, 57, 5, 1, 16, 73, 6, 17, 77, 7, 18, 90, 27, 8, 19, 13, 28, 9, 14,
  22, 10, 23])) (.leaf [25, 29, 3, 11, 93, 4, 12, 2, 57, 5, 1, 16, 73, 6, 17, 77, 7, 18, 90, 27, 8,
  19, 13, 28, 9, 14, 22, 10, 23])) (.leaf [25, 29, 3, 11, 93, 4, 12, 2, 57, 5, 1, 16, 73, 6, 17,
  77, 7, 18, 90, 27, 8, 19, 13, 28, 9, 14, 22, 10, 23])) (.leaf [25, 29, 3, 11, 93, 4, 12, 2, 57,
  5, 1, 16, 73, 6, 17, 77, 7, 18, 90, 27, 8, 19, 13, 28, 9, 14, 22, 10, 23])) (.leaf [25, 29, 3,
  11, 93, 4, 12, 2, 57, 5, 1, 16, 73, 6, 17, 77, 7, 18, 90, 27, 8, 19, 13, 28, 9, 14, 22, 10, 23]))
  (.leaf [25, 29, 3, 11, 93, 4, 12, 2, 57, 5, 1, 16, 73, 6, 17, 77, 7, 18, 90, 27, 8, 19, 13, 28,
  9, 14, 22, 10, 23])) (.leaf [25, 29, 3, 11, 93, 4, 12, 2, 57, 5, 1, 16, 73, 6, 17, 77, 7, 18, 90,
  27, 8, 19, 13, 28, 9, 14, 22, 10, 23])) (.leaf [25, 29, 3, 11, 93, 4, 12, 2, 57, 5, 1, 16, 73, 6,
  17, 77, 7, 18, 90, 27, 8, 19, 13, 28, 9, 14, 22, 10, 23])) (.leaf [25, 29, 3, 11, 93, 4, 12, 2,
  57, 5, 1, 16, 73, 6, 17, 77, 7, 18, 90, 27, 8, 19, 13, 28, 9, 14, 22, 10, 23])) (.leaf [25, 29,
  3, 11, 93, 4, 12, 2, 57, 5, 1, 16, 73, 6, 17, 77, 7, 18, 90, 27, 8, 19, 13, 28, 9, 14, 22, 10,
  23])) (.leaf [25, 29, 3, 11, 93, 4, 12, 2, 57, 5, 1, 16, 73, 6, 17, 77, 7, 18, 90, 27, 8, 19, 13,
  28, 9, 14, 22, 10, 23])) (.leaf [25, 29, 3, 11, 93, 4, 12, 2, 57, 5, 1, 16, 73, 6, 17, 77, 7, 18,
  90, 27, 8, 19, 13, 28, 9, 14, 22, 10, 23])) (.leaf [25, 29, 3, 11, 93, 4, 12, 2, 57, 5, 1, 16,
  73, 6, 17, 77, 7, 18, 90, 27, 8, 19, 13, 28, 9, 14, 22, 10, 23])) (.leaf [25, 29, 3, 11, 93, 4,
  12, 2, 57, 5, 1, 16, 73, 6, 17, 77, 7, 18, 90, 27, 8, 19, 13, 28, 9, 14, 22, 10, 23])) (.leaf
  [25, 29, 3, 11, 93, 4, 12, 2, 57, 5, 1, 16, 73, 6, 17, 77, 7, 18, 90, 27, 8, 19, 13, 28, 9, 14,
  22, 10, 23])) (.leaf [25, 29, 3, 11, 93, 4, 12, 2, 57, 5, 1, 16, 73, 6, 17, 77, 7, 18, 90, 27, 8,
  19, 13, 28, 9, 14, 22, 10, 23])) (.leaf [25, 29, 11, 93, 12, 0, 57, 5, 16, 73, 6, 17, 77, 7, 18,
  90, 27, 8, 19, 13, 28, 9, 14, 22, 10, 23])) (.leaf [25, 29, 3, 11, 93, 4, 12, 2, 57, 5, 1, 16,
  73, 6, 17, 77, 7, 18, 90, 27, 8, 19, 13, 28, 9, 14, 22, 10, 23])) (.leaf [25, 29, 3, 11, 93, 4,
  12, 2, 57, 5, 1, 16, 73, 6, 17, 77, 7, 18, 90, 27, 8, 19, 13, 28, 9, 14, 22, 10, 23])) (.leaf
  [25, 29, 11, 93, 12, 0, 57, 5, 16, 73, 6, 17, 77, 7, 18, 90, 27, 8, 19, 13, 28, 9, 14, 22, 10,
  23])) (.leaf [25, 29, 3, 11, 93, 4, 12, 2, 57, 5, 1, 16, 73, 6, 17, 77, 7, 18, 90, 27, 8, 19, 13,
  28, 9, 14, 22, 10, 23])) (.leaf [25, 29, 11, 93, 12, 0, 57, 5, 16, 73, 6, 17, 77, 7, 18, 90, 27,
  8, 19, 13, 28, 9, 14, 22, 10, 23])) (.leaf [25, 29, 3, 11, 93, 4, 12, 2, 57, 5, 1, 16, 73, 6, 17,
  77, 7, 18, 90, 27, 8, 19, 13, 28, 9, 14, 22, 10, 23])) (.leaf [25, 29, 3, 11, 93, 4, 12, 2, 57,
  5, 1, 16, 73, 6, 17, 77, 7, 18, 90, 27, 8, 19, 13, 28, 9, 14, 22, 10, 23])) (.leaf [25, 29, 11,
  93, 12, 0, 57, 5, 16, 73, 6, 17, 77, 7, 18, 90, 27, 8, 19, 13, 28, 9, 14, 22, 10, 23])) (.leaf
  [25, 29, 3, 11, 93, 4, 12, 2, 0, 57, 5, 1, 16, 73, 6, 17, 77, 7, 18, 90, 27, 8, 19, 13, 28, 9,
  14, 22, 10, 23])

/-- some of the cases -/
def real5OneCase6 : LooseTree :=
  .breaks 1089621 (.breaks 10526913 (.breaks 4210881 (.breaks 4247749 (.breaks 10526737 (.breaks
  4210705 (.breaks 10526753 (.breaks 13701205 (.breaks 4210721 (.breaks 10526721 (.breaks 17895617
  (.breaks 17907794 (.breaks 4210689 (.breaks 17895441 (.breaks 21053633 (.breaks 21065810 (.breaks
  17895457 (.breaks 21053457 (.breaks 24191173 (.breaks 24211649 (.breaks 17895425 (.breaks
  18948177 (.breaks 21053473 (.breaks 24211473 (.breaks 18948209 (.breaks 21053441 (.breaks
  24211489 (.breaks 24211457 (.leaf [25, 29, 3, 11, 93, 4, 12, 2, 57, 5, 1, 16, 47, 6, 17, 27, 66,
  18, 28, 75, 7, 19, 13, 22, 8, 14, 23, 9, 10]) (.leaf [25, 29, 3, 11, 93, 4, 12, 2, 57, 5, 1, 16,
  47, 6, 17, 27, 66, 18, 28, 75, 7, 19, 13, 22, 8, 14, 23, 9, 10])) (.leaf [25, 29, 3, 11, 93, 4,
  12, 2, 57, 5, 1, 16, 47, 6, 17, 27, 66, 18, 28, 75, 7, 19, 13, 22, 8, 14, 23, 9, 10])) (.leaf
  [25, 29, 3, 11, 93, 4, 12, 2, 57, 5, 1, 16, 47, 6, 17, 27, 66, 18, 28, 75, 7, 19, 13, 22, 8, 14,
  23, 9, 10])) (.leaf [25, 29, 3, 11, 93, 4, 12, 2, 57, 5, 1, 16, 47, 6, 17, 27, 66, 18, 28, 75, 7,
  19, 13, 22, 8, 14, 23, 9, 10])) (.leaf [25, 29, 3, 11, 93, 4, 12, 2, 57, 5, 1, 16, 47, 6, 17, 27,
  66, 18, 28, 75, 7, 19, 13, 22, 8, 14, 23, 9, 10])) (.leaf [25, 29, 3, 11, 93, 4, 12, 2, 57, 5, 1,
  16, 47, 6, 17, 27, 66, 18, 28, 75, 7, 19, 13, 22, 8, 14, 23, 9, 10])) (.leaf [25, 29, 3, 11, 93,
  4, 12, 2, 57, 5, 1, 16, 47, 6, 17, 27, 66, 18, 28, 75, 7, 19, 13, 22, 8, 14, 23, 9, 10])) (.leaf
  [25, 29, 3, 11, 93, 4, 12, 2, 57, 5, 1, 16, 47, 6, 17, 27, 66, 18, 28, 75, 7, 19, 13, 22, 8, 14,
  23, 9, 10])) (.leaf [25, 29, 3, 11, 93, 4, 12, 2, 57, 5, 1, 16, 47, 6, 17, 27, 66, 18, 28, 75, 7,
  19, 13, 22, 8, 14, 23, 9, 10])) (.leaf [25, 29, 3, 11, 93, 4, 12, 2, 57, 5, 1, 16, 47, 6, 17, 27,
  66, 18, 28, 75, 7, 19, 13, 22, 8, 14, 23, 9, 10])) (.leaf [25, 29, 3, 11, 93, 4, 12, 2, 57, 5, 1,
  16, 47, 6, 17, 27, 66, 18, 28, 75, 7, 19, 13, 22, 8, 14, 23, 9, 10])) (.leaf [25, 29, 3, 11, 93,
  4, 12, 2, 57, 5, 1, 16, 47, 6, 17, 27, 66, 18, 28, 75, 7, 19, 13, 22, 8, 14, 23, 9, 10])) (.leaf
  [25, 29, 3, 11, 93, 4, 12, 2, 57, 5, 1, 16, 47, 6, 17, 27, 66, 18, 28, 75, 7, 19, 13, 22, 8, 14,
  23, 9, 10])) (.leaf [25, 29, 3, 11, 93, 4, 12, 2, 57, 5, 1, 16, 47, 6, 17, 27, 66, 18, 28, 75, 7,
  19, 13, 22, 8, 14, 23, 9, 10])) (.leaf [25, 29, 3, 11, 93, 4, 12, 2, 57, 5, 1, 16, 47, 6, 17, 27,
  66, 18, 28, 75, 7, 19, 13, 22, 8, 14, 23, 9, 10])) (.leaf [25, 29, 3, 11, 93, 4, 12, 2, 57, 5, 1,
  16, 47, 6, 17, 27, 66, 18, 28, 75, 7, 19, 13, 22, 8, 14, 23, 9, 10])) (.leaf [25, 29, 3, 11, 93,
  4, 12, 2, 57, 5, 1, 16, 47, 6, 17, 27, 66, 18, 28, 75, 7, 19, 13, 22, 8, 14, 23, 9, 10])) (.leaf
  [25, 29, 3, 11, 93, 4, 12, 2, 57, 5, 1, 16, 47, 6, 17, 27, 66, 18, 28, 75, 7, 19, 13, 22, 8, 14,
  23, 9, 10])) (.leaf [25, 29, 11, 93, 12, 0, 57, 5, 16, 47, 6, 17, 27, 66, 18, 28, 75, 7, 19, 13,
  22, 8, 14, 23, 9, 10])) (.leaf [25, 29, 3, 11, 93, 4, 12, 2, 57, 5, 1, 16, 47, 6, 17, 27, 66, 18,
  28, 75, 7, 19, 13, 22, 8, 14, 23, 9, 10])) (.leaf [25, 29, 3, 11, 93, 4, 12, 2, 57, 5, 1, 16, 47,
  6, 17, 27, 66, 18, 28, 75, 7, 19, 13, 22, 8, 14, 23, 9, 10])) (.leaf [25, 29, 11, 93, 12, 0, 57,
  5, 16, 47, 6, 17, 27, 66, 18, 28, 75, 7, 19, 13, 22, 8, 14, 23, 9, 10])) (.leaf [25, 29, 3, 11,
  93, 4, 12, 2, 57, 5, 1, 16, 47, 6, 17, 27, 66, 18, 28, 75, 7, 19, 13, 22, 8, 14, 23, 9, 10]))
  (.leaf [25, 29, 11, 93, 12, 0, 57, 5, 16, 47, 6, 17, 27, 66, 18, 28, 75, 7, 19, 13, 22, 8, 14,
  23, 9, 10])) (.leaf [25, 29, 3, 11, 93, 4, 12, 2, 57, 5, 1, 16, 47, 6, 17, 27, 66, 18, 28, 75, 7,
  19, 13, 22, 8, 14, 23, 9, 10])) (.leaf [25, 29, 3, 11, 93, 4, 12, 2, 57, 5, 1, 16, 47, 6, 17, 27,
  66, 18, 28, 75, 7, 19, 13, 22, 8, 14, 23, 9, 10])) (.leaf [25, 29, 11, 93, 12, 0, 57, 5, 16, 47,
  6, 17, 27, 66, 18, 28, 75, 7, 19, 13, 22, 8, 14, 23, 9, 10])) (.leaf [25, 29, 3, 11, 93, 4, 12,
  2, 0, 57, 5, 1, 16, 47, 6, 17, 27, 66, 18, 28, 75, 7, 19, 13, 22, 8, 14, 23, 9, 10])

/-- some of the cases -/
def real5OneCase7 : LooseTree :=
  .breaks 1089621 (.breaks 10502226 (.breaks 4247749 (.breaks 4210705 (.breaks 13701205 (.breaks
  4210721 (.breaks 17895617 (.breaks 17907794 (.breaks 4210689 (.breaks 17895441 (.breaks 21045445
  (.breaks 21053633 (.breaks 17895457 (.breaks 18968661 (.breaks 21053457 (.breaks 17895425
  (.breaks 21053473 (.breaks 24211649 (.breaks 21053441 (.breaks 24211473 (.breaks 24211489
  (.breaks 24211457 (.leaf [25, 29, 11, 93, 12, 57, 5, 16, 47, 6, 17, 90, 27, 18, 92, 28, 19, 22,
  7, 23, 8, 9, 10]) (.leaf [25, 29, 11, 93, 12, 57, 5, 16, 47, 6, 17, 90, 27, 18, 92, 28, 19, 22,
  7, 23, 8, 9, 10])) (.leaf [25, 29, 11, 93, 12, 57, 5, 16, 47, 6, 17, 90, 27, 18, 92, 28, 19, 22,
  7, 23, 8, 9, 10])) (.leaf [25, 29, 11, 93, 12, 57, 5, 16, 47, 6, 17, 90, 27, 18, 92, 28, 19, 22,
  7, 23, 8, 9, 10])) (.leaf [25, 29, 11, 93, 12, 57, 5, 16, 47, 6, 17, 90, 27, 18, 92, 28, 19, 22,
  7, 23, 8, 9, 10])) (.leaf [25, 29, 11, 93, 12, 57, 5, 16, 47, 6, 17, 90, 27, 18, 92, 28, 19, 22,
  7, 23, 8, 9, 10])) (.leaf [25, 29, 11, 93, 12, 57, 5, 16, 47, 6, 17, 90, 27, 18, 92, 28, 19, 22,
  7, 23, 8, 9, 10])) (.leaf [25, 29, 3, 11, 93, 4, 12, 2, 57, 5, 1, 16, 47, 6, 17, 90, 27, 18, 92,
  28, 19, 22, 7, 23, 8, 9, 10])) (.leaf [25, 29, 11, 93, 12, 57, 5, 16, 47, 6, 17, 90, 27, 18, 92,
  28, 19, 22, 7, 23, 8, 9, 10])) (.leaf [25, 29, 11, 93, 12, 57, 5, 16, 47, 6, 17, 90, 27, 18, 92,
  28, 19, 22, 7, 23, 8, 9, 10])) (.leaf [25, 29, 3, 11, 93, 4, 12, 2, 57, 5, 1, 16, 47, 6, 17, 90,
  27, 18, 92, 28, 19, 22, 7, 23, 8, 9, 10])) (.leaf [25, 29, 11, 93, 12, 57, 5, 16, 47, 6, 17, 90,
  27, 18, 92, 28, 19, 22, 7, 23, 8, 9, 10])) (.leaf [25, 29, 11, 93, 12, 57, 5, 16, 47, 6, 17, 90,
  27, 18, 92, 28, 19, 22, 7, 23, 8, 9, 10])) (.leaf [25, 29, 3, 11, 93, 4, 12, 2, 57, 5, 1, 16, 47,
  6, 17, 90, 27, 18, 92, 28, 19, 22, 7, 23, 8, 9, 10])) (.leaf [25, 29, 11, 93, 12, 57, 5, 16, 47,
  6, 17, 90, 27, 18, 92, 28, 19, 22, 7, 23, 8, 9, 10])) (.leaf [25, 29, 3, 11, 93, 4, 12, 2, 57, 5,
  1, 16, 47, 6, 17, 90, 27, 18, 92, 28, 19, 22, 7, 23, 8, 9, 10])) (.leaf [25, 29, 3, 11, 93, 4,
  12, 2, 57, 5, 1, 16, 47, 6, 17, 90, 27, 18, 92, 28, 19, 22, 7, 23, 8, 9, 10])) (.leaf [25, 29,
  11, 93, 12, 57, 5, 16, 47, 6, 17, 90, 27, 18, 92, 28, 19, 22, 7, 23, 8, 9, 10])) (.leaf [25, 29,
  3, 11, 93, 4, 12, 2, 57, 5, 1, 16, 47, 6, 17, 90, 27, 18, 92, 28, 19, 22, 7, 23, 8, 9, 10]))
  (.leaf [25, 29, 11, 93, 12, 57, 5, 16, 47, 6, 17, 90, 27, 18, 92, 28, 19, 22, 7, 23, 8, 9, 10]))
  (.leaf [25, 29, 3, 11, 93, 4, 12, 2, 57, 5, 1, 16, 47, 6, 17, 90, 27, 18, 92, 28, 19, 22, 7, 23,
  8, 9, 10])) (.leaf [25, 29, 3, 11, 93, 4, 12, 2, 57, 5, 1, 16, 47, 6, 17, 90, 27, 18, 92, 28, 19,
  22, 7, 23, 8, 9, 10])) (.leaf [25, 29, 3, 11, 93, 4, 12, 2, 57, 5, 1, 16, 47, 6, 17, 90, 27, 18,
  92, 28, 19, 22, 7, 23, 8, 9, 10])

/-- some of the cases -/
def real5OneCase8 : LooseTree :=
  .breaks 10502226 (.breaks 10526913 (.breaks 21053633 (.breaks 4210881 (.breaks 4247749 (.breaks
  10526737 (.breaks 21053457 (.breaks 4210705 (.breaks 10526753 (.breaks 13701205 (.breaks 21053473
  (.breaks 4210721 (.breaks 10526721 (.breaks 17895617 (.breaks 17920082 (.breaks 21053441 (.breaks
  4210689 (.breaks 17895441 (.breaks 24211649 (.breaks 17895457 (.breaks 24211473 (.breaks 17895425
  (.breaks 24211489 (.breaks 24211457 (.leaf [25, 113, 29, 3, 27, 11, 93, 4, 28, 12, 2, 57, 22, 5,
  1, 16, 73, 23, 6, 17, 7, 18, 8, 19, 9, 10]) (.leaf [25, 113, 29, 3, 27, 11, 93, 4, 28, 12, 2, 57,
  22, 5, 1, 16, 73, 23, 6, 17, 7, 18, 8, 19, 9, 10])) (.leaf [25, 113, 29, 3, 27, 11, 93, 4, 28,
  12, 2, 57, 22, 5, 1, 16, 73, 23, 6, 17, 7, 18, 8, 19, 9, 10])) (.leaf [25, 113, 29, 3, 27, 11,
  93, 4, 28, 12, 2, 57, 22, 5, 1, 16, 73, 23, 6, 17, 7, 18, 8, 19, 9, 10])) (.leaf [25, 113, 29, 3,
  27, 11, 93, 4, 28, 12, 2, 57, 22, 5, 1, 16, 73, 23, 6, 17, 7, 18, 8, 19, 9, 10])) (.leaf [25,
  113, 29, 3, 27, 11, 93, 4, 28, 12, 2, 57, 22, 5, 1, 16, 73, 23, 6, 17, 7, 18, 8, 19, 9, 10]))
  (.leaf [25, 113, 29, 3, 27, 11, 93, 4, 28, 12, 2, 57, 22, 5, 1, 16, 73, 23, 6, 17, 7, 18, 8, 19,
  9, 10])) (.leaf [25, 113, 29, 3, 27, 11, 93, 4, 28, 12, 2, 57, 22, 5, 1, 16, 73, 23, 6, 17, 7,
  18, 8, 19, 9, 10])) (.leaf [25, 113, 29, 3, 27, 11, 93, 4, 28, 12, 2, 57, 22, 5, 1, 16, 73, 23,
  6, 17, 7, 18, 8, 19, 9, 10])) (.leaf [25, 113, 29, 3, 27, 11, 93, 4, 28, 12, 2, 57, 22, 5, 1, 16,
  73, 23, 6, 17, 7, 18, 8, 19, 9, 10])) (.leaf [25, 113, 29, 3, 27, 11, 93, 4, 28, 12, 2, 57, 22,
  5, 1, 16, 73, 23, 6, 17, 7, 18, 8, 19, 9, 10])) (.leaf [25, 113, 29, 3, 27, 11, 93, 4, 28, 12, 2,
  57, 22, 5, 1, 16, 73, 23, 6, 17, 7, 18, 8, 19, 9, 10])) (.leaf [25, 113, 29, 27, 11, 93, 28, 12,
  0, 57, 22, 5, 16, 73, 23, 6, 17, 7, 18, 8, 19, 9, 10])) (.leaf [25, 113, 29, 3, 27, 11, 93, 4,
  28, 12, 2, 57, 22, 5, 1, 16, 73, 23, 6, 17, 7, 18, 8, 19, 9, 10])) (.leaf [25, 113, 29, 3, 27,
  11, 93, 4, 28, 12, 2, 57, 22, 5, 1, 16, 73, 23, 6, 17, 7, 18, 8, 19, 9, 10])) (.leaf [25, 113,
  29, 3, 27, 11, 93, 4, 28, 12, 2, 57, 22, 5, 1, 16, 73, 23, 6, 17, 7, 18, 8, 19, 9, 10])) (.leaf
  [25, 113, 29, 27, 11, 93, 28, 12, 0, 57, 22, 5, 16, 73, 23, 6, 17, 7, 18, 8, 19, 9, 10])) (.leaf
  [25, 113, 29, 3, 27, 11, 93, 4, 28, 12, 2, 57, 22, 5, 1, 16, 73, 23, 6, 17, 7, 18, 8, 19, 9,
  10])) (.leaf [25, 113, 29, 3, 27, 11, 93, 4, 28, 12, 2, 57, 22, 5, 1, 16, 73, 23, 6, 17, 7, 18,
  8, 19, 9, 10])) (.leaf [25, 113, 29, 27, 11, 93, 28, 12, 0, 57, 22, 5, 16, 73, 23, 6, 17, 7, 18,
  8, 19, 9, 10])) (.leaf [25, 113, 29, 3, 27, 11, 93, 4, 28, 12, 2, 57, 22, 5, 1, 16, 73, 23, 6,
  17, 7, 18, 8, 19, 9, 10])) (.leaf [25, 113, 29, 3, 27, 11, 93, 4, 28, 12, 2, 57, 22, 5, 1, 16,
  73, 23, 6, 17, 7, 18, 8, 19, 9, 10])) (.leaf [25, 113, 29, 3, 27, 11, 93, 4, 28, 12, 2, 57, 22,
  5, 1, 16, 73, 23, 6, 17, 7, 18, 8, 19, 9, 10])) (.leaf [25, 113, 29, 27, 11, 93, 28, 12, 0, 57,
  22, 5, 16, 73, 23, 6, 17, 7, 18, 8, 19, 9, 10])) (.leaf [25, 113, 29, 3, 27, 11, 93, 4, 28, 12,
  2, 57, 22, 5, 1, 16, 73, 23, 6, 17, 7, 18, 8, 19, 9, 10])

/-- some of the cases -/
def real5OneCase9 : LooseTree :=
  .cases [] 43 (.breaks 1065045 (.breaks 4235346 (.breaks 10539205 (.breaks 13684817 (.breaks
  13701203 (.breaks 10526721 (.breaks 17895505 (.breaks 17895617 (.breaks 17907794 (.breaks
  17920082 (.breaks 17895441 (.breaks 21053633 (.breaks 24211649 (.breaks 17895457 (.breaks
  21053457 (.breaks 24211473 (.breaks 17895425 (.breaks 21053473 (.breaks 24211489 (.breaks
  21053441 (.breaks 24211457 (.leaf [26, 38, 3, 125, 4, 0, 2, 120, 1, 110, 16, 47, 73, 17, 27, 7,
  18, 28, 8, 19, 22, 9, 23, 10]) (.leaf [26, 38, 3, 125, 4, 0, 2, 120, 1, 110, 16, 47, 73, 17, 27,
  7, 18, 28, 8, 19, 22, 9, 23, 10])) (.leaf [26, 38, 3, 125, 4, 0, 2, 120, 1, 110, 16, 47, 73, 17,
  27, 7, 18, 28, 8, 19, 22, 9, 23, 10])) (.leaf [26, 38, 3, 125, 4, 0, 2, 120, 1, 110, 16, 47, 73,
  17, 27, 7, 18, 28, 8, 19, 22, 9, 23, 10])) (.leaf [26, 38, 3, 125, 4, 0, 2, 120, 1, 110, 16, 47,
  73, 17, 27, 7, 18, 28, 8, 19, 22, 9, 23, 10])) (.leaf [26, 38, 3, 125, 4, 0, 2, 120, 1, 110, 16,
  47, 73, 17, 27, 7, 18, 28, 8, 19, 22, 9, 23, 10])) (.leaf [26, 38, 3, 125, 4, 0, 2, 120, 1, 110,
  16, 47, 73, 17, 27, 7, 18, 28, 8, 19, 22, 9, 23, 10])) (.leaf [26, 38, 3, 125, 4, 0, 2, 120, 1,
  110, 16, 47, 73, 17, 27, 7, 18, 28, 8, 19, 22, 9, 23, 10])) (.leaf [26, 38, 3, 125, 4, 0, 2, 120,
  1, 110, 16, 47, 73, 17, 27, 7, 18, 28, 8, 19, 22, 9, 23, 10])) (.leaf [26, 38, 3, 125, 4, 0, 2,
  120, 1, 110, 16, 47, 73, 17, 27, 7, 18, 28, 8, 19, 22, 9, 23, 10])) (.leaf [26, 38, 3, 125, 4, 0,
  2, 120, 1, 110, 16, 47, 73, 17, 27, 7, 18, 28, 8, 19, 22, 9, 23, 10])) (.leaf [26, 38, 3, 125, 4,
  0, 2, 120, 1, 110, 16, 47, 73, 17, 27, 7, 18, 28, 8, 19, 22, 9, 23, 10])) (.leaf [26, 38, 3, 125,
  4, 0, 2, 120, 1, 110, 16, 47, 73, 17, 27, 7, 18, 28, 8, 19, 22, 9, 23, 10])) (.leaf [26, 38, 3,
  125, 4, 0, 2, 120, 1, 110, 16, 47, 73, 17, 27, 7, 18, 28, 8, 19, 22, 9, 23, 10])) (.leaf [26, 38,
  3, 125, 4, 0, 2, 120, 1, 110, 16, 47, 73, 17, 27, 7, 18, 28, 8, 19, 22, 9, 23, 10])) (.leaf [26,
  11, 38, 12, 3, 125, 5, 4, 0, 6, 2, 120, 1, 110, 16, 47, 73, 17, 27, 7, 18, 28, 8, 19, 22, 9, 23,
  10])) (.leaf [26, 38, 3, 125, 4, 0, 2, 120, 1, 110, 16, 47, 73, 17, 27, 7, 18, 28, 8, 19, 22, 9,
  23, 10])) (.leaf [26, 11, 38, 12, 3, 125, 5, 4, 0, 6, 2, 120, 1, 110, 16, 47, 73, 17, 27, 7, 18,
  28, 8, 19, 22, 9, 23, 10])) (.leaf [26, 11, 38, 12, 3, 125, 5, 4, 0, 6, 2, 120, 1, 110, 16, 47,
  73, 17, 27, 7, 18, 28, 8, 19, 22, 9, 23, 10])) (.leaf [26, 11, 38, 12, 3, 125, 5, 4, 0, 6, 2,
  120, 1, 110, 16, 47, 73, 17, 27, 7, 18, 28, 8, 19, 22, 9, 23, 10])) (.leaf [26, 11, 38, 12, 3,
  125, 5, 4, 0, 6, 2, 120, 1, 110, 16, 47, 73, 17, 27, 7, 18, 28, 8, 19, 22, 9, 23, 10])) (.leaf
  [26, 11, 38, 12, 3, 125, 5, 4, 0, 6, 2, 120, 1, 110, 16, 47, 73, 17, 27, 7, 18, 28, 8, 19, 22, 9,
  23, 10])) (.cases [] 11 (.breaks 13701205 (.breaks 17879123 (.cycle 1 [57, 151]) (.leaf [53, 59,
  46, 3, 125, 4, 0, 57, 2, 16, 47, 1, 17, 27, 18, 28, 19, 22, 23])) (.leaf [53, 59, 46, 3, 125, 4,
  0, 57, 2, 16, 47, 1, 17, 27, 18, 28, 19, 22, 23])) (.breaks 1065045 (.breaks 4198483 (.cycle 33
  [26, 99]) (.cycle 1 [57, 151])) (.cycle 1 [57, 151])))

/-- some of the cases -/
def real5OneCase10 : LooseTree :=
  .cases [] 41 (.breaks 17895617 (.breaks 17920082 (.breaks 10526753 (.breaks 17895441 (.breaks
  21053633 (.breaks 24211649 (.breaks 10526721 (.breaks 17895457 (.breaks 21053457 (.breaks
  24211473 (.breaks 17895425 (.breaks 21053473 (.breaks 24211489 (.breaks 21053441 (.breaks
  24211457 (.leaf [122, 3, 116, 4, 16, 47, 73, 2, 17, 27, 7, 1, 18, 28, 8, 19, 22, 9, 23, 10])
  (.leaf [122, 3, 116, 4, 16, 47, 73, 2, 17, 27, 7, 1, 18, 28, 8, 19, 22, 9, 23, 10])) (.leaf [122,
  3, 116, 4, 16, 47, 73, 2, 17, 27, 7, 1, 18, 28, 8, 19, 22, 9, 23, 10])) (.leaf [122, 3, 116, 4,
  16, 47, 73, 2, 17, 27, 7, 1, 18, 28, 8, 19, 22, 9, 23, 10])) (.leaf [122, 3, 116, 4, 16, 47, 73,
  2, 17, 27, 7, 1, 18, 28, 8, 19, 22, 9, 23, 10])) (.leaf [122, 3, 116, 4, 16, 47, 73, 2, 17, 27,
  7, 1, 18, 28, 8, 19, 22, 9, 23, 10])) (.leaf [122, 3, 116, 4, 16, 47, 73, 2, 17, 27, 7, 1, 18,
  28, 8, 19, 22, 9, 23, 10])) (.leaf [122, 3, 116, 4, 16, 47, 73, 2, 17, 27, 7, 1, 18, 28, 8, 19,
  22, 9, 23, 10])) (.leaf [122, 3, 116, 4, 16, 47, 73, 2, 17, 27, 7, 1, 18, 28, 8, 19, 22, 9, 23,
  10])) (.leaf [122, 3, 116, 4, 16, 47, 73, 2, 17, 27, 7, 1, 18, 28, 8, 19, 22, 9, 23, 10])) (.leaf
  [122, 3, 116, 4, 16, 47, 73, 2, 17, 27, 7, 1, 18, 28, 8, 19, 22, 9, 23, 10])) (.leaf [122, 3,
  116, 4, 16, 47, 73, 2, 17, 27, 7, 1, 18, 28, 8, 19, 22, 9, 23, 10])) (.leaf [122, 3, 116, 4, 16,
  47, 73, 2, 17, 27, 7, 1, 18, 28, 8, 19, 22, 9, 23, 10])) (.leaf [122, 3, 116, 4, 16, 47, 73, 2,
  17, 27, 7, 1, 18, 28, 8, 19, 22, 9, 23, 10])) (.leaf [122, 3, 116, 4, 16, 47, 73, 2, 17, 27, 7,
  1, 18, 28, 8, 19, 22, 9, 23, 10])) (.leaf [122, 3, 116, 4, 16, 47, 73, 2, 17, 27, 7, 1, 18, 28,
  8, 19, 22, 9, 23, 10])) (.cases [] 62 (.leaf [57, 185, 186]) (.leaf [118, 184]))

/-- some of the cases -/
def real5OneCase11 : LooseTree :=
  .breaks 26288325 (.breaks 10526913 (.breaks 18948177 (.breaks 24199250 (.breaks 10526737 (.breaks
  18948209 (.breaks 21041234 (.breaks 21053633 (.breaks 10526753 (.breaks 17895617 (.breaks
  21053457 (.breaks 10526721 (.breaks 17895441 (.breaks 21053473 (.breaks 17895457 (.breaks
  21053441 (.breaks 17895425 (.leaf [25, 52, 80, 3, 13, 77, 4, 14, 50, 27, 2, 16, 28, 1, 17, 22,
  18, 23, 19]) (.leaf [25, 52, 80, 3, 13, 77, 4, 14, 50, 27, 2, 16, 28, 1, 17, 22, 18, 23, 19]))
  (.leaf [25, 52, 80, 3, 13, 77, 4, 14, 50, 27, 2, 16, 28, 1, 17, 22, 18, 23, 19])) (.leaf [25, 52,
  80, 3, 13, 77, 4, 14, 50, 27, 2, 16, 28, 1, 17, 22, 18, 23, 19])) (.leaf [25, 52, 80, 3, 13, 77,
  4, 14, 50, 27, 2, 16, 28, 1, 17, 22, 18, 23, 19])) (.leaf [25, 52, 80, 3, 13, 77, 4, 14, 50, 27,
  2, 16, 28, 1, 17, 22, 18, 23, 19])) (.leaf [25, 52, 80, 3, 13, 77, 4, 14, 50, 27, 2, 16, 28, 1,
  17, 22, 18, 23, 19])) (.leaf [25, 52, 80, 3, 13, 77, 4, 14, 50, 27, 2, 16, 28, 1, 17, 22, 18, 23,
  19])) (.leaf [25, 52, 80, 3, 13, 77, 4, 14, 50, 27, 2, 16, 28, 1, 17, 22, 18, 23, 19])) (.leaf
  [25, 52, 80, 3, 13, 77, 4, 14, 50, 27, 2, 16, 28, 1, 17, 22, 18, 23, 19])) (.leaf [25, 52, 80, 3,
  13, 77, 4, 14, 50, 27, 2, 16, 28, 1, 17, 22, 18, 23, 19])) (.leaf [25, 52, 80, 3, 13, 77, 4, 14,
  50, 27, 2, 16, 28, 1, 17, 22, 18, 23, 19])) (.leaf [25, 52, 80, 3, 13, 77, 4, 14, 50, 27, 2, 16,
  28, 1, 17, 22, 18, 23, 19])) (.leaf [25, 52, 80, 3, 13, 77, 4, 14, 50, 27, 2, 16, 28, 1, 17, 22,
  18, 23, 19])) (.leaf [25, 52, 80, 3, 13, 77, 4, 14, 50, 27, 2, 16, 28, 1, 17, 22, 18, 23, 19]))
  (.leaf [25, 52, 80, 3, 13, 77, 4, 14, 50, 27, 2, 16, 28, 1, 17, 22, 18, 23, 19])) (.leaf [25, 52,
  80, 3, 13, 77, 4, 14, 50, 27, 2, 16, 28, 1, 17, 22, 18, 23, 19])) (.leaf [25, 52, 80, 3, 13, 77,
  4, 14, 50, 27, 2, 16, 28, 1, 17, 22, 18, 23, 19])

/-- some of the cases -/
def real5OneCase12 : LooseTree :=
  .breaks 17895457 (.breaks 18948209 (.breaks 17895425 (.leaf [142, 16, 82, 17, 13, 18, 14, 19])
  (.leaf [142, 16, 82, 17, 13, 18, 14, 19])) (.leaf [142, 16, 82, 17, 13, 18, 14, 19])) (.leaf
  [142, 16, 82, 17, 13, 18, 14, 19])

/-- some of the cases -/
def real5OneCase13 : LooseTree :=
  .breaks 13725781 (.breaks 24199250 (.breaks 21041234 (.breaks 21053633 (.breaks 10526753 (.breaks
  17895617 (.breaks 17924293 (.breaks 21053457 (.breaks 10526721 (.breaks 17895441 (.breaks
  21053473 (.breaks 25239746 (.breaks 17895457 (.breaks 18948177 (.breaks 18976853 (.breaks
  21053441 (.breaks 17895425 (.breaks 18948209 (.breaks 26316993 (.breaks 26316817 (.breaks
  26316833 (.breaks 26316801 (.leaf [25, 52, 3, 77, 4, 50, 27, 2, 16, 114, 28, 1, 17, 22, 63, 18,
  13, 67, 23, 19, 14, 40, 41, 42, 43]) (.leaf [25, 52, 3, 77, 4, 50, 27, 2, 16, 114, 28, 1, 17, 22,
  63, 18, 13, 67, 23, 19, 14, 40, 41, 42, 43])) (.leaf [25, 52, 3, 77, 4, 50, 27, 2, 16, 114, 28,
  1, 17, 22, 63, 18, 13, 67, 23, 19, 14, 40, 41, 42, 43])) (.leaf [25, 52, 3, 77, 4, 50, 27, 2, 16,
  114, 28, 1, 17, 22, 63, 18, 13, 67, 23, 19, 14, 40, 41, 42, 43])) (.leaf [25, 52, 3, 77, 4, 50,
  27, 2, 16, 114, 28, 1, 17, 22, 63, 18, 13, 67, 23, 19, 14, 40, 41, 42, 43])) (.leaf [25, 52, 3,
  77, 4, 50, 27, 2, 16, 114, 28, 1, 17, 22, 63, 18, 13, 67, 23, 19, 14, 40, 41, 42, 43])) (.leaf
  [25, 52, 3, 77, 4, 50, 27, 2, 16, 114, 28, 1, 17, 22, 63, 18, 13, 67, 23, 19, 14, 40, 41, 42,
  43])) (.leaf [25, 52, 3, 77, 4, 50, 27, 2, 16, 114, 28, 1, 17, 22, 63, 18, 13, 67, 23, 19, 14,
  40, 41, 42, 43])) (.leaf [25, 52, 3, 77, 4, 50, 27, 2, 16, 114, 28, 1, 17, 22, 63, 18, 13, 67,
  23, 19, 14, 40, 41, 42, 43])) (.leaf [25, 52, 3, 77, 4, 50, 27, 2, 16, 114, 28, 1, 17, 22, 63,
  18, 13, 67, 23, 19, 14, 40, 41, 42, 43])) (.leaf [25, 52, 3, 77, 4, 50, 27, 2, 16, 114, 28, 1,
  17, 22, 63, 18, 13, 67, 23, 19, 14, 40, 41, 42, 43])) (.leaf [25, 52, 3, 77, 4, 50, 27, 2, 16,
  114, 28, 1, 17, 22, 63, 18, 13, 67, 23, 19, 14, 40, 41, 42, 43])) (.leaf [25, 52, 3, 77, 4, 50,
  27, 2, 16, 114, 28, 1, 17, 22, 63, 18, 13, 67, 23, 19, 14, 40, 41, 42, 43])) (.leaf [25, 52, 3,
  77, 4, 50, 27, 2, 16, 114, 28, 1, 17, 22, 63, 18, 13, 67, 23, 19, 14, 40, 41, 42, 43])) (.leaf
  [25, 52, 3, 77, 4, 50, 27, 2, 16, 114, 28, 1, 17, 22, 63, 18, 13, 67, 23, 19, 14, 40, 41, 42,
  43])) (.leaf [25, 52, 3, 77, 4, 50, 27, 2, 16, 114, 28, 1, 17, 22, 63, 18, 13, 67, 23, 19, 14,
  40, 41, 42, 43])) (.leaf [25, 52, 63, 3, 13, 67, 77, 4, 14, 50, 27, 40, 2, 16, 28, 41, 1, 17, 22,
  42, 18, 23, 43, 19])) (.leaf [25, 52, 3, 77, 4, 50, 27, 2, 16, 114, 28, 1, 17, 22, 63, 18, 13,
  67, 23, 19, 14, 40, 41, 42, 43])) (.leaf [25, 52, 3, 77, 4, 50, 27, 2, 16, 114, 28, 1, 17, 22,
  63, 18, 13, 67, 23, 19, 14, 40, 41, 42, 43])) (.leaf [25, 52, 3, 77, 4, 50, 27, 2, 16, 114, 28,
  1, 17, 22, 63, 18, 13, 67, 23, 19, 14, 40, 41, 42, 43])) (.leaf [26, 25, 52, 63, 11, 3, 13, 67,
  77, 12, 4, 14, 50, 27, 40, 5, 2, 16, 28, 41, 6, 1, 17, 22, 42, 18, 23, 43, 19])) (.leaf [26, 25,
  52, 63, 11, 3, 13, 67, 77, 12, 4, 14, 50, 27, 40, 5, 2, 16, 28, 41, 6, 1, 17, 22, 42, 18, 23, 43,
  19])) (.leaf [26, 25, 52, 63, 11, 3, 13, 67, 77, 12, 4, 14, 50, 27, 40, 5, 2, 16, 28, 41, 6, 1,
  17, 22, 42, 18, 23, 43, 19])

/-- some of the cases -/
def real5OneCase14 : LooseTree :=
  .breaks 13725781 (.breaks 24199250 (.breaks 21041234 (.breaks 10526753 (.breaks 17895617 (.breaks
  17899717 (.breaks 21053457 (.breaks 10526721 (.breaks 17895441 (.breaks 18948177 (.breaks
  18972866 (.breaks 21053473 (.breaks 17895457 (.breaks 18948209 (.breaks 21053441 (.breaks
  25264209 (.breaks 25268309 (.breaks 17895425 (.breaks 26316993 (.breaks 26316817 (.breaks
  26316833 (.breaks 26316801 (.leaf [25, 52, 3, 77, 4, 50, 27, 2, 16, 82, 28, 1, 17, 13, 34, 22,
  18, 14, 23, 24, 58, 19, 40, 41, 42, 43]) (.leaf [25, 52, 3, 77, 4, 50, 27, 2, 16, 82, 28, 1, 17,
  13, 34, 22, 18, 14, 23, 24, 58, 19, 40, 41, 42, 43])) (.leaf [25, 52, 3, 77, 4, 50, 27, 2, 16,
  82, 28, 1, 17, 13, 34, 22, 18, 14, 23, 24, 58, 19, 40, 41, 42, 43])) (.leaf [25, 52, 3, 77, 4,
  50, 27, 2, 16, 82, 28, 1, 17, 13, 34, 22, 18, 14, 23, 24, 58, 19, 40, 41, 42, 43])) (.leaf [25,
  52, 3, 77, 4, 50, 27, 2, 16, 82, 28, 1, 17, 13, 34, 22, 18, 14, 23, 24, 58, 19, 40, 41, 42, 43]))
  (.leaf [25, 52, 3, 77, 4, 50, 27, 2, 16, 82, 28, 1, 17, 13, 34, 22, 18, 14, 23, 24, 58, 19, 40,
  41, 42, 43])) (.leaf [25, 52, 3, 77, 4, 50, 27, 2, 16, 82, 28, 1, 17, 13, 34, 22, 18, 14, 23, 24,
  58, 19, 40, 41, 42, 43])) (.leaf [25, 52, 3, 77, 4, 50, 27, 2, 16, 82, 28, 1, 17, 13, 34, 22, 18,
  14, 23, 24, 58, 19, 40, 41, 42, 43])) (.leaf [25, 52, 3, 77, 4, 50, 27, 2, 16, 82, 28, 1, 17, 13,
  34, 22, 18, 14, 23, 24, 58, 19, 40, 41, 42, 43])) (.leaf [25, 52, 3, 77, 4, 50, 27, 2, 16, 82,
  28, 1, 17, 13, 34, 22, 18, 14, 23, 24, 58, 19, 40, 41, 42, 43])) (.leaf [25, 52, 3, 77, 4, 50,
  27, 2, 16, 82, 28, 1, 17, 13, 34, 22, 18, 14, 23, 24, 58, 19, 40, 41, 42, 43])) (.leaf [25, 52,
  3, 77, 4, 50, 27, 2, 16, 82, 28, 1, 17, 13, 34, 22, 18, 14, 23, 24, 58, 19, 40, 41, 42, 43]))
  (.leaf [25, 52, 3, 77, 4, 50, 27, 2, 16, 82, 28, 1, 17, 13, 34, 22, 18, 14, 23, 24, 58, 19, 40,
  41, 42, 43])) (.leaf [25, 52, 3, 77, 4, 50, 27, 2, 16, 82, 28, 1, 17, 13, 34, 22, 18, 14, 23, 24,
  58, 19, 40, 41, 42, 43])) (.leaf [25, 52, 3, 77, 4, 50, 27, 2, 16, 82, 28, 1, 17, 13, 34, 22, 18,
  14, 23, 24, 58, 19, 40, 41, 42, 43])) (.leaf [25, 52, 3, 77, 4, 50, 27, 2, 16, 82, 28, 1, 17, 13,
  34, 22, 18, 14, 23, 24, 58, 19, 40, 41, 42, 43])) (.leaf [25, 52, 3, 77, 4, 50, 27, 2, 16, 82,
  28, 1, 17, 13, 34, 22, 18, 14, 23, 24, 58, 19, 40, 41, 42, 43])) (.leaf [25, 52, 3, 77, 4, 50,
  27, 2, 16, 82, 28, 1, 17, 13, 34, 22, 18, 14, 23, 24, 58, 19, 40, 41, 42, 43])) (.leaf [25, 52,
  3, 77, 4, 50, 27, 2, 16, 82, 28, 1, 17, 13, 34, 22, 18, 14, 23, 24, 58, 19, 40, 41, 42, 43]))
  (.leaf [25, 52, 3, 77, 4, 50, 27, 2, 16, 82, 28, 1, 17, 13, 34, 22, 18, 14, 23, 24, 58, 19, 40,
  41, 42, 43])) (.leaf [26, 25, 52, 11, 3, 77, 12, 4, 50, 27, 5, 2, 16, 82, 28, 6, 1, 17, 13, 34,
  22, 18, 14, 23, 24, 58, 19, 40, 41, 42, 43])) (.leaf [26, 25, 52, 11, 3, 77, 12, 4, 50, 27, 5, 2,
  16, 82, 28, 6, 1, 17, 13, 34, 22, 18, 14, 23, 24, 58, 19, 40, 41, 42, 43])) (.leaf [26, 25, 52,
  11, 3, 77, 12, 4, 50, 27, 5, 2, 16, 82, 28, 6, 1, 17, 13, 34, 22, 18, 14, 23, 24, 58, 19, 40, 41,
  42, 43])

/-- some of the cases -/
def real5OneCase15 : LooseTree :=
  .breaks 1089621 (.breaks 13725781 (.breaks 10526913 (.breaks 24199250 (.breaks 10526737 (.breaks
  21041234 (.breaks 21053633 (.breaks 10526753 (.breaks 17895617 (.breaks 17899717 (.breaks
  21053457 (.breaks 10526721 (.breaks 17895441 (.breaks 18976853 (.breaks 21053473 (.breaks
  17895457 (.breaks 21053441 (.breaks 26312901 (.breaks 17895425 (.breaks 25264209 (.leaf [25, 52,
  3, 77, 4, 50, 27, 2, 16, 82, 28, 1, 17, 67, 22, 18, 23, 68, 19, 24]) (.leaf [25, 52, 3, 77, 4,
  50, 27, 2, 16, 82, 28, 1, 17, 13, 67, 22, 18, 14, 23, 68, 19, 24])) (.leaf [25, 52, 3, 77, 4, 50,
  27, 2, 16, 82, 28, 1, 17, 13, 67, 22, 18, 14, 23, 68, 19, 24])) (.leaf [25, 52, 3, 77, 4, 50, 27,
  2, 16, 82, 28, 1, 17, 13, 67, 22, 18, 14, 23, 68, 19, 24])) (.leaf [25, 52, 3, 77, 4, 50, 27, 2,
  16, 82, 28, 1, 17, 13, 67, 22, 18, 14, 23, 68, 19, 24])) (.leaf [25, 52, 3, 77, 4, 50, 27, 2, 16,
  82, 28, 1, 17, 13, 67, 22, 18, 14, 23, 68, 19, 24])) (.leaf [25, 52, 3, 77, 4, 50, 27, 2, 16, 82,
  28, 1, 17, 13, 67, 22, 18, 14, 23, 68, 19, 24])) (.leaf [25, 52, 68, 3, 77, 24, 4, 50, 27, 2, 16,
  82, 28, 1, 17, 13, 22, 18, 14, 23, 19])) (.leaf [25, 52, 3, 77, 4, 50, 27, 2, 16, 82, 28, 1, 17,
  13, 67, 22, 18, 14, 23, 68, 19, 24])) (.leaf [25, 52, 3, 77, 4, 50, 27, 2, 16, 82, 28, 1, 17, 13,
  67, 22, 18, 14, 23, 68, 19, 24])) (.leaf [25, 52, 3, 77, 4, 50, 27, 2, 16, 82, 28, 1, 17, 13, 67,
  22, 18, 14, 23, 68, 19, 24])) (.leaf [25, 52, 68, 3, 77, 24, 4, 50, 27, 2, 16, 82, 28, 1, 17, 13,
  22, 18, 14, 23, 19])) (.leaf [25, 52, 3, 77, 4, 50, 27, 2, 16, 82, 28, 1, 17, 13, 67, 22, 18, 14,
  23, 68, 19, 24])) (.leaf [25, 52, 3, 77, 4, 50, 27, 2, 16, 82, 28, 1, 17, 13, 67, 22, 18, 14, 23,
  68, 19, 24])) (.leaf [25, 52, 3, 77, 4, 50, 27, 2, 16, 82, 28, 1, 17, 13, 67, 22, 18, 14, 23, 68,
  19, 24])) (.leaf [25, 52, 68, 3, 77, 24, 4, 50, 27, 2, 16, 82, 28, 1, 17, 13, 22, 18, 14, 23,
  19])) (.leaf [25, 52, 3, 77, 4, 50, 27, 2, 16, 82, 28, 1, 17, 13, 67, 22, 18, 14, 23, 68, 19,
  24])) (.leaf [25, 52, 68, 3, 77, 24, 4, 50, 27, 2, 16, 82, 28, 1, 17, 13, 22, 18, 14, 23, 19]))
  (.leaf [25, 52, 3, 77, 4, 50, 27, 2, 16, 82, 28, 1, 17, 13, 67, 22, 18, 14, 23, 68, 19, 24]))
  (.leaf [25, 52, 68, 3, 77, 24, 4, 50, 27, 2, 16, 82, 28, 1, 17, 13, 22, 18, 14, 23, 19])) (.leaf
  [25, 52, 3, 77, 4, 50, 27, 2, 16, 82, 28, 1, 17, 13, 67, 22, 18, 14, 23, 68, 19, 24])

/-- some of the cases -/
def real5OneCase16 : LooseTree :=
  .breaks 13725781 (.breaks 18944085 (.breaks 10526913 (.breaks 17895617 (.breaks 24199250 (.breaks
  10526737 (.breaks 17895441 (.breaks 21053633 (.breaks 10526753 (.breaks 17895457 (.breaks
  21053457 (.breaks 10526721 (.breaks 17895425 (.breaks 21053473 (.breaks 21053441 (.leaf
  [25, 52, 105, 3, 16, 77, 4, 17, 27, 2, 18, 28, 1, 19, 22, 23]) (.leaf
  [25, 52, 105, 3, 16, 77, 4, 17, 27, 2, 18, 28, 1, 19, 22, 23])) (.leaf
  [25, 52, 105, 3, 16, 77, 4, 17, 27, 2, 18, 28, 1, 19, 22, 23])) (.leaf [26, 25, 52, 105, 11, 3,
  16, 77, 12, 4, 17, 27, 5, 2, 18, 28, 6, 1, 19, 22, 23])) (.leaf
  [25, 52, 105, 3, 16, 77, 4, 17, 27, 2, 18, 28, 1, 19, 22, 23])) (.leaf
  [25, 52, 105, 3, 16, 77, 4, 17, 27, 2, 18, 28, 1, 19, 22, 23])) (.leaf [26, 25, 52, 105, 11, 3,
  16, 77, 12, 4, 17, 27, 5, 2, 18, 28, 6, 1, 19, 22, 23])) (.leaf
  [25, 52, 105, 3, 16, 77, 4, 17, 27, 2, 18, 28, 1, 19, 22, 23])) (.leaf
  [25, 52, 105, 3, 16, 77, 4, 17, 27, 2, 18, 28, 1, 19, 22, 23])) (.leaf [26, 25, 52, 105, 11, 3,
  16, 77, 12, 4, 17, 27, 5, 2, 18, 28, 6, 1, 19, 22, 23])) (.leaf
  [25, 52, 105, 3, 16, 77, 4, 17, 27, 2, 18, 28, 1, 19, 22, 23])) (.leaf
  [25, 52, 105, 3, 16, 77, 4, 17, 27, 2, 18, 28, 1, 19, 22, 23])) (.leaf [26, 25, 52, 105, 11, 3,
  16, 77, 12, 4, 17, 27, 5, 2, 18, 28, 6, 1, 19, 22, 23])) (.leaf
  [25, 52, 105, 3, 16, 77, 4, 17, 27, 2, 18, 28, 1, 19, 22, 23])) (.leaf [26, 25, 52, 105, 11, 3,
  16, 77, 12, 4, 17, 27, 5, 2, 18, 28, 6, 1, 19, 22, 23])) (.leaf
  [25, 52, 105, 3, 16, 77, 4, 17, 27, 2, 18, 28, 1, 19, 22, 23])

/-- some of the cases -/
def real5OneCase17 : LooseTree :=
  .breaks 18948177 (.breaks 21053633 (.breaks 21065810 (.breaks 10526737 (.breaks 18948209 (.breaks
  21053457 (.breaks 24186962 (.breaks 24211649 (.breaks 10526753 (.breaks 17895617 (.breaks
  21053473 (.breaks 24211473 (.breaks 10526721 (.breaks 17895441 (.breaks 21053441 (.breaks
  24211489 (.breaks 17895457 (.breaks 24211457 (.breaks 17895425 (.leaf [25, 76, 80, 3, 13, 27, 66,
  4, 14, 28, 39, 7, 2, 16, 22, 8, 1, 17, 23, 9, 18, 10, 19]) (.leaf [25, 76, 80, 3, 13, 27, 66, 4,
  14, 28, 39, 7, 2, 16, 22, 8, 1, 17, 23, 9, 18, 10, 19])) (.leaf [25, 76, 80, 3, 13, 27, 66, 4,
  14, 28, 39, 7, 2, 16, 22, 8, 1, 17, 23, 9, 18, 10, 19])) (.leaf [25, 76, 80, 3, 13, 27, 66, 4,
  14, 28, 39, 7, 2, 16, 22, 8, 1, 17, 23, 9, 18, 10, 19])) (.leaf [25, 76, 80, 3, 13, 27, 66, 4,
  14, 28, 39, 7, 2, 16, 22, 8, 1, 17, 23, 9, 18, 10, 19])) (.leaf [25, 76, 80, 3, 13, 27, 66, 4,
  14, 28, 39, 7, 2, 16, 22, 8, 1, 17, 23, 9, 18, 10, 19])) (.leaf [25, 76, 80, 3, 13, 27, 66, 4,
  14, 28, 39, 7, 2, 16, 22, 8, 1, 17, 23, 9, 18, 10, 19])) (.leaf [25, 76, 80, 3, 13, 27, 66, 4,
  14, 28, 39, 7, 2, 16, 22, 8, 1, 17, 23, 9, 18, 10, 19])) (.leaf [25, 76, 80, 3, 13, 27, 66, 4,
  14, 28, 39, 7, 2, 16, 22, 8, 1, 17, 23, 9, 18, 10, 19])) (.leaf [25, 76, 80, 3, 13, 27, 66, 4,
  14, 28, 39, 7, 2, 16, 22, 8, 1, 17, 23, 9, 18, 10, 19])) (.leaf [25, 76, 80, 3, 13, 27, 66, 4,
  14, 28, 39, 7, 2, 16, 22, 8, 1, 17, 23, 9, 18, 10, 19])) (.leaf [25, 76, 80, 3, 13, 27, 66, 4,
  14, 28, 39, 7, 2, 16, 22, 8, 1, 17, 23, 9, 18, 10, 19])) (.leaf [25, 76, 80, 3, 13, 27, 66, 4,
  14, 28, 39, 7, 2, 16, 22, 8, 1, 17, 23, 9, 18, 10, 19])) (.leaf [25, 76, 80, 3, 13, 27, 66, 4,
  14, 28, 39, 7, 2, 16, 22, 8, 1, 17, 23, 9, 18, 10, 19])) (.leaf [25, 76, 80, 3, 13, 27, 66, 4,
  14, 28, 39, 7, 2, 16, 22, 8, 1, 17, 23, 9, 18, 10, 19])) (.leaf [25, 76, 80, 3, 13, 27, 66, 4,
  14, 28, 39, 7, 2, 16, 22, 8, 1, 17, 23, 9, 18, 10, 19])) (.leaf [25, 76, 80, 3, 13, 27, 66, 4,
  14, 28, 39, 7, 2, 16, 22, 8, 1, 17, 23, 9, 18, 10, 19])) (.leaf [25, 76, 80, 3, 13, 27, 66, 4,
  14, 28, 39, 7, 2, 16, 22, 8, 1, 17, 23, 9, 18, 10, 19])) (.leaf [25, 76, 80, 3, 13, 27, 66, 4,
  14, 28, 39, 7, 2, 16, 22, 8, 1, 17, 23, 9, 18, 10, 19])) (.leaf [25, 76, 80, 3, 13, 27, 66, 4,
  14, 28, 39, 7, 2, 16, 22, 8, 1, 17, 23, 9, 18, 10, 19])

/-- some of the cases -/
def real5OneCase18 : LooseTree :=
  .breaks 17895457 (.breaks 18948209 (.breaks 17895425 (.leaf [142, 16, 82, 17, 13, 18, 14, 19])
  (.leaf [142, 16, 82, 17, 13, 18, 14, 19])) (.leaf [142, 16, 82, 17, 13, 18, 14, 19])) (.leaf
  [142, 16, 82, 17, 13, 18, 14, 19])

/-- some of the cases -/
def real5OneCase19 : LooseTree :=
  .breaks 13713493 (.breaks 21065810 (.breaks 24186962 (.breaks 10526753 (.breaks 17895617 (.breaks
  17924293 (.breaks 21053473 (.breaks 24211473 (.breaks 10526721 (.breaks 17895441 (.breaks
  21053441 (.breaks 24211489 (.breaks 25239746 (.breaks 17895457 (.breaks 18948177 (.breaks
  18976853 (.breaks 24211457 (.breaks 17895425 (.breaks 18948209 (.breaks 26316993 (.breaks
  26316817 (.breaks 26316833 (.breaks 26316801 (.leaf [25, 76, 3, 27, 66, 4, 28, 39, 7, 2, 16, 114,
  22, 8, 1, 17, 23, 9, 63, 18, 13, 67, 10, 19, 14, 40, 41, 42, 43]) (.leaf [25, 76, 3, 27, 66, 4,
  28, 39, 7, 2, 16, 114, 22, 8, 1, 17, 23, 9, 63, 18, 13, 67, 10, 19, 14, 40, 41, 42, 43])) (.leaf
  [25, 76, 3, 27, 66, 4, 28, 39, 7, 2, 16, 114, 22, 8, 1, 17, 23, 9, 63, 18, 13, 67, 10, 19, 14,
  40, 41, 42, 43])) (.leaf [25, 76, 3, 27, 66, 4, 28, 39, 7, 2, 16, 114, 22, 8, 1, 17, 23, 9, 63,
  18, 13, 67, 10, 19, 14, 40, 41, 42, 43])) (.leaf [25, 76, 3, 27, 66, 4, 28, 39, 7, 2, 16, 114,
  22, 8, 1, 17, 23, 9, 63, 18, 13, 67, 10, 19, 14, 40, 41, 42, 43])) (.leaf [25, 76, 3, 27, 66, 4,
  28, 39, 7, 2, 16, 114, 22, 8, 1, 17, 23, 9, 63, 18, 13, 67, 10, 19, 14, 40, 41, 42, 43])) (.leaf
  [25, 76, 3, 27, 66, 4, 28, 39, 7, 2, 16, 114, 22, 8, 1, 17, 23, 9, 63, 18, 13, 67, 10, 19, 14,
  40, 41, 42, 43])) (.leaf [25, 76, 3, 27, 66, 4, 28, 39, 7, 2, 16, 114, 22, 8, 1, 17, 23, 9, 63,
  18, 13, 67, 10, 19, 14, 40, 41, 42, 43])) (.leaf [25, 76, 3, 27, 66, 4, 28, 39, 7, 2, 16, 114,
  22, 8, 1, 17, 23, 9, 63, 18, 13, 67, 10, 19, 14, 40, 41, 42, 43])) (.leaf [25, 76, 3, 27, 66, 4,
  28, 39, 7, 2, 16, 114, 22, 8, 1, 17, 23, 9, 63, 18, 13, 67, 10, 19, 14, 40, 41, 42, 43])) (.leaf
  [25, 76, 3, 27, 66, 4, 28, 39, 7, 2, 16, 114, 22, 8, 1, 17, 23, 9, 63, 18, 13, 67, 10, 19, 14,
  40, 41, 42, 43])) (.leaf [25, 76, 3, 27, 66, 4, 28, 39, 7, 2, 16, 114, 22, 8, 1, 17, 23, 9, 63,
  18, 13, 67, 10, 19, 14, 40, 41, 42, 43])) (.leaf [25, 76, 3, 27, 66, 4, 28, 39, 7, 2, 16, 114,
  22, 8, 1, 17, 23, 9, 63, 18, 13, 67, 10, 19, 14, 40, 41, 42, 43])) (.leaf [25, 76, 3, 27, 66, 4,
  28, 39, 7, 2, 16, 114, 22, 8, 1, 17, 23, 9, 63, 18, 13, 67, 10, 19, 14, 40, 41, 42, 43])) (.leaf
  [25, 76, 3, 27, 66, 4, 28, 39, 7, 2, 16, 114, 22, 8, 1, 17, 23, 9, 63, 18, 13, 67, 10, 19, 14,
  40, 41, 42, 43])) (.leaf [25, 76, 3, 27, 66, 4, 28, 39, 7, 2, 16, 114, 22, 8, 1, 17, 23, 9, 63,
  18, 13, 67, 10, 19, 14, 40, 41, 42, 43])) (.leaf [25, 76, 3, 27, 66, 4, 28, 39, 7, 2, 16, 114,
  22, 8, 1, 17, 23, 9, 63, 18, 13, 67, 10, 19, 14, 40, 41, 42, 43])) (.leaf [25, 76, 3, 27, 66, 4,
  28, 39, 7, 2, 16, 114, 22, 8, 1, 17, 23, 9, 63, 18, 13, 67, 10, 19, 14, 40, 41, 42, 43])) (.leaf
  [25, 76, 63, 3, 13, 67, 27, 66, 4, 14, 28, 39, 7, 40, 2, 16, 22, 8, 41, 1, 17, 23, 9, 42, 18, 10,
  43, 19])) (.leaf [25, 76, 3, 27, 66, 4, 28, 39, 7, 2, 16, 114, 22, 8, 1, 17, 23, 9, 63, 18, 13,
  67, 10, 19, 14, 40, 41, 42, 43])) (.leaf [25, 76, 3, 27, 66, 4, 28, 39, 7, 2, 16, 114, 22, 8, 1,
  17, 23, 9, 63, 18, 13, 67, 10, 19, 14, 40, 41, 42, 43])) (.leaf [25, 76, 63, 3, 13, 67, 27, 66,
  4, 14, 28, 39, 7, 40, 2, 16, 22, 8, 41, 1, 17, 23, 9, 42, 18, 10, 43, 19])) (.leaf [25, 76, 63,
  3, 13, 67, 27, 66, 4, 14, 28, 39, 7, 40, 2, 16, 22, 8, 41, 1, 17, 23, 9, 42, 18, 10, 43, 19]))
  (.leaf [25, 76, 63, 3, 13, 67, 27, 66, 4, 14, 28, 39, 7, 40, 2, 16, 22, 8, 41, 1, 17, 23, 9, 42,
  18, 10, 43, 19])

/-- some of the cases -/
def real5OneCase20 : LooseTree :=
  .breaks 13713493 (.breaks 10526913 (.breaks 21053633 (.breaks 21065810 (.breaks 10526737 (.breaks
  21053457 (.breaks 24186962 (.breaks 24211649 (.breaks 10526753 (.breaks 17895617 (.breaks
  17899717 (.breaks 21053473 (.breaks 24211473 (.breaks 10526721 (.breaks 17895441 (.breaks
  18972866 (.breaks 21053441 (.breaks 24211489 (.breaks 17895457 (.breaks 24211457 (.breaks
  25264209 (.breaks 25268309 (.breaks 17895425 (.breaks 26316993 (.breaks 26316817 (.breaks
  26316833 (.breaks 26316801 (.leaf [25, 76, 3, 27, 66, 4, 28, 39, 7, 2, 16, 82, 22, 8, 1, 17, 34,
  23, 9, 18, 10, 24, 58, 19, 40, 41, 42, 43]) (.leaf [25, 76, 3, 27, 66, 4, 28, 39, 7, 2, 16, 82,
  22, 8, 1, 17, 34, 23, 9, 18, 10, 24, 58, 19, 40, 41, 42, 43])) (.leaf [25, 76, 3, 27, 66, 4, 28,
  39, 7, 2, 16, 82, 22, 8, 1, 17, 34, 23, 9, 18, 10, 24, 58, 19, 40, 41, 42, 43])) (.leaf [25, 76,
  3, 27, 66, 4, 28, 39, 7, 2, 16, 82, 22, 8, 1, 17, 34, 23, 9, 18, 10, 24, 58, 19, 40, 41, 42,
  43])) (.leaf [25, 76, 3, 27, 66, 4, 28, 39, 7, 2, 16, 82, 22, 8, 1, 17, 34, 23, 9, 18, 10, 24,
  58, 19, 40, 41, 42, 43])) (.leaf [25, 76, 3, 27, 66, 4, 28, 39, 7, 2, 16, 82, 22, 8, 1, 17, 13,
  34, 23, 9, 18, 14, 10, 24, 58, 19, 40, 41, 42, 43])) (.leaf [25, 76, 3, 27, 66, 4, 28, 39, 7, 2,
  16, 82, 22, 8, 1, 17, 34, 23, 9, 18, 10, 24, 58, 19, 40, 41, 42, 43])) (.leaf [25, 76, 3, 27, 66,
  4, 28, 39, 7, 2, 16, 82, 22, 8, 1, 17, 34, 23, 9, 18, 10, 24, 58, 19, 40, 41, 42, 43])) (.leaf
  [25, 76, 3, 27, 66, 4, 28, 39, 7, 2, 16, 82, 22, 8, 1, 17, 34, 23, 9, 18, 10, 24, 58, 19, 40, 41,
  42, 43])) (.leaf [25, 76, 3, 27, 66, 4, 28, 39, 7, 2, 16, 82, 22, 8, 1, 17, 13, 34, 23, 9, 18,
  14, 10, 24, 58, 19, 40, 41, 42, 43])) (.leaf [25, 76, 3, 27, 66, 4, 28, 39, 7, 2, 16, 82, 22, 8,
  1, 17, 34, 23, 9, 18, 10, 24, 58, 19, 40, 41, 42, 43])) (.leaf [25, 76, 3, 27, 66, 4, 28, 39, 7,
  2, 16, 82, 22, 8, 1, 17, 34, 23, 9, 18, 10, 24, 58, 19, 40, 41, 42, 43])) (.leaf [25, 76, 3, 27,
  66, 4, 28, 39, 7, 2, 16, 82, 22, 8, 1, 17, 13, 34, 23, 9, 18, 14, 10, 58, 19, 40, 41, 42, 43]))
  (.leaf [25, 76, 3, 27, 66, 4, 28, 39, 7, 2, 16, 82, 22, 8, 1, 17, 13, 34, 23, 9, 18, 14, 10, 24,
  58, 19, 40, 41, 42, 43])) (.leaf [25, 76, 3, 27, 66, 4, 28, 39, 7, 2, 16, 82, 22, 8, 1, 17, 34,
  23, 9, 18, 10, 24, 58, 19, 40, 41, 42, 43])) (.leaf [25, 76, 3, 27, 66, 4, 28, 39, 7, 2, 16, 82,
  22, 8, 1, 17, 34, 23, 9, 18, 10, 24, 58, 19, 40, 41, 42, 43])) (.leaf [25, 76, 3, 27, 66, 4, 28,
  39, 7, 2, 16, 82, 22, 8, 1, 17, 34, 23, 9, 18, 10, 24, 58, 19, 40, 41, 42, 43])) (.leaf [25, 76,
  3, 27, 66, 4, 28, 39, 7, 2, 16, 82, 22, 8, 1, 17, 13, 34, 23, 9, 18, 14, 10, 24, 58, 19, 40, 41,
  42, 43])) (.leaf [25, 76, 3, 27, 66, 4, 28, 39, 7, 2, 16, 82, 22, 8, 1, 17, 13, 34, 23, 9, 18,
  14, 10, 24, 58, 19, 40, 41, 42, 43])) (.leaf [25, 76, 3, 27, 66, 4, 28, 39, 7, 2, 16, 82, 22, 8,
  1, 17, 34, 23, 9, 18, 10, 24, 58, 19, 40, 41, 42, 43])) (.leaf [25, 76, 3, 27, 66, 4, 28, 39, 7,
  2, 16, 82, 22, 8, 1, 17, 34, 23, 9, 18, 10, 24, 58, 19, 40, 41, 42, 43])) (.leaf [25, 76, 3, 27,
  66, 4, 28, 39, 7, 2, 16, 82, 22, 8, 1, 17, 13, 34, 23, 9, 18, 14, 10, 24, 58, 19, 40, 41, 42,
  43])) (.leaf [25, 76, 3, 27, 66, 4, 28, 39, 7, 2, 16, 82, 22, 8, 1, 17, 34, 23, 9, 18, 10, 24,
  58, 19, 40, 41, 42, 43])) (.leaf [25, 76, 3, 27, 66, 4, 28, 39, 7, 2, 16, 82, 22, 8, 1, 17, 34,
  23, 9, 18, 10, 24, 58, 19, 40, 41, 42, 43])) (.leaf [25, 76, 3, 27, 66, 4, 28, 39, 7, 2, 16, 82,
  22, 8, 1, 17, 13, 34, 23, 9, 18, 14, 10, 24, 58, 19, 40, 41, 42, 43])) (.leaf [25, 76, 3, 27, 66,
  4, 28, 39, 7, 2, 16, 82, 22, 8, 1, 17, 34, 23, 9, 18, 10, 24, 58, 19, 40, 41, 42, 43])) (.leaf
  [25, 76, 3, 27, 66, 4, 28, 39, 7, 2, 16, 82, 22, 8, 1, 17, 34, 23, 9, 18, 10, 24, 58, 19, 40, 41,
  42, 43])) (.leaf [25, 76, 3, 27, 66, 4, 28, 39, 7, 2, 16, 82, 22, 8, 1, 17, 13, 34, 23, 9, 18,
  14, 10, 24, 58, 19, 40, 41, 42, 43])

/-- some of the cases -/
def real5OneCase21 : LooseTree :=
  .breaks 13713493 (.breaks 21065810 (.breaks 21053457 (.breaks 24186962 (.breaks 24211649 (.breaks
  17895617 (.breaks 17899717 (.breaks 21053473 (.breaks 24211473 (.breaks 17895441 (.breaks
  18948177 (.breaks 18976853 (.breaks 21053441 (.breaks 24211489 (.breaks 17895457 (.breaks
  18948209 (.breaks 24211457 (.breaks 26312901 (.breaks 17895425 (.breaks 25264209 (.leaf [76, 27,
  66, 28, 39, 7, 16, 82, 22, 8, 17, 13, 67, 23, 9, 18, 14, 10, 68, 19, 24]) (.leaf [76, 27, 66, 28,
  39, 7, 16, 82, 22, 8, 17, 13, 67, 23, 9, 18, 14, 10, 68, 19, 24])) (.leaf [25, 76, 3, 27, 66, 4,
  28, 39, 7, 2, 16, 82, 22, 8, 1, 17, 67, 23, 9, 18, 10, 68, 19, 24])) (.leaf [76, 27, 66, 28, 39,
  7, 16, 82, 22, 8, 17, 13, 67, 23, 9, 18, 14, 10, 68, 19, 24])) (.leaf [76, 27, 66, 28, 39, 7, 16,
  82, 22, 8, 17, 13, 67, 23, 9, 18, 14, 10, 68, 19, 24])) (.leaf [76, 27, 66, 28, 39, 7, 16, 82,
  22, 8, 17, 13, 67, 23, 9, 18, 14, 10, 68, 19, 24])) (.leaf [25, 76, 3, 27, 66, 4, 28, 39, 7, 2,
  16, 82, 22, 8, 1, 17, 67, 23, 9, 18, 10, 68, 19, 24])) (.leaf [76, 27, 66, 28, 39, 7, 16, 82, 22,
  8, 17, 13, 67, 23, 9, 18, 14, 10, 68, 19, 24])) (.leaf [76, 27, 66, 28, 39, 7, 16, 82, 22, 8, 17,
  13, 67, 23, 9, 18, 14, 10, 68, 19, 24])) (.leaf [76, 68, 27, 66, 24, 28, 39, 7, 16, 82, 22, 8,
  17, 13, 23, 9, 18, 14, 10, 19])) (.leaf [76, 27, 66, 28, 39, 7, 16, 82, 22, 8, 17, 13, 67, 23, 9,
  18, 14, 10, 68, 19, 24])) (.leaf [25, 76, 3, 27, 66, 4, 28, 39, 7, 2, 16, 82, 22, 8, 1, 17, 67,
  23, 9, 18, 10, 68, 19, 24])) (.leaf [76, 27, 66, 28, 39, 7, 16, 82, 22, 8, 17, 13, 67, 23, 9, 18,
  14, 10, 68, 19, 24])) (.leaf [76, 27, 66, 28, 39, 7, 16, 82, 22, 8, 17, 13, 67, 23, 9, 18, 14,
  10, 68, 19, 24])) (.leaf [25, 76, 68, 3, 27, 66, 24, 4, 28, 39, 7, 2, 16, 22, 8, 1, 17, 23, 9,
  18, 10, 19])) (.leaf [25, 76, 3, 27, 66, 4, 28, 39, 7, 2, 16, 82, 22, 8, 1, 17, 67, 23, 9, 18,
  10, 68, 19, 24])) (.leaf [76, 27, 66, 28, 39, 7, 16, 82, 22, 8, 17, 13, 67, 23, 9, 18, 14, 10,
  68, 19, 24])) (.leaf [25, 76, 68, 3, 27, 66, 24, 4, 28, 39, 7, 2, 16, 22, 8, 1, 17, 23, 9, 18,
  10, 19])) (.leaf [76, 27, 66, 28, 39, 7, 16, 82, 22, 8, 17, 13, 67, 23, 9, 18, 14, 10, 68, 19,
  24])) (.leaf [25, 76, 68, 3, 27, 66, 24, 4, 28, 39, 7, 2, 16, 82, 22, 8, 1, 17, 13, 23, 9, 18,
  14, 10, 19])) (.leaf [25, 76, 68, 3, 27, 66, 24, 4, 28, 39, 7, 2, 16, 82, 22, 8, 1, 17, 13, 23,
  9, 18, 14, 10, 19])

/-- some of the cases -/
def real5OneCase22 : LooseTree :=
  .breaks 13713491 (.breaks 21053521 (.breaks 10526737 (.breaks 21041234 (.breaks 21053633 (.breaks
  10526753 (.breaks 17895617 (.breaks 17899717 (.breaks 17920082 (.breaks 21053457 (.breaks
  10526721 (.breaks 17895441 (.breaks 18948177 (.breaks 21053473 (.breaks 24211649 (.breaks
  17895457 (.breaks 18948209 (.breaks 21053441 (.breaks 24211473 (.breaks 17895425 (.breaks
  24211489 (.breaks 24211457 (.leaf [25, 124, 3, 111, 4, 50, 27, 2, 16, 82, 73, 28, 1, 17, 13, 22,
  7, 18, 14, 23, 8, 19, 9, 10]) (.leaf [25, 124, 3, 111, 4, 50, 27, 2, 16, 82, 73, 28, 1, 17, 13,
  22, 7, 18, 14, 23, 8, 19, 9, 10])) (.leaf [25, 124, 3, 111, 4, 50, 27, 2, 16, 82, 73, 28, 1, 17,
  13, 22, 7, 18, 14, 23, 8, 19, 9, 10])) (.leaf [25, 124, 3, 111, 4, 50, 27, 2, 16, 82, 73, 28, 1,
  17, 13, 22, 7, 18, 14, 23, 8, 19, 9, 10])) (.leaf [25, 124, 3, 111, 4, 50, 27, 2, 16, 82, 73, 28,
  1, 17, 13, 22, 7, 18, 14, 23, 8, 19, 9, 10])) (.leaf [25, 124, 3, 111, 4, 50, 27, 2, 16, 82, 73,
  28, 1, 17, 13, 22, 7, 18, 14, 23, 8, 19, 9, 10])) (.leaf [25, 124, 3, 111, 4, 50, 27, 2, 16, 82,
  73, 28, 1, 17, 13, 22, 7, 18, 14, 23, 8, 19, 9, 10])) (.leaf [25, 124, 3, 111, 4, 50, 27, 2, 16,
  82, 73, 28, 1, 17, 13, 22, 7, 18, 14, 23, 8, 19, 9, 10])) (.leaf [25, 124, 3, 111, 4, 50, 27, 2,
  16, 82, 73, 28, 1, 17, 13, 22, 7, 18, 14, 23, 8, 19, 9, 10])) (.leaf [25, 124, 3, 111, 4, 50, 27,
  2, 16, 82, 73, 28, 1, 17, 13, 22, 7, 18, 14, 23, 8, 19, 9, 10])) (.leaf [25, 124, 3, 111, 4, 50,
  27, 2, 16, 82, 73, 28, 1, 17, 13, 22, 7, 18, 14, 23, 8, 19, 9, 10])) (.leaf [25, 124, 3, 111, 4,
  50, 27, 2, 16, 82, 73, 28, 1, 17, 13, 22, 7, 18, 14, 23, 8, 19, 9, 10])) (.leaf [25, 124, 3, 111,
  4, 50, 27, 2, 16, 82, 73, 28, 1, 17, 13, 22, 7, 18, 14, 23, 8, 19, 9, 10])) (.leaf [25, 124, 3,
  111, 4, 50, 27, 2, 16, 82, 73, 28, 1, 17, 13, 22, 7, 18, 14, 23, 8, 19, 9, 10])) (.leaf [25, 124,
  3, 111, 4, 50, 27, 2, 16, 82, 73, 28, 1, 17, 13, 22, 7, 18, 14, 23, 8, 19, 9, 10])) (.leaf [25,
  124, 3, 111, 4, 50, 27, 2, 16, 82, 73, 28, 1, 17, 13, 22, 7, 18, 14, 23, 8, 19, 9, 10])) (.leaf
  [25, 124, 3, 111, 4, 50, 27, 2, 16, 82, 73, 28, 1, 17, 13, 22, 7, 18, 14, 23, 8, 19, 9, 10]))
  (.leaf [25, 124, 3, 111, 4, 50, 27, 2, 16, 82, 73, 28, 1, 17, 13, 22, 7, 18, 14, 23, 8, 19, 9,
  10])) (.leaf [25, 124, 3, 111, 4, 50, 27, 2, 16, 82, 73, 28, 1, 17, 13, 22, 7, 18, 14, 23, 8, 19,
  9, 10])) (.leaf [26, 25, 124, 11, 3, 111, 12, 4, 50, 27, 5, 2, 16, 82, 73, 28, 6, 1, 17, 13, 22,
  7, 18, 14, 23, 8, 19, 9, 10])) (.leaf [25, 124, 3, 111, 4, 50, 27, 2, 16, 82, 73, 28, 1, 17, 13,
  22, 7, 18, 14, 23, 8, 19, 9, 10])) (.leaf [26, 25, 124, 11, 3, 111, 12, 4, 50, 27, 5, 2, 16, 82,
  73, 28, 6, 1, 17, 13, 22, 7, 18, 14, 23, 8, 19, 9, 10])) (.leaf [26, 25, 124, 11, 3, 111, 12, 4,
  50, 27, 5, 2, 16, 82, 73, 28, 6, 1, 17, 13, 22, 7, 18, 14, 23, 8, 19, 9, 10])

/-- some of the cases -/
def real5OneCase23 : LooseTree :=
  .cases [] 20 (.cases [] 17 (.breaks 13713493 (.breaks 21024851 (.cycle 1 [76, 144]) (.leaf [25,
  76, 120, 80, 3, 21, 13, 50, 27, 4, 16, 14, 28, 20, 2, 17, 22, 7, 1, 18, 23, 8, 19, 9, 10]))
  (.leaf [25, 76, 120, 80, 3, 21, 13, 50, 27, 4, 16, 14, 28, 20, 2, 17, 22, 7, 1, 18, 23, 8, 19, 9,
  10])) (.cases [] 24 (.cases [] 7 (.breaks 13713493 (.breaks 21024851 (.cycle 1 [76, 144]) (.leaf
  [76, 120, 21, 50, 27, 16, 28, 20, 17, 22, 7, 86, 18, 23, 8, 63, 24, 19, 13, 67, 9, 14, 10, 40,
  41, 42, 43])) (.leaf [25, 76, 120, 3, 21, 50, 27, 4, 16, 28, 20, 2, 17, 22, 7, 86, 1, 18, 23, 8,
  63, 19, 13, 67, 9, 14, 10, 40, 41, 42, 43])) (.breaks 13713493 (.breaks 21024851 (.cycle 1
  [76, 144]) (.leaf [26, 25, 76, 120, 11, 3, 21, 50, 27, 12, 4, 16, 28, 20, 5, 2, 17, 22, 75, 7, 6,
  1, 18, 13, 34, 23, 8, 19, 14, 9, 24, 10])) (.leaf [26, 25, 76, 120, 11, 3, 21, 50, 27, 12, 4, 16,
  28, 20, 5, 2, 17, 22, 75, 7, 6, 1, 18, 13, 34, 67, 23, 8, 19, 14, 9, 24, 40, 10, 41, 42, 43])))
  (.breaks 13713493 (.breaks 21024851 (.cycle 1 [76, 144]) (.leaf
  [83, 75, 7, 13, 67, 8, 14, 9, 40, 10, 41, 42, 43])) (.leaf
  [83, 75, 7, 13, 67, 8, 14, 9, 40, 10, 41, 42, 43])))) (.cases [] 24 (.breaks 13713493 (.breaks
  21024851 (.cycle 1 [76, 144]) (.leaf [25, 76, 3, 50, 27, 4, 16, 82, 28, 2, 17, 92, 22, 1, 18, 23,
  7, 86, 19, 8, 24, 9, 10])) (.leaf [25, 76, 92, 3, 50, 27, 7, 86, 4, 16, 28, 8, 24, 2, 17, 22, 9,
  1, 18, 23, 10, 19])) (.cases [] 34 (.breaks 13713493 (.breaks 21024851 (.cycle 1 [76, 144])
  (.leaf [25, 76, 83, 3, 50, 27, 7, 100, 4, 16, 28, 8, 40, 2, 17, 22, 9, 41, 1, 18, 23, 10, 42, 19,
  43])) (.leaf [25, 76, 83, 3, 50, 27, 7, 100, 4, 16, 28, 8, 40, 2, 17, 22, 9, 41, 1, 18, 23, 10,
  42, 19, 43])) (.breaks 13713493 (.breaks 21024851 (.cycle 1 [76, 144]) (.leaf [25, 76, 132, 3,
  50, 27, 7, 4, 16, 28, 8, 2, 17, 22, 9, 1, 18, 23, 10, 19])) (.leaf [25, 76, 132, 3, 50, 27, 7, 4,
  16, 28, 8, 2, 17, 22, 9, 1, 18, 23, 10, 19]))))

/-- some of the cases -/
def real5OneCase24 : LooseTree :=
  .breaks 18944085 (.breaks 17895617 (.breaks 21053633 (.breaks 21065810 (.breaks 10526737 (.breaks
  17895441 (.breaks 21053457 (.breaks 24211649 (.breaks 10526753 (.breaks 17895457 (.breaks
  21053473 (.breaks 24211473 (.breaks 10526721 (.breaks 17895425 (.breaks 21053441 (.breaks
  24211489 (.breaks 24211457 (.leaf [25, 76, 105, 3, 16, 27, 66, 4, 17, 28, 7, 2, 18, 22, 8, 1, 19,
  23, 9, 10]) (.leaf [25, 76, 105, 3, 16, 27, 66, 4, 17, 28, 7, 2, 18, 22, 8, 1, 19, 23, 9, 10]))
  (.leaf [25, 76, 105, 3, 16, 27, 66, 4, 17, 28, 7, 2, 18, 22, 8, 1, 19, 23, 9, 10])) (.leaf [25,
  76, 105, 3, 16, 27, 66, 4, 17, 28, 7, 2, 18, 22, 8, 1, 19, 23, 9, 10])) (.leaf [25, 76, 105, 3,
  16, 27, 66, 4, 17, 28, 7, 2, 18, 22, 8, 1, 19, 23, 9, 10])) (.leaf [25, 76, 105, 3, 16, 27, 66,
  4, 17, 28, 7, 2, 18, 22, 8, 1, 19, 23, 9, 10])) (.leaf [25, 76, 105, 3, 16, 27, 66, 4, 17, 28, 7,
  2, 18, 22, 8, 1, 19, 23, 9, 10])) (.leaf [25, 76, 105, 3, 16, 27, 66, 4, 17, 28, 7, 2, 18, 22, 8,
  1, 19, 23, 9, 10])) (.leaf [25, 76, 105, 3, 16, 27, 66, 4, 17, 28, 7, 2, 18, 22, 8, 1, 19, 23, 9,
  10])) (.leaf [25, 76, 105, 3, 16, 27, 66, 4, 17, 28, 7, 2, 18, 22, 8, 1, 19, 23, 9, 10])) (.leaf
  [25, 76, 105, 3, 16, 27, 66, 4, 17, 28, 7, 2, 18, 22, 8, 1, 19, 23, 9, 10])) (.leaf [25, 76, 105,
  3, 16, 27, 66, 4, 17, 28, 7, 2, 18, 22, 8, 1, 19, 23, 9, 10])) (.leaf [25, 76, 105, 3, 16, 27,
  66, 4, 17, 28, 7, 2, 18, 22, 8, 1, 19, 23, 9, 10])) (.leaf [25, 76, 105, 3, 16, 27, 66, 4, 17,
  28, 7, 2, 18, 22, 8, 1, 19, 23, 9, 10])) (.leaf [25, 76, 105, 3, 16, 27, 66, 4, 17, 28, 7, 2, 18,
  22, 8, 1, 19, 23, 9, 10])) (.leaf [25, 76, 105, 3, 16, 27, 66, 4, 17, 28, 7, 2, 18, 22, 8, 1, 19,
  23, 9, 10])) (.leaf [25, 76, 105, 3, 16, 27, 66, 4, 17, 28, 7, 2, 18, 22, 8, 1, 19, 23, 9, 10]))
  (.leaf [25, 76, 105, 3, 16, 27, 66, 4, 17, 28, 7, 2, 18, 22, 8, 1, 19, 23, 9, 10])

/-- some of the cases -/
def real5OneCase25 : LooseTree :=
  .cases [] 40 (.breaks 24170693 (.breaks 25235541 (.breaks 13684817 (.breaks 17895617 (.breaks
  17895441 (.breaks 17895457 (.breaks 17895425 (.leaf [15, 142, 0, 16, 17, 18, 19]) (.leaf
  [25, 15, 142, 3, 0, 16, 4, 17, 2, 18, 1, 19])) (.leaf
  [25, 15, 142, 3, 0, 16, 4, 17, 2, 18, 1, 19])) (.leaf
  [25, 15, 142, 3, 0, 16, 4, 17, 2, 18, 1, 19])) (.leaf
  [25, 15, 142, 3, 0, 16, 4, 17, 2, 18, 1, 19])) (.leaf
  [25, 15, 142, 3, 0, 16, 4, 17, 2, 18, 1, 19])) (.leaf
  [25, 15, 142, 3, 0, 16, 4, 17, 2, 18, 1, 19])) (.leaf
  [25, 15, 142, 3, 0, 16, 4, 17, 2, 18, 1, 19])) (.cases [] 23 (.breaks 1089621 (.breaks 24170693
  (.breaks 10526913 (.breaks 13684817 (.breaks 13701205 (.breaks 10526737 (.breaks 17895617
  (.breaks 17899717 (.breaks 17924293 (.breaks 10526753 (.breaks 17895441 (.breaks 18948177
  (.breaks 25264209 (.breaks 10526721 (.breaks 17895457 (.breaks 18948209 (.breaks 17895425 (.leaf
  [25, 15, 3, 0, 57, 4, 16, 82, 114, 2, 17, 13, 24, 1, 18, 14, 19]) (.leaf [26, 25, 15, 11, 3, 0,
  57, 12, 4, 16, 82, 114, 5, 2, 17, 13, 24, 6, 1, 18, 14, 19])) (.leaf [26, 25, 15, 11, 3, 0, 57,
  12, 4, 16, 82, 5, 2, 17, 13, 6, 1, 18, 14, 19])) (.leaf [26, 25, 15, 11, 3, 0, 57, 12, 4, 16, 82,
  114, 5, 2, 17, 13, 24, 6, 1, 18, 14, 19])) (.leaf [26, 25, 15, 11, 3, 0, 57, 12, 4, 16, 82, 5, 2,
  17, 13, 6, 1, 18, 14, 19])) (.leaf [26, 25, 15, 11, 3, 0, 57, 12, 4, 16, 82, 5, 2, 17, 13, 6, 1,
  18, 14, 19])) (.leaf [26, 25, 15, 11, 3, 0, 57, 12, 4, 16, 82, 5, 2, 17, 13, 6, 1, 18, 14, 19]))
  (.leaf [26, 25, 15, 11, 3, 0, 57, 12, 4, 16, 82, 114, 5, 2, 17, 13, 24, 6, 1, 18, 14, 19]))
  (.leaf [26, 25, 15, 11, 3, 0, 57, 12, 4, 16, 82, 5, 2, 17, 13, 6, 1, 18, 14, 19])) (.leaf [26,
  25, 15, 11, 3, 0, 57, 12, 4, 16, 82, 5, 2, 17, 13, 6, 1, 18, 14, 19])) (.leaf [26, 25, 15, 11, 3,
  0, 57, 12, 4, 16, 82, 5, 2, 17, 13, 6, 1, 18, 14, 19])) (.leaf [26, 25, 15, 11, 3, 0, 57, 12, 4,
  16, 82, 114, 5, 2, 17, 13, 24, 6, 1, 18, 14, 19])) (.leaf [26, 25, 15, 11, 3, 0, 57, 12, 4, 16,
  82, 5, 2, 17, 13, 6, 1, 18, 14, 19])) (.leaf [26, 25, 15, 11, 3, 0, 57, 12, 4, 16, 82, 114, 5, 2,
  17, 13, 24, 6, 1, 18, 14, 19])) (.leaf [26, 25, 15, 11, 3, 0, 57, 12, 4, 16, 82, 5, 2, 17, 13, 6,
  1, 18, 14, 19])) (.leaf [26, 25, 15, 11, 3, 0, 57, 12, 4, 16, 82, 5, 2, 17, 13, 6, 1, 18, 14,
  19])) (.leaf [26, 25, 15, 11, 3, 0, 57, 12, 4, 16, 82, 114, 5, 2, 17, 13, 24, 6, 1, 18, 14, 19]))
  (.leaf [26, 25, 15, 11, 3, 0, 57, 12, 4, 16, 82, 5, 2, 17, 13, 6, 1, 18, 14, 19])) (.breaks
  24170693 (.breaks 13684817 (.breaks 17895617 (.breaks 17924293 (.breaks 17895441 (.breaks
  25264209 (.breaks 17895457 (.breaks 17895425 (.leaf [105, 15, 0, 16, 114, 17, 24, 18, 19]) (.leaf
  [105, 15, 0, 16, 114, 17, 24, 18, 19])) (.leaf [105, 15, 0, 16, 114, 17, 24, 18, 19])) (.leaf
  [105, 15, 0, 16, 114, 17, 24, 18, 19])) (.leaf [105, 15, 0, 16, 114, 17, 24, 18, 19])) (.leaf
  [105, 15, 0, 16, 114, 17, 24, 18, 19])) (.leaf [105, 15, 0, 16, 114, 17, 24, 18, 19])) (.leaf
  [105, 15, 0, 16, 114, 17, 24, 18, 19])) (.leaf [105, 15, 0, 16, 114, 17, 24, 18, 19])))

/-- some of the cases -/
def real5OneCase26 : LooseTree :=
  .cases [] 4 (.breaks 21024965 (.breaks 10502226 (.breaks 13684817 (.breaks 13725781 (.breaks
  4210881 (.breaks 24186962 (.breaks 24211649 (.breaks 4210705 (.breaks 17895617 (.breaks 17899717
  (.breaks 24211473 (.breaks 4210721 (.breaks 17895441 (.breaks 18948177 (.breaks 24211489 (.breaks
  4210689 (.breaks 17895457 (.breaks 18948209 (.breaks 24211457 (.breaks 17895425 (.leaf [25, 78,
  29, 0, 52, 11, 39, 7, 12, 16, 82, 8, 5, 17, 13, 9, 6, 18, 14, 10, 19]) (.leaf [25, 78, 29, 0, 52,
  11, 39, 7, 12, 16, 82, 8, 5, 17, 13, 9, 6, 18, 14, 10, 19])) (.leaf [25, 78, 29, 0, 52, 11, 39,
  7, 12, 16, 82, 8, 5, 17, 13, 9, 6, 18, 14, 10, 19])) (.leaf [25, 78, 29, 0, 52, 11, 39, 7, 12,
  16, 82, 8, 5, 17, 13, 9, 6, 18, 14, 10, 19])) (.leaf [25, 78, 29, 0, 52, 11, 39, 7, 12, 16, 82,
  8, 5, 17, 13, 9, 6, 18, 14, 10, 19])) (.leaf [25, 78, 29, 0, 52, 11, 39, 7, 12, 16, 82, 8, 5, 17,
  13, 9, 6, 18, 14, 10, 19])) (.leaf [25, 78, 29, 0, 52, 11, 39, 7, 12, 16, 82, 8, 5, 17, 13, 9, 6,
  18, 14, 10, 19])) (.leaf [25, 78, 29, 0, 52, 11, 39, 7, 12, 16, 82, 8, 5, 17, 13, 9, 6, 18, 14,
  10, 19])) (.leaf [25, 78, 29, 0, 52, 11, 39, 7, 12, 16, 82, 8, 5, 17, 13, 9, 6, 18, 14, 10, 19]))
  (.leaf [25, 78, 29, 0, 52, 11, 39, 7, 12, 16, 82, 8, 5, 17, 13, 9, 6, 18, 14, 10, 19])) (.leaf
  [25, 78, 29, 0, 52, 11, 39, 7, 12, 16, 82, 8, 5, 17, 13, 9, 6, 18, 14, 10, 19])) (.leaf [25, 78,
  29, 0, 52, 11, 39, 7, 12, 16, 82, 8, 5, 17, 13, 9, 6, 18, 14, 10, 19])) (.leaf [25, 78, 29, 0,
  52, 11, 39, 7, 12, 16, 82, 8, 5, 17, 13, 9, 6, 18, 14, 10, 19])) (.leaf [25, 78, 29, 0, 52, 11,
  39, 7, 12, 16, 82, 8, 5, 17, 13, 9, 6, 18, 14, 10, 19])) (.leaf [25, 78, 29, 0, 52, 11, 39, 7,
  12, 16, 82, 8, 5, 17, 13, 9, 6, 18, 14, 10, 19])) (.leaf [25, 78, 29, 3, 0, 52, 11, 4, 39, 7, 12,
  2, 16, 8, 5, 1, 17, 9, 6, 18, 10, 19])) (.leaf [25, 78, 29, 0, 52, 11, 39, 7, 12, 16, 82, 8, 5,
  17, 13, 9, 6, 18, 14, 10, 19])) (.leaf [25, 78, 29, 3, 0, 52, 11, 4, 39, 7, 12, 2, 16, 82, 8, 5,
  1, 17, 13, 9, 6, 18, 14, 10, 19])) (.leaf [25, 78, 29, 0, 52, 11, 39, 7, 12, 16, 82, 8, 5, 17,
  13, 9, 6, 18, 14, 10, 19])) (.leaf [25, 78, 29, 0, 52, 11, 39, 7, 12, 16, 82, 8, 5, 17, 13, 9, 6,
  18, 14, 10, 19])) (.leaf [25, 78, 29, 3, 0, 52, 11, 4, 39, 7, 12, 2, 16, 82, 8, 5, 1, 17, 13, 9,
  6, 18, 14, 10, 19])) (.breaks 21024965 (.breaks 13725781 (.breaks 10526913 (.breaks 24186962
  (.breaks 24211649 (.breaks 10526737 (.breaks 17895617 (.breaks 17899717 (.breaks 24211473
  (.breaks 10526753 (.breaks 17895441 (.breaks 18948177 (.breaks 24211489 (.breaks 10526721
  (.breaks 17895457 (.breaks 18948209 (.breaks 24211457 (.breaks 17895425 (.leaf [26, 78, 38, 0,
  52, 3, 39, 7, 4, 16, 82, 8, 2, 17, 13, 9, 1, 18, 14, 10, 19]) (.leaf [26, 78, 38, 0, 52, 3, 39,
  7, 4, 16, 82, 8, 2, 17, 13, 9, 1, 18, 14, 10, 19])) (.leaf [26, 78, 38, 0, 52, 3, 39, 7, 4, 16,
  82, 8, 2, 17, 13, 9, 1, 18, 14, 10, 19])) (.leaf [26, 78, 38, 0, 52, 3, 39, 7, 4, 16, 82, 8, 2,
  17, 13, 9, 1, 18, 14, 10, 19])) (.leaf [26, 78, 38, 0, 52, 3, 39, 7, 4, 16, 82, 8, 2, 17, 13, 9,
  1, 18, 14, 10, 19])) (.leaf [26, 78, 38, 0, 52, 3, 39, 7, 4, 16, 82, 8, 2, 17, 13, 9, 1, 18, 14,
  10, 19])) (.leaf [26, 78, 38, 0, 52, 3, 39, 7, 4, 16, 82, 8, 2, 17, 13, 9, 1, 18, 14, 10, 19]))
  (.leaf [26, 78, 38, 0, 52, 3, 39, 7, 4, 16, 82, 8, 2, 17, 13, 9, 1, 18, 14, 10, 19])) (.leaf [26,
  78, 38, 0, 52, 3, 39, 7, 4, 16, 82, 8, 2, 17, 13, 9, 1, 18, 14, 10, 19])) (.leaf [26, 78, 38, 0,
  52, 3, 39, 7, 4, 16, 82, 8, 2, 17, 13, 9, 1, 18, 14, 10, 19])) (.leaf [26, 78, 38, 0, 52, 3, 39,
  7, 4, 16, 82, 8, 2, 17, 13, 9, 1, 18, 14, 10, 19])) (.leaf [26, 78, 38, 0, 52, 3, 39, 7, 4, 16,
  82, 8, 2, 17, 13, 9, 1, 18, 14, 10, 19])) (.leaf [26, 78, 38, 0, 52, 3, 39, 7, 4, 16, 82, 8, 2,
  17, 13, 9, 1, 18, 14, 10, 19])) (.leaf [26, 78, 38, 0, 52, 3, 39, 7, 4, 16, 82, 8, 2, 17, 13, 9,
  1, 18, 14, 10, 19])) (.leaf [26, 78, 38, 0, 52, 3, 39, 7, 4, 16, 82, 8, 2, 17, 13, 9, 1, 18, 14,
  10, 19])) (.leaf [26, 78, 38, 0, 52, 3, 39, 7, 4, 16, 82, 8, 2, 17, 13, 9, 1, 18, 14, 10, 19]))
  (.leaf [26, 78, 38, 0, 52, 3, 39, 7, 4, 16, 82, 8, 2, 17, 13, 9, 1, 18, 14, 10, 19])) (.leaf [26,
  78, 11, 38, 0, 52, 12, 3, 39, 7, 5, 4, 16, 82, 8, 6, 2, 17, 13, 9, 1, 18, 14, 10, 19])) (.leaf
  [26, 78, 11, 38, 0, 52, 12, 3, 39, 7, 5, 4, 16, 82, 8, 6, 2, 17, 13, 9, 1, 18, 14, 10, 19]))

/-- some of the cases -/
def real5OneCase27 : LooseTree :=
  .breaks 12619795 (.breaks 21024965 (.breaks 9474065 (.breaks 10526913 (.breaks 13684817 (.breaks
  13701205 (.breaks 9474177 (.breaks 10526737 (.breaks 17895617 (.breaks 17920082 (.breaks 9474193
  (.breaks 10526753 (.breaks 17895441 (.breaks 24211649 (.breaks 10526721 (.breaks 17895457
  (.breaks 24211473 (.breaks 17895425 (.breaks 24211489 (.breaks 24211457 (.leaf [25, 61, 78, 62,
  3, 0, 57, 55, 4, 16, 73, 56, 2, 17, 7, 1, 18, 8, 19, 9, 10]) (.leaf [25, 61, 78, 62, 3, 0, 57,
  55, 4, 16, 73, 56, 2, 17, 7, 1, 18, 8, 19, 9, 10])) (.leaf [25, 61, 78, 62, 3, 0, 57, 55, 4, 16,
  73, 56, 2, 17, 7, 1, 18, 8, 19, 9, 10])) (.leaf [25, 61, 78, 62, 3, 0, 57, 55, 4, 16, 82, 73, 56,
  2, 17, 13, 7, 1, 18, 14, 8, 19, 9, 10])) (.leaf [25, 61, 78, 62, 3, 0, 57, 55, 4, 16, 73, 56, 2,
  17, 7, 1, 18, 8, 19, 9, 10])) (.leaf [25, 61, 78, 62, 3, 0, 57, 55, 4, 16, 82, 73, 56, 2, 17, 13,
  7, 1, 18, 14, 8, 19, 9, 10])) (.leaf [25, 61, 78, 62, 3, 0, 57, 55, 4, 16, 73, 56, 2, 17, 7, 1,
  18, 8, 19, 9, 10])) (.leaf [25, 61, 78, 62, 3, 0, 57, 55, 4, 16, 73, 56, 2, 17, 7, 1, 18, 8, 19,
  9, 10])) (.leaf [25, 61, 78, 62, 3, 0, 57, 55, 4, 16, 82, 73, 56, 2, 17, 13, 7, 1, 18, 14, 8, 19,
  9, 10])) (.leaf [25, 61, 78, 62, 3, 0, 57, 55, 4, 16, 73, 56, 2, 17, 7, 1, 18, 8, 19, 9, 10]))
  (.leaf [25, 61, 78, 62, 3, 0, 57, 55, 4, 16, 73, 56, 2, 17, 7, 1, 18, 8, 19, 9, 10])) (.leaf [25,
  61, 78, 62, 3, 0, 57, 55, 4, 16, 73, 56, 2, 17, 7, 1, 18, 8, 19, 9, 10])) (.leaf [25, 61, 78, 62,
  3, 0, 57, 55, 4, 16, 82, 73, 56, 2, 17, 13, 7, 1, 18, 14, 8, 19, 9, 10])) (.leaf [25, 61, 78, 62,
  3, 0, 57, 55, 4, 16, 73, 56, 2, 17, 7, 1, 18, 8, 19, 9, 10])) (.leaf [25, 61, 78, 62, 3, 0, 57,
  55, 4, 16, 73, 56, 2, 17, 7, 1, 18, 8, 19, 9, 10])) (.leaf [26, 25, 61, 78, 11, 62, 3, 0, 57, 12,
  55, 4, 16, 73, 5, 56, 2, 17, 7, 6, 1, 18, 8, 19, 9, 10])) (.leaf [25, 61, 78, 62, 3, 0, 57, 55,
  4, 16, 73, 56, 2, 17, 7, 1, 18, 8, 19, 9, 10])) (.leaf [25, 61, 78, 62, 3, 0, 57, 55, 4, 16, 73,
  56, 2, 17, 7, 1, 18, 8, 19, 9, 10])) (.leaf [25, 128, 78, 55, 3, 0, 57, 56, 4, 16, 73, 2, 17, 7,
  1, 18, 8, 19, 9, 10])) (.leaf [26, 25, 61, 78, 11, 62, 3, 0, 57, 12, 55, 4, 16, 73, 5, 56, 2, 17,
  7, 6, 1, 18, 8, 19, 9, 10])) (.leaf [25, 128, 78, 55, 3, 0, 57, 56, 4, 16, 73, 2, 17, 7, 1, 18,
  8, 19, 9, 10])

/-- some of the cases -/
def real5OneCase28 : LooseTree :=
  .cases [] 42 (.breaks 13725781 (.breaks 24170579 (.cycle 1 [52, 137]) (.cycle 1 [57, 73, 137]))
  (.cycle 1 [57, 73, 137])) (.cases [] 43 (.breaks 21024965 (.breaks 13684817 (.breaks 13701203
  (.breaks 17895505 (.breaks 10526721 (.breaks 17895617 (.breaks 17899717 (.breaks 17920082
  (.breaks 17895441 (.breaks 18948177 (.breaks 24211649 (.breaks 17895457 (.breaks 18948209
  (.breaks 24211473 (.breaks 17895425 (.breaks 24211489 (.breaks 24211457 (.leaf [25, 78, 3, 0, 4,
  120, 2, 110, 1, 16, 82, 73, 17, 13, 7, 18, 14, 8, 19, 9, 10]) (.leaf [25, 78, 3, 0, 4, 120, 2,
  110, 1, 16, 82, 73, 17, 13, 7, 18, 14, 8, 19, 9, 10])) (.leaf [25, 78, 3, 0, 4, 120, 2, 110, 1,
  16, 82, 73, 17, 13, 7, 18, 14, 8, 19, 9, 10])) (.leaf [25, 78, 3, 0, 4, 120, 2, 110, 1, 16, 82,
  73, 17, 13, 7, 18, 14, 8, 19, 9, 10])) (.leaf [25, 78, 3, 0, 4, 120, 2, 110, 1, 16, 82, 73, 17,
  13, 7, 18, 14, 8, 19, 9, 10])) (.leaf [25, 78, 3, 0, 4, 120, 2, 110, 1, 16, 82, 73, 17, 13, 7,
  18, 14, 8, 19, 9, 10])) (.leaf [25, 78, 3, 0, 4, 120, 2, 110, 1, 16, 82, 73, 17, 13, 7, 18, 14,
  8, 19, 9, 10])) (.leaf [25, 78, 3, 0, 4, 120, 2, 110, 1, 16, 82, 73, 17, 13, 7, 18, 14, 8, 19, 9,
  10])) (.leaf [25, 78, 3, 0, 4, 120, 2, 110, 1, 16, 82, 73, 17, 13, 7, 18, 14, 8, 19, 9, 10]))
  (.leaf [25, 78, 3, 0, 4, 120, 2, 110, 1, 16, 82, 73, 17, 13, 7, 18, 14, 8, 19, 9, 10])) (.leaf
  [25, 78, 3, 0, 4, 120, 2, 110, 1, 16, 82, 73, 17, 13, 7, 18, 14, 8, 19, 9, 10])) (.leaf [25, 78,
  3, 0, 4, 120, 2, 110, 1, 16, 82, 73, 17, 13, 7, 18, 14, 8, 19, 9, 10])) (.leaf [25, 78, 3, 0, 4,
  120, 2, 110, 1, 16, 82, 73, 17, 13, 7, 18, 14, 8, 19, 9, 10])) (.leaf [25, 78, 3, 0, 4, 120, 2,
  110, 1, 16, 82, 73, 17, 13, 7, 18, 14, 8, 19, 9, 10])) (.leaf [25, 78, 3, 0, 4, 120, 2, 110, 1,
  16, 82, 73, 17, 13, 7, 18, 14, 8, 19, 9, 10])) (.leaf [25, 78, 3, 0, 4, 120, 2, 110, 1, 16, 82,
  73, 17, 13, 7, 18, 14, 8, 19, 9, 10])) (.leaf [26, 25, 78, 11, 3, 0, 12, 4, 120, 5, 2, 110, 6, 1,
  16, 82, 73, 17, 13, 7, 18, 14, 8, 19, 9, 10])) (.leaf [26, 25, 78, 11, 3, 0, 12, 4, 120, 5, 2,
  110, 6, 1, 16, 82, 73, 17, 13, 7, 18, 14, 8, 19, 9, 10])) (.cases [] 20 (.cases [] 17 (.breaks
  13701205 (.breaks 17879123 (.cycle 1 [57, 151]) (.leaf [25, 78, 80, 3, 57, 13, 4, 16, 73, 14, 2,
  17, 7, 1, 18, 8, 19, 9, 10])) (.leaf [25, 78, 80, 3, 0, 57, 13, 4, 16, 73, 14, 2, 17, 7, 1, 18,
  8, 19, 9, 10])) (.cases [] 4 (.breaks 13701205 (.breaks 17879123 (.cycle 1 [57, 151]) (.leaf [25,
  78, 29, 3, 0, 57, 11, 4, 16, 73, 12, 2, 17, 75, 7, 5, 1, 18, 13, 8, 6, 19, 14, 9, 10])) (.leaf
  [25, 78, 29, 3, 0, 57, 11, 4, 16, 73, 12, 2, 17, 75, 7, 5, 1, 18, 13, 8, 6, 19, 14, 9, 10]))
  (.breaks 13701205 (.breaks 17879123 (.cycle 1 [57, 151]) (.leaf [26, 78, 11, 38, 0, 57, 12, 3,
  16, 73, 5, 4, 17, 75, 7, 6, 2, 18, 13, 8, 1, 19, 14, 9, 10])) (.leaf [26, 78, 11, 38, 0, 57, 12,
  3, 16, 73, 5, 4, 17, 75, 7, 6, 2, 18, 13, 8, 1, 19, 14, 9, 10])))) (.breaks 13701205 (.breaks
  17879123 (.cycle 1 [57, 151]) (.leaf [25, 78, 3, 0, 57, 4, 16, 82, 2, 17, 13, 92, 1, 18, 14, 7,
  19, 8, 9, 10])) (.leaf [26, 25, 78, 11, 3, 0, 57, 12, 4, 16, 82, 5, 2, 17, 13, 92, 6, 1, 18, 14,
  7, 19, 8, 9, 10]))))

/-- some of the cases -/
def real5OneCase29 : LooseTree :=
  .breaks 21024965 (.breaks 13684817 (.breaks 13725781 (.breaks 17895617 (.breaks 10526737 (.breaks
  17895441 (.breaks 24211649 (.breaks 10526753 (.breaks 17895457 (.breaks 24211473 (.breaks
  10526721 (.breaks 17895425 (.breaks 24211489 (.breaks 24211457 (.leaf
  [25, 105, 78, 3, 0, 52, 16, 4, 17, 7, 2, 18, 8, 1, 19, 9, 10]) (.leaf
  [25, 105, 78, 3, 0, 52, 16, 4, 17, 7, 2, 18, 8, 1, 19, 9, 10])) (.leaf
  [25, 105, 78, 3, 0, 52, 16, 4, 17, 7, 2, 18, 8, 1, 19, 9, 10])) (.leaf
  [25, 105, 78, 3, 0, 52, 16, 4, 17, 7, 2, 18, 8, 1, 19, 9, 10])) (.leaf
  [25, 105, 78, 3, 0, 52, 16, 4, 17, 7, 2, 18, 8, 1, 19, 9, 10])) (.leaf
  [25, 105, 78, 3, 0, 52, 16, 4, 17, 7, 2, 18, 8, 1, 19, 9, 10])) (.leaf
  [25, 105, 78, 3, 0, 52, 16, 4, 17, 7, 2, 18, 8, 1, 19, 9, 10])) (.leaf
  [25, 105, 78, 3, 0, 52, 16, 4, 17, 7, 2, 18, 8, 1, 19, 9, 10])) (.leaf
  [25, 105, 78, 3, 0, 52, 16, 4, 17, 7, 2, 18, 8, 1, 19, 9, 10])) (.leaf
  [25, 105, 78, 3, 0, 52, 16, 4, 17, 7, 2, 18, 8, 1, 19, 9, 10])) (.leaf
  [25, 105, 78, 3, 0, 52, 16, 4, 17, 7, 2, 18, 8, 1, 19, 9, 10])) (.leaf
  [25, 105, 78, 3, 0, 52, 16, 4, 17, 7, 2, 18, 8, 1, 19, 9, 10])) (.leaf
  [25, 105, 78, 3, 0, 52, 16, 4, 17, 7, 2, 18, 8, 1, 19, 9, 10])) (.leaf
  [25, 105, 78, 3, 0, 52, 16, 4, 17, 7, 2, 18, 8, 1, 19, 9, 10])) (.leaf
  [25, 105, 78, 3, 0, 52, 16, 4, 17, 7, 2, 18, 8, 1, 19, 9, 10])

/-- some of the cases -/
def real5OneCase30 : LooseTree :=
  .breaks 1089621 (.breaks 12619795 (.breaks 20013237 (.breaks 24186962 (.breaks 9474065 (.breaks
  10502226 (.breaks 17879237 (.breaks 17895617 (.breaks 23158913 (.breaks 4210881 (.breaks 9474177
  (.breaks 13684817 (.breaks 17895441 (.breaks 23158801 (.breaks 4210705 (.breaks 9474193 (.breaks
  17895457 (.breaks 4210721 (.breaks 17895425 (.breaks 4210689 (.leaf [25, 61, 44, 39, 62, 29, 30,
  16, 45, 11, 55, 0, 17, 37, 12, 56, 18, 5, 19, 6]) (.leaf [25, 61, 44, 39, 62, 29, 3, 30, 16, 45,
  11, 55, 4, 0, 17, 37, 12, 56, 2, 18, 5, 1, 19, 6])) (.leaf [25, 61, 44, 39, 62, 29, 3, 30, 16,
  45, 11, 55, 4, 0, 17, 37, 12, 56, 2, 18, 5, 1, 19, 6])) (.leaf [25, 61, 44, 39, 62, 29, 3, 30,
  16, 45, 11, 55, 4, 0, 17, 37, 12, 56, 2, 18, 5, 1, 19, 6])) (.leaf [25, 61, 44, 39, 62, 29, 3,
  30, 16, 45, 11, 55, 4, 0, 17, 37, 12, 56, 2, 18, 5, 1, 19, 6])) (.leaf [25, 61, 44, 39, 62, 29,
  3, 30, 16, 45, 11, 55, 4, 0, 17, 37, 12, 56, 2, 18, 5, 1, 19, 6])) (.leaf [25, 61, 44, 39, 62,
  29, 3, 30, 16, 45, 11, 55, 4, 0, 17, 37, 12, 56, 2, 18, 5, 1, 19, 6])) (.leaf [25, 61, 39, 62,
  29, 3, 30, 16, 11, 55, 4, 0, 17, 12, 56, 2, 18, 5, 1, 19, 6])) (.leaf [25, 61, 44, 39, 62, 29, 3,
  30, 16, 45, 11, 55, 4, 0, 17, 37, 12, 56, 2, 18, 5, 1, 19, 6])) (.leaf [25, 61, 44, 39, 62, 29,
  3, 30, 16, 45, 11, 55, 4, 0, 17, 37, 12, 56, 2, 18, 5, 1, 19, 6])) (.leaf [25, 61, 44, 39, 62,
  29, 3, 30, 16, 45, 11, 55, 4, 0, 17, 37, 12, 56, 2, 18, 5, 1, 19, 6])) (.leaf [25, 61, 44, 39,
  62, 29, 3, 30, 16, 45, 11, 55, 4, 0, 17, 37, 12, 56, 2, 18, 5, 1, 19, 6])) (.leaf [25, 61, 39,
  62, 29, 3, 30, 16, 11, 55, 4, 0, 17, 12, 56, 2, 18, 5, 1, 19, 6])) (.leaf [25, 61, 44, 39, 62,
  29, 3, 30, 16, 45, 11, 55, 4, 0, 17, 37, 12, 56, 2, 18, 5, 1, 19, 6])) (.leaf [25, 61, 44, 39,
  62, 29, 3, 30, 16, 45, 11, 55, 4, 0, 17, 37, 12, 56, 2, 18, 5, 1, 19, 6])) (.leaf [25, 61, 44,
  39, 62, 29, 3, 30, 16, 45, 11, 55, 4, 0, 17, 37, 12, 56, 2, 18, 5, 1, 19, 6])) (.leaf [25, 128,
  44, 39, 55, 29, 3, 30, 16, 45, 11, 56, 4, 0, 17, 37, 12, 2, 18, 5, 1, 19, 6])) (.leaf [25, 61,
  44, 39, 62, 29, 3, 30, 16, 45, 11, 55, 4, 0, 17, 37, 12, 56, 2, 18, 5, 1, 19, 6])) (.leaf [25,
  61, 39, 62, 29, 3, 30, 16, 11, 55, 4, 0, 17, 12, 56, 2, 18, 5, 1, 19, 6])) (.leaf [25, 128, 44,
  39, 55, 29, 3, 30, 16, 45, 11, 56, 4, 0, 17, 37, 12, 2, 18, 5, 1, 19, 6])) (.leaf [25, 61, 44,
  39, 62, 29, 3, 30, 16, 45, 11, 55, 4, 0, 17, 37, 12, 56, 2, 18, 5, 1, 19, 6])

/-- some of the cases -/
def real5OneCase31 : LooseTree :=
  .breaks 24186962 (.breaks 25239746 (.breaks 10502226 (.breaks 10526913 (.breaks 17879237 (.breaks
  17895617 (.breaks 18948177 (.breaks 23158913 (.breaks 4210881 (.breaks 10526737 (.breaks 13684817
  (.breaks 17895441 (.breaks 18948209 (.breaks 23158801 (.breaks 4210705 (.breaks 10526753 (.breaks
  17895457 (.breaks 4210721 (.breaks 10526721 (.breaks 17895425 (.breaks 4210689 (.leaf [25, 44,
  39, 63, 29, 3, 30, 16, 13, 45, 11, 4, 0, 17, 14, 37, 12, 2, 18, 5, 1, 19, 6]) (.leaf [25, 44, 39,
  63, 29, 3, 30, 16, 13, 45, 11, 4, 0, 17, 14, 37, 12, 2, 18, 5, 1, 19, 6])) (.leaf [25, 44, 39,
  63, 29, 3, 30, 16, 13, 45, 11, 4, 0, 17, 14, 37, 12, 2, 18, 5, 1, 19, 6])) (.leaf [25, 44, 39,
  63, 29, 3, 30, 16, 13, 45, 11, 4, 0, 17, 14, 37, 12, 2, 18, 5, 1, 19, 6])) (.leaf [25, 44, 39,
  63, 29, 3, 30, 16, 13, 45, 11, 4, 0, 17, 14, 37, 12, 2, 18, 5, 1, 19, 6])) (.leaf [25, 44, 39,
  63, 29, 3, 30, 16, 13, 45, 11, 4, 0, 17, 14, 37, 12, 2, 18, 5, 1, 19, 6])) (.leaf [25, 44, 39,
  63, 29, 3, 30, 16, 13, 45, 11, 4, 0, 17, 14, 37, 12, 2, 18, 5, 1, 19, 6])) (.leaf [25, 44, 39,
  63, 29, 3, 30, 16, 13, 45, 11, 4, 0, 17, 14, 37, 12, 2, 18, 5, 1, 19, 6])) (.leaf [25, 44, 39,
  63, 29, 3, 30, 16, 13, 45, 11, 4, 0, 17, 14, 37, 12, 2, 18, 5, 1, 19, 6])) (.leaf [25, 44, 39,
  63, 29, 3, 30, 16, 13, 45, 11, 4, 0, 17, 14, 37, 12, 2, 18, 5, 1, 19, 6])) (.leaf [25, 44, 39,
  63, 29, 3, 30, 16, 13, 45, 11, 4, 0, 17, 14, 37, 12, 2, 18, 5, 1, 19, 6])) (.leaf [25, 44, 39,
  63, 29, 3, 30, 16, 13, 45, 11, 4, 0, 17, 14, 37, 12, 2, 18, 5, 1, 19, 6])) (.leaf [25, 44, 39,
  63, 29, 3, 30, 16, 13, 45, 11, 4, 0, 17, 14, 37, 12, 2, 18, 5, 1, 19, 6])) (.leaf [25, 44, 39,
  63, 29, 3, 30, 16, 13, 45, 11, 4, 0, 17, 14, 37, 12, 2, 18, 5, 1, 19, 6])) (.leaf [25, 44, 39,
  63, 29, 3, 30, 16, 13, 45, 11, 4, 0, 17, 14, 37, 12, 2, 18, 5, 1, 19, 6])) (.leaf [25, 44, 39,
  63, 29, 3, 30, 16, 13, 45, 11, 4, 0, 17, 14, 37, 12, 2, 18, 5, 1, 19, 6])) (.leaf [25, 44, 39,
  63, 29, 3, 30, 16, 13, 45, 11, 4, 0, 17, 14, 37, 12, 2, 18, 5, 1, 19, 6])) (.leaf [25, 44, 39,
  63, 29, 3, 30, 16, 13, 45, 11, 4, 0, 17, 14, 37, 12, 2, 18, 5, 1, 19, 6])) (.leaf [25, 44, 39,
  63, 29, 3, 30, 16, 13, 45, 11, 4, 0, 17, 14, 37, 12, 2, 18, 5, 1, 19, 6])) (.leaf [25, 44, 39,
  63, 29, 3, 30, 16, 13, 45, 11, 4, 0, 17, 14, 37, 12, 2, 18, 5, 1, 19, 6])) (.leaf [25, 44, 39,
  63, 29, 3, 30, 16, 13, 45, 11, 4, 0, 17, 14, 37, 12, 2, 18, 5, 1, 19, 6])) (.leaf [25, 44, 39,
  63, 29, 3, 30, 16, 13, 45, 11, 4, 0, 17, 14, 37, 12, 2, 18, 5, 1, 19, 6])

/-- some of the cases -/
def real5OneCase32 : LooseTree :=
  .cases [] 51 (.cycle 43 [139, 34, 58]) (.cases [] 22 (.breaks 24186962 (.breaks 10526801 (.breaks
  17895617 (.breaks 10502226 (.breaks 10526913 (.breaks 13684817 (.breaks 17895441 (.breaks
  20013237 (.breaks 4210881 (.breaks 10526737 (.breaks 17895457 (.breaks 23158913 (.breaks 4210705
  (.breaks 10526753 (.breaks 17895425 (.breaks 23158801 (.breaks 4210721 (.breaks 10526721 (.breaks
  4210689 (.leaf [79, 81, 39, 46, 30, 16, 51, 29, 3, 0, 17, 44, 11, 4, 18, 45, 12, 2, 19, 37, 5, 1,
  6]) (.leaf [79, 81, 39, 46, 30, 16, 51, 29, 3, 0, 17, 44, 11, 4, 18, 45, 12, 2, 19, 37, 5, 1,
  6])) (.leaf [79, 81, 39, 46, 30, 16, 51, 29, 3, 0, 17, 44, 11, 4, 18, 45, 12, 2, 19, 37, 5, 1,
  6])) (.leaf [79, 81, 39, 46, 30, 16, 51, 29, 3, 0, 17, 44, 11, 4, 18, 45, 12, 2, 19, 37, 5, 1,
  6])) (.leaf [79, 81, 39, 46, 30, 16, 51, 29, 3, 0, 17, 44, 11, 4, 18, 45, 12, 2, 19, 37, 5, 1,
  6])) (.leaf [79, 81, 39, 46, 30, 16, 51, 29, 3, 0, 17, 44, 11, 4, 18, 45, 12, 2, 19, 37, 5, 1,
  6])) (.leaf [79, 81, 39, 46, 30, 16, 51, 29, 3, 0, 17, 44, 11, 4, 18, 45, 12, 2, 19, 37, 5, 1,
  6])) (.leaf [79, 81, 39, 46, 30, 16, 51, 29, 3, 0, 17, 44, 11, 4, 18, 45, 12, 2, 19, 37, 5, 1,
  6])) (.leaf [79, 81, 39, 46, 30, 16, 51, 29, 3, 0, 17, 44, 11, 4, 18, 45, 12, 2, 19, 37, 5, 1,
  6])) (.leaf [79, 81, 39, 46, 30, 16, 51, 29, 3, 0, 17, 44, 11, 4, 18, 45, 12, 2, 19, 37, 5, 1,
  6])) (.leaf [79, 81, 39, 46, 30, 16, 51, 29, 3, 0, 17, 44, 11, 4, 18, 45, 12, 2, 19, 37, 5, 1,
  6])) (.leaf [79, 81, 39, 46, 30, 16, 51, 29, 3, 0, 17, 44, 11, 4, 18, 45, 12, 2, 19, 37, 5, 1,
  6])) (.leaf [79, 81, 39, 46, 30, 16, 51, 29, 3, 0, 17, 44, 11, 4, 18, 45, 12, 2, 19, 37, 5, 1,
  6])) (.leaf [79, 81, 39, 46, 30, 16, 51, 29, 3, 0, 17, 44, 11, 4, 18, 45, 12, 2, 19, 37, 5, 1,
  6])) (.leaf [79, 81, 39, 46, 30, 16, 51, 29, 3, 0, 17, 44, 11, 4, 18, 45, 12, 2, 19, 37, 5, 1,
  6])) (.leaf [79, 81, 39, 46, 30, 16, 51, 29, 3, 0, 17, 44, 11, 4, 18, 45, 12, 2, 19, 37, 5, 1,
  6])) (.leaf [79, 81, 39, 46, 30, 16, 51, 29, 3, 0, 17, 44, 11, 4, 18, 45, 12, 2, 19, 37, 5, 1,
  6])) (.leaf [79, 81, 39, 46, 30, 16, 51, 29, 3, 0, 17, 44, 11, 4, 18, 45, 12, 2, 19, 37, 5, 1,
  6])) (.leaf [79, 81, 39, 46, 30, 16, 51, 29, 3, 0, 17, 44, 11, 4, 18, 45, 12, 2, 19, 37, 5, 1,
  6])) (.leaf [79, 81, 39, 46, 30, 16, 51, 29, 3, 0, 17, 44, 11, 4, 18, 45, 12, 2, 19, 37, 5, 1,
  6])) (.breaks 1089621 (.breaks 10489939 (.cycle 33 [25, 130]) (.leaf [25, 81, 39, 29, 3, 30, 16,
  51, 11, 4, 0, 31, 17, 44, 12, 2, 18, 13, 34, 45, 5, 1, 19, 14, 37, 24, 6])) (.leaf [25, 81, 39,
  29, 3, 30, 16, 51, 11, 4, 0, 31, 17, 44, 12, 2, 18, 13, 34, 45, 5, 1, 19, 14, 37, 24, 58, 6, 40,
  41, 42, 43])))

/-- some of the cases -/
def real5OneCase33 : LooseTree :=
  .breaks 1089621 (.breaks 19955730 (.breaks 24186962 (.breaks 8421505 (.breaks 10502226 (.breaks
  10526913 (.breaks 17879237 (.breaks 17895617 (.breaks 23158913 (.breaks 4210881 (.breaks 8421521
  (.breaks 10526737 (.breaks 13684817 (.breaks 17895441 (.breaks 23158801 (.breaks 4210705 (.breaks
  10526753 (.breaks 17895457 (.breaks 4210721 (.breaks 10526721 (.breaks 17895425 (.breaks 4210689
  (.leaf [25, 70, 44, 39, 64, 29, 3, 30, 16, 45, 11, 65, 4, 0, 17, 37, 12, 2, 18, 5, 1, 19, 6])
  (.leaf [25, 70, 44, 39, 64, 29, 3, 30, 16, 45, 11, 65, 4, 0, 31, 17, 37, 12, 2, 18, 13, 5, 1, 19,
  14, 6])) (.leaf [25, 70, 44, 39, 64, 29, 3, 30, 16, 45, 11, 65, 4, 0, 31, 17, 37, 12, 2, 18, 13,
  5, 1, 19, 14, 6])) (.leaf [25, 70, 44, 39, 64, 29, 3, 30, 16, 45, 11, 65, 4, 0, 17, 37, 12, 2,
  18, 5, 1, 19, 6])) (.leaf [25, 70, 44, 39, 64, 29, 3, 30, 16, 45, 11, 65, 4, 0, 31, 17, 37, 12,
  2, 18, 13, 5, 1, 19, 14, 6])) (.leaf [25, 70, 44, 39, 64, 29, 3, 30, 16, 45, 11, 65, 4, 0, 31,
  17, 37, 12, 2, 18, 13, 5, 1, 19, 14, 6])) (.leaf [25, 70, 44, 39, 64, 29, 3, 30, 16, 45, 11, 65,
  4, 0, 17, 37, 12, 2, 18, 5, 1, 19, 6])) (.leaf [25, 70, 44, 39, 64, 29, 3, 30, 16, 45, 11, 65, 4,
  0, 31, 17, 37, 12, 2, 18, 13, 5, 1, 19, 14, 6])) (.leaf [25, 70, 44, 39, 64, 29, 3, 30, 16, 45,
  11, 65, 4, 0, 17, 37, 12, 2, 18, 5, 1, 19, 6])) (.leaf [25, 70, 44, 39, 64, 29, 3, 30, 16, 45,
  11, 65, 4, 0, 31, 17, 37, 12, 2, 18, 13, 5, 1, 19, 14, 6])) (.leaf [25, 70, 44, 39, 64, 29, 3,
  30, 16, 45, 11, 65, 4, 0, 17, 37, 12, 2, 18, 5, 1, 19, 6])) (.leaf [25, 70, 44, 39, 64, 29, 3,
  30, 16, 45, 11, 65, 4, 0, 17, 37, 12, 2, 18, 5, 1, 19, 6])) (.leaf [25, 70, 44, 39, 64, 29, 3,
  30, 16, 45, 11, 65, 4, 0, 31, 17, 37, 12, 2, 18, 13, 5, 1, 19, 14, 6])) (.leaf [25, 70, 44, 39,
  64, 29, 3, 30, 16, 45, 11, 65, 4, 0, 31, 17, 37, 12, 2, 18, 13, 5, 1, 19, 14, 6])) (.leaf [25,
  70, 44, 39, 64, 29, 3, 30, 16, 45, 11, 65, 4, 0, 17, 37, 12, 2, 18, 5, 1, 19, 6])) (.leaf [25,
  70, 44, 39, 64, 29, 3, 30, 16, 45, 11, 65, 4, 0, 31, 17, 37, 12, 2, 18, 13, 5, 1, 19, 14, 6]))
  (.leaf [25, 70, 44, 39, 64, 29, 3, 30, 16, 45, 11, 65, 4, 0, 17, 37, 12, 2, 18, 5, 1, 19, 6]))
  (.leaf [25, 70, 44, 39, 64, 29, 3, 30, 16, 45, 11, 65, 4, 0, 17, 37, 12, 2, 18, 5, 1, 19, 6]))
  (.leaf [25, 70, 44, 39, 64, 29, 3, 30, 16, 45, 11, 65, 4, 0, 31, 17, 37, 12, 2, 18, 13, 5, 1, 19,
  14, 6])) (.leaf [25, 70, 44, 39, 64, 29, 3, 30, 16, 45, 11, 65, 4, 0, 31, 17, 37, 12, 2, 18, 13,
  5, 1, 19, 14, 6])) (.leaf [25, 70, 44, 39, 64, 29, 3, 30, 16, 45, 11, 65, 4, 0, 31, 17, 37, 12,
  2, 18, 13, 5, 1, 19, 14, 6])) (.leaf [25, 70, 44, 39, 64, 29, 3, 30, 16, 45, 11, 65, 4, 0, 31,
  17, 37, 12, 2, 18, 13, 5, 1, 19, 14, 6])) (.leaf [25, 70, 44, 39, 64, 29, 3, 30, 16, 45, 11, 65,
  4, 0, 31, 17, 37, 12, 2, 18, 13, 5, 1, 19, 14, 6])

/-- some of the cases -/
def real5OneCase34 : LooseTree :=
  .breaks 20013237 (.breaks 24186962 (.breaks 26312901 (.breaks 10502226 (.breaks 17879237 (.breaks
  17895617 (.breaks 23158913 (.breaks 25264209 (.breaks 4210881 (.breaks 13684817 (.breaks 17895441
  (.breaks 23158801 (.breaks 4210705 (.breaks 17895457 (.breaks 4210721 (.breaks 17895425 (.breaks
  4210689 (.leaf [25, 44, 39, 68, 29, 30, 16, 45, 24, 11, 0, 17, 37, 12, 18, 5, 19, 6]) (.leaf [25,
  44, 39, 68, 29, 30, 16, 45, 24, 11, 0, 17, 37, 12, 18, 5, 19, 6])) (.leaf [25, 44, 39, 68, 29, 3,
  30, 16, 45, 24, 11, 4, 0, 17, 37, 12, 2, 18, 5, 1, 19, 6])) (.leaf [25, 44, 39, 68, 29, 30, 16,
  45, 24, 11, 0, 17, 37, 12, 18, 5, 19, 6])) (.leaf [25, 44, 39, 68, 29, 3, 30, 16, 45, 24, 11, 4,
  0, 17, 37, 12, 2, 18, 5, 1, 19, 6])) (.leaf [25, 44, 39, 68, 29, 30, 16, 45, 24, 11, 0, 17, 37,
  12, 18, 5, 19, 6])) (.leaf [25, 44, 39, 68, 29, 30, 16, 45, 24, 11, 0, 17, 37, 12, 18, 5, 19,
  6])) (.leaf [25, 44, 39, 68, 29, 3, 30, 16, 45, 24, 11, 4, 0, 17, 37, 12, 2, 18, 5, 1, 19, 6]))
  (.leaf [25, 44, 39, 68, 29, 30, 16, 45, 24, 11, 0, 17, 37, 12, 18, 5, 19, 6])) (.leaf [25, 44,
  39, 68, 29, 30, 16, 45, 24, 11, 0, 17, 37, 12, 18, 5, 19, 6])) (.leaf [25, 44, 39, 68, 29, 30,
  16, 45, 24, 11, 0, 17, 37, 12, 18, 5, 19, 6])) (.leaf [25, 44, 39, 68, 29, 30, 16, 45, 24, 11, 0,
  17, 37, 12, 18, 5, 19, 6])) (.leaf [25, 44, 39, 68, 29, 3, 30, 16, 45, 24, 11, 4, 0, 17, 37, 12,
  2, 18, 5, 1, 19, 6])) (.leaf [25, 44, 39, 68, 29, 30, 16, 45, 24, 11, 0, 17, 37, 12, 18, 5, 19,
  6])) (.leaf [25, 44, 39, 68, 29, 30, 16, 45, 24, 11, 0, 17, 37, 12, 18, 5, 19, 6])) (.leaf [25,
  44, 39, 68, 29, 30, 16, 45, 24, 11, 0, 17, 37, 12, 18, 5, 19, 6])) (.leaf [25, 44, 39, 68, 29, 3,
  30, 16, 45, 24, 11, 4, 0, 17, 37, 12, 2, 18, 5, 1, 19, 6])) (.leaf [25, 44, 39, 68, 29, 30, 16,
  45, 24, 11, 0, 17, 37, 12, 18, 5, 19, 6])

/-- some of the cases -/
def real5OneCase35 : LooseTree :=
  .cases [] 45 (.breaks 1089621 (.breaks 18927810 (.breaks 24186962 (.breaks 10502226 (.breaks
  10526913 (.breaks 13684817 (.breaks 17895617 (.breaks 4210881 (.breaks 10526737 (.breaks 17895441
  (.breaks 20013237 (.breaks 4210705 (.breaks 10526753 (.breaks 17895457 (.breaks 23158913 (.breaks
  4210721 (.breaks 10526721 (.breaks 17895425 (.breaks 23158801 (.breaks 4210689 (.leaf [25, 81,
  87, 39, 29, 3, 0, 16, 51, 11, 4, 17, 44, 12, 2, 18, 45, 5, 1, 19, 37, 6]) (.leaf [25, 81, 87, 39,
  29, 3, 0, 16, 51, 11, 4, 17, 44, 12, 2, 18, 45, 5, 1, 19, 37, 6])) (.leaf [25, 81, 87, 39, 29, 3,
  0, 16, 51, 11, 4, 17, 44, 12, 2, 18, 45, 5, 1, 19, 37, 6])) (.leaf [25, 81, 87, 39, 29, 3, 0,
  123, 16, 51, 11, 4, 17, 44, 24, 12, 2, 18, 45, 5, 1, 19, 37, 6])) (.leaf [25, 81, 87, 39, 29, 3,
  0, 16, 51, 11, 4, 17, 44, 12, 2, 18, 45, 5, 1, 19, 37, 6])) (.leaf [25, 81, 87, 39, 29, 3, 0, 16,
  51, 11, 4, 17, 44, 12, 2, 18, 45, 5, 1, 19, 37, 6])) (.leaf [25, 81, 87, 39, 29, 3, 0, 16, 51,
  11, 4, 17, 44, 12, 2, 18, 45, 5, 1, 19, 37, 6])) (.leaf [25, 81, 87, 39, 29, 3, 0, 123, 16, 51,
  11, 4, 17, 44, 24, 12, 2, 18, 45, 5, 1, 19, 37, 6])) (.leaf [25, 81, 87, 39, 29, 3, 0, 16, 51,
  11, 4, 17, 44, 12, 2, 18, 45, 5, 1, 19, 37, 6])) (.leaf [25, 81, 87, 39, 29, 3, 0, 16, 51, 11, 4,
  17, 44, 12, 2, 18, 45, 5, 1, 19, 37, 6])) (.leaf [25, 81, 87, 39, 29, 3, 0, 16, 51, 11, 4, 17,
  44, 12, 2, 18, 45, 5, 1, 19, 37, 6])) (.leaf [25, 81, 87, 39, 29, 3, 0, 123, 16, 51, 11, 4, 17,
  44, 24, 12, 2, 18, 45, 5, 1, 19, 37, 6])) (.leaf [25, 81, 87, 39, 29, 3, 0, 16, 51, 11, 4, 17,
  44, 12, 2, 18, 45, 5, 1, 19, 37, 6])) (.leaf [25, 81, 87, 39, 29, 3, 0, 16, 51, 11, 4, 17, 44,
  12, 2, 18, 45, 5, 1, 19, 37, 6])) (.leaf [25, 81, 87, 39, 29, 3, 0, 123, 16, 51, 11, 4, 17, 44,
  24, 12, 2, 18, 45, 5, 1, 19, 37, 6])) (.leaf [25, 81, 87, 39, 29, 3, 0, 16, 51, 11, 4, 17, 44,
  12, 2, 18, 45, 5, 1, 19, 37, 6])) (.leaf [25, 81, 87, 39, 29, 3, 0, 16, 51, 11, 4, 17, 44, 12, 2,
  18, 45, 5, 1, 19, 37, 6])) (.leaf [25, 81, 87, 39, 29, 3, 0, 16, 51, 11, 4, 17, 44, 12, 2, 18,
  45, 5, 1, 19, 37, 6])) (.leaf [25, 81, 87, 39, 29, 3, 0, 123, 16, 51, 11, 4, 17, 44, 24, 12, 2,
  18, 45, 5, 1, 19, 37, 6])) (.leaf [25, 81, 87, 39, 29, 3, 0, 16, 51, 11, 4, 17, 44, 12, 2, 18,
  45, 5, 1, 19, 37, 6])) (.leaf [25, 81, 87, 39, 29, 3, 0, 123, 16, 51, 11, 4, 17, 44, 24, 12, 2,
  18, 45, 5, 1, 19, 37, 6])) (.breaks 10502226 (.breaks 10526913 (.breaks 13684817 (.breaks
  17895617 (.breaks 4210881 (.breaks 10526737 (.breaks 17895441 (.breaks 20013237 (.breaks 4210705
  (.breaks 10526753 (.breaks 17895457 (.breaks 23158913 (.breaks 4210721 (.breaks 10526721 (.breaks
  17895425 (.breaks 23158801 (.breaks 4210689 (.leaf [25, 81, 39, 126, 29, 3, 0, 16, 51, 11, 4, 17,
  44, 12, 2, 18, 45, 5, 1, 19, 37, 6]) (.leaf [25, 81, 39, 126, 29, 3, 0, 16, 51, 11, 4, 17, 44,
  12, 2, 18, 45, 5, 1, 19, 37, 6])) (.leaf [25, 81, 39, 126, 29, 3, 0, 16, 51, 11, 4, 17, 44, 12,
  2, 18, 45, 5, 1, 19, 37, 6])) (.leaf [25, 81, 39, 126, 29, 3, 0, 16, 51, 11, 4, 17, 44, 12, 2,
  18, 45, 5, 1, 19, 37, 6])) (.leaf [25, 81, 39, 126, 29, 3, 0, 16, 51, 11, 4, 17, 44, 12, 2, 18,
  45, 5, 1, 19, 37, 6])) (.leaf [25, 81, 39, 126, 29, 3, 0, 16, 51, 11, 4, 17, 44, 12, 2, 18, 45,
  5, 1, 19, 37, 6])) (.leaf [25, 81, 39, 126, 29, 3, 0, 16, 51, 11, 4, 17, 44, 12, 2, 18, 45, 5, 1,
  19, 37, 6])) (.leaf [25, 81, 39, 126, 29, 3, 0, 16, 51, 11, 4, 17, 44, 12, 2, 18, 45, 5, 1, 19,
  37, 6])) (.leaf [25, 81, 39, 126, 29, 3, 0, 16, 51, 11, 4, 17, 44, 12, 2, 18, 45, 5, 1, 19, 37,
  6])) (.leaf [25, 81, 39, 126, 29, 3, 0, 16, 51, 11, 4, 17, 44, 12, 2, 18, 45, 5, 1, 19, 37, 6]))
  (.leaf [25, 81, 39, 126, 29, 3, 0, 16, 51, 11, 4, 17, 44, 12, 2, 18, 45, 5, 1, 19, 37, 6]))
  (.leaf [25, 81, 39, 126, 29, 3, 0, 16, 51, 11, 4, 17, 44, 12, 2, 18, 45, 5, 1, 19, 37, 6]))
  (.leaf [25, 81, 39, 126, 29, 3, 0, 16, 51, 11, 4, 17, 44, 12, 2, 18, 45, 5, 1, 19, 37, 6]))
  (.leaf [25, 81, 39, 126, 29, 3, 0, 16, 51, 11, 4, 17, 44, 12, 2, 18, 45, 5, 1, 19, 37, 6]))
  (.leaf [25, 81, 39, 126, 29, 3, 0, 16, 51, 11, 4, 17, 44, 12, 2, 18, 45, 5, 1, 19, 37, 6]))
  (.leaf [25, 81, 39, 126, 29, 3, 0, 16, 51, 11, 4, 17, 44, 12, 2, 18, 45, 5, 1, 19, 37, 6]))
  (.leaf [25, 81, 39, 126, 29, 3, 0, 16, 51, 11, 4, 17, 44, 12, 2, 18, 45, 5, 1, 19, 37, 6]))
  (.leaf [25, 81, 39, 126, 29, 3, 0, 16, 51, 11, 4, 17, 44, 12, 2, 18, 45, 5, 1, 19, 37, 6]))

/-- some of the cases -/
def real5OneCase36 : LooseTree :=
  .breaks 1089621 (.breaks 18927810 (.breaks 19955730 (.breaks 20013237 (.breaks 24186962 (.breaks
  8421505 (.breaks 10502226 (.breaks 13684817 (.breaks 17895617 (.breaks 23158913 (.breaks 4210881
  (.breaks 8421521 (.breaks 17895441 (.breaks 23158801 (.breaks 4210705 (.breaks 17895457 (.breaks
  4210721 (.breaks 17895425 (.breaks 4210689 (.leaf [25, 87, 70, 44, 39, 64, 29, 0, 16, 45, 11, 65,
  17, 37, 12, 18, 5, 19, 6]) (.leaf [25, 87, 70, 44, 39, 64, 29, 3, 0, 16, 45, 11, 65, 4, 17, 37,
  12, 2, 18, 5, 1, 19, 6])) (.leaf [25, 87, 70, 44, 39, 64, 29, 3, 0, 16, 45, 11, 65, 4, 17, 37,
  12, 2, 18, 5, 1, 19, 6])) (.leaf [25, 87, 70, 44, 39, 64, 29, 3, 0, 16, 45, 11, 65, 4, 17, 37,
  12, 2, 18, 5, 1, 19, 6])) (.leaf [25, 87, 70, 44, 39, 64, 29, 3, 0, 16, 45, 11, 65, 4, 17, 37,
  12, 2, 18, 5, 1, 19, 6])) (.leaf [25, 87, 70, 44, 39, 64, 29, 3, 0, 16, 45, 11, 65, 4, 17, 37,
  12, 2, 18, 5, 1, 19, 6])) (.leaf [25, 87, 70, 39, 64, 29, 3, 0, 16, 11, 65, 4, 17, 12, 2, 18, 5,
  1, 19, 6])) (.leaf [25, 87, 70, 44, 39, 64, 29, 3, 0, 16, 45, 11, 65, 4, 17, 37, 12, 2, 18, 5, 1,
  19, 6])) (.leaf [25, 87, 44, 39, 29, 3, 0, 16, 45, 11, 4, 17, 37, 12, 2, 18, 5, 1, 19, 6]))
  (.leaf [25, 87, 70, 44, 39, 64, 29, 3, 0, 16, 45, 11, 65, 4, 17, 37, 12, 2, 18, 5, 1, 19, 6]))
  (.leaf [25, 87, 70, 39, 64, 29, 3, 0, 16, 11, 65, 4, 17, 12, 2, 18, 5, 1, 19, 6])) (.leaf [25,
  87, 70, 44, 39, 64, 29, 3, 0, 16, 45, 11, 65, 4, 17, 37, 12, 2, 18, 5, 1, 19, 6])) (.leaf [25,
  87, 70, 44, 39, 64, 29, 3, 0, 16, 45, 11, 65, 4, 17, 37, 12, 2, 18, 5, 1, 19, 6])) (.leaf [25,
  87, 70, 44, 39, 64, 29, 3, 0, 16, 45, 11, 65, 4, 17, 37, 12, 2, 18, 5, 1, 19, 6])) (.leaf [25,
  87, 44, 39, 29, 3, 0, 16, 45, 11, 4, 17, 37, 12, 2, 18, 5, 1, 19, 6])) (.leaf [25, 87, 70, 44,
  39, 64, 29, 3, 0, 16, 45, 11, 65, 4, 17, 37, 12, 2, 18, 5, 1, 19, 6])) (.leaf [25, 87, 70, 39,
  64, 29, 3, 0, 16, 11, 65, 4, 17, 12, 2, 18, 5, 1, 19, 6])) (.leaf [25, 87, 44, 39, 29, 3, 0, 16,
  45, 11, 4, 17, 37, 12, 2, 18, 5, 1, 19, 6])) (.leaf [25, 87, 70, 44, 39, 64, 29, 3, 0, 16, 45,
  11, 65, 4, 17, 37, 12, 2, 18, 5, 1, 19, 6])) (.leaf [25, 87, 70, 44, 39, 64, 29, 3, 0, 16, 45,
  11, 65, 4, 17, 37, 12, 2, 18, 5, 1, 19, 6])

/-- some of the cases -/
def real5OneCase37 : LooseTree :=
  .breaks 24186962 (.breaks 17879237 (.breaks 17895617 (.breaks 20000897 (.breaks 13684817 (.breaks
  17895441 (.breaks 20000945 (.breaks 20013237 (.breaks 17895457 (.breaks 20000929 (.breaks
  23158913 (.breaks 17895425 (.breaks 23158801 (.leaf
  [71, 39, 30, 16, 51, 0, 17, 35, 44, 18, 36, 45, 19, 37]) (.leaf
  [71, 39, 30, 16, 51, 0, 17, 35, 44, 18, 36, 45, 19, 37])) (.leaf
  [71, 39, 30, 16, 51, 0, 17, 35, 44, 18, 36, 45, 19, 37])) (.leaf
  [71, 39, 30, 16, 51, 0, 17, 35, 44, 18, 36, 45, 19, 37])) (.leaf
  [71, 39, 30, 16, 51, 0, 17, 35, 44, 18, 36, 45, 19, 37])) (.leaf
  [71, 39, 30, 16, 51, 0, 17, 35, 44, 18, 36, 45, 19, 37])) (.leaf
  [71, 39, 30, 16, 51, 0, 17, 35, 44, 18, 36, 45, 19, 37])) (.leaf
  [71, 39, 30, 16, 51, 0, 17, 35, 44, 18, 36, 45, 19, 37])) (.leaf
  [71, 39, 30, 16, 51, 0, 17, 35, 44, 18, 36, 45, 19, 37])) (.leaf
  [71, 39, 30, 16, 51, 0, 17, 35, 44, 18, 36, 45, 19, 37])) (.leaf
  [71, 39, 30, 16, 51, 0, 17, 35, 44, 18, 36, 45, 19, 37])) (.leaf
  [71, 39, 30, 16, 51, 0, 17, 35, 44, 18, 36, 45, 19, 37])) (.leaf
  [71, 39, 30, 16, 51, 0, 17, 35, 44, 18, 36, 45, 19, 37])) (.leaf
  [25, 71, 39, 29, 30, 51, 11, 0, 35, 44, 12, 36, 45, 5, 37, 6])

/-- some of the cases -/
def real5OneCase38 : LooseTree :=
  .breaks 10502226 (.breaks 10526913 (.breaks 17879237 (.breaks 17895617 (.breaks 18948177 (.breaks
  4210881 (.breaks 10526737 (.breaks 13684817 (.breaks 17895441 (.breaks 18948209 (.breaks 4210705
  (.breaks 10526753 (.breaks 17895457 (.breaks 4210721 (.breaks 10526721 (.breaks 17895425 (.breaks
  4210689 (.leaf [25, 39, 80, 29, 3, 30, 16, 13, 11, 4, 0, 17, 14, 12, 2, 18, 5, 1, 19, 6]) (.leaf
  [25, 39, 80, 29, 3, 30, 16, 13, 11, 4, 0, 17, 14, 12, 2, 18, 5, 1, 19, 6])) (.leaf [25, 39, 80,
  29, 3, 30, 16, 13, 11, 4, 0, 17, 14, 12, 2, 18, 5, 1, 19, 6])) (.leaf [25, 39, 80, 29, 3, 30, 16,
  13, 11, 4, 0, 17, 14, 12, 2, 18, 5, 1, 19, 6])) (.leaf [25, 39, 80, 29, 3, 30, 16, 13, 11, 4, 0,
  17, 14, 12, 2, 18, 5, 1, 19, 6])) (.leaf [25, 39, 80, 29, 3, 30, 16, 13, 11, 4, 0, 17, 14, 12, 2,
  18, 5, 1, 19, 6])) (.leaf [25, 39, 80, 29, 3, 30, 16, 13, 11, 4, 0, 17, 14, 12, 2, 18, 5, 1, 19,
  6])) (.leaf [25, 39, 80, 29, 3, 30, 16, 13, 11, 4, 0, 17, 14, 12, 2, 18, 5, 1, 19, 6])) (.leaf
  [25, 39, 80, 29, 3, 30, 16, 13, 11, 4, 0, 17, 14, 12, 2, 18, 5, 1, 19, 6])) (.leaf [25, 39, 80,
  29, 3, 30, 16, 13, 11, 4, 0, 17, 14, 12, 2, 18, 5, 1, 19, 6])) (.leaf [25, 39, 80, 29, 3, 30, 16,
  13, 11, 4, 0, 17, 14, 12, 2, 18, 5, 1, 19, 6])) (.leaf [25, 39, 80, 29, 3, 30, 16, 13, 11, 4, 0,
  17, 14, 12, 2, 18, 5, 1, 19, 6])) (.leaf [25, 39, 80, 29, 3, 30, 16, 13, 11, 4, 0, 17, 14, 12, 2,
  18, 5, 1, 19, 6])) (.leaf [25, 39, 80, 29, 3, 30, 16, 13, 11, 4, 0, 17, 14, 12, 2, 18, 5, 1, 19,
  6])) (.leaf [25, 39, 80, 29, 3, 30, 16, 13, 11, 4, 0, 17, 14, 12, 2, 18, 5, 1, 19, 6])) (.leaf
  [25, 39, 80, 29, 3, 30, 16, 13, 11, 4, 0, 17, 14, 12, 2, 18, 5, 1, 19, 6])) (.leaf [25, 39, 80,
  29, 3, 30, 16, 13, 11, 4, 0, 17, 14, 12, 2, 18, 5, 1, 19, 6])) (.leaf [25, 39, 80, 29, 3, 30, 16,
  13, 11, 4, 0, 17, 14, 12, 2, 18, 5, 1, 19, 6])

/-- some of the cases -/
def real5OneCase39 : LooseTree :=
  .breaks 24186962 (.breaks 25239746 (.breaks 10502226 (.breaks 10526913 (.breaks 17879237 (.breaks
  17895617 (.breaks 18948177 (.breaks 18976853 (.breaks 4210881 (.breaks 10526737 (.breaks 13684817
  (.breaks 17895441 (.breaks 18948209 (.breaks 26316993 (.breaks 4210705 (.breaks 10526753 (.breaks
  17895457 (.breaks 26316817 (.breaks 4210721 (.breaks 10526721 (.breaks 17895425 (.breaks 26316833
  (.breaks 4210689 (.breaks 26316801 (.leaf [25, 39, 63, 29, 3, 30, 16, 13, 67, 11, 4, 0, 17, 14,
  40, 12, 2, 18, 41, 5, 1, 19, 42, 6, 43]) (.leaf [25, 39, 63, 29, 3, 30, 16, 13, 67, 11, 4, 0, 17,
  14, 40, 12, 2, 18, 41, 5, 1, 19, 42, 6, 43])) (.leaf [25, 39, 63, 29, 3, 30, 16, 13, 67, 11, 4,
  0, 17, 14, 40, 12, 2, 18, 41, 5, 1, 19, 42, 6, 43])) (.leaf [25, 39, 63, 29, 3, 30, 16, 13, 67,
  11, 4, 0, 17, 14, 40, 12, 2, 18, 41, 5, 1, 19, 42, 6, 43])) (.leaf [25, 39, 63, 29, 3, 30, 16,
  13, 67, 11, 4, 0, 17, 14, 40, 12, 2, 18, 41, 5, 1, 19, 42, 6, 43])) (.leaf [25, 39, 63, 29, 3,
  30, 16, 13, 67, 11, 4, 0, 17, 14, 40, 12, 2, 18, 41, 5, 1, 19, 42, 6, 43])) (.leaf [25, 39, 63,
  29, 3, 30, 16, 13, 67, 11, 4, 0, 17, 14, 40, 12, 2, 18, 41, 5, 1, 19, 42, 6, 43])) (.leaf [25,
  39, 63, 29, 3, 30, 16, 13, 67, 11, 4, 0, 17, 14, 40, 12, 2, 18, 41, 5, 1, 19, 42, 6, 43])) (.leaf
  [25, 39, 63, 29, 3, 30, 16, 13, 67, 11, 4, 0, 17, 14, 40, 12, 2, 18, 41, 5, 1, 19, 42, 6, 43]))
  (.leaf [25, 39, 63, 29, 3, 30, 16, 13, 67, 11, 4, 0, 17, 14, 40, 12, 2, 18, 41, 5, 1, 19, 42, 6,
  43])) (.leaf [25, 39, 63, 29, 3, 30, 16, 13, 67, 11, 4, 0, 17, 14, 40, 12, 2, 18, 41, 5, 1, 19,
  42, 6, 43])) (.leaf [25, 39, 63, 29, 3, 30, 16, 13, 67, 11, 4, 0, 17, 14, 40, 12, 2, 18, 41, 5,
  1, 19, 42, 6, 43])) (.leaf [25, 39, 63, 29, 3, 30, 16, 13, 67, 11, 4, 0, 17, 14, 40, 12, 2, 18,
  41, 5, 1, 19, 42, 6, 43])) (.leaf [25, 39, 63, 29, 3, 30, 16, 13, 67, 11, 4, 0, 17, 14, 40, 12,
  2, 18, 41, 5, 1, 19, 42, 6, 43])) (.leaf [25, 39, 63, 29, 3, 30, 16, 13, 67, 11, 4, 0, 17, 14,
  40, 12, 2, 18, 41, 5, 1, 19, 42, 6, 43])) (.leaf [25, 39, 63, 29, 3, 30, 16, 13, 67, 11, 4, 0,
  17, 14, 40, 12, 2, 18, 41, 5, 1, 19, 42, 6, 43])) (.leaf [25, 39, 63, 29, 3, 30, 16, 13, 67, 11,
  4, 0, 17, 14, 40, 12, 2, 18, 41, 5, 1, 19, 42, 6, 43])) (.leaf [25, 39, 63, 29, 3, 30, 16, 13,
  67, 11, 4, 0, 17, 14, 40, 12, 2, 18, 41, 5, 1, 19, 42, 6, 43])) (.leaf [25, 39, 63, 29, 3, 30,
  16, 13, 67, 11, 4, 0, 17, 14, 40, 12, 2, 18, 41, 5, 1, 19, 42, 6, 43])) (.leaf [25, 39, 63, 29,
  3, 30, 16, 13, 67, 11, 4, 0, 17, 14, 40, 12, 2, 18, 41, 5, 1, 19, 42, 6, 43])) (.leaf [25, 39,
  63, 29, 3, 30, 16, 13, 67, 11, 4, 0, 17, 14, 40, 12, 2, 18, 41, 5, 1, 19, 42, 6, 43])) (.leaf
  [25, 39, 63, 29, 3, 30, 16, 13, 67, 11, 4, 0, 17, 14, 40, 12, 2, 18, 41, 5, 1, 19, 42, 6, 43]))
  (.leaf [25, 39, 63, 29, 3, 30, 16, 13, 67, 11, 4, 0, 17, 14, 40, 12, 2, 18, 41, 5, 1, 19, 42, 6,
  43])) (.leaf [25, 39, 63, 29, 3, 30, 16, 13, 67, 11, 4, 0, 17, 14, 40, 12, 2, 18, 41, 5, 1, 19,
  42, 6, 43])) (.leaf [25, 39, 63, 29, 3, 30, 16, 13, 67, 11, 4, 0, 17, 14, 40, 12, 2, 18, 41, 5,
  1, 19, 42, 6, 43])

/-- some of the cases -/
def real5OneCase40 : LooseTree :=
  .breaks 1089621 (.breaks 12619795 (.breaks 24186962 (.breaks 9474065 (.breaks 10502226 (.breaks
  10526913 (.breaks 17879237 (.breaks 17895617 (.breaks 4210881 (.breaks 9474177 (.breaks 10526737
  (.breaks 13684817 (.breaks 17895441 (.breaks 4210705 (.breaks 9474193 (.breaks 10526753 (.breaks
  17895457 (.breaks 4210721 (.breaks 10526721 (.breaks 17895425 (.breaks 4210689 (.leaf [25, 61,
  39, 62, 29, 3, 30, 16, 11, 55, 4, 0, 17, 12, 56, 2, 18, 5, 1, 19, 6]) (.leaf [25, 61, 39, 62, 29,
  3, 30, 16, 11, 55, 4, 0, 31, 17, 12, 56, 2, 18, 13, 5, 1, 19, 14, 6])) (.leaf [25, 61, 39, 62,
  29, 3, 30, 16, 11, 55, 4, 0, 31, 17, 12, 56, 2, 18, 13, 5, 1, 19, 14, 6])) (.leaf [25, 61, 39,
  62, 29, 3, 30, 16, 11, 55, 4, 0, 31, 17, 12, 56, 2, 18, 13, 5, 1, 19, 14, 6])) (.leaf [25, 61,
  39, 62, 29, 3, 30, 16, 11, 55, 4, 0, 31, 17, 12, 56, 2, 18, 13, 5, 1, 19, 14, 6])) (.leaf [25,
  61, 39, 62, 29, 3, 30, 16, 11, 55, 4, 0, 31, 17, 12, 56, 2, 18, 13, 5, 1, 19, 14, 6])) (.leaf
  [25, 61, 39, 62, 29, 3, 30, 16, 11, 55, 4, 0, 31, 17, 12, 56, 2, 18, 13, 5, 1, 19, 14, 6]))
  (.leaf [25, 61, 39, 62, 29, 3, 30, 16, 11, 55, 4, 0, 31, 17, 12, 56, 2, 18, 13, 5, 1, 19, 14,
  6])) (.leaf [25, 61, 39, 62, 29, 3, 30, 16, 11, 55, 4, 0, 31, 17, 12, 56, 2, 18, 13, 5, 1, 19,
  14, 6])) (.leaf [25, 61, 39, 62, 29, 3, 30, 16, 11, 55, 4, 0, 31, 17, 12, 56, 2, 18, 13, 5, 1,
  19, 14, 6])) (.leaf [25, 61, 39, 62, 29, 3, 30, 16, 11, 55, 4, 0, 31, 17, 12, 56, 2, 18, 13, 5,
  1, 19, 14, 6])) (.leaf [25, 61, 39, 62, 29, 3, 30, 16, 11, 55, 4, 0, 31, 17, 12, 56, 2, 18, 13,
  5, 1, 19, 14, 6])) (.leaf [25, 61, 39, 62, 29, 3, 30, 16, 11, 55, 4, 0, 31, 17, 12, 56, 2, 18,
  13, 5, 1, 19, 14, 6])) (.leaf [25, 61, 39, 62, 29, 3, 30, 16, 11, 55, 4, 0, 31, 17, 12, 56, 2,
  18, 13, 5, 1, 19, 14, 6])) (.leaf [25, 61, 39, 62, 29, 3, 30, 16, 11, 55, 4, 0, 31, 17, 12, 56,
  2, 18, 13, 5, 1, 19, 14, 6])) (.leaf [25, 61, 48, 39, 62, 29, 3, 30, 16, 35, 11, 55, 4, 0, 17,
  36, 12, 56, 2, 18, 5, 1, 19, 6])) (.leaf [25, 61, 39, 62, 29, 3, 30, 16, 11, 55, 4, 0, 31, 17,
  12, 56, 2, 18, 13, 5, 1, 19, 14, 6])) (.leaf [25, 61, 39, 62, 29, 3, 30, 16, 11, 55, 4, 0, 31,
  17, 12, 56, 2, 18, 13, 5, 1, 19, 14, 6])) (.leaf [25, 128, 39, 55, 29, 3, 30, 16, 11, 56, 4, 0,
  31, 17, 12, 2, 18, 13, 5, 1, 19, 14, 6])) (.leaf [25, 61, 48, 39, 62, 29, 3, 30, 16, 35, 11, 55,
  4, 0, 17, 36, 12, 56, 2, 18, 5, 1, 19, 6])) (.leaf [25, 128, 39, 55, 29, 3, 30, 16, 11, 56, 4, 0,
  31, 17, 12, 2, 18, 13, 5, 1, 19, 14, 6])) (.leaf [25, 61, 39, 62, 29, 3, 30, 16, 11, 55, 4, 0,
  31, 17, 12, 56, 2, 18, 13, 5, 1, 19, 14, 6])

/-- some of the cases -/
def real5OneCase41 : LooseTree :=
  .cases [] 22 (.breaks 1089619 (.breaks 24186962 (.breaks 10526801 (.breaks 17879237 (.breaks
  17895617 (.breaks 10526913 (.breaks 13684817 (.breaks 13705410 (.breaks 17895441 (.breaks 4210881
  (.breaks 10526737 (.breaks 17895457 (.breaks 18948177 (.breaks 18972866 (.breaks 4210705 (.breaks
  10526753 (.breaks 17895425 (.breaks 18948209 (.breaks 25264209 (.breaks 4210721 (.breaks 10526721
  (.breaks 4210689 (.leaf [79, 39, 46, 30, 16, 29, 3, 0, 31, 17, 11, 4, 18, 13, 34, 12, 2, 19, 14,
  24, 5, 1, 6]) (.leaf [79, 39, 46, 30, 16, 29, 3, 0, 31, 17, 11, 4, 18, 13, 34, 12, 2, 19, 14, 24,
  5, 1, 6])) (.leaf [79, 39, 46, 30, 16, 29, 3, 0, 31, 17, 11, 4, 18, 13, 34, 12, 2, 19, 14, 24, 5,
  1, 6])) (.leaf [79, 39, 46, 30, 16, 29, 3, 0, 31, 17, 11, 4, 18, 13, 34, 12, 2, 19, 14, 24, 5, 1,
  6])) (.leaf [79, 72, 48, 39, 74, 46, 30, 16, 35, 29, 3, 0, 17, 36, 22, 11, 4, 18, 23, 12, 2, 19,
  5, 1, 6])) (.leaf [79, 72, 48, 39, 74, 46, 30, 16, 35, 29, 3, 0, 17, 36, 22, 11, 4, 18, 23, 12,
  2, 19, 5, 1, 6])) (.leaf [79, 72, 39, 74, 46, 30, 16, 29, 3, 0, 31, 17, 22, 11, 4, 18, 13, 23,
  12, 2, 19, 14, 5, 1, 6])) (.leaf [79, 39, 46, 30, 16, 29, 3, 0, 31, 17, 11, 4, 18, 13, 34, 12, 2,
  19, 14, 24, 5, 1, 6])) (.leaf [79, 39, 46, 30, 16, 29, 3, 0, 31, 17, 11, 4, 18, 13, 34, 12, 2,
  19, 14, 24, 5, 1, 6])) (.leaf [79, 72, 48, 39, 74, 46, 30, 16, 35, 29, 3, 0, 17, 36, 22, 11, 4,
  18, 23, 12, 2, 19, 5, 1, 6])) (.leaf [79, 72, 48, 39, 74, 46, 30, 16, 35, 29, 3, 0, 17, 36, 22,
  11, 4, 18, 23, 12, 2, 19, 5, 1, 6])) (.leaf [79, 72, 39, 74, 46, 30, 16, 29, 3, 0, 31, 17, 22,
  11, 4, 18, 13, 23, 12, 2, 19, 14, 5, 1, 6])) (.leaf [79, 39, 46, 30, 16, 29, 3, 0, 31, 17, 11, 4,
  18, 13, 34, 12, 2, 19, 14, 24, 5, 1, 6])) (.leaf [79, 39, 46, 30, 16, 29, 3, 0, 31, 17, 11, 4,
  18, 13, 34, 12, 2, 19, 14, 24, 5, 1, 6])) (.leaf [79, 72, 39, 74, 46, 30, 16, 29, 3, 0, 31, 17,
  22, 11, 4, 18, 13, 23, 12, 2, 19, 14, 5, 1, 6])) (.leaf [79, 72, 48, 39, 74, 46, 30, 16, 35, 29,
  3, 0, 17, 36, 22, 11, 4, 18, 23, 12, 2, 19, 5, 1, 6])) (.leaf [79, 39, 46, 30, 16, 29, 3, 0, 31,
  17, 11, 4, 18, 13, 34, 12, 2, 19, 14, 24, 5, 1, 6])) (.leaf [79, 39, 46, 30, 16, 29, 3, 0, 31,
  17, 11, 4, 18, 13, 34, 12, 2, 19, 14, 24, 5, 1, 6])) (.leaf [79, 72, 39, 74, 46, 30, 16, 29, 3,
  0, 31, 17, 22, 11, 4, 18, 13, 23, 12, 2, 19, 14, 5, 1, 6])) (.leaf [79, 72, 48, 39, 74, 46, 30,
  16, 35, 29, 3, 0, 17, 36, 22, 11, 4, 18, 23, 12, 2, 19, 5, 1, 6])) (.leaf [79, 72, 39, 74, 46,
  30, 16, 29, 3, 0, 31, 17, 22, 11, 4, 18, 13, 23, 12, 2, 19, 14, 5, 1, 6])) (.leaf [79, 72, 48,
  39, 74, 46, 30, 16, 35, 29, 3, 0, 31, 17, 36, 22, 11, 4, 18, 13, 23, 12, 2, 19, 14, 5, 1, 6]))
  (.leaf [79, 72, 39, 74, 46, 30, 16, 29, 3, 0, 31, 17, 22, 11, 4, 18, 13, 23, 12, 2, 19, 14, 5, 1,
  6])) (.breaks 1089621 (.breaks 10489939 (.cycle 33 [25, 130]) (.leaf [25, 72, 39, 74, 29, 3, 30,
  16, 11, 4, 0, 31, 17, 22, 12, 2, 18, 13, 34, 23, 5, 1, 19, 14, 24, 58, 6, 40, 41, 42, 43]))
  (.leaf [25, 72, 48, 39, 74, 29, 3, 30, 16, 35, 11, 4, 0, 31, 17, 36, 22, 12, 2, 18, 13, 34, 23,
  5, 1, 19, 14, 24, 58, 6, 40, 41, 42, 43]))

/-- some of the cases -/
def real5OneCase42 : LooseTree :=
  .cases [] 22 (.breaks 1089619 (.breaks 21000211 (.breaks 24186962 (.breaks 10526801 (.breaks
  17879237 (.breaks 17895617 (.breaks 10502226 (.breaks 10526913 (.breaks 13684817 (.breaks
  13705410 (.breaks 17895441 (.breaks 4210881 (.breaks 10526737 (.breaks 17895457 (.breaks 18948177
  (.breaks 4210705 (.breaks 10526753 (.breaks 17895425 (.breaks 18948209 (.breaks 4210721 (.breaks
  10526721 (.breaks 4210689 (.leaf [79, 60, 39, 46, 30, 16, 29, 3, 0, 31, 17, 11, 4, 18, 13, 12, 2,
  19, 14, 5, 1, 6]) (.leaf [79, 39, 46, 30, 16, 29, 3, 0, 31, 17, 11, 4, 18, 13, 34, 12, 2, 19, 14,
  24, 5, 1, 6])) (.leaf [79, 39, 46, 30, 16, 29, 3, 0, 31, 17, 11, 4, 18, 13, 34, 12, 2, 19, 14,
  24, 5, 1, 6])) (.leaf [79, 39, 46, 30, 16, 29, 3, 0, 31, 17, 11, 4, 18, 13, 34, 12, 2, 19, 14,
  24, 5, 1, 6])) (.leaf [79, 60, 48, 39, 46, 30, 16, 35, 29, 3, 0, 17, 36, 11, 4, 18, 12, 2, 19, 5,
  1, 6])) (.leaf [79, 60, 39, 46, 30, 16, 29, 3, 0, 31, 17, 11, 4, 18, 13, 34, 12, 2, 19, 14, 24,
  5, 1, 6])) (.leaf [79, 39, 46, 30, 16, 29, 3, 0, 31, 17, 11, 4, 18, 13, 34, 12, 2, 19, 14, 24, 5,
  1, 6])) (.leaf [79, 39, 46, 30, 16, 29, 3, 0, 31, 17, 11, 4, 18, 13, 34, 12, 2, 19, 14, 24, 5, 1,
  6])) (.leaf [79, 60, 48, 39, 46, 30, 16, 35, 29, 3, 0, 17, 36, 11, 4, 18, 12, 2, 19, 5, 1, 6]))
  (.leaf [79, 60, 39, 46, 30, 16, 29, 3, 0, 31, 17, 11, 4, 18, 13, 34, 12, 2, 19, 14, 24, 5, 1,
  6])) (.leaf [79, 39, 46, 30, 16, 29, 3, 0, 31, 17, 11, 4, 18, 13, 34, 12, 2, 19, 14, 24, 5, 1,
  6])) (.leaf [79, 39, 46, 30, 16, 29, 3, 0, 31, 17, 11, 4, 18, 13, 34, 12, 2, 19, 14, 24, 5, 1,
  6])) (.leaf [79, 60, 39, 46, 30, 16, 29, 3, 0, 31, 17, 11, 4, 18, 13, 34, 12, 2, 19, 14, 24, 5,
  1, 6])) (.leaf [79, 60, 48, 39, 46, 30, 16, 35, 29, 3, 0, 17, 36, 11, 4, 18, 12, 2, 19, 5, 1,
  6])) (.leaf [79, 39, 46, 30, 16, 29, 3, 0, 31, 17, 11, 4, 18, 13, 34, 12, 2, 19, 14, 24, 5, 1,
  6])) (.leaf [79, 39, 46, 30, 16, 29, 3, 0, 31, 17, 11, 4, 18, 13, 34, 12, 2, 19, 14, 24, 5, 1,
  6])) (.leaf [79, 39, 46, 30, 16, 29, 3, 0, 31, 17, 11, 4, 18, 13, 34, 12, 2, 19, 14, 24, 5, 1,
  6])) (.leaf [79, 60, 39, 46, 30, 16, 29, 3, 0, 31, 17, 11, 4, 18, 13, 34, 12, 2, 19, 14, 24, 5,
  1, 6])) (.leaf [79, 60, 48, 39, 46, 30, 16, 35, 29, 3, 0, 31, 17, 36, 11, 4, 18, 13, 12, 2, 19,
  14, 5, 1, 6])) (.leaf [79, 60, 39, 46, 30, 16, 29, 3, 0, 31, 17, 11, 4, 18, 13, 34, 12, 2, 19,
  14, 24, 5, 1, 6])) (.leaf [79, 60, 48, 39, 46, 30, 16, 35, 29, 3, 0, 31, 17, 36, 11, 4, 18, 13,
  34, 12, 2, 19, 14, 24, 5, 1, 6])) (.leaf [79, 39, 46, 30, 16, 29, 3, 0, 31, 17, 11, 4, 18, 13,
  34, 12, 2, 19, 14, 24, 5, 1, 6])) (.leaf [79, 60, 39, 46, 30, 16, 29, 3, 0, 31, 17, 11, 4, 18,
  13, 34, 12, 2, 19, 14, 24, 5, 1, 6])) (.cases [] 32 (.cases [] 18 (.cases [] 25 (.breaks 1089621
  (.breaks 10489939 (.cycle 33 [25, 130]) (.leaf [25, 60, 39, 84, 85, 29, 3, 30, 16, 48, 37, 11, 4,
  0, 31, 17, 35, 12, 2, 18, 13, 36, 5, 1, 19, 14, 6])) (.leaf [25, 60, 39, 84, 85, 29, 3, 30, 16,
  48, 37, 11, 4, 0, 31, 17, 35, 12, 2, 18, 13, 34, 36, 5, 1, 19, 14, 24, 6])) (.cases [] 39
  (.breaks 1089621 (.breaks 10489939 (.cycle 33 [25, 130]) (.leaf [25, 60, 39, 29, 3, 30, 16, 11,
  4, 0, 31, 17, 12, 2, 18, 34, 5, 1, 19, 24, 6, 112, 106, 40, 41, 42, 43])) (.leaf [25, 60, 39, 29,
  3, 30, 16, 11, 4, 0, 31, 17, 12, 2, 18, 13, 34, 5, 1, 19, 14, 24, 6, 112, 106, 40, 41, 42, 43]))
  (.breaks 1089621 (.breaks 10489939 (.cycle 33 [25, 130]) (.cycle 43 [117, 58])) (.cycle 43
  [117, 58])))) (.breaks 1089621 (.breaks 10489939 (.cycle 33 [25, 130]) (.leaf [25, 70, 60, 39,
  64, 29, 3, 30, 16, 11, 65, 4, 0, 31, 17, 12, 2, 18, 13, 34, 5, 1, 19, 14, 24, 6])) (.leaf [25,
  70, 60, 48, 39, 64, 29, 3, 30, 16, 35, 11, 65, 4, 0, 31, 17, 36, 12, 2, 18, 13, 34, 5, 1, 19, 14,
  24, 6]))) (.breaks 1089621 (.breaks 10489939 (.cycle 33 [25, 130]) (.leaf [25, 150, 60, 39, 29,
  1, 30, 16, 11, 0, 31, 17, 12, 18, 13, 34, 5, 19, 14, 24, 58, 6, 40, 41, 42, 43])) (.leaf [25,
  150, 60, 48, 39, 29, 1, 30, 16, 35, 11, 0, 31, 17, 36, 12, 18, 13, 34, 5, 19, 14, 24, 58, 6, 40,
  41, 42, 43])))

/-- some of the cases -/
def real5OneCase43 : LooseTree :=
  .breaks 22097938 (.breaks 24186962 (.breaks 10502226 (.breaks 10526913 (.breaks 17879237 (.breaks
  17895617 (.breaks 20000897 (.breaks 4210881 (.breaks 10526737 (.breaks 13684817 (.breaks 13705410
  (.breaks 17895441 (.breaks 20000945 (.breaks 4210705 (.breaks 10526753 (.breaks 17895457 (.breaks
  18948177 (.breaks 20000929 (.breaks 4210721 (.breaks 10526721 (.breaks 17895425 (.breaks 18948209
  (.breaks 4210689 (.leaf [25, 71, 39, 29, 3, 30, 16, 51, 11, 4, 0, 31, 17, 35, 12, 2, 18, 13, 36,
  5, 1, 19, 14, 6]) (.leaf [25, 71, 39, 29, 3, 30, 16, 51, 11, 4, 0, 31, 17, 35, 12, 2, 18, 13, 36,
  5, 1, 19, 14, 6])) (.leaf [25, 71, 39, 29, 3, 30, 16, 51, 11, 4, 0, 31, 17, 35, 12, 2, 18, 34,
  36, 5, 1, 19, 24, 6])) (.leaf [25, 71, 39, 29, 3, 30, 16, 51, 11, 4, 0, 31, 17, 35, 12, 2, 18,
  13, 36, 5, 1, 19, 14, 6])) (.leaf [25, 71, 39, 29, 3, 30, 16, 51, 11, 4, 0, 31, 17, 35, 12, 2,
  18, 13, 36, 5, 1, 19, 14, 6])) (.leaf [25, 71, 39, 29, 3, 30, 16, 51, 11, 4, 0, 31, 17, 35, 12,
  2, 18, 13, 36, 5, 1, 19, 14, 6])) (.leaf [25, 71, 39, 29, 3, 30, 16, 51, 11, 4, 0, 31, 17, 35,
  12, 2, 18, 13, 36, 5, 1, 19, 14, 6])) (.leaf [25, 71, 39, 29, 3, 30, 16, 51, 11, 4, 0, 31, 17,
  35, 12, 2, 18, 34, 36, 5, 1, 19, 24, 6])) (.leaf [25, 71, 39, 29, 3, 30, 16, 51, 11, 4, 0, 31,
  17, 35, 12, 2, 18, 13, 36, 5, 1, 19, 14, 6])) (.leaf [25, 71, 39, 29, 3, 30, 16, 51, 11, 4, 0,
  31, 17, 35, 12, 2, 18, 13, 36, 5, 1, 19, 14, 6])) (.leaf [25, 71, 39, 29, 3, 30, 16, 51, 11, 4,
  0, 31, 17, 35, 12, 2, 18, 13, 36, 5, 1, 19, 14, 6])) (.leaf [25, 71, 39, 29, 3, 30, 16, 51, 11,
  4, 0, 31, 17, 35, 12, 2, 18, 13, 36, 5, 1, 19, 14, 6])) (.leaf [25, 71, 39, 29, 3, 30, 16, 51,
  11, 4, 0, 31, 17, 35, 12, 2, 18, 13, 36, 5, 1, 19, 14, 6])) (.leaf [25, 71, 39, 29, 3, 30, 16,
  51, 11, 4, 0, 31, 17, 35, 12, 2, 18, 13, 36, 5, 1, 19, 14, 6])) (.leaf [25, 71, 39, 29, 3, 30,
  16, 51, 11, 4, 0, 31, 17, 35, 12, 2, 18, 13, 36, 5, 1, 19, 14, 6])) (.leaf [25, 71, 39, 29, 3,
  30, 16, 51, 11, 4, 0, 31, 17, 35, 12, 2, 18, 13, 36, 5, 1, 19, 14, 6])) (.leaf [25, 71, 39, 29,
  3, 30, 16, 51, 11, 4, 0, 31, 17, 35, 12, 2, 18, 13, 36, 5, 1, 19, 14, 6])) (.leaf [25, 71, 39,
  29, 3, 30, 16, 51, 11, 4, 0, 31, 17, 35, 12, 2, 18, 13, 36, 5, 1, 19, 14, 6])) (.leaf [25, 71,
  39, 29, 3, 30, 16, 51, 11, 4, 0, 31, 17, 35, 12, 2, 18, 13, 36, 5, 1, 19, 14, 6])) (.leaf [25,
  71, 39, 29, 3, 30, 16, 51, 11, 4, 0, 31, 17, 35, 12, 2, 18, 13, 36, 5, 1, 19, 14, 6])) (.leaf
  [25, 71, 39, 29, 3, 30, 16, 51, 11, 4, 0, 31, 17, 35, 12, 2, 18, 13, 36, 5, 1, 19, 14, 6]))
  (.leaf [25, 71, 39, 29, 3, 30, 16, 51, 11, 4, 0, 31, 17, 35, 12, 2, 18, 13, 36, 5, 1, 19, 14,
  6])) (.leaf [25, 71, 39, 29, 3, 30, 16, 51, 11, 4, 0, 31, 17, 35, 12, 2, 18, 13, 34, 36, 5, 1,
  19, 14, 24, 6])) (.leaf [25, 71, 39, 29, 3, 30, 16, 51, 11, 4, 0, 31, 17, 35, 12, 2, 18, 13, 36,
  5, 1, 19, 14, 6])

/-- some of the cases -/
def real5OneCase44 : LooseTree :=
  .breaks 1089621 (.breaks 24186962 (.breaks 10502226 (.breaks 10526913 (.breaks 17879237 (.breaks
  17895617 (.breaks 25264209 (.breaks 4210881 (.breaks 10526737 (.breaks 13684817 (.breaks 17895441
  (.breaks 4210705 (.breaks 10526753 (.breaks 17895457 (.breaks 4210721 (.breaks 10526721 (.breaks
  17895425 (.breaks 4210689 (.leaf [25, 39, 68, 29, 3, 30, 16, 24, 11, 4, 0, 17, 12, 2, 18, 5, 1,
  19, 6]) (.leaf [25, 39, 68, 29, 3, 30, 16, 24, 11, 4, 0, 17, 12, 2, 18, 5, 1, 19, 6])) (.leaf
  [25, 48, 39, 68, 29, 3, 30, 16, 35, 24, 11, 4, 0, 17, 36, 12, 2, 18, 5, 1, 19, 6])) (.leaf [25,
  39, 68, 29, 3, 30, 16, 24, 11, 4, 0, 17, 12, 2, 18, 5, 1, 19, 6])) (.leaf [25, 39, 68, 29, 3, 30,
  16, 24, 11, 4, 0, 17, 12, 2, 18, 5, 1, 19, 6])) (.leaf [25, 48, 39, 68, 29, 3, 30, 16, 35, 24,
  11, 4, 0, 17, 36, 12, 2, 18, 5, 1, 19, 6])) (.leaf [25, 39, 68, 29, 3, 30, 16, 24, 11, 4, 0, 17,
  12, 2, 18, 5, 1, 19, 6])) (.leaf [25, 39, 68, 29, 3, 30, 16, 24, 11, 4, 0, 17, 12, 2, 18, 5, 1,
  19, 6])) (.leaf [25, 48, 39, 68, 29, 3, 30, 16, 35, 24, 11, 4, 0, 17, 36, 12, 2, 18, 5, 1, 19,
  6])) (.leaf [25, 39, 68, 29, 3, 30, 16, 24, 11, 4, 0, 17, 12, 2, 18, 5, 1, 19, 6])) (.leaf [25,
  39, 68, 29, 3, 30, 16, 24, 11, 4, 0, 17, 12, 2, 18, 5, 1, 19, 6])) (.leaf [25, 39, 68, 29, 3, 30,
  16, 24, 11, 4, 0, 17, 12, 2, 18, 5, 1, 19, 6])) (.leaf [25, 39, 68, 29, 3, 30, 16, 24, 11, 4, 0,
  17, 12, 2, 18, 5, 1, 19, 6])) (.leaf [25, 48, 39, 68, 29, 3, 30, 16, 35, 24, 11, 4, 0, 17, 36,
  12, 2, 18, 5, 1, 19, 6])) (.leaf [25, 39, 68, 29, 3, 30, 16, 24, 11, 4, 0, 17, 12, 2, 18, 5, 1,
  19, 6])) (.leaf [25, 39, 68, 29, 3, 30, 16, 24, 11, 4, 0, 17, 12, 2, 18, 5, 1, 19, 6])) (.leaf
  [25, 39, 68, 29, 3, 30, 16, 24, 11, 4, 0, 17, 12, 2, 18, 5, 1, 19, 6])) (.leaf [25, 48, 39, 68,
  29, 3, 30, 16, 35, 24, 11, 4, 0, 17, 36, 12, 2, 18, 5, 1, 19, 6])) (.leaf [25, 48, 39, 68, 29, 3,
  30, 16, 35, 24, 11, 4, 0, 17, 36, 12, 2, 18, 5, 1, 19, 6])

/-- some of the cases -/
def real5OneCase45 : LooseTree :=
  .cases [] 35 (.breaks 18948289 (.cycle 18 [146, 147, 148]) (.cycle 18 [146, 147, 148])) (.cases
  [] 36 (.cases [] 55 (.leaf [161, 162]) (.leaf [160])) (.breaks 24186962 (.breaks 13664291
  (.breaks 13684817 (.breaks 17895617 (.breaks 8421409 (.breaks 17895441 (.breaks 8421393 (.breaks
  17895457 (.breaks 8421505 (.breaks 17895425 (.breaks 8421521 (.leaf
  [101, 87, 39, 102, 0, 16, 103, 17, 104, 18, 64, 19, 65]) (.leaf
  [101, 87, 39, 102, 0, 16, 103, 17, 104, 18, 64, 19, 65])) (.leaf
  [101, 87, 39, 102, 0, 16, 103, 17, 104, 18, 64, 19, 65])) (.leaf
  [101, 87, 39, 102, 0, 16, 103, 17, 104, 18, 64, 19, 65])) (.leaf
  [101, 87, 39, 102, 0, 16, 103, 17, 104, 18, 64, 19, 65])) (.leaf
  [101, 87, 39, 102, 0, 16, 103, 17, 104, 18, 64, 19, 65])) (.leaf
  [101, 87, 39, 102, 0, 16, 103, 17, 104, 18, 64, 19, 65])) (.leaf
  [101, 87, 39, 102, 0, 16, 103, 17, 104, 18, 64, 19, 65])) (.leaf
  [101, 87, 39, 102, 0, 16, 103, 17, 104, 18, 64, 19, 65])) (.leaf
  [101, 87, 39, 102, 0, 16, 103, 17, 104, 18, 64, 19, 65])) (.leaf
  [101, 87, 39, 102, 0, 16, 103, 17, 104, 18, 64, 19, 65])) (.leaf
  [101, 87, 39, 102, 0, 16, 103, 17, 104, 18, 64, 19, 65])))

/-- some of the cases -/
def real5OneCase46 : LooseTree :=
  .breaks 12619795 (.breaks 20013237 (.breaks 24186962 (.breaks 4235346 (.breaks 9474065 (.breaks
  17879237 (.breaks 17895617 (.breaks 23158913 (.breaks 9474177 (.breaks 10526913 (.breaks 13684817
  (.breaks 17895441 (.breaks 23158801 (.breaks 9474193 (.breaks 10526737 (.breaks 17895457 (.breaks
  10526753 (.breaks 17895425 (.breaks 10526721 (.leaf [26, 61, 44, 39, 38, 62, 30, 16, 45, 55, 3,
  0, 17, 37, 56, 4, 18, 2, 19, 1]) (.leaf [26, 61, 44, 39, 38, 62, 30, 16, 45, 55, 3, 0, 17, 37,
  56, 4, 18, 2, 19, 1])) (.leaf [26, 61, 44, 39, 11, 38, 62, 30, 16, 45, 12, 55, 3, 0, 17, 37, 5,
  56, 4, 18, 6, 2, 19, 1])) (.leaf [26, 61, 44, 39, 38, 62, 30, 16, 45, 55, 3, 0, 17, 37, 56, 4,
  18, 2, 19, 1])) (.leaf [26, 61, 44, 39, 11, 38, 62, 30, 16, 45, 12, 55, 3, 0, 17, 37, 5, 56, 4,
  18, 6, 2, 19, 1])) (.leaf [26, 61, 44, 39, 38, 62, 30, 16, 45, 55, 3, 0, 17, 37, 56, 4, 18, 2,
  19, 1])) (.leaf [26, 61, 44, 39, 38, 62, 30, 16, 45, 55, 3, 0, 17, 37, 56, 4, 18, 2, 19, 1]))
  (.leaf [26, 61, 44, 39, 38, 62, 30, 16, 45, 55, 3, 0, 17, 37, 56, 4, 18, 2, 19, 1])) (.leaf [26,
  61, 44, 39, 11, 38, 62, 30, 16, 45, 12, 55, 3, 0, 17, 37, 5, 56, 4, 18, 6, 2, 19, 1])) (.leaf
  [26, 61, 44, 39, 38, 62, 30, 16, 45, 55, 3, 0, 17, 37, 56, 4, 18, 2, 19, 1])) (.leaf [26, 61, 44,
  39, 38, 62, 30, 16, 45, 55, 3, 0, 17, 37, 56, 4, 18, 2, 19, 1])) (.leaf [26, 61, 44, 39, 38, 62,
  30, 16, 45, 55, 3, 0, 17, 37, 56, 4, 18, 2, 19, 1])) (.leaf [26, 61, 44, 39, 38, 62, 30, 16, 45,
  55, 3, 0, 17, 37, 56, 4, 18, 2, 19, 1])) (.leaf [26, 61, 44, 39, 11, 38, 62, 30, 16, 45, 12, 55,
  3, 0, 17, 37, 5, 56, 4, 18, 6, 2, 19, 1])) (.leaf [26, 61, 44, 39, 38, 62, 30, 16, 45, 55, 3, 0,
  17, 37, 56, 4, 18, 2, 19, 1])) (.leaf [26, 128, 44, 39, 38, 55, 30, 16, 45, 56, 3, 0, 17, 37, 4,
  18, 2, 19, 1])) (.leaf [26, 61, 44, 39, 38, 62, 30, 16, 45, 55, 3, 0, 17, 37, 56, 4, 18, 2, 19,
  1])) (.leaf [26, 61, 44, 39, 11, 38, 62, 30, 16, 45, 12, 55, 3, 0, 17, 37, 5, 56, 4, 18, 6, 2,
  19, 1])) (.leaf [26, 61, 44, 39, 38, 62, 30, 16, 45, 55, 3, 0, 17, 37, 56, 4, 18, 2, 19, 1]))
  (.leaf [26, 128, 44, 39, 38, 55, 30, 16, 45, 56, 3, 0, 17, 37, 4, 18, 2, 19, 1])

/-- some of the cases -/
def real5OneCase47 : LooseTree :=
  .cases [] 17 (.breaks 17879237 (.breaks 17895617 (.breaks 18948177 (.breaks 23158913 (.breaks
  10526913 (.breaks 13684817 (.breaks 17895441 (.breaks 18948209 (.breaks 23158801 (.breaks
  10526737 (.breaks 17895457 (.breaks 10526753 (.breaks 17895425 (.breaks 10526721 (.leaf [26, 44,
  39, 80, 38, 30, 16, 13, 45, 3, 0, 17, 14, 37, 4, 18, 2, 19, 1]) (.leaf [26, 44, 39, 80, 38, 30,
  16, 13, 45, 3, 0, 17, 14, 37, 4, 18, 2, 19, 1])) (.leaf [26, 44, 39, 80, 38, 30, 16, 13, 45, 3,
  0, 17, 14, 37, 4, 18, 2, 19, 1])) (.leaf [26, 44, 39, 80, 38, 30, 16, 13, 45, 3, 0, 17, 14, 37,
  4, 18, 2, 19, 1])) (.leaf [26, 44, 39, 80, 38, 30, 16, 13, 45, 3, 0, 17, 14, 37, 4, 18, 2, 19,
  1])) (.leaf [26, 44, 39, 80, 38, 30, 16, 13, 45, 3, 0, 17, 14, 37, 4, 18, 2, 19, 1])) (.leaf [26,
  44, 39, 80, 38, 30, 16, 13, 45, 3, 0, 17, 14, 37, 4, 18, 2, 19, 1])) (.leaf [26, 44, 39, 80, 38,
  30, 16, 13, 45, 3, 0, 17, 14, 37, 4, 18, 2, 19, 1])) (.leaf [26, 44, 39, 80, 38, 30, 16, 13, 45,
  3, 0, 17, 14, 37, 4, 18, 2, 19, 1])) (.leaf [26, 44, 39, 80, 38, 30, 16, 13, 45, 3, 0, 17, 14,
  37, 4, 18, 2, 19, 1])) (.leaf [26, 44, 39, 80, 38, 30, 16, 13, 45, 3, 0, 17, 14, 37, 4, 18, 2,
  19, 1])) (.leaf [26, 44, 39, 80, 38, 30, 16, 13, 45, 3, 0, 17, 14, 37, 4, 18, 2, 19, 1])) (.leaf
  [26, 44, 39, 80, 38, 30, 16, 13, 45, 3, 0, 17, 14, 37, 4, 18, 2, 19, 1])) (.leaf [26, 44, 39, 80,
  38, 30, 16, 13, 45, 3, 0, 17, 14, 37, 4, 18, 2, 19, 1])) (.leaf [26, 44, 39, 80, 38, 30, 16, 13,
  45, 3, 0, 17, 14, 37, 4, 18, 2, 19, 1])) (.breaks 24186962 (.breaks 25239746 (.breaks 17895617
  (.breaks 18948177 (.breaks 18976853 (.breaks 23158913 (.breaks 10526913 (.breaks 13684817
  (.breaks 17895441 (.breaks 18948209 (.breaks 23158801 (.breaks 26316993 (.breaks 10526737
  (.breaks 17895457 (.breaks 26316817 (.breaks 10526753 (.breaks 17895425 (.breaks 26316833
  (.breaks 10526721 (.breaks 26316801 (.leaf [26, 44, 39, 63, 38, 30, 16, 13, 67, 45, 3, 0, 17, 14,
  37, 40, 4, 18, 41, 2, 19, 42, 1, 43]) (.leaf [26, 44, 39, 63, 38, 30, 16, 13, 67, 45, 3, 0, 17,
  14, 37, 40, 4, 18, 41, 2, 19, 42, 1, 43])) (.leaf [26, 44, 39, 63, 38, 30, 16, 13, 67, 45, 3, 0,
  17, 14, 37, 40, 4, 18, 41, 2, 19, 42, 1, 43])) (.leaf [26, 44, 39, 63, 38, 30, 16, 13, 67, 45, 3,
  0, 17, 14, 37, 40, 4, 18, 41, 2, 19, 42, 1, 43])) (.leaf [26, 44, 39, 63, 38, 30, 16, 13, 67, 45,
  3, 0, 17, 14, 37, 40, 4, 18, 41, 2, 19, 42, 1, 43])) (.leaf [26, 44, 39, 63, 38, 30, 16, 13, 67,
  45, 3, 0, 17, 14, 37, 40, 4, 18, 41, 2, 19, 42, 1, 43])) (.leaf [26, 44, 39, 63, 38, 30, 16, 13,
  67, 45, 3, 0, 17, 14, 37, 40, 4, 18, 41, 2, 19, 42, 1, 43])) (.leaf [26, 44, 39, 63, 38, 30, 16,
  13, 67, 45, 3, 0, 17, 14, 37, 40, 4, 18, 41, 2, 19, 42, 1, 43])) (.leaf [26, 44, 39, 63, 38, 30,
  16, 13, 67, 45, 3, 0, 17, 14, 37, 40, 4, 18, 41, 2, 19, 42, 1, 43])) (.leaf [26, 44, 39, 63, 38,
  30, 16, 13, 67, 45, 3, 0, 17, 14, 37, 40, 4, 18, 41, 2, 19, 42, 1, 43])) (.leaf [26, 44, 39, 63,
  38, 30, 16, 13, 67, 45, 3, 0, 17, 14, 37, 40, 4, 18, 41, 2, 19, 42, 1, 43])) (.leaf [26, 44, 39,
  63, 38, 30, 16, 13, 67, 45, 3, 0, 17, 14, 37, 40, 4, 18, 41, 2, 19, 42, 1, 43])) (.leaf [26, 44,
  39, 63, 38, 30, 16, 13, 67, 45, 3, 0, 17, 14, 37, 40, 4, 18, 41, 2, 19, 42, 1, 43])) (.leaf [26,
  44, 39, 63, 38, 30, 16, 13, 67, 45, 3, 0, 17, 14, 37, 40, 4, 18, 41, 2, 19, 42, 1, 43])) (.leaf
  [26, 44, 39, 63, 38, 30, 16, 13, 67, 45, 3, 0, 17, 14, 37, 40, 4, 18, 41, 2, 19, 42, 1, 43]))
  (.leaf [26, 44, 39, 63, 38, 30, 16, 13, 67, 45, 3, 0, 17, 14, 37, 40, 4, 18, 41, 2, 19, 42, 1,
  43])) (.leaf [26, 44, 39, 63, 38, 30, 16, 13, 67, 45, 3, 0, 17, 14, 37, 40, 4, 18, 41, 2, 19, 42,
  1, 43])) (.leaf [26, 44, 39, 63, 38, 30, 16, 13, 67, 45, 3, 0, 17, 14, 37, 40, 4, 18, 41, 2, 19,
  42, 1, 43])) (.leaf [26, 44, 39, 63, 38, 30, 16, 13, 67, 45, 3, 0, 17, 14, 37, 40, 4, 18, 41, 2,
  19, 42, 1, 43])) (.leaf [26, 44, 39, 63, 38, 30, 16, 13, 67, 45, 3, 0, 17, 14, 37, 40, 4, 18, 41,
  2, 19, 42, 1, 43])) (.leaf [26, 44, 39, 63, 38, 30, 16, 13, 67, 45, 3, 0, 17, 14, 37, 40, 4, 18,
  41, 2, 19, 42, 1, 43]))

/-- some of the cases -/
def real5OneCase48 : LooseTree :=
  .cases [] 51 (.cycle 43 [139, 34, 58]) (.cases [] 11 (.breaks 20013237 (.breaks 24186962 (.breaks
  4210769 (.breaks 4235362 (.breaks 17879237 (.breaks 17895617 (.breaks 23158913 (.breaks 4210881
  (.breaks 10526801 (.breaks 13684817 (.breaks 17895441 (.breaks 23158801 (.breaks 4210705 (.breaks
  10526913 (.breaks 17895457 (.breaks 4210721 (.breaks 10526737 (.breaks 17895425 (.breaks 4210689
  (.breaks 10526753 (.breaks 10526721 (.leaf [53, 44, 39, 54, 59, 30, 16, 45, 11, 46, 0, 17, 37,
  12, 3, 18, 5, 4, 19, 6, 2, 1]) (.leaf [53, 44, 39, 54, 59, 30, 16, 45, 11, 46, 0, 17, 37, 12, 3,
  18, 5, 4, 19, 6, 2, 1])) (.leaf [53, 44, 39, 54, 59, 30, 16, 45, 11, 46, 0, 17, 37, 12, 3, 18, 5,
  4, 19, 6, 2, 1])) (.leaf [53, 44, 39, 54, 59, 30, 16, 45, 11, 46, 0, 17, 37, 12, 3, 18, 5, 4, 19,
  6, 2, 1])) (.leaf [53, 44, 39, 54, 59, 30, 16, 45, 11, 46, 0, 17, 37, 12, 3, 18, 5, 4, 19, 6, 2,
  1])) (.leaf [53, 44, 39, 54, 59, 30, 16, 45, 11, 46, 0, 17, 37, 12, 3, 18, 5, 4, 19, 6, 2, 1]))
  (.leaf [53, 44, 39, 54, 59, 30, 16, 45, 11, 46, 0, 17, 37, 12, 3, 18, 5, 4, 19, 6, 2, 1])) (.leaf
  [53, 44, 39, 54, 59, 30, 16, 45, 11, 46, 0, 17, 37, 12, 3, 18, 5, 4, 19, 6, 2, 1])) (.leaf [53,
  44, 39, 54, 59, 30, 16, 45, 11, 46, 0, 17, 37, 12, 3, 18, 5, 4, 19, 6, 2, 1])) (.leaf [53, 44,
  39, 54, 59, 30, 16, 45, 11, 46, 0, 17, 37, 12, 3, 18, 5, 4, 19, 6, 2, 1])) (.leaf [53, 44, 39,
  54, 59, 30, 16, 45, 11, 46, 0, 17, 37, 12, 3, 18, 5, 4, 19, 6, 2, 1])) (.leaf [53, 44, 39, 54,
  59, 30, 16, 45, 11, 46, 0, 17, 37, 12, 3, 18, 5, 4, 19, 6, 2, 1])) (.leaf [53, 44, 39, 54, 59,
  30, 16, 45, 11, 46, 0, 17, 37, 12, 3, 18, 5, 4, 19, 6, 2, 1])) (.leaf [53, 44, 39, 54, 59, 30,
  16, 45, 11, 46, 0, 17, 37, 12, 3, 18, 5, 4, 19, 6, 2, 1])) (.leaf [53, 44, 39, 54, 59, 30, 16,
  45, 11, 46, 0, 17, 37, 12, 3, 18, 5, 4, 19, 6, 2, 1])) (.leaf [53, 44, 39, 54, 59, 30, 16, 45,
  11, 46, 0, 17, 37, 12, 3, 18, 5, 4, 19, 6, 2, 1])) (.leaf [53, 44, 39, 54, 59, 30, 16, 45, 11,
  46, 0, 17, 37, 12, 3, 18, 5, 4, 19, 6, 2, 1])) (.leaf [53, 44, 39, 54, 59, 30, 16, 45, 11, 46, 0,
  17, 37, 12, 3, 18, 5, 4, 19, 6, 2, 1])) (.leaf [53, 44, 39, 54, 59, 30, 16, 45, 11, 46, 0, 17,
  37, 12, 3, 18, 5, 4, 19, 6, 2, 1])) (.leaf [53, 44, 39, 54, 59, 30, 16, 45, 11, 46, 0, 17, 37,
  12, 3, 18, 5, 4, 19, 6, 2, 1])) (.leaf [53, 44, 39, 54, 59, 30, 16, 45, 11, 46, 0, 17, 37, 12, 3,
  18, 5, 4, 19, 6, 2, 1])) (.leaf [53, 44, 39, 54, 59, 30, 16, 45, 11, 46, 0, 17, 37, 12, 3, 18, 5,
  4, 19, 6, 2, 1])) (.cases [] 18 (.breaks 1065045 (.breaks 4198483 (.cycle 33 [26, 99]) (.leaf
  [26, 81, 39, 11, 38, 30, 16, 51, 12, 3, 0, 31, 17, 44, 5, 4, 18, 13, 34, 45, 6, 2, 19, 14, 37,
  24, 58, 1, 40, 41, 42, 43])) (.leaf [26, 81, 39, 11, 38, 30, 16, 51, 12, 3, 0, 31, 17, 44, 5, 4,
  18, 13, 34, 45, 6, 2, 19, 14, 37, 24, 58, 1, 40, 41, 42, 43])) (.breaks 1065045 (.breaks 4198483
  (.cycle 33 [26, 99]) (.leaf [26, 70, 44, 39, 38, 64, 30, 16, 45, 65, 3, 0, 31, 17, 37, 4, 18, 13,
  34, 2, 19, 14, 24, 1])) (.leaf [26, 70, 44, 39, 38, 64, 30, 16, 45, 65, 3, 0, 31, 17, 37, 4, 18,
  34, 2, 19, 24, 58, 1, 40, 41, 42, 43]))))

/-- some of the cases -/
def real5OneCase49 : LooseTree :=
  .breaks 24186962 (.breaks 26312901 (.breaks 4235346 (.breaks 17879237 (.breaks 17895617 (.breaks
  23158913 (.breaks 25264209 (.breaks 10526913 (.breaks 13684817 (.breaks 17895441 (.breaks
  23158801 (.breaks 10526737 (.breaks 17895457 (.breaks 10526753 (.breaks 17895425 (.breaks
  10526721 (.leaf [26, 44, 39, 68, 38, 30, 16, 45, 24, 3, 0, 17, 37, 4, 18, 2, 19, 1]) (.leaf [26,
  44, 39, 68, 38, 30, 16, 45, 24, 3, 0, 17, 37, 4, 18, 2, 19, 1])) (.leaf [26, 44, 39, 68, 38, 30,
  16, 45, 24, 3, 0, 17, 37, 4, 18, 2, 19, 1])) (.leaf [26, 44, 39, 68, 38, 30, 16, 45, 24, 3, 0,
  17, 37, 4, 18, 2, 19, 1])) (.leaf [26, 44, 39, 68, 38, 30, 16, 45, 24, 3, 0, 17, 37, 4, 18, 2,
  19, 1])) (.leaf [26, 44, 39, 68, 38, 30, 16, 45, 24, 3, 0, 17, 37, 4, 18, 2, 19, 1])) (.leaf [26,
  44, 39, 68, 38, 30, 16, 45, 24, 3, 0, 17, 37, 4, 18, 2, 19, 1])) (.leaf [26, 44, 39, 68, 38, 30,
  16, 45, 24, 3, 0, 17, 37, 4, 18, 2, 19, 1])) (.leaf [26, 44, 39, 68, 38, 30, 16, 45, 24, 3, 0,
  17, 37, 4, 18, 2, 19, 1])) (.leaf [26, 44, 39, 68, 38, 30, 16, 45, 24, 3, 0, 17, 37, 4, 18, 2,
  19, 1])) (.leaf [26, 44, 39, 68, 38, 30, 16, 45, 24, 3, 0, 17, 37, 4, 18, 2, 19, 1])) (.leaf [26,
  44, 39, 68, 38, 30, 16, 45, 24, 3, 0, 17, 37, 4, 18, 2, 19, 1])) (.leaf [26, 44, 39, 68, 38, 30,
  16, 45, 24, 3, 0, 17, 37, 4, 18, 2, 19, 1])) (.leaf [26, 44, 39, 68, 38, 30, 16, 45, 24, 3, 0,
  17, 37, 4, 18, 2, 19, 1])) (.leaf [26, 44, 39, 68, 38, 30, 16, 45, 24, 3, 0, 17, 37, 4, 18, 2,
  19, 1])) (.leaf [26, 44, 39, 68, 38, 30, 16, 45, 24, 3, 0, 17, 37, 4, 18, 2, 19, 1])) (.leaf [26,
  44, 39, 68, 11, 38, 30, 16, 45, 24, 12, 3, 0, 17, 37, 5, 4, 18, 6, 2, 19, 1])

/-- some of the cases -/
def real5OneCase50 : LooseTree :=
  .cases [] 35 (.breaks 18948289 (.cycle 18 [146, 147, 148]) (.cycle 18 [146, 147, 148])) (.cases
  [] 36 (.cases [] 55 (.leaf [161, 162]) (.leaf [160])) (.breaks 24186962 (.breaks 13664291
  (.breaks 13684817 (.breaks 17895617 (.breaks 8421409 (.breaks 17895441 (.breaks 8421393 (.breaks
  17895457 (.breaks 8421505 (.breaks 17895425 (.breaks 8421521 (.leaf
  [101, 87, 39, 102, 0, 16, 103, 17, 104, 18, 64, 19, 65]) (.leaf
  [101, 87, 39, 102, 0, 16, 103, 17, 104, 18, 64, 19, 65])) (.leaf
  [26, 101, 87, 38, 102, 0, 103, 3, 104, 4, 64, 2, 65, 1])) (.leaf
  [101, 87, 39, 102, 0, 16, 103, 17, 104, 18, 64, 19, 65])) (.leaf
  [26, 101, 87, 38, 102, 0, 103, 3, 104, 4, 64, 2, 65, 1])) (.leaf
  [101, 87, 39, 102, 0, 16, 103, 17, 104, 18, 64, 19, 65])) (.leaf
  [26, 101, 87, 38, 102, 0, 103, 3, 104, 4, 64, 2, 65, 1])) (.leaf
  [101, 87, 39, 102, 0, 16, 103, 17, 104, 18, 64, 19, 65])) (.leaf
  [26, 101, 87, 38, 102, 0, 103, 3, 104, 4, 64, 2, 65, 1])) (.leaf
  [101, 87, 39, 102, 0, 16, 103, 17, 104, 18, 64, 19, 65])) (.leaf
  [101, 87, 39, 102, 0, 16, 103, 17, 104, 18, 64, 19, 65])) (.leaf
  [26, 101, 87, 38, 102, 0, 103, 3, 104, 4, 64, 2, 65, 1])))

/-- some of the cases -/
def real5OneCase51 : LooseTree :=
  .breaks 24186962 (.breaks 17879237 (.breaks 17895617 (.breaks 20000897 (.breaks 13684817 (.breaks
  17895441 (.breaks 20000945 (.breaks 20013237 (.breaks 17895457 (.breaks 20000929 (.breaks
  23158913 (.breaks 17895425 (.breaks 23158801 (.leaf
  [71, 39, 30, 16, 51, 0, 17, 35, 44, 18, 36, 45, 19, 37]) (.leaf
  [71, 39, 30, 16, 51, 0, 17, 35, 44, 18, 36, 45, 19, 37])) (.leaf
  [71, 39, 30, 16, 51, 0, 17, 35, 44, 18, 36, 45, 19, 37])) (.leaf
  [71, 39, 30, 16, 51, 0, 17, 35, 44, 18, 36, 45, 19, 37])) (.leaf
  [71, 39, 30, 16, 51, 0, 17, 35, 44, 18, 36, 45, 19, 37])) (.leaf
  [71, 39, 30, 16, 51, 0, 17, 35, 44, 18, 36, 45, 19, 37])) (.leaf
  [71, 39, 30, 16, 51, 0, 17, 35, 44, 18, 36, 45, 19, 37])) (.leaf
  [71, 39, 30, 16, 51, 0, 17, 35, 44, 18, 36, 45, 19, 37])) (.leaf
  [71, 39, 30, 16, 51, 0, 17, 35, 44, 18, 36, 45, 19, 37])) (.leaf
  [71, 39, 30, 16, 51, 0, 17, 35, 44, 18, 36, 45, 19, 37])) (.leaf
  [71, 39, 30, 16, 51, 0, 17, 35, 44, 18, 36, 45, 19, 37])) (.leaf
  [71, 39, 30, 16, 51, 0, 17, 35, 44, 18, 36, 45, 19, 37])) (.leaf
  [71, 39, 30, 16, 51, 0, 17, 35, 44, 18, 36, 45, 19, 37])) (.leaf
  [26, 71, 39, 38, 30, 51, 3, 0, 35, 44, 4, 36, 45, 2, 37, 1])

/-- some of the cases -/
def real5OneCase52 : LooseTree :=
  .breaks 24186962 (.breaks 4235346 (.breaks 9474065 (.breaks 17879237 (.breaks 17895617 (.breaks
  18948177 (.breaks 9474177 (.breaks 10526913 (.breaks 13684817 (.breaks 17895441 (.breaks 18948209
  (.breaks 9474193 (.breaks 10526737 (.breaks 17895457 (.breaks 10526753 (.breaks 17895425 (.breaks
  10526721 (.leaf [26, 61, 39, 63, 38, 62, 30, 16, 13, 55, 3, 0, 17, 14, 56, 4, 18, 2, 19, 1])
  (.leaf [26, 61, 39, 63, 38, 62, 30, 16, 13, 55, 3, 0, 17, 14, 56, 4, 18, 2, 19, 1])) (.leaf [26,
  61, 39, 63, 38, 62, 30, 16, 13, 55, 3, 0, 17, 14, 56, 4, 18, 2, 19, 1])) (.leaf [26, 61, 39, 63,
  38, 62, 30, 16, 13, 55, 3, 0, 17, 14, 56, 4, 18, 2, 19, 1])) (.leaf [26, 61, 39, 63, 38, 62, 30,
  16, 13, 55, 3, 0, 17, 14, 56, 4, 18, 2, 19, 1])) (.leaf [26, 61, 39, 63, 38, 62, 30, 16, 13, 55,
  3, 0, 17, 14, 56, 4, 18, 2, 19, 1])) (.leaf [26, 61, 39, 63, 38, 62, 30, 16, 13, 55, 3, 0, 17,
  14, 56, 4, 18, 2, 19, 1])) (.leaf [26, 61, 39, 63, 38, 62, 30, 16, 13, 55, 3, 0, 17, 14, 56, 4,
  18, 2, 19, 1])) (.leaf [26, 61, 39, 63, 38, 62, 30, 16, 13, 55, 3, 0, 17, 14, 56, 4, 18, 2, 19,
  1])) (.leaf [26, 61, 39, 63, 38, 62, 30, 16, 13, 55, 3, 0, 17, 14, 56, 4, 18, 2, 19, 1])) (.leaf
  [26, 61, 39, 63, 38, 62, 30, 16, 13, 55, 3, 0, 17, 14, 56, 4, 18, 2, 19, 1])) (.leaf [26, 61, 39,
  63, 38, 62, 30, 16, 13, 55, 3, 0, 17, 14, 56, 4, 18, 2, 19, 1])) (.leaf [26, 61, 39, 63, 38, 62,
  30, 16, 13, 55, 3, 0, 17, 14, 56, 4, 18, 2, 19, 1])) (.leaf [26, 61, 39, 63, 38, 62, 30, 16, 13,
  55, 3, 0, 17, 14, 56, 4, 18, 2, 19, 1])) (.leaf [26, 61, 39, 63, 38, 62, 30, 16, 13, 55, 3, 0,
  17, 14, 56, 4, 18, 2, 19, 1])) (.leaf [26, 128, 39, 63, 38, 55, 30, 16, 13, 56, 3, 0, 17, 14, 4,
  18, 2, 19, 1])) (.leaf [26, 61, 39, 63, 38, 62, 30, 16, 13, 55, 3, 0, 17, 14, 56, 4, 18, 2, 19,
  1])) (.leaf [26, 61, 39, 63, 38, 62, 30, 16, 13, 55, 3, 0, 17, 14, 56, 4, 18, 2, 19, 1])

/-- some of the cases -/
def real5OneCase53 : LooseTree :=
  .cases [] 11 (.breaks 24186962 (.breaks 4235362 (.breaks 17879237 (.breaks 17895617 (.breaks
  18948177 (.breaks 4210881 (.breaks 10526801 (.breaks 13684817 (.breaks 17895441 (.breaks 18948209
  (.breaks 4210705 (.breaks 10526913 (.breaks 17895457 (.breaks 4210721 (.breaks 10526737 (.breaks
  17895425 (.breaks 4210689 (.breaks 10526753 (.breaks 10526721 (.leaf [53, 39, 63, 54, 59, 30, 16,
  13, 11, 46, 0, 17, 14, 12, 3, 18, 5, 4, 19, 6, 2, 1]) (.leaf [53, 39, 63, 54, 59, 30, 16, 13, 11,
  46, 0, 17, 14, 12, 3, 18, 5, 4, 19, 6, 2, 1])) (.leaf [53, 39, 63, 54, 59, 30, 16, 13, 11, 46, 0,
  17, 14, 12, 3, 18, 5, 4, 19, 6, 2, 1])) (.leaf [53, 39, 63, 54, 59, 30, 16, 13, 11, 46, 0, 17,
  14, 12, 3, 18, 5, 4, 19, 6, 2, 1])) (.leaf [53, 39, 63, 54, 59, 30, 16, 13, 11, 46, 0, 17, 14,
  12, 3, 18, 5, 4, 19, 6, 2, 1])) (.leaf [53, 39, 63, 54, 59, 30, 16, 13, 11, 46, 0, 17, 14, 12, 3,
  18, 5, 4, 19, 6, 2, 1])) (.leaf [53, 39, 63, 54, 59, 30, 16, 13, 11, 46, 0, 17, 14, 12, 3, 18, 5,
  4, 19, 6, 2, 1])) (.leaf [53, 39, 63, 54, 59, 30, 16, 13, 11, 46, 0, 17, 14, 12, 3, 18, 5, 4, 19,
  6, 2, 1])) (.leaf [53, 39, 63, 54, 59, 30, 16, 13, 11, 46, 0, 17, 14, 12, 3, 18, 5, 4, 19, 6, 2,
  1])) (.leaf [53, 39, 63, 54, 59, 30, 16, 13, 11, 46, 0, 17, 14, 12, 3, 18, 5, 4, 19, 6, 2, 1]))
  (.leaf [53, 39, 63, 54, 59, 30, 16, 13, 11, 46, 0, 17, 14, 12, 3, 18, 5, 4, 19, 6, 2, 1])) (.leaf
  [53, 39, 63, 54, 59, 30, 16, 13, 11, 46, 0, 17, 14, 12, 3, 18, 5, 4, 19, 6, 2, 1])) (.leaf [53,
  39, 63, 54, 59, 30, 16, 13, 11, 46, 0, 17, 14, 12, 3, 18, 5, 4, 19, 6, 2, 1])) (.leaf [53, 39,
  63, 54, 59, 30, 16, 13, 11, 46, 0, 17, 14, 12, 3, 18, 5, 4, 19, 6, 2, 1])) (.leaf [53, 39, 63,
  54, 59, 30, 16, 13, 11, 46, 0, 17, 14, 12, 3, 18, 5, 4, 19, 6, 2, 1])) (.leaf [53, 39, 63, 54,
  59, 30, 16, 13, 11, 46, 0, 17, 14, 12, 3, 18, 5, 4, 19, 6, 2, 1])) (.leaf [53, 39, 63, 54, 59,
  30, 16, 13, 11, 46, 0, 17, 14, 12, 3, 18, 5, 4, 19, 6, 2, 1])) (.leaf [53, 39, 63, 54, 59, 30,
  16, 13, 11, 46, 0, 17, 14, 12, 3, 18, 5, 4, 19, 6, 2, 1])) (.leaf [53, 39, 63, 54, 59, 30, 16,
  13, 11, 46, 0, 17, 14, 12, 3, 18, 5, 4, 19, 6, 2, 1])) (.leaf [53, 39, 63, 54, 59, 30, 16, 13,
  11, 46, 0, 17, 14, 12, 3, 18, 5, 4, 19, 6, 2, 1])) (.cases [] 17 (.breaks 1065045 (.breaks
  4198483 (.cycle 33 [26, 99]) (.leaf [26, 39, 80, 11, 38, 30, 16, 13, 12, 3, 0, 17, 14, 5, 4, 18,
  6, 2, 19, 1])) (.leaf [26, 48, 39, 80, 38, 30, 16, 13, 35, 3, 0, 17, 14, 36, 4, 18, 2, 19, 1]))
  (.breaks 1065045 (.breaks 4198483 (.cycle 33 [26, 99]) (.leaf [26, 39, 63, 11, 38, 30, 16, 13,
  67, 12, 3, 0, 17, 14, 40, 5, 4, 18, 41, 6, 2, 19, 42, 1, 43])) (.leaf [26, 48, 39, 63, 11, 38,
  30, 16, 13, 67, 35, 12, 3, 0, 17, 14, 36, 40, 5, 4, 18, 41, 6, 2, 19, 42, 1, 43])))

/-- some of the cases -/
def real5OneCase54 : LooseTree :=
  .breaks 1065045 (.breaks 24186962 (.breaks 4210881 (.breaks 4235346 (.breaks 9474065 (.breaks
  17879237 (.breaks 17895617 (.breaks 4210705 (.breaks 9474177 (.breaks 10526913 (.breaks 13684817
  (.breaks 13705410 (.breaks 17895441 (.breaks 4210721 (.breaks 9474193 (.breaks 10526737 (.breaks
  17895457 (.breaks 18948177 (.breaks 4210689 (.breaks 10526753 (.breaks 17895425 (.breaks 18948209
  (.breaks 10526721 (.leaf [26, 61, 39, 11, 38, 62, 30, 16, 12, 55, 3, 0, 31, 17, 5, 56, 4, 18, 13,
  6, 2, 19, 14, 1]) (.leaf [26, 61, 39, 11, 38, 62, 30, 16, 12, 55, 3, 0, 31, 17, 5, 56, 4, 18, 13,
  6, 2, 19, 14, 1])) (.leaf [26, 61, 48, 39, 11, 38, 62, 30, 16, 35, 12, 55, 3, 0, 17, 36, 5, 56,
  4, 18, 6, 2, 19, 1])) (.leaf [26, 61, 39, 11, 38, 62, 30, 16, 12, 55, 3, 0, 31, 17, 5, 56, 4, 18,
  13, 34, 6, 2, 19, 14, 24, 1])) (.leaf [26, 61, 39, 11, 38, 62, 30, 16, 12, 55, 3, 0, 31, 17, 5,
  56, 4, 18, 13, 6, 2, 19, 14, 1])) (.leaf [26, 61, 48, 39, 38, 62, 30, 16, 35, 55, 3, 0, 31, 17,
  36, 56, 4, 18, 13, 34, 2, 19, 14, 24, 1])) (.leaf [26, 61, 48, 39, 11, 38, 62, 30, 16, 35, 12,
  55, 3, 0, 17, 36, 5, 56, 4, 18, 6, 2, 19, 1])) (.leaf [26, 61, 39, 11, 38, 62, 30, 16, 12, 55, 3,
  0, 31, 17, 5, 56, 4, 18, 13, 34, 6, 2, 19, 14, 24, 1])) (.leaf [26, 61, 39, 11, 38, 62, 30, 16,
  12, 55, 3, 0, 31, 17, 5, 56, 4, 18, 13, 6, 2, 19, 14, 1])) (.leaf [26, 61, 39, 11, 38, 62, 30,
  16, 12, 55, 3, 0, 31, 17, 5, 56, 4, 18, 13, 6, 2, 19, 14, 1])) (.leaf [26, 61, 48, 39, 38, 62,
  30, 16, 35, 55, 3, 0, 31, 17, 36, 56, 4, 18, 13, 34, 2, 19, 14, 24, 1])) (.leaf [26, 61, 39, 11,
  38, 62, 30, 16, 12, 55, 3, 0, 31, 17, 5, 56, 4, 18, 13, 34, 6, 2, 19, 14, 24, 1])) (.leaf [26,
  61, 48, 39, 11, 38, 62, 30, 16, 35, 12, 55, 3, 0, 17, 36, 5, 56, 4, 18, 6, 2, 19, 1])) (.leaf
  [26, 61, 39, 11, 38, 62, 30, 16, 12, 55, 3, 0, 31, 17, 5, 56, 4, 18, 13, 6, 2, 19, 14, 1]))
  (.leaf [26, 61, 39, 11, 38, 62, 30, 16, 12, 55, 3, 0, 31, 17, 5, 56, 4, 18, 13, 6, 2, 19, 14,
  1])) (.leaf [26, 61, 39, 11, 38, 62, 30, 16, 12, 55, 3, 0, 31, 17, 5, 56, 4, 18, 13, 6, 2, 19,
  14, 1])) (.leaf [26, 61, 48, 39, 38, 62, 30, 16, 35, 55, 3, 0, 31, 17, 36, 56, 4, 18, 13, 34, 2,
  19, 14, 24, 1])) (.leaf [26, 61, 39, 11, 38, 62, 30, 16, 12, 55, 3, 0, 31, 17, 5, 56, 4, 18, 13,
  34, 6, 2, 19, 14, 24, 1])) (.leaf [26, 61, 48, 39, 11, 38, 62, 30, 16, 35, 12, 55, 3, 0, 17, 36,
  5, 56, 4, 18, 6, 2, 19, 1])) (.leaf [26, 128, 39, 11, 38, 55, 30, 16, 12, 56, 3, 0, 31, 17, 5, 4,
  18, 13, 6, 2, 19, 14, 1])) (.leaf [26, 61, 39, 11, 38, 62, 30, 16, 12, 55, 3, 0, 31, 17, 5, 56,
  4, 18, 13, 6, 2, 19, 14, 1])) (.leaf [26, 61, 48, 39, 38, 62, 30, 16, 35, 55, 3, 0, 31, 17, 36,
  56, 4, 18, 13, 34, 2, 19, 14, 24, 1])) (.leaf [26, 61, 48, 39, 11, 38, 62, 30, 16, 35, 12, 55, 3,
  0, 31, 17, 36, 5, 56, 4, 18, 13, 6, 2, 19, 14, 1])) (.leaf [26, 61, 48, 39, 38, 62, 30, 16, 35,
  55, 3, 0, 31, 17, 36, 56, 4, 18, 13, 34, 2, 19, 14, 24, 1])

/-- some of the cases -/
def real5OneCase55 : LooseTree :=
  .breaks 1065043 (.breaks 24186962 (.breaks 4210769 (.breaks 17879237 (.breaks 17895617 (.breaks
  4210881 (.breaks 10526801 (.breaks 13684817 (.breaks 13705410 (.breaks 17895441 (.breaks 4210705
  (.breaks 10526913 (.breaks 17895457 (.breaks 18948177 (.breaks 18972866 (.breaks 4210721 (.breaks
  10526737 (.breaks 17895425 (.breaks 18948209 (.breaks 25264209 (.breaks 4210689 (.breaks 10526753
  (.breaks 10526721 (.leaf [53, 39, 54, 59, 30, 16, 11, 46, 0, 31, 17, 12, 3, 18, 13, 34, 5, 4, 19,
  14, 24, 6, 2, 1]) (.leaf [53, 39, 54, 59, 30, 16, 11, 46, 0, 31, 17, 12, 3, 18, 13, 34, 5, 4, 19,
  14, 24, 6, 2, 1])) (.leaf [53, 39, 54, 59, 30, 16, 11, 46, 0, 31, 17, 12, 3, 18, 13, 34, 5, 4,
  19, 14, 24, 6, 2, 1])) (.leaf [53, 72, 39, 54, 59, 74, 30, 16, 11, 46, 0, 31, 17, 22, 12, 3, 18,
  13, 23, 5, 4, 19, 14, 6, 2, 1])) (.leaf [53, 72, 48, 39, 54, 59, 74, 30, 16, 35, 11, 46, 0, 17,
  36, 22, 12, 3, 18, 23, 5, 4, 19, 6, 2, 1])) (.leaf [53, 72, 48, 39, 54, 59, 74, 30, 16, 35, 11,
  46, 0, 17, 36, 22, 12, 3, 18, 23, 5, 4, 19, 6, 2, 1])) (.leaf [53, 72, 39, 54, 59, 74, 30, 16,
  11, 46, 0, 31, 17, 22, 12, 3, 18, 13, 23, 5, 4, 19, 14, 6, 2, 1])) (.leaf [53, 39, 54, 59, 30,
  16, 11, 46, 0, 31, 17, 12, 3, 18, 13, 34, 5, 4, 19, 14, 24, 6, 2, 1])) (.leaf [53, 72, 39, 54,
  59, 74, 30, 16, 11, 46, 0, 31, 17, 22, 12, 3, 18, 13, 23, 5, 4, 19, 14, 6, 2, 1])) (.leaf [53,
  72, 48, 39, 54, 59, 74, 30, 16, 35, 11, 46, 0, 17, 36, 22, 12, 3, 18, 23, 5, 4, 19, 6, 2, 1]))
  (.leaf [53, 72, 48, 39, 54, 59, 74, 30, 16, 35, 11, 46, 0, 17, 36, 22, 12, 3, 18, 23, 5, 4, 19,
  6, 2, 1])) (.leaf [53, 72, 39, 54, 59, 74, 30, 16, 11, 46, 0, 31, 17, 22, 12, 3, 18, 13, 23, 5,
  4, 19, 14, 6, 2, 1])) (.leaf [53, 39, 54, 59, 30, 16, 11, 46, 0, 31, 17, 12, 3, 18, 13, 34, 5, 4,
  19, 14, 24, 6, 2, 1])) (.leaf [53, 72, 39, 54, 59, 74, 30, 16, 11, 46, 0, 31, 17, 22, 12, 3, 18,
  13, 23, 5, 4, 19, 14, 6, 2, 1])) (.leaf [53, 72, 39, 54, 59, 74, 30, 16, 11, 46, 0, 31, 17, 22,
  12, 3, 18, 13, 23, 5, 4, 19, 14, 6, 2, 1])) (.leaf [53, 72, 48, 39, 54, 59, 74, 30, 16, 35, 11,
  46, 0, 17, 36, 22, 12, 3, 18, 23, 5, 4, 19, 6, 2, 1])) (.leaf [53, 39, 54, 59, 30, 16, 11, 46, 0,
  31, 17, 12, 3, 18, 13, 34, 5, 4, 19, 14, 24, 6, 2, 1])) (.leaf [53, 39, 54, 59, 30, 16, 11, 46,
  0, 31, 17, 12, 3, 18, 13, 34, 5, 4, 19, 14, 24, 6, 2, 1])) (.leaf [53, 72, 39, 54, 59, 74, 30,
  16, 11, 46, 0, 31, 17, 22, 12, 3, 18, 13, 23, 5, 4, 19, 14, 6, 2, 1])) (.leaf [53, 72, 39, 54,
  59, 74, 30, 16, 11, 46, 0, 31, 17, 22, 12, 3, 18, 13, 23, 5, 4, 19, 14, 6, 2, 1])) (.leaf [53,
  72, 48, 39, 54, 59, 74, 30, 16, 35, 11, 46, 0, 17, 36, 22, 12, 3, 18, 23, 5, 4, 19, 6, 2, 1]))
  (.leaf [53, 72, 39, 54, 59, 74, 30, 16, 11, 46, 0, 31, 17, 22, 12, 3, 18, 13, 23, 5, 4, 19, 14,
  6, 2, 1])) (.leaf [53, 72, 48, 39, 54, 59, 74, 30, 16, 35, 11, 46, 0, 31, 17, 36, 22, 12, 3, 18,
  13, 23, 5, 4, 19, 14, 6, 2, 1])) (.leaf [53, 72, 39, 54, 59, 74, 30, 16, 11, 46, 0, 31, 17, 22,
  12, 3, 18, 13, 34, 23, 5, 4, 19, 14, 24, 6, 2, 1])

/-- some of the cases -/
def real5OneCase56 : LooseTree :=
  .cases [] 37 (.breaks 1065045 (.breaks 4198483 (.cycle 33 [26, 99]) (.leaf [26, 108, 72, 48, 39,
  11, 74, 1, 30, 16, 35, 12, 0, 31, 17, 36, 22, 5, 18, 13, 34, 23, 6, 19, 14, 24, 58, 40, 41, 42,
  43])) (.leaf [26, 108, 72, 48, 39, 11, 74, 1, 30, 16, 35, 12, 0, 31, 17, 36, 22, 5, 18, 13, 34,
  23, 6, 19, 14, 24, 58, 40, 41, 42, 43])) (.cases [] 27 (.cases [] 18 (.cases [] 25 (.breaks
  1065045 (.breaks 4198483 (.cycle 33 [26, 99]) (.leaf [26, 39, 84, 85, 38, 30, 16, 48, 37, 3, 0,
  31, 17, 35, 4, 18, 13, 34, 36, 2, 19, 14, 24, 134, 1, 135, 72, 74, 22, 23])) (.leaf [26, 72, 39,
  84, 85, 38, 74, 30, 16, 48, 37, 3, 0, 31, 17, 35, 22, 4, 18, 13, 34, 36, 23, 2, 19, 14, 24, 58,
  1, 40, 41, 42, 43])) (.cases [] 39 (.breaks 1065045 (.breaks 4198483 (.cycle 33 [26, 99]) (.leaf
  [26, 39, 38, 30, 16, 3, 0, 31, 17, 4, 18, 13, 34, 2, 19, 14, 24, 134, 1, 112, 135, 106, 72, 40,
  74, 41, 22, 42, 23, 43])) (.leaf [26, 72, 48, 39, 38, 74, 30, 16, 35, 3, 0, 31, 17, 36, 22, 4,
  18, 13, 34, 23, 2, 19, 14, 24, 1, 112, 106, 40, 41, 42, 43])) (.breaks 1065045 (.breaks 4198483
  (.cycle 33 [26, 99]) (.cycle 43 [117, 58])) (.cycle 43 [117, 58])))) (.breaks 1065045 (.breaks
  4198483 (.cycle 33 [26, 99]) (.leaf [26, 70, 39, 11, 38, 64, 30, 16, 12, 65, 3, 0, 31, 17, 5, 4,
  18, 13, 34, 6, 2, 19, 14, 24, 134, 1, 135, 72, 74, 22, 23])) (.leaf [26, 72, 70, 48, 39, 38, 74,
  64, 30, 16, 35, 65, 3, 0, 31, 17, 36, 22, 4, 18, 13, 34, 23, 2, 19, 14, 24, 58, 1, 40, 41, 42,
  43]))) (.breaks 1065045 (.breaks 4198483 (.cycle 33 [26, 99]) (.leaf [94, 26, 39, 38, 5, 30, 16,
  6, 3, 0, 31, 17, 4, 18, 13, 34, 2, 19, 14, 24, 58, 134, 1, 40, 135, 41, 72, 42, 74, 43, 22, 23]))
  (.leaf [94, 26, 72, 48, 39, 38, 5, 74, 30, 16, 35, 6, 3, 0, 31, 17, 36, 22, 4, 18, 13, 34, 23, 2,
  19, 14, 24, 58, 1, 40, 41, 42, 43])))

/-- some of the cases -/
def real5OneCase57 : LooseTree :=
  .breaks 1065045 (.breaks 22097938 (.breaks 24186962 (.breaks 4210881 (.breaks 4235346 (.breaks
  17879237 (.breaks 17895617 (.breaks 20000897 (.breaks 4210705 (.breaks 10526913 (.breaks 13684817
  (.breaks 13705410 (.breaks 17895441 (.breaks 20000945 (.breaks 4210721 (.breaks 10526737 (.breaks
  17895457 (.breaks 18948177 (.breaks 20000929 (.breaks 4210689 (.breaks 10526753 (.breaks 17895425
  (.breaks 18948209 (.breaks 10526721 (.leaf [26, 71, 39, 11, 38, 30, 16, 51, 12, 3, 0, 31, 17, 35,
  5, 4, 18, 13, 36, 6, 2, 19, 14, 1]) (.leaf [26, 71, 39, 11, 38, 30, 16, 51, 12, 3, 0, 31, 17, 35,
  5, 4, 18, 13, 34, 36, 6, 2, 19, 14, 24, 1])) (.leaf [26, 72, 71, 39, 11, 38, 74, 30, 16, 51, 12,
  3, 0, 17, 35, 22, 5, 4, 18, 36, 23, 6, 2, 19, 1])) (.leaf [26, 71, 39, 11, 38, 30, 16, 51, 12, 3,
  0, 31, 17, 35, 5, 4, 18, 13, 34, 36, 6, 2, 19, 14, 24, 1])) (.leaf [26, 71, 39, 11, 38, 30, 16,
  51, 12, 3, 0, 31, 17, 35, 5, 4, 18, 13, 34, 36, 6, 2, 19, 14, 24, 1])) (.leaf [26, 72, 71, 39,
  38, 74, 30, 16, 51, 3, 0, 31, 17, 35, 22, 4, 18, 13, 34, 36, 23, 2, 19, 14, 24, 1])) (.leaf [26,
  71, 39, 11, 38, 30, 16, 51, 12, 3, 0, 31, 17, 35, 5, 4, 18, 13, 34, 36, 6, 2, 19, 14, 24, 1]))
  (.leaf [26, 72, 71, 39, 11, 38, 74, 30, 16, 51, 12, 3, 0, 17, 35, 22, 5, 4, 18, 36, 23, 6, 2, 19,
  1])) (.leaf [26, 71, 39, 11, 38, 30, 16, 51, 12, 3, 0, 31, 17, 35, 5, 4, 18, 13, 34, 36, 6, 2,
  19, 14, 24, 1])) (.leaf [26, 71, 39, 11, 38, 30, 16, 51, 12, 3, 0, 31, 17, 35, 5, 4, 18, 13, 34,
  36, 6, 2, 19, 14, 24, 1])) (.leaf [26, 72, 71, 39, 38, 74, 30, 16, 51, 3, 0, 31, 17, 35, 22, 4,
  18, 13, 34, 36, 23, 2, 19, 14, 24, 1])) (.leaf [26, 71, 39, 11, 38, 30, 16, 51, 12, 3, 0, 31, 17,
  35, 5, 4, 18, 13, 34, 36, 6, 2, 19, 14, 24, 1])) (.leaf [26, 71, 39, 11, 38, 30, 16, 51, 12, 3,
  0, 31, 17, 35, 5, 4, 18, 13, 34, 36, 6, 2, 19, 14, 24, 1])) (.leaf [26, 72, 71, 39, 11, 38, 74,
  30, 16, 51, 12, 3, 0, 17, 35, 22, 5, 4, 18, 36, 23, 6, 2, 19, 1])) (.leaf [26, 71, 39, 11, 38,
  30, 16, 51, 12, 3, 0, 31, 17, 35, 5, 4, 18, 13, 34, 36, 6, 2, 19, 14, 24, 1])) (.leaf [26, 71,
  39, 11, 38, 30, 16, 51, 12, 3, 0, 31, 17, 35, 5, 4, 18, 13, 34, 36, 6, 2, 19, 14, 24, 1])) (.leaf
  [26, 72, 71, 39, 38, 74, 30, 16, 51, 3, 0, 31, 17, 35, 22, 4, 18, 13, 34, 36, 23, 2, 19, 14, 24,
  1])) (.leaf [26, 71, 39, 11, 38, 30, 16, 51, 12, 3, 0, 31, 17, 35, 5, 4, 18, 13, 34, 36, 6, 2,
  19, 14, 24, 1])) (.leaf [26, 71, 39, 11, 38, 30, 16, 51, 12, 3, 0, 31, 17, 35, 5, 4, 18, 13, 34,
  36, 6, 2, 19, 14, 24, 1])) (.leaf [26, 72, 71, 39, 11, 38, 74, 30, 16, 51, 12, 3, 0, 17, 35, 22,
  5, 4, 18, 36, 23, 6, 2, 19, 1])) (.leaf [26, 71, 39, 11, 38, 30, 16, 51, 12, 3, 0, 31, 17, 35, 5,
  4, 18, 13, 34, 36, 6, 2, 19, 14, 24, 1])) (.leaf [26, 72, 71, 39, 38, 74, 30, 16, 51, 3, 0, 31,
  17, 35, 22, 4, 18, 13, 34, 36, 23, 2, 19, 14, 24, 1])) (.leaf [26, 72, 71, 39, 11, 38, 74, 30,
  16, 51, 12, 3, 0, 31, 17, 35, 22, 5, 4, 18, 13, 36, 23, 6, 2, 19, 14, 1])) (.leaf [26, 71, 39,
  11, 38, 30, 16, 51, 12, 3, 0, 31, 17, 35, 5, 4, 18, 13, 34, 36, 6, 2, 19, 14, 24, 1])) (.leaf
  [26, 72, 71, 39, 38, 74, 30, 16, 51, 3, 0, 31, 17, 35, 22, 4, 18, 13, 34, 36, 23, 2, 19, 14, 24,
  1])

/-- some of the cases -/
def real5OneCase58 : LooseTree :=
  .cases [] 11 (.breaks 1065043 (.breaks 24186962 (.breaks 4210769 (.breaks 4235362 (.breaks
  17879237 (.breaks 17895617 (.breaks 4210881 (.breaks 10526801 (.breaks 13684817 (.breaks 17895441
  (.breaks 4210705 (.breaks 10526913 (.breaks 17895457 (.breaks 4194326 (.breaks 4210721 (.breaks
  10526737 (.breaks 17895425 (.breaks 4210689 (.breaks 10526753 (.breaks 10526721 (.leaf [53, 39,
  54, 59, 30, 16, 11, 46, 0, 17, 12, 3, 18, 89, 5, 4, 19, 6, 2, 1]) (.leaf [53, 60, 39, 54, 59, 30,
  16, 11, 46, 0, 17, 12, 3, 18, 89, 5, 4, 19, 6, 2, 1])) (.leaf [53, 60, 39, 54, 59, 30, 16, 11,
  46, 0, 17, 12, 3, 18, 89, 5, 4, 19, 6, 2, 1])) (.leaf [53, 60, 39, 54, 59, 30, 16, 11, 46, 0, 17,
  12, 3, 18, 89, 5, 4, 19, 6, 2, 1])) (.leaf [53, 60, 39, 54, 59, 30, 16, 11, 46, 0, 17, 12, 3, 18,
  89, 5, 4, 19, 6, 2, 1])) (.leaf [53, 60, 39, 54, 59, 30, 16, 11, 46, 0, 17, 12, 3, 18, 89, 5, 4,
  19, 6, 2, 1])) (.leaf [53, 60, 39, 54, 59, 30, 16, 11, 46, 0, 17, 12, 3, 18, 89, 5, 4, 19, 6, 2,
  1])) (.leaf [53, 60, 39, 54, 59, 30, 16, 11, 46, 0, 17, 12, 3, 18, 165, 5, 4, 19, 6, 2, 1]))
  (.leaf [53, 60, 39, 54, 59, 30, 16, 11, 46, 0, 17, 12, 3, 18, 89, 5, 4, 19, 6, 2, 1])) (.leaf
  [53, 60, 39, 54, 59, 30, 16, 11, 46, 0, 17, 12, 3, 18, 89, 5, 4, 19, 6, 2, 1])) (.leaf [53, 39,
  54, 59, 30, 16, 11, 46, 0, 31, 17, 12, 3, 18, 13, 89, 5, 4, 19, 14, 6, 2, 1])) (.leaf [53, 60,
  39, 54, 59, 30, 16, 11, 46, 0, 17, 12, 3, 18, 89, 5, 4, 19, 6, 2, 1])) (.leaf [53, 60, 39, 54,
  59, 30, 16, 11, 46, 0, 17, 12, 3, 18, 89, 5, 4, 19, 6, 2, 1])) (.leaf [53, 60, 39, 54, 59, 30,
  16, 11, 46, 0, 17, 12, 3, 18, 89, 5, 4, 19, 6, 2, 1])) (.leaf [53, 39, 54, 59, 30, 16, 11, 46, 0,
  31, 17, 12, 3, 18, 13, 89, 5, 4, 19, 14, 6, 2, 1])) (.leaf [53, 60, 39, 54, 59, 30, 16, 11, 46,
  0, 17, 12, 3, 18, 89, 5, 4, 19, 6, 2, 1])) (.leaf [53, 60, 39, 54, 59, 30, 16, 11, 46, 0, 17, 12,
  3, 18, 89, 5, 4, 19, 6, 2, 1])) (.leaf [53, 60, 39, 54, 59, 30, 16, 11, 46, 0, 17, 12, 3, 18, 89,
  5, 4, 19, 6, 2, 1])) (.leaf [53, 39, 54, 59, 30, 16, 11, 46, 0, 31, 17, 12, 3, 18, 13, 89, 5, 4,
  19, 14, 6, 2, 1])) (.leaf [53, 48, 39, 54, 59, 30, 16, 35, 11, 46, 0, 17, 36, 12, 3, 18, 89, 5,
  4, 19, 6, 2, 1])) (.leaf [53, 60, 39, 54, 59, 30, 16, 11, 46, 0, 31, 17, 12, 3, 18, 13, 89, 5, 4,
  19, 14, 6, 2, 1])) (.cases [] 18 (.cases [] 25 (.breaks 1065045 (.breaks 4198483 (.cycle 33
  [26, 99]) (.leaf [26, 60, 39, 84, 85, 11, 38, 30, 16, 48, 37, 12, 3, 0, 31, 17, 35, 5, 4, 18, 13,
  34, 36, 6, 2, 19, 14, 24, 1])) (.leaf [26, 60, 39, 84, 85, 38, 30, 16, 48, 37, 3, 0, 31, 17, 35,
  4, 18, 13, 34, 36, 2, 19, 14, 24, 58, 1, 40, 41, 42, 43])) (.cases [] 39 (.breaks 1065045
  (.breaks 4198483 (.cycle 33 [26, 99]) (.leaf [26, 60, 39, 11, 38, 30, 16, 12, 3, 0, 31, 17, 5, 4,
  18, 13, 34, 6, 2, 19, 14, 24, 1, 112, 106, 40, 41, 42, 43])) (.leaf [26, 48, 39, 11, 38, 30, 16,
  35, 12, 3, 0, 31, 17, 36, 5, 4, 18, 13, 34, 6, 2, 19, 14, 24, 1, 112, 106, 40, 41, 42, 43]))
  (.breaks 1065045 (.breaks 4198483 (.cycle 33 [26, 99]) (.cycle 43 [117, 58])) (.cycle 43
  [117, 58])))) (.breaks 1065045 (.breaks 4198483 (.cycle 33 [26, 99]) (.leaf [26, 70, 60, 48, 39,
  11, 38, 64, 30, 16, 35, 12, 65, 3, 0, 31, 17, 36, 5, 4, 18, 13, 34, 6, 2, 19, 14, 24, 1])) (.leaf
  [26, 70, 60, 48, 39, 38, 64, 30, 16, 35, 65, 3, 0, 31, 17, 36, 4, 18, 13, 34, 2, 19, 14, 24, 58,
  1, 40, 41, 42, 43])))

/-- some of the cases -/
def real5OneCase59 : LooseTree :=
  .breaks 16406 (.breaks 1065045 (.breaks 24186962 (.breaks 27353219 (.breaks 27353218 (.breaks
  4235346 (.breaks 4210721 (.breaks 17879237 (.breaks 17895617 (.breaks 23146629 (.breaks 23158801
  (.breaks 4210689 (.breaks 10526913 (.breaks 13684817 (.breaks 13705410 (.breaks 17895441 (.breaks
  20000945 (.breaks 10526737 (.breaks 17895457 (.breaks 18948177 (.breaks 18972866 (.breaks
  20000929 (.breaks 10526753 (.breaks 17895425 (.breaks 18948209 (.breaks 25264209 (.breaks
  10526721 (.leaf [94, 26, 39, 84, 85, 38, 5, 30, 16, 48, 37, 6, 3, 0, 31, 17, 35, 4, 18, 13, 34,
  36, 2, 19, 14, 24, 1]) (.leaf [94, 26, 60, 39, 84, 85, 38, 5, 30, 16, 48, 37, 6, 3, 0, 31, 17,
  35, 4, 18, 13, 34, 36, 2, 19, 14, 24, 1])) (.leaf [94, 26, 60, 39, 84, 85, 38, 5, 30, 16, 48, 37,
  6, 3, 0, 31, 17, 35, 4, 18, 13, 34, 36, 2, 19, 14, 24, 1])) (.leaf [94, 26, 60, 39, 84, 85, 38,
  5, 30, 16, 48, 37, 6, 3, 0, 31, 17, 35, 4, 18, 13, 34, 36, 2, 19, 14, 24, 1])) (.leaf [94, 26,
  60, 39, 84, 85, 38, 5, 30, 16, 48, 37, 6, 3, 0, 31, 17, 35, 4, 18, 13, 34, 36, 2, 19, 14, 24,
  1])) (.leaf [94, 26, 60, 39, 84, 85, 38, 5, 30, 16, 48, 37, 6, 3, 0, 31, 17, 35, 4, 18, 13, 34,
  36, 2, 19, 14, 24, 1])) (.leaf [94, 26, 60, 39, 84, 85, 38, 5, 30, 16, 48, 37, 6, 3, 0, 31, 17,
  35, 4, 18, 13, 34, 36, 2, 19, 14, 24, 1])) (.leaf [94, 26, 60, 39, 84, 85, 38, 5, 30, 16, 48, 37,
  6, 3, 0, 31, 17, 35, 4, 18, 13, 34, 36, 2, 19, 14, 24, 1])) (.leaf [94, 26, 60, 39, 84, 85, 38,
  5, 30, 16, 48, 37, 6, 3, 0, 31, 17, 35, 4, 18, 13, 34, 36, 2, 19, 14, 24, 1])) (.leaf [94, 26,
  60, 39, 84, 85, 38, 5, 30, 16, 48, 37, 6, 3, 0, 31, 17, 35, 4, 18, 13, 34, 36, 2, 19, 14, 24,
  1])) (.leaf [94, 26, 60, 39, 84, 85, 38, 5, 30, 16, 48, 37, 6, 3, 0, 31, 17, 35, 4, 18, 13, 34,
  36, 2, 19, 14, 24, 1])) (.leaf [94, 26, 60, 39, 84, 85, 38, 5, 30, 16, 48, 37, 6, 3, 0, 31, 17,
  35, 4, 18, 13, 34, 36, 2, 19, 14, 24, 1])) (.leaf [94, 26, 60, 39, 84, 85, 38, 5, 30, 16, 48, 37,
  6, 3, 0, 31, 17, 35, 4, 18, 13, 34, 36, 2, 19, 14, 24, 1])) (.leaf [94, 26, 60, 39, 84, 85, 38,
  5, 30, 16, 48, 37, 6, 3, 0, 31, 17, 35, 4, 18, 13, 34, 36, 2, 19, 14, 24, 1])) (.leaf [94, 26,
  60, 39, 84, 85, 38, 5, 30, 16, 48, 37, 6, 3, 0, 31, 17, 35, 4, 18, 13, 34, 36, 2, 19, 14, 24,
  1])) (.leaf [94, 26, 60, 39, 84, 85, 38, 5, 30, 16, 48, 37, 6, 3, 0, 31, 17, 35, 4, 18, 13, 34,
  36, 2, 19, 14, 24, 1])) (.leaf [94, 26, 60, 39, 84, 85, 38, 5, 30, 16, 48, 37, 6, 3, 0, 31, 17,
  35, 4, 18, 13, 34, 36, 2, 19, 14, 24, 1])) (.leaf [94, 26, 60, 39, 84, 85, 38, 5, 30, 16, 48, 37,
  6, 3, 0, 31, 17, 35, 4, 18, 13, 34, 36, 2, 19, 14, 24, 1])) (.leaf [94, 26, 60, 39, 84, 85, 38,
  5, 30, 16, 48, 37, 6, 3, 0, 31, 17, 35, 4, 18, 13, 34, 36, 2, 19, 14, 24, 1])) (.leaf [94, 26,
  60, 39, 84, 85, 38, 5, 30, 16, 48, 37, 6, 3, 0, 31, 17, 35, 4, 18, 13, 34, 36, 2, 19, 14, 24,
  1])) (.leaf [94, 26, 60, 39, 84, 85, 38, 5, 30, 16, 48, 37, 6, 3, 0, 31, 17, 35, 4, 18, 34, 36,
  2, 19, 24, 58, 1, 40, 41, 42, 43])) (.leaf [94, 26, 60, 39, 84, 85, 38, 5, 30, 16, 48, 37, 6, 3,
  0, 31, 17, 35, 4, 18, 13, 34, 36, 2, 19, 14, 24, 1])) (.leaf [94, 26, 60, 39, 84, 85, 38, 5, 30,
  16, 48, 37, 6, 3, 0, 31, 17, 35, 4, 18, 13, 34, 36, 2, 19, 14, 24, 1])) (.leaf [94, 26, 60, 39,
  84, 85, 38, 5, 30, 16, 48, 37, 6, 3, 0, 31, 17, 35, 4, 18, 13, 34, 36, 2, 19, 14, 24, 1])) (.leaf
  [94, 26, 60, 39, 84, 85, 38, 5, 30, 16, 48, 37, 6, 3, 0, 31, 17, 35, 4, 18, 13, 34, 36, 2, 19,
  14, 24, 1])) (.leaf [94, 26, 60, 39, 84, 85, 38, 5, 30, 16, 48, 37, 6, 3, 0, 31, 17, 35, 4, 18,
  13, 34, 36, 2, 19, 14, 24, 58, 1, 40, 41, 42, 43])) (.leaf [94, 26, 60, 39, 84, 85, 38, 5, 30,
  16, 48, 37, 6, 3, 0, 31, 17, 35, 4, 18, 13, 34, 36, 2, 19, 14, 24, 1])) (.leaf [168, 26, 60, 39,
  84, 85, 38, 5, 30, 16, 48, 37, 6, 3, 0, 31, 17, 35, 4, 18, 13, 34, 36, 2, 19, 14, 24, 1])

/-- some of the cases -/
def real5OneCase60 : LooseTree :=
  .cases [] 11 (.breaks 1065043 (.breaks 21000211 (.breaks 24186962 (.breaks 4210769 (.breaks
  4235362 (.breaks 17879237 (.breaks 17895617 (.breaks 4210881 (.breaks 10526801 (.breaks 13684817
  (.breaks 13705410 (.breaks 17895441 (.breaks 4210705 (.breaks 10526913 (.breaks 17895457 (.breaks
  18948177 (.breaks 4210721 (.breaks 10526737 (.breaks 17895425 (.breaks 18948209 (.breaks 4210689
  (.breaks 10526753 (.breaks 10526721 (.leaf [53, 60, 39, 54, 59, 30, 16, 11, 46, 0, 31, 17, 12, 3,
  18, 13, 5, 4, 19, 14, 6, 2, 1]) (.leaf [53, 39, 54, 59, 30, 16, 11, 46, 0, 31, 17, 12, 3, 18, 13,
  34, 5, 4, 19, 14, 24, 6, 2, 1])) (.leaf [53, 39, 54, 59, 30, 16, 11, 46, 0, 31, 17, 12, 3, 18,
  13, 34, 5, 4, 19, 14, 24, 6, 2, 1])) (.leaf [53, 60, 39, 54, 59, 30, 16, 11, 46, 0, 31, 17, 12,
  3, 18, 13, 34, 5, 4, 19, 14, 24, 6, 2, 1])) (.leaf [53, 60, 48, 39, 54, 59, 30, 16, 35, 11, 46,
  0, 17, 36, 12, 3, 18, 5, 4, 19, 6, 2, 1])) (.leaf [53, 60, 39, 54, 59, 30, 16, 11, 46, 0, 31, 17,
  12, 3, 18, 13, 34, 5, 4, 19, 14, 24, 6, 2, 1])) (.leaf [53, 39, 54, 59, 30, 16, 11, 46, 0, 31,
  17, 12, 3, 18, 13, 34, 5, 4, 19, 14, 24, 6, 2, 1])) (.leaf [53, 60, 39, 54, 59, 30, 16, 11, 46,
  0, 31, 17, 12, 3, 18, 13, 34, 5, 4, 19, 14, 24, 6, 2, 1])) (.leaf [53, 60, 48, 39, 54, 59, 30,
  16, 35, 11, 46, 0, 17, 36, 12, 3, 18, 5, 4, 19, 6, 2, 1])) (.leaf [53, 60, 39, 54, 59, 30, 16,
  11, 46, 0, 31, 17, 12, 3, 18, 13, 34, 5, 4, 19, 14, 24, 6, 2, 1])) (.leaf [53, 39, 54, 59, 30,
  16, 11, 46, 0, 31, 17, 12, 3, 18, 13, 34, 5, 4, 19, 14, 24, 6, 2, 1])) (.leaf [53, 60, 39, 54,
  59, 30, 16, 11, 46, 0, 31, 17, 12, 3, 18, 13, 34, 5, 4, 19, 14, 24, 6, 2, 1])) (.leaf [53, 60,
  39, 54, 59, 30, 16, 11, 46, 0, 31, 17, 12, 3, 18, 13, 34, 5, 4, 19, 14, 24, 6, 2, 1])) (.leaf
  [53, 60, 48, 39, 54, 59, 30, 16, 35, 11, 46, 0, 17, 36, 12, 3, 18, 5, 4, 19, 6, 2, 1])) (.leaf
  [53, 39, 54, 59, 30, 16, 11, 46, 0, 31, 17, 12, 3, 18, 13, 34, 5, 4, 19, 14, 24, 6, 2, 1]))
  (.leaf [53, 39, 54, 59, 30, 16, 11, 46, 0, 31, 17, 12, 3, 18, 13, 34, 5, 4, 19, 14, 24, 6, 2,
  1])) (.leaf [53, 60, 39, 54, 59, 30, 16, 11, 46, 0, 31, 17, 12, 3, 18, 13, 34, 5, 4, 19, 14, 24,
  6, 2, 1])) (.leaf [53, 60, 39, 54, 59, 30, 16, 11, 46, 0, 31, 17, 12, 3, 18, 13, 34, 5, 4, 19,
  14, 24, 6, 2, 1])) (.leaf [53, 60, 48, 39, 54, 59, 30, 16, 35, 11, 46, 0, 31, 17, 36, 12, 3, 18,
  13, 5, 4, 19, 14, 6, 2, 1])) (.leaf [53, 39, 54, 59, 30, 16, 11, 46, 0, 31, 17, 12, 3, 18, 13,
  34, 5, 4, 19, 14, 24, 6, 2, 1])) (.leaf [53, 60, 39, 54, 59, 30, 16, 11, 46, 0, 31, 17, 12, 3,
  18, 13, 34, 5, 4, 19, 14, 24, 6, 2, 1])) (.leaf [53, 60, 48, 39, 54, 59, 30, 16, 35, 11, 46, 0,
  31, 17, 36, 12, 3, 18, 13, 34, 5, 4, 19, 14, 24, 6, 2, 1])) (.leaf [53, 39, 54, 59, 30, 16, 11,
  46, 0, 31, 17, 12, 3, 18, 13, 34, 5, 4, 19, 14, 24, 6, 2, 1])) (.leaf [53, 60, 39, 54, 59, 30,
  16, 11, 46, 0, 31, 17, 12, 3, 18, 13, 34, 5, 4, 19, 14, 24, 6, 2, 1])) (.cases [] 39 (.breaks
  1065045 (.breaks 4198483 (.cycle 33 [26, 99]) (.leaf [94, 26, 60, 39, 38, 5, 30, 16, 6, 3, 0, 31,
  17, 4, 18, 34, 2, 19, 24, 1, 112, 106, 40, 41, 42, 43])) (.leaf [94, 26, 39, 38, 5, 30, 16, 6, 3,
  0, 31, 17, 4, 18, 13, 34, 2, 19, 14, 24, 1, 112, 106, 40, 41, 42, 43])) (.breaks 1065045 (.breaks
  4198483 (.cycle 33 [26, 99]) (.cycle 43 [117, 58])) (.cycle 43 [117, 58])))

/-- some of the cases -/
def real5OneCase61 : LooseTree :=
  .breaks 16406 (.breaks 1065045 (.breaks 19955730 (.breaks 21000211 (.breaks 24186962 (.breaks
  4235346 (.breaks 4210721 (.breaks 8421505 (.breaks 17879237 (.breaks 17895617 (.breaks 4210689
  (.breaks 8421521 (.breaks 10526913 (.breaks 13684817 (.breaks 13705410 (.breaks 17895441 (.breaks
  10526737 (.breaks 17895457 (.breaks 18948177 (.breaks 18972866 (.breaks 10526753 (.breaks
  17895425 (.breaks 18948209 (.breaks 25264209 (.breaks 10526721 (.leaf [94, 26, 70, 60, 39, 38, 5,
  64, 30, 16, 6, 65, 3, 0, 31, 17, 4, 18, 13, 34, 2, 19, 14, 24, 1]) (.leaf [94, 26, 70, 48, 39,
  38, 5, 64, 30, 16, 35, 6, 65, 3, 0, 31, 17, 36, 4, 18, 13, 34, 2, 19, 14, 24, 1])) (.leaf [94,
  26, 70, 60, 48, 39, 38, 5, 64, 30, 16, 35, 6, 65, 3, 0, 31, 17, 36, 4, 18, 13, 2, 19, 14, 1]))
  (.leaf [94, 26, 70, 60, 48, 39, 38, 5, 64, 30, 16, 35, 6, 65, 3, 0, 31, 17, 36, 4, 18, 34, 2, 19,
  24, 1])) (.leaf [94, 26, 70, 60, 48, 39, 38, 5, 64, 30, 16, 35, 6, 65, 3, 0, 31, 17, 36, 4, 18,
  13, 34, 2, 19, 14, 24, 1])) (.leaf [94, 26, 70, 48, 39, 38, 5, 64, 30, 16, 35, 6, 65, 3, 0, 31,
  17, 36, 4, 18, 13, 34, 2, 19, 14, 24, 1])) (.leaf [94, 26, 70, 60, 48, 39, 38, 5, 64, 30, 16, 35,
  6, 65, 3, 0, 31, 17, 36, 4, 18, 13, 2, 19, 14, 1])) (.leaf [94, 26, 70, 60, 48, 39, 38, 5, 64,
  30, 16, 35, 6, 65, 3, 0, 31, 17, 36, 4, 18, 34, 2, 19, 24, 1])) (.leaf [94, 26, 70, 60, 48, 39,
  38, 5, 64, 30, 16, 35, 6, 65, 3, 0, 31, 17, 36, 4, 18, 13, 34, 2, 19, 14, 24, 1])) (.leaf [94,
  26, 70, 48, 39, 38, 5, 64, 30, 16, 35, 6, 65, 3, 0, 31, 17, 36, 4, 18, 13, 34, 2, 19, 14, 24,
  1])) (.leaf [94, 26, 70, 60, 48, 39, 38, 5, 64, 30, 16, 35, 6, 65, 3, 0, 31, 17, 36, 4, 18, 13,
  34, 2, 19, 14, 24, 1])) (.leaf [94, 26, 70, 60, 48, 39, 38, 5, 64, 30, 16, 35, 6, 65, 3, 0, 31,
  17, 36, 4, 18, 13, 34, 2, 19, 14, 24, 1])) (.leaf [94, 26, 70, 48, 39, 38, 5, 64, 30, 16, 35, 6,
  65, 3, 0, 31, 17, 36, 4, 18, 13, 34, 2, 19, 14, 24, 1])) (.leaf [94, 26, 70, 48, 39, 38, 5, 64,
  30, 16, 35, 6, 65, 3, 0, 31, 17, 36, 4, 18, 13, 34, 2, 19, 14, 24, 1])) (.leaf [94, 26, 70, 60,
  48, 39, 38, 5, 64, 30, 16, 35, 6, 65, 3, 0, 31, 17, 36, 4, 18, 13, 34, 2, 19, 14, 24, 1])) (.leaf
  [94, 26, 70, 60, 48, 39, 38, 5, 64, 30, 16, 35, 6, 65, 3, 0, 31, 17, 36, 4, 18, 13, 34, 2, 19,
  14, 24, 1])) (.leaf [94, 26, 70, 60, 48, 39, 38, 5, 64, 30, 16, 35, 6, 65, 3, 0, 31, 17, 36, 4,
  18, 13, 34, 2, 19, 14, 24, 1])) (.leaf [94, 26, 70, 60, 48, 39, 38, 5, 64, 30, 16, 35, 6, 65, 3,
  0, 31, 17, 36, 4, 18, 13, 34, 2, 19, 14, 24, 1])) (.leaf [94, 26, 70, 60, 48, 39, 38, 5, 64, 30,
  16, 35, 6, 65, 3, 0, 31, 17, 36, 4, 18, 13, 34, 2, 19, 14, 24, 1])) (.leaf [94, 26, 70, 60, 48,
  39, 38, 5, 64, 30, 16, 35, 6, 65, 3, 0, 31, 17, 36, 4, 18, 13, 34, 2, 19, 14, 24, 1])) (.leaf
  [94, 26, 70, 48, 39, 38, 5, 64, 30, 16, 35, 6, 65, 3, 0, 31, 17, 36, 4, 18, 13, 34, 2, 19, 14,
  24, 1])) (.leaf [94, 26, 70, 60, 48, 39, 38, 5, 64, 30, 16, 35, 6, 65, 3, 0, 31, 17, 36, 4, 18,
  13, 34, 2, 19, 14, 24, 58, 1, 40, 41, 42, 43])) (.leaf [94, 26, 70, 48, 39, 38, 5, 64, 30, 16,
  35, 6, 65, 3, 0, 31, 17, 36, 4, 18, 13, 34, 2, 19, 14, 24, 1])) (.leaf [94, 26, 70, 60, 48, 39,
  38, 5, 64, 30, 16, 35, 6, 65, 3, 0, 31, 17, 36, 4, 18, 13, 34, 2, 19, 14, 24, 1])) (.leaf [94,
  26, 70, 48, 39, 38, 5, 64, 30, 16, 35, 6, 65, 3, 0, 31, 17, 36, 4, 18, 13, 34, 2, 19, 14, 24,
  1])) (.leaf [168, 26, 70, 60, 48, 39, 38, 5, 64, 30, 16, 35, 6, 65, 3, 0, 31, 17, 36, 4, 18, 13,
  34, 2, 19, 14, 24, 1])

/-- some of the cases -/
def real5OneCase62 : LooseTree :=
  .breaks 1065045 (.breaks 21000211 (.breaks 22097938 (.breaks 24186962 (.breaks 4235346 (.breaks
  17879237 (.breaks 17895617 (.breaks 20000897 (.breaks 10526913 (.breaks 13684817 (.breaks
  13705410 (.breaks 17895441 (.breaks 20000945 (.breaks 10526737 (.breaks 17895457 (.breaks
  18948177 (.breaks 18972866 (.breaks 20000929 (.breaks 10526753 (.breaks 17895425 (.breaks
  18948209 (.breaks 25264209 (.breaks 10526721 (.leaf [26, 60, 71, 39, 38, 30, 16, 51, 3, 0, 31,
  17, 35, 4, 18, 13, 34, 36, 2, 19, 14, 24, 1]) (.leaf [26, 60, 71, 39, 11, 38, 30, 16, 51, 12, 3,
  0, 31, 17, 35, 5, 4, 18, 13, 36, 6, 2, 19, 14, 1])) (.leaf [26, 71, 39, 11, 38, 30, 16, 51, 12,
  3, 0, 31, 17, 35, 5, 4, 18, 13, 36, 6, 2, 19, 14, 1])) (.leaf [26, 71, 39, 11, 38, 30, 16, 51,
  12, 3, 0, 31, 17, 35, 5, 4, 18, 34, 36, 6, 2, 19, 24, 1])) (.leaf [26, 60, 71, 39, 11, 38, 30,
  16, 51, 12, 3, 0, 31, 17, 35, 5, 4, 18, 13, 36, 6, 2, 19, 14, 1])) (.leaf [26, 60, 71, 39, 11,
  38, 30, 16, 51, 12, 3, 0, 31, 17, 35, 5, 4, 18, 13, 36, 6, 2, 19, 14, 1])) (.leaf [26, 60, 71,
  39, 11, 38, 30, 16, 51, 12, 3, 0, 31, 17, 35, 5, 4, 18, 13, 36, 6, 2, 19, 14, 1])) (.leaf [26,
  71, 39, 11, 38, 30, 16, 51, 12, 3, 0, 31, 17, 35, 5, 4, 18, 13, 36, 6, 2, 19, 14, 1])) (.leaf
  [26, 71, 39, 11, 38, 30, 16, 51, 12, 3, 0, 31, 17, 35, 5, 4, 18, 34, 36, 6, 2, 19, 24, 1]))
  (.leaf [26, 60, 71, 39, 11, 38, 30, 16, 51, 12, 3, 0, 31, 17, 35, 5, 4, 18, 13, 36, 6, 2, 19, 14,
  1])) (.leaf [26, 60, 71, 39, 11, 38, 30, 16, 51, 12, 3, 0, 31, 17, 35, 5, 4, 18, 13, 36, 6, 2,
  19, 14, 1])) (.leaf [26, 60, 71, 39, 11, 38, 30, 16, 51, 12, 3, 0, 31, 17, 35, 5, 4, 18, 13, 36,
  6, 2, 19, 14, 1])) (.leaf [26, 60, 71, 39, 11, 38, 30, 16, 51, 12, 3, 0, 31, 17, 35, 5, 4, 18,
  13, 36, 6, 2, 19, 14, 1])) (.leaf [26, 60, 71, 39, 11, 38, 30, 16, 51, 12, 3, 0, 31, 17, 35, 5,
  4, 18, 13, 36, 6, 2, 19, 14, 1])) (.leaf [26, 60, 71, 39, 11, 38, 30, 16, 51, 12, 3, 0, 31, 17,
  35, 5, 4, 18, 13, 36, 6, 2, 19, 14, 1])) (.leaf [26, 60, 71, 39, 11, 38, 30, 16, 51, 12, 3, 0,
  31, 17, 35, 5, 4, 18, 13, 36, 6, 2, 19, 14, 1])) (.leaf [26, 60, 71, 39, 11, 38, 30, 16, 51, 12,
  3, 0, 31, 17, 35, 5, 4, 18, 13, 36, 6, 2, 19, 14, 1])) (.leaf [26, 60, 71, 39, 11, 38, 30, 16,
  51, 12, 3, 0, 31, 17, 35, 5, 4, 18, 13, 36, 6, 2, 19, 14, 1])) (.leaf [26, 60, 71, 39, 11, 38,
  30, 16, 51, 12, 3, 0, 31, 17, 35, 5, 4, 18, 13, 36, 6, 2, 19, 14, 1])) (.leaf [26, 60, 71, 39,
  11, 38, 30, 16, 51, 12, 3, 0, 31, 17, 35, 5, 4, 18, 13, 36, 6, 2, 19, 14, 1])) (.leaf [26, 60,
  71, 39, 11, 38, 30, 16, 51, 12, 3, 0, 31, 17, 35, 5, 4, 18, 13, 34, 36, 6, 2, 19, 14, 24, 1]))
  (.leaf [26, 60, 71, 39, 11, 38, 30, 16, 51, 12, 3, 0, 31, 17, 35, 5, 4, 18, 13, 36, 6, 2, 19, 14,
  1])) (.leaf [26, 71, 39, 11, 38, 30, 16, 51, 12, 3, 0, 31, 17, 35, 5, 4, 18, 13, 36, 6, 2, 19,
  14, 1])) (.leaf [26, 60, 71, 39, 38, 30, 16, 51, 3, 0, 31, 17, 35, 4, 18, 34, 36, 2, 19, 24, 58,
  1, 40, 41, 42, 43])

/-- some of the cases -/
def real5OneCase63 : LooseTree :=
  .breaks 1065045 (.breaks 24186962 (.breaks 4210881 (.breaks 4235346 (.breaks 17879237 (.breaks
  17895617 (.breaks 20000945 (.breaks 25264209 (.breaks 4210705 (.breaks 10526913 (.breaks 13684817
  (.breaks 17895441 (.breaks 20000929 (.breaks 4210721 (.breaks 10526737 (.breaks 17895457 (.breaks
  4210689 (.breaks 10526753 (.breaks 17895425 (.breaks 10526721 (.leaf [26, 48, 39, 68, 11, 38, 30,
  16, 35, 24, 12, 3, 0, 17, 36, 5, 4, 18, 6, 2, 19, 1]) (.leaf [26, 48, 39, 68, 11, 38, 30, 16, 35,
  24, 12, 3, 0, 17, 36, 5, 4, 18, 6, 2, 19, 1])) (.leaf [26, 48, 39, 68, 11, 38, 30, 16, 35, 24,
  12, 3, 0, 17, 36, 5, 4, 18, 6, 2, 19, 1])) (.leaf [26, 48, 39, 68, 11, 38, 30, 16, 35, 24, 12, 3,
  0, 17, 36, 5, 4, 18, 6, 2, 19, 1])) (.leaf [26, 48, 39, 68, 38, 30, 16, 35, 24, 3, 0, 31, 17, 36,
  4, 18, 13, 2, 19, 14, 1])) (.leaf [26, 48, 39, 68, 11, 38, 30, 16, 35, 24, 12, 3, 0, 17, 36, 5,
  4, 18, 6, 2, 19, 1])) (.leaf [26, 48, 39, 68, 11, 38, 30, 16, 35, 24, 12, 3, 0, 17, 36, 5, 4, 18,
  6, 2, 19, 1])) (.leaf [26, 48, 39, 68, 38, 30, 16, 35, 24, 3, 0, 31, 17, 36, 4, 18, 13, 2, 19,
  14, 1])) (.leaf [26, 39, 68, 11, 38, 30, 16, 24, 12, 3, 0, 31, 17, 5, 4, 18, 13, 6, 2, 19, 14,
  1])) (.leaf [26, 48, 39, 68, 11, 38, 30, 16, 35, 24, 12, 3, 0, 17, 36, 5, 4, 18, 6, 2, 19, 1]))
  (.leaf [26, 48, 39, 68, 11, 38, 30, 16, 35, 24, 12, 3, 0, 17, 36, 5, 4, 18, 6, 2, 19, 1])) (.leaf
  [26, 48, 39, 68, 11, 38, 30, 16, 35, 24, 12, 3, 0, 17, 36, 5, 4, 18, 6, 2, 19, 1])) (.leaf [26,
  48, 39, 68, 38, 30, 16, 35, 24, 3, 0, 31, 17, 36, 4, 18, 13, 2, 19, 14, 1])) (.leaf [26, 48, 39,
  68, 11, 38, 30, 16, 35, 24, 12, 3, 0, 17, 36, 5, 4, 18, 6, 2, 19, 1])) (.leaf [26, 39, 68, 11,
  38, 30, 16, 24, 12, 3, 0, 31, 17, 5, 4, 18, 13, 6, 2, 19, 14, 1])) (.leaf [26, 48, 39, 68, 11,
  38, 30, 16, 35, 24, 12, 3, 0, 17, 36, 5, 4, 18, 6, 2, 19, 1])) (.leaf [26, 48, 39, 68, 11, 38,
  30, 16, 35, 24, 12, 3, 0, 17, 36, 5, 4, 18, 6, 2, 19, 1])) (.leaf [26, 48, 39, 68, 11, 38, 30,
  16, 35, 24, 12, 3, 0, 17, 36, 5, 4, 18, 6, 2, 19, 1])) (.leaf [26, 48, 39, 68, 38, 30, 16, 35,
  24, 3, 0, 31, 17, 36, 4, 18, 13, 2, 19, 14, 1])) (.leaf [26, 48, 39, 68, 11, 38, 30, 16, 35, 24,
  12, 3, 0, 31, 17, 36, 5, 4, 18, 13, 6, 2, 19, 14, 1])) (.leaf [26, 48, 39, 68, 11, 38, 30, 16,
  35, 24, 12, 3, 0, 31, 17, 36, 5, 4, 18, 13, 6, 2, 19, 14, 1])

/-- some of the cases -/
def real5OneCase64 : LooseTree :=
  .cases [] 35 (.breaks 18948289 (.cycle 18 [146, 147, 148]) (.cycle 18 [146, 147, 148])) (.cases
  [] 36 (.cases [] 55 (.leaf [161, 162]) (.leaf [160])) (.breaks 24186962 (.breaks 13664291
  (.breaks 13684817 (.breaks 17895617 (.breaks 8421409 (.breaks 17895441 (.breaks 8421393 (.breaks
  17895457 (.breaks 8421505 (.breaks 17895425 (.breaks 8421521 (.leaf
  [101, 87, 39, 102, 0, 16, 103, 17, 104, 18, 64, 19, 65]) (.leaf
  [101, 87, 39, 102, 0, 16, 103, 17, 104, 18, 64, 19, 65])) (.leaf
  [26, 101, 87, 38, 102, 0, 103, 3, 104, 4, 64, 2, 65, 1])) (.leaf
  [101, 87, 39, 102, 0, 16, 103, 17, 104, 18, 64, 19, 65])) (.leaf
  [26, 101, 87, 38, 102, 0, 103, 3, 104, 4, 64, 2, 65, 1])) (.leaf
  [101, 87, 39, 102, 0, 16, 103, 17, 104, 18, 64, 19, 65])) (.leaf
  [26, 101, 87, 38, 102, 0, 103, 3, 104, 4, 64, 2, 65, 1])) (.leaf
  [101, 87, 39, 102, 0, 16, 103, 17, 104, 18, 64, 19, 65])) (.leaf
  [26, 101, 87, 38, 102, 0, 103, 3, 104, 4, 64, 2, 65, 1])) (.leaf
  [101, 87, 39, 102, 0, 16, 103, 17, 104, 18, 64, 19, 65])) (.leaf
  [101, 87, 39, 102, 0, 16, 103, 17, 104, 18, 64, 19, 65])) (.leaf
  [26, 101, 87, 38, 102, 0, 103, 3, 104, 4, 64, 2, 65, 1])))

/-- some of the cases -/
def real5OneCase65 : LooseTree :=
  .breaks 1089621 (.breaks 26288325 (.breaks 10502226 (.breaks 10526913 (.breaks 18948177 (.breaks
  23158913 (.breaks 24211537 (.breaks 4210881 (.breaks 10526737 (.breaks 18948209 (.breaks 23158801
  (.breaks 24170693 (.breaks 4210705 (.breaks 10526753 (.breaks 13684817 (.breaks 4210721 (.breaks
  10526721 (.breaks 4210689 (.leaf [25, 21, 44, 80, 29, 3, 13, 45, 20, 11, 4, 14, 37, 15, 12, 2, 0,
  5, 1, 6]) (.leaf [25, 21, 44, 80, 29, 3, 13, 45, 20, 11, 4, 14, 37, 15, 12, 2, 0, 5, 1, 6]))
  (.leaf [25, 21, 44, 80, 29, 3, 13, 45, 20, 11, 4, 14, 37, 15, 12, 2, 0, 5, 1, 6])) (.leaf [25,
  21, 44, 80, 29, 3, 13, 45, 20, 11, 4, 14, 37, 15, 12, 2, 0, 5, 1, 6])) (.leaf [25, 21, 44, 80,
  29, 3, 13, 45, 20, 11, 4, 14, 37, 15, 12, 2, 0, 5, 1, 6])) (.leaf [25, 21, 44, 80, 29, 3, 13, 45,
  20, 11, 4, 14, 37, 15, 12, 2, 0, 5, 1, 6])) (.leaf [25, 21, 44, 80, 29, 3, 13, 45, 20, 11, 4, 14,
  37, 15, 12, 2, 0, 5, 1, 6])) (.leaf [25, 21, 44, 80, 29, 3, 13, 45, 20, 11, 4, 14, 37, 15, 12, 2,
  0, 5, 1, 6])) (.leaf [25, 21, 44, 80, 29, 3, 13, 45, 20, 11, 4, 14, 37, 15, 12, 2, 0, 5, 1, 6]))
  (.leaf [25, 21, 44, 80, 29, 3, 13, 45, 20, 11, 4, 14, 37, 15, 12, 2, 0, 5, 1, 6])) (.leaf [25,
  21, 44, 80, 29, 3, 13, 45, 20, 11, 4, 14, 37, 15, 12, 2, 0, 5, 1, 6])) (.leaf [25, 21, 44, 80,
  29, 3, 13, 45, 20, 11, 4, 14, 37, 15, 12, 2, 0, 5, 1, 6])) (.leaf [25, 21, 44, 80, 29, 3, 13, 45,
  20, 11, 4, 14, 37, 15, 12, 2, 0, 5, 1, 6])) (.leaf [25, 21, 44, 80, 29, 3, 13, 45, 20, 11, 4, 14,
  37, 15, 12, 2, 0, 5, 1, 6])) (.leaf [25, 21, 44, 80, 29, 3, 13, 45, 20, 11, 4, 14, 37, 15, 12, 2,
  0, 5, 1, 6])) (.leaf [25, 21, 44, 80, 29, 3, 13, 45, 20, 11, 4, 14, 37, 15, 12, 2, 0, 5, 1, 6]))
  (.leaf [25, 21, 44, 80, 29, 3, 13, 45, 20, 11, 4, 14, 37, 15, 12, 2, 0, 5, 1, 6])) (.leaf [25,
  21, 44, 80, 29, 3, 13, 45, 20, 11, 4, 14, 37, 15, 12, 2, 0, 5, 1, 6])) (.leaf [25, 21, 44, 80,
  29, 3, 13, 45, 20, 11, 4, 14, 37, 15, 7, 12, 2, 0, 8, 5, 1, 9, 6, 10])

/-- some of the cases -/
def real5OneCase66 : LooseTree :=
  .breaks 17920098 (.breaks 25239746 (.breaks 10502226 (.breaks 10526913 (.breaks 18948177 (.breaks
  18976853 (.breaks 23158913 (.breaks 24211537 (.breaks 4210881 (.breaks 10526737 (.breaks 18948209
  (.breaks 23158801 (.breaks 24170693 (.breaks 24211649 (.breaks 26316993 (.breaks 4210705 (.breaks
  10526753 (.breaks 13684817 (.breaks 24211473 (.breaks 26316817 (.breaks 4210721 (.breaks 10526721
  (.breaks 24211489 (.breaks 26316833 (.breaks 4210689 (.breaks 24211457 (.breaks 26316801 (.leaf
  [25, 21, 44, 63, 29, 3, 13, 67, 45, 20, 11, 4, 14, 37, 15, 7, 40, 12, 2, 0, 8, 41, 5, 1, 9, 42,
  6, 10, 43]) (.leaf [25, 21, 44, 63, 29, 3, 13, 67, 45, 20, 11, 4, 14, 37, 15, 7, 40, 12, 2, 0, 8,
  41, 5, 1, 9, 42, 6, 10, 43])) (.leaf [25, 21, 44, 63, 29, 3, 13, 67, 45, 20, 11, 4, 14, 37, 15,
  7, 40, 12, 2, 0, 8, 41, 5, 1, 9, 42, 6, 10, 43])) (.leaf [25, 21, 44, 63, 29, 3, 13, 67, 45, 20,
  11, 4, 14, 37, 15, 7, 40, 12, 2, 0, 8, 41, 5, 1, 9, 42, 6, 10, 43])) (.leaf [25, 21, 44, 63, 29,
  3, 13, 67, 45, 20, 11, 4, 14, 37, 15, 7, 40, 12, 2, 0, 8, 41, 5, 1, 9, 42, 6, 10, 43])) (.leaf
  [25, 21, 44, 63, 29, 3, 13, 67, 45, 20, 11, 4, 14, 37, 15, 7, 40, 12, 2, 0, 8, 41, 5, 1, 9, 42,
  6, 10, 43])) (.leaf [25, 21, 44, 63, 29, 3, 13, 67, 45, 20, 11, 4, 14, 37, 15, 7, 40, 12, 2, 0,
  8, 41, 5, 1, 9, 42, 6, 10, 43])) (.leaf [25, 21, 44, 63, 29, 3, 13, 67, 45, 20, 11, 4, 14, 37,
  15, 7, 40, 12, 2, 0, 8, 41, 5, 1, 9, 42, 6, 10, 43])) (.leaf [25, 21, 44, 63, 29, 3, 13, 67, 45,
  20, 11, 4, 14, 37, 15, 7, 40, 12, 2, 0, 8, 41, 5, 1, 9, 42, 6, 10, 43])) (.leaf [25, 21, 44, 63,
  29, 3, 13, 67, 45, 20, 11, 4, 14, 37, 15, 7, 40, 12, 2, 0, 8, 41, 5, 1, 9, 42, 6, 10, 43]))
  (.leaf [25, 21, 44, 63, 29, 3, 13, 67, 45, 20, 11, 4, 14, 37, 15, 7, 40, 12, 2, 0, 8, 41, 5, 1,
  9, 42, 6, 10, 43])) (.leaf [25, 21, 44, 63, 29, 3, 13, 67, 45, 20, 11, 4, 14, 37, 15, 7, 40, 12,
  2, 0, 8, 41, 5, 1, 9, 42, 6, 10, 43])) (.leaf [25, 21, 44, 63, 29, 3, 13, 67, 45, 20, 11, 4, 14,
  37, 15, 7, 40, 12, 2, 0, 8, 41, 5, 1, 9, 42, 6, 10, 43])) (.leaf [25, 21, 44, 63, 29, 3, 13, 67,
  45, 20, 11, 4, 14, 37, 15, 7, 40, 12, 2, 0, 8, 41, 5, 1, 9, 42, 6, 10, 43])) (.leaf [25, 21, 44,
  63, 29, 3, 13, 67, 45, 20, 11, 4, 14, 37, 15, 7, 40, 12, 2, 0, 8, 41, 5, 1, 9, 42, 6, 10, 43]))
  (.leaf [25, 21, 44, 63, 29, 3, 13, 67, 45, 20, 11, 4, 14, 37, 15, 7, 40, 12, 2, 0, 8, 41, 5, 1,
  9, 42, 6, 10, 43])) (.leaf [25, 21, 44, 63, 29, 3, 13, 67, 45, 20, 11, 4, 14, 37, 15, 7, 40, 12,
  2, 0, 8, 41, 5, 1, 9, 42, 6, 10, 43])) (.leaf [25, 21, 44, 63, 29, 3, 13, 67, 45, 20, 11, 4, 14,
  37, 15, 7, 40, 12, 2, 0, 8, 41, 5, 1, 9, 42, 6, 10, 43])) (.leaf [25, 21, 44, 63, 29, 3, 13, 67,
  45, 20, 11, 4, 14, 37, 15, 7, 40, 12, 2, 0, 8, 41, 5, 1, 9, 42, 6, 10, 43])) (.leaf [25, 21, 44,
  63, 29, 3, 13, 67, 45, 20, 11, 4, 14, 37, 15, 7, 40, 12, 2, 0, 8, 41, 5, 1, 9, 42, 6, 10, 43]))
  (.leaf [25, 21, 44, 63, 29, 3, 13, 67, 45, 20, 11, 4, 14, 37, 15, 7, 40, 12, 2, 0, 8, 41, 5, 1,
  9, 42, 6, 10, 43])) (.leaf [25, 21, 44, 63, 29, 3, 13, 67, 45, 20, 11, 4, 14, 37, 15, 7, 40, 12,
  2, 0, 8, 41, 5, 1, 9, 42, 6, 10, 43])) (.leaf [25, 21, 44, 63, 29, 3, 13, 67, 45, 20, 11, 4, 14,
  37, 15, 7, 40, 12, 2, 0, 8, 41, 5, 1, 9, 42, 6, 10, 43])) (.leaf [25, 21, 44, 63, 29, 3, 13, 67,
  45, 20, 11, 4, 14, 37, 15, 7, 40, 12, 2, 0, 8, 41, 5, 1, 9, 42, 6, 10, 43])) (.leaf [25, 21, 44,
  63, 29, 3, 13, 67, 45, 20, 11, 4, 14, 37, 15, 7, 40, 12, 2, 0, 8, 41, 5, 1, 9, 42, 6, 10, 43]))
  (.leaf [25, 21, 44, 63, 29, 3, 13, 67, 45, 20, 11, 4, 14, 37, 15, 7, 40, 12, 2, 0, 8, 41, 5, 1,
  9, 42, 6, 10, 43])) (.leaf [25, 21, 44, 63, 29, 3, 13, 67, 45, 20, 11, 4, 14, 37, 15, 7, 40, 12,
  2, 0, 8, 41, 5, 1, 9, 42, 6, 10, 43])) (.leaf [25, 21, 44, 63, 29, 3, 13, 67, 45, 20, 11, 4, 14,
  37, 15, 7, 40, 12, 2, 0, 8, 41, 5, 1, 9, 42, 6, 10, 43])

/-- some of the cases -/
def real5OneCase67 : LooseTree :=
  .breaks 1089621 (.breaks 17920098 (.breaks 9474065 (.breaks 10502226 (.breaks 10526913 (.breaks
  23158913 (.breaks 24211537 (.breaks 4210881 (.breaks 9474177 (.breaks 10526737 (.breaks 23158801
  (.breaks 24170693 (.breaks 4210705 (.breaks 9474193 (.breaks 10526753 (.breaks 13684817 (.breaks
  13705410 (.breaks 4210721 (.breaks 10526721 (.breaks 18948177 (.breaks 18972866 (.breaks 4210689
  (.breaks 18948209 (.breaks 25264209 (.leaf [25, 61, 21, 44, 62, 29, 3, 45, 20, 11, 55, 4, 37, 15,
  12, 56, 2, 0, 31, 5, 1, 13, 34, 6, 14, 24]) (.leaf [25, 61, 21, 44, 62, 29, 3, 45, 20, 11, 55, 4,
  37, 15, 7, 12, 56, 2, 0, 8, 5, 1, 9, 6, 10])) (.leaf [25, 61, 21, 44, 62, 29, 3, 45, 20, 11, 55,
  4, 37, 15, 7, 12, 56, 2, 0, 8, 5, 1, 9, 6, 10])) (.leaf [25, 61, 21, 44, 62, 29, 3, 45, 20, 11,
  55, 4, 37, 15, 12, 56, 2, 0, 31, 5, 1, 13, 34, 6, 14, 24])) (.leaf [25, 61, 21, 44, 62, 29, 3,
  45, 20, 11, 55, 4, 37, 15, 7, 12, 56, 2, 0, 8, 5, 1, 9, 6, 10])) (.leaf [25, 61, 21, 44, 62, 29,
  3, 45, 20, 11, 55, 4, 37, 15, 7, 12, 56, 2, 0, 8, 5, 1, 9, 6, 10])) (.leaf [25, 61, 21, 44, 62,
  29, 3, 45, 20, 11, 55, 4, 37, 15, 12, 56, 2, 0, 31, 5, 1, 13, 34, 6, 14, 24])) (.leaf [25, 61,
  21, 44, 62, 29, 3, 45, 20, 11, 55, 4, 37, 15, 12, 56, 2, 0, 31, 5, 1, 13, 34, 6, 14, 24])) (.leaf
  [25, 61, 21, 44, 62, 29, 3, 45, 20, 11, 55, 4, 37, 15, 7, 12, 56, 2, 0, 8, 5, 1, 9, 6, 10]))
  (.leaf [25, 61, 21, 44, 62, 29, 3, 45, 20, 11, 55, 4, 37, 15, 12, 56, 2, 0, 31, 5, 1, 13, 34, 6,
  14, 24])) (.leaf [25, 61, 21, 44, 62, 29, 3, 45, 20, 11, 55, 4, 37, 15, 12, 56, 2, 0, 31, 5, 1,
  13, 34, 6, 14, 24])) (.leaf [25, 61, 21, 44, 62, 29, 3, 45, 20, 11, 55, 4, 37, 15, 12, 56, 2, 0,
  31, 5, 1, 13, 34, 6, 14, 24])) (.leaf [25, 61, 21, 44, 62, 29, 3, 45, 20, 11, 55, 4, 37, 15, 12,
  56, 2, 0, 31, 5, 1, 13, 34, 6, 14, 24])) (.leaf [25, 61, 21, 44, 62, 29, 3, 45, 20, 11, 55, 4,
  37, 15, 7, 12, 56, 2, 0, 8, 5, 1, 9, 6, 10])) (.leaf [25, 61, 21, 44, 62, 29, 3, 45, 20, 11, 55,
  4, 37, 15, 12, 56, 2, 0, 31, 5, 1, 13, 34, 6, 14, 24])) (.leaf [25, 61, 21, 44, 62, 29, 3, 45,
  20, 11, 55, 4, 37, 15, 12, 56, 2, 0, 31, 5, 1, 13, 34, 6, 14, 24])) (.leaf [25, 61, 21, 44, 62,
  29, 3, 45, 20, 11, 55, 4, 37, 15, 12, 56, 2, 0, 31, 5, 1, 13, 34, 6, 14, 24])) (.leaf [25, 61,
  21, 44, 62, 29, 3, 45, 20, 11, 55, 4, 37, 15, 12, 56, 2, 0, 31, 5, 1, 13, 34, 6, 14, 24])) (.leaf
  [25, 61, 21, 44, 62, 29, 3, 45, 20, 11, 55, 4, 37, 15, 7, 12, 56, 2, 0, 31, 8, 5, 1, 13, 9, 6,
  14, 10])) (.leaf [25, 61, 21, 44, 62, 29, 3, 45, 20, 11, 55, 4, 37, 15, 12, 56, 2, 0, 31, 5, 1,
  13, 34, 6, 14, 24])) (.leaf [25, 61, 21, 44, 62, 29, 3, 45, 20, 11, 55, 4, 37, 15, 12, 56, 2, 0,
  31, 5, 1, 13, 34, 6, 14, 24])) (.leaf [25, 61, 21, 44, 62, 29, 3, 45, 20, 11, 55, 4, 37, 15, 12,
  56, 2, 0, 31, 5, 1, 13, 34, 6, 14, 24])) (.leaf [25, 128, 21, 44, 55, 29, 3, 45, 20, 11, 56, 4,
  37, 15, 12, 2, 0, 31, 5, 1, 13, 34, 6, 14, 24])) (.leaf [25, 61, 21, 44, 62, 29, 3, 45, 20, 11,
  55, 4, 37, 15, 7, 12, 56, 2, 0, 31, 8, 5, 1, 13, 9, 6, 14, 10])) (.leaf [25, 61, 21, 44, 62, 29,
  3, 45, 20, 11, 55, 4, 37, 15, 7, 12, 56, 2, 0, 31, 8, 5, 1, 13, 9, 6, 14, 10])

/-- some of the cases -/
def real5OneCase68 : LooseTree :=
  .cases [] 22 (.breaks 1089619 (.breaks 8466450 (.breaks 17920098 (.breaks 10526801 (.breaks
  20000897 (.breaks 24211537 (.breaks 10502226 (.breaks 10526913 (.breaks 20013237 (.breaks
  24170693 (.breaks 24211649 (.breaks 4210881 (.breaks 10526737 (.breaks 13684817 (.breaks 13705410
  (.breaks 23158913 (.breaks 24211473 (.breaks 4210705 (.breaks 10526753 (.breaks 18948177 (.breaks
  23158801 (.breaks 24211489 (.breaks 4210721 (.breaks 10526721 (.breaks 18948209 (.breaks 24211457
  (.breaks 4210689 (.leaf [79, 81, 21, 46, 51, 20, 29, 3, 44, 15, 7, 11, 4, 0, 31, 45, 8, 12, 2,
  13, 37, 9, 5, 1, 14, 10, 6]) (.leaf [79, 81, 21, 46, 51, 20, 29, 3, 44, 15, 7, 11, 4, 0, 31, 45,
  8, 12, 2, 13, 34, 37, 9, 5, 1, 14, 10, 24, 6])) (.leaf [79, 72, 81, 21, 74, 46, 51, 20, 29, 3,
  44, 22, 15, 11, 4, 0, 31, 23, 45, 12, 2, 13, 34, 37, 5, 1, 14, 24, 6])) (.leaf [79, 72, 81, 21,
  74, 46, 51, 20, 29, 3, 44, 22, 15, 7, 11, 4, 0, 23, 45, 8, 12, 2, 37, 9, 5, 1, 10, 6])) (.leaf
  [79, 81, 21, 46, 51, 20, 29, 3, 44, 15, 7, 11, 4, 0, 31, 45, 8, 12, 2, 13, 34, 37, 9, 5, 1, 14,
  10, 24, 6])) (.leaf [79, 81, 21, 46, 51, 20, 29, 3, 44, 15, 7, 11, 4, 0, 31, 45, 8, 12, 2, 13,
  34, 37, 9, 5, 1, 14, 10, 24, 6])) (.leaf [79, 72, 81, 21, 74, 46, 51, 20, 29, 3, 44, 22, 15, 11,
  4, 0, 31, 23, 45, 12, 2, 13, 34, 37, 5, 1, 14, 24, 6])) (.leaf [79, 81, 21, 46, 51, 20, 29, 3,
  44, 15, 7, 11, 4, 0, 31, 45, 8, 12, 2, 13, 34, 37, 9, 5, 1, 14, 10, 24, 6])) (.leaf [79, 72, 81,
  21, 74, 46, 51, 20, 29, 3, 44, 22, 15, 7, 11, 4, 0, 23, 45, 8, 12, 2, 37, 9, 5, 1, 10, 6]))
  (.leaf [79, 81, 21, 46, 51, 20, 29, 3, 44, 15, 7, 11, 4, 0, 31, 45, 8, 12, 2, 13, 34, 37, 9, 5,
  1, 14, 10, 24, 6])) (.leaf [79, 81, 21, 46, 51, 20, 29, 3, 44, 15, 7, 11, 4, 0, 31, 45, 8, 12, 2,
  13, 34, 37, 9, 5, 1, 14, 10, 24, 6])) (.leaf [79, 72, 81, 21, 74, 46, 51, 20, 29, 3, 44, 22, 15,
  11, 4, 0, 31, 23, 45, 12, 2, 13, 34, 37, 5, 1, 14, 24, 6])) (.leaf [79, 81, 21, 46, 51, 20, 29,
  3, 44, 15, 7, 11, 4, 0, 31, 45, 8, 12, 2, 13, 34, 37, 9, 5, 1, 14, 10, 24, 6])) (.leaf [79, 72,
  81, 21, 74, 46, 51, 20, 29, 3, 44, 22, 15, 7, 11, 4, 0, 23, 45, 8, 12, 2, 37, 9, 5, 1, 10, 6]))
  (.leaf [79, 81, 21, 46, 51, 20, 29, 3, 44, 15, 7, 11, 4, 0, 31, 45, 8, 12, 2, 13, 34, 37, 9, 5,
  1, 14, 10, 24, 6])) (.leaf [79, 81, 21, 46, 51, 20, 29, 3, 44, 15, 7, 11, 4, 0, 31, 45, 8, 12, 2,
  13, 34, 37, 9, 5, 1, 14, 10, 24, 6])) (.leaf [79, 81, 21, 46, 51, 20, 29, 3, 44, 15, 7, 11, 4, 0,
  31, 45, 8, 12, 2, 13, 34, 37, 9, 5, 1, 14, 10, 24, 6])) (.leaf [79, 72, 81, 21, 74, 46, 51, 20,
  29, 3, 44, 22, 15, 11, 4, 0, 31, 23, 45, 12, 2, 13, 34, 37, 5, 1, 14, 24, 6])) (.leaf [79, 72,
  81, 21, 74, 46, 51, 20, 29, 3, 44, 22, 15, 7, 11, 4, 0, 23, 45, 8, 12, 2, 37, 9, 5, 1, 10, 6]))
  (.leaf [79, 81, 21, 46, 51, 20, 29, 3, 44, 15, 7, 11, 4, 0, 31, 45, 8, 12, 2, 13, 34, 37, 9, 5,
  1, 14, 10, 24, 6])) (.leaf [79, 81, 21, 46, 51, 20, 29, 3, 44, 15, 7, 11, 4, 0, 31, 45, 8, 12, 2,
  13, 34, 37, 9, 5, 1, 14, 10, 24, 6])) (.leaf [79, 81, 21, 46, 51, 20, 29, 3, 44, 15, 7, 11, 4, 0,
  31, 45, 8, 12, 2, 13, 34, 37, 9, 5, 1, 14, 10, 24, 6])) (.leaf [79, 72, 81, 21, 74, 46, 51, 20,
  29, 3, 44, 22, 15, 7, 11, 4, 0, 31, 23, 45, 8, 12, 2, 13, 37, 9, 5, 1, 14, 10, 6])) (.leaf [79,
  21, 44, 46, 45, 20, 29, 3, 37, 15, 7, 11, 4, 0, 31, 8, 12, 2, 13, 34, 9, 5, 1, 14, 10, 24, 6]))
  (.leaf [79, 81, 21, 46, 51, 20, 29, 3, 44, 15, 7, 11, 4, 0, 31, 45, 8, 12, 2, 13, 34, 37, 9, 5,
  1, 14, 10, 24, 6])) (.leaf [79, 72, 81, 21, 74, 46, 51, 20, 29, 3, 44, 22, 15, 7, 11, 4, 0, 31,
  23, 45, 8, 12, 2, 13, 37, 9, 5, 1, 14, 10, 6])) (.leaf [79, 21, 44, 46, 45, 20, 29, 3, 37, 15, 7,
  11, 4, 0, 31, 8, 12, 2, 13, 34, 9, 5, 1, 14, 10, 24, 6])) (.leaf [79, 81, 21, 46, 51, 20, 29, 3,
  44, 15, 7, 11, 4, 0, 31, 45, 8, 12, 2, 13, 34, 37, 9, 5, 1, 14, 10, 24, 6])) (.cases [] 10
  (.breaks 1089621 (.breaks 10489939 (.cycle 33 [25, 130]) (.leaf [25, 81, 21, 47, 29, 3, 51, 27,
  20, 11, 4, 44, 28, 15, 7, 12, 2, 0, 31, 22, 45, 8, 5, 1, 13, 34, 23, 37, 9, 6, 14, 10, 24]))
  (.leaf [25, 81, 21, 47, 29, 3, 51, 27, 20, 11, 4, 44, 28, 15, 7, 12, 2, 0, 31, 22, 45, 8, 5, 1,
  34, 23, 37, 9, 6, 10, 24, 58, 40, 41, 42, 43])) (.breaks 1089621 (.breaks 10489939 (.cycle 33
  [25, 130]) (.leaf [25, 72, 81, 21, 74, 29, 3, 51, 20, 11, 4, 44, 22, 15, 7, 12, 2, 0, 31, 23, 45,
  8, 5, 1, 13, 34, 37, 9, 6, 14, 10, 24, 58, 40, 41, 42, 43])) (.leaf [25, 72, 81, 21, 50, 74, 29,
  3, 16, 51, 20, 11, 4, 17, 44, 22, 15, 7, 12, 2, 0, 31, 18, 23, 45, 8, 5, 1, 19, 13, 34, 37, 9, 6,
  14, 10, 24, 58, 40, 41, 42, 43])))

/-- some of the cases -/
def real5OneCase69 : LooseTree :=
  .breaks 17907794 (.breaks 21053633 (.breaks 21053457 (.breaks 21000214 (.leaf [47, 27, 28, 158])
  (.leaf [47, 27, 28, 60, 72])) (.leaf [47, 27, 28, 60, 72])) (.leaf [47, 27, 28, 60, 72])) (.leaf
  [47, 27, 28, 60, 72])

/-- some of the cases -/
def real5OneCase70 : LooseTree :=
  .cases [] 22 (.breaks 1089619 (.breaks 17920098 (.breaks 21000211 (.breaks 10526801 (.breaks
  24211537 (.breaks 10502226 (.breaks 10526913 (.breaks 20013237 (.breaks 24170693 (.breaks 4210881
  (.breaks 10526737 (.breaks 13684817 (.breaks 23158913 (.breaks 4210705 (.breaks 10526753 (.breaks
  23158801 (.breaks 4210721 (.breaks 10526721 (.breaks 4210689 (.breaks 10530819 (.breaks 11579393
  (.leaf [79, 81, 21, 60, 46, 51, 20, 29, 3, 44, 15, 11, 4, 0, 45, 12, 2, 37, 5, 1, 6, 97, 96])
  (.leaf [79, 81, 21, 60, 46, 51, 20, 29, 3, 44, 15, 11, 4, 0, 45, 12, 2, 37, 5, 1, 6, 97, 96]))
  (.leaf [79, 81, 21, 60, 46, 51, 20, 29, 3, 44, 15, 11, 4, 0, 45, 12, 2, 37, 5, 1, 6, 97, 96]))
  (.leaf [79, 81, 21, 60, 46, 51, 20, 29, 3, 44, 15, 11, 4, 0, 45, 12, 2, 37, 5, 1, 6, 97, 96]))
  (.leaf [79, 81, 21, 46, 51, 20, 29, 3, 44, 15, 11, 4, 0, 31, 45, 12, 2, 13, 37, 5, 1, 14, 6, 97,
  96])) (.leaf [79, 81, 21, 60, 46, 51, 20, 29, 3, 44, 15, 11, 4, 0, 45, 12, 2, 37, 5, 1, 6, 97,
  96])) (.leaf [79, 81, 21, 60, 46, 51, 20, 29, 3, 44, 15, 11, 4, 0, 45, 12, 2, 37, 5, 1, 6, 97,
  96])) (.leaf [79, 81, 21, 46, 51, 20, 29, 3, 44, 15, 11, 4, 0, 31, 45, 12, 2, 13, 37, 5, 1, 14,
  6, 97, 96])) (.leaf [79, 81, 21, 60, 46, 51, 20, 29, 3, 44, 15, 11, 4, 0, 45, 12, 2, 37, 5, 1, 6,
  97, 96])) (.leaf [79, 81, 21, 60, 46, 51, 20, 29, 3, 44, 15, 11, 4, 0, 45, 12, 2, 37, 5, 1, 6,
  97, 96])) (.leaf [79, 81, 21, 60, 46, 51, 20, 29, 3, 44, 15, 11, 4, 0, 45, 12, 2, 37, 5, 1, 6,
  97, 96])) (.leaf [79, 81, 21, 46, 51, 20, 29, 3, 44, 15, 11, 4, 0, 31, 45, 12, 2, 13, 37, 5, 1,
  14, 6, 97, 96])) (.leaf [79, 81, 21, 60, 46, 51, 20, 29, 3, 44, 15, 11, 4, 0, 45, 12, 2, 37, 5,
  1, 6, 97, 96])) (.leaf [79, 81, 21, 60, 46, 51, 20, 29, 3, 44, 15, 11, 4, 0, 45, 12, 2, 37, 5, 1,
  6, 97, 96])) (.leaf [79, 81, 21, 60, 46, 51, 20, 29, 3, 44, 15, 11, 4, 0, 45, 12, 2, 37, 5, 1, 6,
  97, 96])) (.leaf [79, 81, 21, 46, 51, 20, 29, 3, 44, 15, 11, 4, 0, 31, 45, 12, 2, 13, 37, 5, 1,
  14, 6, 97, 96])) (.leaf [79, 81, 21, 60, 46, 51, 20, 29, 3, 44, 15, 11, 4, 0, 45, 12, 2, 37, 5,
  1, 6, 97, 96])) (.leaf [79, 81, 21, 60, 46, 51, 20, 29, 3, 44, 15, 11, 4, 0, 45, 12, 2, 37, 5, 1,
  6, 97, 96])) (.leaf [79, 81, 21, 60, 46, 51, 20, 29, 3, 44, 15, 11, 4, 0, 31, 45, 12, 2, 13, 37,
  5, 1, 14, 6, 97, 96])) (.leaf [79, 81, 21, 46, 51, 20, 29, 3, 44, 15, 11, 4, 0, 31, 45, 12, 2,
  13, 37, 5, 1, 14, 6, 97, 96])) (.leaf [79, 81, 21, 60, 46, 51, 20, 29, 3, 44, 15, 11, 4, 0, 45,
  12, 2, 37, 5, 1, 6, 97, 96])) (.leaf [79, 81, 21, 60, 46, 51, 20, 29, 3, 44, 15, 11, 4, 0, 31,
  45, 12, 2, 13, 37, 5, 1, 14, 6, 97, 96])) (.cases [] 39 (.breaks 1089621 (.breaks 10489939
  (.cycle 33 [25, 130]) (.leaf [25, 81, 21, 60, 29, 3, 51, 20, 11, 4, 44, 15, 12, 2, 0, 31, 45, 5,
  1, 13, 34, 37, 6, 14, 24, 112, 106, 40, 41, 42, 43])) (.leaf [25, 81, 21, 60, 29, 3, 51, 20, 11,
  4, 44, 15, 7, 12, 2, 0, 31, 45, 8, 5, 1, 34, 37, 9, 6, 10, 24, 112, 106, 40, 41, 42, 43]))
  (.breaks 1089621 (.breaks 10489939 (.cycle 33 [25, 130]) (.cycle 43 [117, 58])) (.cycle 43
  [117, 58])))

/-- some of the cases -/
def real5OneCase71 : LooseTree :=
  .cases [] 29 (.breaks 10530850 (.breaks 11579393 (.cycle 66 [150, 153, 96]) (.cycle 66
  [150, 153, 96])) (.cycle 66 [150, 153, 96])) (.cases [] 22 (.breaks 1089619 (.breaks 8466450
  (.breaks 17920098 (.breaks 21000211 (.breaks 10526801 (.breaks 20000897 (.breaks 24211537
  (.breaks 10502226 (.breaks 10526913 (.breaks 20013237 (.breaks 24170693 (.breaks 4210881 (.breaks
  10526737 (.breaks 13684817 (.breaks 13705410 (.breaks 23158913 (.breaks 4210705 (.breaks 10526753
  (.breaks 18948177 (.breaks 18972866 (.breaks 23158801 (.breaks 4210721 (.breaks 10526721 (.breaks
  18948209 (.breaks 25264209 (.breaks 4210689 (.leaf [79, 81, 21, 60, 46, 51, 20, 29, 3, 44, 15,
  11, 4, 0, 31, 45, 12, 2, 13, 34, 37, 5, 1, 14, 24, 6]) (.leaf [79, 81, 21, 60, 46, 51, 20, 29, 3,
  44, 15, 7, 11, 4, 0, 31, 45, 8, 12, 2, 13, 37, 9, 5, 1, 14, 10, 6])) (.leaf [79, 81, 21, 46, 51,
  20, 29, 3, 44, 15, 7, 11, 4, 0, 31, 45, 8, 12, 2, 13, 37, 9, 5, 1, 14, 10, 6])) (.leaf [79, 81,
  21, 46, 51, 20, 29, 3, 44, 15, 7, 11, 4, 0, 31, 45, 8, 12, 2, 34, 37, 9, 5, 1, 10, 24, 6]))
  (.leaf [79, 81, 21, 60, 46, 51, 20, 29, 3, 44, 15, 7, 11, 4, 0, 31, 45, 8, 12, 2, 13, 37, 9, 5,
  1, 14, 10, 6])) (.leaf [79, 81, 21, 60, 46, 51, 20, 29, 3, 44, 15, 7, 11, 4, 0, 31, 45, 8, 12, 2,
  13, 37, 9, 5, 1, 14, 10, 6])) (.leaf [79, 81, 21, 60, 46, 51, 20, 29, 3, 44, 15, 7, 11, 4, 0, 31,
  45, 8, 12, 2, 13, 37, 9, 5, 1, 14, 10, 6])) (.leaf [79, 81, 21, 46, 51, 20, 29, 3, 44, 15, 7, 11,
  4, 0, 31, 45, 8, 12, 2, 13, 37, 9, 5, 1, 14, 10, 6])) (.leaf [79, 81, 21, 46, 51, 20, 29, 3, 44,
  15, 7, 11, 4, 0, 31, 45, 8, 12, 2, 34, 37, 9, 5, 1, 10, 24, 6])) (.leaf [79, 81, 91, 21, 60, 46,
  1, 51, 20, 29, 44, 15, 7, 11, 0, 31, 45, 8, 12, 13, 37, 9, 5, 14, 10, 6])) (.leaf [79, 81, 21,
  60, 46, 51, 20, 29, 3, 44, 15, 7, 11, 4, 0, 31, 45, 8, 12, 2, 13, 37, 9, 5, 1, 14, 10, 6]))
  (.leaf [79, 81, 21, 60, 46, 51, 20, 29, 3, 44, 15, 7, 11, 4, 0, 31, 45, 8, 12, 2, 13, 37, 9, 5,
  1, 14, 10, 6])) (.leaf [79, 81, 21, 60, 46, 51, 20, 29, 3, 44, 15, 7, 11, 4, 0, 31, 45, 8, 12, 2,
  13, 37, 9, 5, 1, 14, 10, 6])) (.leaf [79, 81, 21, 60, 46, 51, 20, 29, 3, 44, 15, 7, 11, 4, 0, 31,
  45, 8, 12, 2, 13, 37, 9, 5, 1, 14, 10, 6])) (.leaf [79, 81, 91, 21, 60, 46, 1, 51, 20, 29, 44,
  15, 7, 11, 0, 31, 45, 8, 12, 13, 37, 9, 5, 14, 10, 6])) (.leaf [79, 81, 21, 60, 46, 51, 20, 29,
  3, 44, 15, 7, 11, 4, 0, 31, 45, 8, 12, 2, 13, 37, 9, 5, 1, 14, 10, 6])) (.leaf [79, 81, 21, 60,
  46, 51, 20, 29, 3, 44, 15, 7, 11, 4, 0, 31, 45, 8, 12, 2, 13, 37, 9, 5, 1, 14, 10, 6])) (.leaf
  [79, 81, 21, 60, 46, 51, 20, 29, 3, 44, 15, 7, 11, 4, 0, 31, 45, 8, 12, 2, 13, 37, 9, 5, 1, 14,
  10, 6])) (.leaf [79, 81, 91, 21, 60, 46, 1, 51, 20, 29, 44, 15, 7, 11, 0, 31, 45, 8, 12, 13, 37,
  9, 5, 14, 10, 6])) (.leaf [79, 81, 21, 60, 46, 51, 20, 29, 3, 44, 15, 7, 11, 4, 0, 31, 45, 8, 12,
  2, 13, 37, 9, 5, 1, 14, 10, 6])) (.leaf [79, 81, 21, 60, 46, 51, 20, 29, 3, 44, 15, 7, 11, 4, 0,
  31, 45, 8, 12, 2, 13, 34, 37, 9, 5, 1, 14, 10, 24, 6])) (.leaf [79, 21, 44, 60, 46, 45, 20, 29,
  3, 37, 15, 7, 11, 4, 0, 31, 8, 12, 2, 13, 9, 5, 1, 14, 10, 6])) (.leaf [79, 81, 91, 21, 46, 1,
  51, 20, 29, 44, 15, 7, 11, 0, 31, 45, 8, 12, 13, 34, 37, 9, 5, 14, 10, 24, 6])) (.leaf [79, 81,
  21, 46, 51, 20, 29, 3, 44, 15, 7, 11, 4, 0, 31, 45, 8, 12, 2, 13, 37, 9, 5, 1, 14, 10, 6]))
  (.leaf [79, 81, 21, 60, 46, 51, 20, 29, 3, 44, 15, 7, 11, 4, 0, 31, 45, 8, 12, 2, 13, 34, 37, 9,
  5, 1, 14, 10, 24, 6])) (.leaf [79, 21, 44, 60, 46, 45, 20, 29, 3, 37, 15, 7, 11, 4, 0, 31, 8, 12,
  2, 13, 9, 5, 1, 14, 10, 6])) (.leaf [79, 81, 91, 21, 46, 1, 51, 20, 29, 44, 15, 7, 11, 0, 31, 45,
  8, 12, 13, 34, 37, 9, 5, 14, 10, 24, 6])) (.breaks 1089621 (.breaks 10489939 (.cycle 33
  [25, 130]) (.leaf [25, 81, 91, 21, 29, 1, 51, 20, 11, 44, 15, 7, 12, 0, 31, 45, 8, 5, 13, 34, 37,
  9, 6, 14, 10, 24, 58, 40, 41, 42, 43])) (.leaf [25, 81, 91, 21, 60, 29, 1, 51, 20, 11, 44, 15, 7,
  12, 0, 31, 45, 8, 5, 13, 34, 37, 9, 6, 14, 10, 24, 58, 40, 41, 42, 43])))

/-- some of the cases -/
def real5OneCase72 : LooseTree :=
  .breaks 1089621 (.breaks 17920098 (.breaks 17907794 (.breaks 19955730 (.breaks 20013237 (.breaks
  8421505 (.breaks 10502226 (.breaks 10526913 (.breaks 21053633 (.breaks 23158913 (.breaks 24211537
  (.breaks 4210881 (.breaks 8421521 (.breaks 10526737 (.breaks 21053457 (.breaks 23158801 (.breaks
  24170693 (.breaks 4210705 (.breaks 10526753 (.breaks 13684817 (.breaks 13705410 (.breaks 21053473
  (.breaks 4210721 (.breaks 10526721 (.breaks 18948177 (.breaks 21053441 (.breaks 4210689 (.breaks
  18948209 (.leaf [25, 21, 47, 70, 44, 64, 29, 3, 27, 45, 20, 11, 65, 4, 28, 37, 15, 12, 2, 0, 31,
  22, 5, 1, 13, 23, 6, 14]) (.leaf [25, 21, 47, 70, 44, 64, 29, 3, 27, 45, 20, 11, 65, 4, 28, 37,
  15, 7, 12, 2, 0, 22, 8, 5, 1, 23, 9, 6, 10])) (.leaf [25, 21, 47, 70, 44, 64, 29, 3, 27, 45, 20,
  11, 65, 4, 28, 37, 15, 12, 2, 0, 31, 22, 5, 1, 13, 34, 23, 6, 14, 24])) (.leaf [25, 21, 47, 70,
  44, 64, 29, 3, 27, 45, 20, 11, 65, 4, 28, 37, 15, 12, 2, 0, 31, 22, 5, 1, 13, 34, 23, 6, 14,
  24])) (.leaf [25, 21, 47, 70, 44, 64, 29, 3, 27, 45, 20, 11, 65, 4, 28, 37, 15, 7, 12, 2, 0, 22,
  8, 5, 1, 23, 9, 6, 10])) (.leaf [25, 21, 47, 70, 44, 64, 29, 3, 27, 45, 20, 11, 65, 4, 28, 37,
  15, 12, 2, 0, 31, 22, 5, 1, 13, 34, 23, 6, 14, 24])) (.leaf [25, 21, 47, 70, 44, 64, 29, 3, 27,
  45, 20, 11, 65, 4, 28, 37, 15, 12, 2, 0, 31, 22, 5, 1, 13, 34, 23, 6, 14, 24])) (.leaf [25, 21,
  47, 70, 44, 64, 29, 3, 27, 45, 20, 11, 65, 4, 28, 37, 15, 12, 2, 0, 31, 22, 5, 1, 13, 34, 23, 6,
  14, 24])) (.leaf [25, 21, 47, 70, 44, 64, 29, 3, 27, 45, 20, 11, 65, 4, 28, 37, 15, 7, 12, 2, 0,
  22, 8, 5, 1, 23, 9, 6, 10])) (.leaf [25, 21, 47, 70, 44, 64, 29, 3, 27, 45, 20, 11, 65, 4, 28,
  37, 15, 12, 2, 0, 31, 22, 5, 1, 13, 34, 23, 6, 14, 24])) (.leaf [25, 21, 47, 70, 44, 64, 29, 3,
  27, 45, 20, 11, 65, 4, 28, 37, 15, 12, 2, 0, 31, 22, 5, 1, 13, 34, 23, 6, 14, 24])) (.leaf [25,
  21, 47, 70, 44, 64, 29, 3, 27, 45, 20, 11, 65, 4, 28, 37, 15, 12, 2, 0, 31, 22, 5, 1, 13, 34, 23,
  6, 14, 24])) (.leaf [25, 21, 47, 70, 44, 64, 29, 3, 27, 45, 20, 11, 65, 4, 28, 37, 15, 7, 12, 2,
  0, 22, 8, 5, 1, 23, 9, 6, 10])) (.leaf [25, 21, 47, 70, 44, 64, 29, 3, 27, 45, 20, 11, 65, 4, 28,
  37, 15, 12, 2, 0, 31, 22, 5, 1, 13, 34, 23, 6, 14, 24])) (.leaf [25, 21, 47, 70, 44, 64, 29, 3,
  27, 45, 20, 11, 65, 4, 28, 37, 15, 12, 2, 0, 31, 22, 5, 1, 13, 34, 23, 6, 14, 24])) (.leaf [25,
  21, 47, 70, 44, 64, 29, 3, 27, 45, 20, 11, 65, 4, 28, 37, 15, 12, 2, 0, 31, 22, 5, 1, 13, 34, 23,
  6, 14, 24])) (.leaf [25, 21, 47, 70, 44, 64, 29, 3, 27, 45, 20, 11, 65, 4, 28, 37, 15, 12, 2, 0,
  31, 22, 5, 1, 13, 34, 23, 6, 14, 24])) (.leaf [25, 21, 47, 70, 44, 64, 29, 3, 27, 45, 20, 11, 65,
  4, 28, 37, 15, 12, 2, 0, 31, 22, 5, 1, 13, 34, 23, 6, 14, 24])) (.leaf [25, 21, 47, 70, 44, 64,
  29, 3, 27, 45, 20, 11, 65, 4, 28, 37, 15, 12, 2, 0, 31, 22, 5, 1, 13, 34, 23, 6, 14, 24])) (.leaf
  [25, 21, 47, 70, 44, 64, 29, 3, 27, 45, 20, 11, 65, 4, 28, 37, 15, 12, 2, 0, 31, 22, 5, 1, 13,
  34, 23, 6, 14, 24])) (.leaf [25, 21, 47, 70, 44, 64, 29, 3, 27, 45, 20, 11, 65, 4, 28, 37, 15,
  12, 2, 0, 31, 22, 5, 1, 13, 34, 23, 6, 14, 24])) (.leaf [25, 21, 47, 70, 44, 64, 29, 3, 27, 45,
  20, 11, 65, 4, 28, 37, 15, 12, 2, 0, 31, 22, 5, 1, 13, 34, 23, 6, 14, 24])) (.leaf [25, 21, 47,
  70, 44, 64, 29, 3, 27, 45, 20, 11, 65, 4, 28, 37, 15, 12, 2, 0, 31, 22, 5, 1, 13, 34, 23, 6, 14,
  24])) (.leaf [25, 21, 47, 70, 44, 64, 29, 3, 27, 45, 20, 11, 65, 4, 28, 37, 15, 12, 2, 0, 31, 22,
  5, 1, 13, 34, 23, 6, 14, 24])) (.leaf [25, 21, 47, 70, 44, 64, 29, 3, 27, 45, 20, 11, 65, 4, 28,
  37, 15, 12, 2, 0, 31, 22, 5, 1, 13, 34, 23, 6, 14, 24])) (.leaf [25, 21, 47, 70, 44, 64, 29, 3,
  27, 45, 20, 11, 65, 4, 28, 37, 15, 12, 2, 0, 31, 22, 5, 1, 13, 34, 23, 6, 14, 24])) (.leaf [25,
  21, 47, 70, 44, 64, 29, 3, 27, 45, 20, 11, 65, 4, 28, 37, 15, 12, 2, 0, 31, 22, 5, 1, 13, 34, 23,
  6, 14, 24])) (.leaf [25, 21, 47, 70, 44, 64, 29, 3, 27, 45, 20, 11, 65, 4, 28, 37, 15, 12, 2, 0,
  31, 22, 5, 1, 13, 34, 23, 6, 14, 24])) (.leaf [25, 21, 47, 70, 44, 64, 29, 3, 27, 45, 20, 11, 65,
  4, 28, 37, 15, 12, 2, 0, 31, 22, 5, 1, 13, 34, 23, 6, 14, 24])

/-- some of the cases -/
def real5OneCase73 : LooseTree :=
  .breaks 1089621 (.breaks 17920098 (.breaks 19955730 (.breaks 8421505 (.breaks 10502226 (.breaks
  10526913 (.breaks 23158913 (.breaks 24211537 (.breaks 4210881 (.breaks 8421521 (.breaks 10526737
  (.breaks 23158801 (.breaks 24170693 (.breaks 24211649 (.breaks 4210705 (.breaks 10526753 (.breaks
  13684817 (.breaks 13705410 (.breaks 24211473 (.breaks 4210721 (.breaks 10526721 (.breaks 18972866
  (.breaks 24211489 (.breaks 4210689 (.breaks 24211457 (.breaks 25264209 (.breaks 25268309 (.breaks
  26316993 (.breaks 26316817 (.breaks 26316833 (.breaks 26316801 (.leaf [25, 21, 70, 44, 64, 29, 3,
  45, 20, 11, 65, 4, 37, 15, 7, 12, 2, 0, 31, 8, 5, 1, 34, 9, 6, 10, 24, 58, 40, 41, 42, 43])
  (.leaf [25, 21, 70, 44, 64, 29, 3, 45, 20, 11, 65, 4, 37, 15, 7, 12, 2, 0, 31, 8, 5, 1, 13, 34,
  9, 6, 14, 10, 24, 58, 40, 41, 42, 43])) (.leaf [25, 21, 70, 44, 64, 29, 3, 45, 20, 11, 65, 4, 37,
  15, 7, 12, 2, 0, 31, 8, 5, 1, 13, 34, 9, 6, 14, 10, 24, 58, 40, 41, 42, 43])) (.leaf [25, 21, 70,
  44, 64, 29, 3, 45, 20, 11, 65, 4, 37, 15, 7, 12, 2, 0, 31, 8, 5, 1, 13, 34, 9, 6, 14, 10, 24, 58,
  40, 41, 42, 43])) (.leaf [25, 21, 70, 44, 64, 29, 3, 45, 20, 11, 65, 4, 37, 15, 7, 12, 2, 0, 31,
  8, 5, 1, 13, 34, 9, 6, 14, 10, 24, 58, 40, 41, 42, 43])) (.leaf [25, 21, 70, 44, 64, 29, 3, 45,
  20, 11, 65, 4, 37, 15, 7, 12, 2, 0, 31, 8, 5, 1, 13, 34, 9, 6, 14, 10, 24, 58, 40, 41, 42, 43]))
  (.leaf [25, 21, 70, 44, 64, 29, 3, 45, 20, 11, 65, 4, 37, 15, 7, 12, 2, 0, 31, 8, 5, 1, 34, 9, 6,
  10, 24, 58, 40, 41, 42, 43])) (.leaf [25, 21, 70, 44, 64, 29, 3, 45, 20, 11, 65, 4, 37, 15, 7,
  12, 2, 0, 31, 8, 5, 1, 34, 9, 6, 10, 24, 58, 40, 41, 42, 43])) (.leaf [25, 21, 70, 44, 64, 29, 3,
  45, 20, 11, 65, 4, 37, 15, 7, 12, 2, 0, 31, 8, 5, 1, 13, 34, 9, 6, 14, 10, 24, 58, 40, 41, 42,
  43])) (.leaf [25, 21, 70, 44, 64, 29, 3, 45, 20, 11, 65, 4, 37, 15, 7, 12, 2, 0, 31, 8, 5, 1, 34,
  9, 6, 10, 24, 58, 40, 41, 42, 43])) (.leaf [25, 21, 70, 44, 64, 29, 3, 45, 20, 11, 65, 4, 37, 15,
  7, 12, 2, 0, 31, 8, 5, 1, 13, 34, 9, 6, 14, 10, 24, 58, 40, 41, 42, 43])) (.leaf [25, 21, 70, 44,
  64, 29, 3, 45, 20, 11, 65, 4, 37, 15, 7, 12, 2, 0, 31, 8, 5, 1, 34, 9, 6, 10, 24, 58, 40, 41, 42,
  43])) (.leaf [25, 21, 70, 44, 64, 29, 3, 45, 20, 11, 65, 4, 37, 15, 7, 12, 2, 0, 31, 8, 5, 1, 13,
  34, 9, 6, 14, 10, 24, 58, 40, 41, 42, 43])) (.leaf [25, 21, 70, 44, 64, 29, 3, 45, 20, 11, 65, 4,
  37, 15, 7, 12, 2, 0, 31, 8, 5, 1, 34, 9, 6, 10, 24, 58, 40, 41, 42, 43])) (.leaf [25, 21, 70, 44,
  64, 29, 3, 45, 20, 11, 65, 4, 37, 15, 7, 12, 2, 0, 31, 8, 5, 1, 13, 34, 9, 6, 14, 10, 24, 58, 40,
  41, 42, 43])) (.leaf [25, 21, 70, 44, 64, 29, 3, 45, 20, 11, 65, 4, 37, 15, 7, 12, 2, 0, 31, 8,
  5, 1, 34, 9, 6, 10, 24, 58, 40, 41, 42, 43])) (.leaf [25, 21, 70, 44, 64, 29, 3, 45, 20, 11, 65,
  4, 37, 15, 7, 12, 2, 0, 31, 8, 5, 1, 34, 9, 6, 10, 24, 58, 40, 41, 42, 43])) (.leaf [25, 21, 70,
  44, 64, 29, 3, 45, 20, 11, 65, 4, 37, 15, 7, 12, 2, 0, 31, 8, 5, 1, 13, 34, 9, 6, 14, 10, 24, 58,
  40, 41, 42, 43])) (.leaf [25, 21, 70, 44, 64, 29, 3, 45, 20, 11, 65, 4, 37, 15, 7, 12, 2, 0, 31,
  8, 5, 1, 34, 9, 6, 10, 24, 58, 40, 41, 42, 43])) (.leaf [25, 21, 70, 44, 50, 64, 29, 3, 16, 45,
  20, 11, 65, 4, 17, 37, 15, 7, 12, 2, 0, 31, 18, 8, 5, 1, 19, 13, 34, 9, 6, 14, 10, 24, 58, 40,
  41, 42, 43])) (.leaf [25, 21, 70, 44, 64, 29, 3, 45, 20, 11, 65, 4, 37, 15, 7, 12, 2, 0, 31, 8,
  5, 1, 34, 9, 6, 10, 24, 58, 40, 41, 42, 43])) (.leaf [25, 21, 70, 44, 64, 29, 3, 45, 20, 11, 65,
  4, 37, 15, 7, 12, 2, 0, 31, 8, 5, 1, 34, 9, 6, 10, 24, 58, 40, 41, 42, 43])) (.leaf [25, 21, 70,
  44, 64, 29, 3, 45, 20, 11, 65, 4, 37, 15, 7, 12, 2, 0, 31, 8, 5, 1, 13, 34, 9, 6, 14, 10, 24, 58,
  40, 41, 42, 43])) (.leaf [25, 21, 70, 44, 64, 29, 3, 45, 20, 11, 65, 4, 37, 15, 7, 12, 2, 0, 31,
  8, 5, 1, 13, 34, 9, 6, 14, 10, 24, 58, 40, 41, 42, 43])) (.leaf [25, 21, 70, 44, 50, 64, 29, 3,
  16, 45, 20, 11, 65, 4, 17, 37, 15, 7, 12, 2, 0, 31, 18, 8, 5, 1, 19, 13, 34, 9, 6, 14, 10, 24,
  58, 40, 41, 42, 43])) (.leaf [25, 21, 70, 44, 64, 29, 3, 45, 20, 11, 65, 4, 37, 15, 7, 12, 2, 0,
  31, 8, 5, 1, 34, 9, 6, 10, 24, 58, 40, 41, 42, 43])) (.leaf [25, 21, 70, 44, 64, 29, 3, 45, 20,
  11, 65, 4, 37, 15, 7, 12, 2, 0, 31, 8, 5, 1, 34, 9, 6, 10, 24, 58, 40, 41, 42, 43])) (.leaf [25,
  21, 70, 44, 64, 29, 3, 45, 20, 11, 65, 4, 37, 15, 7, 12, 2, 0, 31, 8, 5, 1, 13, 34, 9, 6, 14, 10,
  24, 58, 40, 41, 42, 43])) (.leaf [25, 21, 70, 44, 64, 29, 3, 45, 20, 11, 65, 4, 37, 15, 7, 12, 2,
  0, 31, 8, 5, 1, 13, 34, 9, 6, 14, 10, 24, 58, 40, 41, 42, 43])) (.leaf [25, 21, 70, 44, 64, 29,
  3, 45, 20, 11, 65, 4, 37, 15, 7, 12, 2, 0, 31, 8, 5, 1, 13, 34, 9, 6, 14, 10, 24, 58, 40, 41, 42,
  43])) (.leaf [25, 21, 70, 44, 50, 64, 29, 3, 16, 45, 20, 11, 65, 4, 17, 37, 15, 7, 12, 2, 0, 31,
  18, 8, 5, 1, 19, 13, 34, 9, 6, 14, 10, 24, 58, 40, 41, 42, 43])) (.leaf [25, 21, 70, 44, 64, 29,
  3, 45, 20, 11, 65, 4, 37, 15, 7, 12, 2, 0, 31, 8, 5, 1, 13, 34, 9, 6, 14, 10, 24, 58, 40, 41, 42,
  43])

/-- some of the cases -/
def real5OneCase74 : LooseTree :=
  .breaks 1089621 (.breaks 20013237 (.breaks 26312901 (.breaks 10502226 (.breaks 10526913 (.breaks
  23158913 (.breaks 24211537 (.breaks 25264209 (.breaks 4210881 (.breaks 10526737 (.breaks 23158801
  (.breaks 24170693 (.breaks 24211649 (.breaks 4210705 (.breaks 10526753 (.breaks 13684817 (.breaks
  24211473 (.breaks 4210721 (.breaks 10526721 (.breaks 24211489 (.breaks 4210689 (.breaks 24211457
  (.leaf [25, 21, 44, 68, 29, 3, 45, 20, 24, 11, 4, 37, 15, 7, 12, 2, 0, 8, 5, 1, 9, 6, 10]) (.leaf
  [25, 21, 44, 68, 29, 3, 45, 20, 24, 11, 4, 37, 15, 12, 2, 0, 31, 5, 1, 13, 6, 14])) (.leaf [25,
  21, 44, 68, 29, 3, 45, 20, 24, 11, 4, 37, 15, 7, 12, 2, 0, 8, 5, 1, 9, 6, 10])) (.leaf [25, 21,
  44, 68, 29, 3, 45, 20, 24, 11, 4, 37, 15, 12, 2, 0, 31, 5, 1, 13, 6, 14])) (.leaf [25, 21, 44,
  68, 29, 3, 45, 20, 24, 11, 4, 37, 15, 7, 12, 2, 0, 8, 5, 1, 9, 6, 10])) (.leaf [25, 21, 44, 68,
  29, 3, 45, 20, 24, 11, 4, 37, 15, 7, 12, 2, 0, 8, 5, 1, 9, 6, 10])) (.leaf [25, 21, 44, 68, 29,
  3, 45, 20, 24, 11, 4, 37, 15, 12, 2, 0, 31, 5, 1, 13, 6, 14])) (.leaf [25, 21, 44, 68, 29, 3, 45,
  20, 24, 11, 4, 37, 15, 7, 12, 2, 0, 8, 5, 1, 9, 6, 10])) (.leaf [25, 21, 44, 68, 29, 3, 45, 20,
  24, 11, 4, 37, 15, 7, 12, 2, 0, 8, 5, 1, 9, 6, 10])) (.leaf [25, 21, 44, 68, 29, 3, 45, 20, 24,
  11, 4, 37, 15, 7, 12, 2, 0, 8, 5, 1, 9, 6, 10])) (.leaf [25, 21, 44, 68, 29, 3, 45, 20, 24, 11,
  4, 37, 15, 12, 2, 0, 31, 5, 1, 13, 6, 14])) (.leaf [25, 21, 44, 68, 29, 3, 45, 20, 24, 11, 4, 37,
  15, 7, 12, 2, 0, 8, 5, 1, 9, 6, 10])) (.leaf [25, 21, 44, 68, 29, 3, 45, 20, 24, 11, 4, 37, 15,
  7, 12, 2, 0, 8, 5, 1, 9, 6, 10])) (.leaf [25, 21, 44, 68, 29, 3, 45, 20, 24, 11, 4, 37, 15, 7,
  12, 2, 0, 8, 5, 1, 9, 6, 10])) (.leaf [25, 21, 44, 68, 29, 3, 45, 20, 24, 11, 4, 37, 15, 7, 12,
  2, 0, 8, 5, 1, 9, 6, 10])) (.leaf [25, 21, 44, 68, 29, 3, 45, 20, 24, 11, 4, 37, 15, 7, 12, 2, 0,
  8, 5, 1, 9, 6, 10])) (.leaf [25, 21, 44, 68, 29, 3, 45, 20, 24, 11, 4, 37, 15, 7, 12, 2, 0, 8, 5,
  1, 9, 6, 10])) (.leaf [25, 21, 44, 68, 29, 3, 45, 20, 24, 11, 4, 37, 15, 7, 12, 2, 0, 8, 5, 1, 9,
  6, 10])) (.leaf [25, 21, 44, 68, 29, 3, 45, 20, 24, 11, 4, 37, 15, 7, 12, 2, 0, 8, 5, 1, 9, 6,
  10])) (.leaf [25, 21, 44, 68, 29, 3, 45, 20, 24, 11, 4, 37, 15, 7, 12, 2, 0, 8, 5, 1, 9, 6, 10]))
  (.leaf [25, 21, 44, 68, 29, 3, 45, 20, 24, 11, 4, 37, 15, 7, 12, 2, 0, 8, 5, 1, 9, 6, 10]))
  (.leaf [25, 21, 44, 68, 29, 3, 45, 20, 24, 11, 4, 37, 15, 7, 12, 2, 0, 8, 5, 1, 9, 6, 10]))
  (.leaf [25, 21, 44, 68, 29, 3, 45, 20, 24, 11, 4, 37, 15, 7, 12, 2, 0, 31, 8, 5, 1, 13, 9, 6, 14,
  10])

/-- some of the cases -/
def real5OneCase75 : LooseTree :=
  .cases [] 35 (.breaks 18948289 (.cycle 18 [146, 147, 148]) (.cycle 18 [146, 147, 148])) (.cases
  [] 36 (.cases [] 55 (.leaf [161, 162]) (.leaf [160])) (.breaks 18927635 (.breaks 18927810
  (.breaks 10502226 (.breaks 13664291 (.breaks 13684817 (.breaks 4210881 (.breaks 8421409 (.breaks
  4210705 (.breaks 8421393 (.breaks 4210721 (.breaks 8421505 (.breaks 4210689 (.breaks 8421521
  (.leaf [25, 101, 87, 29, 102, 0, 11, 103, 12, 104, 5, 64, 6, 65]) (.leaf
  [25, 101, 87, 29, 102, 0, 11, 103, 12, 104, 5, 64, 6, 65])) (.leaf
  [25, 101, 87, 29, 102, 0, 11, 103, 12, 104, 5, 64, 6, 65])) (.leaf
  [25, 101, 87, 29, 102, 0, 11, 103, 12, 104, 5, 64, 6, 65])) (.leaf
  [25, 101, 87, 29, 102, 0, 11, 103, 12, 104, 5, 64, 6, 65])) (.leaf
  [25, 101, 87, 29, 102, 0, 11, 103, 12, 104, 5, 64, 6, 65])) (.leaf
  [25, 101, 87, 29, 102, 0, 11, 103, 12, 104, 5, 64, 6, 65])) (.leaf
  [25, 101, 87, 29, 102, 0, 11, 103, 12, 104, 5, 64, 6, 65])) (.leaf
  [25, 101, 87, 29, 102, 0, 11, 103, 12, 104, 5, 64, 6, 65])) (.leaf
  [25, 101, 87, 29, 102, 0, 11, 103, 12, 104, 5, 64, 6, 65])) (.leaf
  [25, 101, 87, 29, 102, 0, 11, 103, 12, 104, 5, 64, 6, 65])) (.leaf
  [25, 101, 87, 29, 102, 0, 11, 103, 12, 104, 5, 64, 6, 65])) (.leaf
  [25, 101, 87, 29, 102, 0, 11, 103, 12, 104, 5, 64, 6, 65])) (.leaf
  [25, 101, 87, 29, 102, 0, 11, 103, 12, 104, 5, 64, 6, 65])))

/-- some of the cases -/
def real5OneCase76 : LooseTree :=
  .breaks 17920098 (.breaks 22097938 (.breaks 10502226 (.breaks 20000897 (.breaks 24211537 (.breaks
  4210881 (.breaks 20000945 (.breaks 20013237 (.breaks 24170693 (.breaks 4210705 (.breaks 13684817
  (.breaks 20000929 (.breaks 23158913 (.breaks 4210721 (.breaks 23158801 (.breaks 4210689 (.leaf
  [25, 21, 71, 29, 51, 20, 11, 35, 44, 15, 12, 0, 36, 45, 5, 37, 6]) (.leaf [25, 21, 71, 29, 51,
  20, 11, 35, 44, 15, 12, 0, 36, 45, 5, 37, 6])) (.leaf [25, 21, 71, 29, 51, 20, 11, 35, 44, 15,
  12, 0, 36, 45, 5, 37, 6])) (.leaf [25, 21, 71, 29, 51, 20, 11, 35, 44, 15, 12, 0, 36, 45, 5, 37,
  6])) (.leaf [25, 21, 71, 29, 51, 20, 11, 35, 44, 15, 12, 0, 36, 45, 5, 37, 6])) (.leaf [25, 21,
  71, 29, 51, 20, 11, 35, 44, 15, 12, 0, 36, 45, 5, 37, 6])) (.leaf [25, 21, 71, 29, 51, 20, 11,
  35, 44, 15, 12, 0, 36, 45, 5, 37, 6])) (.leaf [25, 21, 71, 29, 51, 20, 11, 35, 44, 15, 12, 0, 36,
  45, 5, 37, 6])) (.leaf [25, 21, 71, 29, 51, 20, 11, 35, 44, 15, 12, 0, 36, 45, 5, 37, 6])) (.leaf
  [25, 21, 71, 29, 51, 20, 11, 35, 44, 15, 12, 0, 36, 45, 5, 37, 6])) (.leaf [25, 21, 71, 29, 51,
  20, 11, 35, 44, 15, 12, 0, 36, 45, 5, 37, 6])) (.leaf [25, 21, 71, 29, 51, 20, 11, 35, 44, 15,
  12, 0, 36, 45, 5, 37, 6])) (.leaf [25, 21, 71, 29, 51, 20, 11, 35, 44, 15, 12, 0, 36, 45, 5, 37,
  6])) (.leaf [25, 21, 71, 29, 51, 20, 11, 35, 44, 15, 12, 0, 36, 45, 5, 37, 6])) (.leaf [25, 21,
  71, 29, 51, 20, 11, 35, 44, 15, 12, 0, 36, 45, 5, 37, 6])) (.leaf [25, 21, 71, 29, 51, 20, 11,
  35, 44, 15, 12, 0, 36, 45, 5, 37, 6])) (.leaf [25, 21, 71, 29, 51, 20, 11, 35, 44, 15, 12, 0, 36,
  45, 5, 37, 6])

/-- some of the cases -/
def real5OneCase77 : LooseTree :=
  .breaks 17920098 (.breaks 17907794 (.breaks 26288325 (.breaks 10502226 (.breaks 10526913 (.breaks
  18948177 (.breaks 21053633 (.breaks 24211537 (.breaks 4210881 (.breaks 10526737 (.breaks 18948209
  (.breaks 21053457 (.breaks 24170693 (.breaks 4210705 (.breaks 10526753 (.breaks 13684817 (.breaks
  21053473 (.breaks 4210721 (.breaks 10526721 (.breaks 21053441 (.breaks 4210689 (.leaf [25, 21,
  47, 80, 29, 3, 13, 27, 20, 11, 4, 14, 28, 15, 12, 2, 0, 22, 5, 1, 23, 6]) (.leaf [25, 21, 47, 80,
  29, 3, 13, 27, 20, 11, 4, 14, 28, 15, 12, 2, 0, 22, 5, 1, 23, 6])) (.leaf [25, 21, 47, 80, 29, 3,
  13, 27, 20, 11, 4, 14, 28, 15, 12, 2, 0, 22, 5, 1, 23, 6])) (.leaf [25, 21, 47, 80, 29, 3, 13,
  27, 20, 11, 4, 14, 28, 15, 12, 2, 0, 22, 5, 1, 23, 6])) (.leaf [25, 21, 47, 80, 29, 3, 13, 27,
  20, 11, 4, 14, 28, 15, 12, 2, 0, 22, 5, 1, 23, 6])) (.leaf [25, 21, 47, 80, 29, 3, 13, 27, 20,
  11, 4, 14, 28, 15, 12, 2, 0, 22, 5, 1, 23, 6])) (.leaf [25, 21, 47, 80, 29, 3, 13, 27, 20, 11, 4,
  14, 28, 15, 12, 2, 0, 22, 5, 1, 23, 6])) (.leaf [25, 21, 47, 80, 29, 3, 13, 27, 20, 11, 4, 14,
  28, 15, 12, 2, 0, 22, 5, 1, 23, 6])) (.leaf [25, 21, 47, 80, 29, 3, 13, 27, 20, 11, 4, 14, 28,
  15, 12, 2, 0, 22, 5, 1, 23, 6])) (.leaf [25, 21, 47, 80, 29, 3, 13, 27, 20, 11, 4, 14, 28, 15,
  12, 2, 0, 22, 5, 1, 23, 6])) (.leaf [25, 21, 47, 80, 29, 3, 13, 27, 20, 11, 4, 14, 28, 15, 12, 2,
  0, 22, 5, 1, 23, 6])) (.leaf [25, 21, 47, 80, 29, 3, 13, 27, 20, 11, 4, 14, 28, 15, 12, 2, 0, 22,
  5, 1, 23, 6])) (.leaf [25, 21, 47, 80, 29, 3, 13, 27, 20, 11, 4, 14, 28, 15, 12, 2, 0, 22, 5, 1,
  23, 6])) (.leaf [25, 21, 47, 80, 29, 3, 13, 27, 20, 11, 4, 14, 28, 15, 12, 2, 0, 22, 5, 1, 23,
  6])) (.leaf [25, 21, 47, 80, 29, 3, 13, 27, 20, 11, 4, 14, 28, 15, 12, 2, 0, 22, 5, 1, 23, 6]))
  (.leaf [25, 21, 47, 80, 29, 3, 13, 27, 20, 11, 4, 14, 28, 15, 12, 2, 0, 22, 5, 1, 23, 6])) (.leaf
  [25, 21, 47, 80, 29, 3, 13, 27, 20, 11, 4, 14, 28, 15, 12, 2, 0, 22, 5, 1, 23, 6])) (.leaf [25,
  21, 47, 80, 29, 3, 13, 27, 20, 11, 4, 14, 28, 15, 12, 2, 0, 22, 5, 1, 23, 6])) (.leaf [25, 21,
  47, 80, 29, 3, 13, 27, 20, 11, 4, 14, 28, 15, 12, 2, 0, 22, 5, 1, 23, 6])) (.leaf [25, 21, 47,
  80, 29, 3, 13, 27, 20, 11, 4, 14, 28, 15, 12, 2, 0, 22, 5, 1, 23, 6])) (.leaf [25, 21, 47, 80,
  29, 3, 13, 27, 20, 11, 4, 14, 28, 15, 12, 2, 0, 22, 5, 1, 23, 6])) (.leaf [25, 21, 47, 80, 29, 3,
  13, 27, 20, 11, 4, 14, 28, 15, 12, 2, 0, 22, 5, 1, 23, 6])

/-- some of the cases -/
def real5OneCase78 : LooseTree :=
  .breaks 1089621 (.breaks 23146629 (.breaks 26288325 (.breaks 10502226 (.breaks 10526913 (.breaks
  18948177 (.breaks 20000945 (.breaks 24211537 (.breaks 4210881 (.breaks 10526737 (.breaks 18948209
  (.breaks 20000929 (.breaks 24170693 (.breaks 24211649 (.breaks 4210705 (.breaks 10526753 (.breaks
  13684817 (.breaks 24211473 (.breaks 4210721 (.breaks 10526721 (.breaks 24211489 (.breaks 4210689
  (.breaks 24211457 (.leaf [25, 21, 48, 80, 29, 3, 13, 35, 20, 11, 4, 14, 36, 15, 7, 12, 2, 0, 8,
  5, 1, 9, 6, 10]) (.leaf [25, 21, 48, 80, 29, 3, 13, 35, 20, 11, 4, 14, 36, 15, 7, 12, 2, 0, 8, 5,
  1, 9, 6, 10])) (.leaf [25, 21, 48, 80, 29, 3, 13, 35, 20, 11, 4, 14, 36, 15, 7, 12, 2, 0, 8, 5,
  1, 9, 6, 10])) (.leaf [25, 21, 48, 80, 29, 3, 13, 35, 20, 11, 4, 14, 36, 15, 7, 12, 2, 0, 8, 5,
  1, 9, 6, 10])) (.leaf [25, 21, 48, 80, 29, 3, 13, 35, 20, 11, 4, 14, 36, 15, 7, 12, 2, 0, 8, 5,
  1, 9, 6, 10])) (.leaf [25, 21, 48, 80, 29, 3, 13, 35, 20, 11, 4, 14, 36, 15, 7, 12, 2, 0, 8, 5,
  1, 9, 6, 10])) (.leaf [25, 21, 48, 80, 29, 3, 13, 35, 20, 11, 4, 14, 36, 15, 7, 12, 2, 0, 8, 5,
  1, 9, 6, 10])) (.leaf [25, 21, 48, 80, 29, 3, 13, 35, 20, 11, 4, 14, 36, 15, 7, 12, 2, 0, 8, 5,
  1, 9, 6, 10])) (.leaf [25, 21, 48, 80, 29, 3, 13, 35, 20, 11, 4, 14, 36, 15, 7, 12, 2, 0, 8, 5,
  1, 9, 6, 10])) (.leaf [25, 21, 48, 80, 29, 3, 13, 35, 20, 11, 4, 14, 36, 15, 7, 12, 2, 0, 8, 5,
  1, 9, 6, 10])) (.leaf [25, 21, 48, 80, 29, 3, 13, 35, 20, 11, 4, 14, 36, 15, 7, 12, 2, 0, 8, 5,
  1, 9, 6, 10])) (.leaf [25, 21, 48, 80, 29, 3, 13, 35, 20, 11, 4, 14, 36, 15, 7, 12, 2, 0, 8, 5,
  1, 9, 6, 10])) (.leaf [25, 21, 48, 80, 29, 3, 13, 35, 20, 11, 4, 14, 36, 15, 7, 12, 2, 0, 8, 5,
  1, 9, 6, 10])) (.leaf [25, 21, 48, 80, 29, 3, 13, 35, 20, 11, 4, 14, 36, 15, 7, 12, 2, 0, 8, 5,
  1, 9, 6, 10])) (.leaf [25, 21, 48, 80, 29, 3, 13, 35, 20, 11, 4, 14, 36, 15, 7, 12, 2, 0, 8, 5,
  1, 9, 6, 10])) (.leaf [25, 21, 48, 80, 29, 3, 13, 35, 20, 11, 4, 14, 36, 15, 7, 12, 2, 0, 8, 5,
  1, 9, 6, 10])) (.leaf [25, 21, 48, 80, 29, 3, 13, 35, 20, 11, 4, 14, 36, 15, 7, 12, 2, 0, 8, 5,
  1, 9, 6, 10])) (.leaf [25, 21, 48, 80, 29, 3, 13, 35, 20, 11, 4, 14, 36, 15, 7, 12, 2, 0, 8, 5,
  1, 9, 6, 10])) (.leaf [25, 21, 48, 80, 29, 3, 13, 35, 20, 11, 4, 14, 36, 15, 7, 12, 2, 0, 8, 5,
  1, 9, 6, 10])) (.leaf [25, 21, 48, 80, 29, 3, 13, 35, 20, 11, 4, 14, 36, 15, 7, 12, 2, 0, 8, 5,
  1, 9, 6, 10])) (.leaf [25, 21, 48, 80, 29, 3, 13, 35, 20, 11, 4, 14, 36, 15, 7, 12, 2, 0, 8, 5,
  1, 9, 6, 10])) (.leaf [25, 21, 48, 80, 29, 3, 13, 35, 20, 11, 4, 14, 36, 15, 7, 12, 2, 0, 8, 5,
  1, 9, 6, 10])) (.leaf [25, 21, 48, 80, 29, 3, 13, 35, 20, 11, 4, 14, 36, 15, 7, 12, 2, 0, 8, 5,
  1, 9, 6, 10])) (.leaf [25, 21, 50, 48, 80, 29, 3, 16, 13, 35, 20, 11, 4, 17, 14, 36, 15, 7, 12,
  2, 0, 18, 8, 5, 1, 19, 9, 6, 10])

/-- some of the cases -/
def real5OneCase79 : LooseTree :=
  .breaks 25239746 (.breaks 10502226 (.breaks 10526913 (.breaks 18948177 (.breaks 18976853 (.breaks
  24211537 (.breaks 4210881 (.breaks 9474177 (.breaks 10526737 (.breaks 18948209 (.breaks 24170693
  (.breaks 26316993 (.breaks 4210705 (.breaks 9474193 (.breaks 10526753 (.breaks 13684817 (.breaks
  26316817 (.breaks 4210721 (.breaks 10526721 (.breaks 26316833 (.breaks 4210689 (.breaks 26316801
  (.leaf [25, 61, 21, 63, 62, 29, 3, 13, 67, 20, 11, 55, 4, 14, 15, 40, 12, 56, 2, 0, 41, 5, 1, 42,
  6, 43]) (.leaf [25, 61, 21, 63, 62, 29, 3, 13, 20, 11, 55, 4, 14, 15, 7, 12, 56, 2, 0, 8, 5, 1,
  9, 6, 10])) (.leaf [25, 61, 21, 63, 62, 29, 3, 13, 67, 20, 11, 55, 4, 14, 15, 40, 12, 56, 2, 0,
  41, 5, 1, 42, 6, 43])) (.leaf [25, 61, 21, 63, 62, 29, 3, 13, 20, 11, 55, 4, 14, 15, 7, 12, 56,
  2, 0, 8, 5, 1, 9, 6, 10])) (.leaf [25, 61, 21, 63, 62, 29, 3, 13, 67, 20, 11, 55, 4, 14, 15, 40,
  12, 56, 2, 0, 41, 5, 1, 42, 6, 43])) (.leaf [25, 61, 21, 63, 62, 29, 3, 13, 67, 20, 11, 55, 4,
  14, 15, 40, 12, 56, 2, 0, 41, 5, 1, 42, 6, 43])) (.leaf [25, 61, 21, 63, 62, 29, 3, 13, 20, 11,
  55, 4, 14, 15, 7, 12, 56, 2, 0, 8, 5, 1, 9, 6, 10])) (.leaf [25, 61, 21, 63, 62, 29, 3, 13, 67,
  20, 11, 55, 4, 14, 15, 40, 12, 56, 2, 0, 41, 5, 1, 42, 6, 43])) (.leaf [25, 61, 21, 63, 62, 29,
  3, 13, 67, 20, 11, 55, 4, 14, 15, 40, 12, 56, 2, 0, 41, 5, 1, 42, 6, 43])) (.leaf [25, 61, 21,
  63, 62, 29, 3, 13, 67, 20, 11, 55, 4, 14, 15, 40, 12, 56, 2, 0, 41, 5, 1, 42, 6, 43])) (.leaf
  [25, 61, 21, 63, 62, 29, 3, 13, 67, 20, 11, 55, 4, 14, 15, 40, 12, 56, 2, 0, 41, 5, 1, 42, 6,
  43])) (.leaf [25, 61, 21, 63, 62, 29, 3, 13, 20, 11, 55, 4, 14, 15, 7, 12, 56, 2, 0, 8, 5, 1, 9,
  6, 10])) (.leaf [25, 61, 21, 63, 62, 29, 3, 13, 67, 20, 11, 55, 4, 14, 15, 40, 12, 56, 2, 0, 41,
  5, 1, 42, 6, 43])) (.leaf [25, 61, 21, 63, 62, 29, 3, 13, 67, 20, 11, 55, 4, 14, 15, 40, 12, 56,
  2, 0, 41, 5, 1, 42, 6, 43])) (.leaf [25, 61, 21, 63, 62, 29, 3, 13, 67, 20, 11, 55, 4, 14, 15,
  40, 12, 56, 2, 0, 41, 5, 1, 42, 6, 43])) (.leaf [25, 61, 21, 63, 62, 29, 3, 13, 67, 20, 11, 55,
  4, 14, 15, 40, 12, 56, 2, 0, 41, 5, 1, 42, 6, 43])) (.leaf [25, 61, 21, 63, 62, 29, 3, 13, 67,
  20, 11, 55, 4, 14, 15, 40, 12, 56, 2, 0, 41, 5, 1, 42, 6, 43])) (.leaf [25, 61, 21, 63, 62, 29,
  3, 13, 67, 20, 11, 55, 4, 14, 15, 40, 12, 56, 2, 0, 41, 5, 1, 42, 6, 43])) (.leaf [25, 61, 21,
  63, 62, 29, 3, 13, 20, 11, 55, 4, 14, 15, 7, 12, 56, 2, 0, 8, 5, 1, 9, 6, 10])) (.leaf [25, 61,
  21, 63, 62, 29, 3, 13, 67, 20, 11, 55, 4, 14, 15, 40, 12, 56, 2, 0, 41, 5, 1, 42, 6, 43])) (.leaf
  [25, 61, 21, 63, 62, 29, 3, 13, 67, 20, 11, 55, 4, 14, 15, 40, 12, 56, 2, 0, 41, 5, 1, 42, 6,
  43])) (.leaf [25, 61, 21, 63, 62, 29, 3, 13, 67, 20, 11, 55, 4, 14, 15, 40, 12, 56, 2, 0, 41, 5,
  1, 42, 6, 43])) (.leaf [25, 61, 21, 63, 62, 29, 3, 13, 20, 11, 55, 4, 14, 15, 7, 12, 56, 2, 0, 8,
  5, 1, 9, 6, 10])

/-- some of the cases -/
def real5OneCase80 : LooseTree :=
  .cases [] 39 (.cases [] 22 (.breaks 1089619 (.breaks 17920098 (.breaks 25239746 (.breaks 10526801
  (.breaks 18948177 (.breaks 18976853 (.breaks 24211537 (.breaks 10502226 (.breaks 10526913
  (.breaks 18948209 (.breaks 24170693 (.breaks 26316993 (.breaks 4210881 (.breaks 10526737 (.breaks
  13684817 (.breaks 26316817 (.breaks 4210705 (.breaks 10526753 (.breaks 26316833 (.breaks 4210721
  (.breaks 10526721 (.breaks 26316801 (.breaks 4210689 (.leaf [79, 21, 63, 46, 13, 67, 20, 29, 3,
  14, 15, 40, 11, 4, 0, 41, 12, 2, 42, 5, 1, 43, 6]) (.leaf [79, 21, 63, 46, 13, 67, 20, 29, 3, 14,
  15, 7, 40, 11, 4, 0, 8, 41, 12, 2, 9, 42, 5, 1, 10, 43, 6])) (.leaf [79, 21, 63, 46, 13, 67, 20,
  29, 3, 14, 15, 7, 40, 11, 4, 0, 8, 41, 12, 2, 9, 42, 5, 1, 10, 43, 6])) (.leaf [79, 21, 63, 46,
  13, 67, 20, 29, 3, 14, 15, 7, 40, 11, 4, 0, 8, 41, 12, 2, 9, 42, 5, 1, 10, 43, 6])) (.leaf [79,
  21, 63, 46, 13, 67, 20, 29, 3, 14, 15, 7, 40, 11, 4, 0, 8, 41, 12, 2, 9, 42, 5, 1, 10, 43, 6]))
  (.leaf [79, 21, 63, 46, 13, 67, 20, 29, 3, 14, 15, 7, 40, 11, 4, 0, 8, 41, 12, 2, 9, 42, 5, 1,
  10, 43, 6])) (.leaf [79, 21, 63, 46, 13, 67, 20, 29, 3, 14, 15, 7, 40, 11, 4, 0, 8, 41, 12, 2, 9,
  42, 5, 1, 10, 43, 6])) (.leaf [79, 21, 63, 46, 13, 67, 20, 29, 3, 14, 15, 7, 40, 11, 4, 0, 8, 41,
  12, 2, 9, 42, 5, 1, 10, 43, 6])) (.leaf [79, 21, 63, 46, 13, 67, 20, 29, 3, 14, 15, 7, 40, 11, 4,
  0, 8, 41, 12, 2, 9, 42, 5, 1, 10, 43, 6])) (.leaf [79, 21, 63, 46, 13, 67, 20, 29, 3, 14, 15, 7,
  40, 11, 4, 0, 8, 41, 12, 2, 9, 42, 5, 1, 10, 43, 6])) (.leaf [79, 21, 63, 46, 13, 67, 20, 29, 3,
  14, 15, 7, 40, 11, 4, 0, 8, 41, 12, 2, 9, 42, 5, 1, 10, 43, 6])) (.leaf [79, 21, 63, 46, 13, 67,
  20, 29, 3, 14, 15, 7, 40, 11, 4, 0, 8, 41, 12, 2, 9, 42, 5, 1, 10, 43, 6])) (.leaf [79, 21, 63,
  46, 13, 67, 20, 29, 3, 14, 15, 7, 40, 11, 4, 0, 8, 41, 12, 2, 9, 42, 5, 1, 10, 43, 6])) (.leaf
  [79, 21, 63, 46, 13, 67, 20, 29, 3, 14, 15, 7, 40, 11, 4, 0, 8, 41, 12, 2, 9, 42, 5, 1, 10, 43,
  6])) (.leaf [79, 21, 63, 46, 13, 67, 20, 29, 3, 14, 15, 7, 40, 11, 4, 0, 8, 41, 12, 2, 9, 42, 5,
  1, 10, 43, 6])) (.leaf [79, 21, 63, 46, 13, 67, 20, 29, 3, 14, 15, 7, 40, 11, 4, 0, 8, 41, 12, 2,
  9, 42, 5, 1, 10, 43, 6])) (.leaf [79, 21, 63, 46, 13, 67, 20, 29, 3, 14, 15, 7, 40, 11, 4, 0, 8,
  41, 12, 2, 9, 42, 5, 1, 10, 43, 6])) (.leaf [79, 21, 48, 63, 46, 13, 67, 35, 20, 29, 3, 14, 36,
  15, 40, 11, 4, 0, 41, 12, 2, 42, 5, 1, 43, 6])) (.leaf [79, 21, 63, 46, 13, 67, 20, 29, 3, 14,
  15, 7, 40, 11, 4, 0, 8, 41, 12, 2, 9, 42, 5, 1, 10, 43, 6])) (.leaf [79, 21, 63, 46, 13, 67, 20,
  29, 3, 14, 15, 7, 40, 11, 4, 0, 8, 41, 12, 2, 9, 42, 5, 1, 10, 43, 6])) (.leaf [79, 21, 63, 46,
  13, 67, 20, 29, 3, 14, 15, 7, 40, 11, 4, 0, 8, 41, 12, 2, 9, 42, 5, 1, 10, 43, 6])) (.leaf [79,
  21, 63, 46, 13, 67, 20, 29, 3, 14, 15, 7, 40, 11, 4, 0, 8, 41, 12, 2, 9, 42, 5, 1, 10, 43, 6]))
  (.leaf [79, 21, 48, 63, 46, 13, 67, 35, 20, 29, 3, 14, 36, 15, 40, 11, 4, 0, 41, 12, 2, 42, 5, 1,
  43, 6])) (.leaf [79, 21, 63, 46, 13, 67, 20, 29, 3, 14, 15, 7, 40, 11, 4, 0, 8, 41, 12, 2, 9, 42,
  5, 1, 10, 43, 6])) (.cases [] 14 (.breaks 1089621 (.breaks 10489939 (.cycle 33 [25, 130]) (.leaf
  [25, 72, 21, 48, 63, 74, 29, 3, 13, 67, 35, 20, 11, 4, 14, 36, 22, 15, 7, 40, 12, 2, 0, 23, 8,
  41, 5, 1, 9, 42, 6, 10, 43])) (.leaf [25, 72, 21, 48, 63, 74, 29, 3, 13, 67, 35, 20, 11, 4, 14,
  36, 22, 15, 7, 40, 12, 2, 0, 23, 8, 41, 5, 1, 9, 42, 6, 10, 43])) (.cases [] 10 (.breaks 1089621
  (.breaks 10489939 (.cycle 33 [25, 130]) (.leaf [47, 27, 28, 158])) (.leaf [47, 27, 28, 158]))
  (.breaks 1089621 (.breaks 10489939 (.cycle 33 [25, 130]) (.leaf [25, 21, 60, 48, 63, 29, 3, 13,
  67, 35, 20, 11, 4, 14, 36, 15, 7, 40, 12, 2, 0, 8, 41, 5, 1, 9, 42, 6, 10, 43])) (.leaf [25, 21,
  50, 60, 48, 63, 29, 3, 16, 13, 67, 35, 20, 11, 4, 17, 14, 36, 15, 7, 40, 12, 2, 0, 18, 8, 41, 5,
  1, 19, 9, 42, 6, 10, 43]))))) (.cycle 31 [63, 67, 117])

/-- some of the cases -/
def real5OneCase81 : LooseTree :=
  .breaks 25239746 (.breaks 10502226 (.breaks 10526913 (.breaks 18948177 (.breaks 18976853 (.breaks
  20000897 (.breaks 24211537 (.breaks 4210881 (.breaks 10526737 (.breaks 18948209 (.breaks 20000945
  (.breaks 24170693 (.breaks 26316993 (.breaks 4210705 (.breaks 10526753 (.breaks 13684817 (.breaks
  20000929 (.breaks 26316817 (.breaks 4210721 (.breaks 10526721 (.breaks 26316833 (.breaks 4210689
  (.breaks 26316801 (.leaf [25, 21, 71, 63, 29, 3, 13, 67, 51, 20, 11, 4, 14, 35, 15, 40, 12, 2, 0,
  36, 41, 5, 1, 42, 6, 43]) (.leaf [25, 21, 71, 63, 29, 3, 13, 51, 20, 11, 4, 14, 35, 15, 7, 12, 2,
  0, 36, 8, 5, 1, 9, 6, 10])) (.leaf [25, 21, 71, 63, 29, 3, 13, 67, 51, 20, 11, 4, 14, 35, 15, 40,
  12, 2, 0, 36, 41, 5, 1, 42, 6, 43])) (.leaf [25, 21, 71, 63, 29, 3, 13, 51, 20, 11, 4, 14, 35,
  15, 7, 12, 2, 0, 36, 8, 5, 1, 9, 6, 10])) (.leaf [25, 21, 71, 63, 29, 3, 13, 67, 51, 20, 11, 4,
  14, 35, 15, 40, 12, 2, 0, 36, 41, 5, 1, 42, 6, 43])) (.leaf [25, 21, 71, 63, 29, 3, 13, 67, 51,
  20, 11, 4, 14, 35, 15, 40, 12, 2, 0, 36, 41, 5, 1, 42, 6, 43])) (.leaf [25, 21, 71, 63, 29, 3,
  13, 51, 20, 11, 4, 14, 35, 15, 7, 12, 2, 0, 36, 8, 5, 1, 9, 6, 10])) (.leaf [25, 21, 71, 63, 29,
  3, 13, 67, 51, 20, 11, 4, 14, 35, 15, 40, 12, 2, 0, 36, 41, 5, 1, 42, 6, 43])) (.leaf [25, 21,
  71, 63, 29, 3, 13, 67, 51, 20, 11, 4, 14, 35, 15, 40, 12, 2, 0, 36, 41, 5, 1, 42, 6, 43])) (.leaf
  [25, 21, 71, 63, 29, 3, 13, 67, 51, 20, 11, 4, 14, 35, 15, 40, 12, 2, 0, 36, 41, 5, 1, 42, 6,
  43])) (.leaf [25, 21, 71, 63, 29, 3, 13, 67, 51, 20, 11, 4, 14, 35, 15, 40, 12, 2, 0, 36, 41, 5,
  1, 42, 6, 43])) (.leaf [25, 21, 71, 63, 29, 3, 13, 51, 20, 11, 4, 14, 35, 15, 7, 12, 2, 0, 36, 8,
  5, 1, 9, 6, 10])) (.leaf [25, 21, 71, 63, 29, 3, 13, 67, 51, 20, 11, 4, 14, 35, 15, 40, 12, 2, 0,
  36, 41, 5, 1, 42, 6, 43])) (.leaf [25, 21, 71, 63, 29, 3, 13, 67, 51, 20, 11, 4, 14, 35, 15, 40,
  12, 2, 0, 36, 41, 5, 1, 42, 6, 43])) (.leaf [25, 21, 71, 63, 29, 3, 13, 67, 51, 20, 11, 4, 14,
  35, 15, 40, 12, 2, 0, 36, 41, 5, 1, 42, 6, 43])) (.leaf [25, 21, 71, 63, 29, 3, 13, 67, 51, 20,
  11, 4, 14, 35, 15, 40, 12, 2, 0, 36, 41, 5, 1, 42, 6, 43])) (.leaf [25, 21, 71, 63, 29, 3, 13,
  67, 51, 20, 11, 4, 14, 35, 15, 40, 12, 2, 0, 36, 41, 5, 1, 42, 6, 43])) (.leaf [25, 21, 71, 63,
  29, 3, 13, 67, 51, 20, 11, 4, 14, 35, 15, 40, 12, 2, 0, 36, 41, 5, 1, 42, 6, 43])) (.leaf [25,
  21, 71, 63, 29, 3, 13, 67, 51, 20, 11, 4, 14, 35, 15, 40, 12, 2, 0, 36, 41, 5, 1, 42, 6, 43]))
  (.leaf [25, 21, 71, 63, 29, 3, 13, 51, 20, 11, 4, 14, 35, 15, 7, 12, 2, 0, 36, 8, 5, 1, 9, 6,
  10])) (.leaf [25, 21, 71, 63, 29, 3, 13, 67, 51, 20, 11, 4, 14, 35, 15, 40, 12, 2, 0, 36, 41, 5,
  1, 42, 6, 43])) (.leaf [25, 21, 71, 63, 29, 3, 13, 67, 51, 20, 11, 4, 14, 35, 15, 40, 12, 2, 0,
  36, 41, 5, 1, 42, 6, 43])) (.leaf [25, 21, 71, 63, 29, 3, 13, 67, 51, 20, 11, 4, 14, 35, 15, 40,
  12, 2, 0, 36, 41, 5, 1, 42, 6, 43])) (.leaf [25, 21, 71, 63, 29, 3, 13, 51, 20, 11, 4, 14, 35,
  15, 7, 12, 2, 0, 36, 8, 5, 1, 9, 6, 10])

/-- some of the cases -/
def real5OneCase82 : LooseTree :=
  .breaks 1089621 (.breaks 17920098 (.breaks 10502226 (.breaks 10526913 (.breaks 24211537 (.breaks
  4210881 (.breaks 10526737 (.breaks 24170693 (.breaks 24199250 (.breaks 24211649 (.breaks 4210705
  (.breaks 10526753 (.breaks 13684817 (.breaks 13705410 (.breaks 21053633 (.breaks 24211473
  (.breaks 4210721 (.breaks 10526721 (.breaks 18948177 (.breaks 18972866 (.breaks 21053457 (.breaks
  24211489 (.breaks 4210689 (.breaks 18948209 (.breaks 21053473 (.breaks 24211457 (.breaks 25264209
  (.breaks 21053441 (.leaf [25, 21, 29, 3, 20, 11, 4, 15, 77, 7, 12, 2, 0, 31, 27, 8, 5, 1, 13, 34,
  28, 9, 6, 14, 22, 10, 24, 23]) (.leaf [25, 21, 48, 29, 3, 35, 20, 11, 4, 36, 15, 77, 7, 12, 2, 0,
  31, 27, 8, 5, 1, 13, 34, 28, 9, 6, 14, 22, 10, 24, 23])) (.leaf [25, 21, 48, 29, 3, 35, 20, 11,
  4, 36, 15, 77, 7, 12, 2, 0, 31, 27, 8, 5, 1, 13, 28, 9, 6, 14, 22, 10, 23])) (.leaf [25, 21, 48,
  29, 3, 35, 20, 11, 4, 36, 15, 77, 7, 12, 2, 0, 31, 27, 8, 5, 1, 13, 34, 28, 9, 6, 14, 22, 10, 24,
  23])) (.leaf [25, 21, 48, 29, 3, 35, 20, 11, 4, 36, 15, 77, 7, 12, 2, 0, 31, 27, 8, 5, 1, 13, 34,
  28, 9, 6, 14, 22, 10, 24, 23])) (.leaf [25, 21, 48, 29, 3, 35, 20, 11, 4, 36, 15, 77, 7, 12, 2,
  0, 31, 27, 8, 5, 1, 34, 28, 9, 6, 22, 10, 24, 23])) (.leaf [25, 21, 48, 29, 3, 35, 20, 11, 4, 36,
  15, 77, 7, 12, 2, 0, 31, 27, 8, 5, 1, 13, 34, 28, 9, 6, 14, 22, 10, 24, 23])) (.leaf [25, 21, 48,
  29, 3, 35, 20, 11, 4, 36, 15, 77, 7, 12, 2, 0, 31, 27, 8, 5, 1, 13, 34, 28, 9, 6, 14, 22, 10, 24,
  23])) (.leaf [25, 21, 48, 29, 3, 35, 20, 11, 4, 36, 15, 77, 7, 12, 2, 0, 31, 27, 8, 5, 1, 13, 34,
  28, 9, 6, 14, 22, 10, 24, 23])) (.leaf [25, 21, 48, 29, 3, 35, 20, 11, 4, 36, 15, 77, 7, 12, 2,
  0, 31, 27, 8, 5, 1, 13, 28, 9, 6, 14, 22, 10, 23])) (.leaf [25, 21, 48, 29, 3, 35, 20, 11, 4, 36,
  15, 77, 7, 12, 2, 0, 31, 27, 8, 5, 1, 34, 28, 9, 6, 22, 10, 24, 23])) (.leaf [25, 21, 48, 29, 3,
  35, 20, 11, 4, 36, 15, 77, 7, 12, 2, 0, 31, 27, 8, 5, 1, 13, 34, 28, 9, 6, 14, 22, 10, 24, 23]))
  (.leaf [25, 21, 48, 29, 3, 35, 20, 11, 4, 36, 15, 77, 7, 12, 2, 0, 31, 27, 8, 5, 1, 13, 34, 28,
  9, 6, 14, 22, 10, 24, 23])) (.leaf [25, 21, 48, 29, 3, 35, 20, 11, 4, 36, 15, 77, 7, 12, 2, 0,
  31, 27, 8, 5, 1, 13, 34, 28, 9, 6, 14, 22, 10, 24, 23])) (.leaf [25, 21, 48, 29, 3, 35, 20, 11,
  4, 36, 15, 77, 7, 12, 2, 0, 31, 27, 8, 5, 1, 13, 34, 28, 9, 6, 14, 22, 10, 24, 23])) (.leaf [25,
  21, 48, 29, 3, 35, 20, 11, 4, 36, 15, 77, 7, 12, 2, 0, 31, 27, 8, 5, 1, 13, 34, 28, 9, 6, 14, 22,
  10, 24, 23])) (.leaf [25, 21, 48, 29, 3, 35, 20, 11, 4, 36, 15, 77, 7, 12, 2, 0, 31, 27, 8, 5, 1,
  13, 34, 28, 9, 6, 14, 22, 10, 24, 23])) (.leaf [25, 21, 48, 29, 3, 35, 20, 11, 4, 36, 15, 77, 7,
  12, 2, 0, 31, 27, 8, 5, 1, 13, 34, 28, 9, 6, 14, 22, 10, 24, 23])) (.leaf [25, 21, 48, 29, 3, 35,
  20, 11, 4, 36, 15, 77, 7, 12, 2, 0, 31, 27, 8, 5, 1, 13, 34, 28, 9, 6, 14, 22, 10, 24, 23]))
  (.leaf [25, 21, 48, 29, 3, 35, 20, 11, 4, 36, 15, 77, 7, 12, 2, 0, 31, 27, 8, 5, 1, 13, 34, 28,
  9, 6, 14, 22, 10, 24, 23])) (.leaf [25, 21, 48, 29, 3, 35, 20, 11, 4, 36, 15, 77, 7, 12, 2, 0,
  31, 27, 8, 5, 1, 13, 34, 28, 9, 6, 14, 22, 10, 24, 23])) (.leaf [25, 21, 48, 29, 3, 35, 20, 11,
  4, 36, 15, 77, 7, 12, 2, 0, 31, 27, 8, 5, 1, 13, 34, 28, 9, 6, 14, 22, 10, 24, 23])) (.leaf [25,
  21, 48, 29, 3, 35, 20, 11, 4, 36, 15, 77, 7, 12, 2, 0, 31, 27, 8, 5, 1, 13, 34, 28, 9, 6, 14, 22,
  10, 24, 23])) (.leaf [25, 21, 48, 29, 3, 35, 20, 11, 4, 36, 15, 77, 7, 12, 2, 0, 31, 27, 8, 5, 1,
  13, 34, 28, 9, 6, 14, 22, 10, 24, 23])) (.leaf [25, 21, 48, 29, 3, 35, 20, 11, 4, 36, 15, 77, 7,
  12, 2, 0, 31, 27, 8, 5, 1, 13, 34, 28, 9, 6, 14, 22, 10, 24, 58, 23, 40, 41, 42, 43])) (.leaf
  [25, 21, 48, 29, 3, 35, 20, 11, 4, 36, 15, 77, 7, 12, 2, 0, 31, 27, 8, 5, 1, 13, 34, 28, 9, 6,
  14, 22, 10, 24, 23])) (.leaf [25, 21, 48, 29, 3, 35, 20, 11, 4, 36, 15, 77, 7, 12, 2, 0, 31, 27,
  8, 5, 1, 13, 34, 28, 9, 6, 14, 22, 10, 24, 23])) (.leaf [25, 21, 48, 29, 3, 35, 20, 11, 4, 36,
  15, 77, 7, 12, 2, 0, 31, 27, 8, 5, 1, 13, 34, 28, 9, 6, 14, 22, 10, 24, 58, 23, 40, 41, 42, 43]))
  (.leaf [25, 21, 48, 29, 3, 35, 20, 11, 4, 36, 15, 77, 7, 12, 2, 0, 31, 27, 8, 5, 1, 13, 34, 28,
  9, 6, 14, 22, 10, 24, 23])

/-- some of the cases -/
def real5OneCase83 : LooseTree :=
  .breaks 17907794 (.breaks 21053633 (.breaks 21065810 (.breaks 4210881 (.breaks 10526737 (.breaks
  21053457 (.breaks 24170693 (.breaks 24211649 (.breaks 4210705 (.breaks 10526753 (.breaks 13684817
  (.breaks 13705410 (.breaks 21053473 (.breaks 24211473 (.breaks 4210721 (.breaks 10526721 (.breaks
  18948177 (.breaks 18972866 (.breaks 21053441 (.breaks 24211489 (.breaks 4210689 (.breaks 18948209
  (.breaks 24211457 (.breaks 25264209 (.leaf [25, 47, 29, 3, 27, 66, 11, 4, 28, 15, 7, 12, 2, 0,
  31, 22, 8, 5, 1, 13, 34, 23, 9, 6, 14, 10, 24]) (.leaf [25, 47, 29, 3, 27, 66, 11, 4, 28, 15, 7,
  12, 2, 0, 31, 22, 8, 5, 1, 13, 34, 23, 9, 6, 14, 10, 24])) (.leaf [25, 47, 29, 3, 27, 66, 11, 4,
  28, 15, 12, 2, 0, 31, 22, 5, 1, 34, 23, 6, 24, 58, 40, 41, 42, 43])) (.leaf [25, 47, 29, 3, 27,
  66, 11, 4, 28, 15, 7, 12, 2, 0, 31, 22, 8, 5, 1, 13, 34, 23, 9, 6, 14, 10, 24])) (.leaf [25, 47,
  29, 3, 27, 66, 11, 4, 28, 15, 7, 12, 2, 0, 31, 22, 8, 5, 1, 13, 34, 23, 9, 6, 14, 10, 24]))
  (.leaf [25, 47, 29, 3, 27, 66, 11, 4, 28, 15, 12, 2, 0, 31, 22, 5, 1, 34, 23, 6, 24, 58, 40, 41,
  42, 43])) (.leaf [25, 47, 29, 3, 27, 66, 11, 4, 28, 15, 7, 12, 2, 0, 31, 22, 8, 5, 1, 13, 34, 23,
  9, 6, 14, 10, 24])) (.leaf [25, 47, 29, 3, 27, 66, 11, 4, 28, 15, 7, 12, 2, 0, 31, 22, 8, 5, 1,
  13, 34, 23, 9, 6, 14, 10, 24])) (.leaf [25, 47, 29, 3, 27, 66, 11, 4, 28, 15, 7, 12, 2, 0, 31,
  22, 8, 5, 1, 13, 34, 23, 9, 6, 14, 10, 24])) (.leaf [25, 47, 29, 27, 66, 11, 28, 15, 7, 12, 0,
  31, 22, 8, 5, 34, 23, 9, 6, 10, 24, 58, 40, 41, 42, 43])) (.leaf [25, 47, 29, 3, 27, 66, 11, 4,
  28, 15, 7, 12, 2, 0, 31, 22, 8, 5, 1, 13, 34, 23, 9, 6, 14, 10, 24])) (.leaf [25, 47, 29, 3, 27,
  66, 11, 4, 28, 15, 12, 2, 0, 31, 22, 5, 1, 34, 23, 6, 24, 58, 40, 41, 42, 43])) (.leaf [25, 47,
  29, 3, 27, 66, 11, 4, 28, 15, 7, 12, 2, 0, 31, 22, 8, 5, 1, 13, 34, 23, 9, 6, 14, 10, 24]))
  (.leaf [25, 47, 29, 3, 27, 66, 11, 4, 28, 15, 7, 12, 2, 0, 31, 22, 8, 5, 1, 13, 34, 23, 9, 6, 14,
  10, 24])) (.leaf [25, 47, 29, 3, 27, 66, 11, 4, 28, 15, 7, 12, 2, 0, 31, 22, 8, 5, 1, 13, 34, 23,
  9, 6, 14, 10, 24])) (.leaf [25, 47, 29, 27, 66, 11, 28, 15, 7, 12, 0, 31, 22, 8, 5, 34, 23, 9, 6,
  10, 24, 58, 40, 41, 42, 43])) (.leaf [25, 47, 29, 3, 27, 66, 11, 4, 28, 15, 7, 12, 2, 0, 31, 22,
  8, 5, 1, 13, 34, 23, 9, 6, 14, 10, 24])) (.leaf [25, 47, 29, 3, 27, 66, 11, 4, 28, 15, 12, 2, 0,
  31, 22, 5, 1, 34, 23, 6, 24, 58, 40, 41, 42, 43])) (.leaf [25, 47, 29, 3, 27, 66, 11, 4, 28, 15,
  7, 12, 2, 0, 31, 22, 8, 5, 1, 13, 34, 23, 9, 6, 14, 10, 24])) (.leaf [25, 47, 29, 3, 27, 66, 11,
  4, 28, 15, 7, 12, 2, 0, 31, 22, 8, 5, 1, 13, 34, 23, 9, 6, 14, 10, 24])) (.leaf [25, 47, 29, 27,
  66, 11, 28, 15, 7, 12, 0, 31, 22, 8, 5, 34, 23, 9, 6, 10, 24, 58, 40, 41, 42, 43])) (.leaf [25,
  47, 29, 3, 27, 66, 11, 4, 28, 15, 7, 12, 2, 0, 31, 22, 8, 5, 1, 13, 34, 23, 9, 6, 14, 10, 24]))
  (.leaf [25, 47, 29, 3, 27, 66, 11, 4, 28, 15, 7, 12, 2, 0, 31, 22, 8, 5, 1, 13, 34, 23, 9, 6, 14,
  10, 24])) (.leaf [25, 47, 29, 3, 27, 66, 11, 4, 28, 15, 7, 12, 2, 0, 31, 22, 8, 5, 1, 13, 34, 23,
  9, 6, 14, 10, 24])) (.leaf [25, 47, 29, 3, 27, 66, 11, 4, 28, 15, 7, 12, 2, 0, 31, 22, 8, 5, 1,
  13, 34, 23, 9, 6, 14, 10, 24])

/-- some of the cases -/
def real5OneCase84 : LooseTree :=
  .breaks 1089621 (.breaks 6320151 (.breaks 12619795 (.breaks 17920098 (.breaks 7421974 (.breaks
  9474065 (.breaks 10502226 (.breaks 10526913 (.breaks 24211537 (.breaks 4210881 (.breaks 9474177
  (.breaks 10526737 (.breaks 21053473 (.breaks 24170693 (.breaks 24211649 (.breaks 4210705 (.breaks
  9474193 (.breaks 10526753 (.breaks 13684817 (.breaks 13705410 (.breaks 21053441 (.breaks 24211473
  (.breaks 4210721 (.breaks 10526721 (.breaks 18948177 (.breaks 24211489 (.breaks 4210689 (.breaks
  18948209 (.breaks 24211457 (.leaf [25, 72, 61, 21, 74, 62, 29, 3, 20, 11, 55, 4, 22, 15, 7, 12,
  56, 2, 0, 31, 23, 8, 5, 1, 13, 9, 6, 14, 10]) (.leaf [25, 72, 61, 21, 48, 74, 62, 29, 3, 35, 20,
  11, 55, 4, 36, 22, 15, 12, 56, 2, 0, 31, 23, 5, 1, 13, 34, 6, 14, 24])) (.leaf [25, 72, 61, 21,
  48, 74, 62, 29, 3, 35, 20, 11, 55, 4, 36, 22, 15, 7, 12, 56, 2, 0, 23, 8, 5, 1, 9, 6, 10]))
  (.leaf [25, 72, 61, 21, 74, 62, 29, 3, 20, 11, 55, 4, 22, 15, 7, 12, 56, 2, 0, 31, 23, 8, 5, 1,
  13, 34, 9, 6, 14, 10, 24])) (.leaf [25, 72, 61, 21, 48, 74, 62, 29, 3, 35, 20, 11, 55, 4, 36, 22,
  15, 12, 56, 2, 0, 31, 23, 5, 1, 13, 34, 6, 14, 24])) (.leaf [25, 72, 61, 21, 48, 74, 62, 29, 3,
  35, 20, 11, 55, 4, 36, 22, 15, 7, 12, 56, 2, 0, 23, 8, 5, 1, 9, 6, 10])) (.leaf [25, 72, 61, 21,
  74, 62, 29, 3, 20, 11, 55, 4, 22, 15, 7, 12, 56, 2, 0, 31, 23, 8, 5, 1, 13, 34, 9, 6, 14, 10,
  24])) (.leaf [25, 72, 61, 21, 74, 62, 29, 3, 20, 11, 55, 4, 22, 15, 7, 12, 56, 2, 0, 31, 23, 8,
  5, 1, 13, 34, 9, 6, 14, 10, 24])) (.leaf [25, 72, 61, 21, 48, 74, 62, 29, 3, 35, 20, 11, 55, 4,
  36, 22, 15, 12, 56, 2, 0, 31, 23, 5, 1, 13, 34, 6, 14, 24])) (.leaf [25, 61, 21, 48, 62, 29, 3,
  35, 20, 11, 55, 4, 36, 15, 7, 12, 56, 2, 0, 31, 8, 5, 1, 13, 34, 9, 6, 14, 10, 24])) (.leaf [25,
  72, 61, 21, 48, 74, 62, 29, 3, 35, 20, 11, 55, 4, 36, 22, 15, 7, 12, 56, 2, 0, 23, 8, 5, 1, 9, 6,
  10])) (.leaf [25, 72, 61, 21, 74, 62, 29, 3, 20, 11, 55, 4, 22, 15, 7, 12, 56, 2, 0, 31, 23, 8,
  5, 1, 13, 34, 9, 6, 14, 10, 24])) (.leaf [25, 72, 61, 21, 74, 62, 29, 3, 20, 11, 55, 4, 22, 15,
  7, 12, 56, 2, 0, 31, 23, 8, 5, 1, 13, 34, 9, 6, 14, 10, 24])) (.leaf [25, 72, 61, 21, 74, 62, 29,
  3, 20, 11, 55, 4, 22, 15, 7, 12, 56, 2, 0, 31, 23, 8, 5, 1, 13, 34, 9, 6, 14, 10, 24])) (.leaf
  [25, 72, 61, 21, 74, 62, 29, 3, 20, 11, 55, 4, 22, 15, 7, 12, 56, 2, 0, 31, 23, 8, 5, 1, 13, 34,
  9, 6, 14, 10, 24])) (.leaf [25, 72, 61, 21, 48, 74, 62, 29, 3, 35, 20, 11, 55, 4, 36, 22, 15, 12,
  56, 2, 0, 31, 23, 5, 1, 13, 34, 6, 14, 24])) (.leaf [25, 72, 61, 21, 48, 74, 62, 29, 3, 35, 20,
  11, 55, 4, 36, 22, 15, 7, 12, 56, 2, 0, 31, 23, 8, 5, 1, 13, 9, 6, 14, 10])) (.leaf [25, 61, 21,
  48, 62, 29, 3, 35, 20, 11, 55, 4, 36, 15, 7, 12, 56, 2, 0, 31, 8, 5, 1, 13, 34, 9, 6, 14, 10,
  24])) (.leaf [25, 72, 61, 21, 74, 62, 29, 3, 20, 11, 55, 4, 22, 15, 7, 12, 56, 2, 0, 31, 23, 8,
  5, 1, 13, 34, 9, 6, 14, 10, 24])) (.leaf [25, 72, 61, 21, 74, 62, 29, 3, 20, 11, 55, 4, 22, 15,
  7, 12, 56, 2, 0, 31, 23, 8, 5, 1, 13, 34, 9, 6, 14, 10, 24])) (.leaf [25, 72, 61, 21, 74, 62, 29,
  3, 20, 11, 55, 4, 22, 15, 7, 12, 56, 2, 0, 31, 23, 8, 5, 1, 13, 34, 9, 6, 14, 10, 24])) (.leaf
  [25, 72, 61, 21, 48, 74, 62, 29, 3, 35, 20, 11, 55, 4, 36, 22, 15, 7, 12, 56, 2, 0, 31, 23, 8, 5,
  1, 13, 9, 6, 14, 10])) (.leaf [25, 72, 61, 21, 74, 62, 29, 3, 20, 11, 55, 4, 22, 15, 7, 12, 56,
  2, 0, 31, 23, 8, 5, 1, 13, 34, 9, 6, 14, 10, 24])) (.leaf [25, 72, 61, 21, 74, 62, 29, 3, 20, 11,
  55, 4, 22, 15, 7, 12, 56, 2, 0, 31, 23, 8, 5, 1, 13, 34, 9, 6, 14, 10, 24])) (.leaf [25, 72, 128,
  21, 74, 55, 29, 3, 20, 11, 56, 4, 22, 15, 7, 12, 2, 0, 31, 23, 8, 5, 1, 13, 34, 9, 6, 14, 10,
  24])) (.leaf [25, 61, 21, 48, 62, 29, 3, 35, 20, 11, 55, 4, 36, 15, 7, 12, 56, 2, 0, 31, 8, 5, 1,
  13, 34, 9, 6, 14, 10, 24])) (.leaf [25, 72, 61, 21, 48, 74, 62, 29, 3, 35, 20, 11, 55, 4, 36, 22,
  15, 7, 12, 56, 2, 0, 31, 23, 8, 5, 1, 13, 9, 6, 14, 10])) (.leaf [25, 72, 128, 21, 74, 55, 29, 3,
  20, 11, 56, 4, 22, 15, 7, 12, 2, 0, 31, 23, 8, 5, 1, 13, 34, 9, 6, 14, 10, 24])) (.leaf [25, 61,
  21, 48, 62, 29, 3, 35, 20, 11, 55, 4, 36, 15, 7, 12, 56, 2, 0, 31, 8, 5, 1, 13, 34, 9, 6, 14, 10,
  24])) (.leaf [25, 72, 61, 21, 74, 62, 29, 3, 20, 11, 55, 4, 22, 15, 7, 12, 56, 2, 0, 31, 23, 8,
  5, 1, 13, 34, 9, 6, 14, 10, 24])

/-- some of the cases -/
def real5OneCase85 : LooseTree :=
  .cases [] 22 (.breaks 1089619 (.breaks 17920098 (.breaks 10526801 (.breaks 24211537 (.breaks
  10526913 (.breaks 24170693 (.breaks 24211649 (.breaks 4210881 (.breaks 10526737 (.breaks 13684817
  (.breaks 13705410 (.breaks 24211473 (.breaks 4210705 (.breaks 10526753 (.breaks 18948177 (.breaks
  18972866 (.breaks 24211489 (.breaks 4210721 (.breaks 10526721 (.breaks 18948209 (.breaks 24211457
  (.breaks 25264209 (.breaks 4210689 (.breaks 10530819 (.breaks 11579393 (.leaf [79, 21, 46, 20,
  29, 3, 15, 7, 11, 4, 0, 31, 8, 12, 2, 13, 34, 9, 5, 1, 14, 10, 24, 6, 97, 96]) (.leaf [79, 21,
  46, 20, 29, 3, 15, 7, 11, 4, 0, 31, 8, 12, 2, 13, 34, 9, 5, 1, 14, 10, 24, 6, 97, 96])) (.leaf
  [79, 21, 46, 20, 29, 3, 15, 7, 11, 4, 0, 31, 8, 12, 2, 13, 34, 9, 5, 1, 14, 10, 24, 6, 97, 96]))
  (.leaf [79, 21, 46, 20, 29, 3, 15, 7, 11, 4, 0, 31, 8, 12, 2, 13, 34, 9, 5, 1, 14, 10, 24, 6, 97,
  96])) (.leaf [79, 72, 21, 48, 74, 46, 35, 20, 29, 3, 36, 22, 15, 7, 11, 4, 0, 23, 8, 12, 2, 9, 5,
  1, 10, 6, 97, 96])) (.leaf [79, 72, 21, 74, 46, 20, 29, 3, 22, 15, 11, 4, 0, 31, 23, 12, 2, 13,
  34, 5, 1, 14, 24, 6, 97, 96])) (.leaf [79, 72, 21, 48, 74, 46, 35, 20, 29, 3, 36, 22, 15, 7, 11,
  4, 0, 23, 8, 12, 2, 9, 5, 1, 10, 6, 97, 96])) (.leaf [79, 72, 21, 74, 46, 20, 29, 3, 22, 15, 7,
  11, 4, 0, 31, 23, 8, 12, 2, 13, 9, 5, 1, 14, 10, 6, 97, 96])) (.leaf [79, 21, 46, 20, 29, 3, 15,
  7, 11, 4, 0, 31, 8, 12, 2, 13, 34, 9, 5, 1, 14, 10, 24, 6, 97, 96])) (.leaf [79, 72, 21, 74, 46,
  20, 29, 3, 22, 15, 11, 4, 0, 31, 23, 12, 2, 13, 34, 5, 1, 14, 24, 6, 97, 96])) (.leaf [79, 72,
  21, 48, 74, 46, 35, 20, 29, 3, 36, 22, 15, 7, 11, 4, 0, 23, 8, 12, 2, 9, 5, 1, 10, 6, 97, 96]))
  (.leaf [79, 72, 21, 48, 74, 46, 35, 20, 29, 3, 36, 22, 15, 7, 11, 4, 0, 23, 8, 12, 2, 9, 5, 1,
  10, 6, 97, 96])) (.leaf [79, 72, 21, 74, 46, 20, 29, 3, 22, 15, 7, 11, 4, 0, 31, 23, 8, 12, 2,
  13, 9, 5, 1, 14, 10, 6, 97, 96])) (.leaf [79, 21, 46, 20, 29, 3, 15, 7, 11, 4, 0, 31, 8, 12, 2,
  13, 34, 9, 5, 1, 14, 10, 24, 6, 97, 96])) (.leaf [79, 72, 21, 74, 46, 20, 29, 3, 22, 15, 11, 4,
  0, 31, 23, 12, 2, 13, 34, 5, 1, 14, 24, 6, 97, 96])) (.leaf [79, 72, 21, 48, 74, 46, 35, 20, 29,
  3, 36, 22, 15, 7, 11, 4, 0, 23, 8, 12, 2, 9, 5, 1, 10, 6, 97, 96])) (.leaf [79, 21, 46, 20, 29,
  3, 15, 7, 11, 4, 0, 31, 8, 12, 2, 13, 34, 9, 5, 1, 14, 10, 24, 6, 97, 96])) (.leaf [79, 72, 21,
  74, 46, 20, 29, 3, 22, 15, 7, 11, 4, 0, 31, 23, 8, 12, 2, 13, 9, 5, 1, 14, 10, 6, 97, 96]))
  (.leaf [79, 21, 46, 20, 29, 3, 15, 7, 11, 4, 0, 31, 8, 12, 2, 13, 34, 9, 5, 1, 14, 10, 24, 6, 97,
  96])) (.leaf [79, 72, 21, 74, 46, 20, 29, 3, 22, 15, 11, 4, 0, 31, 23, 12, 2, 13, 34, 5, 1, 14,
  24, 6, 97, 96])) (.leaf [79, 72, 21, 48, 74, 46, 35, 20, 29, 3, 36, 22, 15, 7, 11, 4, 0, 23, 8,
  12, 2, 9, 5, 1, 10, 6, 97, 96])) (.leaf [79, 72, 21, 74, 46, 20, 29, 3, 22, 15, 7, 11, 4, 0, 31,
  23, 8, 12, 2, 13, 9, 5, 1, 14, 10, 6, 97, 96])) (.leaf [79, 72, 21, 48, 74, 46, 35, 20, 29, 3,
  36, 22, 15, 11, 4, 0, 31, 23, 12, 2, 13, 34, 5, 1, 14, 24, 6, 97, 96])) (.leaf [79, 72, 21, 74,
  46, 20, 29, 3, 22, 15, 7, 11, 4, 0, 31, 23, 8, 12, 2, 13, 34, 9, 5, 1, 14, 10, 24, 6, 97, 96]))
  (.leaf [79, 72, 21, 48, 74, 46, 35, 20, 29, 3, 36, 22, 15, 11, 4, 0, 31, 23, 12, 2, 13, 34, 5, 1,
  14, 24, 6, 97, 96])) (.leaf [79, 72, 21, 74, 46, 20, 29, 3, 22, 15, 7, 11, 4, 0, 31, 23, 8, 12,
  2, 13, 34, 9, 5, 1, 14, 10, 24, 6, 97, 96])) (.cases [] 18 (.cases [] 25 (.breaks 1089621
  (.breaks 10489939 (.cycle 33 [25, 130]) (.leaf [25, 72, 21, 84, 85, 74, 29, 3, 48, 37, 20, 11, 4,
  35, 22, 15, 7, 12, 2, 0, 31, 36, 23, 8, 5, 1, 13, 34, 9, 6, 14, 10, 24, 58, 40, 41, 42, 43]))
  (.leaf [25, 72, 21, 84, 85, 74, 29, 3, 48, 37, 20, 11, 4, 35, 22, 15, 7, 12, 2, 0, 31, 36, 23, 8,
  5, 1, 13, 34, 9, 6, 14, 10, 24, 58, 40, 41, 42, 43])) (.cases [] 39 (.breaks 1089621 (.breaks
  10489939 (.cycle 33 [25, 130]) (.leaf [25, 72, 21, 48, 74, 29, 3, 35, 20, 11, 4, 36, 22, 15, 7,
  12, 2, 0, 31, 23, 8, 5, 1, 13, 34, 9, 6, 14, 10, 24, 112, 106, 40, 41, 42, 43])) (.leaf [25, 72,
  21, 50, 48, 74, 29, 3, 16, 35, 20, 11, 4, 17, 36, 22, 15, 7, 12, 2, 0, 31, 18, 23, 8, 5, 1, 19,
  13, 34, 9, 6, 14, 10, 24, 112, 106, 40, 41, 42, 43])) (.breaks 1089621 (.breaks 10489939 (.cycle
  33 [25, 130]) (.cycle 43 [117, 58])) (.cycle 43 [117, 58])))) (.breaks 1089621 (.breaks 10489939
  (.cycle 33 [25, 130]) (.leaf [25, 72, 21, 70, 74, 64, 29, 3, 20, 11, 65, 4, 22, 15, 7, 12, 2, 0,
  31, 23, 8, 5, 1, 13, 34, 9, 6, 14, 10, 24, 58, 40, 41, 42, 43])) (.leaf [25, 72, 21, 70, 48, 74,
  64, 29, 3, 35, 20, 11, 65, 4, 36, 22, 15, 7, 12, 2, 0, 31, 23, 8, 5, 1, 13, 34, 9, 6, 14, 10, 24,
  58, 40, 41, 42, 43])))

/-- some of the cases -/
def real5OneCase86 : LooseTree :=
  .breaks 10530850 (.breaks 11579393 (.cycle 66 [150, 153, 96]) (.cycle 66 [150, 153, 96])) (.cycle
  66 [150, 153, 96])

/-- some of the cases -/
def real5OneCase87 : LooseTree :=
  .breaks 1089621 (.breaks 11575330 (.breaks 17920098 (.breaks 27353219 (.breaks 27353218 (.breaks
  7421974 (.breaks 10502226 (.breaks 10526721 (.breaks 23146629 (.breaks 23158801 (.breaks 24211537
  (.breaks 4210881 (.breaks 20000945 (.breaks 21053473 (.breaks 24170693 (.breaks 24211649 (.breaks
  4210705 (.breaks 13684817 (.breaks 13705410 (.breaks 20000929 (.breaks 21053441 (.breaks 24211473
  (.breaks 4210721 (.breaks 18948177 (.breaks 18972866 (.breaks 24211489 (.breaks 4210689 (.breaks
  18948209 (.breaks 24211457 (.breaks 25264209 (.leaf [25, 72, 91, 21, 84, 85, 74, 29, 1, 48, 37,
  20, 11, 35, 22, 15, 7, 12, 0, 31, 36, 23, 8, 5, 13, 34, 9, 6, 14, 10, 24]) (.leaf [25, 72, 91,
  21, 84, 85, 74, 29, 1, 48, 37, 20, 11, 35, 22, 15, 7, 12, 0, 31, 36, 23, 8, 5, 13, 34, 9, 6, 14,
  10, 24])) (.leaf [25, 72, 91, 21, 84, 85, 74, 29, 1, 48, 37, 20, 11, 35, 22, 15, 7, 12, 0, 31,
  36, 23, 8, 5, 13, 34, 9, 6, 14, 10, 24])) (.leaf [25, 72, 91, 21, 84, 85, 74, 29, 1, 48, 37, 20,
  11, 35, 22, 15, 7, 12, 0, 31, 36, 23, 8, 5, 13, 34, 9, 6, 14, 10, 24])) (.leaf [25, 91, 21, 84,
  85, 29, 1, 48, 37, 20, 11, 35, 15, 7, 12, 0, 31, 36, 8, 5, 13, 34, 9, 6, 14, 10, 24, 58, 40, 41,
  42, 43])) (.leaf [25, 72, 91, 21, 84, 85, 74, 29, 1, 48, 37, 20, 11, 35, 22, 15, 7, 12, 0, 31,
  36, 23, 8, 5, 13, 34, 9, 6, 14, 10, 24])) (.leaf [25, 72, 91, 21, 84, 85, 74, 29, 1, 48, 37, 20,
  11, 35, 22, 15, 7, 12, 0, 31, 36, 23, 8, 5, 13, 34, 9, 6, 14, 10, 24])) (.leaf [25, 72, 91, 21,
  84, 85, 74, 29, 1, 48, 37, 20, 11, 35, 22, 15, 7, 12, 0, 31, 36, 23, 8, 5, 13, 34, 9, 6, 14, 10,
  24])) (.leaf [25, 91, 21, 84, 85, 29, 1, 48, 37, 20, 11, 35, 15, 7, 12, 0, 31, 36, 8, 5, 13, 34,
  9, 6, 14, 10, 24, 58, 40, 41, 42, 43])) (.leaf [25, 72, 91, 21, 84, 85, 74, 29, 1, 48, 37, 20,
  11, 35, 22, 15, 7, 12, 0, 31, 36, 23, 8, 5, 13, 34, 9, 6, 14, 10, 24])) (.leaf [25, 91, 21, 84,
  85, 29, 1, 48, 37, 20, 11, 35, 15, 7, 12, 0, 31, 36, 8, 5, 13, 34, 9, 6, 14, 10, 24, 58, 40, 41,
  42, 43])) (.leaf [25, 72, 91, 21, 84, 85, 74, 29, 1, 48, 37, 20, 11, 35, 22, 15, 7, 12, 0, 31,
  36, 23, 8, 5, 13, 34, 9, 6, 14, 10, 24])) (.leaf [25, 72, 91, 21, 84, 85, 74, 29, 1, 48, 37, 20,
  11, 35, 22, 15, 7, 12, 0, 31, 36, 23, 8, 5, 34, 9, 6, 10, 24, 58, 40, 41, 42, 43])) (.leaf [25,
  72, 91, 21, 84, 85, 74, 29, 1, 48, 37, 20, 11, 35, 22, 15, 7, 12, 0, 31, 36, 23, 8, 5, 13, 34, 9,
  6, 14, 10, 24])) (.leaf [25, 91, 21, 84, 85, 29, 1, 48, 37, 20, 11, 35, 15, 7, 12, 0, 31, 36, 8,
  5, 13, 34, 9, 6, 14, 10, 24, 58, 40, 41, 42, 43])) (.leaf [25, 72, 91, 21, 84, 85, 74, 29, 1, 48,
  37, 20, 11, 35, 22, 15, 7, 12, 0, 31, 36, 23, 8, 5, 13, 34, 9, 6, 14, 10, 24])) (.leaf [25, 72,
  91, 21, 84, 85, 74, 29, 1, 48, 37, 20, 11, 35, 22, 15, 7, 12, 0, 31, 36, 23, 8, 5, 13, 34, 9, 6,
  14, 10, 24, 58, 40, 41, 42, 43])) (.leaf [25, 91, 21, 84, 85, 29, 1, 48, 37, 20, 11, 35, 15, 7,
  12, 0, 31, 36, 8, 5, 13, 34, 9, 6, 14, 10, 24, 58, 40, 41, 42, 43])) (.leaf [25, 72, 91, 21, 84,
  85, 74, 29, 1, 48, 37, 20, 11, 35, 22, 15, 7, 12, 0, 31, 36, 23, 8, 5, 13, 34, 9, 6, 14, 10,
  24])) (.leaf [25, 91, 21, 84, 85, 29, 1, 48, 37, 20, 11, 35, 15, 7, 12, 0, 31, 36, 8, 5, 13, 34,
  9, 6, 14, 10, 24, 58, 40, 41, 42, 43])) (.leaf [25, 72, 91, 21, 84, 85, 74, 29, 1, 48, 37, 20,
  11, 35, 22, 15, 7, 12, 0, 31, 36, 23, 8, 5, 13, 34, 9, 6, 14, 10, 24, 58, 40, 41, 42, 43]))
  (.leaf [25, 72, 91, 21, 84, 85, 74, 29, 1, 48, 37, 20, 11, 35, 22, 15, 7, 12, 0, 31, 36, 23, 8,
  5, 13, 34, 9, 6, 14, 10, 24])) (.leaf [25, 72, 91, 21, 84, 85, 74, 29, 1, 48, 37, 20, 11, 35, 22,
  15, 7, 12, 0, 31, 36, 23, 8, 5, 13, 34, 9, 6, 14, 10, 24])) (.leaf [25, 72, 91, 21, 84, 85, 74,
  29, 1, 48, 37, 20, 11, 35, 22, 15, 7, 12, 0, 31, 36, 23, 8, 5, 13, 34, 9, 6, 14, 10, 24])) (.leaf
  [25, 91, 21, 84, 85, 29, 1, 48, 37, 20, 11, 35, 15, 7, 12, 0, 31, 36, 8, 5, 13, 34, 9, 6, 14, 10,
  24, 58, 40, 41, 42, 43])) (.leaf [25, 91, 21, 84, 85, 29, 1, 48, 37, 20, 11, 35, 15, 7, 12, 0,
  31, 36, 8, 5, 13, 34, 9, 6, 14, 10, 24, 58, 40, 41, 42, 43])) (.leaf [25, 72, 91, 21, 84, 85, 74,
  29, 1, 48, 37, 20, 11, 35, 22, 15, 7, 12, 0, 31, 36, 23, 8, 5, 13, 34, 9, 6, 14, 10, 24])) (.leaf
  [25, 72, 91, 21, 84, 85, 74, 29, 1, 48, 37, 20, 11, 35, 22, 15, 7, 12, 0, 31, 36, 23, 8, 5, 13,
  34, 9, 6, 14, 10, 24])) (.leaf [25, 72, 91, 21, 84, 85, 74, 29, 1, 48, 37, 20, 11, 35, 22, 15, 7,
  12, 0, 31, 36, 23, 8, 5, 13, 34, 9, 6, 14, 10, 24, 58, 40, 41, 42, 43])) (.leaf [25, 72, 169, 21,
  84, 85, 74, 29, 1, 48, 37, 20, 11, 35, 22, 15, 7, 12, 0, 31, 36, 23, 8, 5, 13, 34, 9, 6, 14, 10,
  24])) (.leaf [25, 91, 21, 84, 85, 29, 1, 48, 37, 20, 11, 35, 15, 7, 12, 0, 31, 36, 8, 5, 13, 34,
  9, 6, 14, 10, 24, 58, 40, 41, 42, 43])

/-- some of the cases -/
def real5OneCase88 : LooseTree :=
  .cases [] 22 (.breaks 1089619 (.breaks 17920098 (.breaks 23146629 (.breaks 7421974 (.breaks
  10526801 (.breaks 20000945 (.breaks 24211537 (.breaks 10502226 (.breaks 10526913 (.breaks
  20000929 (.breaks 21053473 (.breaks 24170693 (.breaks 24211649 (.breaks 4210881 (.breaks 10526737
  (.breaks 13684817 (.breaks 13705410 (.breaks 21053441 (.breaks 24211473 (.breaks 4210705 (.breaks
  10526753 (.breaks 18948177 (.breaks 18972866 (.breaks 24211489 (.breaks 4210721 (.breaks 10526721
  (.breaks 18948209 (.breaks 24211457 (.breaks 25264209 (.breaks 4210689 (.leaf [79, 72, 21, 48,
  74, 46, 35, 20, 29, 3, 36, 22, 15, 7, 11, 4, 0, 31, 23, 8, 12, 2, 13, 34, 9, 5, 1, 14, 10, 24,
  6]) (.leaf [79, 72, 21, 74, 46, 20, 29, 3, 22, 15, 7, 11, 4, 0, 31, 23, 8, 12, 2, 13, 34, 9, 5,
  1, 14, 10, 24, 58, 6, 40, 41, 42, 43])) (.leaf [79, 72, 21, 48, 74, 46, 35, 20, 29, 3, 36, 22,
  15, 7, 11, 4, 0, 31, 23, 8, 12, 2, 13, 34, 9, 5, 1, 14, 10, 24, 6])) (.leaf [79, 72, 21, 48, 74,
  46, 35, 20, 29, 3, 36, 22, 15, 7, 11, 4, 0, 31, 23, 8, 12, 2, 13, 34, 9, 5, 1, 14, 10, 24, 6]))
  (.leaf [79, 72, 21, 48, 74, 46, 35, 20, 29, 3, 36, 22, 15, 7, 11, 4, 0, 31, 23, 8, 12, 2, 13, 34,
  9, 5, 1, 14, 10, 24, 6])) (.leaf [79, 72, 21, 48, 74, 46, 35, 20, 29, 3, 36, 22, 15, 7, 11, 4, 0,
  31, 23, 8, 12, 2, 13, 34, 9, 5, 1, 14, 10, 24, 6])) (.leaf [79, 72, 21, 74, 46, 20, 29, 3, 22,
  15, 7, 11, 4, 0, 31, 23, 8, 12, 2, 13, 34, 9, 5, 1, 14, 10, 24, 58, 6, 40, 41, 42, 43])) (.leaf
  [79, 72, 21, 48, 74, 46, 35, 20, 29, 3, 36, 22, 15, 7, 11, 4, 0, 31, 23, 8, 12, 2, 13, 34, 9, 5,
  1, 14, 10, 24, 6])) (.leaf [79, 72, 21, 48, 74, 46, 35, 20, 29, 3, 36, 22, 15, 7, 11, 4, 0, 31,
  23, 8, 12, 2, 13, 34, 9, 5, 1, 14, 10, 24, 6])) (.leaf [79, 72, 21, 48, 74, 46, 35, 20, 29, 3,
  36, 22, 15, 7, 11, 4, 0, 31, 23, 8, 12, 2, 13, 34, 9, 5, 1, 14, 10, 24, 6])) (.leaf [79, 72, 91,
  21, 48, 74, 46, 1, 35, 20, 29, 36, 22, 15, 7, 11, 0, 31, 23, 8, 12, 13, 34, 9, 5, 14, 10, 24,
  6])) (.leaf [79, 72, 21, 74, 46, 20, 29, 3, 22, 15, 7, 11, 4, 0, 31, 23, 8, 12, 2, 13, 34, 9, 5,
  1, 14, 10, 24, 58, 6, 40, 41, 42, 43])) (.leaf [79, 72, 21, 48, 74, 46, 35, 20, 29, 3, 36, 22,
  15, 7, 11, 4, 0, 31, 23, 8, 12, 2, 13, 34, 9, 5, 1, 14, 10, 24, 6])) (.leaf [79, 21, 48, 46, 35,
  20, 29, 3, 36, 15, 7, 11, 4, 0, 31, 8, 12, 2, 13, 34, 9, 5, 1, 14, 10, 24, 58, 6, 40, 41, 42,
  43])) (.leaf [79, 72, 21, 48, 74, 46, 35, 20, 29, 3, 36, 22, 15, 7, 11, 4, 0, 31, 23, 8, 12, 2,
  34, 9, 5, 1, 10, 24, 58, 6, 40, 41, 42, 43])) (.leaf [79, 72, 21, 48, 74, 46, 35, 20, 29, 3, 36,
  22, 15, 7, 11, 4, 0, 31, 23, 8, 12, 2, 13, 34, 9, 5, 1, 14, 10, 24, 6])) (.leaf [79, 72, 91, 21,
  48, 74, 46, 1, 35, 20, 29, 36, 22, 15, 7, 11, 0, 31, 23, 8, 12, 13, 34, 9, 5, 14, 10, 24, 6]))
  (.leaf [79, 72, 21, 74, 46, 20, 29, 3, 22, 15, 7, 11, 4, 0, 31, 23, 8, 12, 2, 13, 34, 9, 5, 1,
  14, 10, 24, 58, 6, 40, 41, 42, 43])) (.leaf [79, 72, 21, 48, 74, 46, 35, 20, 29, 3, 36, 22, 15,
  7, 11, 4, 0, 31, 23, 8, 12, 2, 13, 34, 9, 5, 1, 14, 10, 24, 6])) (.leaf [79, 72, 21, 48, 74, 46,
  35, 20, 29, 3, 36, 22, 15, 7, 11, 4, 0, 31, 23, 8, 12, 2, 13, 34, 9, 5, 1, 14, 10, 24, 58, 6, 40,
  41, 42, 43])) (.leaf [79, 21, 48, 46, 35, 20, 29, 3, 36, 15, 7, 11, 4, 0, 31, 8, 12, 2, 13, 34,
  9, 5, 1, 14, 10, 24, 58, 6, 40, 41, 42, 43])) (.leaf [79, 72, 21, 74, 46, 20, 29, 3, 22, 15, 7,
  11, 4, 0, 31, 23, 8, 12, 2, 13, 34, 9, 5, 1, 14, 10, 24, 58, 6, 40, 41, 42, 43])) (.leaf [79, 72,
  91, 21, 48, 74, 46, 1, 35, 20, 29, 36, 22, 15, 7, 11, 0, 31, 23, 8, 12, 13, 34, 9, 5, 14, 10, 24,
  6])) (.leaf [79, 72, 21, 74, 46, 20, 29, 3, 22, 15, 7, 11, 4, 0, 31, 23, 8, 12, 2, 13, 34, 9, 5,
  1, 14, 10, 24, 58, 6, 40, 41, 42, 43])) (.leaf [79, 72, 21, 48, 74, 46, 35, 20, 29, 3, 36, 22,
  15, 7, 11, 4, 0, 31, 23, 8, 12, 2, 13, 34, 9, 5, 1, 14, 10, 24, 58, 6, 40, 41, 42, 43])) (.leaf
  [79, 72, 21, 74, 46, 20, 29, 3, 22, 15, 7, 11, 4, 0, 31, 23, 8, 12, 2, 13, 34, 9, 5, 1, 14, 10,
  24, 58, 6, 40, 41, 42, 43])) (.leaf [79, 72, 91, 21, 74, 46, 1, 20, 29, 22, 15, 7, 11, 0, 31, 23,
  8, 12, 13, 34, 9, 5, 14, 10, 24, 58, 6, 40, 41, 42, 43])) (.leaf [79, 21, 48, 46, 35, 20, 29, 3,
  36, 15, 7, 11, 4, 0, 31, 8, 12, 2, 13, 34, 9, 5, 1, 14, 10, 24, 58, 6, 40, 41, 42, 43])) (.leaf
  [79, 72, 21, 74, 46, 20, 29, 3, 22, 15, 7, 11, 4, 0, 31, 23, 8, 12, 2, 13, 34, 9, 5, 1, 14, 10,
  24, 58, 6, 40, 41, 42, 43])) (.leaf [79, 72, 21, 48, 74, 46, 35, 20, 29, 3, 36, 22, 15, 7, 11, 4,
  0, 31, 23, 8, 12, 2, 13, 34, 9, 5, 1, 14, 10, 24, 58, 6, 40, 41, 42, 43])) (.leaf [79, 72, 91,
  21, 74, 46, 1, 20, 29, 22, 15, 7, 11, 0, 31, 23, 8, 12, 13, 34, 9, 5, 14, 10, 24, 58, 6, 40, 41,
  42, 43])) (.cases [] 39 (.breaks 1089621 (.breaks 10489939 (.cycle 33 [25, 130]) (.leaf [25, 72,
  91, 21, 74, 29, 1, 20, 11, 22, 15, 7, 12, 0, 31, 23, 8, 5, 13, 34, 9, 6, 14, 10, 24, 112, 106,
  40, 41, 42, 43])) (.leaf [25, 72, 91, 21, 74, 29, 1, 20, 11, 22, 15, 7, 12, 0, 31, 23, 8, 5, 13,
  34, 9, 6, 14, 10, 24, 112, 106, 40, 41, 42, 43])) (.breaks 1089621 (.breaks 10489939 (.cycle 33
  [25, 130]) (.cycle 43 [117, 58])) (.cycle 43 [117, 58])))

/-- some of the cases -/
def real5OneCase89 : LooseTree :=
  .breaks 6320151 (.breaks 11575330 (.breaks 17920098 (.breaks 19955730 (.breaks 23146629 (.breaks
  7421974 (.breaks 8421505 (.breaks 10502226 (.breaks 10526721 (.breaks 20000945 (.breaks 24211537
  (.breaks 4210881 (.breaks 8421521 (.breaks 20000929 (.breaks 21053473 (.breaks 24170693 (.breaks
  24211649 (.breaks 4210705 (.breaks 13684817 (.breaks 13705410 (.breaks 21053441 (.breaks 24211473
  (.breaks 4210721 (.breaks 18948177 (.breaks 18972866 (.breaks 24211489 (.breaks 4210689 (.breaks
  18948209 (.breaks 24211457 (.breaks 25264209 (.leaf [25, 72, 91, 21, 70, 48, 74, 64, 29, 1, 35,
  20, 11, 65, 36, 22, 15, 7, 12, 0, 31, 23, 8, 5, 13, 34, 9, 6, 14, 10, 24]) (.leaf [25, 72, 91,
  21, 70, 48, 74, 64, 29, 1, 35, 20, 11, 65, 36, 22, 15, 7, 12, 0, 31, 23, 8, 5, 13, 34, 9, 6, 14,
  10, 24])) (.leaf [25, 72, 91, 21, 70, 48, 74, 64, 29, 1, 35, 20, 11, 65, 36, 22, 15, 7, 12, 0,
  31, 23, 8, 5, 13, 34, 9, 6, 14, 10, 24])) (.leaf [25, 72, 91, 21, 70, 48, 74, 64, 29, 1, 35, 20,
  11, 65, 36, 22, 15, 7, 12, 0, 31, 23, 8, 5, 13, 34, 9, 6, 14, 10, 24])) (.leaf [25, 72, 91, 21,
  70, 48, 74, 64, 29, 1, 35, 20, 11, 65, 36, 22, 15, 7, 12, 0, 31, 23, 8, 5, 13, 34, 9, 6, 14, 10,
  24])) (.leaf [25, 72, 91, 21, 70, 48, 74, 64, 29, 1, 35, 20, 11, 65, 36, 22, 15, 7, 12, 0, 31,
  23, 8, 5, 13, 34, 9, 6, 14, 10, 24])) (.leaf [25, 72, 91, 21, 70, 48, 74, 64, 29, 1, 35, 20, 11,
  65, 36, 22, 15, 7, 12, 0, 31, 23, 8, 5, 13, 34, 9, 6, 14, 10, 24])) (.leaf [25, 72, 91, 21, 70,
  48, 74, 64, 29, 1, 35, 20, 11, 65, 36, 22, 15, 7, 12, 0, 31, 23, 8, 5, 13, 34, 9, 6, 14, 10,
  24])) (.leaf [25, 72, 91, 21, 70, 48, 74, 64, 29, 1, 35, 20, 11, 65, 36, 22, 15, 7, 12, 0, 31,
  23, 8, 5, 13, 34, 9, 6, 14, 10, 24])) (.leaf [25, 72, 91, 21, 70, 48, 74, 64, 29, 1, 35, 20, 11,
  65, 36, 22, 15, 7, 12, 0, 31, 23, 8, 5, 13, 34, 9, 6, 14, 10, 24])) (.leaf [25, 91, 21, 70, 48,
  64, 29, 1, 35, 20, 11, 65, 36, 15, 7, 12, 0, 31, 8, 5, 13, 34, 9, 6, 14, 10, 24, 58, 40, 41, 42,
  43])) (.leaf [25, 72, 91, 21, 70, 48, 74, 64, 29, 1, 35, 20, 11, 65, 36, 22, 15, 7, 12, 0, 31,
  23, 8, 5, 34, 9, 6, 10, 24, 58, 40, 41, 42, 43])) (.leaf [25, 72, 91, 21, 70, 48, 74, 64, 29, 1,
  35, 20, 11, 65, 36, 22, 15, 7, 12, 0, 31, 23, 8, 5, 13, 34, 9, 6, 14, 10, 24])) (.leaf [25, 72,
  91, 21, 70, 48, 74, 64, 29, 1, 35, 20, 11, 65, 36, 22, 15, 7, 12, 0, 31, 23, 8, 5, 13, 34, 9, 6,
  14, 10, 24])) (.leaf [25, 72, 91, 21, 70, 48, 74, 64, 29, 1, 35, 20, 11, 65, 36, 22, 15, 7, 12,
  0, 31, 23, 8, 5, 13, 34, 9, 6, 14, 10, 24])) (.leaf [25, 72, 91, 21, 70, 48, 74, 64, 29, 1, 35,
  20, 11, 65, 36, 22, 15, 7, 12, 0, 31, 23, 8, 5, 13, 34, 9, 6, 14, 10, 24, 58, 40, 41, 42, 43]))
  (.leaf [25, 91, 21, 70, 48, 64, 29, 1, 35, 20, 11, 65, 36, 15, 7, 12, 0, 31, 8, 5, 13, 34, 9, 6,
  14, 10, 24, 58, 40, 41, 42, 43])) (.leaf [25, 72, 91, 21, 70, 74, 64, 29, 1, 20, 11, 65, 22, 15,
  7, 12, 0, 31, 23, 8, 5, 34, 9, 6, 10, 24, 58, 40, 41, 42, 43])) (.leaf [25, 72, 91, 21, 70, 48,
  74, 64, 29, 1, 35, 20, 11, 65, 36, 22, 15, 7, 12, 0, 31, 23, 8, 5, 13, 34, 9, 6, 14, 10, 24]))
  (.leaf [25, 72, 91, 21, 70, 48, 74, 64, 29, 1, 35, 20, 11, 65, 36, 22, 15, 7, 12, 0, 31, 23, 8,
  5, 13, 34, 9, 6, 14, 10, 24])) (.leaf [25, 72, 91, 21, 70, 48, 74, 64, 29, 1, 35, 20, 11, 65, 36,
  22, 15, 7, 12, 0, 31, 23, 8, 5, 13, 34, 9, 6, 14, 10, 24, 58, 40, 41, 42, 43])) (.leaf [25, 72,
  91, 21, 70, 74, 64, 29, 1, 20, 11, 65, 22, 15, 7, 12, 0, 31, 23, 8, 5, 34, 9, 6, 10, 24, 58, 40,
  41, 42, 43])) (.leaf [25, 72, 91, 21, 70, 48, 74, 64, 29, 1, 35, 20, 11, 65, 36, 22, 15, 7, 12,
  0, 31, 23, 8, 5, 13, 34, 9, 6, 14, 10, 24])) (.leaf [25, 72, 91, 21, 70, 48, 74, 64, 29, 1, 35,
  20, 11, 65, 36, 22, 15, 7, 12, 0, 31, 23, 8, 5, 13, 34, 9, 6, 14, 10, 24])) (.leaf [25, 72, 91,
  21, 70, 48, 74, 64, 29, 1, 35, 20, 11, 65, 36, 22, 15, 7, 12, 0, 31, 23, 8, 5, 13, 34, 9, 6, 14,
  10, 24])) (.leaf [25, 91, 21, 70, 48, 64, 29, 1, 35, 20, 11, 65, 36, 15, 7, 12, 0, 31, 8, 5, 13,
  34, 9, 6, 14, 10, 24, 58, 40, 41, 42, 43])) (.leaf [25, 72, 91, 21, 70, 74, 64, 29, 1, 20, 11,
  65, 22, 15, 7, 12, 0, 31, 23, 8, 5, 34, 9, 6, 10, 24, 58, 40, 41, 42, 43])) (.leaf [25, 72, 91,
  21, 70, 48, 74, 64, 29, 1, 35, 20, 11, 65, 36, 22, 15, 7, 12, 0, 31, 23, 8, 5, 13, 34, 9, 6, 14,
  10, 24])) (.leaf [25, 72, 91, 21, 70, 48, 74, 64, 29, 1, 35, 20, 11, 65, 36, 22, 15, 7, 12, 0,
  31, 23, 8, 5, 13, 34, 9, 6, 14, 10, 24, 58, 40, 41, 42, 43])) (.leaf [25, 72, 169, 21, 70, 48,
  74, 64, 29, 1, 35, 20, 11, 65, 36, 22, 15, 7, 12, 0, 31, 23, 8, 5, 13, 34, 9, 6, 14, 10, 24]))
  (.leaf [25, 91, 21, 70, 48, 64, 29, 1, 35, 20, 11, 65, 36, 15, 7, 12, 0, 31, 8, 5, 13, 34, 9, 6,
  14, 10, 24, 58, 40, 41, 42, 43])

/-- some of the cases -/
def real5OneCase90 : LooseTree :=
  .breaks 1089621 (.breaks 17920098 (.breaks 7421974 (.breaks 10502226 (.breaks 10526913 (.breaks
  20000897 (.breaks 24211537 (.breaks 4210881 (.breaks 10526737 (.breaks 20000945 (.breaks 21053473
  (.breaks 24170693 (.breaks 24211649 (.breaks 4210705 (.breaks 10526753 (.breaks 13684817 (.breaks
  13705410 (.breaks 20000929 (.breaks 21053441 (.breaks 24211473 (.breaks 4210721 (.breaks 10526721
  (.breaks 18948177 (.breaks 18972866 (.breaks 24211489 (.breaks 4210689 (.breaks 18948209 (.breaks
  24211457 (.breaks 25264209 (.leaf [25, 72, 21, 71, 74, 29, 3, 51, 20, 11, 4, 35, 22, 15, 7, 12,
  2, 0, 31, 36, 23, 8, 5, 1, 13, 34, 9, 6, 14, 10, 24]) (.leaf [25, 72, 21, 71, 74, 29, 3, 51, 20,
  11, 4, 35, 22, 15, 7, 12, 2, 0, 31, 36, 23, 8, 5, 1, 13, 34, 9, 6, 14, 10, 24])) (.leaf [25, 72,
  21, 71, 74, 29, 3, 51, 20, 11, 4, 35, 22, 15, 7, 12, 2, 0, 31, 36, 23, 8, 5, 1, 13, 34, 9, 6, 14,
  10, 24])) (.leaf [25, 72, 21, 71, 74, 29, 3, 51, 20, 11, 4, 35, 22, 15, 7, 12, 2, 0, 31, 36, 23,
  8, 5, 1, 13, 34, 9, 6, 14, 10, 24])) (.leaf [25, 72, 21, 71, 74, 29, 3, 51, 20, 11, 4, 35, 22,
  15, 7, 12, 2, 0, 31, 36, 23, 8, 5, 1, 13, 34, 9, 6, 14, 10, 24])) (.leaf [25, 72, 21, 71, 74, 29,
  3, 51, 20, 11, 4, 35, 22, 15, 7, 12, 2, 0, 31, 36, 23, 8, 5, 1, 13, 34, 9, 6, 14, 10, 24]))
  (.leaf [25, 72, 21, 71, 74, 29, 3, 51, 20, 11, 4, 35, 22, 15, 7, 12, 2, 0, 31, 36, 23, 8, 5, 1,
  13, 34, 9, 6, 14, 10, 24])) (.leaf [25, 72, 21, 71, 74, 29, 3, 51, 20, 11, 4, 35, 22, 15, 7, 12,
  2, 0, 31, 36, 23, 8, 5, 1, 13, 34, 9, 6, 14, 10, 24])) (.leaf [25, 72, 21, 71, 74, 29, 3, 51, 20,
  11, 4, 35, 22, 15, 7, 12, 2, 0, 31, 36, 23, 8, 5, 1, 13, 34, 9, 6, 14, 10, 24])) (.leaf [25, 72,
  21, 71, 74, 29, 3, 51, 20, 11, 4, 35, 22, 15, 7, 12, 2, 0, 31, 36, 23, 8, 5, 1, 13, 34, 9, 6, 14,
  10, 24])) (.leaf [25, 72, 21, 71, 74, 29, 3, 51, 20, 11, 4, 35, 22, 15, 7, 12, 2, 0, 31, 36, 23,
  8, 5, 1, 13, 34, 9, 6, 14, 10, 24])) (.leaf [25, 21, 71, 29, 3, 51, 20, 11, 4, 35, 15, 7, 12, 2,
  0, 31, 36, 8, 5, 1, 13, 34, 9, 6, 14, 10, 24, 58, 40, 41, 42, 43])) (.leaf [25, 72, 21, 71, 74,
  29, 3, 51, 20, 11, 4, 35, 22, 15, 7, 12, 2, 0, 31, 36, 23, 8, 5, 1, 13, 34, 9, 6, 14, 10, 24]))
  (.leaf [25, 72, 21, 71, 74, 29, 3, 51, 20, 11, 4, 35, 22, 15, 7, 12, 2, 0, 31, 36, 23, 8, 5, 1,
  13, 34, 9, 6, 14, 10, 24])) (.leaf [25, 72, 21, 71, 74, 29, 3, 51, 20, 11, 4, 35, 22, 15, 7, 12,
  2, 0, 31, 36, 23, 8, 5, 1, 13, 34, 9, 6, 14, 10, 24])) (.leaf [25, 72, 21, 71, 74, 29, 3, 51, 20,
  11, 4, 35, 22, 15, 7, 12, 2, 0, 31, 36, 23, 8, 5, 1, 13, 34, 9, 6, 14, 10, 24])) (.leaf [25, 72,
  21, 71, 74, 29, 3, 51, 20, 11, 4, 35, 22, 15, 7, 12, 2, 0, 31, 36, 23, 8, 5, 1, 13, 34, 9, 6, 14,
  10, 24])) (.leaf [25, 72, 21, 71, 74, 29, 3, 51, 20, 11, 4, 35, 22, 15, 7, 12, 2, 0, 31, 36, 23,
  8, 5, 1, 13, 34, 9, 6, 14, 10, 24])) (.leaf [25, 72, 21, 71, 74, 29, 3, 51, 20, 11, 4, 35, 22,
  15, 7, 12, 2, 0, 31, 36, 23, 8, 5, 1, 34, 9, 6, 10, 24, 58, 40, 41, 42, 43])) (.leaf [25, 21, 71,
  29, 3, 51, 20, 11, 4, 35, 15, 7, 12, 2, 0, 31, 36, 8, 5, 1, 13, 34, 9, 6, 14, 10, 24, 58, 40, 41,
  42, 43])) (.leaf [25, 72, 21, 71, 74, 29, 3, 51, 20, 11, 4, 35, 22, 15, 7, 12, 2, 0, 31, 36, 23,
  8, 5, 1, 13, 34, 9, 6, 14, 10, 24])) (.leaf [25, 72, 21, 71, 74, 29, 3, 51, 20, 11, 4, 35, 22,
  15, 7, 12, 2, 0, 31, 36, 23, 8, 5, 1, 13, 34, 9, 6, 14, 10, 24])) (.leaf [25, 72, 21, 71, 74, 29,
  3, 51, 20, 11, 4, 35, 22, 15, 7, 12, 2, 0, 31, 36, 23, 8, 5, 1, 13, 34, 9, 6, 14, 10, 24]))
  (.leaf [25, 72, 21, 71, 74, 29, 3, 51, 20, 11, 4, 35, 22, 15, 7, 12, 2, 0, 31, 36, 23, 8, 5, 1,
  13, 34, 9, 6, 14, 10, 24, 58, 40, 41, 42, 43])) (.leaf [25, 72, 21, 71, 74, 29, 3, 51, 20, 11, 4,
  35, 22, 15, 7, 12, 2, 0, 31, 36, 23, 8, 5, 1, 13, 34, 9, 6, 14, 10, 24])) (.leaf [25, 72, 21, 71,
  74, 29, 3, 51, 20, 11, 4, 35, 22, 15, 7, 12, 2, 0, 31, 36, 23, 8, 5, 1, 13, 34, 9, 6, 14, 10,
  24])) (.leaf [25, 72, 21, 71, 74, 29, 3, 51, 20, 11, 4, 35, 22, 15, 7, 12, 2, 0, 31, 36, 23, 8,
  5, 1, 13, 34, 9, 6, 14, 10, 24])) (.leaf [25, 21, 71, 29, 3, 51, 20, 11, 4, 35, 15, 7, 12, 2, 0,
  31, 36, 8, 5, 1, 13, 34, 9, 6, 14, 10, 24, 58, 40, 41, 42, 43])) (.leaf [25, 72, 21, 71, 74, 29,
  3, 51, 20, 11, 4, 35, 22, 15, 7, 12, 2, 0, 31, 36, 23, 8, 5, 1, 13, 34, 9, 6, 14, 10, 24, 58, 40,
  41, 42, 43])) (.leaf [25, 21, 71, 29, 3, 51, 20, 11, 4, 35, 15, 7, 12, 2, 0, 31, 36, 8, 5, 1, 13,
  34, 9, 6, 14, 10, 24, 58, 40, 41, 42, 43])

/-- some of the cases -/
def real5OneCase91 : LooseTree :=
  .breaks 17907794 (.breaks 21053633 (.breaks 21053457 (.breaks 21000214 (.leaf [47, 27, 28, 158])
  (.leaf [47, 27, 28, 60, 72])) (.leaf [47, 27, 28, 60, 72])) (.leaf [47, 27, 28, 60, 72])) (.leaf
  [47, 27, 28, 60, 72])

/-- some of the cases -/
def real5OneCase92 : LooseTree :=
  .breaks 1089621 (.breaks 17920098 (.breaks 21000211 (.breaks 9474065 (.breaks 10502226 (.breaks
  10526913 (.breaks 24211537 (.breaks 4210881 (.breaks 9474177 (.breaks 10526737 (.breaks 24170693
  (.breaks 24211649 (.breaks 4210705 (.breaks 9474193 (.breaks 10526753 (.breaks 13684817 (.breaks
  13705410 (.breaks 24211473 (.breaks 4210721 (.breaks 10526721 (.breaks 18948177 (.breaks 18972866
  (.breaks 24211489 (.breaks 4210689 (.breaks 18948209 (.breaks 24211457 (.breaks 25264209 (.leaf
  [25, 61, 21, 60, 62, 29, 3, 20, 11, 55, 4, 15, 7, 12, 56, 2, 0, 31, 8, 5, 1, 13, 34, 9, 6, 14,
  10, 24]) (.leaf [25, 61, 21, 60, 48, 62, 29, 3, 35, 20, 11, 55, 4, 36, 15, 7, 12, 56, 2, 0, 31,
  8, 5, 1, 13, 9, 6, 14, 10])) (.leaf [25, 61, 21, 60, 62, 29, 3, 20, 11, 55, 4, 15, 7, 12, 56, 2,
  0, 31, 8, 5, 1, 13, 34, 9, 6, 14, 10, 24])) (.leaf [25, 61, 21, 60, 48, 62, 29, 3, 35, 20, 11,
  55, 4, 36, 15, 7, 12, 56, 2, 0, 31, 8, 5, 1, 34, 9, 6, 10, 24])) (.leaf [25, 61, 21, 48, 62, 29,
  3, 35, 20, 11, 55, 4, 36, 15, 7, 12, 56, 2, 0, 31, 8, 5, 1, 13, 34, 9, 6, 14, 10, 24])) (.leaf
  [25, 61, 21, 60, 62, 29, 3, 20, 11, 55, 4, 15, 7, 12, 56, 2, 0, 31, 8, 5, 1, 13, 34, 9, 6, 14,
  10, 24])) (.leaf [25, 61, 21, 60, 48, 62, 29, 3, 35, 20, 11, 55, 4, 36, 15, 7, 12, 56, 2, 0, 31,
  8, 5, 1, 13, 9, 6, 14, 10])) (.leaf [25, 61, 21, 60, 48, 62, 29, 3, 35, 20, 11, 55, 4, 36, 15, 7,
  12, 56, 2, 0, 31, 8, 5, 1, 34, 9, 6, 10, 24])) (.leaf [25, 61, 21, 60, 62, 29, 3, 20, 11, 55, 4,
  15, 7, 12, 56, 2, 0, 31, 8, 5, 1, 13, 34, 9, 6, 14, 10, 24])) (.leaf [25, 61, 21, 48, 62, 29, 3,
  35, 20, 11, 55, 4, 36, 15, 7, 12, 56, 2, 0, 31, 8, 5, 1, 13, 34, 9, 6, 14, 10, 24])) (.leaf [25,
  61, 21, 60, 62, 29, 3, 20, 11, 55, 4, 15, 7, 12, 56, 2, 0, 31, 8, 5, 1, 13, 34, 9, 6, 14, 10,
  24])) (.leaf [25, 61, 21, 60, 48, 62, 29, 3, 35, 20, 11, 55, 4, 36, 15, 7, 12, 56, 2, 0, 31, 8,
  5, 1, 13, 9, 6, 14, 10])) (.leaf [25, 61, 21, 60, 62, 29, 3, 20, 11, 55, 4, 15, 7, 12, 56, 2, 0,
  31, 8, 5, 1, 13, 34, 9, 6, 14, 10, 24])) (.leaf [25, 61, 21, 60, 62, 29, 3, 20, 11, 55, 4, 15, 7,
  12, 56, 2, 0, 31, 8, 5, 1, 13, 34, 9, 6, 14, 10, 24])) (.leaf [25, 61, 21, 60, 62, 29, 3, 20, 11,
  55, 4, 15, 7, 12, 56, 2, 0, 31, 8, 5, 1, 13, 34, 9, 6, 14, 10, 24])) (.leaf [25, 61, 21, 48, 62,
  29, 3, 35, 20, 11, 55, 4, 36, 15, 7, 12, 56, 2, 0, 31, 8, 5, 1, 13, 34, 9, 6, 14, 10, 24]))
  (.leaf [25, 61, 21, 60, 62, 29, 3, 20, 11, 55, 4, 15, 7, 12, 56, 2, 0, 31, 8, 5, 1, 13, 34, 9, 6,
  14, 10, 24])) (.leaf [25, 61, 21, 60, 48, 62, 29, 3, 35, 20, 11, 55, 4, 36, 15, 7, 12, 56, 2, 0,
  31, 8, 5, 1, 13, 34, 9, 6, 14, 10, 24])) (.leaf [25, 61, 21, 60, 62, 29, 3, 20, 11, 55, 4, 15, 7,
  12, 56, 2, 0, 31, 8, 5, 1, 13, 34, 9, 6, 14, 10, 24])) (.leaf [25, 61, 21, 60, 62, 29, 3, 20, 11,
  55, 4, 15, 7, 12, 56, 2, 0, 31, 8, 5, 1, 13, 34, 9, 6, 14, 10, 24])) (.leaf [25, 61, 21, 48, 62,
  29, 3, 35, 20, 11, 55, 4, 36, 15, 7, 12, 56, 2, 0, 31, 8, 5, 1, 13, 34, 9, 6, 14, 10, 24]))
  (.leaf [25, 61, 21, 60, 48, 62, 29, 3, 35, 20, 11, 55, 4, 36, 15, 7, 12, 56, 2, 0, 31, 8, 5, 1,
  13, 34, 9, 6, 14, 10, 24])) (.leaf [25, 61, 21, 60, 62, 29, 3, 20, 11, 55, 4, 15, 7, 12, 56, 2,
  0, 31, 8, 5, 1, 13, 34, 9, 6, 14, 10, 24])) (.leaf [25, 61, 21, 48, 62, 29, 3, 35, 20, 11, 55, 4,
  36, 15, 7, 12, 56, 2, 0, 31, 8, 5, 1, 13, 34, 9, 6, 14, 10, 24])) (.leaf [25, 128, 21, 60, 55,
  29, 3, 20, 11, 56, 4, 15, 7, 12, 2, 0, 31, 8, 5, 1, 13, 34, 9, 6, 14, 10, 24])) (.leaf [25, 61,
  21, 60, 62, 29, 3, 20, 11, 55, 4, 15, 7, 12, 56, 2, 0, 31, 8, 5, 1, 13, 34, 9, 6, 14, 10, 24]))
  (.leaf [25, 61, 21, 60, 48, 62, 29, 3, 35, 20, 11, 55, 4, 36, 15, 7, 12, 56, 2, 0, 31, 8, 5, 1,
  13, 34, 9, 6, 14, 10, 24])) (.leaf [25, 61, 21, 60, 48, 62, 29, 3, 35, 20, 11, 55, 4, 36, 15, 7,
  12, 56, 2, 0, 31, 8, 5, 1, 13, 34, 9, 6, 14, 10, 24])

/-- some of the cases -/
def real5OneCase93 : LooseTree :=
  .cases [] 22 (.breaks 1089619 (.breaks 17920098 (.breaks 21000211 (.breaks 10526801 (.breaks
  24211537 (.breaks 10502226 (.breaks 10526913 (.breaks 24170693 (.breaks 24211649 (.breaks 4210881
  (.breaks 10526737 (.breaks 13684817 (.breaks 13705410 (.breaks 24211473 (.breaks 4210705 (.breaks
  10526753 (.breaks 18948177 (.breaks 24211489 (.breaks 4210721 (.breaks 10526721 (.breaks 18948209
  (.breaks 24211457 (.breaks 4210689 (.breaks 10530819 (.breaks 11579393 (.leaf [79, 21, 60, 46,
  20, 29, 3, 15, 7, 11, 4, 0, 31, 8, 12, 2, 13, 9, 5, 1, 14, 10, 6, 97, 96]) (.leaf [79, 21, 46,
  20, 29, 3, 15, 7, 11, 4, 0, 31, 8, 12, 2, 13, 34, 9, 5, 1, 14, 10, 24, 6, 97, 96])) (.leaf [79,
  21, 46, 20, 29, 3, 15, 7, 11, 4, 0, 31, 8, 12, 2, 13, 34, 9, 5, 1, 14, 10, 24, 6, 97, 96]))
  (.leaf [79, 21, 46, 20, 29, 3, 15, 7, 11, 4, 0, 31, 8, 12, 2, 13, 34, 9, 5, 1, 14, 10, 24, 6, 97,
  96])) (.leaf [79, 21, 60, 48, 46, 35, 20, 29, 3, 36, 15, 11, 4, 0, 31, 12, 2, 13, 34, 5, 1, 14,
  24, 6, 97, 96])) (.leaf [79, 21, 60, 48, 46, 35, 20, 29, 3, 36, 15, 7, 11, 4, 0, 8, 12, 2, 9, 5,
  1, 10, 6, 97, 96])) (.leaf [79, 21, 60, 46, 20, 29, 3, 15, 7, 11, 4, 0, 31, 8, 12, 2, 13, 34, 9,
  5, 1, 14, 10, 24, 6, 97, 96])) (.leaf [79, 21, 46, 20, 29, 3, 15, 7, 11, 4, 0, 31, 8, 12, 2, 13,
  34, 9, 5, 1, 14, 10, 24, 6, 97, 96])) (.leaf [79, 21, 60, 48, 46, 35, 20, 29, 3, 36, 15, 11, 4,
  0, 31, 12, 2, 13, 34, 5, 1, 14, 24, 6, 97, 96])) (.leaf [79, 21, 60, 48, 46, 35, 20, 29, 3, 36,
  15, 7, 11, 4, 0, 8, 12, 2, 9, 5, 1, 10, 6, 97, 96])) (.leaf [79, 21, 60, 46, 20, 29, 3, 15, 7,
  11, 4, 0, 31, 8, 12, 2, 13, 34, 9, 5, 1, 14, 10, 24, 6, 97, 96])) (.leaf [79, 21, 46, 20, 29, 3,
  15, 7, 11, 4, 0, 31, 8, 12, 2, 13, 34, 9, 5, 1, 14, 10, 24, 6, 97, 96])) (.leaf [79, 21, 60, 48,
  46, 35, 20, 29, 3, 36, 15, 11, 4, 0, 31, 12, 2, 13, 34, 5, 1, 14, 24, 6, 97, 96])) (.leaf [79,
  21, 60, 48, 46, 35, 20, 29, 3, 36, 15, 7, 11, 4, 0, 8, 12, 2, 9, 5, 1, 10, 6, 97, 96])) (.leaf
  [79, 21, 46, 20, 29, 3, 15, 7, 11, 4, 0, 31, 8, 12, 2, 13, 34, 9, 5, 1, 14, 10, 24, 6, 97, 96]))
  (.leaf [79, 21, 60, 46, 20, 29, 3, 15, 7, 11, 4, 0, 31, 8, 12, 2, 13, 34, 9, 5, 1, 14, 10, 24, 6,
  97, 96])) (.leaf [79, 21, 46, 20, 29, 3, 15, 7, 11, 4, 0, 31, 8, 12, 2, 13, 34, 9, 5, 1, 14, 10,
  24, 6, 97, 96])) (.leaf [79, 21, 60, 48, 46, 35, 20, 29, 3, 36, 15, 11, 4, 0, 31, 12, 2, 13, 34,
  5, 1, 14, 24, 6, 97, 96])) (.leaf [79, 21, 60, 48, 46, 35, 20, 29, 3, 36, 15, 7, 11, 4, 0, 31, 8,
  12, 2, 13, 9, 5, 1, 14, 10, 6, 97, 96])) (.leaf [79, 21, 60, 46, 20, 29, 3, 15, 7, 11, 4, 0, 31,
  8, 12, 2, 13, 34, 9, 5, 1, 14, 10, 24, 6, 97, 96])) (.leaf [79, 21, 46, 20, 29, 3, 15, 7, 11, 4,
  0, 31, 8, 12, 2, 13, 34, 9, 5, 1, 14, 10, 24, 6, 97, 96])) (.leaf [79, 21, 60, 48, 46, 35, 20,
  29, 3, 36, 15, 7, 11, 4, 0, 31, 8, 12, 2, 13, 9, 5, 1, 14, 10, 6, 97, 96])) (.leaf [79, 21, 48,
  46, 35, 20, 29, 3, 36, 15, 7, 11, 4, 0, 31, 8, 12, 2, 13, 34, 9, 5, 1, 14, 10, 24, 6, 97, 96]))
  (.leaf [79, 21, 46, 20, 29, 3, 15, 7, 11, 4, 0, 31, 8, 12, 2, 13, 34, 9, 5, 1, 14, 10, 24, 6, 97,
  96])) (.leaf [79, 21, 60, 48, 46, 35, 20, 29, 3, 36, 15, 7, 11, 4, 0, 31, 8, 12, 2, 13, 9, 5, 1,
  14, 10, 6, 97, 96])) (.leaf [79, 21, 48, 46, 35, 20, 29, 3, 36, 15, 7, 11, 4, 0, 31, 8, 12, 2,
  13, 34, 9, 5, 1, 14, 10, 24, 6, 97, 96])) (.cases [] 25 (.breaks 1089621 (.breaks 10489939
  (.cycle 33 [25, 130]) (.leaf [25, 21, 60, 84, 85, 29, 3, 48, 37, 20, 11, 4, 35, 15, 7, 12, 2, 0,
  31, 36, 8, 5, 1, 13, 34, 9, 6, 14, 10, 24, 58, 40, 41, 42, 43])) (.leaf [25, 21, 50, 60, 84, 85,
  29, 3, 16, 48, 37, 20, 11, 4, 17, 35, 15, 7, 12, 2, 0, 31, 18, 36, 8, 5, 1, 19, 13, 34, 9, 6, 14,
  10, 24, 58, 40, 41, 42, 43])) (.cases [] 39 (.cases [] 53 (.breaks 1089621 (.breaks 10489939
  (.cycle 33 [25, 130]) (.leaf [25, 21, 60, 48, 29, 3, 35, 20, 11, 4, 36, 15, 7, 12, 2, 0, 31, 8,
  5, 1, 13, 34, 9, 6, 14, 10, 24, 152, 106, 40, 41, 42, 43])) (.leaf [25, 21, 50, 60, 48, 29, 3,
  16, 35, 20, 11, 4, 17, 36, 15, 7, 12, 2, 0, 31, 18, 8, 5, 1, 19, 13, 34, 9, 6, 14, 10, 24, 152,
  106, 40, 41, 42, 43])) (.breaks 1089621 (.breaks 10489939 (.cycle 33 [25, 130]) (.cycle 32
  [112, 156])) (.cycle 32 [112, 156]))) (.breaks 1089621 (.breaks 10489939 (.cycle 33 [25, 130])
  (.cycle 43 [117, 58])) (.cycle 43 [117, 58]))))

/-- some of the cases -/
def real5OneCase94 : LooseTree :=
  .cases [] 22 (.breaks 1089619 (.breaks 17920098 (.breaks 19955730 (.breaks 21000211 (.breaks
  8421505 (.breaks 10526801 (.breaks 24211537 (.breaks 8421521 (.breaks 10502226 (.breaks 10526913
  (.breaks 24170693 (.breaks 4210881 (.breaks 10526737 (.breaks 13684817 (.breaks 4210705 (.breaks
  10526753 (.breaks 4210721 (.breaks 10526721 (.breaks 4210689 (.breaks 10530819 (.breaks 11579393
  (.leaf [79, 21, 70, 60, 64, 46, 20, 65, 29, 3, 15, 11, 4, 0, 12, 2, 5, 1, 6, 97, 96]) (.leaf [79,
  21, 70, 60, 64, 46, 20, 65, 29, 3, 15, 11, 4, 0, 31, 12, 2, 13, 5, 1, 14, 6, 97, 96])) (.leaf
  [79, 21, 70, 60, 64, 46, 20, 65, 29, 3, 15, 11, 4, 0, 31, 12, 2, 13, 5, 1, 14, 6, 97, 96]))
  (.leaf [79, 21, 70, 60, 64, 46, 20, 65, 29, 3, 15, 11, 4, 0, 31, 12, 2, 13, 5, 1, 14, 6, 97,
  96])) (.leaf [79, 21, 70, 60, 64, 46, 20, 65, 29, 3, 15, 11, 4, 0, 31, 12, 2, 13, 5, 1, 14, 6,
  97, 96])) (.leaf [79, 21, 70, 60, 64, 46, 20, 65, 29, 3, 15, 11, 4, 0, 31, 12, 2, 13, 5, 1, 14,
  6, 97, 96])) (.leaf [79, 21, 70, 60, 64, 46, 20, 65, 29, 3, 15, 11, 4, 0, 31, 12, 2, 13, 5, 1,
  14, 6, 97, 96])) (.leaf [79, 21, 70, 60, 64, 46, 20, 65, 29, 3, 15, 11, 4, 0, 31, 12, 2, 13, 5,
  1, 14, 6, 97, 96])) (.leaf [79, 21, 70, 64, 46, 20, 65, 29, 3, 15, 11, 4, 0, 31, 12, 2, 13, 5, 1,
  14, 6, 97, 96])) (.leaf [79, 21, 70, 60, 64, 46, 20, 65, 29, 3, 15, 11, 4, 0, 31, 12, 2, 13, 5,
  1, 14, 6, 97, 96])) (.leaf [79, 21, 70, 60, 64, 46, 20, 65, 29, 3, 15, 11, 4, 0, 31, 12, 2, 13,
  5, 1, 14, 6, 97, 96])) (.leaf [79, 21, 70, 64, 46, 20, 65, 29, 3, 15, 7, 11, 4, 0, 8, 12, 2, 9,
  5, 1, 10, 6, 97, 96])) (.leaf [79, 21, 70, 60, 64, 46, 20, 65, 29, 3, 15, 11, 4, 0, 31, 12, 2,
  13, 5, 1, 14, 6, 97, 96])) (.leaf [79, 21, 70, 60, 64, 46, 20, 65, 29, 3, 15, 11, 4, 0, 31, 12,
  2, 13, 5, 1, 14, 6, 97, 96])) (.leaf [79, 21, 70, 60, 64, 46, 20, 65, 29, 3, 15, 11, 4, 0, 31,
  12, 2, 13, 5, 1, 14, 6, 97, 96])) (.leaf [79, 21, 70, 48, 64, 46, 35, 20, 65, 29, 3, 36, 15, 11,
  4, 0, 12, 2, 5, 1, 6, 97, 96])) (.leaf [79, 21, 70, 64, 46, 20, 65, 29, 3, 15, 11, 4, 0, 31, 12,
  2, 13, 34, 5, 1, 14, 24, 6, 97, 96])) (.leaf [79, 21, 70, 60, 64, 46, 20, 65, 29, 3, 15, 11, 4,
  0, 31, 12, 2, 13, 5, 1, 14, 6, 97, 96])) (.leaf [79, 21, 70, 64, 46, 20, 65, 29, 3, 15, 11, 4, 0,
  31, 12, 2, 13, 5, 1, 14, 6, 97, 96])) (.leaf [79, 21, 70, 60, 64, 46, 20, 65, 29, 3, 15, 11, 4,
  0, 31, 12, 2, 13, 5, 1, 14, 6, 97, 96])) (.leaf [79, 21, 70, 48, 64, 46, 35, 20, 65, 29, 3, 36,
  15, 11, 4, 0, 12, 2, 5, 1, 6, 97, 96])) (.leaf [79, 21, 70, 64, 46, 20, 65, 29, 3, 15, 11, 4, 0,
  31, 12, 2, 13, 34, 5, 1, 14, 24, 6, 97, 96])) (.breaks 1089621 (.breaks 10489939 (.cycle 33
  [25, 130]) (.leaf [25, 21, 70, 60, 48, 64, 29, 3, 35, 20, 11, 65, 4, 36, 15, 7, 12, 2, 0, 31, 8,
  5, 1, 13, 34, 9, 6, 14, 10, 24, 58, 40, 41, 42, 43])) (.leaf [25, 21, 70, 50, 60, 48, 64, 29, 3,
  16, 35, 20, 11, 65, 4, 17, 36, 15, 7, 12, 2, 0, 31, 18, 8, 5, 1, 19, 13, 34, 9, 6, 14, 10, 24,
  58, 40, 41, 42, 43]))

/-- some of the cases -/
def real5OneCase95 : LooseTree :=
  .breaks 10530850 (.breaks 11579393 (.cycle 66 [150, 153, 96]) (.cycle 66 [150, 153, 96])) (.cycle
  66 [150, 153, 96])

/-- some of the cases -/
def real5OneCase96 : LooseTree :=
  .breaks 1089621 (.breaks 11575330 (.breaks 17920098 (.breaks 21000211 (.breaks 27353219 (.breaks
  27353218 (.breaks 10502226 (.breaks 10526721 (.breaks 23146629 (.breaks 23158801 (.breaks
  24211537 (.breaks 4210881 (.breaks 20000945 (.breaks 24170693 (.breaks 24211649 (.breaks 4210705
  (.breaks 13684817 (.breaks 13705410 (.breaks 20000929 (.breaks 24211473 (.breaks 4210721 (.breaks
  18972866 (.breaks 24211489 (.breaks 4210689 (.breaks 24211457 (.breaks 25264209 (.breaks 25268309
  (.breaks 26316993 (.breaks 26316817 (.breaks 26316833 (.breaks 26316801 (.leaf [25, 91, 21, 60,
  84, 85, 29, 1, 48, 37, 20, 11, 35, 15, 7, 12, 0, 31, 36, 8, 5, 34, 9, 6, 10, 24, 58, 40, 41, 42,
  43]) (.leaf [25, 91, 21, 84, 85, 29, 1, 48, 37, 20, 11, 35, 15, 7, 12, 0, 31, 36, 8, 5, 13, 34,
  9, 6, 14, 10, 24, 58, 40, 41, 42, 43])) (.leaf [25, 91, 21, 84, 85, 29, 1, 48, 37, 20, 11, 35,
  15, 7, 12, 0, 31, 36, 8, 5, 13, 34, 9, 6, 14, 10, 24, 58, 40, 41, 42, 43])) (.leaf [25, 91, 21,
  84, 85, 29, 1, 48, 37, 20, 11, 35, 15, 7, 12, 0, 31, 36, 8, 5, 13, 34, 9, 6, 14, 10, 24, 58, 40,
  41, 42, 43])) (.leaf [25, 91, 21, 84, 85, 29, 1, 48, 37, 20, 11, 35, 15, 7, 12, 0, 31, 36, 8, 5,
  13, 34, 9, 6, 14, 10, 24, 58, 40, 41, 42, 43])) (.leaf [25, 91, 21, 84, 85, 29, 1, 48, 37, 20,
  11, 35, 15, 7, 12, 0, 31, 36, 8, 5, 13, 34, 9, 6, 14, 10, 24, 58, 40, 41, 42, 43])) (.leaf [25,
  91, 21, 60, 84, 85, 29, 1, 48, 37, 20, 11, 35, 15, 7, 12, 0, 31, 36, 8, 5, 13, 34, 9, 6, 14, 10,
  58, 40, 41, 42, 43])) (.leaf [25, 91, 21, 84, 85, 29, 1, 48, 37, 20, 11, 35, 15, 7, 12, 0, 31,
  36, 8, 5, 13, 34, 9, 6, 14, 10, 24, 58, 40, 41, 42, 43])) (.leaf [25, 91, 21, 84, 85, 29, 1, 48,
  37, 20, 11, 35, 15, 7, 12, 0, 31, 36, 8, 5, 13, 34, 9, 6, 14, 10, 24, 58, 40, 41, 42, 43]))
  (.leaf [25, 91, 21, 84, 85, 29, 1, 48, 37, 20, 11, 35, 15, 7, 12, 0, 31, 36, 8, 5, 13, 34, 9, 6,
  14, 10, 24, 58, 40, 41, 42, 43])) (.leaf [25, 91, 21, 60, 84, 85, 29, 1, 48, 37, 20, 11, 35, 15,
  7, 12, 0, 31, 36, 8, 5, 13, 34, 9, 6, 14, 10, 24, 58, 40, 41, 42, 43])) (.leaf [25, 91, 21, 84,
  85, 29, 1, 48, 37, 20, 11, 35, 15, 7, 12, 0, 31, 36, 8, 5, 13, 34, 9, 6, 14, 10, 24, 58, 40, 41,
  42, 43])) (.leaf [25, 91, 21, 84, 85, 29, 1, 48, 37, 20, 11, 35, 15, 7, 12, 0, 31, 36, 8, 5, 13,
  34, 9, 6, 14, 10, 24, 58, 40, 41, 42, 43])) (.leaf [25, 91, 21, 84, 85, 29, 1, 48, 37, 20, 11,
  35, 15, 7, 12, 0, 31, 36, 8, 5, 13, 34, 9, 6, 14, 10, 24, 58, 40, 41, 42, 43])) (.leaf [25, 91,
  21, 60, 84, 85, 29, 1, 48, 37, 20, 11, 35, 15, 7, 12, 0, 31, 36, 8, 5, 13, 34, 9, 6, 14, 10, 24,
  58, 40, 41, 42, 43])) (.leaf [25, 91, 21, 84, 85, 29, 1, 48, 37, 20, 11, 35, 15, 7, 12, 0, 31,
  36, 8, 5, 13, 34, 9, 6, 14, 10, 24, 58, 40, 41, 42, 43])) (.leaf [25, 91, 21, 84, 85, 29, 1, 48,
  37, 20, 11, 35, 15, 7, 12, 0, 31, 36, 8, 5, 13, 34, 9, 6, 14, 10, 24, 58, 40, 41, 42, 43]))
  (.leaf [25, 91, 21, 84, 85, 29, 1, 48, 37, 20, 11, 35, 15, 7, 12, 0, 31, 36, 8, 5, 13, 34, 9, 6,
  14, 10, 24, 58, 40, 41, 42, 43])) (.leaf [25, 91, 21, 50, 60, 84, 85, 29, 1, 16, 48, 37, 20, 11,
  17, 35, 15, 7, 12, 0, 31, 18, 36, 8, 5, 19, 13, 34, 9, 6, 14, 10, 24, 58, 40, 41, 42, 43]))
  (.leaf [25, 91, 21, 84, 85, 29, 1, 48, 37, 20, 11, 35, 15, 7, 12, 0, 31, 36, 8, 5, 13, 34, 9, 6,
  14, 10, 24, 58, 40, 41, 42, 43])) (.leaf [25, 91, 21, 84, 85, 29, 1, 48, 37, 20, 11, 35, 15, 7,
  12, 0, 31, 36, 8, 5, 13, 34, 9, 6, 14, 10, 24, 58, 40, 41, 42, 43])) (.leaf [25, 91, 21, 50, 60,
  84, 85, 29, 1, 16, 48, 37, 20, 11, 17, 35, 15, 7, 12, 0, 31, 18, 36, 8, 5, 19, 13, 34, 9, 6, 14,
  10, 24, 58, 40, 41, 42, 43])) (.leaf [25, 91, 21, 84, 85, 29, 1, 48, 37, 20, 11, 35, 15, 7, 12,
  0, 31, 36, 8, 5, 13, 34, 9, 6, 14, 10, 24, 58, 40, 41, 42, 43])) (.leaf [25, 91, 21, 84, 85, 29,
  1, 48, 37, 20, 11, 35, 15, 7, 12, 0, 31, 36, 8, 5, 13, 34, 9, 6, 14, 10, 24, 58, 40, 41, 42,
  43])) (.leaf [25, 91, 21, 84, 85, 29, 1, 48, 37, 20, 11, 35, 15, 7, 12, 0, 31, 36, 8, 5, 13, 34,
  9, 6, 14, 10, 24, 58, 40, 41, 42, 43])) (.leaf [25, 91, 21, 84, 85, 29, 1, 48, 37, 20, 11, 35,
  15, 7, 12, 0, 31, 36, 8, 5, 13, 34, 9, 6, 14, 10, 24, 58, 40, 41, 42, 43])) (.leaf [25, 91, 21,
  84, 85, 29, 1, 48, 37, 20, 11, 35, 15, 7, 12, 0, 31, 36, 8, 5, 13, 34, 9, 6, 14, 10, 24, 58, 40,
  41, 42, 43])) (.leaf [25, 91, 21, 84, 85, 29, 1, 48, 37, 20, 11, 35, 15, 7, 12, 0, 31, 36, 8, 5,
  13, 34, 9, 6, 14, 10, 24, 58, 40, 41, 42, 43])) (.leaf [25, 91, 21, 84, 85, 29, 1, 48, 37, 20,
  11, 35, 15, 7, 12, 0, 31, 36, 8, 5, 13, 34, 9, 6, 14, 10, 24, 58, 40, 41, 42, 43])) (.leaf [25,
  91, 21, 50, 60, 84, 85, 29, 1, 16, 48, 37, 20, 11, 17, 35, 15, 7, 12, 0, 31, 18, 36, 8, 5, 19,
  13, 34, 9, 6, 14, 10, 24, 58, 40, 41, 42, 43])) (.leaf [25, 169, 21, 60, 84, 85, 29, 1, 48, 37,
  20, 11, 35, 15, 7, 12, 0, 31, 36, 8, 5, 34, 9, 6, 10, 24, 58, 40, 41, 42, 43])) (.leaf [25, 91,
  21, 84, 85, 29, 1, 48, 37, 20, 11, 35, 15, 7, 12, 0, 31, 36, 8, 5, 13, 34, 9, 6, 14, 10, 24, 58,
  40, 41, 42, 43])

/-- some of the cases -/
def real5OneCase97 : LooseTree :=
  .cases [] 22 (.breaks 1089619 (.breaks 17920098 (.breaks 21000211 (.breaks 10526801 (.breaks
  24211537 (.breaks 10502226 (.breaks 10526913 (.breaks 24170693 (.breaks 24211649 (.breaks 4210881
  (.breaks 10526737 (.breaks 13684817 (.breaks 13705410 (.breaks 24211473 (.breaks 4210705 (.breaks
  10526753 (.breaks 18948177 (.breaks 18972866 (.breaks 24211489 (.breaks 4210721 (.breaks 10526721
  (.breaks 18948209 (.breaks 24211457 (.breaks 25264209 (.breaks 25268309 (.breaks 4210689 (.breaks
  26316993 (.breaks 26316817 (.breaks 26316833 (.breaks 26316801 (.leaf [79, 21, 60, 46, 20, 29, 3,
  15, 7, 11, 4, 0, 31, 8, 12, 2, 13, 34, 9, 5, 1, 14, 10, 24, 58, 6, 40, 41, 42, 43]) (.leaf [79,
  21, 48, 46, 35, 20, 29, 3, 36, 15, 7, 11, 4, 0, 31, 8, 12, 2, 13, 34, 9, 5, 1, 14, 10, 24, 58, 6,
  40, 41, 42, 43])) (.leaf [79, 21, 48, 46, 35, 20, 29, 3, 36, 15, 7, 11, 4, 0, 31, 8, 12, 2, 13,
  34, 9, 5, 1, 14, 10, 24, 58, 6, 40, 41, 42, 43])) (.leaf [79, 21, 48, 46, 35, 20, 29, 3, 36, 15,
  7, 11, 4, 0, 31, 8, 12, 2, 13, 34, 9, 5, 1, 14, 10, 24, 58, 6, 40, 41, 42, 43])) (.leaf [79, 21,
  48, 46, 35, 20, 29, 3, 36, 15, 7, 11, 4, 0, 31, 8, 12, 2, 13, 34, 9, 5, 1, 14, 10, 24, 58, 6, 40,
  41, 42, 43])) (.leaf [79, 21, 48, 46, 35, 20, 29, 3, 36, 15, 7, 11, 4, 0, 31, 8, 12, 2, 13, 34,
  9, 5, 1, 14, 10, 24, 58, 6, 40, 41, 42, 43])) (.leaf [79, 21, 48, 46, 35, 20, 29, 3, 36, 15, 7,
  11, 4, 0, 31, 8, 12, 2, 13, 34, 9, 5, 1, 14, 10, 24, 58, 6, 40, 41, 42, 43])) (.leaf [79, 21, 60,
  48, 46, 35, 20, 29, 3, 36, 15, 7, 11, 4, 0, 31, 8, 12, 2, 13, 34, 9, 5, 1, 14, 10, 58, 6, 40, 41,
  42, 43])) (.leaf [79, 21, 48, 46, 35, 20, 29, 3, 36, 15, 7, 11, 4, 0, 31, 8, 12, 2, 13, 34, 9, 5,
  1, 14, 10, 24, 58, 6, 40, 41, 42, 43])) (.leaf [79, 21, 60, 48, 46, 35, 20, 29, 3, 36, 15, 7, 11,
  4, 0, 31, 8, 12, 2, 34, 9, 5, 1, 10, 24, 58, 6, 40, 41, 42, 43])) (.leaf [79, 21, 48, 46, 35, 20,
  29, 3, 36, 15, 7, 11, 4, 0, 31, 8, 12, 2, 13, 34, 9, 5, 1, 14, 10, 24, 58, 6, 40, 41, 42, 43]))
  (.leaf [79, 21, 48, 46, 35, 20, 29, 3, 36, 15, 7, 11, 4, 0, 31, 8, 12, 2, 13, 34, 9, 5, 1, 14,
  10, 24, 58, 6, 40, 41, 42, 43])) (.leaf [79, 21, 48, 46, 35, 20, 29, 3, 36, 15, 7, 11, 4, 0, 31,
  8, 12, 2, 13, 34, 9, 5, 1, 14, 10, 24, 58, 6, 40, 41, 42, 43])) (.leaf [79, 21, 60, 48, 46, 35,
  20, 29, 3, 36, 15, 7, 11, 4, 0, 31, 8, 12, 2, 13, 34, 9, 5, 1, 14, 10, 24, 58, 6, 40, 41, 42,
  43])) (.leaf [79, 21, 60, 48, 46, 35, 20, 29, 3, 36, 15, 7, 11, 4, 0, 31, 8, 12, 2, 34, 9, 5, 1,
  10, 24, 58, 6, 40, 41, 42, 43])) (.leaf [79, 91, 21, 48, 46, 1, 35, 20, 29, 36, 15, 7, 11, 0, 31,
  8, 12, 13, 34, 9, 5, 14, 10, 24, 58, 6, 40, 41, 42, 43])) (.leaf [79, 21, 48, 46, 35, 20, 29, 3,
  36, 15, 7, 11, 4, 0, 31, 8, 12, 2, 13, 34, 9, 5, 1, 14, 10, 24, 58, 6, 40, 41, 42, 43])) (.leaf
  [79, 21, 48, 46, 35, 20, 29, 3, 36, 15, 7, 11, 4, 0, 31, 8, 12, 2, 13, 34, 9, 5, 1, 14, 10, 24,
  58, 6, 40, 41, 42, 43])) (.leaf [79, 21, 60, 48, 46, 35, 20, 29, 3, 36, 15, 7, 11, 4, 0, 31, 8,
  12, 2, 13, 34, 9, 5, 1, 14, 10, 24, 58, 6, 40, 41, 42, 43])) (.leaf [79, 21, 48, 46, 35, 20, 29,
  3, 36, 15, 7, 11, 4, 0, 31, 8, 12, 2, 13, 34, 9, 5, 1, 14, 10, 24, 58, 6, 40, 41, 42, 43]))
  (.leaf [79, 91, 21, 48, 46, 1, 35, 20, 29, 36, 15, 7, 11, 0, 31, 8, 12, 13, 34, 9, 5, 14, 10, 24,
  58, 6, 40, 41, 42, 43])) (.leaf [79, 21, 48, 46, 35, 20, 29, 3, 36, 15, 7, 11, 4, 0, 31, 8, 12,
  2, 13, 34, 9, 5, 1, 14, 10, 24, 58, 6, 40, 41, 42, 43])) (.leaf [79, 21, 48, 46, 35, 20, 29, 3,
  36, 15, 7, 11, 4, 0, 31, 8, 12, 2, 13, 34, 9, 5, 1, 14, 10, 24, 58, 6, 40, 41, 42, 43])) (.leaf
  [79, 21, 50, 60, 48, 46, 16, 35, 20, 29, 3, 17, 36, 15, 7, 11, 4, 0, 31, 18, 8, 12, 2, 19, 13,
  34, 9, 5, 1, 14, 10, 24, 58, 6, 40, 41, 42, 43])) (.leaf [79, 91, 21, 48, 46, 1, 35, 20, 29, 36,
  15, 7, 11, 0, 31, 8, 12, 13, 34, 9, 5, 14, 10, 24, 58, 6, 40, 41, 42, 43])) (.leaf [79, 21, 48,
  46, 35, 20, 29, 3, 36, 15, 7, 11, 4, 0, 31, 8, 12, 2, 13, 34, 9, 5, 1, 14, 10, 24, 58, 6, 40, 41,
  42, 43])) (.leaf [79, 21, 50, 60, 48, 46, 16, 35, 20, 29, 3, 17, 36, 15, 7, 11, 4, 0, 31, 18, 8,
  12, 2, 19, 13, 34, 9, 5, 1, 14, 10, 24, 58, 6, 40, 41, 42, 43])) (.leaf [79, 91, 21, 60, 48, 46,
  1, 35, 20, 29, 36, 15, 7, 11, 0, 31, 8, 12, 13, 34, 9, 5, 14, 10, 24, 58, 6, 40, 41, 42, 43]))
  (.leaf [79, 21, 48, 46, 35, 20, 29, 3, 36, 15, 7, 11, 4, 0, 31, 8, 12, 2, 13, 34, 9, 5, 1, 14,
  10, 24, 58, 6, 40, 41, 42, 43])) (.leaf [79, 21, 50, 60, 48, 46, 16, 35, 20, 29, 3, 17, 36, 15,
  7, 11, 4, 0, 31, 18, 8, 12, 2, 19, 13, 34, 9, 5, 1, 14, 10, 24, 58, 6, 40, 41, 42, 43])) (.leaf
  [79, 91, 21, 60, 48, 46, 1, 35, 20, 29, 36, 15, 7, 11, 0, 31, 8, 12, 13, 34, 9, 5, 14, 10, 24,
  58, 6, 40, 41, 42, 43])) (.cases [] 39 (.breaks 1089621 (.breaks 10489939 (.cycle 33 [25, 130])
  (.leaf [25, 91, 21, 48, 29, 1, 35, 20, 11, 36, 15, 7, 12, 0, 31, 8, 5, 13, 34, 9, 6, 14, 10, 24,
  112, 106, 40, 41, 42, 43])) (.leaf [25, 91, 21, 60, 48, 29, 1, 35, 20, 11, 36, 15, 7, 12, 0, 31,
  8, 5, 13, 34, 9, 6, 14, 10, 24, 112, 106, 40, 41, 42, 43])) (.breaks 1089621 (.breaks 10489939
  (.cycle 33 [25, 130]) (.cycle 43 [117, 58])) (.cycle 43 [117, 58])))

/-- some of the cases -/
def real5OneCase98 : LooseTree :=
  .breaks 1089621 (.breaks 17920098 (.breaks 19955730 (.breaks 21000211 (.breaks 8421505 (.breaks
  10502226 (.breaks 10526721 (.breaks 24211537 (.breaks 4210881 (.breaks 8421521 (.breaks 24170693
  (.breaks 24211649 (.breaks 4210705 (.breaks 13684817 (.breaks 13705410 (.breaks 24211473 (.breaks
  4210721 (.breaks 18948177 (.breaks 18972866 (.breaks 24211489 (.breaks 4210689 (.breaks 18948209
  (.breaks 24211457 (.breaks 25264209 (.breaks 25268309 (.breaks 26316993 (.breaks 26316817
  (.breaks 26316833 (.breaks 26316801 (.leaf [25, 91, 21, 70, 60, 64, 29, 1, 20, 11, 65, 15, 7, 12,
  0, 31, 8, 5, 13, 34, 9, 6, 14, 10, 24, 58, 40, 41, 42, 43]) (.leaf [25, 91, 21, 70, 48, 64, 29,
  1, 35, 20, 11, 65, 36, 15, 7, 12, 0, 31, 8, 5, 13, 34, 9, 6, 14, 10, 24, 58, 40, 41, 42, 43]))
  (.leaf [25, 91, 21, 70, 48, 64, 29, 1, 35, 20, 11, 65, 36, 15, 7, 12, 0, 31, 8, 5, 13, 34, 9, 6,
  14, 10, 24, 58, 40, 41, 42, 43])) (.leaf [25, 91, 21, 70, 48, 64, 29, 1, 35, 20, 11, 65, 36, 15,
  7, 12, 0, 31, 8, 5, 13, 34, 9, 6, 14, 10, 24, 58, 40, 41, 42, 43])) (.leaf [25, 91, 21, 70, 48,
  64, 29, 1, 35, 20, 11, 65, 36, 15, 7, 12, 0, 31, 8, 5, 13, 34, 9, 6, 14, 10, 24, 58, 40, 41, 42,
  43])) (.leaf [25, 91, 21, 70, 48, 64, 29, 1, 35, 20, 11, 65, 36, 15, 7, 12, 0, 31, 8, 5, 13, 34,
  9, 6, 14, 10, 24, 58, 40, 41, 42, 43])) (.leaf [25, 91, 21, 70, 60, 64, 29, 1, 20, 11, 65, 15, 7,
  12, 0, 31, 8, 5, 13, 34, 9, 6, 14, 10, 24, 58, 40, 41, 42, 43])) (.leaf [25, 91, 21, 70, 60, 64,
  29, 1, 20, 11, 65, 15, 7, 12, 0, 31, 8, 5, 13, 34, 9, 6, 14, 10, 24, 58, 40, 41, 42, 43])) (.leaf
  [25, 91, 21, 70, 60, 48, 64, 29, 1, 35, 20, 11, 65, 36, 15, 7, 12, 0, 31, 8, 5, 34, 9, 6, 10, 24,
  58, 40, 41, 42, 43])) (.leaf [25, 91, 21, 70, 48, 64, 29, 1, 35, 20, 11, 65, 36, 15, 7, 12, 0,
  31, 8, 5, 13, 34, 9, 6, 14, 10, 24, 58, 40, 41, 42, 43])) (.leaf [25, 91, 21, 70, 60, 64, 29, 1,
  20, 11, 65, 15, 7, 12, 0, 31, 8, 5, 13, 34, 9, 6, 14, 10, 24, 58, 40, 41, 42, 43])) (.leaf [25,
  91, 21, 70, 60, 48, 64, 29, 1, 35, 20, 11, 65, 36, 15, 7, 12, 0, 31, 8, 5, 13, 34, 9, 6, 14, 10,
  24, 58, 40, 41, 42, 43])) (.leaf [25, 91, 21, 70, 60, 48, 64, 29, 1, 35, 20, 11, 65, 36, 15, 7,
  12, 0, 31, 8, 5, 34, 9, 6, 10, 24, 58, 40, 41, 42, 43])) (.leaf [25, 91, 21, 70, 48, 64, 29, 1,
  35, 20, 11, 65, 36, 15, 7, 12, 0, 31, 8, 5, 13, 34, 9, 6, 14, 10, 24, 58, 40, 41, 42, 43]))
  (.leaf [25, 91, 21, 70, 60, 64, 29, 1, 20, 11, 65, 15, 7, 12, 0, 31, 8, 5, 13, 34, 9, 6, 14, 10,
  24, 58, 40, 41, 42, 43])) (.leaf [25, 91, 21, 70, 60, 48, 64, 29, 1, 35, 20, 11, 65, 36, 15, 7,
  12, 0, 31, 8, 5, 13, 34, 9, 6, 14, 10, 24, 58, 40, 41, 42, 43])) (.leaf [25, 91, 21, 70, 60, 64,
  29, 1, 20, 11, 65, 15, 7, 12, 0, 31, 8, 5, 13, 34, 9, 6, 14, 10, 24, 58, 40, 41, 42, 43])) (.leaf
  [25, 91, 21, 70, 48, 64, 29, 1, 35, 20, 11, 65, 36, 15, 7, 12, 0, 31, 8, 5, 13, 34, 9, 6, 14, 10,
  24, 58, 40, 41, 42, 43])) (.leaf [25, 91, 21, 70, 60, 64, 29, 1, 20, 11, 65, 15, 7, 12, 0, 31, 8,
  5, 13, 34, 9, 6, 14, 10, 24, 58, 40, 41, 42, 43])) (.leaf [25, 91, 21, 70, 50, 60, 48, 64, 29, 1,
  16, 35, 20, 11, 65, 17, 36, 15, 7, 12, 0, 31, 18, 8, 5, 19, 13, 34, 9, 6, 14, 10, 24, 58, 40, 41,
  42, 43])) (.leaf [25, 91, 21, 70, 48, 64, 29, 1, 35, 20, 11, 65, 36, 15, 7, 12, 0, 31, 8, 5, 13,
  34, 9, 6, 14, 10, 24, 58, 40, 41, 42, 43])) (.leaf [25, 91, 21, 70, 48, 64, 29, 1, 35, 20, 11,
  65, 36, 15, 7, 12, 0, 31, 8, 5, 13, 34, 9, 6, 14, 10, 24, 58, 40, 41, 42, 43])) (.leaf [25, 91,
  21, 70, 50, 60, 48, 64, 29, 1, 16, 35, 20, 11, 65, 17, 36, 15, 7, 12, 0, 31, 18, 8, 5, 19, 13,
  34, 9, 6, 14, 10, 24, 58, 40, 41, 42, 43])) (.leaf [25, 91, 21, 70, 60, 64, 29, 1, 20, 11, 65,
  15, 7, 12, 0, 31, 8, 5, 13, 34, 9, 6, 14, 10, 24, 58, 40, 41, 42, 43])) (.leaf [25, 91, 21, 70,
  48, 64, 29, 1, 35, 20, 11, 65, 36, 15, 7, 12, 0, 31, 8, 5, 13, 34, 9, 6, 14, 10, 24, 58, 40, 41,
  42, 43])) (.leaf [25, 91, 21, 70, 48, 64, 29, 1, 35, 20, 11, 65, 36, 15, 7, 12, 0, 31, 8, 5, 13,
  34, 9, 6, 14, 10, 24, 58, 40, 41, 42, 43])) (.leaf [25, 91, 21, 70, 60, 64, 29, 1, 20, 11, 65,
  15, 7, 12, 0, 31, 8, 5, 13, 34, 9, 6, 14, 10, 24, 58, 40, 41, 42, 43])) (.leaf [25, 91, 21, 70,
  48, 64, 29, 1, 35, 20, 11, 65, 36, 15, 7, 12, 0, 31, 8, 5, 13, 34, 9, 6, 14, 10, 24, 58, 40, 41,
  42, 43])) (.leaf [25, 91, 21, 70, 50, 60, 48, 64, 29, 1, 16, 35, 20, 11, 65, 17, 36, 15, 7, 12,
  0, 31, 18, 8, 5, 19, 13, 34, 9, 6, 14, 10, 24, 58, 40, 41, 42, 43])) (.leaf [25, 91, 21, 70, 48,
  64, 29, 1, 35, 20, 11, 65, 36, 15, 7, 12, 0, 31, 8, 5, 13, 34, 9, 6, 14, 10, 24, 58, 40, 41, 42,
  43])

/-- some of the cases -/
def real5OneCase99 : LooseTree :=
  .breaks 1089621 (.breaks 17920098 (.breaks 21000211 (.breaks 22097938 (.breaks 10502226 (.breaks
  10526913 (.breaks 20000897 (.breaks 24211537 (.breaks 4210881 (.breaks 10526737 (.breaks 20000945
  (.breaks 24170693 (.breaks 24211649 (.breaks 4210705 (.breaks 10526753 (.breaks 13684817 (.breaks
  13705410 (.breaks 20000929 (.breaks 24211473 (.breaks 4210721 (.breaks 10526721 (.breaks 18948177
  (.breaks 18972866 (.breaks 24211489 (.breaks 4210689 (.breaks 18948209 (.breaks 24211457 (.breaks
  25264209 (.leaf [25, 21, 60, 71, 29, 3, 51, 20, 11, 4, 35, 15, 7, 12, 2, 0, 31, 36, 8, 5, 1, 13,
  34, 9, 6, 14, 10, 24]) (.leaf [25, 21, 60, 71, 29, 3, 51, 20, 11, 4, 35, 15, 7, 12, 2, 0, 31, 36,
  8, 5, 1, 34, 9, 6, 10, 24, 58, 40, 41, 42, 43])) (.leaf [25, 21, 60, 71, 29, 3, 51, 20, 11, 4,
  35, 15, 7, 12, 2, 0, 31, 36, 8, 5, 1, 34, 9, 6, 10, 24, 58, 40, 41, 42, 43])) (.leaf [25, 21, 60,
  71, 29, 3, 51, 20, 11, 4, 35, 15, 7, 12, 2, 0, 31, 36, 8, 5, 1, 34, 9, 6, 10, 24, 58, 40, 41, 42,
  43])) (.leaf [25, 21, 60, 71, 29, 3, 51, 20, 11, 4, 35, 15, 7, 12, 2, 0, 31, 36, 8, 5, 1, 34, 9,
  6, 10, 24, 58, 40, 41, 42, 43])) (.leaf [25, 21, 60, 71, 29, 3, 51, 20, 11, 4, 35, 15, 7, 12, 2,
  0, 31, 36, 8, 5, 1, 34, 9, 6, 10, 24, 58, 40, 41, 42, 43])) (.leaf [25, 21, 60, 71, 29, 3, 51,
  20, 11, 4, 35, 15, 7, 12, 2, 0, 31, 36, 8, 5, 1, 13, 34, 9, 6, 14, 10, 58, 40, 41, 42, 43]))
  (.leaf [25, 21, 60, 71, 29, 3, 51, 20, 11, 4, 35, 15, 7, 12, 2, 0, 31, 36, 8, 5, 1, 34, 9, 6, 10,
  24, 58, 40, 41, 42, 43])) (.leaf [25, 21, 60, 71, 29, 3, 51, 20, 11, 4, 35, 15, 7, 12, 2, 0, 31,
  36, 8, 5, 1, 34, 9, 6, 10, 24, 58, 40, 41, 42, 43])) (.leaf [25, 21, 60, 71, 29, 3, 51, 20, 11,
  4, 35, 15, 7, 12, 2, 0, 31, 36, 8, 5, 1, 34, 9, 6, 10, 24, 58, 40, 41, 42, 43])) (.leaf [25, 21,
  60, 71, 29, 3, 51, 20, 11, 4, 35, 15, 7, 12, 2, 0, 31, 36, 8, 5, 1, 34, 9, 6, 10, 24, 58, 40, 41,
  42, 43])) (.leaf [25, 21, 60, 71, 29, 3, 51, 20, 11, 4, 35, 15, 7, 12, 2, 0, 31, 36, 8, 5, 1, 34,
  9, 6, 10, 24, 58, 40, 41, 42, 43])) (.leaf [25, 21, 60, 71, 29, 3, 51, 20, 11, 4, 35, 15, 7, 12,
  2, 0, 31, 36, 8, 5, 1, 13, 34, 9, 6, 14, 10, 24, 58, 40, 41, 42, 43])) (.leaf [25, 21, 60, 71,
  29, 3, 51, 20, 11, 4, 35, 15, 7, 12, 2, 0, 31, 36, 8, 5, 1, 34, 9, 6, 10, 24, 58, 40, 41, 42,
  43])) (.leaf [25, 21, 60, 71, 29, 3, 51, 20, 11, 4, 35, 15, 7, 12, 2, 0, 31, 36, 8, 5, 1, 34, 9,
  6, 10, 24, 58, 40, 41, 42, 43])) (.leaf [25, 21, 60, 71, 29, 3, 51, 20, 11, 4, 35, 15, 7, 12, 2,
  0, 31, 36, 8, 5, 1, 34, 9, 6, 10, 24, 58, 40, 41, 42, 43])) (.leaf [25, 21, 60, 71, 29, 3, 51,
  20, 11, 4, 35, 15, 7, 12, 2, 0, 31, 36, 8, 5, 1, 34, 9, 6, 10, 24, 58, 40, 41, 42, 43])) (.leaf
  [25, 21, 60, 71, 29, 3, 51, 20, 11, 4, 35, 15, 7, 12, 2, 0, 31, 36, 8, 5, 1, 13, 34, 9, 6, 14,
  10, 24, 58, 40, 41, 42, 43])) (.leaf [25, 21, 60, 71, 29, 3, 51, 20, 11, 4, 35, 15, 7, 12, 2, 0,
  31, 36, 8, 5, 1, 34, 9, 6, 10, 24, 58, 40, 41, 42, 43])) (.leaf [25, 21, 60, 71, 29, 3, 51, 20,
  11, 4, 35, 15, 7, 12, 2, 0, 31, 36, 8, 5, 1, 34, 9, 6, 10, 24, 58, 40, 41, 42, 43])) (.leaf [25,
  21, 60, 71, 29, 3, 51, 20, 11, 4, 35, 15, 7, 12, 2, 0, 31, 36, 8, 5, 1, 34, 9, 6, 10, 24, 58, 40,
  41, 42, 43])) (.leaf [25, 21, 50, 60, 71, 29, 3, 16, 51, 20, 11, 4, 17, 35, 15, 7, 12, 2, 0, 31,
  18, 36, 8, 5, 1, 19, 13, 34, 9, 6, 14, 10, 24, 58, 40, 41, 42, 43])) (.leaf [25, 21, 60, 71, 29,
  3, 51, 20, 11, 4, 35, 15, 7, 12, 2, 0, 31, 36, 8, 5, 1, 34, 9, 6, 10, 24, 58, 40, 41, 42, 43]))
  (.leaf [25, 21, 60, 71, 29, 3, 51, 20, 11, 4, 35, 15, 7, 12, 2, 0, 31, 36, 8, 5, 1, 34, 9, 6, 10,
  24, 58, 40, 41, 42, 43])) (.leaf [25, 21, 60, 71, 29, 3, 51, 20, 11, 4, 35, 15, 7, 12, 2, 0, 31,
  36, 8, 5, 1, 34, 9, 6, 10, 24, 58, 40, 41, 42, 43])) (.leaf [25, 21, 60, 71, 29, 3, 51, 20, 11,
  4, 35, 15, 7, 12, 2, 0, 31, 36, 8, 5, 1, 34, 9, 6, 10, 24, 58, 40, 41, 42, 43])) (.leaf [25, 21,
  71, 29, 3, 51, 20, 11, 4, 35, 15, 7, 12, 2, 0, 31, 36, 8, 5, 1, 13, 34, 9, 6, 14, 10, 24, 58, 40,
  41, 42, 43])) (.leaf [25, 21, 50, 60, 71, 29, 3, 16, 51, 20, 11, 4, 17, 35, 15, 7, 12, 2, 0, 31,
  18, 36, 8, 5, 1, 19, 13, 34, 9, 6, 14, 10, 24, 58, 40, 41, 42, 43])) (.leaf [25, 21, 71, 29, 3,
  51, 20, 11, 4, 35, 15, 7, 12, 2, 0, 31, 36, 8, 5, 1, 13, 34, 9, 6, 14, 10, 24, 58, 40, 41, 42,
  43])

/-- some of the cases -/
def real5OneCase100 : LooseTree :=
  .breaks 17920098 (.breaks 17907794 (.breaks 26312901 (.breaks 10502226 (.breaks 10526913 (.breaks
  21053633 (.breaks 24211537 (.breaks 25264209 (.breaks 4210881 (.breaks 10526737 (.breaks 21053457
  (.breaks 24170693 (.breaks 24211649 (.breaks 4210705 (.breaks 10526753 (.breaks 13684817 (.breaks
  21053473 (.breaks 24211473 (.breaks 4210721 (.breaks 10526721 (.breaks 21053441 (.breaks 24211489
  (.breaks 4210689 (.breaks 24211457 (.leaf [25, 21, 47, 68, 29, 3, 27, 20, 24, 11, 4, 28, 15, 7,
  12, 2, 0, 22, 8, 5, 1, 23, 9, 6, 10]) (.leaf [25, 21, 47, 48, 68, 29, 3, 35, 27, 20, 24, 11, 4,
  36, 28, 15, 12, 2, 0, 22, 5, 1, 23, 6])) (.leaf [25, 21, 47, 68, 29, 3, 27, 20, 24, 11, 4, 28,
  15, 7, 12, 2, 0, 22, 8, 5, 1, 23, 9, 6, 10])) (.leaf [25, 21, 47, 48, 68, 29, 3, 35, 27, 20, 24,
  11, 4, 36, 28, 15, 12, 2, 0, 22, 5, 1, 23, 6])) (.leaf [25, 21, 47, 68, 29, 3, 27, 20, 24, 11, 4,
  28, 15, 7, 12, 2, 0, 22, 8, 5, 1, 23, 9, 6, 10])) (.leaf [25, 21, 47, 68, 29, 3, 27, 20, 24, 11,
  4, 28, 15, 7, 12, 2, 0, 22, 8, 5, 1, 23, 9, 6, 10])) (.leaf [25, 21, 47, 68, 29, 3, 27, 20, 24,
  11, 4, 28, 15, 7, 12, 2, 0, 22, 8, 5, 1, 23, 9, 6, 10])) (.leaf [25, 21, 47, 48, 68, 29, 3, 35,
  27, 20, 24, 11, 4, 36, 28, 15, 12, 2, 0, 22, 5, 1, 23, 6])) (.leaf [25, 21, 47, 68, 29, 3, 27,
  20, 24, 11, 4, 28, 15, 7, 12, 2, 0, 22, 8, 5, 1, 23, 9, 6, 10])) (.leaf [25, 21, 47, 68, 29, 3,
  27, 20, 24, 11, 4, 28, 15, 7, 12, 2, 0, 22, 8, 5, 1, 23, 9, 6, 10])) (.leaf [25, 21, 47, 68, 29,
  3, 27, 20, 24, 11, 4, 28, 15, 7, 12, 2, 0, 22, 8, 5, 1, 23, 9, 6, 10])) (.leaf [25, 21, 47, 68,
  29, 3, 27, 20, 24, 11, 4, 28, 15, 7, 12, 2, 0, 22, 8, 5, 1, 23, 9, 6, 10])) (.leaf [25, 21, 47,
  48, 68, 29, 3, 35, 27, 20, 24, 11, 4, 36, 28, 15, 12, 2, 0, 22, 5, 1, 23, 6])) (.leaf [25, 21,
  47, 68, 29, 3, 27, 20, 24, 11, 4, 28, 15, 7, 12, 2, 0, 22, 8, 5, 1, 23, 9, 6, 10])) (.leaf [25,
  21, 47, 68, 29, 3, 27, 20, 24, 11, 4, 28, 15, 7, 12, 2, 0, 22, 8, 5, 1, 23, 9, 6, 10])) (.leaf
  [25, 21, 47, 68, 29, 3, 27, 20, 24, 11, 4, 28, 15, 7, 12, 2, 0, 22, 8, 5, 1, 23, 9, 6, 10]))
  (.leaf [25, 21, 47, 68, 29, 3, 27, 20, 24, 11, 4, 28, 15, 7, 12, 2, 0, 22, 8, 5, 1, 23, 9, 6,
  10])) (.leaf [25, 21, 47, 68, 29, 3, 27, 20, 24, 11, 4, 28, 15, 7, 12, 2, 0, 22, 8, 5, 1, 23, 9,
  6, 10])) (.leaf [25, 21, 47, 48, 68, 29, 3, 35, 27, 20, 24, 11, 4, 36, 28, 15, 12, 2, 0, 22, 5,
  1, 23, 6])) (.leaf [25, 21, 47, 68, 29, 3, 27, 20, 24, 11, 4, 28, 15, 7, 12, 2, 0, 22, 8, 5, 1,
  23, 9, 6, 10])) (.leaf [25, 21, 47, 68, 29, 3, 27, 20, 24, 11, 4, 28, 15, 7, 12, 2, 0, 22, 8, 5,
  1, 23, 9, 6, 10])) (.leaf [25, 21, 47, 68, 29, 3, 27, 20, 24, 11, 4, 28, 15, 7, 12, 2, 0, 22, 8,
  5, 1, 23, 9, 6, 10])) (.leaf [25, 21, 47, 68, 29, 3, 27, 20, 24, 11, 4, 28, 15, 7, 12, 2, 0, 22,
  8, 5, 1, 23, 9, 6, 10])) (.leaf [25, 21, 47, 68, 29, 3, 27, 20, 24, 11, 4, 28, 15, 7, 12, 2, 0,
  22, 8, 5, 1, 23, 9, 6, 10])) (.leaf [25, 21, 47, 48, 68, 29, 3, 35, 27, 20, 24, 11, 4, 36, 28,
  15, 12, 2, 0, 22, 5, 1, 23, 6])

/-- some of the cases -/
def real5OneCase101 : LooseTree :=
  .breaks 17920098 (.breaks 26312901 (.breaks 9474065 (.breaks 10502226 (.breaks 10526913 (.breaks
  24211537 (.breaks 25264209 (.breaks 4210881 (.breaks 9474177 (.breaks 10526737 (.breaks 24170693
  (.breaks 4210705 (.breaks 9474193 (.breaks 10526753 (.breaks 13684817 (.breaks 4210721 (.breaks
  10526721 (.breaks 4210689 (.leaf [25, 61, 21, 68, 62, 29, 3, 20, 24, 11, 55, 4, 15, 12, 56, 2, 0,
  5, 1, 6]) (.leaf [25, 61, 21, 68, 62, 29, 3, 20, 24, 11, 55, 4, 15, 12, 56, 2, 0, 5, 1, 6]))
  (.leaf [25, 61, 21, 68, 62, 29, 3, 20, 24, 11, 55, 4, 15, 12, 56, 2, 0, 5, 1, 6])) (.leaf [25,
  61, 21, 68, 62, 29, 3, 20, 24, 11, 55, 4, 15, 12, 56, 2, 0, 5, 1, 6])) (.leaf [25, 61, 21, 68,
  62, 29, 3, 20, 24, 11, 55, 4, 15, 12, 56, 2, 0, 5, 1, 6])) (.leaf [25, 61, 21, 68, 62, 29, 3, 20,
  24, 11, 55, 4, 15, 12, 56, 2, 0, 5, 1, 6])) (.leaf [25, 61, 21, 68, 62, 29, 3, 20, 24, 11, 55, 4,
  15, 12, 56, 2, 0, 5, 1, 6])) (.leaf [25, 61, 21, 68, 62, 29, 3, 20, 24, 11, 55, 4, 15, 12, 56, 2,
  0, 5, 1, 6])) (.leaf [25, 61, 21, 68, 62, 29, 3, 20, 24, 11, 55, 4, 15, 12, 56, 2, 0, 5, 1, 6]))
  (.leaf [25, 61, 21, 68, 62, 29, 3, 20, 24, 11, 55, 4, 15, 12, 56, 2, 0, 5, 1, 6])) (.leaf [25,
  61, 21, 68, 62, 29, 3, 20, 24, 11, 55, 4, 15, 12, 56, 2, 0, 5, 1, 6])) (.leaf [25, 61, 21, 68,
  62, 29, 3, 20, 24, 11, 55, 4, 15, 12, 56, 2, 0, 5, 1, 6])) (.leaf [25, 61, 21, 68, 62, 29, 3, 20,
  24, 11, 55, 4, 15, 12, 56, 2, 0, 5, 1, 6])) (.leaf [25, 61, 21, 68, 62, 29, 3, 20, 24, 11, 55, 4,
  15, 12, 56, 2, 0, 5, 1, 6])) (.leaf [25, 61, 21, 68, 62, 29, 3, 20, 24, 11, 55, 4, 15, 12, 56, 2,
  0, 5, 1, 6])) (.leaf [25, 61, 21, 68, 62, 29, 3, 20, 24, 11, 55, 4, 15, 12, 56, 2, 0, 5, 1, 6]))
  (.leaf [25, 128, 21, 68, 55, 29, 3, 20, 24, 11, 56, 4, 15, 12, 2, 0, 5, 1, 6])) (.leaf [25, 61,
  21, 68, 62, 29, 3, 20, 24, 11, 55, 4, 15, 12, 56, 2, 0, 5, 1, 6])) (.leaf [25, 61, 21, 68, 62,
  29, 3, 20, 24, 11, 55, 4, 15, 12, 56, 2, 0, 5, 1, 6])

/-- some of the cases -/
def real5OneCase102 : LooseTree :=
  .cases [] 22 (.breaks 17920098 (.breaks 10526801 (.breaks 24211537 (.breaks 25264209 (.breaks
  10502226 (.breaks 10526913 (.breaks 24170693 (.breaks 24211649 (.breaks 4210881 (.breaks 10526737
  (.breaks 13684817 (.breaks 24211473 (.breaks 4210705 (.breaks 10526753 (.breaks 24211489 (.breaks
  4210721 (.breaks 10526721 (.breaks 24211457 (.breaks 4210689 (.leaf [79, 21, 68, 46, 20, 24, 29,
  3, 15, 7, 11, 4, 0, 8, 12, 2, 9, 5, 1, 10, 6]) (.leaf [79, 21, 68, 46, 20, 24, 29, 3, 15, 7, 11,
  4, 0, 8, 12, 2, 9, 5, 1, 10, 6])) (.leaf [79, 21, 48, 68, 46, 35, 20, 24, 29, 3, 36, 15, 11, 4,
  0, 12, 2, 5, 1, 6])) (.leaf [79, 21, 68, 46, 20, 24, 29, 3, 15, 7, 11, 4, 0, 8, 12, 2, 9, 5, 1,
  10, 6])) (.leaf [79, 21, 68, 46, 20, 24, 29, 3, 15, 7, 11, 4, 0, 8, 12, 2, 9, 5, 1, 10, 6]))
  (.leaf [79, 21, 48, 68, 46, 35, 20, 24, 29, 3, 36, 15, 11, 4, 0, 12, 2, 5, 1, 6])) (.leaf [79,
  21, 68, 46, 20, 24, 29, 3, 15, 7, 11, 4, 0, 8, 12, 2, 9, 5, 1, 10, 6])) (.leaf [79, 21, 68, 46,
  20, 24, 29, 3, 15, 7, 11, 4, 0, 8, 12, 2, 9, 5, 1, 10, 6])) (.leaf [79, 21, 48, 68, 46, 35, 20,
  24, 29, 3, 36, 15, 11, 4, 0, 12, 2, 5, 1, 6])) (.leaf [79, 21, 68, 46, 20, 24, 29, 3, 15, 7, 11,
  4, 0, 8, 12, 2, 9, 5, 1, 10, 6])) (.leaf [79, 21, 68, 46, 20, 24, 29, 3, 15, 7, 11, 4, 0, 8, 12,
  2, 9, 5, 1, 10, 6])) (.leaf [79, 21, 68, 46, 20, 24, 29, 3, 15, 7, 11, 4, 0, 8, 12, 2, 9, 5, 1,
  10, 6])) (.leaf [79, 21, 48, 68, 46, 35, 20, 24, 29, 3, 36, 15, 11, 4, 0, 12, 2, 5, 1, 6]))
  (.leaf [79, 21, 68, 46, 20, 24, 29, 3, 15, 7, 11, 4, 0, 8, 12, 2, 9, 5, 1, 10, 6])) (.leaf [79,
  21, 68, 46, 20, 24, 29, 3, 15, 7, 11, 4, 0, 8, 12, 2, 9, 5, 1, 10, 6])) (.leaf [79, 21, 68, 46,
  20, 24, 29, 3, 15, 7, 11, 4, 0, 8, 12, 2, 9, 5, 1, 10, 6])) (.leaf [79, 21, 68, 46, 20, 24, 29,
  3, 15, 7, 11, 4, 0, 8, 12, 2, 9, 5, 1, 10, 6])) (.leaf [79, 21, 48, 68, 46, 35, 20, 24, 29, 3,
  36, 15, 11, 4, 0, 12, 2, 5, 1, 6])) (.leaf [79, 21, 68, 46, 20, 24, 29, 3, 15, 7, 11, 4, 0, 8,
  12, 2, 9, 5, 1, 10, 6])) (.leaf [79, 21, 48, 68, 46, 35, 20, 24, 29, 3, 36, 15, 11, 4, 0, 12, 2,
  5, 1, 6])) (.cases [] 51 (.breaks 1089621 (.breaks 10489939 (.cycle 33 [25, 130]) (.leaf [25, 21,
  139, 68, 29, 3, 13, 20, 24, 11, 4, 14, 15, 7, 12, 2, 0, 8, 5, 1, 9, 6, 10])) (.leaf [25, 21, 48,
  139, 68, 29, 3, 13, 35, 20, 24, 11, 4, 14, 36, 15, 7, 12, 2, 0, 8, 5, 1, 9, 6, 10])) (.breaks
  1089621 (.breaks 10489939 (.cycle 33 [25, 130]) (.leaf [25, 21, 48, 29, 3, 35, 20, 11, 4, 36, 15,
  7, 12, 2, 0, 31, 8, 5, 1, 13, 9, 6, 14, 155, 10, 106, 68, 24])) (.leaf [25, 21, 48, 29, 3, 35,
  20, 11, 4, 36, 15, 7, 12, 2, 0, 31, 8, 5, 1, 13, 9, 6, 14, 155, 10, 106, 68, 40, 24, 41, 42,
  43])))

/-- some of the cases -/
def real5OneCase103 : LooseTree :=
  .breaks 17920098 (.breaks 22097938 (.breaks 26312901 (.breaks 10502226 (.breaks 10526913 (.breaks
  20000897 (.breaks 24211537 (.breaks 25264209 (.breaks 4210881 (.breaks 10526737 (.breaks 20000945
  (.breaks 24170693 (.breaks 4210705 (.breaks 10526753 (.breaks 13684817 (.breaks 20000929 (.breaks
  4210721 (.breaks 10526721 (.breaks 4210689 (.leaf [25, 21, 71, 68, 29, 3, 51, 20, 24, 11, 4, 35,
  15, 12, 2, 0, 36, 5, 1, 6]) (.leaf [25, 21, 71, 68, 29, 3, 51, 20, 24, 11, 4, 35, 15, 12, 2, 0,
  36, 5, 1, 6])) (.leaf [25, 21, 71, 68, 29, 3, 51, 20, 24, 11, 4, 35, 15, 12, 2, 0, 36, 5, 1, 6]))
  (.leaf [25, 21, 71, 68, 29, 3, 51, 20, 24, 11, 4, 35, 15, 12, 2, 0, 36, 5, 1, 6])) (.leaf [25,
  21, 71, 68, 29, 3, 51, 20, 24, 11, 4, 35, 15, 12, 2, 0, 36, 5, 1, 6])) (.leaf [25, 21, 71, 68,
  29, 3, 51, 20, 24, 11, 4, 35, 15, 12, 2, 0, 36, 5, 1, 6])) (.leaf [25, 21, 71, 68, 29, 3, 51, 20,
  24, 11, 4, 35, 15, 12, 2, 0, 36, 5, 1, 6])) (.leaf [25, 21, 71, 68, 29, 3, 51, 20, 24, 11, 4, 35,
  15, 12, 2, 0, 36, 5, 1, 6])) (.leaf [25, 21, 71, 68, 29, 3, 51, 20, 24, 11, 4, 35, 15, 12, 2, 0,
  36, 5, 1, 6])) (.leaf [25, 21, 71, 68, 29, 3, 51, 20, 24, 11, 4, 35, 15, 12, 2, 0, 36, 5, 1, 6]))
  (.leaf [25, 21, 71, 68, 29, 3, 51, 20, 24, 11, 4, 35, 15, 12, 2, 0, 36, 5, 1, 6])) (.leaf [25,
  21, 71, 68, 29, 3, 51, 20, 24, 11, 4, 35, 15, 12, 2, 0, 36, 5, 1, 6])) (.leaf [25, 21, 71, 68,
  29, 3, 51, 20, 24, 11, 4, 35, 15, 12, 2, 0, 36, 5, 1, 6])) (.leaf [25, 21, 71, 68, 29, 3, 51, 20,
  24, 11, 4, 35, 15, 12, 2, 0, 36, 5, 1, 6])) (.leaf [25, 21, 71, 68, 29, 3, 51, 20, 24, 11, 4, 35,
  15, 12, 2, 0, 36, 5, 1, 6])) (.leaf [25, 21, 71, 68, 29, 3, 51, 20, 24, 11, 4, 35, 15, 12, 2, 0,
  36, 5, 1, 6])) (.leaf [25, 21, 71, 68, 29, 3, 51, 20, 24, 11, 4, 35, 15, 12, 2, 0, 36, 5, 1, 6]))
  (.leaf [25, 21, 71, 68, 29, 3, 51, 20, 24, 11, 4, 35, 15, 12, 2, 0, 36, 5, 1, 6])) (.leaf [25,
  21, 71, 68, 29, 3, 51, 20, 24, 11, 4, 35, 15, 12, 2, 0, 36, 5, 1, 6])) (.leaf [25, 21, 71, 68,
  29, 3, 51, 20, 24, 11, 4, 35, 15, 12, 2, 0, 36, 5, 1, 6])

/-- some of the cases -/
def real5OneCase104 : LooseTree :=
  .cases [] 35 (.breaks 18948289 (.cycle 18 [146, 147, 148]) (.cycle 18 [146, 147, 148])) (.cases
  [] 36 (.cases [] 55 (.leaf [161, 162]) (.leaf [160])) (.breaks 18927635 (.breaks 18927810
  (.breaks 10502226 (.breaks 13664291 (.breaks 13684817 (.breaks 4210881 (.breaks 8421409 (.breaks
  4210705 (.breaks 8421393 (.breaks 4210721 (.breaks 8421505 (.breaks 4210689 (.breaks 8421521
  (.leaf [25, 101, 87, 29, 102, 0, 11, 103, 12, 104, 5, 64, 6, 65]) (.leaf
  [25, 101, 87, 29, 102, 0, 11, 103, 12, 104, 5, 64, 6, 65])) (.leaf
  [25, 101, 87, 29, 102, 0, 11, 103, 12, 104, 5, 64, 6, 65])) (.leaf
  [25, 101, 87, 29, 102, 0, 11, 103, 12, 104, 5, 64, 6, 65])) (.leaf
  [25, 101, 87, 29, 102, 0, 11, 103, 12, 104, 5, 64, 6, 65])) (.leaf
  [25, 101, 87, 29, 102, 0, 11, 103, 12, 104, 5, 64, 6, 65])) (.leaf
  [25, 101, 87, 29, 102, 0, 11, 103, 12, 104, 5, 64, 6, 65])) (.leaf
  [25, 101, 87, 29, 102, 0, 11, 103, 12, 104, 5, 64, 6, 65])) (.leaf
  [25, 101, 87, 29, 102, 0, 11, 103, 12, 104, 5, 64, 6, 65])) (.leaf
  [25, 101, 87, 29, 102, 0, 11, 103, 12, 104, 5, 64, 6, 65])) (.leaf
  [25, 101, 87, 29, 102, 0, 11, 103, 12, 104, 5, 64, 6, 65])) (.leaf
  [25, 101, 87, 29, 102, 0, 11, 103, 12, 104, 5, 64, 6, 65])) (.leaf
  [25, 101, 87, 29, 102, 0, 11, 103, 12, 104, 5, 64, 6, 65])) (.leaf
  [25, 101, 87, 29, 102, 0, 11, 103, 12, 104, 5, 64, 6, 65])))

/-- some of the cases -/
def real5OneCase105 : LooseTree :=
  .breaks 20013237 (.breaks 25239746 (.breaks 4235346 (.breaks 9474065 (.breaks 18948177 (.breaks
  23158913 (.breaks 24211537 (.breaks 9474177 (.breaks 10526913 (.breaks 18948209 (.breaks 23158801
  (.breaks 24170693 (.breaks 24211649 (.breaks 9474193 (.breaks 10526737 (.breaks 13684817 (.breaks
  24211473 (.breaks 10526753 (.breaks 24211489 (.breaks 10526721 (.breaks 24211457 (.leaf [26, 61,
  21, 44, 63, 38, 62, 13, 45, 20, 55, 3, 14, 37, 15, 7, 56, 4, 0, 8, 2, 9, 1, 10]) (.leaf [26, 61,
  21, 44, 63, 11, 38, 62, 13, 45, 20, 12, 55, 3, 14, 37, 15, 5, 56, 4, 0, 6, 2, 1])) (.leaf [26,
  61, 21, 44, 63, 38, 62, 13, 45, 20, 55, 3, 14, 37, 15, 7, 56, 4, 0, 8, 2, 9, 1, 10])) (.leaf [26,
  61, 21, 44, 63, 11, 38, 62, 13, 45, 20, 12, 55, 3, 14, 37, 15, 5, 56, 4, 0, 6, 2, 1])) (.leaf
  [26, 61, 21, 44, 63, 38, 62, 13, 45, 20, 55, 3, 14, 37, 15, 7, 56, 4, 0, 8, 2, 9, 1, 10])) (.leaf
  [26, 61, 21, 44, 63, 11, 38, 62, 13, 45, 20, 12, 55, 3, 14, 37, 15, 5, 56, 4, 0, 6, 2, 1]))
  (.leaf [26, 61, 21, 44, 63, 38, 62, 13, 45, 20, 55, 3, 14, 37, 15, 7, 56, 4, 0, 8, 2, 9, 1, 10]))
  (.leaf [26, 61, 21, 44, 63, 38, 62, 13, 45, 20, 55, 3, 14, 37, 15, 7, 56, 4, 0, 8, 2, 9, 1, 10]))
  (.leaf [26, 61, 21, 44, 63, 38, 62, 13, 45, 20, 55, 3, 14, 37, 15, 7, 56, 4, 0, 8, 2, 9, 1, 10]))
  (.leaf [26, 61, 21, 44, 63, 11, 38, 62, 13, 45, 20, 12, 55, 3, 14, 37, 15, 5, 56, 4, 0, 6, 2,
  1])) (.leaf [26, 61, 21, 44, 63, 38, 62, 13, 45, 20, 55, 3, 14, 37, 15, 7, 56, 4, 0, 8, 2, 9, 1,
  10])) (.leaf [26, 61, 21, 44, 63, 38, 62, 13, 45, 20, 55, 3, 14, 37, 15, 7, 56, 4, 0, 8, 2, 9, 1,
  10])) (.leaf [26, 61, 21, 44, 63, 38, 62, 13, 45, 20, 55, 3, 14, 37, 15, 7, 56, 4, 0, 8, 2, 9, 1,
  10])) (.leaf [26, 61, 21, 44, 63, 38, 62, 13, 45, 20, 55, 3, 14, 37, 15, 7, 56, 4, 0, 8, 2, 9, 1,
  10])) (.leaf [26, 61, 21, 44, 63, 38, 62, 13, 45, 20, 55, 3, 14, 37, 15, 7, 56, 4, 0, 8, 2, 9, 1,
  10])) (.leaf [26, 61, 21, 44, 63, 11, 38, 62, 13, 45, 20, 12, 55, 3, 14, 37, 15, 5, 56, 4, 0, 6,
  2, 1])) (.leaf [26, 61, 21, 44, 63, 38, 62, 13, 45, 20, 55, 3, 14, 37, 15, 7, 56, 4, 0, 8, 2, 9,
  1, 10])) (.leaf [26, 61, 21, 44, 63, 38, 62, 13, 45, 20, 55, 3, 14, 37, 15, 7, 56, 4, 0, 8, 2, 9,
  1, 10])) (.leaf [26, 128, 21, 44, 63, 38, 55, 13, 45, 20, 56, 3, 14, 37, 15, 7, 4, 0, 8, 2, 9, 1,
  10])) (.leaf [26, 61, 21, 44, 63, 38, 62, 13, 45, 20, 55, 3, 14, 37, 15, 7, 56, 4, 0, 8, 2, 9, 1,
  10])) (.leaf [26, 61, 21, 44, 63, 38, 62, 13, 45, 20, 55, 3, 14, 37, 15, 7, 56, 4, 0, 8, 2, 9, 1,
  10])) (.leaf [26, 61, 21, 44, 63, 38, 62, 13, 45, 20, 55, 3, 14, 37, 15, 7, 56, 4, 0, 8, 2, 9, 1,
  10])

/-- some of the cases -/
def real5OneCase106 : LooseTree :=
  .breaks 1065045 (.breaks 17920098 (.breaks 20013237 (.breaks 26288325 (.breaks 4235346 (.breaks
  18948177 (.breaks 23158913 (.breaks 24211537 (.breaks 10526913 (.breaks 18948209 (.breaks
  23158801 (.breaks 24170693 (.breaks 24211649 (.breaks 10526737 (.breaks 13684817 (.breaks
  24211473 (.breaks 10526753 (.breaks 24211489 (.breaks 10526721 (.breaks 24211457 (.leaf [26, 21,
  44, 80, 38, 13, 45, 20, 3, 14, 37, 15, 7, 4, 0, 8, 2, 9, 1, 10]) (.leaf [26, 21, 44, 80, 11, 38,
  13, 45, 20, 12, 3, 14, 37, 15, 7, 5, 4, 0, 8, 6, 2, 9, 1, 10])) (.leaf [26, 21, 44, 80, 11, 38,
  13, 45, 20, 12, 3, 14, 37, 15, 7, 5, 4, 0, 8, 6, 2, 9, 1, 10])) (.leaf [26, 21, 44, 80, 11, 38,
  13, 45, 20, 12, 3, 14, 37, 15, 7, 5, 4, 0, 8, 6, 2, 9, 1, 10])) (.leaf [26, 21, 44, 80, 11, 38,
  13, 45, 20, 12, 3, 14, 37, 15, 7, 5, 4, 0, 8, 6, 2, 9, 1, 10])) (.leaf [26, 21, 44, 80, 11, 38,
  13, 45, 20, 12, 3, 14, 37, 15, 7, 5, 4, 0, 8, 6, 2, 9, 1, 10])) (.leaf [26, 21, 44, 80, 11, 38,
  13, 45, 20, 12, 3, 14, 37, 15, 7, 5, 4, 0, 8, 6, 2, 9, 1, 10])) (.leaf [26, 21, 44, 80, 11, 38,
  13, 45, 20, 12, 3, 14, 37, 15, 7, 5, 4, 0, 8, 6, 2, 9, 1, 10])) (.leaf [26, 21, 44, 80, 11, 38,
  13, 45, 20, 12, 3, 14, 37, 15, 7, 5, 4, 0, 8, 6, 2, 9, 1, 10])) (.leaf [26, 21, 44, 80, 11, 38,
  13, 45, 20, 12, 3, 14, 37, 15, 7, 5, 4, 0, 8, 6, 2, 9, 1, 10])) (.leaf [26, 21, 44, 80, 11, 38,
  13, 45, 20, 12, 3, 14, 37, 15, 7, 5, 4, 0, 8, 6, 2, 9, 1, 10])) (.leaf [26, 21, 44, 80, 11, 38,
  13, 45, 20, 12, 3, 14, 37, 15, 7, 5, 4, 0, 8, 6, 2, 9, 1, 10])) (.leaf [26, 21, 44, 80, 11, 38,
  13, 45, 20, 12, 3, 14, 37, 15, 7, 5, 4, 0, 8, 6, 2, 9, 1, 10])) (.leaf [26, 21, 44, 80, 11, 38,
  13, 45, 20, 12, 3, 14, 37, 15, 7, 5, 4, 0, 8, 6, 2, 9, 1, 10])) (.leaf [26, 21, 44, 80, 11, 38,
  13, 45, 20, 12, 3, 14, 37, 15, 7, 5, 4, 0, 8, 6, 2, 9, 1, 10])) (.leaf [26, 21, 44, 80, 11, 38,
  13, 45, 20, 12, 3, 14, 37, 15, 7, 5, 4, 0, 8, 6, 2, 9, 1, 10])) (.leaf [26, 21, 44, 80, 11, 38,
  13, 45, 20, 12, 3, 14, 37, 15, 7, 5, 4, 0, 8, 6, 2, 9, 1, 10])) (.leaf [26, 21, 44, 80, 11, 38,
  13, 45, 20, 12, 3, 14, 37, 15, 7, 5, 4, 0, 8, 6, 2, 9, 1, 10])) (.leaf [26, 21, 44, 80, 11, 38,
  13, 45, 20, 12, 3, 14, 37, 15, 7, 5, 4, 0, 8, 6, 2, 9, 1, 10])) (.leaf [26, 21, 44, 80, 11, 38,
  13, 45, 20, 12, 3, 14, 37, 15, 7, 5, 4, 0, 8, 6, 2, 9, 1, 10])) (.leaf [26, 21, 44, 80, 11, 38,
  13, 45, 20, 12, 3, 14, 37, 15, 7, 5, 4, 0, 8, 6, 2, 9, 1, 10])

/-- some of the cases -/
def real5OneCase107 : LooseTree :=
  .breaks 1065045 (.breaks 17920098 (.breaks 17907794 (.breaks 20013237 (.breaks 25239746 (.breaks
  4235346 (.breaks 18948177 (.breaks 18976853 (.breaks 21053633 (.breaks 23158913 (.breaks 24211537
  (.breaks 10526913 (.breaks 18948209 (.breaks 21053457 (.breaks 23158801 (.breaks 24170693
  (.breaks 26316993 (.breaks 10526737 (.breaks 13684817 (.breaks 21053473 (.breaks 26316817
  (.breaks 10526753 (.breaks 21053441 (.breaks 26316833 (.breaks 10526721 (.breaks 26316801 (.leaf
  [26, 21, 47, 44, 63, 38, 13, 67, 27, 45, 20, 3, 14, 28, 37, 15, 40, 4, 0, 22, 41, 2, 23, 42, 1,
  43]) (.leaf [26, 21, 47, 44, 63, 38, 13, 67, 27, 45, 20, 3, 14, 28, 37, 15, 7, 40, 4, 0, 22, 8,
  41, 2, 23, 9, 42, 1, 10, 43])) (.leaf [26, 21, 47, 44, 63, 38, 13, 67, 27, 45, 20, 3, 14, 28, 37,
  15, 7, 40, 4, 0, 22, 8, 41, 2, 23, 9, 42, 1, 10, 43])) (.leaf [26, 21, 47, 44, 63, 38, 13, 67,
  27, 45, 20, 3, 14, 28, 37, 15, 7, 40, 4, 0, 22, 8, 41, 2, 23, 9, 42, 1, 10, 43])) (.leaf [26, 21,
  47, 44, 63, 38, 13, 67, 27, 45, 20, 3, 14, 28, 37, 15, 7, 40, 4, 0, 22, 8, 41, 2, 23, 9, 42, 1,
  10, 43])) (.leaf [26, 21, 47, 44, 63, 38, 13, 67, 27, 45, 20, 3, 14, 28, 37, 15, 7, 40, 4, 0, 22,
  8, 41, 2, 23, 9, 42, 1, 10, 43])) (.leaf [26, 21, 47, 44, 63, 38, 13, 67, 27, 45, 20, 3, 14, 28,
  37, 15, 7, 40, 4, 0, 22, 8, 41, 2, 23, 9, 42, 1, 10, 43])) (.leaf [26, 21, 47, 44, 63, 38, 13,
  67, 27, 45, 20, 3, 14, 28, 37, 15, 7, 40, 4, 0, 22, 8, 41, 2, 23, 9, 42, 1, 10, 43])) (.leaf [26,
  21, 47, 44, 63, 38, 13, 67, 27, 45, 20, 3, 14, 28, 37, 15, 7, 40, 4, 0, 22, 8, 41, 2, 23, 9, 42,
  1, 10, 43])) (.leaf [26, 21, 47, 44, 63, 38, 13, 67, 27, 45, 20, 3, 14, 28, 37, 15, 7, 40, 4, 0,
  22, 8, 41, 2, 23, 9, 42, 1, 10, 43])) (.leaf [26, 21, 47, 44, 63, 38, 13, 67, 27, 45, 20, 3, 14,
  28, 37, 15, 7, 40, 4, 0, 22, 8, 41, 2, 23, 9, 42, 1, 10, 43])) (.leaf [26, 21, 47, 44, 63, 38,
  13, 67, 27, 45, 20, 3, 14, 28, 37, 15, 7, 40, 4, 0, 22, 8, 41, 2, 23, 9, 42, 1, 10, 43])) (.leaf
  [26, 21, 47, 44, 63, 38, 13, 67, 27, 45, 20, 3, 14, 28, 37, 15, 7, 40, 4, 0, 22, 8, 41, 2, 23, 9,
  42, 1, 10, 43])) (.leaf [26, 21, 47, 44, 63, 38, 13, 67, 27, 45, 20, 3, 14, 28, 37, 15, 7, 40, 4,
  0, 22, 8, 41, 2, 23, 9, 42, 1, 10, 43])) (.leaf [26, 21, 47, 44, 63, 38, 13, 67, 27, 45, 20, 3,
  14, 28, 37, 15, 7, 40, 4, 0, 22, 8, 41, 2, 23, 9, 42, 1, 10, 43])) (.leaf [26, 21, 47, 44, 63,
  38, 13, 67, 27, 45, 20, 3, 14, 28, 37, 15, 7, 40, 4, 0, 22, 8, 41, 2, 23, 9, 42, 1, 10, 43]))
  (.leaf [26, 21, 47, 44, 63, 11, 38, 13, 67, 27, 45, 20, 12, 3, 14, 28, 37, 15, 40, 5, 4, 0, 22,
  41, 6, 2, 23, 42, 1, 43])) (.leaf [26, 21, 47, 44, 63, 38, 13, 67, 27, 45, 20, 3, 14, 28, 37, 15,
  7, 40, 4, 0, 22, 8, 41, 2, 23, 9, 42, 1, 10, 43])) (.leaf [26, 21, 47, 44, 63, 38, 13, 67, 27,
  45, 20, 3, 14, 28, 37, 15, 7, 40, 4, 0, 22, 8, 41, 2, 23, 9, 42, 1, 10, 43])) (.leaf [26, 21, 47,
  44, 63, 38, 13, 67, 27, 45, 20, 3, 14, 28, 37, 15, 7, 40, 4, 0, 22, 8, 41, 2, 23, 9, 42, 1, 10,
  43])) (.leaf [26, 21, 47, 44, 63, 38, 13, 67, 27, 45, 20, 3, 14, 28, 37, 15, 7, 40, 4, 0, 22, 8,
  41, 2, 23, 9, 42, 1, 10, 43])) (.leaf [26, 21, 47, 44, 63, 38, 13, 67, 27, 45, 20, 3, 14, 28, 37,
  15, 7, 40, 4, 0, 22, 8, 41, 2, 23, 9, 42, 1, 10, 43])) (.leaf [26, 21, 47, 44, 63, 38, 13, 67,
  27, 45, 20, 3, 14, 28, 37, 15, 7, 40, 4, 0, 22, 8, 41, 2, 23, 9, 42, 1, 10, 43])) (.leaf [26, 21,
  47, 44, 63, 38, 13, 67, 27, 45, 20, 3, 14, 28, 37, 15, 7, 40, 4, 0, 22, 8, 41, 2, 23, 9, 42, 1,
  10, 43])) (.leaf [26, 21, 47, 44, 63, 38, 13, 67, 27, 45, 20, 3, 14, 28, 37, 15, 7, 40, 4, 0, 22,
  8, 41, 2, 23, 9, 42, 1, 10, 43])) (.leaf [26, 21, 47, 44, 63, 11, 38, 13, 67, 27, 45, 20, 12, 3,
  14, 28, 37, 15, 40, 5, 4, 0, 22, 41, 6, 2, 23, 42, 1, 43])) (.leaf [26, 21, 47, 44, 63, 38, 13,
  67, 27, 45, 20, 3, 14, 28, 37, 15, 7, 40, 4, 0, 22, 8, 41, 2, 23, 9, 42, 1, 10, 43])

/-- some of the cases -/
def real5OneCase108 : LooseTree :=
  .breaks 1065045 (.breaks 17920098 (.breaks 25239746 (.breaks 4210881 (.breaks 4235346 (.breaks
  18948177 (.breaks 18976853 (.breaks 23158913 (.breaks 24211537 (.breaks 4210705 (.breaks 10526913
  (.breaks 18948209 (.breaks 23158801 (.breaks 24170693 (.breaks 24211649 (.breaks 26316993
  (.breaks 4210721 (.breaks 10526737 (.breaks 13684817 (.breaks 24211473 (.breaks 26316817 (.breaks
  4210689 (.breaks 10526753 (.breaks 24211489 (.breaks 26316833 (.breaks 10526721 (.breaks 24211457
  (.breaks 26316801 (.leaf [26, 21, 44, 63, 11, 38, 13, 67, 45, 20, 12, 3, 14, 37, 15, 7, 40, 5, 4,
  0, 8, 41, 6, 2, 9, 42, 1, 10, 43]) (.leaf [26, 21, 44, 50, 63, 11, 38, 16, 13, 67, 45, 20, 12, 3,
  17, 14, 37, 15, 7, 40, 5, 4, 0, 18, 8, 41, 6, 2, 19, 9, 42, 1, 10, 43])) (.leaf [26, 21, 44, 63,
  11, 38, 13, 67, 45, 20, 12, 3, 14, 37, 15, 7, 40, 5, 4, 0, 8, 41, 6, 2, 9, 42, 1, 10, 43]))
  (.leaf [26, 21, 44, 63, 11, 38, 13, 67, 45, 20, 12, 3, 14, 37, 15, 7, 40, 5, 4, 0, 8, 41, 6, 2,
  9, 42, 1, 10, 43])) (.leaf [26, 21, 44, 50, 63, 11, 38, 16, 13, 67, 45, 20, 12, 3, 17, 14, 37,
  15, 7, 40, 5, 4, 0, 18, 8, 41, 6, 2, 19, 9, 42, 1, 10, 43])) (.leaf [26, 21, 44, 63, 11, 38, 13,
  67, 45, 20, 12, 3, 14, 37, 15, 7, 40, 5, 4, 0, 8, 41, 6, 2, 9, 42, 1, 10, 43])) (.leaf [26, 21,
  44, 63, 11, 38, 13, 67, 45, 20, 12, 3, 14, 37, 15, 7, 40, 5, 4, 0, 8, 41, 6, 2, 9, 42, 1, 10,
  43])) (.leaf [26, 21, 44, 50, 63, 11, 38, 16, 13, 67, 45, 20, 12, 3, 17, 14, 37, 15, 7, 40, 5, 4,
  0, 18, 8, 41, 6, 2, 19, 9, 42, 1, 10, 43])) (.leaf [26, 21, 44, 50, 63, 11, 38, 16, 13, 67, 45,
  20, 12, 3, 17, 14, 37, 15, 7, 40, 5, 4, 0, 18, 8, 41, 6, 2, 19, 9, 42, 1, 10, 43])) (.leaf [26,
  21, 44, 63, 11, 38, 13, 67, 45, 20, 12, 3, 14, 37, 15, 7, 40, 5, 4, 0, 8, 41, 6, 2, 9, 42, 1, 10,
  43])) (.leaf [26, 21, 44, 63, 11, 38, 13, 67, 45, 20, 12, 3, 14, 37, 15, 7, 40, 5, 4, 0, 8, 41,
  6, 2, 9, 42, 1, 10, 43])) (.leaf [26, 21, 44, 63, 11, 38, 13, 67, 45, 20, 12, 3, 14, 37, 15, 7,
  40, 5, 4, 0, 8, 41, 6, 2, 9, 42, 1, 10, 43])) (.leaf [26, 21, 44, 50, 63, 11, 38, 16, 13, 67, 45,
  20, 12, 3, 17, 14, 37, 15, 7, 40, 5, 4, 0, 18, 8, 41, 6, 2, 19, 9, 42, 1, 10, 43])) (.leaf [26,
  21, 44, 50, 63, 11, 38, 16, 13, 67, 45, 20, 12, 3, 17, 14, 37, 15, 7, 40, 5, 4, 0, 18, 8, 41, 6,
  2, 19, 9, 42, 1, 10, 43])) (.leaf [26, 21, 44, 63, 11, 38, 13, 67, 45, 20, 12, 3, 14, 37, 15, 7,
  40, 5, 4, 0, 8, 41, 6, 2, 9, 42, 1, 10, 43])) (.leaf [26, 21, 44, 63, 11, 38, 13, 67, 45, 20, 12,
  3, 14, 37, 15, 7, 40, 5, 4, 0, 8, 41, 6, 2, 9, 42, 1, 10, 43])) (.leaf [26, 21, 44, 63, 11, 38,
  13, 67, 45, 20, 12, 3, 14, 37, 15, 7, 40, 5, 4, 0, 8, 41, 6, 2, 9, 42, 1, 10, 43])) (.leaf [26,
  21, 44, 63, 11, 38, 13, 67, 45, 20, 12, 3, 14, 37, 15, 7, 40, 5, 4, 0, 8, 41, 6, 2, 9, 42, 1, 10,
  43])) (.leaf [26, 21, 44, 63, 11, 38, 13, 67, 45, 20, 12, 3, 14, 37, 15, 7, 40, 5, 4, 0, 8, 41,
  6, 2, 9, 42, 1, 10, 43])) (.leaf [26, 21, 44, 50, 63, 11, 38, 16, 13, 67, 45, 20, 12, 3, 17, 14,
  37, 15, 7, 40, 5, 4, 0, 18, 8, 41, 6, 2, 19, 9, 42, 1, 10, 43])) (.leaf [26, 21, 44, 50, 63, 11,
  38, 16, 13, 67, 45, 20, 12, 3, 17, 14, 37, 15, 7, 40, 5, 4, 0, 18, 8, 41, 6, 2, 19, 9, 42, 1, 10,
  43])) (.leaf [26, 21, 44, 63, 11, 38, 13, 67, 45, 20, 12, 3, 14, 37, 15, 7, 40, 5, 4, 0, 8, 41,
  6, 2, 9, 42, 1, 10, 43])) (.leaf [26, 21, 44, 50, 63, 11, 38, 16, 13, 67, 45, 20, 12, 3, 17, 14,
  37, 15, 7, 40, 5, 4, 0, 18, 8, 41, 6, 2, 19, 9, 42, 1, 10, 43])) (.leaf [26, 21, 44, 63, 11, 38,
  13, 67, 45, 20, 12, 3, 14, 37, 15, 7, 40, 5, 4, 0, 8, 41, 6, 2, 9, 42, 1, 10, 43])) (.leaf [26,
  21, 44, 63, 11, 38, 13, 67, 45, 20, 12, 3, 14, 37, 15, 7, 40, 5, 4, 0, 8, 41, 6, 2, 9, 42, 1, 10,
  43])) (.leaf [26, 21, 44, 50, 63, 11, 38, 16, 13, 67, 45, 20, 12, 3, 17, 14, 37, 15, 7, 40, 5, 4,
  0, 18, 8, 41, 6, 2, 19, 9, 42, 1, 10, 43])) (.leaf [26, 21, 44, 50, 63, 11, 38, 16, 13, 67, 45,
  20, 12, 3, 17, 14, 37, 15, 7, 40, 5, 4, 0, 18, 8, 41, 6, 2, 19, 9, 42, 1, 10, 43])) (.leaf [26,
  21, 44, 50, 63, 11, 38, 16, 13, 67, 45, 20, 12, 3, 17, 14, 37, 15, 7, 40, 5, 4, 0, 18, 8, 41, 6,
  2, 19, 9, 42, 1, 10, 43])) (.leaf [26, 21, 44, 50, 63, 11, 38, 16, 13, 67, 45, 20, 12, 3, 17, 14,
  37, 15, 7, 40, 5, 4, 0, 18, 8, 41, 6, 2, 19, 9, 42, 1, 10, 43])

/-- some of the cases -/
def real5OneCase109 : LooseTree :=
  .breaks 8466450 (.breaks 12619795 (.breaks 17920098 (.breaks 4235346 (.breaks 9474065 (.breaks
  20000897 (.breaks 24211537 (.breaks 9474177 (.breaks 10526913 (.breaks 20013237 (.breaks 24170693
  (.breaks 24211649 (.breaks 9474193 (.breaks 10526737 (.breaks 13684817 (.breaks 13705410 (.breaks
  23158913 (.breaks 24211473 (.breaks 10526753 (.breaks 18948177 (.breaks 18972866 (.breaks
  23158801 (.breaks 24211489 (.breaks 10526721 (.breaks 18948209 (.breaks 24211457 (.breaks
  25264209 (.leaf [26, 81, 61, 21, 38, 62, 51, 20, 55, 3, 44, 15, 7, 56, 4, 0, 31, 45, 8, 2, 13,
  34, 37, 9, 1, 14, 10, 24]) (.leaf [26, 81, 61, 21, 11, 38, 62, 51, 20, 12, 55, 3, 44, 15, 7, 5,
  56, 4, 0, 31, 45, 8, 6, 2, 13, 37, 9, 1, 14, 10])) (.leaf [26, 81, 61, 21, 11, 38, 62, 51, 20,
  12, 55, 3, 44, 15, 5, 56, 4, 0, 31, 45, 6, 2, 13, 34, 37, 1, 14, 24])) (.leaf [26, 81, 61, 21,
  11, 38, 62, 51, 20, 12, 55, 3, 44, 15, 7, 5, 56, 4, 0, 31, 45, 8, 6, 2, 34, 37, 9, 1, 10, 24]))
  (.leaf [26, 81, 61, 21, 38, 62, 51, 20, 55, 3, 44, 15, 7, 56, 4, 0, 31, 45, 8, 2, 13, 34, 37, 9,
  1, 14, 10, 24])) (.leaf [26, 81, 61, 21, 11, 38, 62, 51, 20, 12, 55, 3, 44, 15, 5, 56, 4, 0, 31,
  45, 6, 2, 13, 34, 37, 1, 14, 24])) (.leaf [26, 81, 61, 21, 38, 62, 51, 20, 55, 3, 44, 15, 7, 56,
  4, 0, 31, 45, 8, 2, 13, 34, 37, 9, 1, 14, 10, 24])) (.leaf [26, 81, 61, 21, 11, 38, 62, 51, 20,
  12, 55, 3, 44, 15, 7, 5, 56, 4, 0, 31, 45, 8, 6, 2, 13, 37, 9, 1, 14, 10])) (.leaf [26, 81, 61,
  21, 11, 38, 62, 51, 20, 12, 55, 3, 44, 15, 7, 5, 56, 4, 0, 31, 45, 8, 6, 2, 34, 37, 9, 1, 10,
  24])) (.leaf [26, 81, 61, 21, 38, 62, 51, 20, 55, 3, 44, 15, 7, 56, 4, 0, 31, 45, 8, 2, 13, 34,
  37, 9, 1, 14, 10, 24])) (.leaf [26, 81, 61, 21, 11, 38, 62, 51, 20, 12, 55, 3, 44, 15, 5, 56, 4,
  0, 31, 45, 6, 2, 13, 34, 37, 1, 14, 24])) (.leaf [26, 81, 61, 21, 38, 62, 51, 20, 55, 3, 44, 15,
  7, 56, 4, 0, 31, 45, 8, 2, 13, 34, 37, 9, 1, 14, 10, 24])) (.leaf [26, 81, 61, 21, 11, 38, 62,
  51, 20, 12, 55, 3, 44, 15, 7, 5, 56, 4, 0, 31, 45, 8, 6, 2, 13, 37, 9, 1, 14, 10])) (.leaf [26,
  81, 61, 21, 38, 62, 51, 20, 55, 3, 44, 15, 7, 56, 4, 0, 31, 45, 8, 2, 13, 34, 37, 9, 1, 14, 10,
  24])) (.leaf [26, 81, 61, 21, 38, 62, 51, 20, 55, 3, 44, 15, 7, 56, 4, 0, 31, 45, 8, 2, 13, 34,
  37, 9, 1, 14, 10, 24])) (.leaf [26, 81, 61, 21, 38, 62, 51, 20, 55, 3, 44, 15, 7, 56, 4, 0, 31,
  45, 8, 2, 13, 34, 37, 9, 1, 14, 10, 24])) (.leaf [26, 81, 61, 21, 11, 38, 62, 51, 20, 12, 55, 3,
  44, 15, 5, 56, 4, 0, 31, 45, 6, 2, 13, 34, 37, 1, 14, 24])) (.leaf [26, 81, 61, 21, 11, 38, 62,
  51, 20, 12, 55, 3, 44, 15, 7, 5, 56, 4, 0, 31, 45, 8, 6, 2, 13, 37, 9, 1, 14, 10])) (.leaf [26,
  81, 61, 21, 38, 62, 51, 20, 55, 3, 44, 15, 7, 56, 4, 0, 31, 45, 8, 2, 13, 34, 37, 9, 1, 14, 10,
  24])) (.leaf [26, 81, 61, 21, 38, 62, 51, 20, 55, 3, 44, 15, 7, 56, 4, 0, 31, 45, 8, 2, 13, 34,
  37, 9, 1, 14, 10, 24])) (.leaf [26, 81, 61, 21, 38, 62, 51, 20, 55, 3, 44, 15, 7, 56, 4, 0, 31,
  45, 8, 2, 13, 34, 37, 9, 1, 14, 10, 24])) (.leaf [26, 81, 61, 21, 11, 38, 62, 51, 20, 12, 55, 3,
  44, 15, 7, 5, 56, 4, 0, 31, 45, 8, 6, 2, 13, 34, 37, 9, 1, 14, 10, 24])) (.leaf [26, 61, 21, 44,
  38, 62, 45, 20, 55, 3, 37, 15, 7, 56, 4, 0, 31, 8, 2, 13, 34, 9, 1, 14, 10, 24])) (.leaf [26, 81,
  128, 21, 38, 55, 51, 20, 56, 3, 44, 15, 7, 4, 0, 31, 45, 8, 2, 13, 34, 37, 9, 1, 14, 10, 24]))
  (.leaf [26, 81, 61, 21, 38, 62, 51, 20, 55, 3, 44, 15, 7, 56, 4, 0, 31, 45, 8, 2, 13, 34, 37, 9,
  1, 14, 10, 24])) (.leaf [26, 81, 61, 21, 11, 38, 62, 51, 20, 12, 55, 3, 44, 15, 7, 5, 56, 4, 0,
  31, 45, 8, 6, 2, 13, 34, 37, 9, 1, 14, 10, 24])) (.leaf [26, 81, 128, 21, 38, 55, 51, 20, 56, 3,
  44, 15, 7, 4, 0, 31, 45, 8, 2, 13, 34, 37, 9, 1, 14, 10, 24])) (.leaf [26, 61, 21, 44, 38, 62,
  45, 20, 55, 3, 37, 15, 7, 56, 4, 0, 31, 8, 2, 13, 34, 9, 1, 14, 10, 24])

/-- some of the cases -/
def real5OneCase110 : LooseTree :=
  .breaks 8466450 (.breaks 17920098 (.breaks 4210769 (.breaks 4235362 (.breaks 20000897 (.breaks
  24211537 (.breaks 4210881 (.breaks 10526801 (.breaks 20013237 (.breaks 24170693 (.breaks 24211649
  (.breaks 4210705 (.breaks 10526913 (.breaks 13684817 (.breaks 13705410 (.breaks 23158913 (.breaks
  24211473 (.breaks 4210721 (.breaks 10526737 (.breaks 18948177 (.breaks 18972866 (.breaks 23158801
  (.breaks 24211489 (.breaks 4210689 (.breaks 10526753 (.breaks 18948209 (.breaks 24211457 (.breaks
  25264209 (.breaks 10526721 (.leaf [53, 81, 21, 54, 59, 51, 20, 11, 46, 44, 15, 7, 12, 3, 0, 31,
  45, 8, 5, 4, 13, 34, 37, 9, 6, 2, 14, 10, 24, 1]) (.leaf [53, 81, 21, 54, 59, 51, 20, 11, 46, 44,
  15, 7, 12, 3, 0, 31, 45, 8, 5, 4, 13, 34, 37, 9, 6, 2, 14, 10, 24, 1])) (.leaf [53, 72, 81, 21,
  54, 59, 74, 51, 20, 11, 46, 44, 22, 15, 7, 12, 3, 0, 23, 45, 8, 5, 4, 37, 9, 6, 2, 10, 1]))
  (.leaf [53, 72, 81, 21, 54, 59, 74, 51, 20, 11, 46, 44, 22, 15, 12, 3, 0, 31, 23, 45, 5, 4, 13,
  34, 37, 6, 2, 14, 24, 1])) (.leaf [53, 72, 81, 21, 54, 59, 74, 51, 20, 11, 46, 44, 22, 15, 7, 12,
  3, 0, 23, 45, 8, 5, 4, 37, 9, 6, 2, 10, 1])) (.leaf [53, 81, 21, 54, 59, 51, 20, 11, 46, 44, 15,
  7, 12, 3, 0, 31, 45, 8, 5, 4, 13, 34, 37, 9, 6, 2, 14, 10, 24, 1])) (.leaf [53, 81, 21, 54, 59,
  51, 20, 11, 46, 44, 15, 7, 12, 3, 0, 31, 45, 8, 5, 4, 13, 34, 37, 9, 6, 2, 14, 10, 24, 1]))
  (.leaf [53, 72, 81, 21, 54, 59, 74, 51, 20, 11, 46, 44, 22, 15, 12, 3, 0, 31, 23, 45, 5, 4, 13,
  34, 37, 6, 2, 14, 24, 1])) (.leaf [53, 81, 21, 54, 59, 51, 20, 11, 46, 44, 15, 7, 12, 3, 0, 31,
  45, 8, 5, 4, 13, 34, 37, 9, 6, 2, 14, 10, 24, 1])) (.leaf [53, 72, 81, 21, 54, 59, 74, 51, 20,
  11, 46, 44, 22, 15, 7, 12, 3, 0, 23, 45, 8, 5, 4, 37, 9, 6, 2, 10, 1])) (.leaf [53, 72, 81, 21,
  54, 59, 74, 51, 20, 11, 46, 44, 22, 15, 7, 12, 3, 0, 23, 45, 8, 5, 4, 37, 9, 6, 2, 10, 1]))
  (.leaf [53, 81, 21, 54, 59, 51, 20, 11, 46, 44, 15, 7, 12, 3, 0, 31, 45, 8, 5, 4, 13, 34, 37, 9,
  6, 2, 14, 10, 24, 1])) (.leaf [53, 81, 21, 54, 59, 51, 20, 11, 46, 44, 15, 7, 12, 3, 0, 31, 45,
  8, 5, 4, 13, 34, 37, 9, 6, 2, 14, 10, 24, 1])) (.leaf [53, 72, 81, 21, 54, 59, 74, 51, 20, 11,
  46, 44, 22, 15, 12, 3, 0, 31, 23, 45, 5, 4, 13, 34, 37, 6, 2, 14, 24, 1])) (.leaf [53, 81, 21,
  54, 59, 51, 20, 11, 46, 44, 15, 7, 12, 3, 0, 31, 45, 8, 5, 4, 13, 34, 37, 9, 6, 2, 14, 10, 24,
  1])) (.leaf [53, 72, 81, 21, 54, 59, 74, 51, 20, 11, 46, 44, 22, 15, 7, 12, 3, 0, 23, 45, 8, 5,
  4, 37, 9, 6, 2, 10, 1])) (.leaf [53, 81, 21, 54, 59, 51, 20, 11, 46, 44, 15, 7, 12, 3, 0, 31, 45,
  8, 5, 4, 13, 34, 37, 9, 6, 2, 14, 10, 24, 1])) (.leaf [53, 81, 21, 54, 59, 51, 20, 11, 46, 44,
  15, 7, 12, 3, 0, 31, 45, 8, 5, 4, 13, 34, 37, 9, 6, 2, 14, 10, 24, 1])) (.leaf [53, 81, 21, 54,
  59, 51, 20, 11, 46, 44, 15, 7, 12, 3, 0, 31, 45, 8, 5, 4, 13, 34, 37, 9, 6, 2, 14, 10, 24, 1]))
  (.leaf [53, 72, 81, 21, 54, 59, 74, 51, 20, 11, 46, 44, 22, 15, 12, 3, 0, 31, 23, 45, 5, 4, 13,
  34, 37, 6, 2, 14, 24, 1])) (.leaf [53, 72, 81, 21, 54, 59, 74, 51, 20, 11, 46, 44, 22, 15, 7, 12,
  3, 0, 31, 23, 45, 8, 5, 4, 13, 37, 9, 6, 2, 14, 10, 1])) (.leaf [53, 81, 21, 54, 59, 51, 20, 11,
  46, 44, 15, 7, 12, 3, 0, 31, 45, 8, 5, 4, 13, 34, 37, 9, 6, 2, 14, 10, 24, 1])) (.leaf [53, 81,
  21, 54, 59, 51, 20, 11, 46, 44, 15, 7, 12, 3, 0, 31, 45, 8, 5, 4, 13, 34, 37, 9, 6, 2, 14, 10,
  24, 1])) (.leaf [53, 81, 21, 54, 59, 51, 20, 11, 46, 44, 15, 7, 12, 3, 0, 31, 45, 8, 5, 4, 13,
  34, 37, 9, 6, 2, 14, 10, 24, 1])) (.leaf [53, 72, 81, 21, 54, 59, 74, 51, 20, 11, 46, 44, 22, 15,
  7, 12, 3, 0, 31, 23, 45, 8, 5, 4, 13, 37, 9, 6, 2, 14, 10, 1])) (.leaf [53, 21, 44, 54, 59, 45,
  20, 11, 46, 37, 15, 7, 12, 3, 0, 31, 8, 5, 4, 13, 34, 9, 6, 2, 14, 10, 24, 1])) (.leaf [53, 81,
  21, 54, 59, 51, 20, 11, 46, 44, 15, 7, 12, 3, 0, 31, 45, 8, 5, 4, 13, 34, 37, 9, 6, 2, 14, 10,
  24, 1])) (.leaf [53, 81, 21, 54, 59, 51, 20, 11, 46, 44, 15, 7, 12, 3, 0, 31, 45, 8, 5, 4, 13,
  34, 37, 9, 6, 2, 14, 10, 24, 1])) (.leaf [53, 72, 81, 21, 54, 59, 74, 51, 20, 11, 46, 44, 22, 15,
  7, 12, 3, 0, 31, 23, 45, 8, 5, 4, 13, 37, 9, 6, 2, 14, 10, 1])) (.leaf [53, 21, 44, 54, 59, 45,
  20, 11, 46, 37, 15, 7, 12, 3, 0, 31, 8, 5, 4, 13, 34, 9, 6, 2, 14, 10, 24, 1])

/-- some of the cases -/
def real5OneCase111 : LooseTree :=
  .cases [] 10 (.breaks 1065045 (.breaks 4198483 (.cycle 33 [26, 99]) (.leaf [26, 81, 21, 47, 11,
  38, 51, 27, 20, 12, 3, 44, 28, 15, 7, 5, 4, 0, 31, 22, 45, 8, 6, 2, 34, 23, 37, 9, 1, 10, 24, 58,
  40, 41, 42, 43])) (.leaf [26, 81, 21, 47, 11, 38, 51, 27, 20, 12, 3, 44, 28, 15, 7, 5, 4, 0, 31,
  22, 45, 8, 6, 2, 13, 34, 23, 37, 9, 1, 14, 10, 24, 58, 40, 41, 42, 43])) (.cases [] 37 (.breaks
  1065045 (.breaks 4198483 (.cycle 33 [26, 99]) (.leaf [26, 108, 72, 81, 21, 11, 74, 1, 51, 20, 12,
  44, 22, 15, 7, 5, 0, 31, 23, 45, 8, 6, 13, 34, 37, 9, 14, 10, 24, 58, 40, 41, 42, 43])) (.leaf
  [26, 108, 72, 81, 21, 50, 11, 74, 1, 16, 51, 20, 12, 17, 44, 22, 15, 7, 5, 0, 31, 18, 23, 45, 8,
  6, 19, 13, 34, 37, 9, 14, 10, 24, 58, 40, 41, 42, 43])) (.cases [] 27 (.cases [] 39 (.breaks
  1065045 (.breaks 4198483 (.cycle 33 [26, 99]) (.leaf [26, 81, 21, 38, 51, 20, 3, 44, 15, 7, 4, 0,
  31, 45, 8, 2, 13, 34, 37, 9, 134, 1, 14, 10, 24, 135, 112, 72, 106, 74, 40, 22, 41, 23, 42, 43]))
  (.leaf [26, 72, 81, 21, 11, 38, 74, 51, 20, 12, 3, 44, 22, 15, 7, 5, 4, 0, 31, 23, 45, 8, 6, 2,
  13, 34, 37, 9, 1, 14, 10, 24, 112, 106, 40, 41, 42, 43])) (.breaks 1065045 (.breaks 4198483
  (.cycle 33 [26, 99]) (.cycle 43 [117, 58])) (.cycle 43 [117, 58]))) (.breaks 1065045 (.breaks
  4198483 (.cycle 33 [26, 99]) (.leaf [94, 26, 81, 21, 38, 5, 51, 20, 6, 3, 44, 15, 7, 4, 0, 31,
  45, 8, 2, 13, 34, 37, 9, 134, 1, 14, 10, 24, 58, 135, 40, 72, 41, 74, 42, 22, 43, 23])) (.leaf
  [94, 26, 72, 81, 21, 50, 38, 5, 74, 16, 51, 20, 6, 3, 17, 44, 22, 15, 7, 4, 0, 31, 18, 23, 45, 8,
  2, 19, 13, 34, 37, 9, 1, 14, 10, 24, 58, 40, 41, 42, 43]))))

/-- some of the cases -/
def real5OneCase112 : LooseTree :=
  .breaks 17907794 (.breaks 21053633 (.breaks 21053457 (.breaks 21000214 (.leaf [47, 27, 28, 158])
  (.leaf [47, 27, 28, 60, 72])) (.leaf [47, 27, 28, 60, 72])) (.leaf [47, 27, 28, 60, 72])) (.leaf
  [47, 27, 28, 60, 72])

/-- some of the cases -/
def real5OneCase113 : LooseTree :=
  .cases [] 11 (.breaks 1065043 (.breaks 17920098 (.breaks 21000211 (.breaks 4210769 (.breaks
  4235362 (.breaks 24211537 (.breaks 4210881 (.breaks 10526801 (.breaks 20013237 (.breaks 24170693
  (.breaks 4210705 (.breaks 10526913 (.breaks 13684817 (.breaks 13705410 (.breaks 23158913 (.breaks
  4194326 (.breaks 4210721 (.breaks 10526737 (.breaks 18948177 (.breaks 23158801 (.breaks 4210689
  (.breaks 10526753 (.breaks 18948209 (.breaks 10526721 (.leaf [53, 81, 21, 60, 54, 59, 51, 20, 11,
  46, 44, 15, 12, 3, 0, 31, 45, 89, 5, 4, 13, 37, 6, 2, 14, 1]) (.leaf [53, 81, 21, 60, 54, 59, 51,
  20, 11, 46, 44, 15, 12, 3, 0, 31, 45, 89, 5, 4, 13, 37, 6, 2, 14, 1])) (.leaf [53, 81, 21, 54,
  59, 51, 20, 11, 46, 44, 15, 7, 12, 3, 0, 45, 8, 89, 5, 4, 37, 9, 6, 2, 10, 1])) (.leaf [53, 81,
  21, 60, 54, 59, 51, 20, 11, 46, 44, 15, 12, 3, 0, 31, 45, 89, 5, 4, 13, 37, 6, 2, 14, 1])) (.leaf
  [53, 81, 21, 60, 54, 59, 51, 20, 11, 46, 44, 15, 12, 3, 0, 31, 45, 89, 5, 4, 13, 37, 6, 2, 14,
  1])) (.leaf [53, 81, 21, 60, 54, 59, 51, 20, 11, 46, 44, 15, 12, 3, 0, 31, 45, 89, 5, 4, 13, 37,
  6, 2, 14, 1])) (.leaf [53, 81, 21, 54, 59, 51, 20, 11, 46, 44, 15, 7, 12, 3, 0, 45, 8, 89, 5, 4,
  37, 9, 6, 2, 10, 1])) (.leaf [53, 81, 21, 60, 54, 59, 51, 20, 11, 46, 44, 15, 12, 3, 0, 31, 45,
  89, 5, 4, 13, 37, 6, 2, 14, 1])) (.leaf [53, 81, 21, 60, 54, 59, 51, 20, 11, 46, 44, 15, 12, 3,
  0, 31, 45, 89, 5, 4, 13, 37, 6, 2, 14, 1])) (.leaf [53, 81, 21, 60, 54, 59, 51, 20, 11, 46, 44,
  15, 12, 3, 0, 31, 45, 165, 5, 4, 13, 37, 6, 2, 14, 1])) (.leaf [53, 81, 21, 60, 54, 59, 51, 20,
  11, 46, 44, 15, 12, 3, 0, 31, 45, 89, 5, 4, 13, 37, 6, 2, 14, 1])) (.leaf [53, 81, 21, 54, 59,
  51, 20, 11, 46, 44, 15, 7, 12, 3, 0, 45, 8, 89, 5, 4, 37, 9, 6, 2, 10, 1])) (.leaf [53, 81, 21,
  60, 54, 59, 51, 20, 11, 46, 44, 15, 12, 3, 0, 31, 45, 89, 5, 4, 13, 37, 6, 2, 14, 1])) (.leaf
  [53, 81, 21, 60, 54, 59, 51, 20, 11, 46, 44, 15, 12, 3, 0, 31, 45, 89, 5, 4, 13, 37, 6, 2, 14,
  1])) (.leaf [53, 81, 21, 54, 59, 51, 20, 11, 46, 44, 15, 12, 3, 0, 31, 45, 89, 5, 4, 13, 34, 37,
  6, 2, 14, 24, 1])) (.leaf [53, 81, 21, 54, 59, 51, 20, 11, 46, 44, 15, 7, 12, 3, 0, 45, 8, 89, 5,
  4, 37, 9, 6, 2, 10, 1])) (.leaf [53, 81, 21, 60, 54, 59, 51, 20, 11, 46, 44, 15, 12, 3, 0, 31,
  45, 89, 5, 4, 13, 37, 6, 2, 14, 1])) (.leaf [53, 81, 21, 60, 54, 59, 51, 20, 11, 46, 44, 15, 12,
  3, 0, 31, 45, 89, 5, 4, 13, 37, 6, 2, 14, 1])) (.leaf [53, 81, 21, 54, 59, 51, 20, 11, 46, 44,
  15, 12, 3, 0, 31, 45, 89, 5, 4, 13, 34, 37, 6, 2, 14, 24, 1])) (.leaf [53, 81, 21, 60, 54, 59,
  51, 20, 11, 46, 44, 15, 12, 3, 0, 31, 45, 89, 5, 4, 13, 34, 37, 6, 2, 14, 24, 1])) (.leaf [53,
  81, 21, 60, 54, 59, 51, 20, 11, 46, 44, 15, 12, 3, 0, 31, 45, 89, 5, 4, 13, 37, 6, 2, 14, 1]))
  (.leaf [53, 81, 21, 54, 59, 51, 20, 11, 46, 44, 15, 12, 3, 0, 31, 45, 89, 5, 4, 13, 34, 37, 6, 2,
  14, 24, 1])) (.leaf [53, 81, 21, 54, 59, 51, 20, 11, 46, 44, 15, 12, 3, 0, 31, 45, 89, 5, 4, 13,
  34, 37, 6, 2, 14, 24, 1])) (.leaf [53, 81, 21, 60, 54, 59, 51, 20, 11, 46, 44, 15, 12, 3, 0, 31,
  45, 89, 5, 4, 13, 34, 37, 6, 2, 14, 24, 1])) (.leaf [53, 81, 21, 60, 54, 59, 51, 20, 11, 46, 44,
  15, 12, 3, 0, 31, 45, 89, 5, 4, 13, 34, 37, 6, 2, 14, 24, 1])) (.cases [] 39 (.breaks 1065045
  (.breaks 4198483 (.cycle 33 [26, 99]) (.leaf [26, 81, 21, 60, 11, 38, 51, 20, 12, 3, 44, 15, 7,
  5, 4, 0, 31, 45, 8, 6, 2, 34, 37, 9, 1, 10, 24, 112, 106, 40, 41, 42, 43])) (.leaf [26, 81, 21,
  60, 11, 38, 51, 20, 12, 3, 44, 15, 7, 5, 4, 0, 31, 45, 8, 6, 2, 13, 34, 37, 9, 1, 14, 10, 24,
  112, 106, 40, 41, 42, 43])) (.breaks 1065045 (.breaks 4198483 (.cycle 33 [26, 99]) (.cycle 43
  [117, 58])) (.cycle 43 [117, 58])))

/-- some of the cases -/
def real5OneCase114 : LooseTree :=
  .cases [] 11 (.breaks 1065043 (.breaks 17920098 (.breaks 21000211 (.breaks 4210769 (.breaks
  4235362 (.breaks 24211537 (.breaks 4210881 (.breaks 10526801 (.breaks 20013237 (.breaks 24170693
  (.breaks 24211649 (.breaks 4210705 (.breaks 10526913 (.breaks 13684817 (.breaks 13705410 (.breaks
  23158913 (.breaks 24211473 (.breaks 4210721 (.breaks 10526737 (.breaks 18948177 (.breaks 23158801
  (.breaks 24211489 (.breaks 4210689 (.breaks 10526753 (.breaks 18948209 (.breaks 24211457 (.breaks
  10526721 (.leaf [53, 81, 21, 60, 54, 59, 51, 20, 11, 46, 44, 15, 7, 12, 3, 0, 31, 45, 8, 5, 4,
  13, 37, 9, 6, 2, 14, 10, 1]) (.leaf [53, 81, 21, 60, 54, 59, 51, 20, 11, 46, 44, 15, 7, 12, 3, 0,
  31, 45, 8, 5, 4, 13, 37, 9, 6, 2, 14, 10, 1])) (.leaf [53, 81, 21, 60, 54, 59, 51, 20, 11, 46,
  44, 15, 7, 12, 3, 0, 31, 45, 8, 5, 4, 13, 37, 9, 6, 2, 14, 10, 1])) (.leaf [53, 81, 21, 60, 54,
  59, 51, 20, 11, 46, 44, 15, 7, 12, 3, 0, 31, 45, 8, 5, 4, 34, 37, 9, 6, 2, 10, 24, 1])) (.leaf
  [53, 81, 21, 60, 54, 59, 51, 20, 11, 46, 44, 15, 7, 12, 3, 0, 31, 45, 8, 5, 4, 13, 37, 9, 6, 2,
  14, 10, 1])) (.leaf [53, 81, 21, 60, 54, 59, 51, 20, 11, 46, 44, 15, 7, 12, 3, 0, 31, 45, 8, 5,
  4, 13, 37, 9, 6, 2, 14, 10, 1])) (.leaf [53, 81, 21, 60, 54, 59, 51, 20, 11, 46, 44, 15, 7, 12,
  3, 0, 31, 45, 8, 5, 4, 13, 37, 9, 6, 2, 14, 10, 1])) (.leaf [53, 81, 21, 60, 54, 59, 51, 20, 11,
  46, 44, 15, 7, 12, 3, 0, 31, 45, 8, 5, 4, 13, 37, 9, 6, 2, 14, 10, 1])) (.leaf [53, 81, 21, 60,
  54, 59, 51, 20, 11, 46, 44, 15, 7, 12, 3, 0, 31, 45, 8, 5, 4, 34, 37, 9, 6, 2, 10, 24, 1]))
  (.leaf [53, 81, 21, 60, 54, 59, 51, 20, 11, 46, 44, 15, 7, 12, 3, 0, 31, 45, 8, 5, 4, 13, 37, 9,
  6, 2, 14, 10, 1])) (.leaf [53, 81, 21, 60, 54, 59, 51, 20, 11, 46, 44, 15, 7, 12, 3, 0, 31, 45,
  8, 5, 4, 13, 37, 9, 6, 2, 14, 10, 1])) (.leaf [53, 81, 21, 60, 54, 59, 51, 20, 11, 46, 44, 15, 7,
  12, 3, 0, 31, 45, 8, 5, 4, 13, 37, 9, 6, 2, 14, 10, 1])) (.leaf [53, 81, 21, 60, 54, 59, 51, 20,
  11, 46, 44, 15, 7, 12, 3, 0, 31, 45, 8, 5, 4, 13, 37, 9, 6, 2, 14, 10, 1])) (.leaf [53, 81, 21,
  60, 54, 59, 51, 20, 11, 46, 44, 15, 7, 12, 3, 0, 31, 45, 8, 5, 4, 13, 37, 9, 6, 2, 14, 10, 1]))
  (.leaf [53, 81, 21, 60, 54, 59, 51, 20, 11, 46, 44, 15, 7, 12, 3, 0, 31, 45, 8, 5, 4, 13, 37, 9,
  6, 2, 14, 10, 1])) (.leaf [53, 81, 21, 60, 54, 59, 51, 20, 11, 46, 44, 15, 7, 12, 3, 0, 31, 45,
  8, 5, 4, 13, 37, 9, 6, 2, 14, 10, 1])) (.leaf [53, 81, 21, 60, 54, 59, 51, 20, 11, 46, 44, 15, 7,
  12, 3, 0, 31, 45, 8, 5, 4, 13, 37, 9, 6, 2, 14, 10, 1])) (.leaf [53, 81, 21, 60, 54, 59, 51, 20,
  11, 46, 44, 15, 7, 12, 3, 0, 31, 45, 8, 5, 4, 13, 37, 9, 6, 2, 14, 10, 1])) (.leaf [53, 81, 21,
  60, 54, 59, 51, 20, 11, 46, 44, 15, 7, 12, 3, 0, 31, 45, 8, 5, 4, 13, 34, 37, 9, 6, 2, 14, 10,
  24, 1])) (.leaf [53, 81, 21, 60, 54, 59, 51, 20, 11, 46, 44, 15, 7, 12, 3, 0, 31, 45, 8, 5, 4,
  13, 37, 9, 6, 2, 14, 10, 1])) (.leaf [53, 81, 21, 60, 54, 59, 51, 20, 11, 46, 44, 15, 7, 12, 3,
  0, 31, 45, 8, 5, 4, 13, 37, 9, 6, 2, 14, 10, 1])) (.leaf [53, 81, 21, 60, 54, 59, 51, 20, 11, 46,
  44, 15, 7, 12, 3, 0, 31, 45, 8, 5, 4, 13, 37, 9, 6, 2, 14, 10, 1])) (.leaf [53, 81, 21, 60, 54,
  59, 51, 20, 11, 46, 44, 15, 7, 12, 3, 0, 31, 45, 8, 5, 4, 13, 34, 37, 9, 6, 2, 14, 10, 24, 1]))
  (.leaf [53, 81, 21, 60, 54, 59, 51, 20, 11, 46, 44, 15, 7, 12, 3, 0, 31, 45, 8, 5, 4, 13, 37, 9,
  6, 2, 14, 10, 1])) (.leaf [53, 81, 21, 60, 54, 59, 51, 20, 11, 46, 44, 15, 7, 12, 3, 0, 31, 45,
  8, 5, 4, 13, 37, 9, 6, 2, 14, 10, 1])) (.leaf [53, 81, 21, 54, 59, 51, 20, 11, 46, 44, 15, 7, 12,
  3, 0, 31, 45, 8, 5, 4, 13, 34, 37, 9, 6, 2, 14, 10, 24, 1])) (.leaf [53, 81, 21, 60, 54, 59, 51,
  20, 11, 46, 44, 15, 7, 12, 3, 0, 31, 45, 8, 5, 4, 13, 34, 37, 9, 6, 2, 14, 10, 24, 1])) (.leaf
  [53, 81, 21, 54, 59, 51, 20, 11, 46, 44, 15, 7, 12, 3, 0, 31, 45, 8, 5, 4, 13, 34, 37, 9, 6, 2,
  14, 10, 24, 1])) (.cases [] 39 (.breaks 1065045 (.breaks 4198483 (.cycle 33 [26, 99]) (.leaf [94,
  26, 81, 21, 60, 38, 5, 51, 20, 6, 3, 44, 15, 7, 4, 0, 31, 45, 8, 2, 34, 37, 9, 1, 10, 24, 112,
  106, 40, 41, 42, 43])) (.leaf [94, 26, 81, 21, 60, 38, 5, 51, 20, 6, 3, 44, 15, 7, 4, 0, 31, 45,
  8, 2, 34, 37, 9, 1, 10, 24, 112, 106, 40, 41, 42, 43])) (.breaks 1065045 (.breaks 4198483 (.cycle
  33 [26, 99]) (.cycle 43 [117, 58])) (.cycle 43 [117, 58])))

/-- some of the cases -/
def real5OneCase115 : LooseTree :=
  .breaks 17920098 (.breaks 19955730 (.breaks 20013237 (.breaks 4235346 (.breaks 8421505 (.breaks
  9474065 (.breaks 23158913 (.breaks 24211537 (.breaks 8421521 (.breaks 9474177 (.breaks 10526913
  (.breaks 23158801 (.breaks 24170693 (.breaks 9474193 (.breaks 10526737 (.breaks 13684817 (.breaks
  13705410 (.breaks 10526753 (.breaks 18948177 (.breaks 18972866 (.breaks 10526721 (.breaks
  18948209 (.breaks 25264209 (.leaf [26, 61, 21, 70, 44, 38, 64, 62, 45, 20, 65, 55, 3, 37, 15, 56,
  4, 0, 31, 2, 13, 34, 1, 14, 24]) (.leaf [26, 61, 21, 70, 44, 38, 64, 62, 45, 20, 65, 55, 3, 37,
  15, 7, 56, 4, 0, 8, 2, 9, 1, 10])) (.leaf [26, 61, 21, 70, 44, 38, 64, 62, 45, 20, 65, 55, 3, 37,
  15, 7, 56, 4, 0, 8, 2, 9, 1, 10])) (.leaf [26, 61, 21, 70, 44, 38, 64, 62, 45, 20, 65, 55, 3, 37,
  15, 56, 4, 0, 31, 2, 13, 34, 1, 14, 24])) (.leaf [26, 61, 21, 70, 44, 38, 64, 62, 45, 20, 65, 55,
  3, 37, 15, 7, 56, 4, 0, 8, 2, 9, 1, 10])) (.leaf [26, 61, 21, 70, 44, 38, 64, 62, 45, 20, 65, 55,
  3, 37, 15, 7, 56, 4, 0, 8, 2, 9, 1, 10])) (.leaf [26, 61, 21, 70, 44, 38, 64, 62, 45, 20, 65, 55,
  3, 37, 15, 56, 4, 0, 31, 2, 13, 34, 1, 14, 24])) (.leaf [26, 61, 21, 70, 44, 38, 64, 62, 45, 20,
  65, 55, 3, 37, 15, 7, 56, 4, 0, 8, 2, 9, 1, 10])) (.leaf [26, 61, 21, 70, 44, 38, 64, 62, 45, 20,
  65, 55, 3, 37, 15, 56, 4, 0, 31, 2, 13, 34, 1, 14, 24])) (.leaf [26, 61, 21, 70, 44, 38, 64, 62,
  45, 20, 65, 55, 3, 37, 15, 56, 4, 0, 31, 2, 13, 34, 1, 14, 24])) (.leaf [26, 61, 21, 70, 44, 38,
  64, 62, 45, 20, 65, 55, 3, 37, 15, 56, 4, 0, 31, 2, 13, 34, 1, 14, 24])) (.leaf [26, 61, 21, 70,
  44, 38, 64, 62, 45, 20, 65, 55, 3, 37, 15, 7, 56, 4, 0, 8, 2, 9, 1, 10])) (.leaf [26, 61, 21, 70,
  44, 38, 64, 62, 45, 20, 65, 55, 3, 37, 15, 56, 4, 0, 31, 2, 13, 34, 1, 14, 24])) (.leaf [26, 61,
  21, 70, 44, 38, 64, 62, 45, 20, 65, 55, 3, 37, 15, 56, 4, 0, 31, 2, 13, 34, 1, 14, 24])) (.leaf
  [26, 61, 21, 70, 44, 38, 64, 62, 45, 20, 65, 55, 3, 37, 15, 56, 4, 0, 31, 2, 13, 34, 1, 14, 24]))
  (.leaf [26, 61, 21, 70, 44, 38, 64, 62, 45, 20, 65, 55, 3, 37, 15, 56, 4, 0, 31, 2, 13, 34, 1,
  14, 24])) (.leaf [26, 61, 21, 70, 44, 11, 38, 64, 62, 45, 20, 12, 65, 55, 3, 37, 15, 5, 56, 4, 0,
  6, 2, 1])) (.leaf [26, 61, 21, 70, 44, 38, 64, 62, 45, 20, 65, 55, 3, 37, 15, 56, 4, 0, 31, 2,
  13, 34, 1, 14, 24])) (.leaf [26, 128, 21, 70, 44, 38, 64, 55, 45, 20, 65, 56, 3, 37, 15, 4, 0,
  31, 2, 13, 34, 1, 14, 24])) (.leaf [26, 61, 21, 70, 44, 38, 64, 62, 45, 20, 65, 55, 3, 37, 15,
  56, 4, 0, 31, 2, 13, 34, 1, 14, 24])) (.leaf [26, 61, 21, 70, 44, 38, 64, 62, 45, 20, 65, 55, 3,
  37, 15, 56, 4, 0, 31, 2, 13, 34, 1, 14, 24])) (.leaf [26, 61, 21, 70, 44, 38, 64, 62, 45, 20, 65,
  55, 3, 37, 15, 56, 4, 0, 31, 2, 13, 34, 1, 14, 24])) (.leaf [26, 61, 21, 70, 44, 38, 64, 62, 45,
  20, 65, 55, 3, 37, 15, 56, 4, 0, 31, 2, 13, 34, 1, 14, 24])) (.leaf [26, 61, 21, 70, 44, 11, 38,
  64, 62, 45, 20, 12, 65, 55, 3, 37, 15, 5, 56, 4, 0, 6, 2, 1])

/-- some of the cases -/
def real5OneCase116 : LooseTree :=
  .cases [] 11 (.breaks 1065043 (.breaks 17920098 (.breaks 19955730 (.breaks 4210769 (.breaks
  4235362 (.breaks 8421505 (.breaks 23158913 (.breaks 24211537 (.breaks 4210881 (.breaks 8421521
  (.breaks 10526801 (.breaks 23158801 (.breaks 24170693 (.breaks 4210705 (.breaks 10526913 (.breaks
  13684817 (.breaks 13705410 (.breaks 4210721 (.breaks 10526737 (.breaks 18948177 (.breaks 4210689
  (.breaks 10526753 (.breaks 18948209 (.breaks 10526721 (.leaf [53, 21, 70, 44, 54, 59, 64, 45, 20,
  11, 65, 46, 37, 15, 12, 3, 0, 31, 5, 4, 13, 6, 2, 14, 1]) (.leaf [53, 21, 70, 44, 54, 59, 64, 45,
  20, 11, 65, 46, 37, 15, 12, 3, 0, 31, 5, 4, 13, 6, 2, 14, 1])) (.leaf [53, 21, 70, 44, 54, 59,
  64, 45, 20, 11, 65, 46, 37, 15, 7, 12, 3, 0, 8, 5, 4, 9, 6, 2, 10, 1])) (.leaf [53, 21, 70, 44,
  54, 59, 64, 45, 20, 11, 65, 46, 37, 15, 12, 3, 0, 31, 5, 4, 13, 6, 2, 14, 1])) (.leaf [53, 21,
  70, 44, 54, 59, 64, 45, 20, 11, 65, 46, 37, 15, 12, 3, 0, 31, 5, 4, 13, 34, 6, 2, 14, 24, 1]))
  (.leaf [53, 21, 70, 44, 54, 59, 64, 45, 20, 11, 65, 46, 37, 15, 7, 12, 3, 0, 8, 5, 4, 9, 6, 2,
  10, 1])) (.leaf [53, 21, 70, 44, 54, 59, 64, 45, 20, 11, 65, 46, 37, 15, 12, 3, 0, 31, 5, 4, 13,
  6, 2, 14, 1])) (.leaf [53, 21, 70, 44, 54, 59, 64, 45, 20, 11, 65, 46, 37, 15, 12, 3, 0, 31, 5,
  4, 13, 34, 6, 2, 14, 24, 1])) (.leaf [53, 21, 70, 44, 54, 59, 64, 45, 20, 11, 65, 46, 37, 15, 7,
  12, 3, 0, 8, 5, 4, 9, 6, 2, 10, 1])) (.leaf [53, 21, 70, 44, 54, 59, 64, 45, 20, 11, 65, 46, 37,
  15, 12, 3, 0, 31, 5, 4, 13, 6, 2, 14, 1])) (.leaf [53, 21, 70, 44, 54, 59, 64, 45, 20, 11, 65,
  46, 37, 15, 12, 3, 0, 31, 5, 4, 13, 6, 2, 14, 1])) (.leaf [53, 21, 70, 44, 54, 59, 64, 45, 20,
  11, 65, 46, 37, 15, 12, 3, 0, 31, 5, 4, 13, 34, 6, 2, 14, 24, 1])) (.leaf [53, 21, 70, 44, 54,
  59, 64, 45, 20, 11, 65, 46, 37, 15, 7, 12, 3, 0, 8, 5, 4, 9, 6, 2, 10, 1])) (.leaf [53, 21, 70,
  44, 54, 59, 64, 45, 20, 11, 65, 46, 37, 15, 12, 3, 0, 31, 5, 4, 13, 6, 2, 14, 1])) (.leaf [53,
  21, 70, 44, 54, 59, 64, 45, 20, 11, 65, 46, 37, 15, 12, 3, 0, 31, 5, 4, 13, 6, 2, 14, 1])) (.leaf
  [53, 21, 70, 44, 54, 59, 64, 45, 20, 11, 65, 46, 37, 15, 12, 3, 0, 31, 5, 4, 13, 34, 6, 2, 14,
  24, 1])) (.leaf [53, 21, 70, 44, 54, 59, 64, 45, 20, 11, 65, 46, 37, 15, 12, 3, 0, 31, 5, 4, 13,
  34, 6, 2, 14, 24, 1])) (.leaf [53, 21, 70, 44, 54, 59, 64, 45, 20, 11, 65, 46, 37, 15, 12, 3, 0,
  31, 5, 4, 13, 34, 6, 2, 14, 24, 1])) (.leaf [53, 21, 70, 44, 54, 59, 64, 45, 20, 11, 65, 46, 37,
  15, 12, 3, 0, 31, 5, 4, 13, 6, 2, 14, 1])) (.leaf [53, 21, 70, 44, 54, 59, 64, 45, 20, 11, 65,
  46, 37, 15, 12, 3, 0, 31, 5, 4, 13, 34, 6, 2, 14, 24, 1])) (.leaf [53, 21, 70, 44, 54, 59, 64,
  45, 20, 11, 65, 46, 37, 15, 12, 3, 0, 31, 5, 4, 13, 6, 2, 14, 1])) (.leaf [53, 21, 70, 44, 54,
  59, 64, 45, 20, 11, 65, 46, 37, 15, 12, 3, 0, 31, 5, 4, 13, 34, 6, 2, 14, 24, 1])) (.leaf [53,
  21, 70, 44, 54, 59, 64, 45, 20, 11, 65, 46, 37, 15, 12, 3, 0, 31, 5, 4, 13, 34, 6, 2, 14, 24,
  1])) (.leaf [53, 21, 70, 44, 54, 59, 64, 45, 20, 11, 65, 46, 37, 15, 12, 3, 0, 31, 5, 4, 13, 34,
  6, 2, 14, 24, 1])) (.leaf [53, 21, 70, 44, 54, 59, 64, 45, 20, 11, 65, 46, 37, 15, 12, 3, 0, 31,
  5, 4, 13, 34, 6, 2, 14, 24, 1])) (.cases [] 14 (.breaks 1065045 (.breaks 4198483 (.cycle 33
  [26, 99]) (.leaf [26, 72, 21, 70, 44, 11, 38, 74, 64, 45, 20, 12, 65, 3, 22, 37, 15, 7, 5, 4, 0,
  31, 23, 8, 6, 2, 13, 34, 9, 1, 14, 10, 24])) (.leaf [26, 72, 21, 70, 44, 38, 74, 64, 45, 20, 65,
  3, 22, 37, 15, 7, 4, 0, 31, 23, 8, 2, 13, 34, 9, 1, 14, 10, 24, 58, 40, 41, 42, 43])) (.breaks
  1065045 (.breaks 4198483 (.cycle 33 [26, 99]) (.leaf [26, 21, 70, 44, 60, 11, 38, 64, 45, 20, 12,
  65, 3, 37, 15, 7, 5, 4, 0, 31, 8, 6, 2, 34, 9, 1, 10, 24, 58, 40, 41, 42, 43])) (.leaf [26, 21,
  70, 44, 60, 11, 38, 64, 45, 20, 12, 65, 3, 37, 15, 7, 5, 4, 0, 31, 8, 6, 2, 13, 34, 9, 1, 14, 10,
  24, 58, 40, 41, 42, 43])))

/-- some of the cases -/
def real5OneCase117 : LooseTree :=
  .breaks 1065045 (.breaks 8466450 (.breaks 17920098 (.breaks 26312901 (.breaks 4210881 (.breaks
  4235346 (.breaks 20000897 (.breaks 24211537 (.breaks 25264209 (.breaks 4210705 (.breaks 10526913
  (.breaks 20013237 (.breaks 24170693 (.breaks 24211649 (.breaks 4210721 (.breaks 10526737 (.breaks
  13684817 (.breaks 23158913 (.breaks 24211473 (.breaks 4210689 (.breaks 10526753 (.breaks 23158801
  (.breaks 24211489 (.breaks 10526721 (.breaks 24211457 (.leaf [26, 81, 21, 68, 11, 38, 51, 20, 24,
  12, 3, 44, 15, 7, 5, 4, 0, 45, 8, 6, 2, 37, 9, 1, 10]) (.leaf [26, 81, 21, 68, 11, 38, 51, 20,
  24, 12, 3, 44, 15, 7, 5, 4, 0, 31, 45, 8, 6, 2, 13, 37, 9, 1, 14, 10])) (.leaf [26, 81, 21, 68,
  11, 38, 51, 20, 24, 12, 3, 44, 15, 7, 5, 4, 0, 31, 45, 8, 6, 2, 13, 37, 9, 1, 14, 10])) (.leaf
  [26, 81, 21, 68, 11, 38, 51, 20, 24, 12, 3, 44, 15, 7, 5, 4, 0, 31, 45, 8, 6, 2, 13, 37, 9, 1,
  14, 10])) (.leaf [26, 81, 21, 68, 11, 38, 51, 20, 24, 12, 3, 44, 15, 7, 5, 4, 0, 31, 45, 8, 6, 2,
  13, 37, 9, 1, 14, 10])) (.leaf [26, 81, 21, 68, 11, 38, 51, 20, 24, 12, 3, 44, 15, 7, 5, 4, 0,
  31, 45, 8, 6, 2, 13, 37, 9, 1, 14, 10])) (.leaf [26, 81, 21, 68, 11, 38, 51, 20, 24, 12, 3, 44,
  15, 7, 5, 4, 0, 31, 45, 8, 6, 2, 13, 37, 9, 1, 14, 10])) (.leaf [26, 81, 21, 68, 11, 38, 51, 20,
  24, 12, 3, 44, 15, 7, 5, 4, 0, 31, 45, 8, 6, 2, 13, 37, 9, 1, 14, 10])) (.leaf [26, 81, 21, 68,
  11, 38, 51, 20, 24, 12, 3, 44, 15, 7, 5, 4, 0, 31, 45, 8, 6, 2, 13, 37, 9, 1, 14, 10])) (.leaf
  [26, 81, 21, 68, 11, 38, 51, 20, 24, 12, 3, 44, 15, 7, 5, 4, 0, 31, 45, 8, 6, 2, 13, 37, 9, 1,
  14, 10])) (.leaf [26, 81, 21, 68, 11, 38, 51, 20, 24, 12, 3, 44, 15, 7, 5, 4, 0, 31, 45, 8, 6, 2,
  13, 37, 9, 1, 14, 10])) (.leaf [26, 81, 21, 68, 11, 38, 51, 20, 24, 12, 3, 44, 15, 7, 5, 4, 0,
  31, 45, 8, 6, 2, 13, 37, 9, 1, 14, 10])) (.leaf [26, 81, 21, 68, 11, 38, 51, 20, 24, 12, 3, 44,
  15, 7, 5, 4, 0, 31, 45, 8, 6, 2, 13, 37, 9, 1, 14, 10])) (.leaf [26, 81, 21, 68, 11, 38, 51, 20,
  24, 12, 3, 44, 15, 7, 5, 4, 0, 31, 45, 8, 6, 2, 13, 37, 9, 1, 14, 10])) (.leaf [26, 81, 21, 68,
  11, 38, 51, 20, 24, 12, 3, 44, 15, 7, 5, 4, 0, 31, 45, 8, 6, 2, 13, 37, 9, 1, 14, 10])) (.leaf
  [26, 81, 21, 68, 11, 38, 51, 20, 24, 12, 3, 44, 15, 7, 5, 4, 0, 31, 45, 8, 6, 2, 13, 37, 9, 1,
  14, 10])) (.leaf [26, 81, 21, 68, 11, 38, 51, 20, 24, 12, 3, 44, 15, 7, 5, 4, 0, 31, 45, 8, 6, 2,
  13, 37, 9, 1, 14, 10])) (.leaf [26, 81, 21, 68, 11, 38, 51, 20, 24, 12, 3, 44, 15, 7, 5, 4, 0,
  31, 45, 8, 6, 2, 13, 37, 9, 1, 14, 10])) (.leaf [26, 81, 21, 68, 11, 38, 51, 20, 24, 12, 3, 44,
  15, 7, 5, 4, 0, 31, 45, 8, 6, 2, 13, 37, 9, 1, 14, 10])) (.leaf [26, 21, 44, 68, 11, 38, 45, 20,
  24, 12, 3, 37, 15, 7, 5, 4, 0, 31, 8, 6, 2, 13, 9, 1, 14, 10])) (.leaf [26, 81, 21, 68, 11, 38,
  51, 20, 24, 12, 3, 44, 15, 7, 5, 4, 0, 31, 45, 8, 6, 2, 13, 37, 9, 1, 14, 10])) (.leaf [26, 81,
  21, 68, 11, 38, 51, 20, 24, 12, 3, 44, 15, 7, 5, 4, 0, 31, 45, 8, 6, 2, 13, 37, 9, 1, 14, 10]))
  (.leaf [26, 81, 21, 68, 11, 38, 51, 20, 24, 12, 3, 44, 15, 7, 5, 4, 0, 31, 45, 8, 6, 2, 13, 37,
  9, 1, 14, 10])) (.leaf [26, 81, 21, 68, 11, 38, 51, 20, 24, 12, 3, 44, 15, 7, 5, 4, 0, 31, 45, 8,
  6, 2, 13, 37, 9, 1, 14, 10])) (.leaf [26, 21, 44, 68, 11, 38, 45, 20, 24, 12, 3, 37, 15, 7, 5, 4,
  0, 31, 8, 6, 2, 13, 9, 1, 14, 10])) (.leaf [26, 81, 21, 68, 11, 38, 51, 20, 24, 12, 3, 44, 15, 7,
  5, 4, 0, 31, 45, 8, 6, 2, 13, 37, 9, 1, 14, 10])

/-- some of the cases -/
def real5OneCase118 : LooseTree :=
  .breaks 17920098 (.breaks 20013237 (.breaks 26312901 (.breaks 4235346 (.breaks 8421505 (.breaks
  23158913 (.breaks 24211537 (.breaks 25264209 (.breaks 8421521 (.breaks 10526913 (.breaks 23158801
  (.breaks 24170693 (.breaks 24211649 (.breaks 10526737 (.breaks 13684817 (.breaks 24211473
  (.breaks 10526753 (.breaks 24211489 (.breaks 10526721 (.breaks 24211457 (.leaf [26, 21, 70, 44,
  68, 38, 64, 45, 20, 24, 65, 3, 37, 15, 7, 4, 0, 8, 2, 9, 1, 10]) (.leaf [26, 21, 70, 44, 68, 11,
  38, 64, 45, 20, 24, 12, 65, 3, 37, 15, 5, 4, 0, 6, 2, 1])) (.leaf [26, 21, 70, 44, 68, 38, 64,
  45, 20, 24, 65, 3, 37, 15, 7, 4, 0, 8, 2, 9, 1, 10])) (.leaf [26, 21, 70, 44, 68, 11, 38, 64, 45,
  20, 24, 12, 65, 3, 37, 15, 5, 4, 0, 6, 2, 1])) (.leaf [26, 21, 70, 44, 68, 38, 64, 45, 20, 24,
  65, 3, 37, 15, 7, 4, 0, 8, 2, 9, 1, 10])) (.leaf [26, 21, 70, 44, 68, 11, 38, 64, 45, 20, 24, 12,
  65, 3, 37, 15, 5, 4, 0, 6, 2, 1])) (.leaf [26, 21, 70, 44, 68, 38, 64, 45, 20, 24, 65, 3, 37, 15,
  7, 4, 0, 8, 2, 9, 1, 10])) (.leaf [26, 21, 70, 44, 68, 38, 64, 45, 20, 24, 65, 3, 37, 15, 7, 4,
  0, 8, 2, 9, 1, 10])) (.leaf [26, 21, 70, 44, 68, 11, 38, 64, 45, 20, 24, 12, 65, 3, 37, 15, 5, 4,
  0, 6, 2, 1])) (.leaf [26, 21, 70, 44, 68, 38, 64, 45, 20, 24, 65, 3, 37, 15, 7, 4, 0, 8, 2, 9, 1,
  10])) (.leaf [26, 21, 70, 44, 68, 38, 64, 45, 20, 24, 65, 3, 37, 15, 7, 4, 0, 8, 2, 9, 1, 10]))
  (.leaf [26, 21, 70, 44, 68, 38, 64, 45, 20, 24, 65, 3, 37, 15, 7, 4, 0, 8, 2, 9, 1, 10])) (.leaf
  [26, 21, 70, 44, 68, 38, 64, 45, 20, 24, 65, 3, 37, 15, 7, 4, 0, 8, 2, 9, 1, 10])) (.leaf [26,
  21, 70, 44, 68, 38, 64, 45, 20, 24, 65, 3, 37, 15, 7, 4, 0, 8, 2, 9, 1, 10])) (.leaf [26, 21, 70,
  44, 68, 11, 38, 64, 45, 20, 24, 12, 65, 3, 37, 15, 5, 4, 0, 6, 2, 1])) (.leaf [26, 21, 70, 44,
  68, 38, 64, 45, 20, 24, 65, 3, 37, 15, 7, 4, 0, 8, 2, 9, 1, 10])) (.leaf [26, 21, 70, 44, 68, 38,
  64, 45, 20, 24, 65, 3, 37, 15, 7, 4, 0, 8, 2, 9, 1, 10])) (.leaf [26, 21, 70, 44, 68, 38, 64, 45,
  20, 24, 65, 3, 37, 15, 7, 4, 0, 8, 2, 9, 1, 10])) (.leaf [26, 21, 70, 44, 68, 38, 64, 45, 20, 24,
  65, 3, 37, 15, 7, 4, 0, 8, 2, 9, 1, 10])) (.leaf [26, 21, 70, 44, 68, 38, 64, 45, 20, 24, 65, 3,
  37, 15, 7, 4, 0, 8, 2, 9, 1, 10])) (.leaf [26, 21, 70, 44, 68, 11, 38, 64, 45, 20, 24, 12, 65, 3,
  37, 15, 5, 4, 0, 6, 2, 1])

/-- some of the cases -/
def real5OneCase119 : LooseTree :=
  .cases [] 35 (.breaks 18948289 (.cycle 18 [146, 147, 148]) (.cycle 18 [146, 147, 148])) (.cases
  [] 36 (.cases [] 55 (.leaf [161, 162]) (.leaf [160])) (.breaks 18927810 (.breaks 4235346 (.breaks
  13664291 (.breaks 13684817 (.breaks 8421409 (.breaks 10526913 (.breaks 8421393 (.breaks 10526737
  (.breaks 8421505 (.breaks 10526753 (.breaks 8421521 (.breaks 10526721 (.leaf
  [26, 101, 87, 38, 102, 0, 103, 3, 104, 4, 64, 2, 65, 1]) (.leaf
  [26, 101, 87, 38, 102, 0, 103, 3, 104, 4, 64, 2, 65, 1])) (.leaf
  [26, 101, 87, 38, 102, 0, 103, 3, 104, 4, 64, 2, 65, 1])) (.leaf
  [26, 101, 87, 38, 102, 0, 103, 3, 104, 4, 64, 2, 65, 1])) (.leaf
  [26, 101, 87, 38, 102, 0, 103, 3, 104, 4, 64, 2, 65, 1])) (.leaf
  [26, 101, 87, 38, 102, 0, 103, 3, 104, 4, 64, 2, 65, 1])) (.leaf
  [26, 101, 87, 38, 102, 0, 103, 3, 104, 4, 64, 2, 65, 1])) (.leaf
  [26, 101, 87, 38, 102, 0, 103, 3, 104, 4, 64, 2, 65, 1])) (.leaf
  [26, 101, 87, 38, 102, 0, 103, 3, 104, 4, 64, 2, 65, 1])) (.leaf
  [26, 101, 87, 38, 102, 0, 103, 3, 104, 4, 64, 2, 65, 1])) (.leaf
  [26, 101, 87, 38, 102, 0, 103, 3, 104, 4, 64, 2, 65, 1])) (.leaf
  [26, 101, 87, 38, 102, 0, 103, 3, 104, 4, 64, 2, 65, 1])) (.leaf
  [26, 101, 87, 38, 102, 0, 103, 3, 104, 4, 64, 2, 65, 1])))

/-- some of the cases -/
def real5OneCase120 : LooseTree :=
  .breaks 22097938 (.breaks 20000897 (.breaks 24211537 (.breaks 10526913 (.breaks 20000945 (.breaks
  20013237 (.breaks 24170693 (.breaks 10526737 (.breaks 13684817 (.breaks 20000929 (.breaks
  23158913 (.breaks 10526753 (.breaks 23158801 (.breaks 10526721 (.leaf [26, 21, 71, 38, 51, 20, 3,
  35, 44, 15, 4, 0, 36, 45, 2, 37, 1]) (.leaf [26, 21, 71, 38, 51, 20, 3, 35, 44, 15, 4, 0, 36, 45,
  2, 37, 1])) (.leaf [26, 21, 71, 38, 51, 20, 3, 35, 44, 15, 4, 0, 36, 45, 2, 37, 1])) (.leaf [26,
  21, 71, 38, 51, 20, 3, 35, 44, 15, 4, 0, 36, 45, 2, 37, 1])) (.leaf [26, 21, 71, 38, 51, 20, 3,
  35, 44, 15, 4, 0, 36, 45, 2, 37, 1])) (.leaf [26, 21, 71, 38, 51, 20, 3, 35, 44, 15, 4, 0, 36,
  45, 2, 37, 1])) (.leaf [26, 21, 71, 38, 51, 20, 3, 35, 44, 15, 4, 0, 36, 45, 2, 37, 1])) (.leaf
  [26, 21, 71, 38, 51, 20, 3, 35, 44, 15, 4, 0, 36, 45, 2, 37, 1])) (.leaf [26, 21, 71, 38, 51, 20,
  3, 35, 44, 15, 4, 0, 36, 45, 2, 37, 1])) (.leaf [26, 21, 71, 38, 51, 20, 3, 35, 44, 15, 4, 0, 36,
  45, 2, 37, 1])) (.leaf [26, 21, 71, 38, 51, 20, 3, 35, 44, 15, 4, 0, 36, 45, 2, 37, 1])) (.leaf
  [26, 21, 71, 38, 51, 20, 3, 35, 44, 15, 4, 0, 36, 45, 2, 37, 1])) (.leaf [26, 21, 71, 38, 51, 20,
  3, 35, 44, 15, 4, 0, 36, 45, 2, 37, 1])) (.leaf [26, 21, 71, 38, 51, 20, 3, 35, 44, 15, 4, 0, 36,
  45, 2, 37, 1])) (.leaf [26, 21, 71, 38, 51, 20, 3, 35, 44, 15, 4, 0, 36, 45, 2, 37, 1])

/-- some of the cases -/
def real5OneCase121 : LooseTree :=
  .breaks 17920098 (.breaks 17907794 (.breaks 26288325 (.breaks 4235346 (.breaks 18948177 (.breaks
  21053633 (.breaks 24211537 (.breaks 10526913 (.breaks 18948209 (.breaks 21053457 (.breaks
  24170693 (.breaks 24211649 (.breaks 10526737 (.breaks 13684817 (.breaks 21053473 (.breaks
  24211473 (.breaks 10526753 (.breaks 21053441 (.breaks 24211489 (.breaks 10526721 (.breaks
  24211457 (.leaf [26, 21, 47, 80, 38, 13, 27, 20, 3, 14, 28, 15, 7, 4, 0, 22, 8, 2, 23, 9, 1, 10])
  (.leaf [26, 21, 47, 80, 11, 38, 13, 27, 20, 12, 3, 14, 28, 15, 5, 4, 0, 22, 6, 2, 23, 1])) (.leaf
  [26, 21, 47, 80, 38, 13, 27, 20, 3, 14, 28, 15, 7, 4, 0, 22, 8, 2, 23, 9, 1, 10])) (.leaf [26,
  21, 47, 80, 11, 38, 13, 27, 20, 12, 3, 14, 28, 15, 5, 4, 0, 22, 6, 2, 23, 1])) (.leaf [26, 21,
  47, 80, 38, 13, 27, 20, 3, 14, 28, 15, 7, 4, 0, 22, 8, 2, 23, 9, 1, 10])) (.leaf [26, 21, 47, 80,
  38, 13, 27, 20, 3, 14, 28, 15, 7, 4, 0, 22, 8, 2, 23, 9, 1, 10])) (.leaf [26, 21, 47, 80, 11, 38,
  13, 27, 20, 12, 3, 14, 28, 15, 5, 4, 0, 22, 6, 2, 23, 1])) (.leaf [26, 21, 47, 80, 38, 13, 27,
  20, 3, 14, 28, 15, 7, 4, 0, 22, 8, 2, 23, 9, 1, 10])) (.leaf [26, 21, 47, 80, 38, 13, 27, 20, 3,
  14, 28, 15, 7, 4, 0, 22, 8, 2, 23, 9, 1, 10])) (.leaf [26, 21, 47, 80, 38, 13, 27, 20, 3, 14, 28,
  15, 7, 4, 0, 22, 8, 2, 23, 9, 1, 10])) (.leaf [26, 21, 47, 80, 11, 38, 13, 27, 20, 12, 3, 14, 28,
  15, 5, 4, 0, 22, 6, 2, 23, 1])) (.leaf [26, 21, 47, 80, 38, 13, 27, 20, 3, 14, 28, 15, 7, 4, 0,
  22, 8, 2, 23, 9, 1, 10])) (.leaf [26, 21, 47, 80, 38, 13, 27, 20, 3, 14, 28, 15, 7, 4, 0, 22, 8,
  2, 23, 9, 1, 10])) (.leaf [26, 21, 47, 80, 38, 13, 27, 20, 3, 14, 28, 15, 7, 4, 0, 22, 8, 2, 23,
  9, 1, 10])) (.leaf [26, 21, 47, 80, 38, 13, 27, 20, 3, 14, 28, 15, 7, 4, 0, 22, 8, 2, 23, 9, 1,
  10])) (.leaf [26, 21, 47, 48, 80, 11, 38, 13, 35, 27, 20, 12, 3, 14, 36, 28, 15, 5, 4, 0, 22, 6,
  2, 23, 1])) (.leaf [26, 21, 47, 80, 38, 13, 27, 20, 3, 14, 28, 15, 7, 4, 0, 22, 8, 2, 23, 9, 1,
  10])) (.leaf [26, 21, 47, 80, 38, 13, 27, 20, 3, 14, 28, 15, 7, 4, 0, 22, 8, 2, 23, 9, 1, 10]))
  (.leaf [26, 21, 47, 80, 38, 13, 27, 20, 3, 14, 28, 15, 7, 4, 0, 22, 8, 2, 23, 9, 1, 10])) (.leaf
  [26, 21, 47, 80, 38, 13, 27, 20, 3, 14, 28, 15, 7, 4, 0, 22, 8, 2, 23, 9, 1, 10])) (.leaf [26,
  21, 47, 80, 38, 13, 27, 20, 3, 14, 28, 15, 7, 4, 0, 22, 8, 2, 23, 9, 1, 10])) (.leaf [26, 21, 47,
  48, 80, 11, 38, 13, 35, 27, 20, 12, 3, 14, 36, 28, 15, 5, 4, 0, 22, 6, 2, 23, 1])

/-- some of the cases -/
def real5OneCase122 : LooseTree :=
  .breaks 17920098 (.breaks 25268307 (.breaks 24211537 (.breaks 26316881 (.breaks 10526913 (.breaks
  24170693 (.breaks 24211649 (.breaks 26288325 (.breaks 26316993 (.breaks 10526737 (.breaks
  13684817 (.breaks 18948177 (.breaks 24211473 (.breaks 26316817 (.breaks 10526753 (.breaks
  18948209 (.breaks 24211489 (.breaks 26316833 (.breaks 10526721 (.breaks 24211457 (.breaks
  26316801 (.leaf [26, 21, 112, 38, 20, 106, 3, 15, 7, 80, 40, 4, 0, 13, 8, 41, 2, 14, 9, 42, 1,
  10, 43]) (.leaf [26, 21, 112, 11, 38, 20, 106, 12, 3, 15, 7, 80, 5, 4, 0, 13, 8, 6, 2, 14, 9, 1,
  10])) (.leaf [26, 21, 112, 11, 38, 20, 106, 12, 3, 15, 80, 40, 5, 4, 0, 13, 41, 6, 2, 14, 42, 1,
  43])) (.leaf [26, 21, 112, 38, 20, 106, 3, 15, 7, 80, 40, 4, 0, 13, 8, 41, 2, 14, 9, 42, 1, 10,
  43])) (.leaf [26, 21, 112, 11, 38, 20, 106, 12, 3, 15, 7, 80, 5, 4, 0, 13, 8, 6, 2, 14, 9, 1,
  10])) (.leaf [26, 21, 112, 11, 38, 20, 106, 12, 3, 15, 80, 40, 5, 4, 0, 13, 41, 6, 2, 14, 42, 1,
  43])) (.leaf [26, 21, 112, 38, 20, 106, 3, 15, 7, 80, 40, 4, 0, 13, 8, 41, 2, 14, 9, 42, 1, 10,
  43])) (.leaf [26, 21, 112, 38, 20, 106, 3, 15, 7, 80, 40, 4, 0, 13, 8, 41, 2, 14, 9, 42, 1, 10,
  43])) (.leaf [26, 21, 112, 11, 38, 20, 106, 12, 3, 15, 7, 80, 5, 4, 0, 13, 8, 6, 2, 14, 9, 1,
  10])) (.leaf [26, 21, 112, 11, 38, 20, 106, 12, 3, 15, 80, 40, 5, 4, 0, 13, 41, 6, 2, 14, 42, 1,
  43])) (.leaf [26, 21, 112, 38, 20, 106, 3, 15, 7, 80, 40, 4, 0, 13, 8, 41, 2, 14, 9, 42, 1, 10,
  43])) (.leaf [26, 21, 112, 38, 20, 106, 3, 15, 7, 80, 40, 4, 0, 13, 8, 41, 2, 14, 9, 42, 1, 10,
  43])) (.leaf [26, 21, 112, 38, 20, 106, 3, 15, 7, 80, 40, 4, 0, 13, 8, 41, 2, 14, 9, 42, 1, 10,
  43])) (.leaf [26, 21, 112, 11, 38, 20, 106, 12, 3, 15, 7, 80, 5, 4, 0, 13, 8, 6, 2, 14, 9, 1,
  10])) (.leaf [26, 21, 112, 38, 20, 106, 3, 15, 7, 80, 40, 4, 0, 13, 8, 41, 2, 14, 9, 42, 1, 10,
  43])) (.leaf [26, 21, 112, 11, 38, 20, 106, 12, 3, 15, 80, 40, 5, 4, 0, 13, 41, 6, 2, 14, 42, 1,
  43])) (.leaf [26, 21, 112, 38, 20, 106, 3, 15, 7, 80, 40, 4, 0, 13, 8, 41, 2, 14, 9, 42, 1, 10,
  43])) (.leaf [26, 21, 112, 38, 20, 106, 3, 15, 7, 80, 40, 4, 0, 13, 8, 41, 2, 14, 9, 42, 1, 10,
  43])) (.leaf [26, 21, 112, 11, 38, 20, 106, 12, 3, 15, 7, 80, 40, 5, 4, 0, 13, 8, 41, 6, 2, 14,
  9, 42, 1, 10, 43])) (.leaf [26, 21, 112, 11, 38, 20, 106, 12, 3, 15, 80, 40, 5, 4, 0, 13, 41, 6,
  2, 14, 42, 1, 43])) (.leaf [26, 21, 112, 11, 38, 20, 106, 12, 3, 15, 7, 80, 40, 5, 4, 0, 13, 8,
  41, 6, 2, 14, 9, 42, 1, 10, 43])) (.leaf [26, 21, 112, 11, 38, 20, 106, 12, 3, 15, 80, 40, 5, 4,
  0, 13, 41, 6, 2, 14, 42, 1, 43])

/-- some of the cases -/
def real5OneCase123 : LooseTree :=
  .breaks 1065045 (.breaks 17920098 (.breaks 23146629 (.breaks 26288325 (.breaks 26312787 (.breaks
  4210881 (.breaks 4235346 (.breaks 18948177 (.breaks 20000945 (.breaks 24211537 (.breaks 25264209
  (.breaks 4210705 (.breaks 10526913 (.breaks 18948209 (.breaks 20000929 (.breaks 24170693 (.breaks
  24211649 (.breaks 4210721 (.breaks 10526737 (.breaks 13684817 (.breaks 24211473 (.breaks 4210689
  (.breaks 10526753 (.breaks 24211489 (.breaks 10526721 (.breaks 24211457 (.leaf [26, 21, 48, 80,
  117, 11, 38, 13, 35, 20, 24, 12, 3, 14, 36, 15, 7, 5, 4, 0, 8, 6, 2, 9, 1, 10]) (.leaf [26, 21,
  50, 48, 80, 11, 38, 16, 13, 35, 20, 12, 3, 17, 14, 36, 15, 7, 5, 4, 0, 18, 8, 6, 2, 19, 9, 1,
  10])) (.leaf [26, 21, 50, 48, 80, 11, 38, 16, 13, 35, 20, 12, 3, 17, 14, 36, 15, 7, 5, 4, 0, 18,
  8, 6, 2, 19, 9, 1, 10])) (.leaf [26, 21, 50, 48, 80, 11, 38, 16, 13, 35, 20, 12, 3, 17, 14, 36,
  15, 7, 5, 4, 0, 18, 8, 6, 2, 19, 9, 1, 10])) (.leaf [26, 21, 50, 48, 80, 11, 38, 16, 13, 35, 20,
  12, 3, 17, 14, 36, 15, 7, 5, 4, 0, 18, 8, 6, 2, 19, 9, 1, 10])) (.leaf [26, 21, 50, 48, 80, 11,
  38, 16, 13, 35, 20, 12, 3, 17, 14, 36, 15, 7, 5, 4, 0, 18, 8, 6, 2, 19, 9, 1, 10])) (.leaf [26,
  21, 50, 48, 80, 11, 38, 16, 13, 35, 20, 12, 3, 17, 14, 36, 15, 7, 5, 4, 0, 18, 8, 6, 2, 19, 9, 1,
  10])) (.leaf [26, 21, 50, 48, 80, 11, 38, 16, 13, 35, 20, 12, 3, 17, 14, 36, 15, 7, 5, 4, 0, 18,
  8, 6, 2, 19, 9, 1, 10])) (.leaf [26, 21, 50, 48, 80, 11, 38, 16, 13, 35, 20, 12, 3, 17, 14, 36,
  15, 7, 5, 4, 0, 18, 8, 6, 2, 19, 9, 1, 10])) (.leaf [26, 21, 50, 48, 80, 11, 38, 16, 13, 35, 20,
  12, 3, 17, 14, 36, 15, 7, 5, 4, 0, 18, 8, 6, 2, 19, 9, 1, 10])) (.leaf [26, 21, 50, 48, 80, 11,
  38, 16, 13, 35, 20, 12, 3, 17, 14, 36, 15, 7, 5, 4, 0, 18, 8, 6, 2, 19, 9, 1, 10])) (.leaf [26,
  21, 50, 48, 80, 11, 38, 16, 13, 35, 20, 12, 3, 17, 14, 36, 15, 7, 5, 4, 0, 18, 8, 6, 2, 19, 9, 1,
  10])) (.leaf [26, 21, 50, 48, 80, 11, 38, 16, 13, 35, 20, 12, 3, 17, 14, 36, 15, 7, 5, 4, 0, 18,
  8, 6, 2, 19, 9, 1, 10])) (.leaf [26, 21, 50, 48, 80, 11, 38, 16, 13, 35, 20, 12, 3, 17, 14, 36,
  15, 7, 5, 4, 0, 18, 8, 6, 2, 19, 9, 1, 10])) (.leaf [26, 21, 50, 48, 80, 11, 38, 16, 13, 35, 20,
  12, 3, 17, 14, 36, 15, 7, 5, 4, 0, 18, 8, 6, 2, 19, 9, 1, 10])) (.leaf [26, 21, 50, 48, 80, 11,
  38, 16, 13, 35, 20, 12, 3, 17, 14, 36, 15, 7, 5, 4, 0, 18, 8, 6, 2, 19, 9, 1, 10])) (.leaf [26,
  21, 50, 48, 80, 11, 38, 16, 13, 35, 20, 12, 3, 17, 14, 36, 15, 7, 5, 4, 0, 18, 8, 6, 2, 19, 9, 1,
  10])) (.leaf [26, 21, 50, 48, 80, 117, 11, 38, 16, 13, 35, 20, 24, 12, 3, 17, 14, 36, 15, 7, 5,
  4, 0, 18, 8, 6, 2, 19, 9, 1, 10])) (.leaf [26, 21, 50, 48, 80, 11, 38, 16, 13, 35, 20, 12, 3, 17,
  14, 36, 15, 7, 5, 4, 0, 18, 8, 6, 2, 19, 9, 1, 10])) (.leaf [26, 21, 50, 48, 80, 11, 38, 16, 13,
  35, 20, 12, 3, 17, 14, 36, 15, 7, 5, 4, 0, 18, 8, 6, 2, 19, 9, 1, 10])) (.leaf [26, 21, 50, 48,
  80, 11, 38, 16, 13, 35, 20, 12, 3, 17, 14, 36, 15, 7, 5, 4, 0, 18, 8, 6, 2, 19, 9, 1, 10]))
  (.leaf [26, 21, 50, 48, 80, 11, 38, 16, 13, 35, 20, 12, 3, 17, 14, 36, 15, 7, 5, 4, 0, 18, 8, 6,
  2, 19, 9, 1, 10])) (.leaf [26, 21, 50, 48, 80, 11, 38, 16, 13, 35, 20, 12, 3, 17, 14, 36, 15, 7,
  5, 4, 0, 18, 8, 6, 2, 19, 9, 1, 10])) (.leaf [26, 21, 50, 48, 80, 11, 38, 16, 13, 35, 20, 12, 3,
  17, 14, 36, 15, 7, 5, 4, 0, 18, 8, 6, 2, 19, 9, 1, 10])) (.leaf [26, 21, 50, 48, 80, 11, 38, 16,
  13, 35, 20, 12, 3, 17, 14, 36, 15, 7, 5, 4, 0, 18, 8, 6, 2, 19, 9, 1, 10])) (.leaf [26, 21, 50,
  48, 80, 117, 11, 38, 16, 13, 35, 20, 24, 12, 3, 17, 14, 36, 15, 7, 5, 4, 0, 18, 8, 6, 2, 19, 9,
  1, 10])) (.leaf [26, 21, 50, 48, 80, 117, 11, 38, 16, 13, 35, 20, 24, 12, 3, 17, 14, 36, 15, 7,
  5, 4, 0, 18, 8, 6, 2, 19, 9, 1, 10])

/-- some of the cases -/
def real5OneCase124 : LooseTree :=
  .breaks 17920098 (.breaks 25239746 (.breaks 9474065 (.breaks 18948177 (.breaks 18976853 (.breaks
  24211537 (.breaks 9474177 (.breaks 10526913 (.breaks 18948209 (.breaks 24170693 (.breaks 24211649
  (.breaks 26316993 (.breaks 9474193 (.breaks 10526737 (.breaks 13684817 (.breaks 24211473 (.breaks
  26316817 (.breaks 10526753 (.breaks 24211489 (.breaks 26316833 (.breaks 10526721 (.breaks
  24211457 (.breaks 26316801 (.leaf [26, 61, 21, 63, 38, 62, 13, 67, 20, 55, 3, 14, 15, 7, 40, 56,
  4, 0, 8, 41, 2, 9, 42, 1, 10, 43]) (.leaf [26, 61, 21, 63, 38, 62, 13, 67, 20, 55, 3, 14, 15, 7,
  40, 56, 4, 0, 8, 41, 2, 9, 42, 1, 10, 43])) (.leaf [26, 61, 21, 63, 11, 38, 62, 13, 67, 20, 12,
  55, 3, 14, 15, 40, 5, 56, 4, 0, 41, 6, 2, 42, 1, 43])) (.leaf [26, 61, 21, 63, 38, 62, 13, 67,
  20, 55, 3, 14, 15, 7, 40, 56, 4, 0, 8, 41, 2, 9, 42, 1, 10, 43])) (.leaf [26, 61, 21, 63, 38, 62,
  13, 67, 20, 55, 3, 14, 15, 7, 40, 56, 4, 0, 8, 41, 2, 9, 42, 1, 10, 43])) (.leaf [26, 61, 21, 63,
  11, 38, 62, 13, 67, 20, 12, 55, 3, 14, 15, 40, 5, 56, 4, 0, 41, 6, 2, 42, 1, 43])) (.leaf [26,
  61, 21, 63, 38, 62, 13, 67, 20, 55, 3, 14, 15, 7, 40, 56, 4, 0, 8, 41, 2, 9, 42, 1, 10, 43]))
  (.leaf [26, 61, 21, 63, 38, 62, 13, 67, 20, 55, 3, 14, 15, 7, 40, 56, 4, 0, 8, 41, 2, 9, 42, 1,
  10, 43])) (.leaf [26, 61, 21, 63, 11, 38, 62, 13, 67, 20, 12, 55, 3, 14, 15, 40, 5, 56, 4, 0, 41,
  6, 2, 42, 1, 43])) (.leaf [26, 61, 21, 63, 38, 62, 13, 67, 20, 55, 3, 14, 15, 7, 40, 56, 4, 0, 8,
  41, 2, 9, 42, 1, 10, 43])) (.leaf [26, 61, 21, 63, 38, 62, 13, 67, 20, 55, 3, 14, 15, 7, 40, 56,
  4, 0, 8, 41, 2, 9, 42, 1, 10, 43])) (.leaf [26, 61, 21, 63, 38, 62, 13, 67, 20, 55, 3, 14, 15, 7,
  40, 56, 4, 0, 8, 41, 2, 9, 42, 1, 10, 43])) (.leaf [26, 61, 21, 63, 38, 62, 13, 67, 20, 55, 3,
  14, 15, 7, 40, 56, 4, 0, 8, 41, 2, 9, 42, 1, 10, 43])) (.leaf [26, 61, 21, 63, 11, 38, 62, 13,
  67, 20, 12, 55, 3, 14, 15, 40, 5, 56, 4, 0, 41, 6, 2, 42, 1, 43])) (.leaf [26, 61, 21, 63, 38,
  62, 13, 67, 20, 55, 3, 14, 15, 7, 40, 56, 4, 0, 8, 41, 2, 9, 42, 1, 10, 43])) (.leaf [26, 61, 21,
  63, 38, 62, 13, 67, 20, 55, 3, 14, 15, 7, 40, 56, 4, 0, 8, 41, 2, 9, 42, 1, 10, 43])) (.leaf [26,
  61, 21, 63, 38, 62, 13, 67, 20, 55, 3, 14, 15, 7, 40, 56, 4, 0, 8, 41, 2, 9, 42, 1, 10, 43]))
  (.leaf [26, 61, 21, 63, 38, 62, 13, 67, 20, 55, 3, 14, 15, 7, 40, 56, 4, 0, 8, 41, 2, 9, 42, 1,
  10, 43])) (.leaf [26, 61, 21, 63, 11, 38, 62, 13, 67, 20, 12, 55, 3, 14, 15, 40, 5, 56, 4, 0, 41,
  6, 2, 42, 1, 43])) (.leaf [26, 61, 21, 63, 38, 62, 13, 67, 20, 55, 3, 14, 15, 7, 40, 56, 4, 0, 8,
  41, 2, 9, 42, 1, 10, 43])) (.leaf [26, 61, 21, 63, 38, 62, 13, 67, 20, 55, 3, 14, 15, 7, 40, 56,
  4, 0, 8, 41, 2, 9, 42, 1, 10, 43])) (.leaf [26, 128, 21, 63, 38, 55, 13, 67, 20, 56, 3, 14, 15,
  7, 40, 4, 0, 8, 41, 2, 9, 42, 1, 10, 43])) (.leaf [26, 61, 21, 63, 38, 62, 13, 67, 20, 55, 3, 14,
  15, 7, 40, 56, 4, 0, 8, 41, 2, 9, 42, 1, 10, 43])) (.leaf [26, 61, 21, 63, 11, 38, 62, 13, 67,
  20, 12, 55, 3, 14, 15, 40, 5, 56, 4, 0, 41, 6, 2, 42, 1, 43])

/-- some of the cases -/
def real5OneCase125 : LooseTree :=
  .breaks 1065043 (.breaks 17920098 (.breaks 25239746 (.breaks 4210769 (.breaks 4235362 (.breaks
  18948177 (.breaks 18976853 (.breaks 24211537 (.breaks 4210881 (.breaks 10526801 (.breaks 18948209
  (.breaks 24170693 (.breaks 26316993 (.breaks 4210705 (.breaks 10526913 (.breaks 13684817 (.breaks
  26316817 (.breaks 4210721 (.breaks 10526737 (.breaks 26316833 (.breaks 4210689 (.breaks 10526753
  (.breaks 26316801 (.breaks 10526721 (.leaf [53, 21, 63, 54, 59, 13, 67, 20, 11, 46, 14, 15, 40,
  12, 3, 0, 41, 5, 4, 42, 6, 2, 43, 1]) (.leaf [53, 21, 63, 54, 59, 13, 67, 20, 11, 46, 14, 15, 7,
  40, 12, 3, 0, 8, 41, 5, 4, 9, 42, 6, 2, 10, 43, 1])) (.leaf [53, 21, 63, 54, 59, 13, 67, 20, 11,
  46, 14, 15, 7, 40, 12, 3, 0, 8, 41, 5, 4, 9, 42, 6, 2, 10, 43, 1])) (.leaf [53, 21, 63, 54, 59,
  13, 67, 20, 11, 46, 14, 15, 7, 40, 12, 3, 0, 8, 41, 5, 4, 9, 42, 6, 2, 10, 43, 1])) (.leaf [53,
  21, 63, 54, 59, 13, 67, 20, 11, 46, 14, 15, 7, 40, 12, 3, 0, 8, 41, 5, 4, 9, 42, 6, 2, 10, 43,
  1])) (.leaf [53, 21, 63, 54, 59, 13, 67, 20, 11, 46, 14, 15, 7, 40, 12, 3, 0, 8, 41, 5, 4, 9, 42,
  6, 2, 10, 43, 1])) (.leaf [53, 21, 63, 54, 59, 13, 67, 20, 11, 46, 14, 15, 7, 40, 12, 3, 0, 8,
  41, 5, 4, 9, 42, 6, 2, 10, 43, 1])) (.leaf [53, 21, 63, 54, 59, 13, 67, 20, 11, 46, 14, 15, 7,
  40, 12, 3, 0, 8, 41, 5, 4, 9, 42, 6, 2, 10, 43, 1])) (.leaf [53, 21, 63, 54, 59, 13, 67, 20, 11,
  46, 14, 15, 7, 40, 12, 3, 0, 8, 41, 5, 4, 9, 42, 6, 2, 10, 43, 1])) (.leaf [53, 21, 63, 54, 59,
  13, 67, 20, 11, 46, 14, 15, 7, 40, 12, 3, 0, 8, 41, 5, 4, 9, 42, 6, 2, 10, 43, 1])) (.leaf [53,
  21, 63, 54, 59, 13, 67, 20, 11, 46, 14, 15, 7, 40, 12, 3, 0, 8, 41, 5, 4, 9, 42, 6, 2, 10, 43,
  1])) (.leaf [53, 21, 63, 54, 59, 13, 67, 20, 11, 46, 14, 15, 7, 40, 12, 3, 0, 8, 41, 5, 4, 9, 42,
  6, 2, 10, 43, 1])) (.leaf [53, 21, 63, 54, 59, 13, 67, 20, 11, 46, 14, 15, 7, 40, 12, 3, 0, 8,
  41, 5, 4, 9, 42, 6, 2, 10, 43, 1])) (.leaf [53, 21, 63, 54, 59, 13, 67, 20, 11, 46, 14, 15, 7,
  40, 12, 3, 0, 8, 41, 5, 4, 9, 42, 6, 2, 10, 43, 1])) (.leaf [53, 21, 63, 54, 59, 13, 67, 20, 11,
  46, 14, 15, 7, 40, 12, 3, 0, 8, 41, 5, 4, 9, 42, 6, 2, 10, 43, 1])) (.leaf [53, 21, 63, 54, 59,
  13, 67, 20, 11, 46, 14, 15, 7, 40, 12, 3, 0, 8, 41, 5, 4, 9, 42, 6, 2, 10, 43, 1])) (.leaf [53,
  21, 63, 54, 59, 13, 67, 20, 11, 46, 14, 15, 7, 40, 12, 3, 0, 8, 41, 5, 4, 9, 42, 6, 2, 10, 43,
  1])) (.leaf [53, 21, 48, 63, 54, 59, 13, 67, 35, 20, 11, 46, 14, 36, 15, 40, 12, 3, 0, 41, 5, 4,
  42, 6, 2, 43, 1])) (.leaf [53, 21, 63, 54, 59, 13, 67, 20, 11, 46, 14, 15, 7, 40, 12, 3, 0, 8,
  41, 5, 4, 9, 42, 6, 2, 10, 43, 1])) (.leaf [53, 21, 63, 54, 59, 13, 67, 20, 11, 46, 14, 15, 7,
  40, 12, 3, 0, 8, 41, 5, 4, 9, 42, 6, 2, 10, 43, 1])) (.leaf [53, 21, 63, 54, 59, 13, 67, 20, 11,
  46, 14, 15, 7, 40, 12, 3, 0, 8, 41, 5, 4, 9, 42, 6, 2, 10, 43, 1])) (.leaf [53, 21, 63, 54, 59,
  13, 67, 20, 11, 46, 14, 15, 7, 40, 12, 3, 0, 8, 41, 5, 4, 9, 42, 6, 2, 10, 43, 1])) (.leaf [53,
  21, 63, 54, 59, 13, 67, 20, 11, 46, 14, 15, 7, 40, 12, 3, 0, 8, 41, 5, 4, 9, 42, 6, 2, 10, 43,
  1])) (.leaf [53, 21, 48, 63, 54, 59, 13, 67, 35, 20, 11, 46, 14, 36, 15, 40, 12, 3, 0, 41, 5, 4,
  42, 6, 2, 43, 1])) (.leaf [53, 21, 63, 54, 59, 13, 67, 20, 11, 46, 14, 15, 7, 40, 12, 3, 0, 8,
  41, 5, 4, 9, 42, 6, 2, 10, 43, 1])

/-- some of the cases -/
def real5OneCase126 : LooseTree :=
  .cases [] 19 (.cases [] 10 (.breaks 1065045 (.breaks 4198483 (.cycle 33 [26, 99]) (.leaf [26, 21,
  47, 63, 11, 38, 13, 67, 27, 20, 12, 3, 14, 28, 15, 7, 40, 5, 4, 0, 22, 8, 41, 6, 2, 23, 9, 42, 1,
  10, 43])) (.leaf [26, 21, 47, 48, 63, 11, 38, 13, 67, 35, 27, 20, 12, 3, 14, 36, 28, 15, 7, 40,
  5, 4, 0, 22, 8, 41, 6, 2, 23, 9, 42, 1, 10, 43])) (.cases [] 37 (.breaks 1065045 (.breaks 4198483
  (.cycle 33 [26, 99]) (.leaf [26, 108, 72, 21, 48, 63, 11, 74, 1, 13, 67, 35, 20, 12, 14, 36, 22,
  15, 7, 40, 5, 0, 23, 8, 41, 6, 9, 42, 10, 43])) (.leaf [26, 108, 72, 21, 50, 48, 63, 11, 74, 1,
  16, 13, 67, 35, 20, 12, 17, 14, 36, 22, 15, 7, 40, 5, 0, 18, 23, 8, 41, 6, 19, 9, 42, 10, 43]))
  (.cases [] 27 (.cases [] 18 (.cases [] 25 (.breaks 1065045 (.breaks 4198483 (.cycle 33 [26, 99])
  (.leaf [26, 21, 63, 84, 38, 13, 67, 48, 20, 3, 14, 35, 15, 7, 40, 4, 0, 36, 8, 41, 2, 9, 42, 134,
  1, 10, 43, 135, 72, 74, 22, 23])) (.leaf [26, 72, 21, 63, 84, 85, 38, 74, 13, 67, 48, 37, 20, 3,
  14, 35, 22, 15, 7, 40, 4, 0, 36, 23, 8, 41, 2, 9, 42, 1, 10, 43])) (.cases [] 51 (.breaks 1065045
  (.breaks 4198483 (.cycle 33 [26, 99]) (.cycle 18 [67, 139])) (.cycle 18 [67, 139])) (.breaks
  1065045 (.breaks 4198483 (.cycle 33 [26, 99]) (.leaf [26, 21, 63, 38, 13, 20, 3, 14, 155, 15, 7,
  4, 0, 8, 106, 2, 9, 40, 134, 1, 10, 41, 135, 42, 72, 43, 74, 22, 23])) (.leaf [26, 72, 21, 48,
  63, 38, 74, 13, 35, 20, 3, 14, 155, 36, 22, 15, 7, 4, 0, 23, 8, 106, 2, 9, 40, 1, 10, 41, 42,
  43])))) (.breaks 1065045 (.breaks 4198483 (.cycle 33 [26, 99]) (.leaf [26, 21, 70, 63, 38, 64,
  13, 67, 20, 65, 3, 14, 15, 7, 40, 4, 0, 8, 41, 2, 9, 42, 134, 1, 10, 43, 135, 72, 74, 22, 23]))
  (.leaf [26, 72, 21, 70, 48, 63, 38, 74, 64, 13, 67, 35, 20, 65, 3, 14, 36, 22, 15, 7, 40, 4, 0,
  23, 8, 41, 2, 9, 42, 1, 10, 43]))) (.breaks 1065045 (.breaks 4198483 (.cycle 33 [26, 99]) (.leaf
  [94, 26, 21, 63, 38, 5, 13, 67, 20, 6, 3, 14, 15, 7, 40, 4, 0, 8, 41, 2, 9, 42, 134, 1, 10, 43,
  135, 72, 74, 22, 23])) (.leaf [94, 26, 72, 21, 48, 63, 38, 5, 74, 13, 67, 35, 20, 6, 3, 14, 36,
  22, 15, 7, 40, 4, 0, 23, 8, 41, 2, 9, 42, 1, 10, 43]))))) (.breaks 1065045 (.breaks 4198483
  (.cycle 33 [26, 99]) (.leaf [26, 21, 71, 63, 38, 13, 67, 51, 20, 3, 14, 35, 15, 7, 40, 4, 0, 36,
  8, 41, 2, 9, 42, 1, 10, 43])) (.leaf [26, 21, 71, 63, 38, 13, 67, 51, 20, 3, 14, 35, 15, 7, 40,
  4, 0, 36, 8, 41, 2, 9, 42, 1, 10, 43]))

/-- some of the cases -/
def real5OneCase127 : LooseTree :=
  .cases [] 10 (.breaks 1065045 (.breaks 4198483 (.cycle 33 [26, 99]) (.leaf [47, 27, 28, 158]))
  (.leaf [47, 27, 28, 158])) (.cases [] 19 (.cases [] 27 (.cases [] 18 (.cases [] 25 (.breaks
  1065045 (.breaks 4198483 (.cycle 33 [26, 99]) (.leaf [26, 21, 60, 63, 84, 85, 38, 13, 67, 48, 37,
  20, 3, 14, 35, 15, 7, 40, 4, 0, 36, 8, 41, 2, 9, 42, 1, 10, 43])) (.leaf [26, 21, 63, 84, 85, 11,
  38, 13, 67, 48, 37, 20, 12, 3, 14, 35, 15, 7, 40, 5, 4, 0, 36, 8, 41, 6, 2, 9, 42, 1, 10, 43]))
  (.cases [] 51 (.breaks 1065045 (.breaks 4198483 (.cycle 33 [26, 99]) (.cycle 18 [67, 139]))
  (.cycle 18 [67, 139])) (.breaks 1065045 (.breaks 4198483 (.cycle 33 [26, 99]) (.leaf [26, 21, 60,
  63, 11, 38, 13, 20, 12, 3, 14, 155, 15, 7, 5, 4, 0, 8, 106, 6, 2, 9, 40, 1, 10, 41, 42, 43]))
  (.leaf [26, 21, 60, 48, 63, 11, 38, 13, 35, 20, 12, 3, 14, 155, 36, 15, 7, 5, 4, 0, 8, 106, 6, 2,
  9, 40, 1, 10, 41, 42, 43])))) (.breaks 1065045 (.breaks 4198483 (.cycle 33 [26, 99]) (.leaf [26,
  21, 70, 63, 11, 38, 64, 13, 67, 20, 12, 65, 3, 14, 15, 7, 40, 5, 4, 0, 8, 41, 6, 2, 9, 42, 1, 10,
  43])) (.leaf [26, 21, 70, 60, 48, 63, 38, 64, 13, 67, 35, 20, 65, 3, 14, 36, 15, 7, 40, 4, 0, 8,
  41, 2, 9, 42, 1, 10, 43]))) (.breaks 1065045 (.breaks 4198483 (.cycle 33 [26, 99]) (.leaf [94,
  26, 21, 50, 60, 48, 63, 38, 5, 16, 13, 67, 35, 20, 6, 3, 17, 14, 36, 15, 7, 40, 4, 0, 18, 8, 41,
  2, 19, 9, 42, 1, 10, 43])) (.leaf [94, 26, 21, 50, 60, 48, 63, 38, 5, 16, 13, 67, 35, 20, 6, 3,
  17, 14, 36, 15, 7, 40, 4, 0, 18, 8, 41, 2, 19, 9, 42, 1, 10, 43]))) (.breaks 1065045 (.breaks
  4198483 (.cycle 33 [26, 99]) (.leaf [26, 21, 71, 63, 38, 13, 67, 51, 20, 3, 14, 35, 15, 7, 40, 4,
  0, 36, 8, 41, 2, 9, 42, 1, 10, 43])) (.leaf [26, 21, 71, 63, 38, 13, 67, 51, 20, 3, 14, 35, 15,
  7, 40, 4, 0, 36, 8, 41, 2, 9, 42, 1, 10, 43])))

/-- some of the cases -/
def real5OneCase128 : LooseTree :=
  .cases [] 21 (.breaks 17920098 (.breaks 4235346 (.breaks 24211537 (.breaks 10526913 (.breaks
  24170693 (.breaks 24211649 (.breaks 10526737 (.breaks 13684817 (.breaks 13705410 (.breaks
  13713493 (.breaks 24211473 (.breaks 10526753 (.breaks 18948177 (.breaks 21053633 (.breaks
  24211489 (.breaks 10526721 (.breaks 18948209 (.breaks 21053457 (.breaks 24211457 (.breaks
  21053473 (.breaks 21053441 (.leaf [26, 21, 38, 20, 3, 15, 7, 4, 0, 31, 76, 8, 2, 13, 27, 9, 1,
  14, 28, 10, 22, 23]) (.leaf [26, 21, 38, 20, 3, 15, 7, 4, 0, 31, 76, 8, 2, 13, 27, 9, 1, 14, 28,
  10, 22, 23])) (.leaf [26, 21, 38, 20, 3, 15, 7, 4, 0, 31, 76, 8, 2, 13, 27, 9, 1, 14, 28, 10, 22,
  23])) (.leaf [26, 21, 11, 38, 20, 12, 3, 15, 5, 4, 0, 31, 76, 6, 2, 13, 27, 1, 14, 28, 22, 23]))
  (.leaf [26, 21, 38, 20, 3, 15, 7, 4, 0, 31, 76, 8, 2, 13, 27, 9, 1, 14, 28, 10, 22, 23])) (.leaf
  [26, 21, 11, 38, 20, 12, 3, 15, 7, 5, 4, 0, 76, 8, 6, 2, 27, 9, 1, 28, 10, 22, 23])) (.leaf [26,
  21, 38, 20, 3, 15, 7, 4, 0, 31, 76, 8, 2, 13, 27, 9, 1, 14, 28, 10, 22, 23])) (.leaf [26, 21, 11,
  38, 20, 12, 3, 15, 5, 4, 0, 31, 76, 6, 2, 13, 27, 1, 14, 28, 22, 23])) (.leaf [26, 21, 38, 20, 3,
  15, 7, 4, 0, 31, 76, 8, 2, 13, 27, 9, 1, 14, 28, 10, 22, 23])) (.leaf [26, 21, 11, 38, 20, 12, 3,
  15, 7, 5, 4, 0, 76, 8, 6, 2, 27, 9, 1, 28, 10, 22, 23])) (.leaf [26, 21, 38, 20, 3, 15, 7, 4, 0,
  31, 76, 8, 2, 13, 27, 9, 1, 14, 28, 10, 22, 23])) (.leaf [26, 21, 11, 38, 20, 12, 3, 15, 5, 4, 0,
  31, 76, 6, 2, 13, 27, 1, 14, 28, 22, 23])) (.leaf [26, 21, 38, 20, 3, 15, 7, 4, 0, 31, 76, 8, 2,
  13, 27, 9, 1, 14, 28, 10, 22, 23])) (.leaf [26, 21, 11, 38, 20, 12, 3, 15, 7, 5, 4, 0, 76, 8, 6,
  2, 27, 9, 1, 28, 10, 22, 23])) (.leaf [26, 21, 38, 20, 3, 15, 7, 4, 0, 31, 76, 8, 2, 13, 27, 9,
  1, 14, 28, 10, 22, 23])) (.leaf [26, 21, 38, 20, 3, 15, 7, 4, 0, 31, 76, 8, 2, 13, 27, 9, 1, 14,
  28, 10, 22, 23])) (.leaf [26, 21, 11, 38, 20, 12, 3, 15, 5, 4, 0, 31, 76, 6, 2, 13, 27, 1, 14,
  28, 22, 23])) (.leaf [26, 21, 11, 38, 20, 12, 3, 15, 7, 5, 4, 0, 76, 8, 6, 2, 27, 9, 1, 28, 10,
  22, 23])) (.leaf [26, 21, 38, 20, 3, 15, 7, 4, 0, 31, 76, 8, 2, 13, 27, 9, 1, 14, 28, 10, 22,
  23])) (.leaf [26, 21, 48, 11, 38, 35, 20, 12, 3, 36, 15, 5, 4, 0, 31, 76, 6, 2, 13, 27, 1, 14,
  28, 22, 23])) (.leaf [26, 21, 38, 20, 3, 15, 7, 4, 0, 31, 76, 8, 2, 13, 27, 9, 1, 14, 28, 10, 22,
  23])) (.leaf [26, 21, 48, 11, 38, 35, 20, 12, 3, 36, 15, 5, 4, 0, 31, 76, 6, 2, 13, 27, 1, 14,
  28, 22, 23])) (.breaks 17920098 (.breaks 24211537 (.breaks 24199250 (.breaks 21024965 (.breaks
  13705410 (.breaks 21053457 (.breaks 18948177 (.breaks 18972866 (.breaks 21053473 (.breaks
  18948209 (.breaks 21053441 (.breaks 25264209 (.breaks 25268309 (.breaks 26316993 (.breaks
  26316817 (.breaks 26316833 (.breaks 26316801 (.leaf [21, 20, 77, 78, 27, 0, 31, 28, 13, 34, 22,
  14, 23, 24, 58, 40, 41, 42, 43]) (.leaf [26, 21, 38, 20, 3, 77, 4, 78, 27, 2, 0, 31, 28, 1, 13,
  34, 22, 14, 23, 24])) (.leaf [26, 21, 38, 20, 3, 77, 4, 78, 27, 2, 0, 31, 28, 1, 13, 34, 22, 14,
  23, 24])) (.leaf [26, 21, 38, 20, 3, 77, 4, 78, 27, 2, 0, 31, 28, 1, 13, 34, 22, 14, 23, 24]))
  (.leaf [26, 21, 38, 20, 3, 77, 4, 78, 27, 2, 0, 31, 28, 1, 13, 34, 22, 14, 23, 24])) (.leaf [26,
  21, 38, 20, 3, 77, 4, 78, 27, 2, 0, 31, 28, 1, 13, 34, 22, 14, 23, 24])) (.leaf [21, 20, 77, 78,
  27, 0, 31, 28, 13, 34, 22, 14, 23, 24, 58, 40, 41, 42, 43])) (.leaf [21, 20, 77, 78, 27, 0, 31,
  28, 13, 34, 22, 14, 23, 24, 58, 40, 41, 42, 43])) (.leaf [21, 20, 77, 78, 27, 0, 31, 28, 13, 34,
  22, 14, 23, 24, 58, 40, 41, 42, 43])) (.leaf [21, 20, 77, 78, 27, 0, 31, 28, 13, 34, 22, 14, 23,
  24, 58, 40, 41, 42, 43])) (.leaf [26, 21, 38, 20, 3, 77, 4, 78, 27, 2, 0, 31, 28, 1, 13, 34, 22,
  14, 23, 24])) (.leaf [21, 20, 77, 78, 27, 0, 31, 28, 13, 34, 22, 14, 23, 24, 58, 40, 41, 42,
  43])) (.leaf [21, 20, 77, 78, 27, 0, 31, 28, 13, 34, 22, 14, 23, 24, 58, 40, 41, 42, 43])) (.leaf
  [26, 21, 38, 20, 3, 77, 4, 78, 27, 2, 0, 31, 28, 1, 13, 34, 22, 14, 23, 24])) (.leaf [26, 21, 38,
  20, 3, 77, 4, 78, 27, 2, 0, 31, 28, 1, 13, 34, 22, 14, 23, 24])) (.leaf [26, 21, 38, 20, 3, 77,
  4, 78, 27, 2, 0, 31, 28, 1, 34, 22, 23, 24, 58, 40, 41, 42, 43])) (.leaf [26, 21, 38, 20, 3, 77,
  4, 78, 27, 2, 0, 31, 28, 1, 34, 22, 23, 24, 58, 40, 41, 42, 43])) (.leaf [26, 21, 38, 20, 3, 77,
  4, 78, 27, 2, 0, 31, 28, 1, 34, 22, 23, 24, 58, 40, 41, 42, 43]))

/-- some of the cases -/
def real5OneCase129 : LooseTree :=
  .breaks 17907794 (.breaks 4235346 (.breaks 21053633 (.breaks 21065810 (.breaks 10526913 (.breaks
  21053457 (.breaks 24170693 (.breaks 24211649 (.breaks 10526737 (.breaks 13684817 (.breaks
  13705410 (.breaks 21053473 (.breaks 24211473 (.breaks 10526753 (.breaks 18972866 (.breaks
  21053441 (.breaks 24211489 (.breaks 10526721 (.breaks 24211457 (.breaks 25264209 (.breaks
  25268309 (.breaks 26316993 (.breaks 26316817 (.breaks 26316833 (.breaks 26316801 (.leaf [26, 47,
  38, 27, 66, 3, 28, 15, 7, 4, 0, 31, 22, 8, 2, 34, 23, 9, 1, 10, 24, 58, 40, 41, 42, 43]) (.leaf
  [26, 47, 38, 27, 66, 3, 28, 15, 7, 4, 0, 31, 22, 8, 2, 13, 34, 23, 9, 1, 14, 10, 24, 58, 40, 41,
  42, 43])) (.leaf [26, 47, 38, 27, 66, 3, 28, 15, 7, 4, 0, 31, 22, 8, 2, 13, 34, 23, 9, 1, 14, 10,
  24, 58, 40, 41, 42, 43])) (.leaf [26, 47, 38, 27, 66, 3, 28, 15, 7, 4, 0, 31, 22, 8, 2, 13, 34,
  23, 9, 1, 14, 10, 24, 58, 40, 41, 42, 43])) (.leaf [26, 47, 38, 27, 66, 3, 28, 15, 7, 4, 0, 31,
  22, 8, 2, 13, 34, 23, 9, 1, 14, 10, 24, 58, 40, 41, 42, 43])) (.leaf [26, 47, 38, 27, 66, 3, 28,
  15, 7, 4, 0, 31, 22, 8, 2, 13, 34, 23, 9, 1, 14, 10, 24, 58, 40, 41, 42, 43])) (.leaf [26, 47,
  38, 27, 66, 3, 28, 15, 7, 4, 0, 31, 22, 8, 2, 34, 23, 9, 1, 10, 24, 58, 40, 41, 42, 43])) (.leaf
  [26, 47, 38, 27, 66, 3, 28, 15, 7, 4, 0, 31, 22, 8, 2, 34, 23, 9, 1, 10, 24, 58, 40, 41, 42,
  43])) (.leaf [26, 47, 38, 27, 66, 3, 28, 15, 7, 4, 0, 31, 22, 8, 2, 34, 23, 9, 1, 10, 24, 58, 40,
  41, 42, 43])) (.leaf [26, 47, 38, 27, 66, 3, 28, 15, 7, 4, 0, 31, 22, 8, 2, 34, 23, 9, 1, 10, 24,
  58, 40, 41, 42, 43])) (.leaf [26, 47, 38, 27, 66, 3, 28, 15, 7, 4, 0, 31, 22, 8, 2, 34, 23, 9, 1,
  10, 24, 58, 40, 41, 42, 43])) (.leaf [26, 47, 38, 27, 66, 3, 28, 15, 7, 4, 0, 31, 22, 8, 2, 13,
  34, 23, 9, 1, 14, 10, 24, 58, 40, 41, 42, 43])) (.leaf [26, 47, 38, 27, 66, 3, 28, 15, 7, 4, 0,
  31, 22, 8, 2, 34, 23, 9, 1, 10, 24, 58, 40, 41, 42, 43])) (.leaf [26, 47, 38, 27, 66, 3, 28, 15,
  7, 4, 0, 31, 22, 8, 2, 34, 23, 9, 1, 10, 24, 58, 40, 41, 42, 43])) (.leaf [26, 47, 38, 27, 66, 3,
  28, 15, 7, 4, 0, 31, 22, 8, 2, 34, 23, 9, 1, 10, 24, 58, 40, 41, 42, 43])) (.leaf [26, 47, 38,
  27, 66, 3, 28, 15, 7, 4, 0, 31, 22, 8, 2, 13, 34, 23, 9, 1, 14, 10, 24, 58, 40, 41, 42, 43]))
  (.leaf [26, 47, 38, 27, 66, 3, 28, 15, 7, 4, 0, 31, 22, 8, 2, 34, 23, 9, 1, 10, 24, 58, 40, 41,
  42, 43])) (.leaf [26, 47, 38, 27, 66, 3, 28, 15, 7, 4, 0, 31, 22, 8, 2, 34, 23, 9, 1, 10, 24, 58,
  40, 41, 42, 43])) (.leaf [26, 47, 38, 27, 66, 3, 28, 15, 7, 4, 0, 31, 22, 8, 2, 34, 23, 9, 1, 10,
  24, 58, 40, 41, 42, 43])) (.leaf [26, 47, 38, 27, 66, 3, 28, 15, 7, 4, 0, 31, 22, 8, 2, 13, 34,
  23, 9, 1, 14, 10, 24, 58, 40, 41, 42, 43])) (.leaf [26, 47, 38, 27, 66, 3, 28, 15, 7, 4, 0, 31,
  22, 8, 2, 34, 23, 9, 1, 10, 24, 58, 40, 41, 42, 43])) (.leaf [26, 47, 38, 27, 66, 3, 28, 15, 7,
  4, 0, 31, 22, 8, 2, 34, 23, 9, 1, 10, 24, 58, 40, 41, 42, 43])) (.leaf [26, 47, 38, 27, 66, 3,
  28, 15, 7, 4, 0, 31, 22, 8, 2, 13, 34, 23, 9, 1, 14, 10, 24, 58, 40, 41, 42, 43])) (.leaf [26,
  47, 38, 27, 66, 3, 28, 15, 7, 4, 0, 31, 22, 8, 2, 34, 23, 9, 1, 10, 24, 58, 40, 41, 42, 43]))
  (.leaf [26, 47, 38, 27, 66, 3, 28, 15, 7, 4, 0, 31, 22, 8, 2, 34, 23, 9, 1, 10, 24, 58, 40, 41,
  42, 43])) (.leaf [26, 47, 38, 27, 66, 3, 28, 15, 7, 4, 0, 31, 22, 8, 2, 13, 34, 23, 9, 1, 14, 10,
  24, 58, 40, 41, 42, 43])

/-- some of the cases -/
def real5OneCase130 : LooseTree :=
  .breaks 6332453 (.breaks 6320151 (.breaks 12619795 (.breaks 17920098 (.breaks 23146629 (.breaks
  7421974 (.breaks 9474065 (.breaks 10526721 (.breaks 20000945 (.breaks 24211537 (.breaks 9474177
  (.breaks 20000929 (.breaks 21053473 (.breaks 24170693 (.breaks 24211649 (.breaks 9474193 (.breaks
  13684817 (.breaks 13705410 (.breaks 21053441 (.breaks 24211473 (.breaks 18948177 (.breaks
  18972866 (.breaks 24211489 (.breaks 18948209 (.breaks 24211457 (.breaks 25264209 (.leaf [108, 72,
  61, 21, 48, 74, 62, 1, 35, 20, 55, 36, 22, 15, 7, 56, 0, 31, 23, 8, 13, 34, 9, 14, 10, 24])
  (.leaf [26, 108, 72, 61, 21, 48, 11, 74, 62, 1, 35, 20, 12, 55, 36, 22, 15, 7, 5, 56, 0, 31, 23,
  8, 6, 13, 9, 14, 10])) (.leaf [26, 108, 72, 61, 21, 11, 74, 62, 1, 20, 12, 55, 22, 15, 7, 5, 56,
  0, 31, 23, 8, 6, 13, 34, 9, 14, 10, 24])) (.leaf [26, 108, 72, 61, 21, 48, 11, 74, 62, 1, 35, 20,
  12, 55, 36, 22, 15, 7, 5, 56, 0, 31, 23, 8, 6, 34, 9, 10, 24])) (.leaf [26, 108, 72, 61, 21, 11,
  74, 62, 1, 20, 12, 55, 22, 15, 7, 5, 56, 0, 31, 23, 8, 6, 13, 34, 9, 14, 10, 24])) (.leaf [26,
  108, 72, 61, 21, 48, 11, 74, 62, 1, 35, 20, 12, 55, 36, 22, 15, 7, 5, 56, 0, 31, 23, 8, 6, 13, 9,
  14, 10])) (.leaf [26, 108, 72, 61, 21, 48, 11, 74, 62, 1, 35, 20, 12, 55, 36, 22, 15, 7, 5, 56,
  0, 31, 23, 8, 6, 34, 9, 10, 24])) (.leaf [26, 108, 72, 61, 21, 11, 74, 62, 1, 20, 12, 55, 22, 15,
  7, 5, 56, 0, 31, 23, 8, 6, 13, 34, 9, 14, 10, 24])) (.leaf [26, 108, 61, 21, 48, 11, 62, 1, 35,
  20, 12, 55, 36, 15, 7, 5, 56, 0, 31, 8, 6, 13, 34, 9, 14, 10, 24])) (.leaf [26, 108, 72, 61, 21,
  48, 11, 74, 62, 1, 35, 20, 12, 55, 36, 22, 15, 7, 5, 56, 0, 31, 23, 8, 6, 13, 9, 14, 10])) (.leaf
  [26, 108, 72, 61, 21, 11, 74, 62, 1, 20, 12, 55, 22, 15, 7, 5, 56, 0, 31, 23, 8, 6, 13, 34, 9,
  14, 10, 24])) (.leaf [26, 108, 72, 61, 21, 11, 74, 62, 1, 20, 12, 55, 22, 15, 7, 5, 56, 0, 31,
  23, 8, 6, 13, 34, 9, 14, 10, 24])) (.leaf [26, 108, 72, 61, 21, 11, 74, 62, 1, 20, 12, 55, 22,
  15, 7, 5, 56, 0, 31, 23, 8, 6, 13, 34, 9, 14, 10, 24])) (.leaf [26, 108, 72, 61, 21, 48, 11, 74,
  62, 1, 35, 20, 12, 55, 36, 22, 15, 7, 5, 56, 0, 31, 23, 8, 6, 13, 34, 9, 14, 10, 24])) (.leaf
  [26, 108, 61, 21, 48, 11, 62, 1, 35, 20, 12, 55, 36, 15, 7, 5, 56, 0, 31, 8, 6, 13, 34, 9, 14,
  10, 24])) (.leaf [26, 108, 72, 61, 21, 11, 74, 62, 1, 20, 12, 55, 22, 15, 7, 5, 56, 0, 31, 23, 8,
  6, 13, 34, 9, 14, 10, 24])) (.leaf [26, 108, 72, 61, 21, 11, 74, 62, 1, 20, 12, 55, 22, 15, 7, 5,
  56, 0, 31, 23, 8, 6, 13, 34, 9, 14, 10, 24])) (.leaf [26, 108, 72, 61, 21, 48, 11, 74, 62, 1, 35,
  20, 12, 55, 36, 22, 15, 7, 5, 56, 0, 31, 23, 8, 6, 13, 34, 9, 14, 10, 24])) (.leaf [26, 108, 72,
  61, 21, 11, 74, 62, 1, 20, 12, 55, 22, 15, 7, 5, 56, 0, 31, 23, 8, 6, 13, 34, 9, 14, 10, 24]))
  (.leaf [26, 108, 72, 61, 21, 11, 74, 62, 1, 20, 12, 55, 22, 15, 7, 5, 56, 0, 31, 23, 8, 6, 13,
  34, 9, 14, 10, 24])) (.leaf [26, 108, 72, 128, 21, 11, 74, 55, 1, 20, 12, 56, 22, 15, 7, 5, 0,
  31, 23, 8, 6, 13, 34, 9, 14, 10, 24])) (.leaf [26, 108, 61, 21, 48, 11, 62, 1, 35, 20, 12, 55,
  36, 15, 7, 5, 56, 0, 31, 8, 6, 13, 34, 9, 14, 10, 24])) (.leaf [26, 108, 72, 61, 21, 11, 74, 62,
  1, 20, 12, 55, 22, 15, 7, 5, 56, 0, 31, 23, 8, 6, 13, 34, 9, 14, 10, 24])) (.leaf [26, 108, 72,
  61, 21, 48, 11, 74, 62, 1, 35, 20, 12, 55, 36, 22, 15, 7, 5, 56, 0, 31, 23, 8, 6, 13, 34, 9, 14,
  10, 24])) (.leaf [26, 108, 72, 128, 21, 11, 74, 55, 1, 20, 12, 56, 22, 15, 7, 5, 0, 31, 23, 8, 6,
  13, 34, 9, 14, 10, 24])) (.leaf [26, 108, 61, 21, 48, 11, 62, 1, 35, 20, 12, 55, 36, 15, 7, 5,
  56, 0, 31, 8, 6, 13, 34, 9, 14, 10, 24])) (.leaf [26, 108, 72, 61, 21, 11, 74, 62, 1, 20, 12, 55,
  22, 15, 7, 5, 56, 0, 31, 23, 8, 6, 13, 34, 9, 14, 10, 24])

/-- some of the cases -/
def real5OneCase131 : LooseTree :=
  .cases [] 11 (.breaks 1065043 (.breaks 17920098 (.breaks 4210769 (.breaks 7421974 (.breaks
  24211537 (.breaks 4210881 (.breaks 10526801 (.breaks 21053473 (.breaks 24170693 (.breaks 24211649
  (.breaks 4210705 (.breaks 10526913 (.breaks 13684817 (.breaks 13705410 (.breaks 21053441 (.breaks
  24211473 (.breaks 4194326 (.breaks 4210721 (.breaks 10526737 (.breaks 18948177 (.breaks 18972866
  (.breaks 24211489 (.breaks 4210689 (.breaks 10526753 (.breaks 18948209 (.breaks 24211457 (.breaks
  25264209 (.breaks 10526721 (.leaf [53, 72, 21, 54, 59, 74, 20, 11, 46, 22, 15, 7, 12, 3, 0, 31,
  23, 8, 89, 5, 4, 13, 34, 9, 6, 2, 14, 10, 24, 1]) (.leaf [53, 72, 21, 54, 59, 74, 20, 11, 46, 22,
  15, 7, 12, 3, 0, 31, 23, 8, 89, 5, 4, 13, 34, 9, 6, 2, 14, 10, 24, 1])) (.leaf [53, 72, 21, 48,
  54, 59, 74, 35, 20, 11, 46, 36, 22, 15, 7, 12, 3, 0, 31, 23, 8, 89, 5, 4, 13, 9, 6, 2, 14, 10,
  1])) (.leaf [53, 72, 21, 48, 54, 59, 74, 35, 20, 11, 46, 36, 22, 15, 12, 3, 0, 31, 23, 89, 5, 4,
  13, 34, 6, 2, 14, 24, 1])) (.leaf [53, 72, 21, 48, 54, 59, 74, 35, 20, 11, 46, 36, 22, 15, 7, 12,
  3, 0, 31, 23, 8, 89, 5, 4, 34, 9, 6, 2, 10, 24, 1])) (.leaf [53, 72, 21, 54, 59, 74, 20, 11, 46,
  22, 15, 7, 12, 3, 0, 31, 23, 8, 89, 5, 4, 13, 34, 9, 6, 2, 14, 10, 24, 1])) (.leaf [53, 72, 21,
  54, 59, 74, 20, 11, 46, 22, 15, 7, 12, 3, 0, 31, 23, 8, 89, 5, 4, 13, 34, 9, 6, 2, 14, 10, 24,
  1])) (.leaf [53, 72, 21, 48, 54, 59, 74, 35, 20, 11, 46, 36, 22, 15, 12, 3, 0, 31, 23, 89, 5, 4,
  13, 34, 6, 2, 14, 24, 1])) (.leaf [53, 72, 21, 48, 54, 59, 74, 35, 20, 11, 46, 36, 22, 15, 7, 12,
  3, 0, 31, 23, 8, 89, 5, 4, 13, 9, 6, 2, 14, 10, 1])) (.leaf [53, 72, 21, 48, 54, 59, 74, 35, 20,
  11, 46, 36, 22, 15, 7, 12, 3, 0, 31, 23, 8, 89, 5, 4, 34, 9, 6, 2, 10, 24, 1])) (.leaf [53, 72,
  21, 54, 59, 74, 20, 11, 46, 22, 15, 7, 12, 3, 0, 31, 23, 8, 89, 5, 4, 13, 34, 9, 6, 2, 14, 10,
  24, 1])) (.leaf [53, 72, 21, 54, 59, 74, 20, 11, 46, 22, 15, 7, 12, 3, 0, 31, 23, 8, 89, 5, 4,
  13, 34, 9, 6, 2, 14, 10, 24, 1])) (.leaf [53, 72, 21, 54, 59, 74, 20, 11, 46, 22, 15, 7, 12, 3,
  0, 31, 23, 8, 165, 5, 4, 13, 34, 9, 6, 2, 14, 10, 24, 1])) (.leaf [53, 72, 21, 48, 54, 59, 74,
  35, 20, 11, 46, 36, 22, 15, 12, 3, 0, 31, 23, 89, 5, 4, 13, 34, 6, 2, 14, 24, 1])) (.leaf [53,
  21, 48, 54, 59, 35, 20, 11, 46, 36, 15, 7, 12, 3, 0, 31, 8, 89, 5, 4, 13, 34, 9, 6, 2, 14, 10,
  24, 1])) (.leaf [53, 72, 21, 48, 54, 59, 74, 35, 20, 11, 46, 36, 22, 15, 7, 12, 3, 0, 31, 23, 8,
  89, 5, 4, 13, 9, 6, 2, 14, 10, 1])) (.leaf [53, 72, 21, 54, 59, 74, 20, 11, 46, 22, 15, 7, 12, 3,
  0, 31, 23, 8, 89, 5, 4, 13, 34, 9, 6, 2, 14, 10, 24, 1])) (.leaf [53, 72, 21, 54, 59, 74, 20, 11,
  46, 22, 15, 7, 12, 3, 0, 31, 23, 8, 89, 5, 4, 13, 34, 9, 6, 2, 14, 10, 24, 1])) (.leaf [53, 72,
  21, 54, 59, 74, 20, 11, 46, 22, 15, 7, 12, 3, 0, 31, 23, 8, 89, 5, 4, 13, 34, 9, 6, 2, 14, 10,
  24, 1])) (.leaf [53, 72, 21, 48, 54, 59, 74, 35, 20, 11, 46, 36, 22, 15, 12, 3, 0, 31, 23, 89, 5,
  4, 13, 34, 6, 2, 14, 24, 1])) (.leaf [53, 72, 21, 48, 54, 59, 74, 35, 20, 11, 46, 36, 22, 15, 7,
  12, 3, 0, 31, 23, 8, 89, 5, 4, 13, 9, 6, 2, 14, 10, 1])) (.leaf [53, 21, 48, 54, 59, 35, 20, 11,
  46, 36, 15, 7, 12, 3, 0, 31, 8, 89, 5, 4, 13, 34, 9, 6, 2, 14, 10, 24, 1])) (.leaf [53, 72, 21,
  54, 59, 74, 20, 11, 46, 22, 15, 7, 12, 3, 0, 31, 23, 8, 89, 5, 4, 13, 34, 9, 6, 2, 14, 10, 24,
  1])) (.leaf [53, 72, 21, 54, 59, 74, 20, 11, 46, 22, 15, 7, 12, 3, 0, 31, 23, 8, 89, 5, 4, 13,
  34, 9, 6, 2, 14, 10, 24, 1])) (.leaf [53, 72, 21, 48, 54, 59, 74, 35, 20, 11, 46, 36, 22, 15, 7,
  12, 3, 0, 31, 23, 8, 89, 5, 4, 13, 34, 9, 6, 2, 14, 10, 24, 1])) (.leaf [53, 21, 48, 54, 59, 35,
  20, 11, 46, 36, 15, 7, 12, 3, 0, 31, 8, 89, 5, 4, 13, 34, 9, 6, 2, 14, 10, 24, 1])) (.leaf [53,
  72, 21, 54, 59, 74, 20, 11, 46, 22, 15, 7, 12, 3, 0, 31, 23, 8, 89, 5, 4, 13, 34, 9, 6, 2, 14,
  10, 24, 1])) (.leaf [53, 72, 21, 48, 54, 59, 74, 35, 20, 11, 46, 36, 22, 15, 7, 12, 3, 0, 31, 23,
  8, 89, 5, 4, 13, 34, 9, 6, 2, 14, 10, 24, 1])) (.leaf [53, 72, 21, 48, 54, 59, 74, 35, 20, 11,
  46, 36, 22, 15, 7, 12, 3, 0, 31, 23, 8, 89, 5, 4, 13, 34, 9, 6, 2, 14, 10, 24, 1])) (.cases [] 25
  (.breaks 1065045 (.breaks 4198483 (.cycle 33 [26, 99]) (.leaf [26, 108, 72, 21, 84, 85, 11, 74,
  1, 48, 37, 20, 12, 35, 22, 15, 7, 5, 0, 31, 36, 23, 8, 6, 13, 34, 9, 14, 10, 24, 58, 40, 41, 42,
  43])) (.leaf [26, 108, 72, 21, 50, 84, 85, 11, 74, 1, 16, 48, 37, 20, 12, 17, 35, 22, 15, 7, 5,
  0, 31, 18, 36, 23, 8, 6, 19, 13, 34, 9, 14, 10, 24, 58, 40, 41, 42, 43])) (.cases [] 39 (.breaks
  1065045 (.breaks 4198483 (.cycle 33 [26, 99]) (.leaf [26, 108, 72, 21, 48, 11, 74, 1, 35, 20, 12,
  36, 22, 15, 7, 5, 0, 31, 23, 8, 6, 13, 34, 9, 14, 10, 24, 112, 106, 40, 41, 42, 43])) (.leaf [26,
  108, 72, 21, 50, 48, 11, 74, 1, 16, 35, 20, 12, 17, 36, 22, 15, 7, 5, 0, 31, 18, 23, 8, 6, 19,
  13, 34, 9, 14, 10, 24, 112, 106, 40, 41, 42, 43])) (.breaks 1065045 (.breaks 4198483 (.cycle 33
  [26, 99]) (.cycle 43 [117, 58])) (.cycle 43 [117, 58]))))

/-- some of the cases -/
def real5OneCase132 : LooseTree :=
  .cases [] 11 (.breaks 1065043 (.breaks 17920098 (.breaks 19955730 (.breaks 4210769 (.breaks
  8421505 (.breaks 24211537 (.breaks 4210881 (.breaks 8421521 (.breaks 10526801 (.breaks 24170693
  (.breaks 4210705 (.breaks 10526913 (.breaks 13684817 (.breaks 13705410 (.breaks 4194326 (.breaks
  4210721 (.breaks 10526737 (.breaks 18948177 (.breaks 18972866 (.breaks 4210689 (.breaks 10526753
  (.breaks 18948209 (.breaks 25264209 (.breaks 10526721 (.leaf [53, 21, 70, 54, 59, 64, 20, 11, 65,
  46, 15, 12, 3, 0, 31, 89, 5, 4, 13, 34, 6, 2, 14, 24, 1]) (.leaf [53, 21, 70, 54, 59, 64, 20, 11,
  65, 46, 15, 12, 3, 0, 31, 89, 5, 4, 13, 34, 6, 2, 14, 24, 1])) (.leaf [53, 21, 70, 54, 59, 64,
  20, 11, 65, 46, 15, 7, 12, 3, 0, 8, 89, 5, 4, 9, 6, 2, 10, 1])) (.leaf [53, 21, 70, 54, 59, 64,
  20, 11, 65, 46, 15, 7, 12, 3, 0, 8, 89, 5, 4, 9, 6, 2, 10, 1])) (.leaf [53, 21, 70, 54, 59, 64,
  20, 11, 65, 46, 15, 12, 3, 0, 31, 89, 5, 4, 13, 34, 6, 2, 14, 24, 1])) (.leaf [53, 21, 70, 54,
  59, 64, 20, 11, 65, 46, 15, 7, 12, 3, 0, 31, 8, 89, 5, 4, 13, 9, 6, 2, 14, 10, 1])) (.leaf [53,
  21, 70, 54, 59, 64, 20, 11, 65, 46, 15, 7, 12, 3, 0, 8, 89, 5, 4, 9, 6, 2, 10, 1])) (.leaf [53,
  21, 70, 54, 59, 64, 20, 11, 65, 46, 15, 7, 12, 3, 0, 8, 89, 5, 4, 9, 6, 2, 10, 1])) (.leaf [53,
  21, 70, 54, 59, 64, 20, 11, 65, 46, 15, 12, 3, 0, 31, 89, 5, 4, 13, 34, 6, 2, 14, 24, 1])) (.leaf
  [53, 21, 70, 54, 59, 64, 20, 11, 65, 46, 15, 7, 12, 3, 0, 31, 8, 89, 5, 4, 13, 9, 6, 2, 14, 10,
  1])) (.leaf [53, 21, 70, 54, 59, 64, 20, 11, 65, 46, 15, 12, 3, 0, 31, 165, 5, 4, 13, 34, 6, 2,
  14, 24, 1])) (.leaf [53, 21, 70, 54, 59, 64, 20, 11, 65, 46, 15, 7, 12, 3, 0, 8, 89, 5, 4, 9, 6,
  2, 10, 1])) (.leaf [53, 21, 70, 54, 59, 64, 20, 11, 65, 46, 15, 12, 3, 0, 31, 89, 5, 4, 13, 34,
  6, 2, 14, 24, 1])) (.leaf [53, 21, 70, 54, 59, 64, 20, 11, 65, 46, 15, 12, 3, 0, 31, 89, 5, 4,
  13, 34, 6, 2, 14, 24, 1])) (.leaf [53, 21, 70, 54, 59, 64, 20, 11, 65, 46, 15, 7, 12, 3, 0, 31,
  8, 89, 5, 4, 13, 9, 6, 2, 14, 10, 1])) (.leaf [53, 72, 21, 70, 54, 59, 74, 64, 20, 11, 65, 46,
  22, 15, 7, 12, 3, 0, 23, 8, 89, 5, 4, 9, 6, 2, 10, 1])) (.leaf [53, 21, 70, 54, 59, 64, 20, 11,
  65, 46, 15, 12, 3, 0, 31, 89, 5, 4, 13, 34, 6, 2, 14, 24, 1])) (.leaf [53, 21, 70, 54, 59, 64,
  20, 11, 65, 46, 15, 7, 12, 3, 0, 31, 8, 89, 5, 4, 13, 9, 6, 2, 14, 10, 1])) (.leaf [53, 21, 70,
  54, 59, 64, 20, 11, 65, 46, 15, 7, 12, 3, 0, 31, 8, 89, 5, 4, 13, 9, 6, 2, 14, 10, 1])) (.leaf
  [53, 72, 21, 70, 48, 54, 59, 74, 64, 35, 20, 11, 65, 46, 36, 22, 15, 12, 3, 0, 23, 89, 5, 4, 6,
  2, 1])) (.leaf [53, 21, 70, 54, 59, 64, 20, 11, 65, 46, 15, 7, 12, 3, 0, 31, 8, 89, 5, 4, 13, 9,
  6, 2, 14, 10, 1])) (.leaf [53, 21, 70, 54, 59, 64, 20, 11, 65, 46, 15, 7, 12, 3, 0, 31, 8, 89, 5,
  4, 13, 9, 6, 2, 14, 10, 1])) (.leaf [53, 21, 70, 54, 59, 64, 20, 11, 65, 46, 15, 7, 12, 3, 0, 31,
  8, 89, 5, 4, 13, 9, 6, 2, 14, 10, 1])) (.leaf [53, 72, 21, 70, 48, 54, 59, 74, 64, 35, 20, 11,
  65, 46, 36, 22, 15, 12, 3, 0, 23, 89, 5, 4, 6, 2, 1])) (.leaf [53, 21, 70, 54, 59, 64, 20, 11,
  65, 46, 15, 7, 12, 3, 0, 31, 8, 89, 5, 4, 13, 34, 9, 6, 2, 14, 10, 24, 1])) (.breaks 1065045
  (.breaks 4198483 (.cycle 33 [26, 99]) (.leaf [26, 108, 72, 21, 70, 48, 11, 74, 64, 1, 35, 20, 12,
  65, 36, 22, 15, 7, 5, 0, 31, 23, 8, 6, 13, 34, 9, 14, 10, 24, 58, 40, 41, 42, 43])) (.leaf [26,
  108, 72, 21, 70, 48, 11, 74, 64, 1, 35, 20, 12, 65, 36, 22, 15, 7, 5, 0, 31, 23, 8, 6, 13, 34, 9,
  14, 10, 24, 58, 40, 41, 42, 43]))

/-- some of the cases -/
def real5OneCase133 : LooseTree :=
  .cases [] 11 (.breaks 1065043 (.breaks 17920098 (.breaks 27353219 (.breaks 27353218 (.breaks
  4210769 (.breaks 4235362 (.breaks 23146629 (.breaks 23158801 (.breaks 24211537 (.breaks 4210881
  (.breaks 10526801 (.breaks 20000945 (.breaks 24170693 (.breaks 24211649 (.breaks 4210705 (.breaks
  10526913 (.breaks 13684817 (.breaks 13705410 (.breaks 20000929 (.breaks 24211473 (.breaks 4210721
  (.breaks 10526737 (.breaks 18948177 (.breaks 24211489 (.breaks 4210689 (.breaks 10526753 (.breaks
  18948209 (.breaks 24211457 (.breaks 10526721 (.leaf [53, 21, 84, 85, 54, 59, 48, 37, 20, 11, 46,
  35, 15, 7, 12, 3, 0, 31, 36, 8, 5, 4, 13, 9, 6, 2, 14, 10, 1]) (.leaf [53, 21, 84, 85, 54, 59,
  48, 37, 20, 11, 46, 35, 15, 7, 12, 3, 0, 31, 36, 8, 5, 4, 13, 34, 9, 6, 2, 14, 10, 24, 1]))
  (.leaf [53, 72, 21, 84, 85, 54, 59, 74, 48, 37, 20, 11, 46, 35, 22, 15, 12, 3, 0, 31, 36, 23, 5,
  4, 13, 34, 6, 2, 14, 24, 1])) (.leaf [53, 72, 21, 84, 85, 54, 59, 74, 48, 37, 20, 11, 46, 35, 22,
  15, 7, 12, 3, 0, 36, 23, 8, 5, 4, 9, 6, 2, 10, 1])) (.leaf [53, 21, 84, 85, 54, 59, 48, 37, 20,
  11, 46, 35, 15, 7, 12, 3, 0, 31, 36, 8, 5, 4, 13, 34, 9, 6, 2, 14, 10, 24, 1])) (.leaf [53, 21,
  84, 85, 54, 59, 48, 37, 20, 11, 46, 35, 15, 7, 12, 3, 0, 31, 36, 8, 5, 4, 13, 34, 9, 6, 2, 14,
  10, 24, 1])) (.leaf [53, 72, 21, 84, 85, 54, 59, 74, 48, 37, 20, 11, 46, 35, 22, 15, 12, 3, 0,
  31, 36, 23, 5, 4, 13, 34, 6, 2, 14, 24, 1])) (.leaf [53, 72, 21, 84, 85, 54, 59, 74, 48, 37, 20,
  11, 46, 35, 22, 15, 7, 12, 3, 0, 36, 23, 8, 5, 4, 9, 6, 2, 10, 1])) (.leaf [53, 21, 84, 85, 54,
  59, 48, 37, 20, 11, 46, 35, 15, 7, 12, 3, 0, 31, 36, 8, 5, 4, 13, 34, 9, 6, 2, 14, 10, 24, 1]))
  (.leaf [53, 21, 84, 85, 54, 59, 48, 37, 20, 11, 46, 35, 15, 7, 12, 3, 0, 31, 36, 8, 5, 4, 13, 34,
  9, 6, 2, 14, 10, 24, 1])) (.leaf [53, 72, 21, 84, 85, 54, 59, 74, 48, 37, 20, 11, 46, 35, 22, 15,
  12, 3, 0, 31, 36, 23, 5, 4, 13, 34, 6, 2, 14, 24, 1])) (.leaf [53, 21, 84, 85, 54, 59, 48, 37,
  20, 11, 46, 35, 15, 7, 12, 3, 0, 31, 36, 8, 5, 4, 13, 34, 9, 6, 2, 14, 10, 24, 1])) (.leaf [53,
  72, 21, 84, 85, 54, 59, 74, 48, 37, 20, 11, 46, 35, 22, 15, 7, 12, 3, 0, 36, 23, 8, 5, 4, 9, 6,
  2, 10, 1])) (.leaf [53, 21, 84, 85, 54, 59, 48, 37, 20, 11, 46, 35, 15, 7, 12, 3, 0, 31, 36, 8,
  5, 4, 13, 34, 9, 6, 2, 14, 10, 24, 1])) (.leaf [53, 21, 84, 85, 54, 59, 48, 37, 20, 11, 46, 35,
  15, 7, 12, 3, 0, 31, 36, 8, 5, 4, 13, 34, 9, 6, 2, 14, 10, 24, 1])) (.leaf [53, 21, 84, 85, 54,
  59, 48, 37, 20, 11, 46, 35, 15, 7, 12, 3, 0, 31, 36, 8, 5, 4, 13, 34, 9, 6, 2, 14, 10, 24, 1]))
  (.leaf [53, 72, 21, 84, 85, 54, 59, 74, 48, 37, 20, 11, 46, 35, 22, 15, 12, 3, 0, 31, 36, 23, 5,
  4, 13, 34, 6, 2, 14, 24, 1])) (.leaf [53, 72, 21, 84, 85, 54, 59, 74, 48, 37, 20, 11, 46, 35, 22,
  15, 7, 12, 3, 0, 36, 23, 8, 5, 4, 9, 6, 2, 10, 1])) (.leaf [53, 21, 84, 85, 54, 59, 48, 37, 20,
  11, 46, 35, 15, 7, 12, 3, 0, 31, 36, 8, 5, 4, 13, 34, 9, 6, 2, 14, 10, 24, 1])) (.leaf [53, 21,
  84, 85, 54, 59, 48, 37, 20, 11, 46, 35, 15, 7, 12, 3, 0, 31, 36, 8, 5, 4, 13, 34, 9, 6, 2, 14,
  10, 24, 1])) (.leaf [53, 21, 84, 85, 54, 59, 48, 37, 20, 11, 46, 35, 15, 7, 12, 3, 0, 31, 36, 8,
  5, 4, 13, 34, 9, 6, 2, 14, 10, 24, 1])) (.leaf [53, 72, 21, 84, 85, 54, 59, 74, 48, 37, 20, 11,
  46, 35, 22, 15, 7, 12, 3, 0, 31, 36, 23, 8, 5, 4, 13, 9, 6, 2, 14, 10, 1])) (.leaf [53, 21, 84,
  85, 54, 59, 48, 37, 20, 11, 46, 35, 15, 7, 12, 3, 0, 31, 36, 8, 5, 4, 13, 34, 9, 6, 2, 14, 10,
  24, 1])) (.leaf [53, 21, 84, 85, 54, 59, 48, 37, 20, 11, 46, 35, 15, 7, 12, 3, 0, 31, 36, 8, 5,
  4, 13, 34, 9, 6, 2, 14, 10, 24, 1])) (.leaf [53, 21, 84, 85, 54, 59, 48, 37, 20, 11, 46, 35, 15,
  7, 12, 3, 0, 31, 36, 8, 5, 4, 13, 34, 9, 6, 2, 14, 10, 24, 1])) (.leaf [53, 21, 84, 85, 54, 59,
  48, 37, 20, 11, 46, 35, 15, 7, 12, 3, 0, 31, 36, 8, 5, 4, 13, 34, 9, 6, 2, 14, 10, 24, 1]))
  (.leaf [53, 21, 84, 85, 54, 59, 48, 37, 20, 11, 46, 35, 15, 7, 12, 3, 0, 31, 36, 8, 5, 4, 13, 34,
  9, 6, 2, 14, 10, 24, 1])) (.leaf [53, 21, 84, 85, 54, 59, 48, 37, 20, 11, 46, 35, 15, 7, 12, 3,
  0, 31, 36, 8, 5, 4, 13, 34, 9, 6, 2, 14, 10, 24, 1])) (.leaf [53, 72, 21, 84, 85, 54, 59, 74, 48,
  37, 20, 11, 46, 35, 22, 15, 7, 12, 3, 0, 31, 36, 23, 8, 5, 4, 13, 9, 6, 2, 14, 10, 1])) (.leaf
  [53, 21, 84, 85, 54, 59, 48, 37, 20, 11, 46, 35, 15, 7, 12, 3, 0, 31, 36, 8, 5, 4, 13, 34, 9, 6,
  2, 14, 10, 24, 1])) (.breaks 1065045 (.breaks 4198483 (.cycle 33 [26, 99]) (.leaf [94, 108, 72,
  21, 84, 85, 5, 74, 1, 48, 37, 20, 6, 35, 22, 15, 7, 0, 31, 36, 23, 8, 13, 34, 9, 14, 10, 24, 58,
  40, 41, 42, 43])) (.leaf [94, 108, 72, 21, 84, 85, 5, 74, 1, 48, 37, 20, 6, 35, 22, 15, 7, 0, 31,
  36, 23, 8, 13, 34, 9, 14, 10, 24, 58, 40, 41, 42, 43]))

/-- some of the cases -/
def real5OneCase134 : LooseTree :=
  .cases [] 11 (.breaks 1065043 (.breaks 6320151 (.breaks 17920098 (.breaks 23146629 (.breaks
  4210769 (.breaks 4235362 (.breaks 7421974 (.breaks 20000945 (.breaks 24211537 (.breaks 4210881
  (.breaks 10526801 (.breaks 20000929 (.breaks 21053473 (.breaks 24170693 (.breaks 24211649
  (.breaks 4210705 (.breaks 10526913 (.breaks 13684817 (.breaks 13705410 (.breaks 21053441 (.breaks
  24211473 (.breaks 4210721 (.breaks 10526737 (.breaks 18948177 (.breaks 18972866 (.breaks 24211489
  (.breaks 4210689 (.breaks 10526753 (.breaks 18948209 (.breaks 24211457 (.breaks 25264209 (.breaks
  10526721 (.leaf [53, 72, 21, 48, 54, 59, 74, 35, 20, 11, 46, 36, 22, 15, 7, 12, 3, 0, 31, 23, 8,
  5, 4, 13, 34, 9, 6, 2, 14, 10, 24, 1]) (.leaf [53, 72, 21, 54, 59, 74, 20, 11, 46, 22, 15, 7, 12,
  3, 0, 31, 23, 8, 5, 4, 13, 34, 9, 6, 2, 14, 10, 24, 58, 1, 40, 41, 42, 43])) (.leaf [53, 72, 21,
  54, 59, 74, 20, 11, 46, 22, 15, 7, 12, 3, 0, 31, 23, 8, 5, 4, 13, 34, 9, 6, 2, 14, 10, 24, 58, 1,
  40, 41, 42, 43])) (.leaf [53, 72, 21, 48, 54, 59, 74, 35, 20, 11, 46, 36, 22, 15, 12, 3, 0, 31,
  23, 5, 4, 13, 34, 6, 2, 14, 24, 58, 1, 40, 41, 42, 43])) (.leaf [53, 72, 21, 48, 54, 59, 74, 35,
  20, 11, 46, 36, 22, 15, 7, 12, 3, 0, 31, 23, 8, 5, 4, 34, 9, 6, 2, 10, 24, 58, 1, 40, 41, 42,
  43])) (.leaf [53, 72, 21, 54, 59, 74, 20, 11, 46, 22, 15, 7, 12, 3, 0, 31, 23, 8, 5, 4, 13, 34,
  9, 6, 2, 14, 10, 24, 58, 1, 40, 41, 42, 43])) (.leaf [53, 72, 21, 54, 59, 74, 20, 11, 46, 22, 15,
  7, 12, 3, 0, 31, 23, 8, 5, 4, 13, 34, 9, 6, 2, 14, 10, 24, 58, 1, 40, 41, 42, 43])) (.leaf [53,
  72, 21, 48, 54, 59, 74, 35, 20, 11, 46, 36, 22, 15, 12, 3, 0, 31, 23, 5, 4, 13, 34, 6, 2, 14, 24,
  58, 1, 40, 41, 42, 43])) (.leaf [53, 72, 21, 48, 54, 59, 74, 35, 20, 11, 46, 36, 22, 15, 7, 12,
  3, 0, 31, 23, 8, 5, 4, 13, 34, 9, 6, 2, 14, 10, 58, 1, 40, 41, 42, 43])) (.leaf [53, 72, 21, 48,
  54, 59, 74, 35, 20, 11, 46, 36, 22, 15, 7, 12, 3, 0, 31, 23, 8, 5, 4, 34, 9, 6, 2, 10, 24, 58, 1,
  40, 41, 42, 43])) (.leaf [53, 72, 21, 54, 59, 74, 20, 11, 46, 22, 15, 7, 12, 3, 0, 31, 23, 8, 5,
  4, 13, 34, 9, 6, 2, 14, 10, 24, 58, 1, 40, 41, 42, 43])) (.leaf [53, 72, 21, 54, 59, 74, 20, 11,
  46, 22, 15, 7, 12, 3, 0, 31, 23, 8, 5, 4, 13, 34, 9, 6, 2, 14, 10, 24, 58, 1, 40, 41, 42, 43]))
  (.leaf [53, 72, 21, 48, 54, 59, 74, 35, 20, 11, 46, 36, 22, 15, 12, 3, 0, 31, 23, 5, 4, 13, 34,
  6, 2, 14, 24, 58, 1, 40, 41, 42, 43])) (.leaf [53, 21, 48, 54, 59, 35, 20, 11, 46, 36, 15, 7, 12,
  3, 0, 31, 8, 5, 4, 13, 34, 9, 6, 2, 14, 10, 24, 58, 1, 40, 41, 42, 43])) (.leaf [53, 72, 21, 48,
  54, 59, 74, 35, 20, 11, 46, 36, 22, 15, 7, 12, 3, 0, 31, 23, 8, 5, 4, 13, 34, 9, 6, 2, 14, 10,
  24, 58, 1, 40, 41, 42, 43])) (.leaf [53, 72, 21, 54, 59, 74, 20, 11, 46, 22, 15, 7, 12, 3, 0, 31,
  23, 8, 5, 4, 13, 34, 9, 6, 2, 14, 10, 24, 58, 1, 40, 41, 42, 43])) (.leaf [53, 72, 21, 54, 59,
  74, 20, 11, 46, 22, 15, 7, 12, 3, 0, 31, 23, 8, 5, 4, 13, 34, 9, 6, 2, 14, 10, 24, 58, 1, 40, 41,
  42, 43])) (.leaf [53, 72, 21, 54, 59, 74, 20, 11, 46, 22, 15, 7, 12, 3, 0, 31, 23, 8, 5, 4, 13,
  34, 9, 6, 2, 14, 10, 24, 58, 1, 40, 41, 42, 43])) (.leaf [53, 72, 21, 48, 54, 59, 74, 35, 20, 11,
  46, 36, 22, 15, 12, 3, 0, 31, 23, 5, 4, 13, 34, 6, 2, 14, 24, 58, 1, 40, 41, 42, 43])) (.leaf
  [53, 72, 21, 48, 54, 59, 74, 35, 20, 11, 46, 36, 22, 15, 7, 12, 3, 0, 31, 23, 8, 5, 4, 13, 34, 9,
  6, 2, 14, 10, 24, 58, 1, 40, 41, 42, 43])) (.leaf [53, 21, 48, 54, 59, 35, 20, 11, 46, 36, 15, 7,
  12, 3, 0, 31, 8, 5, 4, 13, 34, 9, 6, 2, 14, 10, 24, 58, 1, 40, 41, 42, 43])) (.leaf [53, 72, 21,
  54, 59, 74, 20, 11, 46, 22, 15, 7, 12, 3, 0, 31, 23, 8, 5, 4, 13, 34, 9, 6, 2, 14, 10, 24, 58, 1,
  40, 41, 42, 43])) (.leaf [53, 72, 21, 54, 59, 74, 20, 11, 46, 22, 15, 7, 12, 3, 0, 31, 23, 8, 5,
  4, 13, 34, 9, 6, 2, 14, 10, 24, 58, 1, 40, 41, 42, 43])) (.leaf [53, 72, 21, 54, 59, 74, 20, 11,
  46, 22, 15, 7, 12, 3, 0, 31, 23, 8, 5, 4, 13, 34, 9, 6, 2, 14, 10, 24, 58, 1, 40, 41, 42, 43]))
  (.leaf [53, 72, 21, 50, 48, 54, 59, 74, 16, 35, 20, 11, 46, 17, 36, 22, 15, 7, 12, 3, 0, 31, 18,
  23, 8, 5, 4, 19, 13, 34, 9, 6, 2, 14, 10, 24, 58, 1, 40, 41, 42, 43])) (.leaf [53, 72, 21, 54,
  59, 74, 20, 11, 46, 22, 15, 7, 12, 3, 0, 31, 23, 8, 5, 4, 13, 34, 9, 6, 2, 14, 10, 24, 58, 1, 40,
  41, 42, 43])) (.leaf [53, 21, 48, 54, 59, 35, 20, 11, 46, 36, 15, 7, 12, 3, 0, 31, 8, 5, 4, 13,
  34, 9, 6, 2, 14, 10, 24, 58, 1, 40, 41, 42, 43])) (.leaf [53, 72, 21, 54, 59, 74, 20, 11, 46, 22,
  15, 7, 12, 3, 0, 31, 23, 8, 5, 4, 13, 34, 9, 6, 2, 14, 10, 24, 58, 1, 40, 41, 42, 43])) (.leaf
  [53, 72, 21, 54, 59, 74, 20, 11, 46, 22, 15, 7, 12, 3, 0, 31, 23, 8, 5, 4, 13, 34, 9, 6, 2, 14,
  10, 24, 58, 1, 40, 41, 42, 43])) (.leaf [53, 72, 21, 54, 59, 74, 20, 11, 46, 22, 15, 7, 12, 3, 0,
  31, 23, 8, 5, 4, 13, 34, 9, 6, 2, 14, 10, 24, 58, 1, 40, 41, 42, 43])) (.leaf [53, 72, 21, 50,
  48, 54, 59, 74, 16, 35, 20, 11, 46, 17, 36, 22, 15, 7, 12, 3, 0, 31, 18, 23, 8, 5, 4, 19, 13, 34,
  9, 6, 2, 14, 10, 24, 58, 1, 40, 41, 42, 43])) (.leaf [53, 21, 48, 54, 59, 35, 20, 11, 46, 36, 15,
  7, 12, 3, 0, 31, 8, 5, 4, 13, 34, 9, 6, 2, 14, 10, 24, 58, 1, 40, 41, 42, 43])) (.leaf [53, 72,
  21, 48, 54, 59, 74, 35, 20, 11, 46, 36, 22, 15, 7, 12, 3, 0, 31, 23, 8, 5, 4, 13, 34, 9, 6, 2,
  14, 10, 24, 58, 1, 40, 41, 42, 43])) (.cases [] 39 (.breaks 1065045 (.breaks 4198483 (.cycle 33
  [26, 99]) (.leaf [94, 108, 72, 21, 48, 5, 74, 1, 35, 20, 6, 36, 22, 15, 7, 0, 31, 23, 8, 13, 34,
  9, 14, 10, 24, 112, 106, 40, 41, 42, 43])) (.leaf [94, 108, 72, 21, 48, 5, 74, 1, 35, 20, 6, 36,
  22, 15, 7, 0, 31, 23, 8, 13, 34, 9, 14, 10, 24, 112, 106, 40, 41, 42, 43])) (.breaks 1065045
  (.breaks 4198483 (.cycle 33 [26, 99]) (.cycle 43 [117, 58])) (.cycle 43 [117, 58])))

/-- some of the cases -/
def real5OneCase135 : LooseTree :=
  .cases [] 11 (.breaks 1065043 (.breaks 17920098 (.breaks 19955730 (.breaks 4210769 (.breaks
  8421505 (.breaks 24211537 (.breaks 4210881 (.breaks 8421521 (.breaks 10526801 (.breaks 24170693
  (.breaks 24211649 (.breaks 4210705 (.breaks 10526913 (.breaks 13684817 (.breaks 13705410 (.breaks
  24211473 (.breaks 4210721 (.breaks 10526737 (.breaks 18948177 (.breaks 18972866 (.breaks 24211489
  (.breaks 4210689 (.breaks 10526753 (.breaks 18948209 (.breaks 24211457 (.breaks 25264209 (.breaks
  10526721 (.leaf [53, 21, 70, 54, 59, 64, 20, 11, 65, 46, 15, 7, 12, 3, 0, 31, 8, 5, 4, 13, 34, 9,
  6, 2, 14, 10, 24, 1]) (.leaf [53, 21, 70, 54, 59, 64, 20, 11, 65, 46, 15, 7, 12, 3, 0, 31, 8, 5,
  4, 13, 34, 9, 6, 2, 14, 10, 24, 1])) (.leaf [53, 72, 21, 70, 48, 54, 59, 74, 64, 35, 20, 11, 65,
  46, 36, 22, 15, 7, 12, 3, 0, 23, 8, 5, 4, 9, 6, 2, 10, 1])) (.leaf [53, 72, 21, 70, 54, 59, 74,
  64, 20, 11, 65, 46, 22, 15, 12, 3, 0, 31, 23, 5, 4, 13, 34, 6, 2, 14, 24, 1])) (.leaf [53, 72,
  21, 70, 48, 54, 59, 74, 64, 35, 20, 11, 65, 46, 36, 22, 15, 7, 12, 3, 0, 23, 8, 5, 4, 9, 6, 2,
  10, 1])) (.leaf [53, 21, 70, 54, 59, 64, 20, 11, 65, 46, 15, 7, 12, 3, 0, 31, 8, 5, 4, 13, 34, 9,
  6, 2, 14, 10, 24, 1])) (.leaf [53, 72, 21, 70, 54, 59, 74, 64, 20, 11, 65, 46, 22, 15, 7, 12, 3,
  0, 31, 23, 8, 5, 4, 13, 9, 6, 2, 14, 10, 1])) (.leaf [53, 72, 21, 70, 54, 59, 74, 64, 20, 11, 65,
  46, 22, 15, 12, 3, 0, 31, 23, 5, 4, 13, 34, 6, 2, 14, 24, 1])) (.leaf [53, 72, 21, 70, 48, 54,
  59, 74, 64, 35, 20, 11, 65, 46, 36, 22, 15, 7, 12, 3, 0, 23, 8, 5, 4, 9, 6, 2, 10, 1])) (.leaf
  [53, 72, 21, 70, 48, 54, 59, 74, 64, 35, 20, 11, 65, 46, 36, 22, 15, 7, 12, 3, 0, 23, 8, 5, 4, 9,
  6, 2, 10, 1])) (.leaf [53, 21, 70, 54, 59, 64, 20, 11, 65, 46, 15, 7, 12, 3, 0, 31, 8, 5, 4, 13,
  34, 9, 6, 2, 14, 10, 24, 1])) (.leaf [53, 72, 21, 70, 54, 59, 74, 64, 20, 11, 65, 46, 22, 15, 7,
  12, 3, 0, 31, 23, 8, 5, 4, 13, 9, 6, 2, 14, 10, 1])) (.leaf [53, 72, 21, 70, 54, 59, 74, 64, 20,
  11, 65, 46, 22, 15, 12, 3, 0, 31, 23, 5, 4, 13, 34, 6, 2, 14, 24, 1])) (.leaf [53, 72, 21, 70,
  48, 54, 59, 74, 64, 35, 20, 11, 65, 46, 36, 22, 15, 7, 12, 3, 0, 23, 8, 5, 4, 9, 6, 2, 10, 1]))
  (.leaf [53, 21, 70, 54, 59, 64, 20, 11, 65, 46, 15, 7, 12, 3, 0, 31, 8, 5, 4, 13, 34, 9, 6, 2,
  14, 10, 24, 1])) (.leaf [53, 21, 70, 54, 59, 64, 20, 11, 65, 46, 15, 7, 12, 3, 0, 31, 8, 5, 4,
  13, 34, 9, 6, 2, 14, 10, 24, 1])) (.leaf [53, 72, 21, 70, 54, 59, 74, 64, 20, 11, 65, 46, 22, 15,
  7, 12, 3, 0, 31, 23, 8, 5, 4, 13, 9, 6, 2, 14, 10, 1])) (.leaf [53, 72, 21, 70, 54, 59, 74, 64,
  20, 11, 65, 46, 22, 15, 12, 3, 0, 31, 23, 5, 4, 13, 34, 6, 2, 14, 24, 1])) (.leaf [53, 72, 21,
  70, 48, 54, 59, 74, 64, 35, 20, 11, 65, 46, 36, 22, 15, 7, 12, 3, 0, 23, 8, 5, 4, 9, 6, 2, 10,
  1])) (.leaf [53, 21, 70, 54, 59, 64, 20, 11, 65, 46, 15, 7, 12, 3, 0, 31, 8, 5, 4, 13, 34, 9, 6,
  2, 14, 10, 24, 1])) (.leaf [53, 72, 21, 70, 54, 59, 74, 64, 20, 11, 65, 46, 22, 15, 7, 12, 3, 0,
  31, 23, 8, 5, 4, 13, 9, 6, 2, 14, 10, 1])) (.leaf [53, 72, 21, 70, 54, 59, 74, 64, 20, 11, 65,
  46, 22, 15, 7, 12, 3, 0, 31, 23, 8, 5, 4, 13, 9, 6, 2, 14, 10, 1])) (.leaf [53, 72, 21, 70, 48,
  54, 59, 74, 64, 35, 20, 11, 65, 46, 36, 22, 15, 12, 3, 0, 31, 23, 5, 4, 13, 34, 6, 2, 14, 24,
  1])) (.leaf [53, 72, 21, 70, 54, 59, 74, 64, 20, 11, 65, 46, 22, 15, 7, 12, 3, 0, 31, 23, 8, 5,
  4, 13, 9, 6, 2, 14, 10, 1])) (.leaf [53, 72, 21, 70, 54, 59, 74, 64, 20, 11, 65, 46, 22, 15, 7,
  12, 3, 0, 31, 23, 8, 5, 4, 13, 9, 6, 2, 14, 10, 1])) (.leaf [53, 72, 21, 70, 54, 59, 74, 64, 20,
  11, 65, 46, 22, 15, 7, 12, 3, 0, 31, 23, 8, 5, 4, 13, 9, 6, 2, 14, 10, 1])) (.leaf [53, 72, 21,
  70, 48, 54, 59, 74, 64, 35, 20, 11, 65, 46, 36, 22, 15, 12, 3, 0, 31, 23, 5, 4, 13, 34, 6, 2, 14,
  24, 1])) (.leaf [53, 72, 21, 70, 54, 59, 74, 64, 20, 11, 65, 46, 22, 15, 7, 12, 3, 0, 31, 23, 8,
  5, 4, 13, 34, 9, 6, 2, 14, 10, 24, 1])) (.breaks 1065045 (.breaks 4198483 (.cycle 33 [26, 99])
  (.leaf [94, 108, 72, 21, 70, 5, 74, 64, 1, 20, 6, 65, 22, 15, 7, 0, 31, 23, 8, 13, 34, 9, 14, 10,
  24, 58, 40, 41, 42, 43])) (.leaf [94, 108, 72, 21, 70, 5, 74, 64, 1, 20, 6, 65, 22, 15, 7, 0, 31,
  23, 8, 13, 34, 9, 14, 10, 24, 58, 40, 41, 42, 43]))

/-- some of the cases -/
def real5OneCase136 : LooseTree :=
  .breaks 1065045 (.breaks 6332453 (.breaks 6320151 (.breaks 17920098 (.breaks 22097938 (.breaks
  4210881 (.breaks 7421974 (.breaks 10526721 (.breaks 20000897 (.breaks 24211537 (.breaks 4210705
  (.breaks 20000945 (.breaks 21053473 (.breaks 24170693 (.breaks 24211649 (.breaks 4210721 (.breaks
  13684817 (.breaks 13705410 (.breaks 20000929 (.breaks 21053441 (.breaks 24211473 (.breaks 4210689
  (.breaks 18948177 (.breaks 18972866 (.breaks 24211489 (.breaks 18948209 (.breaks 24211457
  (.breaks 25264209 (.leaf [26, 108, 72, 21, 71, 11, 74, 1, 51, 20, 12, 35, 22, 15, 7, 5, 0, 31,
  36, 23, 8, 6, 13, 34, 9, 14, 10, 24]) (.leaf [26, 108, 21, 71, 11, 1, 51, 20, 12, 35, 15, 7, 5,
  0, 31, 36, 8, 6, 13, 34, 9, 14, 10, 24, 58, 40, 41, 42, 43])) (.leaf [26, 108, 72, 21, 71, 11,
  74, 1, 51, 20, 12, 35, 22, 15, 5, 0, 31, 36, 23, 6, 13, 34, 14, 24, 58, 40, 41, 42, 43])) (.leaf
  [26, 108, 72, 21, 71, 11, 74, 1, 51, 20, 12, 35, 22, 15, 7, 5, 0, 31, 36, 23, 8, 6, 34, 9, 10,
  24, 58, 40, 41, 42, 43])) (.leaf [26, 108, 72, 21, 71, 11, 74, 1, 51, 20, 12, 35, 22, 15, 5, 0,
  31, 36, 23, 6, 13, 34, 14, 24, 58, 40, 41, 42, 43])) (.leaf [26, 108, 72, 21, 71, 11, 74, 1, 51,
  20, 12, 35, 22, 15, 7, 5, 0, 31, 36, 23, 8, 6, 13, 34, 9, 14, 10, 58, 40, 41, 42, 43])) (.leaf
  [26, 108, 72, 21, 71, 11, 74, 1, 51, 20, 12, 35, 22, 15, 7, 5, 0, 31, 36, 23, 8, 6, 34, 9, 10,
  24, 58, 40, 41, 42, 43])) (.leaf [108, 72, 21, 71, 74, 1, 51, 20, 35, 22, 15, 7, 0, 31, 36, 23,
  8, 13, 34, 9, 14, 10, 24, 58, 40, 41, 42, 43])) (.leaf [26, 108, 72, 21, 71, 11, 74, 1, 51, 20,
  12, 35, 22, 15, 5, 0, 31, 36, 23, 6, 13, 34, 14, 24, 58, 40, 41, 42, 43])) (.leaf [26, 108, 21,
  71, 11, 1, 51, 20, 12, 35, 15, 7, 5, 0, 31, 36, 8, 6, 13, 34, 9, 14, 10, 24, 58, 40, 41, 42,
  43])) (.leaf [26, 108, 21, 71, 11, 1, 51, 20, 12, 35, 15, 7, 5, 0, 31, 36, 8, 6, 13, 34, 9, 14,
  10, 24, 58, 40, 41, 42, 43])) (.leaf [26, 108, 72, 21, 71, 11, 74, 1, 51, 20, 12, 35, 22, 15, 7,
  5, 0, 31, 36, 23, 8, 6, 13, 34, 9, 14, 10, 24, 58, 40, 41, 42, 43])) (.leaf [26, 108, 21, 71, 11,
  1, 51, 20, 12, 35, 15, 7, 5, 0, 31, 36, 8, 6, 13, 34, 9, 14, 10, 24, 58, 40, 41, 42, 43])) (.leaf
  [108, 72, 21, 71, 74, 1, 51, 20, 35, 22, 15, 7, 0, 31, 36, 23, 8, 13, 34, 9, 14, 10, 24, 58, 40,
  41, 42, 43])) (.leaf [26, 108, 72, 21, 71, 11, 74, 1, 51, 20, 12, 35, 22, 15, 5, 0, 31, 36, 23,
  6, 13, 34, 14, 24, 58, 40, 41, 42, 43])) (.leaf [26, 108, 72, 21, 71, 11, 74, 1, 51, 20, 12, 35,
  22, 15, 7, 5, 0, 31, 36, 23, 8, 6, 13, 34, 9, 14, 10, 24, 58, 40, 41, 42, 43])) (.leaf [26, 108,
  21, 71, 11, 1, 51, 20, 12, 35, 15, 7, 5, 0, 31, 36, 8, 6, 13, 34, 9, 14, 10, 24, 58, 40, 41, 42,
  43])) (.leaf [26, 108, 21, 71, 11, 1, 51, 20, 12, 35, 15, 7, 5, 0, 31, 36, 8, 6, 13, 34, 9, 14,
  10, 24, 58, 40, 41, 42, 43])) (.leaf [108, 72, 21, 71, 74, 1, 51, 20, 35, 22, 15, 7, 0, 31, 36,
  23, 8, 13, 34, 9, 14, 10, 24, 58, 40, 41, 42, 43])) (.leaf [26, 108, 72, 21, 50, 71, 11, 74, 1,
  16, 51, 20, 12, 17, 35, 22, 15, 7, 5, 0, 31, 18, 36, 23, 8, 6, 19, 13, 34, 9, 14, 10, 24, 58, 40,
  41, 42, 43])) (.leaf [26, 108, 21, 71, 11, 1, 51, 20, 12, 35, 15, 7, 5, 0, 31, 36, 8, 6, 13, 34,
  9, 14, 10, 24, 58, 40, 41, 42, 43])) (.leaf [26, 108, 21, 71, 11, 1, 51, 20, 12, 35, 15, 7, 5, 0,
  31, 36, 8, 6, 13, 34, 9, 14, 10, 24, 58, 40, 41, 42, 43])) (.leaf [26, 108, 21, 71, 11, 1, 51,
  20, 12, 35, 15, 7, 5, 0, 31, 36, 8, 6, 13, 34, 9, 14, 10, 24, 58, 40, 41, 42, 43])) (.leaf [108,
  72, 21, 71, 74, 1, 51, 20, 35, 22, 15, 7, 0, 31, 36, 23, 8, 13, 34, 9, 14, 10, 24, 58, 40, 41,
  42, 43])) (.leaf [26, 108, 21, 71, 11, 1, 51, 20, 12, 35, 15, 7, 5, 0, 31, 36, 8, 6, 13, 34, 9,
  14, 10, 24, 58, 40, 41, 42, 43])) (.leaf [26, 108, 72, 21, 50, 71, 11, 74, 1, 16, 51, 20, 12, 17,
  35, 22, 15, 7, 5, 0, 31, 18, 36, 23, 8, 6, 19, 13, 34, 9, 14, 10, 24, 58, 40, 41, 42, 43]))
  (.leaf [26, 108, 21, 71, 11, 1, 51, 20, 12, 35, 15, 7, 5, 0, 31, 36, 8, 6, 13, 34, 9, 14, 10, 24,
  58, 40, 41, 42, 43])) (.leaf [26, 108, 21, 71, 11, 1, 51, 20, 12, 35, 15, 7, 5, 0, 31, 36, 8, 6,
  13, 34, 9, 14, 10, 24, 58, 40, 41, 42, 43])) (.leaf [108, 72, 21, 71, 74, 1, 51, 20, 35, 22, 15,
  7, 0, 31, 36, 23, 8, 13, 34, 9, 14, 10, 24, 58, 40, 41, 42, 43])

/-- some of the cases -/
def real5OneCase137 : LooseTree :=
  .breaks 1065043 (.breaks 4235362 (.breaks 10526801 (.breaks 10526913 (.breaks 10526737 (.breaks
  10526753 (.breaks 10510372 (.breaks 6316065 (.breaks 6320151 (.leaf
  [53, 59, 46, 3, 4, 2, 134, 135, 72]) (.leaf [53, 21, 54, 59, 20, 11, 46, 15, 12, 3, 0, 31, 5, 4,
  13, 6, 2, 14, 134, 1, 135, 72, 74, 22, 23])) (.leaf [53, 21, 54, 59, 20, 11, 46, 15, 12, 3, 0,
  31, 5, 4, 13, 6, 2, 14, 134, 1, 135, 72, 74, 22, 23])) (.leaf [53, 21, 54, 59, 20, 11, 46, 15,
  12, 3, 0, 31, 5, 4, 13, 6, 2, 14, 134, 1, 135, 72, 74, 22, 23])) (.leaf [53, 21, 54, 59, 20, 11,
  46, 15, 12, 3, 0, 31, 5, 4, 13, 6, 2, 14, 134, 1, 135, 72, 74, 22, 23])) (.leaf [53, 21, 54, 59,
  20, 11, 46, 15, 12, 3, 0, 31, 5, 4, 13, 6, 2, 14, 134, 1, 135, 72, 74, 22, 23])) (.leaf [53, 21,
  54, 59, 20, 11, 46, 15, 12, 3, 0, 31, 5, 4, 13, 6, 2, 14, 134, 1, 135, 72, 74, 22, 23])) (.leaf
  [53, 21, 54, 59, 20, 11, 46, 15, 12, 3, 0, 31, 5, 4, 13, 6, 2, 14, 134, 1, 135, 72, 74, 22, 23]))
  (.leaf [53, 21, 54, 59, 20, 11, 46, 15, 12, 3, 0, 31, 5, 4, 13, 6, 2, 14, 134, 1, 135, 72, 74,
  22, 23])) (.leaf [53, 21, 54, 59, 20, 11, 46, 15, 12, 3, 0, 31, 5, 4, 13, 34, 6, 2, 14, 24, 134,
  1, 135, 72, 74, 22, 23])

/-- some of the cases -/
def real5OneCase138 : LooseTree :=
  .cases [] 15 (.breaks 1065045 (.breaks 4198483 (.cycle 33 [26, 99]) (.leaf [26, 61, 21, 11, 38,
  62, 20, 12, 55, 3, 15, 7, 5, 56, 4, 0, 31, 8, 6, 2, 13, 34, 9, 134, 1, 14, 10, 24, 135, 72, 74,
  22, 23])) (.leaf [26, 72, 61, 21, 48, 38, 74, 62, 35, 20, 55, 3, 36, 22, 15, 7, 56, 4, 0, 31, 23,
  8, 2, 13, 34, 9, 1, 14, 10, 24, 58, 40, 41, 42, 43])) (.cases [] 19 (.cases [] 27 (.cases [] 18
  (.cases [] 25 (.cases [] 39 (.breaks 1065045 (.breaks 4198483 (.cycle 33 [26, 99]) (.leaf [26,
  21, 84, 85, 38, 48, 37, 20, 3, 35, 15, 7, 4, 0, 31, 36, 8, 2, 34, 9, 134, 1, 10, 24, 135, 112,
  72, 106, 74, 40, 22, 41, 23, 42, 43])) (.leaf [26, 72, 21, 84, 85, 38, 74, 48, 37, 20, 3, 35, 22,
  15, 7, 4, 0, 31, 36, 23, 8, 2, 13, 34, 9, 1, 14, 10, 24, 112, 106, 40, 41, 42, 43])) (.breaks
  1065045 (.breaks 4198483 (.cycle 33 [26, 99]) (.cycle 43 [117, 58])) (.cycle 43 [117, 58])))
  (.cases [] 39 (.cases [] 53 (.breaks 1065045 (.breaks 4198483 (.cycle 33 [26, 99]) (.leaf [26,
  21, 48, 11, 38, 35, 20, 12, 3, 36, 15, 7, 5, 4, 0, 31, 8, 6, 2, 13, 34, 9, 134, 1, 14, 10, 24,
  135, 152, 72, 106, 74, 40, 22, 41, 23, 42, 43])) (.leaf [26, 72, 21, 50, 48, 11, 38, 74, 16, 35,
  20, 12, 3, 17, 36, 22, 15, 7, 5, 4, 0, 31, 18, 23, 8, 6, 2, 19, 13, 34, 9, 1, 14, 10, 24, 152,
  106, 40, 41, 42, 43])) (.breaks 1065045 (.breaks 4198483 (.cycle 33 [26, 99]) (.cycle 32
  [112, 156])) (.cycle 32 [112, 156]))) (.breaks 1065045 (.breaks 4198483 (.cycle 33 [26, 99])
  (.cycle 43 [117, 58])) (.cycle 43 [117, 58])))) (.breaks 1065045 (.breaks 4198483 (.cycle 33
  [26, 99]) (.leaf [26, 21, 70, 48, 11, 38, 64, 35, 20, 12, 65, 3, 36, 15, 7, 5, 4, 0, 31, 8, 6, 2,
  13, 34, 9, 134, 1, 14, 10, 24, 58, 135, 40, 72, 41, 74, 42, 22, 43, 23])) (.leaf [26, 72, 21, 70,
  50, 48, 11, 38, 74, 64, 16, 35, 20, 12, 65, 3, 17, 36, 22, 15, 7, 5, 4, 0, 31, 18, 23, 8, 6, 2,
  19, 13, 34, 9, 1, 14, 10, 24, 58, 40, 41, 42, 43]))) (.cases [] 18 (.cases [] 25 (.breaks 1065045
  (.breaks 4198483 (.cycle 33 [26, 99]) (.leaf [94, 26, 21, 84, 85, 38, 5, 48, 37, 20, 6, 3, 35,
  15, 7, 4, 0, 31, 36, 8, 2, 34, 9, 134, 1, 10, 24, 58, 135, 40, 72, 41, 74, 42, 22, 43, 23]))
  (.leaf [94, 26, 72, 21, 84, 85, 38, 5, 74, 48, 37, 20, 6, 3, 35, 22, 15, 7, 4, 0, 31, 36, 23, 8,
  2, 13, 34, 9, 1, 14, 10, 24, 58, 40, 41, 42, 43])) (.cases [] 39 (.breaks 1065045 (.breaks
  4198483 (.cycle 33 [26, 99]) (.leaf [94, 26, 21, 48, 38, 5, 35, 20, 6, 3, 36, 15, 7, 4, 0, 31, 8,
  2, 13, 34, 9, 134, 1, 14, 10, 24, 135, 112, 72, 106, 74, 40, 22, 41, 23, 42, 43])) (.leaf [94,
  26, 72, 21, 50, 48, 38, 5, 74, 16, 35, 20, 6, 3, 17, 36, 22, 15, 7, 4, 0, 31, 18, 23, 8, 2, 19,
  13, 34, 9, 1, 14, 10, 24, 112, 106, 40, 41, 42, 43])) (.breaks 1065045 (.breaks 4198483 (.cycle
  33 [26, 99]) (.cycle 43 [117, 58])) (.cycle 43 [117, 58])))) (.breaks 1065045 (.breaks 4198483
  (.cycle 33 [26, 99]) (.leaf [94, 26, 21, 70, 38, 5, 64, 20, 6, 65, 3, 15, 7, 4, 0, 31, 8, 2, 13,
  34, 9, 134, 1, 14, 10, 24, 58, 135, 40, 72, 41, 74, 42, 22, 43, 23])) (.leaf [94, 26, 72, 21, 70,
  48, 38, 5, 74, 64, 35, 20, 6, 65, 3, 36, 22, 15, 7, 4, 0, 31, 23, 8, 2, 13, 34, 9, 1, 14, 10, 24,
  58, 40, 41, 42, 43])))) (.breaks 1065045 (.breaks 4198483 (.cycle 33 [26, 99]) (.leaf [26, 21,
  71, 11, 38, 51, 20, 12, 3, 35, 15, 7, 5, 4, 0, 31, 36, 8, 6, 2, 13, 34, 9, 134, 1, 14, 10, 24,
  135, 72, 74, 22, 23])) (.leaf [26, 72, 21, 71, 11, 38, 74, 51, 20, 12, 3, 35, 22, 15, 7, 5, 4, 0,
  31, 36, 23, 8, 6, 2, 13, 34, 9, 1, 14, 10, 24, 58, 40, 41, 42, 43])))

/-- some of the cases -/
def real5OneCase139 : LooseTree :=
  .breaks 17907794 (.breaks 21053633 (.breaks 21053457 (.breaks 21000214 (.leaf [47, 27, 28, 158])
  (.leaf [47, 27, 28, 60, 72])) (.leaf [47, 27, 28, 60, 72])) (.leaf [47, 27, 28, 60, 72])) (.leaf
  [47, 27, 28, 60, 72])

/-- some of the cases -/
def real5OneCase140 : LooseTree :=
  .breaks 1065045 (.breaks 17920098 (.breaks 21000211 (.breaks 23146629 (.breaks 4210881 (.breaks
  4235346 (.breaks 9474065 (.breaks 20000945 (.breaks 24211537 (.breaks 4210705 (.breaks 9474177
  (.breaks 10526913 (.breaks 20000929 (.breaks 24170693 (.breaks 24211649 (.breaks 4210721 (.breaks
  9474193 (.breaks 10526737 (.breaks 13684817 (.breaks 13705410 (.breaks 24211473 (.breaks 4210689
  (.breaks 10526753 (.breaks 18948177 (.breaks 18972866 (.breaks 24211489 (.breaks 10526721
  (.breaks 18948209 (.breaks 24211457 (.breaks 25264209 (.leaf [26, 61, 21, 60, 48, 11, 38, 62, 35,
  20, 12, 55, 3, 36, 15, 7, 5, 56, 4, 0, 31, 8, 6, 2, 13, 34, 9, 1, 14, 10, 24]) (.leaf [26, 61,
  21, 60, 48, 11, 38, 62, 35, 20, 12, 55, 3, 36, 15, 7, 5, 56, 4, 0, 31, 8, 6, 2, 13, 34, 9, 1, 14,
  10, 24])) (.leaf [26, 61, 21, 60, 48, 11, 38, 62, 35, 20, 12, 55, 3, 36, 15, 7, 5, 56, 4, 0, 31,
  8, 6, 2, 13, 34, 9, 1, 14, 10, 24])) (.leaf [26, 61, 21, 60, 48, 11, 38, 62, 35, 20, 12, 55, 3,
  36, 15, 7, 5, 56, 4, 0, 31, 8, 6, 2, 13, 34, 9, 1, 14, 10, 24])) (.leaf [26, 61, 21, 60, 48, 11,
  38, 62, 35, 20, 12, 55, 3, 36, 15, 7, 5, 56, 4, 0, 31, 8, 6, 2, 13, 34, 9, 1, 14, 10, 24]))
  (.leaf [26, 61, 21, 60, 48, 11, 38, 62, 35, 20, 12, 55, 3, 36, 15, 7, 5, 56, 4, 0, 31, 8, 6, 2,
  13, 34, 9, 1, 14, 10, 24])) (.leaf [26, 61, 21, 60, 48, 11, 38, 62, 35, 20, 12, 55, 3, 36, 15, 7,
  5, 56, 4, 0, 31, 8, 6, 2, 13, 34, 9, 1, 14, 10, 24])) (.leaf [26, 61, 21, 60, 48, 11, 38, 62, 35,
  20, 12, 55, 3, 36, 15, 7, 5, 56, 4, 0, 31, 8, 6, 2, 13, 34, 9, 1, 14, 10, 24])) (.leaf [26, 61,
  21, 60, 48, 11, 38, 62, 35, 20, 12, 55, 3, 36, 15, 7, 5, 56, 4, 0, 31, 8, 6, 2, 13, 34, 9, 1, 14,
  10, 24])) (.leaf [26, 61, 21, 60, 48, 38, 62, 35, 20, 55, 3, 36, 15, 7, 56, 4, 0, 31, 8, 2, 13,
  34, 9, 1, 14, 10, 24, 58, 40, 41, 42, 43])) (.leaf [26, 61, 21, 60, 48, 11, 38, 62, 35, 20, 12,
  55, 3, 36, 15, 7, 5, 56, 4, 0, 31, 8, 6, 2, 13, 34, 9, 1, 14, 10, 24])) (.leaf [26, 61, 21, 60,
  48, 11, 38, 62, 35, 20, 12, 55, 3, 36, 15, 7, 5, 56, 4, 0, 31, 8, 6, 2, 34, 9, 1, 10, 24, 58, 40,
  41, 42, 43])) (.leaf [26, 61, 21, 60, 48, 11, 38, 62, 35, 20, 12, 55, 3, 36, 15, 7, 5, 56, 4, 0,
  31, 8, 6, 2, 13, 34, 9, 1, 14, 10, 24])) (.leaf [26, 61, 21, 60, 48, 11, 38, 62, 35, 20, 12, 55,
  3, 36, 15, 7, 5, 56, 4, 0, 31, 8, 6, 2, 13, 34, 9, 1, 14, 10, 24])) (.leaf [26, 61, 21, 60, 48,
  11, 38, 62, 35, 20, 12, 55, 3, 36, 15, 7, 5, 56, 4, 0, 31, 8, 6, 2, 13, 34, 9, 1, 14, 10, 24]))
  (.leaf [26, 61, 21, 60, 48, 38, 62, 35, 20, 55, 3, 36, 15, 7, 56, 4, 0, 31, 8, 2, 13, 34, 9, 1,
  14, 10, 24, 58, 40, 41, 42, 43])) (.leaf [26, 61, 21, 60, 48, 11, 38, 62, 35, 20, 12, 55, 3, 36,
  15, 7, 5, 56, 4, 0, 31, 8, 6, 2, 13, 34, 9, 1, 14, 10, 24])) (.leaf [26, 61, 21, 60, 48, 11, 38,
  62, 35, 20, 12, 55, 3, 36, 15, 7, 5, 56, 4, 0, 31, 8, 6, 2, 13, 34, 9, 1, 14, 10, 24, 58, 40, 41,
  42, 43])) (.leaf [26, 61, 21, 60, 11, 38, 62, 20, 12, 55, 3, 15, 7, 5, 56, 4, 0, 31, 8, 6, 2, 34,
  9, 1, 10, 24, 58, 40, 41, 42, 43])) (.leaf [26, 61, 21, 60, 48, 11, 38, 62, 35, 20, 12, 55, 3,
  36, 15, 7, 5, 56, 4, 0, 31, 8, 6, 2, 13, 34, 9, 1, 14, 10, 24])) (.leaf [26, 61, 21, 60, 48, 11,
  38, 62, 35, 20, 12, 55, 3, 36, 15, 7, 5, 56, 4, 0, 31, 8, 6, 2, 13, 34, 9, 1, 14, 10, 24]))
  (.leaf [26, 61, 21, 60, 48, 38, 62, 35, 20, 55, 3, 36, 15, 7, 56, 4, 0, 31, 8, 2, 13, 34, 9, 1,
  14, 10, 24, 58, 40, 41, 42, 43])) (.leaf [26, 61, 21, 60, 48, 11, 38, 62, 35, 20, 12, 55, 3, 36,
  15, 7, 5, 56, 4, 0, 31, 8, 6, 2, 13, 34, 9, 1, 14, 10, 24, 58, 40, 41, 42, 43])) (.leaf [26, 61,
  21, 60, 11, 38, 62, 20, 12, 55, 3, 15, 7, 5, 56, 4, 0, 31, 8, 6, 2, 34, 9, 1, 10, 24, 58, 40, 41,
  42, 43])) (.leaf [26, 128, 21, 60, 48, 11, 38, 55, 35, 20, 12, 56, 3, 36, 15, 7, 5, 4, 0, 31, 8,
  6, 2, 13, 34, 9, 1, 14, 10, 24])) (.leaf [26, 61, 21, 60, 48, 11, 38, 62, 35, 20, 12, 55, 3, 36,
  15, 7, 5, 56, 4, 0, 31, 8, 6, 2, 13, 34, 9, 1, 14, 10, 24])) (.leaf [26, 61, 21, 60, 48, 38, 62,
  35, 20, 55, 3, 36, 15, 7, 56, 4, 0, 31, 8, 2, 13, 34, 9, 1, 14, 10, 24, 58, 40, 41, 42, 43]))
  (.leaf [26, 61, 21, 60, 11, 38, 62, 20, 12, 55, 3, 15, 7, 5, 56, 4, 0, 31, 8, 6, 2, 34, 9, 1, 10,
  24, 58, 40, 41, 42, 43])) (.leaf [26, 61, 21, 60, 48, 11, 38, 62, 35, 20, 12, 55, 3, 36, 15, 7,
  5, 56, 4, 0, 31, 8, 6, 2, 13, 34, 9, 1, 14, 10, 24])) (.leaf [26, 61, 21, 60, 48, 11, 38, 62, 35,
  20, 12, 55, 3, 36, 15, 7, 5, 56, 4, 0, 31, 8, 6, 2, 13, 34, 9, 1, 14, 10, 24, 58, 40, 41, 42,
  43])) (.leaf [26, 61, 21, 60, 48, 38, 62, 35, 20, 55, 3, 36, 15, 7, 56, 4, 0, 31, 8, 2, 13, 34,
  9, 1, 14, 10, 24, 58, 40, 41, 42, 43])

/-- some of the cases -/
def real5OneCase141 : LooseTree :=
  .breaks 1065043 (.breaks 17920098 (.breaks 21000211 (.breaks 4210769 (.breaks 4235362 (.breaks
  24211537 (.breaks 4210881 (.breaks 10526801 (.breaks 24170693 (.breaks 24211649 (.breaks 4210705
  (.breaks 10526913 (.breaks 13684817 (.breaks 13705410 (.breaks 24211473 (.breaks 4194326 (.breaks
  4210721 (.breaks 10526737 (.breaks 18948177 (.breaks 18972866 (.breaks 24211489 (.breaks 4210689
  (.breaks 10526753 (.breaks 18948209 (.breaks 24211457 (.breaks 25264209 (.breaks 10526721 (.leaf
  [53, 21, 60, 54, 59, 20, 11, 46, 15, 7, 12, 3, 0, 31, 8, 89, 5, 4, 13, 34, 9, 6, 2, 14, 10, 24,
  1]) (.leaf [53, 21, 48, 54, 59, 35, 20, 11, 46, 36, 15, 7, 12, 3, 0, 31, 8, 89, 5, 4, 13, 34, 9,
  6, 2, 14, 10, 24, 1])) (.leaf [53, 21, 60, 48, 54, 59, 35, 20, 11, 46, 36, 15, 7, 12, 3, 0, 31,
  8, 89, 5, 4, 13, 9, 6, 2, 14, 10, 1])) (.leaf [53, 21, 48, 54, 59, 35, 20, 11, 46, 36, 15, 7, 12,
  3, 0, 31, 8, 89, 5, 4, 13, 34, 9, 6, 2, 14, 10, 24, 1])) (.leaf [53, 21, 60, 48, 54, 59, 35, 20,
  11, 46, 36, 15, 7, 12, 3, 0, 31, 8, 89, 5, 4, 34, 9, 6, 2, 10, 24, 1])) (.leaf [53, 21, 48, 54,
  59, 35, 20, 11, 46, 36, 15, 7, 12, 3, 0, 31, 8, 89, 5, 4, 13, 34, 9, 6, 2, 14, 10, 24, 1]))
  (.leaf [53, 21, 48, 54, 59, 35, 20, 11, 46, 36, 15, 7, 12, 3, 0, 31, 8, 89, 5, 4, 13, 34, 9, 6,
  2, 14, 10, 24, 1])) (.leaf [53, 21, 48, 54, 59, 35, 20, 11, 46, 36, 15, 7, 12, 3, 0, 31, 8, 89,
  5, 4, 13, 34, 9, 6, 2, 14, 10, 24, 1])) (.leaf [53, 21, 60, 48, 54, 59, 35, 20, 11, 46, 36, 15,
  7, 12, 3, 0, 31, 8, 89, 5, 4, 13, 9, 6, 2, 14, 10, 1])) (.leaf [53, 21, 60, 48, 54, 59, 35, 20,
  11, 46, 36, 15, 7, 12, 3, 0, 31, 8, 89, 5, 4, 34, 9, 6, 2, 10, 24, 1])) (.leaf [53, 21, 48, 54,
  59, 35, 20, 11, 46, 36, 15, 7, 12, 3, 0, 31, 8, 89, 5, 4, 13, 34, 9, 6, 2, 14, 10, 24, 1]))
  (.leaf [53, 21, 48, 54, 59, 35, 20, 11, 46, 36, 15, 7, 12, 3, 0, 31, 8, 89, 5, 4, 13, 34, 9, 6,
  2, 14, 10, 24, 1])) (.leaf [53, 21, 48, 54, 59, 35, 20, 11, 46, 36, 15, 7, 12, 3, 0, 31, 8, 165,
  5, 4, 13, 34, 9, 6, 2, 14, 10, 24, 1])) (.leaf [53, 21, 48, 54, 59, 35, 20, 11, 46, 36, 15, 7,
  12, 3, 0, 31, 8, 89, 5, 4, 13, 34, 9, 6, 2, 14, 10, 24, 1])) (.leaf [53, 21, 60, 48, 54, 59, 35,
  20, 11, 46, 36, 15, 7, 12, 3, 0, 31, 8, 89, 5, 4, 13, 34, 9, 6, 2, 14, 10, 24, 1])) (.leaf [53,
  21, 48, 54, 59, 35, 20, 11, 46, 36, 15, 7, 12, 3, 0, 31, 8, 89, 5, 4, 13, 34, 9, 6, 2, 14, 10,
  24, 1])) (.leaf [53, 21, 48, 54, 59, 35, 20, 11, 46, 36, 15, 7, 12, 3, 0, 31, 8, 89, 5, 4, 13,
  34, 9, 6, 2, 14, 10, 24, 1])) (.leaf [53, 21, 60, 48, 54, 59, 35, 20, 11, 46, 36, 15, 7, 12, 3,
  0, 31, 8, 89, 5, 4, 13, 34, 9, 6, 2, 14, 10, 24, 1])) (.leaf [53, 21, 48, 54, 59, 35, 20, 11, 46,
  36, 15, 7, 12, 3, 0, 31, 8, 89, 5, 4, 13, 34, 9, 6, 2, 14, 10, 24, 1])) (.leaf [53, 21, 60, 48,
  54, 59, 35, 20, 11, 46, 36, 15, 7, 12, 3, 0, 31, 8, 89, 5, 4, 13, 34, 9, 6, 2, 14, 10, 24, 1]))
  (.leaf [53, 21, 48, 54, 59, 35, 20, 11, 46, 36, 15, 7, 12, 3, 0, 31, 8, 89, 5, 4, 13, 34, 9, 6,
  2, 14, 10, 24, 1])) (.leaf [53, 21, 60, 48, 54, 59, 35, 20, 11, 46, 36, 15, 7, 12, 3, 0, 31, 8,
  89, 5, 4, 13, 34, 9, 6, 2, 14, 10, 24, 1])) (.leaf [53, 21, 60, 48, 54, 59, 35, 20, 11, 46, 36,
  15, 7, 12, 3, 0, 31, 8, 89, 5, 4, 34, 9, 6, 2, 10, 24, 58, 1, 40, 41, 42, 43])) (.leaf [53, 21,
  48, 54, 59, 35, 20, 11, 46, 36, 15, 7, 12, 3, 0, 31, 8, 89, 5, 4, 13, 34, 9, 6, 2, 14, 10, 24,
  1])) (.leaf [53, 21, 60, 48, 54, 59, 35, 20, 11, 46, 36, 15, 7, 12, 3, 0, 31, 8, 89, 5, 4, 13,
  34, 9, 6, 2, 14, 10, 24, 1])) (.leaf [53, 21, 48, 54, 59, 35, 20, 11, 46, 36, 15, 7, 12, 3, 0,
  31, 8, 89, 5, 4, 13, 34, 9, 6, 2, 14, 10, 24, 1])) (.leaf [53, 21, 60, 48, 54, 59, 35, 20, 11,
  46, 36, 15, 7, 12, 3, 0, 31, 8, 89, 5, 4, 34, 9, 6, 2, 10, 24, 58, 1, 40, 41, 42, 43])) (.leaf
  [53, 21, 60, 48, 54, 59, 35, 20, 11, 46, 36, 15, 7, 12, 3, 0, 31, 8, 89, 5, 4, 13, 34, 9, 6, 2,
  14, 10, 24, 1])

/-- some of the cases -/
def real5OneCase142 : LooseTree :=
  .cases [] 25 (.cases [] 39 (.breaks 1065045 (.breaks 4198483 (.cycle 33 [26, 99]) (.leaf [26, 21,
  60, 84, 85, 11, 38, 48, 37, 20, 12, 3, 35, 15, 7, 5, 4, 0, 31, 36, 8, 6, 2, 34, 9, 1, 10, 24,
  112, 106, 40, 41, 42, 43])) (.leaf [26, 21, 60, 84, 85, 11, 38, 48, 37, 20, 12, 3, 35, 15, 7, 5,
  4, 0, 31, 36, 8, 6, 2, 13, 34, 9, 1, 14, 10, 24, 112, 106, 40, 41, 42, 43])) (.breaks 1065045
  (.breaks 4198483 (.cycle 33 [26, 99]) (.cycle 43 [117, 58])) (.cycle 43 [117, 58]))) (.cases []
  39 (.cases [] 37 (.cases [] 58 (.breaks 1065045 (.breaks 4198483 (.cycle 33 [26, 99]) (.leaf [26,
  21, 60, 48, 11, 177, 35, 20, 12, 2, 36, 15, 7, 5, 1, 0, 31, 8, 6, 13, 34, 9, 14, 10, 24, 112,
  106, 40, 41, 42, 43])) (.leaf [26, 21, 60, 48, 11, 177, 35, 20, 12, 2, 36, 15, 7, 5, 1, 0, 31, 8,
  6, 13, 34, 9, 14, 10, 24, 112, 106, 40, 41, 42, 43])) (.breaks 1065045 (.breaks 4198483 (.cycle
  33 [26, 99]) (.cycle 72 [108, 176])) (.cycle 72 [108, 176]))) (.cases [] 53 (.cases [] 56
  (.breaks 1065045 (.breaks 4198483 (.cycle 33 [26, 99]) (.cycle 28 [60, 175])) (.cycle 28
  [60, 175])) (.cases [] 61 (.breaks 1065045 (.breaks 4198483 (.cycle 33 [26, 99]) (.leaf [26, 21,
  167, 48, 11, 38, 35, 20, 12, 3, 36, 15, 7, 89, 5, 4, 0, 31, 8, 6, 2, 13, 34, 9, 1, 14, 10, 24,
  152, 106, 40, 41, 42, 43])) (.leaf [26, 183, 21, 50, 167, 48, 11, 46, 16, 35, 20, 12, 3, 17, 36,
  15, 7, 5, 4, 0, 31, 18, 8, 6, 2, 19, 13, 34, 9, 1, 14, 10, 24, 152, 106, 40, 41, 42, 43]))
  (.breaks 1065045 (.breaks 4198483 (.cycle 33 [26, 99]) (.leaf [26, 21, 167, 48, 11, 38, 35, 20,
  12, 3, 36, 15, 7, 89, 5, 4, 0, 31, 8, 6, 2, 13, 34, 9, 1, 14, 10, 24, 152, 106, 40, 41, 42, 43]))
  (.leaf [26, 59, 21, 50, 167, 48, 11, 38, 182, 16, 35, 20, 32, 12, 3, 17, 36, 15, 7, 5, 4, 0, 31,
  18, 8, 6, 2, 19, 13, 34, 9, 1, 14, 10, 24, 152, 106, 40, 41, 42, 43])))) (.breaks 1065045
  (.breaks 4198483 (.cycle 33 [26, 99]) (.cycle 32 [112, 156])) (.cycle 32 [112, 156])))) (.breaks
  1065045 (.breaks 4198483 (.cycle 33 [26, 99]) (.cycle 43 [117, 58])) (.cycle 43 [117, 58])))

/-- some of the cases -/
def real5OneCase143 : LooseTree :=
  .cases [] 11 (.breaks 1065043 (.breaks 17920098 (.breaks 19955730 (.breaks 21000211 (.breaks
  4210769 (.breaks 4235362 (.breaks 8421505 (.breaks 24211537 (.breaks 4210881 (.breaks 8421521
  (.breaks 10526801 (.breaks 24170693 (.breaks 4210705 (.breaks 10526913 (.breaks 13684817 (.breaks
  13705410 (.breaks 4194326 (.breaks 4210721 (.breaks 10526737 (.breaks 18948177 (.breaks 4210689
  (.breaks 10526753 (.breaks 18948209 (.breaks 10526721 (.leaf [53, 21, 70, 60, 54, 59, 64, 20, 11,
  65, 46, 15, 12, 3, 0, 31, 89, 5, 4, 13, 6, 2, 14, 1]) (.leaf [53, 21, 70, 54, 59, 64, 20, 11, 65,
  46, 15, 12, 3, 0, 31, 89, 5, 4, 13, 34, 6, 2, 14, 24, 1])) (.leaf [53, 21, 70, 54, 59, 64, 20,
  11, 65, 46, 15, 7, 12, 3, 0, 8, 89, 5, 4, 9, 6, 2, 10, 1])) (.leaf [53, 21, 70, 54, 59, 64, 20,
  11, 65, 46, 15, 12, 3, 0, 31, 89, 5, 4, 13, 34, 6, 2, 14, 24, 1])) (.leaf [53, 21, 70, 60, 54,
  59, 64, 20, 11, 65, 46, 15, 12, 3, 0, 31, 89, 5, 4, 13, 34, 6, 2, 14, 24, 1])) (.leaf [53, 21,
  70, 54, 59, 64, 20, 11, 65, 46, 15, 7, 12, 3, 0, 8, 89, 5, 4, 9, 6, 2, 10, 1])) (.leaf [53, 21,
  70, 54, 59, 64, 20, 11, 65, 46, 15, 12, 3, 0, 31, 89, 5, 4, 13, 34, 6, 2, 14, 24, 1])) (.leaf
  [53, 21, 70, 60, 54, 59, 64, 20, 11, 65, 46, 15, 12, 3, 0, 31, 89, 5, 4, 13, 34, 6, 2, 14, 24,
  1])) (.leaf [53, 21, 70, 54, 59, 64, 20, 11, 65, 46, 15, 12, 3, 0, 31, 165, 5, 4, 13, 34, 6, 2,
  14, 24, 1])) (.leaf [53, 21, 70, 54, 59, 64, 20, 11, 65, 46, 15, 7, 12, 3, 0, 8, 89, 5, 4, 9, 6,
  2, 10, 1])) (.leaf [53, 21, 70, 54, 59, 64, 20, 11, 65, 46, 15, 12, 3, 0, 31, 89, 5, 4, 13, 34,
  6, 2, 14, 24, 1])) (.leaf [53, 21, 70, 54, 59, 64, 20, 11, 65, 46, 15, 12, 3, 0, 31, 89, 5, 4,
  13, 34, 6, 2, 14, 24, 1])) (.leaf [53, 21, 70, 60, 54, 59, 64, 20, 11, 65, 46, 15, 12, 3, 0, 31,
  89, 5, 4, 13, 34, 6, 2, 14, 24, 1])) (.leaf [53, 21, 70, 60, 54, 59, 64, 20, 11, 65, 46, 15, 7,
  12, 3, 0, 8, 89, 5, 4, 9, 6, 2, 10, 1])) (.leaf [53, 21, 70, 54, 59, 64, 20, 11, 65, 46, 15, 12,
  3, 0, 31, 89, 5, 4, 13, 34, 6, 2, 14, 24, 1])) (.leaf [53, 21, 70, 60, 54, 59, 64, 20, 11, 65,
  46, 15, 12, 3, 0, 31, 89, 5, 4, 13, 34, 6, 2, 14, 24, 1])) (.leaf [53, 21, 70, 60, 54, 59, 64,
  20, 11, 65, 46, 15, 12, 3, 0, 31, 89, 5, 4, 13, 34, 6, 2, 14, 24, 1])) (.leaf [53, 21, 70, 60,
  48, 54, 59, 64, 35, 20, 11, 65, 46, 36, 15, 12, 3, 0, 31, 89, 5, 4, 13, 6, 2, 14, 1])) (.leaf
  [53, 21, 70, 60, 54, 59, 64, 20, 11, 65, 46, 15, 12, 3, 0, 31, 89, 5, 4, 13, 34, 6, 2, 14, 24,
  1])) (.leaf [53, 21, 70, 54, 59, 64, 20, 11, 65, 46, 15, 12, 3, 0, 31, 89, 5, 4, 13, 34, 6, 2,
  14, 24, 1])) (.leaf [53, 21, 70, 60, 54, 59, 64, 20, 11, 65, 46, 15, 12, 3, 0, 31, 89, 5, 4, 13,
  34, 6, 2, 14, 24, 1])) (.leaf [53, 21, 70, 54, 59, 64, 20, 11, 65, 46, 15, 12, 3, 0, 31, 89, 5,
  4, 13, 34, 6, 2, 14, 24, 1])) (.leaf [53, 21, 70, 60, 54, 59, 64, 20, 11, 65, 46, 15, 12, 3, 0,
  31, 89, 5, 4, 13, 34, 6, 2, 14, 24, 1])) (.leaf [53, 21, 70, 60, 48, 54, 59, 64, 35, 20, 11, 65,
  46, 36, 15, 12, 3, 0, 31, 89, 5, 4, 13, 6, 2, 14, 1])) (.leaf [53, 21, 70, 60, 54, 59, 64, 20,
  11, 65, 46, 15, 7, 12, 3, 0, 31, 8, 89, 5, 4, 13, 9, 6, 2, 14, 10, 1])) (.cases [] 25 (.breaks
  1065045 (.breaks 4198483 (.cycle 33 [26, 99]) (.leaf [26, 21, 70, 60, 84, 85, 11, 38, 64, 48, 37,
  20, 12, 65, 3, 35, 15, 7, 5, 4, 0, 31, 36, 8, 6, 2, 13, 34, 9, 1, 14, 10, 24])) (.leaf [26, 21,
  70, 60, 84, 85, 38, 64, 48, 37, 20, 65, 3, 35, 15, 7, 4, 0, 31, 36, 8, 2, 13, 34, 9, 1, 14, 10,
  24, 58, 40, 41, 42, 43])) (.cases [] 39 (.breaks 1065045 (.breaks 4198483 (.cycle 33 [26, 99])
  (.leaf [26, 21, 70, 60, 11, 38, 64, 20, 12, 65, 3, 15, 7, 5, 4, 0, 31, 8, 6, 2, 13, 34, 9, 1, 14,
  10, 24, 112, 106, 40, 41, 42, 43])) (.leaf [26, 21, 70, 48, 11, 38, 64, 35, 20, 12, 65, 3, 36,
  15, 7, 5, 4, 0, 31, 8, 6, 2, 13, 34, 9, 1, 14, 10, 24, 112, 106, 40, 41, 42, 43])) (.breaks
  1065045 (.breaks 4198483 (.cycle 33 [26, 99]) (.cycle 43 [117, 58])) (.cycle 43 [117, 58]))))

/-- some of the cases -/
def real5OneCase144 : LooseTree :=
  .cases [] 11 (.breaks 1065043 (.breaks 17920098 (.breaks 21000211 (.breaks 27353219 (.breaks
  27353218 (.breaks 4210769 (.breaks 4235362 (.breaks 23146629 (.breaks 23158801 (.breaks 24211537
  (.breaks 4210881 (.breaks 10526801 (.breaks 20000945 (.breaks 24170693 (.breaks 4210705 (.breaks
  10526913 (.breaks 13684817 (.breaks 13705410 (.breaks 20000929 (.breaks 4210721 (.breaks 10526737
  (.breaks 18948177 (.breaks 18972866 (.breaks 4210689 (.breaks 10526753 (.breaks 18948209 (.breaks
  25264209 (.breaks 10526721 (.leaf [53, 21, 60, 84, 85, 54, 59, 48, 37, 20, 11, 46, 35, 15, 12, 3,
  0, 31, 36, 5, 4, 13, 34, 6, 2, 14, 24, 1]) (.leaf [53, 21, 60, 84, 85, 54, 59, 48, 37, 20, 11,
  46, 35, 15, 7, 12, 3, 0, 31, 36, 8, 5, 4, 13, 9, 6, 2, 14, 10, 1])) (.leaf [53, 21, 84, 85, 54,
  59, 48, 37, 20, 11, 46, 35, 15, 7, 12, 3, 0, 31, 36, 8, 5, 4, 13, 9, 6, 2, 14, 10, 1])) (.leaf
  [53, 21, 84, 85, 54, 59, 48, 37, 20, 11, 46, 35, 15, 7, 12, 3, 0, 31, 36, 8, 5, 4, 34, 9, 6, 2,
  10, 24, 1])) (.leaf [53, 21, 60, 84, 85, 54, 59, 48, 37, 20, 11, 46, 35, 15, 7, 12, 3, 0, 31, 36,
  8, 5, 4, 13, 9, 6, 2, 14, 10, 1])) (.leaf [53, 21, 60, 84, 85, 54, 59, 48, 37, 20, 11, 46, 35,
  15, 7, 12, 3, 0, 31, 36, 8, 5, 4, 13, 9, 6, 2, 14, 10, 1])) (.leaf [53, 21, 84, 85, 54, 59, 48,
  37, 20, 11, 46, 35, 15, 7, 12, 3, 0, 31, 36, 8, 5, 4, 13, 9, 6, 2, 14, 10, 1])) (.leaf [53, 21,
  84, 85, 54, 59, 48, 37, 20, 11, 46, 35, 15, 7, 12, 3, 0, 31, 36, 8, 5, 4, 34, 9, 6, 2, 10, 24,
  1])) (.leaf [53, 21, 60, 84, 85, 54, 59, 48, 37, 20, 11, 46, 35, 15, 7, 12, 3, 0, 31, 36, 8, 5,
  4, 13, 9, 6, 2, 14, 10, 1])) (.leaf [53, 21, 60, 84, 85, 54, 59, 48, 37, 20, 11, 46, 35, 15, 7,
  12, 3, 0, 31, 36, 8, 5, 4, 13, 9, 6, 2, 14, 10, 1])) (.leaf [53, 21, 60, 84, 85, 54, 59, 48, 37,
  20, 11, 46, 35, 15, 7, 12, 3, 0, 31, 36, 8, 5, 4, 13, 9, 6, 2, 14, 10, 1])) (.leaf [53, 21, 60,
  84, 85, 54, 59, 48, 37, 20, 11, 46, 35, 15, 7, 12, 3, 0, 31, 36, 8, 5, 4, 13, 9, 6, 2, 14, 10,
  1])) (.leaf [53, 21, 60, 84, 85, 54, 59, 48, 37, 20, 11, 46, 35, 15, 7, 12, 3, 0, 31, 36, 8, 5,
  4, 13, 9, 6, 2, 14, 10, 1])) (.leaf [53, 21, 60, 84, 85, 54, 59, 48, 37, 20, 11, 46, 35, 15, 7,
  12, 3, 0, 31, 36, 8, 5, 4, 13, 9, 6, 2, 14, 10, 1])) (.leaf [53, 21, 60, 84, 85, 54, 59, 48, 37,
  20, 11, 46, 35, 15, 7, 12, 3, 0, 31, 36, 8, 5, 4, 13, 9, 6, 2, 14, 10, 1])) (.leaf [53, 21, 60,
  84, 85, 54, 59, 48, 37, 20, 11, 46, 35, 15, 7, 12, 3, 0, 31, 36, 8, 5, 4, 13, 9, 6, 2, 14, 10,
  1])) (.leaf [53, 21, 60, 84, 85, 54, 59, 48, 37, 20, 11, 46, 35, 15, 7, 12, 3, 0, 31, 36, 8, 5,
  4, 13, 9, 6, 2, 14, 10, 1])) (.leaf [53, 21, 60, 84, 85, 54, 59, 48, 37, 20, 11, 46, 35, 15, 7,
  12, 3, 0, 31, 36, 8, 5, 4, 13, 9, 6, 2, 14, 10, 1])) (.leaf [53, 21, 60, 84, 85, 54, 59, 48, 37,
  20, 11, 46, 35, 15, 7, 12, 3, 0, 31, 36, 8, 5, 4, 13, 9, 6, 2, 14, 10, 1])) (.leaf [53, 21, 60,
  84, 85, 54, 59, 48, 37, 20, 11, 46, 35, 15, 7, 12, 3, 0, 31, 36, 8, 5, 4, 13, 34, 9, 6, 2, 14,
  10, 24, 1])) (.leaf [53, 21, 60, 84, 85, 54, 59, 48, 37, 20, 11, 46, 35, 15, 7, 12, 3, 0, 31, 36,
  8, 5, 4, 13, 9, 6, 2, 14, 10, 1])) (.leaf [53, 21, 60, 84, 85, 54, 59, 48, 37, 20, 11, 46, 35,
  15, 7, 12, 3, 0, 31, 36, 8, 5, 4, 13, 9, 6, 2, 14, 10, 1])) (.leaf [53, 21, 60, 84, 85, 54, 59,
  48, 37, 20, 11, 46, 35, 15, 7, 12, 3, 0, 31, 36, 8, 5, 4, 13, 9, 6, 2, 14, 10, 1])) (.leaf [53,
  21, 60, 84, 85, 54, 59, 48, 37, 20, 11, 46, 35, 15, 7, 12, 3, 0, 31, 36, 8, 5, 4, 13, 9, 6, 2,
  14, 10, 1])) (.leaf [53, 21, 60, 84, 85, 54, 59, 48, 37, 20, 11, 46, 35, 15, 7, 12, 3, 0, 31, 36,
  8, 5, 4, 13, 9, 6, 2, 14, 10, 1])) (.leaf [53, 21, 60, 84, 85, 54, 59, 48, 37, 20, 11, 46, 35,
  15, 7, 12, 3, 0, 31, 36, 8, 5, 4, 13, 9, 6, 2, 14, 10, 1])) (.leaf [53, 21, 84, 85, 54, 59, 48,
  37, 20, 11, 46, 35, 15, 7, 12, 3, 0, 31, 36, 8, 5, 4, 13, 9, 6, 2, 14, 10, 1])) (.leaf [53, 21,
  60, 84, 85, 54, 59, 48, 37, 20, 11, 46, 35, 15, 7, 12, 3, 0, 31, 36, 8, 5, 4, 13, 34, 9, 6, 2,
  14, 10, 24, 1])) (.leaf [53, 21, 60, 84, 85, 54, 59, 48, 37, 20, 11, 46, 35, 15, 7, 12, 3, 0, 31,
  36, 8, 5, 4, 13, 9, 6, 2, 14, 10, 1])) (.breaks 1065045 (.breaks 4198483 (.cycle 33 [26, 99])
  (.leaf [94, 26, 21, 50, 60, 84, 85, 38, 5, 16, 48, 37, 20, 6, 3, 17, 35, 15, 7, 4, 0, 31, 18, 36,
  8, 2, 19, 13, 34, 9, 1, 14, 10, 24, 58, 40, 41, 42, 43])) (.leaf [94, 26, 21, 50, 60, 84, 85, 38,
  5, 16, 48, 37, 20, 6, 3, 17, 35, 15, 7, 4, 0, 31, 18, 36, 8, 2, 19, 13, 34, 9, 1, 14, 10, 24, 58,
  40, 41, 42, 43]))

/-- some of the cases -/
def real5OneCase145 : LooseTree :=
  .cases [] 50 (.breaks 4235362 (.breaks 10526801 (.breaks 10567762 (.breaks 21053633 (.breaks
  21053457 (.breaks 21000211 (.breaks 6320151 (.leaf [53, 59, 46, 157, 27, 28, 60, 72]) (.leaf
  [53, 59, 46, 157, 27, 28, 60, 72])) (.leaf [53, 59, 46, 157, 27, 28, 60, 72])) (.leaf
  [53, 59, 46, 157, 27, 28, 60, 72])) (.leaf [53, 59, 46, 157, 27, 28, 60, 72])) (.leaf
  [53, 59, 46, 157, 27, 28, 60, 72])) (.leaf [53, 59, 46, 157, 27, 28, 60, 72])) (.leaf
  [53, 59, 46, 157, 27, 28, 60, 72])) (.breaks 1065043 (.breaks 17920098 (.breaks 21012562 (.breaks
  23146629 (.breaks 4210769 (.breaks 10526913 (.breaks 20000945 (.breaks 24211537 (.breaks 4210881
  (.breaks 10526737 (.breaks 20000929 (.breaks 24170693 (.breaks 24211649 (.breaks 4210705 (.breaks
  10526753 (.breaks 13684817 (.breaks 13705410 (.breaks 24211473 (.breaks 4210721 (.breaks 10526721
  (.breaks 18948177 (.breaks 18972866 (.breaks 24211489 (.breaks 4210689 (.breaks 18948209 (.breaks
  24211457 (.breaks 25264209 (.leaf [53, 21, 133, 48, 54, 3, 35, 20, 11, 4, 36, 15, 7, 12, 2, 0,
  31, 8, 5, 1, 13, 34, 9, 6, 14, 10, 24]) (.leaf [53, 21, 133, 60, 48, 54, 3, 35, 20, 11, 4, 36,
  15, 7, 12, 2, 0, 31, 8, 5, 1, 13, 34, 9, 6, 14, 10, 24])) (.leaf [53, 21, 133, 60, 48, 54, 3, 35,
  20, 11, 4, 36, 15, 7, 12, 2, 0, 31, 8, 5, 1, 13, 34, 9, 6, 14, 10, 24])) (.leaf [53, 21, 133, 60,
  48, 54, 3, 35, 20, 11, 4, 36, 15, 7, 12, 2, 0, 31, 8, 5, 1, 13, 34, 9, 6, 14, 10, 24])) (.leaf
  [53, 21, 133, 60, 48, 54, 3, 35, 20, 11, 4, 36, 15, 7, 12, 2, 0, 31, 8, 5, 1, 13, 34, 9, 6, 14,
  10, 24])) (.leaf [53, 21, 133, 60, 48, 54, 3, 35, 20, 11, 4, 36, 15, 7, 12, 2, 0, 31, 8, 5, 1,
  13, 34, 9, 6, 14, 10, 24])) (.leaf [53, 21, 133, 60, 48, 54, 3, 35, 20, 11, 4, 36, 15, 7, 12, 2,
  0, 31, 8, 5, 1, 13, 34, 9, 6, 14, 10, 24])) (.leaf [53, 21, 133, 60, 48, 54, 3, 35, 20, 11, 4,
  36, 15, 7, 12, 2, 0, 31, 8, 5, 1, 13, 34, 9, 6, 14, 10, 24])) (.leaf [53, 21, 133, 60, 48, 54, 3,
  35, 20, 11, 4, 36, 15, 7, 12, 2, 0, 31, 8, 5, 1, 13, 34, 9, 6, 14, 10, 24])) (.leaf [53, 21, 133,
  60, 48, 54, 3, 35, 20, 11, 4, 36, 15, 7, 12, 2, 0, 31, 8, 5, 1, 13, 34, 9, 6, 14, 10, 24]))
  (.leaf [53, 21, 133, 60, 48, 54, 3, 35, 20, 11, 4, 36, 15, 7, 12, 2, 0, 31, 8, 5, 1, 13, 34, 9,
  6, 14, 10, 24])) (.leaf [53, 21, 133, 60, 48, 54, 3, 35, 20, 11, 4, 36, 15, 7, 12, 2, 0, 31, 8,
  5, 1, 13, 34, 9, 6, 14, 10, 24])) (.leaf [53, 21, 133, 60, 48, 54, 3, 35, 20, 11, 4, 36, 15, 7,
  12, 2, 0, 31, 8, 5, 1, 13, 34, 9, 6, 14, 10, 24])) (.leaf [53, 21, 133, 60, 48, 54, 3, 35, 20,
  11, 4, 36, 15, 7, 12, 2, 0, 31, 8, 5, 1, 13, 34, 9, 6, 14, 10, 24])) (.leaf [53, 21, 133, 60, 48,
  54, 3, 35, 20, 11, 4, 36, 15, 7, 12, 2, 0, 31, 8, 5, 1, 13, 34, 9, 6, 14, 10, 24])) (.leaf [53,
  21, 133, 60, 48, 54, 3, 35, 20, 11, 4, 36, 15, 7, 12, 2, 0, 31, 8, 5, 1, 13, 34, 9, 6, 14, 10,
  24])) (.leaf [53, 21, 133, 60, 48, 54, 3, 35, 20, 11, 4, 36, 15, 7, 12, 2, 0, 31, 8, 5, 1, 34, 9,
  6, 10, 24, 58, 40, 41, 42, 43])) (.leaf [53, 21, 133, 60, 54, 3, 20, 11, 4, 15, 7, 12, 2, 0, 31,
  8, 5, 1, 34, 9, 6, 10, 24, 58, 40, 41, 42, 43])) (.leaf [53, 21, 133, 60, 48, 54, 3, 35, 20, 11,
  4, 36, 15, 7, 12, 2, 0, 31, 8, 5, 1, 13, 34, 9, 6, 14, 10, 24])) (.leaf [53, 21, 133, 60, 48, 54,
  3, 35, 20, 11, 4, 36, 15, 7, 12, 2, 0, 31, 8, 5, 1, 13, 34, 9, 6, 14, 10, 24])) (.leaf [53, 21,
  133, 60, 48, 54, 3, 35, 20, 11, 4, 36, 15, 7, 12, 2, 0, 31, 8, 5, 1, 13, 34, 9, 6, 14, 10, 24,
  58, 40, 41, 42, 43])) (.leaf [53, 21, 133, 60, 54, 3, 20, 11, 4, 15, 7, 12, 2, 0, 31, 8, 5, 1,
  34, 9, 6, 10, 24, 58, 40, 41, 42, 43])) (.leaf [53, 21, 133, 60, 48, 54, 3, 35, 20, 11, 4, 36,
  15, 7, 12, 2, 0, 31, 8, 5, 1, 13, 34, 9, 6, 14, 10, 24])) (.leaf [53, 21, 133, 60, 48, 54, 3, 35,
  20, 11, 4, 36, 15, 7, 12, 2, 0, 31, 8, 5, 1, 13, 34, 9, 6, 14, 10, 24])) (.leaf [53, 21, 133, 60,
  54, 3, 20, 11, 4, 15, 7, 12, 2, 0, 31, 8, 5, 1, 34, 9, 6, 10, 24, 58, 40, 41, 42, 43])) (.leaf
  [53, 21, 133, 60, 48, 54, 3, 35, 20, 11, 4, 36, 15, 7, 12, 2, 0, 31, 8, 5, 1, 13, 34, 9, 6, 14,
  10, 24])) (.leaf [53, 21, 133, 60, 48, 54, 3, 35, 20, 11, 4, 36, 15, 7, 12, 2, 0, 31, 8, 5, 1,
  13, 34, 9, 6, 14, 10, 24, 58, 40, 41, 42, 43])) (.leaf [53, 21, 133, 60, 48, 54, 3, 35, 20, 11,
  4, 36, 15, 7, 12, 2, 0, 31, 8, 5, 1, 13, 34, 9, 6, 14, 10, 24]))

/-- some of the cases -/
def real5OneCase146 : LooseTree :=
  .cases [] 39 (.cases [] 37 (.breaks 1065045 (.breaks 4198483 (.cycle 33 [26, 99]) (.leaf [94,
  108, 21, 50, 60, 48, 5, 1, 16, 35, 20, 6, 17, 36, 15, 7, 0, 31, 18, 8, 19, 13, 34, 9, 14, 10, 24,
  112, 106, 40, 41, 42, 43])) (.leaf [94, 108, 21, 50, 60, 48, 5, 1, 16, 35, 20, 6, 17, 36, 15, 7,
  0, 31, 18, 8, 19, 13, 34, 9, 14, 10, 24, 112, 106, 40, 41, 42, 43])) (.cases [] 53 (.breaks
  1065045 (.breaks 4198483 (.cycle 33 [26, 99]) (.leaf [94, 26, 21, 60, 48, 38, 5, 35, 20, 6, 3,
  36, 15, 7, 4, 0, 31, 8, 2, 13, 34, 9, 1, 14, 10, 24, 152, 106, 40, 41, 42, 43])) (.leaf [94, 26,
  21, 50, 60, 48, 38, 5, 16, 35, 20, 6, 3, 17, 36, 15, 7, 4, 0, 31, 18, 8, 2, 19, 13, 34, 9, 1, 14,
  10, 24, 152, 106, 40, 41, 42, 43])) (.breaks 1065045 (.breaks 4198483 (.cycle 33 [26, 99])
  (.cycle 32 [112, 156])) (.cycle 32 [112, 156])))) (.breaks 1065045 (.breaks 4198483 (.cycle 33
  [26, 99]) (.cycle 43 [117, 58])) (.cycle 43 [117, 58]))

/-- some of the cases -/
def real5OneCase147 : LooseTree :=
  .breaks 16406 (.breaks 1065045 (.breaks 17920098 (.breaks 19955730 (.breaks 27353219 (.breaks
  27353218 (.breaks 4235346 (.breaks 4210721 (.breaks 8421505 (.breaks 23146629 (.breaks 23158801
  (.breaks 24211537 (.breaks 4210689 (.breaks 8421521 (.breaks 10526913 (.breaks 20000945 (.breaks
  24170693 (.breaks 24211649 (.breaks 10526737 (.breaks 13684817 (.breaks 13705410 (.breaks
  20000929 (.breaks 24211473 (.breaks 10526753 (.breaks 18948177 (.breaks 18972866 (.breaks
  24211489 (.breaks 10526721 (.breaks 18948209 (.breaks 24211457 (.breaks 25264209 (.leaf [94, 26,
  21, 70, 84, 85, 38, 5, 64, 48, 37, 20, 6, 65, 3, 35, 15, 7, 4, 0, 31, 36, 8, 2, 13, 34, 9, 1, 14,
  10, 24]) (.leaf [94, 26, 21, 70, 60, 84, 85, 38, 5, 64, 48, 37, 20, 6, 65, 3, 35, 15, 7, 4, 0,
  31, 36, 8, 2, 13, 34, 9, 1, 14, 10, 24])) (.leaf [94, 26, 21, 70, 60, 84, 85, 38, 5, 64, 48, 37,
  20, 6, 65, 3, 35, 15, 7, 4, 0, 31, 36, 8, 2, 13, 34, 9, 1, 14, 10, 24])) (.leaf [94, 26, 21, 70,
  60, 84, 85, 38, 5, 64, 48, 37, 20, 6, 65, 3, 35, 15, 7, 4, 0, 31, 36, 8, 2, 13, 34, 9, 1, 14, 10,
  24])) (.leaf [94, 26, 21, 70, 60, 84, 85, 38, 5, 64, 48, 37, 20, 6, 65, 3, 35, 15, 7, 4, 0, 31,
  36, 8, 2, 13, 34, 9, 1, 14, 10, 24])) (.leaf [94, 26, 21, 70, 60, 84, 85, 38, 5, 64, 48, 37, 20,
  6, 65, 3, 35, 15, 7, 4, 0, 31, 36, 8, 2, 13, 34, 9, 1, 14, 10, 24])) (.leaf [94, 26, 21, 70, 60,
  84, 85, 38, 5, 64, 48, 37, 20, 6, 65, 3, 35, 15, 7, 4, 0, 31, 36, 8, 2, 13, 34, 9, 1, 14, 10,
  24])) (.leaf [94, 26, 21, 70, 60, 84, 85, 38, 5, 64, 48, 37, 20, 6, 65, 3, 35, 15, 7, 4, 0, 31,
  36, 8, 2, 13, 34, 9, 1, 14, 10, 24])) (.leaf [94, 26, 21, 70, 60, 84, 85, 38, 5, 64, 48, 37, 20,
  6, 65, 3, 35, 15, 7, 4, 0, 31, 36, 8, 2, 13, 34, 9, 1, 14, 10, 24])) (.leaf [94, 26, 21, 70, 60,
  84, 85, 38, 5, 64, 48, 37, 20, 6, 65, 3, 35, 15, 7, 4, 0, 31, 36, 8, 2, 13, 34, 9, 1, 14, 10,
  24])) (.leaf [94, 26, 21, 70, 60, 84, 85, 38, 5, 64, 48, 37, 20, 6, 65, 3, 35, 15, 7, 4, 0, 31,
  36, 8, 2, 13, 34, 9, 1, 14, 10, 24])) (.leaf [94, 26, 21, 70, 60, 84, 85, 38, 5, 64, 48, 37, 20,
  6, 65, 3, 35, 15, 7, 4, 0, 31, 36, 8, 2, 13, 34, 9, 1, 14, 10, 24])) (.leaf [94, 26, 21, 70, 60,
  84, 85, 38, 5, 64, 48, 37, 20, 6, 65, 3, 35, 15, 7, 4, 0, 31, 36, 8, 2, 13, 34, 9, 1, 14, 10,
  24])) (.leaf [94, 26, 21, 70, 60, 84, 85, 38, 5, 64, 48, 37, 20, 6, 65, 3, 35, 15, 7, 4, 0, 31,
  36, 8, 2, 13, 34, 9, 1, 14, 10, 24])) (.leaf [94, 26, 21, 70, 60, 84, 85, 38, 5, 64, 48, 37, 20,
  6, 65, 3, 35, 15, 7, 4, 0, 31, 36, 8, 2, 13, 34, 9, 1, 14, 10, 24])) (.leaf [94, 26, 21, 70, 60,
  84, 85, 38, 5, 64, 48, 37, 20, 6, 65, 3, 35, 15, 7, 4, 0, 31, 36, 8, 2, 34, 9, 1, 10, 24, 58, 40,
  41, 42, 43])) (.leaf [94, 26, 21, 70, 60, 84, 85, 38, 5, 64, 48, 37, 20, 6, 65, 3, 35, 15, 7, 4,
  0, 31, 36, 8, 2, 13, 34, 9, 1, 14, 10, 24])) (.leaf [94, 26, 21, 70, 60, 84, 85, 38, 5, 64, 48,
  37, 20, 6, 65, 3, 35, 15, 7, 4, 0, 31, 36, 8, 2, 13, 34, 9, 1, 14, 10, 24])) (.leaf [94, 26, 21,
  70, 60, 84, 85, 38, 5, 64, 48, 37, 20, 6, 65, 3, 35, 15, 7, 4, 0, 31, 36, 8, 2, 13, 34, 9, 1, 14,
  10, 24])) (.leaf [94, 26, 21, 70, 60, 84, 85, 38, 5, 64, 48, 37, 20, 6, 65, 3, 35, 15, 7, 4, 0,
  31, 36, 8, 2, 13, 34, 9, 1, 14, 10, 24])) (.leaf [94, 26, 21, 70, 60, 84, 85, 38, 5, 64, 48, 37,
  20, 6, 65, 3, 35, 15, 7, 4, 0, 31, 36, 8, 2, 13, 34, 9, 1, 14, 10, 24, 58, 40, 41, 42, 43]))
  (.leaf [94, 26, 21, 70, 60, 84, 85, 38, 5, 64, 48, 37, 20, 6, 65, 3, 35, 15, 7, 4, 0, 31, 36, 8,
  2, 13, 34, 9, 1, 14, 10, 24])) (.leaf [94, 26, 21, 70, 60, 84, 85, 38, 5, 64, 48, 37, 20, 6, 65,
  3, 35, 15, 7, 4, 0, 31, 36, 8, 2, 13, 34, 9, 1, 14, 10, 24])) (.leaf [94, 26, 21, 70, 60, 84, 85,
  38, 5, 64, 48, 37, 20, 6, 65, 3, 35, 15, 7, 4, 0, 31, 36, 8, 2, 13, 34, 9, 1, 14, 10, 24]))
  (.leaf [94, 26, 21, 70, 60, 84, 85, 38, 5, 64, 48, 37, 20, 6, 65, 3, 35, 15, 7, 4, 0, 31, 36, 8,
  2, 13, 34, 9, 1, 14, 10, 24])) (.leaf [94, 26, 21, 70, 60, 84, 85, 38, 5, 64, 48, 37, 20, 6, 65,
  3, 35, 15, 7, 4, 0, 31, 36, 8, 2, 13, 34, 9, 1, 14, 10, 24])) (.leaf [94, 26, 21, 70, 60, 84, 85,
  38, 5, 64, 48, 37, 20, 6, 65, 3, 35, 15, 7, 4, 0, 31, 36, 8, 2, 13, 34, 9, 1, 14, 10, 24]))
  (.leaf [94, 26, 21, 70, 60, 84, 85, 38, 5, 64, 48, 37, 20, 6, 65, 3, 35, 15, 7, 4, 0, 31, 36, 8,
  2, 13, 34, 9, 1, 14, 10, 24])) (.leaf [94, 26, 21, 70, 60, 84, 85, 38, 5, 64, 48, 37, 20, 6, 65,
  3, 35, 15, 7, 4, 0, 31, 36, 8, 2, 13, 34, 9, 1, 14, 10, 24])) (.leaf [94, 26, 21, 70, 60, 84, 85,
  38, 5, 64, 48, 37, 20, 6, 65, 3, 35, 15, 7, 4, 0, 31, 36, 8, 2, 13, 34, 9, 1, 14, 10, 24, 58, 40,
  41, 42, 43])) (.leaf [94, 26, 21, 70, 60, 84, 85, 38, 5, 64, 48, 37, 20, 6, 65, 3, 35, 15, 7, 4,
  0, 31, 36, 8, 2, 13, 34, 9, 1, 14, 10, 24])) (.leaf [168, 26, 21, 70, 60, 84, 85, 38, 5, 64, 48,
  37, 20, 6, 65, 3, 35, 15, 7, 4, 0, 31, 36, 8, 2, 13, 34, 9, 1, 14, 10, 24])

/-- some of the cases -/
def real5OneCase148 : LooseTree :=
  .cases [] 11 (.breaks 1065043 (.breaks 17920098 (.breaks 19955730 (.breaks 21000211 (.breaks
  4210769 (.breaks 4235362 (.breaks 8421505 (.breaks 24211537 (.breaks 4210881 (.breaks 8421521
  (.breaks 10526801 (.breaks 24170693 (.breaks 24211649 (.breaks 4210705 (.breaks 10526913 (.breaks
  13684817 (.breaks 13705410 (.breaks 24211473 (.breaks 4210721 (.breaks 10526737 (.breaks 18948177
  (.breaks 24211489 (.breaks 4210689 (.breaks 10526753 (.breaks 18948209 (.breaks 24211457 (.breaks
  10526721 (.leaf [53, 21, 70, 60, 54, 59, 64, 20, 11, 65, 46, 15, 7, 12, 3, 0, 31, 8, 5, 4, 13, 9,
  6, 2, 14, 10, 1]) (.leaf [53, 21, 70, 54, 59, 64, 20, 11, 65, 46, 15, 7, 12, 3, 0, 31, 8, 5, 4,
  13, 34, 9, 6, 2, 14, 10, 24, 1])) (.leaf [53, 21, 70, 60, 48, 54, 59, 64, 35, 20, 11, 65, 46, 36,
  15, 12, 3, 0, 31, 5, 4, 13, 34, 6, 2, 14, 24, 1])) (.leaf [53, 21, 70, 60, 48, 54, 59, 64, 35,
  20, 11, 65, 46, 36, 15, 7, 12, 3, 0, 8, 5, 4, 9, 6, 2, 10, 1])) (.leaf [53, 21, 70, 54, 59, 64,
  20, 11, 65, 46, 15, 7, 12, 3, 0, 31, 8, 5, 4, 13, 34, 9, 6, 2, 14, 10, 24, 1])) (.leaf [53, 21,
  70, 60, 54, 59, 64, 20, 11, 65, 46, 15, 7, 12, 3, 0, 31, 8, 5, 4, 13, 34, 9, 6, 2, 14, 10, 24,
  1])) (.leaf [53, 21, 70, 60, 48, 54, 59, 64, 35, 20, 11, 65, 46, 36, 15, 12, 3, 0, 31, 5, 4, 13,
  34, 6, 2, 14, 24, 1])) (.leaf [53, 21, 70, 60, 48, 54, 59, 64, 35, 20, 11, 65, 46, 36, 15, 7, 12,
  3, 0, 8, 5, 4, 9, 6, 2, 10, 1])) (.leaf [53, 21, 70, 54, 59, 64, 20, 11, 65, 46, 15, 7, 12, 3, 0,
  31, 8, 5, 4, 13, 34, 9, 6, 2, 14, 10, 24, 1])) (.leaf [53, 21, 70, 60, 54, 59, 64, 20, 11, 65,
  46, 15, 7, 12, 3, 0, 31, 8, 5, 4, 13, 34, 9, 6, 2, 14, 10, 24, 1])) (.leaf [53, 21, 70, 60, 48,
  54, 59, 64, 35, 20, 11, 65, 46, 36, 15, 12, 3, 0, 31, 5, 4, 13, 34, 6, 2, 14, 24, 1])) (.leaf
  [53, 21, 70, 60, 48, 54, 59, 64, 35, 20, 11, 65, 46, 36, 15, 7, 12, 3, 0, 8, 5, 4, 9, 6, 2, 10,
  1])) (.leaf [53, 21, 70, 54, 59, 64, 20, 11, 65, 46, 15, 7, 12, 3, 0, 31, 8, 5, 4, 13, 34, 9, 6,
  2, 14, 10, 24, 1])) (.leaf [53, 21, 70, 54, 59, 64, 20, 11, 65, 46, 15, 7, 12, 3, 0, 31, 8, 5, 4,
  13, 34, 9, 6, 2, 14, 10, 24, 1])) (.leaf [53, 21, 70, 60, 54, 59, 64, 20, 11, 65, 46, 15, 7, 12,
  3, 0, 31, 8, 5, 4, 13, 34, 9, 6, 2, 14, 10, 24, 1])) (.leaf [53, 21, 70, 60, 48, 54, 59, 64, 35,
  20, 11, 65, 46, 36, 15, 12, 3, 0, 31, 5, 4, 13, 34, 6, 2, 14, 24, 1])) (.leaf [53, 21, 70, 60,
  48, 54, 59, 64, 35, 20, 11, 65, 46, 36, 15, 7, 12, 3, 0, 31, 8, 5, 4, 13, 9, 6, 2, 14, 10, 1]))
  (.leaf [53, 21, 70, 54, 59, 64, 20, 11, 65, 46, 15, 7, 12, 3, 0, 31, 8, 5, 4, 13, 34, 9, 6, 2,
  14, 10, 24, 1])) (.leaf [53, 21, 70, 60, 54, 59, 64, 20, 11, 65, 46, 15, 7, 12, 3, 0, 31, 8, 5,
  4, 13, 34, 9, 6, 2, 14, 10, 24, 1])) (.leaf [53, 21, 70, 60, 54, 59, 64, 20, 11, 65, 46, 15, 7,
  12, 3, 0, 31, 8, 5, 4, 13, 34, 9, 6, 2, 14, 10, 24, 1])) (.leaf [53, 21, 70, 60, 48, 54, 59, 64,
  35, 20, 11, 65, 46, 36, 15, 7, 12, 3, 0, 31, 8, 5, 4, 13, 9, 6, 2, 14, 10, 1])) (.leaf [53, 21,
  70, 60, 54, 59, 64, 20, 11, 65, 46, 15, 7, 12, 3, 0, 31, 8, 5, 4, 13, 34, 9, 6, 2, 14, 10, 24,
  1])) (.leaf [53, 21, 70, 54, 59, 64, 20, 11, 65, 46, 15, 7, 12, 3, 0, 31, 8, 5, 4, 13, 34, 9, 6,
  2, 14, 10, 24, 1])) (.leaf [53, 21, 70, 60, 54, 59, 64, 20, 11, 65, 46, 15, 7, 12, 3, 0, 31, 8,
  5, 4, 13, 34, 9, 6, 2, 14, 10, 24, 1])) (.leaf [53, 21, 70, 54, 59, 64, 20, 11, 65, 46, 15, 7,
  12, 3, 0, 31, 8, 5, 4, 13, 34, 9, 6, 2, 14, 10, 24, 1])) (.leaf [53, 21, 70, 60, 54, 59, 64, 20,
  11, 65, 46, 15, 7, 12, 3, 0, 31, 8, 5, 4, 13, 34, 9, 6, 2, 14, 10, 24, 1])) (.leaf [53, 21, 70,
  60, 48, 54, 59, 64, 35, 20, 11, 65, 46, 36, 15, 7, 12, 3, 0, 31, 8, 5, 4, 13, 9, 6, 2, 14, 10,
  1])) (.leaf [53, 21, 70, 60, 54, 59, 64, 20, 11, 65, 46, 15, 7, 12, 3, 0, 31, 8, 5, 4, 13, 34, 9,
  6, 2, 14, 10, 24, 1])) (.breaks 1065045 (.breaks 4198483 (.cycle 33 [26, 99]) (.leaf [94, 26, 21,
  70, 60, 48, 38, 5, 64, 35, 20, 6, 65, 3, 36, 15, 7, 4, 0, 31, 8, 2, 13, 34, 9, 1, 14, 10, 24, 58,
  40, 41, 42, 43])) (.leaf [94, 26, 21, 70, 50, 60, 48, 38, 5, 64, 16, 35, 20, 6, 65, 3, 17, 36,
  15, 7, 4, 0, 31, 18, 8, 2, 19, 13, 34, 9, 1, 14, 10, 24, 58, 40, 41, 42, 43]))

/-- some of the cases -/
def real5OneCase149 : LooseTree :=
  .cases [] 11 (.breaks 1065043 (.breaks 17920098 (.breaks 22097938 (.breaks 4210769 (.breaks
  4235362 (.breaks 20000897 (.breaks 24211537 (.breaks 4210881 (.breaks 10526801 (.breaks 20000945
  (.breaks 24170693 (.breaks 4210705 (.breaks 10526913 (.breaks 13684817 (.breaks 13705410 (.breaks
  20000929 (.breaks 4210721 (.breaks 10526737 (.breaks 18948177 (.breaks 4210689 (.breaks 10526753
  (.breaks 18948209 (.breaks 10526721 (.leaf [53, 21, 60, 71, 54, 59, 51, 20, 11, 46, 35, 15, 12,
  3, 0, 31, 36, 5, 4, 13, 6, 2, 14, 1]) (.leaf [53, 21, 60, 71, 54, 59, 51, 20, 11, 46, 35, 15, 12,
  3, 0, 31, 36, 5, 4, 13, 6, 2, 14, 1])) (.leaf [53, 21, 71, 54, 59, 51, 20, 11, 46, 35, 15, 7, 12,
  3, 0, 36, 8, 5, 4, 9, 6, 2, 10, 1])) (.leaf [53, 21, 60, 71, 54, 59, 51, 20, 11, 46, 35, 15, 12,
  3, 0, 31, 36, 5, 4, 13, 6, 2, 14, 1])) (.leaf [53, 21, 60, 71, 54, 59, 51, 20, 11, 46, 35, 15,
  12, 3, 0, 31, 36, 5, 4, 13, 6, 2, 14, 1])) (.leaf [53, 21, 71, 54, 59, 51, 20, 11, 46, 35, 15, 7,
  12, 3, 0, 36, 8, 5, 4, 9, 6, 2, 10, 1])) (.leaf [53, 21, 60, 71, 54, 59, 51, 20, 11, 46, 35, 15,
  12, 3, 0, 31, 36, 5, 4, 13, 6, 2, 14, 1])) (.leaf [53, 21, 60, 71, 54, 59, 51, 20, 11, 46, 35,
  15, 12, 3, 0, 31, 36, 5, 4, 13, 6, 2, 14, 1])) (.leaf [53, 21, 60, 71, 54, 59, 51, 20, 11, 46,
  35, 15, 12, 3, 0, 31, 36, 5, 4, 13, 6, 2, 14, 1])) (.leaf [53, 21, 71, 54, 59, 51, 20, 11, 46,
  35, 15, 7, 12, 3, 0, 36, 8, 5, 4, 9, 6, 2, 10, 1])) (.leaf [53, 21, 60, 71, 54, 59, 51, 20, 11,
  46, 35, 15, 12, 3, 0, 31, 36, 5, 4, 13, 6, 2, 14, 1])) (.leaf [53, 21, 60, 71, 54, 59, 51, 20,
  11, 46, 35, 15, 12, 3, 0, 31, 36, 5, 4, 13, 6, 2, 14, 1])) (.leaf [53, 21, 60, 71, 54, 59, 51,
  20, 11, 46, 35, 15, 12, 3, 0, 31, 36, 5, 4, 13, 6, 2, 14, 1])) (.leaf [53, 21, 71, 54, 59, 51,
  20, 11, 46, 35, 15, 7, 12, 3, 0, 36, 8, 5, 4, 9, 6, 2, 10, 1])) (.leaf [53, 21, 60, 71, 54, 59,
  51, 20, 11, 46, 35, 15, 12, 3, 0, 31, 36, 5, 4, 13, 6, 2, 14, 1])) (.leaf [53, 21, 60, 71, 54,
  59, 51, 20, 11, 46, 35, 15, 12, 3, 0, 31, 36, 5, 4, 13, 6, 2, 14, 1])) (.leaf [53, 21, 60, 71,
  54, 59, 51, 20, 11, 46, 35, 15, 12, 3, 0, 31, 36, 5, 4, 13, 6, 2, 14, 1])) (.leaf [53, 21, 60,
  71, 54, 59, 51, 20, 11, 46, 35, 15, 12, 3, 0, 31, 36, 5, 4, 13, 34, 6, 2, 14, 24, 1])) (.leaf
  [53, 21, 60, 71, 54, 59, 51, 20, 11, 46, 35, 15, 12, 3, 0, 31, 36, 5, 4, 13, 6, 2, 14, 1]))
  (.leaf [53, 21, 60, 71, 54, 59, 51, 20, 11, 46, 35, 15, 12, 3, 0, 31, 36, 5, 4, 13, 6, 2, 14,
  1])) (.leaf [53, 21, 60, 71, 54, 59, 51, 20, 11, 46, 35, 15, 12, 3, 0, 31, 36, 5, 4, 13, 6, 2,
  14, 1])) (.leaf [53, 21, 60, 71, 54, 59, 51, 20, 11, 46, 35, 15, 12, 3, 0, 31, 36, 5, 4, 13, 6,
  2, 14, 1])) (.leaf [53, 21, 60, 71, 54, 59, 51, 20, 11, 46, 35, 15, 12, 3, 0, 31, 36, 5, 4, 13,
  34, 6, 2, 14, 24, 1])) (.leaf [53, 21, 71, 54, 59, 51, 20, 11, 46, 35, 15, 12, 3, 0, 31, 36, 5,
  4, 13, 34, 6, 2, 14, 24, 1])) (.breaks 1065045 (.breaks 4198483 (.cycle 33 [26, 99]) (.leaf [26,
  21, 71, 11, 38, 51, 20, 12, 3, 35, 15, 7, 5, 4, 0, 31, 36, 8, 6, 2, 13, 34, 9, 1, 14, 10, 24, 58,
  40, 41, 42, 43])) (.leaf [26, 21, 50, 60, 71, 11, 38, 16, 51, 20, 12, 3, 17, 35, 15, 7, 5, 4, 0,
  31, 18, 36, 8, 6, 2, 19, 13, 34, 9, 1, 14, 10, 24, 58, 40, 41, 42, 43]))

/-- some of the cases -/
def real5OneCase150 : LooseTree :=
  .breaks 17920098 (.breaks 26312901 (.breaks 4235346 (.breaks 9474065 (.breaks 24211537 (.breaks
  25264209 (.breaks 9474177 (.breaks 10526913 (.breaks 24170693 (.breaks 24211649 (.breaks 9474193
  (.breaks 10526737 (.breaks 13684817 (.breaks 24211473 (.breaks 10526753 (.breaks 24211489
  (.breaks 10526721 (.breaks 24211457 (.leaf [26, 61, 21, 68, 38, 62, 20, 24, 55, 3, 15, 7, 56, 4,
  0, 8, 2, 9, 1, 10]) (.leaf [26, 61, 21, 68, 11, 38, 62, 20, 24, 12, 55, 3, 15, 5, 56, 4, 0, 6, 2,
  1])) (.leaf [26, 61, 21, 68, 38, 62, 20, 24, 55, 3, 15, 7, 56, 4, 0, 8, 2, 9, 1, 10])) (.leaf
  [26, 61, 21, 68, 11, 38, 62, 20, 24, 12, 55, 3, 15, 5, 56, 4, 0, 6, 2, 1])) (.leaf [26, 61, 21,
  68, 38, 62, 20, 24, 55, 3, 15, 7, 56, 4, 0, 8, 2, 9, 1, 10])) (.leaf [26, 61, 21, 68, 11, 38, 62,
  20, 24, 12, 55, 3, 15, 5, 56, 4, 0, 6, 2, 1])) (.leaf [26, 61, 21, 68, 38, 62, 20, 24, 55, 3, 15,
  7, 56, 4, 0, 8, 2, 9, 1, 10])) (.leaf [26, 61, 21, 68, 38, 62, 20, 24, 55, 3, 15, 7, 56, 4, 0, 8,
  2, 9, 1, 10])) (.leaf [26, 61, 21, 68, 38, 62, 20, 24, 55, 3, 15, 7, 56, 4, 0, 8, 2, 9, 1, 10]))
  (.leaf [26, 61, 21, 68, 11, 38, 62, 20, 24, 12, 55, 3, 15, 5, 56, 4, 0, 6, 2, 1])) (.leaf [26,
  61, 21, 68, 38, 62, 20, 24, 55, 3, 15, 7, 56, 4, 0, 8, 2, 9, 1, 10])) (.leaf [26, 61, 21, 68, 38,
  62, 20, 24, 55, 3, 15, 7, 56, 4, 0, 8, 2, 9, 1, 10])) (.leaf [26, 61, 21, 68, 38, 62, 20, 24, 55,
  3, 15, 7, 56, 4, 0, 8, 2, 9, 1, 10])) (.leaf [26, 61, 21, 68, 38, 62, 20, 24, 55, 3, 15, 7, 56,
  4, 0, 8, 2, 9, 1, 10])) (.leaf [26, 61, 21, 68, 11, 38, 62, 20, 24, 12, 55, 3, 15, 5, 56, 4, 0,
  6, 2, 1])) (.leaf [26, 128, 21, 68, 38, 55, 20, 24, 56, 3, 15, 7, 4, 0, 8, 2, 9, 1, 10])) (.leaf
  [26, 61, 21, 68, 38, 62, 20, 24, 55, 3, 15, 7, 56, 4, 0, 8, 2, 9, 1, 10])) (.leaf [26, 61, 21,
  68, 38, 62, 20, 24, 55, 3, 15, 7, 56, 4, 0, 8, 2, 9, 1, 10])) (.leaf [26, 61, 21, 68, 11, 38, 62,
  20, 24, 12, 55, 3, 15, 5, 56, 4, 0, 6, 2, 1])

/-- some of the cases -/
def real5OneCase151 : LooseTree :=
  .cases [] 11 (.breaks 17920098 (.breaks 4210769 (.breaks 4235362 (.breaks 24211537 (.breaks
  25264209 (.breaks 4210881 (.breaks 10526801 (.breaks 24170693 (.breaks 24211649 (.breaks 4210705
  (.breaks 10526913 (.breaks 13684817 (.breaks 24211473 (.breaks 4210721 (.breaks 10526737 (.breaks
  24211489 (.breaks 4210689 (.breaks 10526753 (.breaks 24211457 (.breaks 10526721 (.leaf [53, 21,
  68, 54, 59, 20, 24, 11, 46, 15, 7, 12, 3, 0, 8, 5, 4, 9, 6, 2, 10, 1]) (.leaf [53, 21, 68, 54,
  59, 20, 24, 11, 46, 15, 7, 12, 3, 0, 8, 5, 4, 9, 6, 2, 10, 1])) (.leaf [53, 21, 48, 68, 54, 59,
  35, 20, 24, 11, 46, 36, 15, 12, 3, 0, 5, 4, 6, 2, 1])) (.leaf [53, 21, 68, 54, 59, 20, 24, 11,
  46, 15, 7, 12, 3, 0, 8, 5, 4, 9, 6, 2, 10, 1])) (.leaf [53, 21, 68, 54, 59, 20, 24, 11, 46, 15,
  7, 12, 3, 0, 8, 5, 4, 9, 6, 2, 10, 1])) (.leaf [53, 21, 48, 68, 54, 59, 35, 20, 24, 11, 46, 36,
  15, 12, 3, 0, 5, 4, 6, 2, 1])) (.leaf [53, 21, 68, 54, 59, 20, 24, 11, 46, 15, 7, 12, 3, 0, 8, 5,
  4, 9, 6, 2, 10, 1])) (.leaf [53, 21, 68, 54, 59, 20, 24, 11, 46, 15, 7, 12, 3, 0, 8, 5, 4, 9, 6,
  2, 10, 1])) (.leaf [53, 21, 48, 68, 54, 59, 35, 20, 24, 11, 46, 36, 15, 12, 3, 0, 5, 4, 6, 2,
  1])) (.leaf [53, 21, 68, 54, 59, 20, 24, 11, 46, 15, 7, 12, 3, 0, 8, 5, 4, 9, 6, 2, 10, 1]))
  (.leaf [53, 21, 68, 54, 59, 20, 24, 11, 46, 15, 7, 12, 3, 0, 8, 5, 4, 9, 6, 2, 10, 1])) (.leaf
  [53, 21, 68, 54, 59, 20, 24, 11, 46, 15, 7, 12, 3, 0, 8, 5, 4, 9, 6, 2, 10, 1])) (.leaf [53, 21,
  48, 68, 54, 59, 35, 20, 24, 11, 46, 36, 15, 12, 3, 0, 5, 4, 6, 2, 1])) (.leaf [53, 21, 68, 54,
  59, 20, 24, 11, 46, 15, 7, 12, 3, 0, 8, 5, 4, 9, 6, 2, 10, 1])) (.leaf [53, 21, 68, 54, 59, 20,
  24, 11, 46, 15, 7, 12, 3, 0, 8, 5, 4, 9, 6, 2, 10, 1])) (.leaf [53, 21, 68, 54, 59, 20, 24, 11,
  46, 15, 7, 12, 3, 0, 8, 5, 4, 9, 6, 2, 10, 1])) (.leaf [53, 21, 68, 54, 59, 20, 24, 11, 46, 15,
  7, 12, 3, 0, 8, 5, 4, 9, 6, 2, 10, 1])) (.leaf [53, 21, 48, 68, 54, 59, 35, 20, 24, 11, 46, 36,
  15, 12, 3, 0, 5, 4, 6, 2, 1])) (.leaf [53, 21, 68, 54, 59, 20, 24, 11, 46, 15, 7, 12, 3, 0, 8, 5,
  4, 9, 6, 2, 10, 1])) (.leaf [53, 21, 68, 54, 59, 20, 24, 11, 46, 15, 7, 12, 3, 0, 8, 5, 4, 9, 6,
  2, 10, 1])) (.leaf [53, 21, 48, 68, 54, 59, 35, 20, 24, 11, 46, 36, 15, 12, 3, 0, 5, 4, 6, 2,
  1])) (.cases [] 51 (.cases [] 10 (.breaks 1065045 (.breaks 4198483 (.cycle 33 [26, 99]) (.leaf
  [26, 21, 47, 139, 68, 38, 13, 27, 20, 24, 3, 14, 28, 15, 7, 4, 0, 22, 8, 2, 23, 9, 1, 10]))
  (.leaf [26, 21, 47, 139, 68, 38, 13, 27, 20, 24, 3, 14, 28, 15, 7, 4, 0, 22, 8, 2, 23, 9, 1,
  10])) (.breaks 1065045 (.breaks 4198483 (.cycle 33 [26, 99]) (.leaf [26, 21, 48, 139, 68, 11, 38,
  13, 35, 20, 24, 12, 3, 14, 36, 15, 7, 5, 4, 0, 8, 6, 2, 9, 1, 10])) (.leaf [26, 21, 50, 48, 139,
  68, 11, 38, 16, 13, 35, 20, 24, 12, 3, 17, 14, 36, 15, 7, 5, 4, 0, 18, 8, 6, 2, 19, 9, 1, 10])))
  (.breaks 1065045 (.breaks 4198483 (.cycle 33 [26, 99]) (.leaf [26, 21, 48, 11, 38, 35, 20, 12, 3,
  36, 15, 7, 5, 4, 0, 31, 8, 6, 2, 13, 9, 1, 14, 155, 10, 106, 68, 40, 24, 41, 42, 43])) (.leaf
  [26, 21, 48, 11, 38, 35, 20, 12, 3, 36, 15, 7, 5, 4, 0, 31, 8, 6, 2, 13, 9, 1, 14, 155, 10, 106,
  68, 40, 24, 41, 42, 43])))

/-- some of the cases -/
def real5OneCase152 : LooseTree :=
  .breaks 17920098 (.breaks 22097938 (.breaks 26312901 (.breaks 4235346 (.breaks 20000897 (.breaks
  24211537 (.breaks 25264209 (.breaks 10526913 (.breaks 20000945 (.breaks 24170693 (.breaks
  24211649 (.breaks 10526737 (.breaks 13684817 (.breaks 20000929 (.breaks 24211473 (.breaks
  10526753 (.breaks 24211489 (.breaks 10526721 (.breaks 24211457 (.leaf [26, 21, 71, 68, 38, 51,
  20, 24, 3, 35, 15, 7, 4, 0, 36, 8, 2, 9, 1, 10]) (.leaf [26, 21, 71, 68, 11, 38, 51, 20, 24, 12,
  3, 35, 15, 5, 4, 0, 36, 6, 2, 1])) (.leaf [26, 21, 71, 68, 38, 51, 20, 24, 3, 35, 15, 7, 4, 0,
  36, 8, 2, 9, 1, 10])) (.leaf [26, 21, 71, 68, 11, 38, 51, 20, 24, 12, 3, 35, 15, 5, 4, 0, 36, 6,
  2, 1])) (.leaf [26, 21, 71, 68, 38, 51, 20, 24, 3, 35, 15, 7, 4, 0, 36, 8, 2, 9, 1, 10])) (.leaf
  [26, 21, 71, 68, 11, 38, 51, 20, 24, 12, 3, 35, 15, 5, 4, 0, 36, 6, 2, 1])) (.leaf [26, 21, 71,
  68, 38, 51, 20, 24, 3, 35, 15, 7, 4, 0, 36, 8, 2, 9, 1, 10])) (.leaf [26, 21, 71, 68, 38, 51, 20,
  24, 3, 35, 15, 7, 4, 0, 36, 8, 2, 9, 1, 10])) (.leaf [26, 21, 71, 68, 38, 51, 20, 24, 3, 35, 15,
  7, 4, 0, 36, 8, 2, 9, 1, 10])) (.leaf [26, 21, 71, 68, 11, 38, 51, 20, 24, 12, 3, 35, 15, 5, 4,
  0, 36, 6, 2, 1])) (.leaf [26, 21, 71, 68, 38, 51, 20, 24, 3, 35, 15, 7, 4, 0, 36, 8, 2, 9, 1,
  10])) (.leaf [26, 21, 71, 68, 38, 51, 20, 24, 3, 35, 15, 7, 4, 0, 36, 8, 2, 9, 1, 10])) (.leaf
  [26, 21, 71, 68, 38, 51, 20, 24, 3, 35, 15, 7, 4, 0, 36, 8, 2, 9, 1, 10])) (.leaf [26, 21, 71,
  68, 38, 51, 20, 24, 3, 35, 15, 7, 4, 0, 36, 8, 2, 9, 1, 10])) (.leaf [26, 21, 71, 68, 11, 38, 51,
  20, 24, 12, 3, 35, 15, 7, 5, 4, 0, 36, 8, 6, 2, 9, 1, 10])) (.leaf [26, 21, 71, 68, 38, 51, 20,
  24, 3, 35, 15, 7, 4, 0, 36, 8, 2, 9, 1, 10])) (.leaf [26, 21, 71, 68, 38, 51, 20, 24, 3, 35, 15,
  7, 4, 0, 36, 8, 2, 9, 1, 10])) (.leaf [26, 21, 71, 68, 38, 51, 20, 24, 3, 35, 15, 7, 4, 0, 36, 8,
  2, 9, 1, 10])) (.leaf [26, 21, 71, 68, 38, 51, 20, 24, 3, 35, 15, 7, 4, 0, 36, 8, 2, 9, 1, 10]))
  (.leaf [26, 21, 71, 68, 11, 38, 51, 20, 24, 12, 3, 35, 15, 7, 5, 4, 0, 36, 8, 6, 2, 9, 1, 10])

/-- some of the cases -/
def real5OneCase153 : LooseTree :=
  .cases [] 35 (.breaks 18948289 (.cycle 18 [146, 147, 148]) (.cycle 18 [146, 147, 148])) (.cases
  [] 36 (.cases [] 55 (.leaf [161, 162]) (.leaf [160])) (.breaks 18927810 (.breaks 4235346 (.breaks
  13664291 (.breaks 13684817 (.breaks 8421409 (.breaks 10526913 (.breaks 8421393 (.breaks 10526737
  (.breaks 8421505 (.breaks 10526753 (.breaks 8421521 (.breaks 10526721 (.leaf
  [26, 101, 87, 38, 102, 0, 103, 3, 104, 4, 64, 2, 65, 1]) (.leaf
  [26, 101, 87, 38, 102, 0, 103, 3, 104, 4, 64, 2, 65, 1])) (.leaf
  [26, 101, 87, 38, 102, 0, 103, 3, 104, 4, 64, 2, 65, 1])) (.leaf
  [26, 101, 87, 38, 102, 0, 103, 3, 104, 4, 64, 2, 65, 1])) (.leaf
  [26, 101, 87, 38, 102, 0, 103, 3, 104, 4, 64, 2, 65, 1])) (.leaf
  [26, 101, 87, 38, 102, 0, 103, 3, 104, 4, 64, 2, 65, 1])) (.leaf
  [26, 101, 87, 38, 102, 0, 103, 3, 104, 4, 64, 2, 65, 1])) (.leaf
  [26, 101, 87, 38, 102, 0, 103, 3, 104, 4, 64, 2, 65, 1])) (.leaf
  [26, 101, 87, 38, 102, 0, 103, 3, 104, 4, 64, 2, 65, 1])) (.leaf
  [26, 101, 87, 38, 102, 0, 103, 3, 104, 4, 64, 2, 65, 1])) (.leaf
  [26, 101, 87, 38, 102, 0, 103, 3, 104, 4, 64, 2, 65, 1])) (.leaf
  [26, 101, 87, 38, 102, 0, 103, 3, 104, 4, 64, 2, 65, 1])) (.leaf
  [26, 101, 87, 38, 102, 0, 103, 3, 104, 4, 64, 2, 65, 1])))

/-- some of the cases -/
def real5OneCase154 : LooseTree :=
  .breaks 1089621 (.breaks 17879237 (.breaks 10502226 (.breaks 10526913 (.breaks 13684817 (.breaks
  13713493 (.breaks 13725781 (.breaks 4210881 (.breaks 10526737 (.breaks 21053633 (.breaks 24211649
  (.breaks 4210705 (.breaks 10526753 (.breaks 21053457 (.breaks 24211473 (.breaks 4210721 (.breaks
  10526721 (.breaks 21053473 (.breaks 24211489 (.breaks 4210689 (.breaks 21053441 (.breaks 24211457
  (.leaf [25, 30, 29, 3, 0, 76, 52, 11, 4, 27, 7, 12, 2, 28, 8, 5, 1, 22, 9, 6, 23, 10]) (.leaf
  [25, 30, 29, 3, 0, 76, 52, 11, 4, 27, 75, 7, 12, 2, 13, 28, 8, 5, 1, 14, 22, 9, 6, 23, 10]))
  (.leaf [25, 30, 29, 3, 0, 76, 52, 11, 4, 27, 75, 7, 12, 2, 13, 28, 8, 5, 1, 14, 22, 9, 6, 23,
  10])) (.leaf [25, 30, 29, 3, 0, 76, 52, 11, 4, 27, 75, 7, 12, 2, 13, 28, 8, 5, 1, 14, 22, 9, 6,
  23, 10])) (.leaf [25, 30, 29, 3, 0, 76, 52, 11, 4, 27, 75, 7, 12, 2, 13, 28, 8, 5, 1, 14, 22, 9,
  6, 23, 10])) (.leaf [25, 30, 29, 3, 0, 76, 52, 11, 4, 27, 75, 7, 12, 2, 13, 28, 8, 5, 1, 14, 22,
  9, 6, 23, 10])) (.leaf [25, 30, 29, 3, 0, 76, 52, 11, 4, 27, 75, 7, 12, 2, 13, 28, 8, 5, 1, 14,
  22, 9, 6, 23, 10])) (.leaf [25, 30, 29, 3, 0, 76, 52, 11, 4, 27, 75, 7, 12, 2, 13, 28, 8, 5, 1,
  14, 22, 9, 6, 23, 10])) (.leaf [25, 30, 29, 3, 0, 76, 52, 11, 4, 27, 75, 7, 12, 2, 13, 28, 8, 5,
  1, 14, 22, 9, 6, 23, 10])) (.leaf [25, 30, 29, 3, 0, 76, 52, 11, 4, 27, 75, 7, 12, 2, 13, 28, 8,
  5, 1, 14, 22, 9, 6, 23, 10])) (.leaf [25, 30, 29, 3, 0, 76, 52, 11, 4, 27, 75, 7, 12, 2, 13, 28,
  8, 5, 1, 14, 22, 9, 6, 23, 10])) (.leaf [25, 30, 29, 3, 0, 76, 52, 11, 4, 27, 75, 7, 12, 2, 13,
  28, 8, 5, 1, 14, 22, 9, 6, 23, 10])) (.leaf [25, 30, 29, 3, 0, 76, 52, 11, 4, 27, 75, 7, 12, 2,
  13, 28, 8, 5, 1, 14, 22, 9, 6, 23, 10])) (.leaf [25, 30, 29, 3, 0, 76, 52, 11, 4, 27, 75, 7, 12,
  2, 13, 28, 8, 5, 1, 14, 22, 9, 6, 23, 10])) (.leaf [25, 30, 29, 3, 0, 76, 52, 11, 4, 27, 75, 7,
  12, 2, 13, 28, 8, 5, 1, 14, 22, 9, 6, 23, 10])) (.leaf [25, 30, 29, 3, 0, 76, 52, 11, 4, 27, 75,
  7, 12, 2, 13, 28, 8, 5, 1, 14, 22, 9, 6, 23, 10])) (.leaf [25, 30, 29, 3, 0, 76, 52, 11, 4, 27,
  75, 7, 12, 2, 13, 28, 8, 5, 1, 14, 22, 9, 6, 23, 10])) (.leaf [25, 30, 29, 3, 0, 76, 52, 11, 4,
  27, 75, 7, 12, 2, 13, 28, 8, 5, 1, 14, 22, 9, 6, 23, 10])) (.leaf [25, 30, 29, 3, 0, 76, 52, 11,
  4, 27, 75, 7, 12, 2, 13, 28, 8, 5, 1, 14, 22, 9, 6, 23, 10])) (.leaf [25, 30, 29, 3, 0, 76, 52,
  11, 4, 27, 75, 7, 12, 2, 13, 28, 8, 5, 1, 14, 22, 9, 6, 23, 10])) (.leaf [25, 30, 29, 3, 0, 76,
  52, 11, 4, 27, 75, 7, 12, 2, 13, 28, 8, 5, 1, 14, 22, 9, 6, 23, 10])) (.leaf [25, 30, 29, 3, 0,
  76, 52, 11, 4, 27, 75, 7, 12, 2, 13, 28, 8, 5, 1, 14, 22, 9, 6, 23, 10])) (.leaf [25, 30, 29, 3,
  0, 76, 52, 11, 4, 27, 75, 7, 12, 2, 13, 28, 8, 5, 1, 14, 22, 9, 6, 23, 10])

/-- some of the cases -/
def real5OneCase155 : LooseTree :=
  .breaks 1089621 (.breaks 17907794 (.breaks 10502226 (.breaks 21024965 (.breaks 4210881 (.breaks
  13725781 (.breaks 4210705 (.breaks 24191173 (.breaks 24211649 (.breaks 24215749 (.breaks 4210721
  (.breaks 18948177 (.breaks 24211473 (.breaks 25264209 (.breaks 4210689 (.breaks 18948209 (.breaks
  24211489 (.breaks 24211457 (.leaf [25, 47, 29, 78, 11, 0, 52, 12, 75, 7, 86, 5, 13, 8, 24, 6, 14,
  9, 10]) (.leaf [25, 47, 29, 78, 11, 0, 52, 12, 75, 7, 86, 5, 13, 8, 24, 6, 14, 9, 10])) (.leaf
  [25, 47, 29, 78, 11, 0, 52, 12, 75, 7, 86, 5, 13, 8, 24, 6, 14, 9, 10])) (.leaf [25, 47, 29, 78,
  11, 0, 52, 12, 75, 7, 86, 5, 13, 8, 24, 6, 14, 9, 10])) (.leaf [25, 47, 29, 78, 27, 11, 0, 52,
  28, 12, 22, 75, 7, 5, 13, 23, 8, 6, 14, 9, 10])) (.leaf [25, 47, 29, 78, 11, 0, 52, 12, 75, 7,
  86, 5, 13, 8, 24, 6, 14, 9, 10])) (.leaf [25, 47, 29, 78, 11, 0, 52, 12, 75, 7, 86, 5, 13, 8, 24,
  6, 14, 9, 10])) (.leaf [25, 47, 29, 78, 11, 0, 52, 12, 75, 7, 86, 5, 13, 8, 24, 6, 14, 9, 10]))
  (.leaf [25, 47, 29, 78, 27, 11, 0, 52, 28, 12, 22, 75, 7, 5, 13, 23, 8, 6, 14, 9, 10])) (.leaf
  [25, 47, 29, 78, 11, 0, 52, 12, 75, 7, 86, 5, 13, 8, 24, 6, 14, 9, 10])) (.leaf [25, 47, 29, 78,
  11, 0, 52, 12, 75, 7, 86, 5, 13, 8, 24, 6, 14, 9, 10])) (.leaf [25, 47, 29, 78, 11, 0, 52, 12,
  75, 7, 86, 5, 13, 8, 24, 6, 14, 9, 10])) (.leaf [25, 47, 29, 78, 27, 11, 0, 52, 28, 12, 22, 75,
  7, 5, 13, 23, 8, 6, 14, 9, 10])) (.leaf [25, 47, 29, 78, 27, 11, 0, 52, 28, 12, 22, 75, 7, 5, 13,
  23, 8, 6, 14, 9, 10])) (.leaf [25, 47, 29, 78, 27, 11, 0, 52, 28, 12, 22, 75, 7, 5, 13, 23, 8, 6,
  14, 9, 10])) (.leaf [25, 47, 29, 78, 27, 11, 0, 52, 28, 12, 22, 75, 7, 5, 13, 23, 8, 6, 14, 9,
  10])) (.leaf [25, 47, 29, 78, 27, 11, 0, 52, 28, 12, 22, 75, 7, 5, 13, 23, 8, 6, 14, 9, 10]))
  (.leaf [25, 47, 29, 3, 78, 11, 4, 0, 52, 12, 2, 75, 7, 86, 5, 1, 13, 8, 24, 6, 14, 9, 10]))
  (.leaf [25, 47, 29, 78, 27, 11, 0, 52, 28, 12, 22, 75, 7, 5, 13, 23, 8, 6, 14, 9, 10])

/-- some of the cases -/
def real5OneCase156 : LooseTree :=
  .breaks 21041234 (.breaks 10502226 (.breaks 10526913 (.breaks 17879237 (.breaks 4210881 (.breaks
  9474177 (.breaks 10526737 (.breaks 13684817 (.breaks 13725781 (.breaks 4210705 (.breaks 9474193
  (.breaks 10526753 (.breaks 24191173 (.breaks 24211649 (.breaks 4210721 (.breaks 10526721 (.breaks
  18948177 (.breaks 24211473 (.breaks 4210689 (.breaks 18948209 (.breaks 24211489 (.breaks 24211457
  (.leaf [25, 61, 50, 62, 29, 3, 30, 11, 55, 4, 0, 52, 12, 56, 2, 75, 7, 5, 1, 13, 8, 6, 14, 9,
  10]) (.leaf [25, 61, 50, 62, 29, 3, 30, 11, 55, 4, 0, 52, 12, 56, 2, 75, 7, 5, 1, 13, 8, 6, 14,
  9, 10])) (.leaf [25, 61, 50, 62, 29, 3, 30, 11, 55, 4, 0, 52, 12, 56, 2, 75, 7, 5, 1, 13, 8, 6,
  14, 9, 10])) (.leaf [25, 61, 50, 62, 29, 3, 30, 11, 55, 4, 0, 52, 12, 56, 2, 75, 7, 5, 1, 13, 8,
  6, 14, 9, 10])) (.leaf [25, 61, 50, 62, 29, 3, 30, 11, 55, 4, 0, 52, 12, 56, 2, 75, 7, 5, 1, 13,
  8, 6, 14, 9, 10])) (.leaf [25, 61, 50, 62, 29, 3, 30, 11, 55, 4, 0, 52, 12, 56, 2, 75, 7, 5, 1,
  13, 8, 6, 14, 9, 10])) (.leaf [25, 61, 50, 62, 29, 3, 30, 11, 55, 4, 0, 52, 12, 56, 2, 75, 7, 5,
  1, 13, 8, 6, 14, 9, 10])) (.leaf [25, 61, 50, 62, 29, 3, 30, 11, 55, 4, 0, 52, 12, 56, 2, 75, 7,
  5, 1, 13, 8, 6, 14, 9, 10])) (.leaf [25, 61, 50, 62, 29, 3, 30, 11, 55, 4, 0, 52, 12, 56, 2, 75,
  7, 5, 1, 13, 8, 6, 14, 9, 10])) (.leaf [25, 61, 50, 62, 29, 3, 30, 11, 55, 4, 0, 52, 12, 56, 2,
  75, 7, 5, 1, 13, 8, 6, 14, 9, 10])) (.leaf [25, 61, 50, 62, 29, 3, 30, 11, 55, 4, 0, 52, 12, 56,
  2, 75, 7, 5, 1, 13, 8, 6, 14, 9, 10])) (.leaf [25, 61, 50, 62, 29, 3, 30, 11, 55, 4, 0, 52, 12,
  56, 2, 75, 7, 5, 1, 13, 8, 6, 14, 9, 10])) (.leaf [25, 61, 50, 62, 29, 3, 30, 11, 55, 4, 0, 52,
  12, 56, 2, 75, 7, 5, 1, 13, 8, 6, 14, 9, 10])) (.leaf [25, 61, 50, 62, 29, 3, 30, 11, 55, 4, 0,
  52, 12, 56, 2, 75, 7, 5, 1, 13, 8, 6, 14, 9, 10])) (.leaf [25, 61, 50, 62, 29, 3, 30, 11, 55, 4,
  0, 52, 12, 56, 2, 75, 7, 5, 1, 13, 8, 6, 14, 9, 10])) (.leaf [25, 61, 50, 62, 29, 3, 30, 11, 55,
  4, 0, 52, 12, 56, 2, 75, 7, 5, 1, 13, 8, 6, 14, 9, 10])) (.leaf [25, 61, 50, 62, 29, 3, 30, 11,
  55, 4, 0, 52, 12, 56, 2, 75, 7, 5, 1, 13, 8, 6, 14, 9, 10])) (.leaf [25, 61, 50, 62, 29, 3, 30,
  11, 55, 4, 0, 52, 12, 56, 2, 75, 7, 5, 1, 13, 8, 6, 14, 9, 10])) (.leaf [25, 61, 50, 62, 29, 3,
  30, 11, 55, 4, 0, 52, 12, 56, 2, 75, 7, 5, 1, 13, 8, 6, 14, 9, 10])) (.leaf [25, 61, 50, 62, 29,
  3, 30, 11, 55, 4, 0, 52, 12, 56, 2, 75, 7, 5, 1, 13, 8, 6, 14, 9, 10])) (.leaf [25, 61, 50, 62,
  29, 3, 30, 11, 55, 4, 0, 52, 12, 56, 2, 75, 7, 5, 1, 13, 8, 6, 14, 9, 10])) (.leaf [25, 61, 50,
  62, 29, 3, 30, 11, 55, 4, 0, 52, 12, 56, 2, 75, 7, 5, 1, 13, 8, 6, 14, 9, 10])) (.leaf [25, 61,
  30, 62, 29, 3, 0, 52, 11, 55, 4, 75, 7, 12, 56, 2, 13, 8, 5, 1, 14, 9, 6, 10])

/-- some of the cases -/
def real5OneCase157 : LooseTree :=
  .breaks 21041234 (.breaks 26288325 (.breaks 10502226 (.breaks 10526913 (.breaks 17879237 (.breaks
  18948177 (.breaks 4210881 (.breaks 10526737 (.breaks 13684817 (.breaks 13725781 (.breaks 18948209
  (.breaks 4210705 (.breaks 10526753 (.breaks 24211649 (.breaks 4210721 (.breaks 10526721 (.breaks
  24211473 (.breaks 4210689 (.breaks 24211489 (.breaks 24211457 (.leaf [25, 50, 80, 29, 3, 30, 13,
  11, 4, 0, 52, 14, 12, 2, 7, 5, 1, 8, 6, 9, 10]) (.leaf [25, 50, 80, 29, 3, 30, 13, 11, 4, 0, 52,
  14, 12, 2, 7, 5, 1, 8, 6, 9, 10])) (.leaf [25, 50, 80, 29, 3, 30, 13, 11, 4, 0, 52, 14, 12, 2, 7,
  5, 1, 8, 6, 9, 10])) (.leaf [25, 50, 80, 29, 3, 30, 13, 11, 4, 0, 52, 14, 12, 2, 7, 5, 1, 8, 6,
  9, 10])) (.leaf [25, 50, 80, 29, 3, 30, 13, 11, 4, 0, 52, 14, 12, 2, 7, 5, 1, 8, 6, 9, 10]))
  (.leaf [25, 50, 80, 29, 3, 30, 13, 11, 4, 0, 52, 14, 12, 2, 7, 5, 1, 8, 6, 9, 10])) (.leaf [25,
  50, 80, 29, 3, 30, 13, 11, 4, 0, 52, 14, 12, 2, 7, 5, 1, 8, 6, 9, 10])) (.leaf [25, 50, 80, 29,
  3, 30, 13, 11, 4, 0, 52, 14, 12, 2, 7, 5, 1, 8, 6, 9, 10])) (.leaf [25, 50, 80, 29, 3, 30, 13,
  11, 4, 0, 52, 14, 12, 2, 7, 5, 1, 8, 6, 9, 10])) (.leaf [25, 50, 80, 29, 3, 30, 13, 11, 4, 0, 52,
  14, 12, 2, 7, 5, 1, 8, 6, 9, 10])) (.leaf [25, 50, 80, 29, 3, 30, 13, 11, 4, 0, 52, 14, 12, 2, 7,
  5, 1, 8, 6, 9, 10])) (.leaf [25, 50, 80, 29, 3, 30, 13, 11, 4, 0, 52, 14, 12, 2, 7, 5, 1, 8, 6,
  9, 10])) (.leaf [25, 50, 80, 29, 3, 30, 13, 11, 4, 0, 52, 14, 12, 2, 7, 5, 1, 8, 6, 9, 10]))
  (.leaf [25, 50, 80, 29, 3, 30, 13, 11, 4, 0, 52, 14, 12, 2, 7, 5, 1, 8, 6, 9, 10])) (.leaf [25,
  50, 80, 29, 3, 30, 13, 11, 4, 0, 52, 14, 12, 2, 7, 5, 1, 8, 6, 9, 10])) (.leaf [25, 50, 80, 29,
  3, 30, 13, 11, 4, 0, 52, 14, 12, 2, 7, 5, 1, 8, 6, 9, 10])) (.leaf [25, 50, 80, 29, 3, 30, 13,
  11, 4, 0, 52, 14, 12, 2, 7, 5, 1, 8, 6, 9, 10])) (.leaf [25, 50, 80, 29, 3, 30, 13, 11, 4, 0, 52,
  14, 12, 2, 7, 5, 1, 8, 6, 9, 10])) (.leaf [25, 50, 80, 29, 3, 30, 13, 11, 4, 0, 52, 14, 12, 2, 7,
  5, 1, 8, 6, 9, 10])) (.leaf [25, 50, 80, 29, 3, 30, 13, 11, 4, 0, 52, 14, 12, 2, 7, 5, 1, 8, 6,
  9, 10])) (.leaf [25, 30, 80, 29, 3, 0, 52, 13, 11, 4, 14, 7, 12, 2, 8, 5, 1, 9, 6, 10])

/-- some of the cases -/
def real5OneCase158 : LooseTree :=
  .breaks 21041234 (.breaks 10502226 (.breaks 17879237 (.breaks 4210881 (.breaks 13684817 (.breaks
  13725781 (.breaks 4210705 (.breaks 24211649 (.breaks 24215749 (.breaks 4210721 (.breaks 24211473
  (.breaks 25239746 (.breaks 25264209 (.breaks 4210689 (.breaks 18948177 (.breaks 18976853 (.breaks
  24211489 (.breaks 18948209 (.breaks 24211457 (.breaks 26316993 (.breaks 26316817 (.breaks
  26316833 (.breaks 26316801 (.leaf [25, 50, 29, 30, 11, 0, 52, 12, 7, 86, 5, 8, 63, 24, 6, 13, 67,
  9, 14, 10, 40, 41, 42, 43]) (.leaf [25, 50, 29, 30, 11, 0, 52, 12, 7, 86, 5, 8, 63, 24, 6, 13,
  67, 9, 14, 10, 40, 41, 42, 43])) (.leaf [25, 50, 29, 30, 11, 0, 52, 12, 7, 86, 5, 8, 63, 24, 6,
  13, 67, 9, 14, 10, 40, 41, 42, 43])) (.leaf [25, 50, 29, 30, 11, 0, 52, 12, 7, 86, 5, 8, 63, 24,
  6, 13, 67, 9, 14, 10, 40, 41, 42, 43])) (.leaf [25, 50, 29, 30, 11, 0, 52, 12, 7, 86, 5, 8, 63,
  24, 6, 13, 67, 9, 14, 10, 40, 41, 42, 43])) (.leaf [25, 50, 29, 30, 11, 0, 52, 12, 7, 86, 5, 8,
  63, 24, 6, 13, 67, 9, 14, 10, 40, 41, 42, 43])) (.leaf [25, 50, 29, 30, 11, 0, 52, 12, 7, 86, 5,
  8, 63, 24, 6, 13, 67, 9, 14, 10, 40, 41, 42, 43])) (.leaf [25, 50, 29, 30, 11, 0, 52, 12, 7, 86,
  5, 8, 63, 24, 6, 13, 67, 9, 14, 10, 40, 41, 42, 43])) (.leaf [25, 50, 29, 30, 11, 0, 52, 12, 7,
  86, 5, 8, 63, 24, 6, 13, 67, 9, 14, 10, 40, 41, 42, 43])) (.leaf [25, 50, 29, 30, 11, 0, 52, 12,
  7, 86, 5, 8, 63, 24, 6, 13, 67, 9, 14, 10, 40, 41, 42, 43])) (.leaf [25, 50, 29, 30, 11, 0, 52,
  12, 7, 86, 5, 8, 63, 24, 6, 13, 67, 9, 14, 10, 40, 41, 42, 43])) (.leaf [25, 50, 29, 30, 11, 0,
  52, 12, 7, 86, 5, 8, 63, 24, 6, 13, 67, 9, 14, 10, 40, 41, 42, 43])) (.leaf [25, 50, 29, 3, 30,
  11, 4, 0, 52, 12, 2, 7, 86, 5, 1, 8, 63, 6, 13, 67, 9, 14, 10, 40, 41, 42, 43])) (.leaf [25, 50,
  29, 30, 11, 0, 52, 12, 7, 86, 5, 8, 63, 24, 6, 13, 67, 9, 14, 10, 40, 41, 42, 43])) (.leaf [25,
  50, 29, 30, 11, 0, 52, 12, 7, 86, 5, 8, 63, 24, 6, 13, 67, 9, 14, 10, 40, 41, 42, 43])) (.leaf
  [25, 50, 29, 3, 30, 11, 4, 0, 52, 12, 2, 7, 86, 5, 1, 8, 63, 6, 13, 67, 9, 14, 10, 40, 41, 42,
  43])) (.leaf [25, 50, 29, 30, 11, 0, 52, 12, 7, 86, 5, 8, 63, 24, 6, 13, 67, 9, 14, 10, 40, 41,
  42, 43])) (.leaf [25, 50, 29, 30, 11, 0, 52, 12, 7, 86, 5, 8, 63, 24, 6, 13, 67, 9, 14, 10, 40,
  41, 42, 43])) (.leaf [25, 50, 29, 3, 30, 11, 4, 0, 52, 12, 2, 7, 86, 5, 1, 8, 63, 6, 13, 67, 9,
  14, 10, 40, 41, 42, 43])) (.leaf [25, 50, 29, 30, 11, 0, 52, 12, 7, 86, 5, 8, 63, 24, 6, 13, 67,
  9, 14, 10, 40, 41, 42, 43])) (.leaf [25, 50, 29, 30, 11, 0, 52, 12, 7, 86, 5, 8, 63, 24, 6, 13,
  67, 9, 14, 10, 40, 41, 42, 43])) (.leaf [25, 50, 29, 3, 30, 11, 4, 0, 52, 12, 2, 7, 86, 5, 1, 8,
  63, 6, 13, 67, 9, 14, 10, 40, 41, 42, 43])) (.leaf [25, 50, 29, 30, 11, 0, 52, 12, 7, 86, 5, 8,
  63, 24, 6, 13, 67, 9, 14, 10, 40, 41, 42, 43])) (.leaf [25, 30, 29, 3, 0, 52, 11, 4, 7, 86, 12,
  2, 8, 63, 5, 1, 13, 67, 9, 6, 14, 10, 40, 41, 42, 43])

/-- some of the cases -/
def real5OneCase159 : LooseTree :=
  .breaks 21041234 (.breaks 10502226 (.breaks 17879237 (.breaks 4210881 (.breaks 13684817 (.breaks
  13725781 (.breaks 4210705 (.breaks 24191173 (.breaks 24211649 (.breaks 4210721 (.breaks 18948177
  (.breaks 18972866 (.breaks 24211473 (.breaks 4210689 (.breaks 18948209 (.breaks 24211489 (.breaks
  25264209 (.breaks 25268309 (.breaks 24211457 (.breaks 26316993 (.breaks 26316817 (.breaks
  26316833 (.breaks 26316801 (.leaf [25, 50, 29, 30, 11, 0, 52, 12, 75, 7, 5, 13, 34, 8, 6, 14, 9,
  24, 58, 10, 40, 41, 42, 43]) (.leaf [25, 50, 29, 30, 11, 0, 52, 12, 75, 7, 5, 13, 34, 8, 6, 14,
  9, 24, 58, 10, 40, 41, 42, 43])) (.leaf [25, 50, 29, 30, 11, 0, 52, 12, 75, 7, 5, 13, 34, 8, 6,
  14, 9, 24, 58, 10, 40, 41, 42, 43])) (.leaf [25, 50, 29, 30, 11, 0, 52, 12, 75, 7, 5, 13, 34, 8,
  6, 14, 9, 24, 58, 10, 40, 41, 42, 43])) (.leaf [25, 50, 29, 30, 11, 0, 52, 12, 75, 7, 5, 13, 34,
  8, 6, 14, 9, 24, 58, 10, 40, 41, 42, 43])) (.leaf [25, 50, 29, 30, 11, 0, 52, 12, 75, 7, 5, 13,
  34, 8, 6, 14, 9, 24, 58, 10, 40, 41, 42, 43])) (.leaf [25, 50, 29, 30, 11, 0, 52, 12, 75, 7, 5,
  13, 34, 8, 6, 14, 9, 24, 58, 10, 40, 41, 42, 43])) (.leaf [25, 50, 29, 30, 11, 0, 52, 12, 75, 7,
  5, 13, 34, 8, 6, 14, 9, 24, 58, 10, 40, 41, 42, 43])) (.leaf [25, 50, 29, 30, 11, 0, 52, 12, 75,
  7, 5, 13, 34, 8, 6, 14, 9, 24, 58, 10, 40, 41, 42, 43])) (.leaf [25, 50, 29, 30, 11, 0, 52, 12,
  75, 7, 5, 13, 34, 8, 6, 14, 9, 24, 58, 10, 40, 41, 42, 43])) (.leaf [25, 50, 29, 30, 11, 0, 52,
  12, 75, 7, 5, 13, 34, 8, 6, 14, 9, 24, 58, 10, 40, 41, 42, 43])) (.leaf [25, 50, 29, 30, 11, 0,
  52, 12, 75, 7, 5, 13, 34, 8, 6, 14, 9, 24, 58, 10, 40, 41, 42, 43])) (.leaf [25, 50, 29, 3, 30,
  11, 4, 0, 52, 12, 2, 75, 7, 5, 1, 13, 34, 8, 6, 14, 9, 58, 10, 40, 41, 42, 43])) (.leaf [25, 50,
  29, 30, 11, 0, 52, 12, 75, 7, 5, 13, 34, 8, 6, 14, 9, 24, 58, 10, 40, 41, 42, 43])) (.leaf [25,
  50, 29, 30, 11, 0, 52, 12, 75, 7, 5, 13, 34, 8, 6, 14, 9, 24, 58, 10, 40, 41, 42, 43])) (.leaf
  [25, 50, 29, 30, 11, 0, 52, 12, 75, 7, 5, 13, 34, 8, 6, 14, 9, 24, 58, 10, 40, 41, 42, 43]))
  (.leaf [25, 50, 29, 3, 30, 11, 4, 0, 52, 12, 2, 75, 7, 5, 1, 13, 34, 8, 6, 14, 9, 24, 58, 10, 40,
  41, 42, 43])) (.leaf [25, 50, 29, 30, 11, 0, 52, 12, 75, 7, 5, 13, 34, 8, 6, 14, 9, 24, 58, 10,
  40, 41, 42, 43])) (.leaf [25, 50, 29, 3, 30, 11, 4, 0, 52, 12, 2, 75, 7, 5, 1, 13, 34, 8, 6, 14,
  9, 24, 58, 10, 40, 41, 42, 43])) (.leaf [25, 50, 29, 30, 11, 0, 52, 12, 75, 7, 5, 13, 34, 8, 6,
  14, 9, 24, 58, 10, 40, 41, 42, 43])) (.leaf [25, 50, 29, 30, 11, 0, 52, 12, 75, 7, 5, 13, 34, 8,
  6, 14, 9, 24, 58, 10, 40, 41, 42, 43])) (.leaf [25, 50, 29, 3, 30, 11, 4, 0, 52, 12, 2, 75, 7, 5,
  1, 13, 34, 8, 6, 14, 9, 24, 58, 10, 40, 41, 42, 43])) (.leaf [25, 50, 29, 30, 11, 0, 52, 12, 75,
  7, 5, 13, 34, 8, 6, 14, 9, 24, 58, 10, 40, 41, 42, 43])) (.leaf [25, 30, 29, 3, 0, 52, 11, 4, 75,
  7, 12, 2, 13, 34, 8, 5, 1, 14, 9, 24, 58, 6, 10, 40, 41, 42, 43])

/-- some of the cases -/
def real5OneCase160 : LooseTree :=
  .breaks 1089621 (.breaks 21041234 (.breaks 10502226 (.breaks 17879237 (.breaks 4210881 (.breaks
  13725781 (.breaks 4210705 (.breaks 24191173 (.breaks 24211649 (.breaks 4210721 (.breaks 18948177
  (.breaks 18976853 (.breaks 24211473 (.breaks 4210689 (.breaks 18948209 (.breaks 24211489 (.breaks
  26312901 (.breaks 24211457 (.breaks 25264209 (.leaf [25, 50, 29, 30, 11, 0, 52, 12, 75, 7, 5, 13,
  67, 8, 6, 14, 9, 68, 10, 24]) (.leaf [25, 50, 29, 30, 11, 0, 52, 12, 75, 7, 5, 13, 67, 8, 6, 14,
  9, 68, 10, 24])) (.leaf [25, 50, 29, 30, 11, 0, 52, 12, 75, 7, 5, 13, 67, 8, 6, 14, 9, 68, 10,
  24])) (.leaf [25, 50, 29, 30, 11, 0, 52, 12, 75, 7, 5, 13, 67, 8, 6, 14, 9, 68, 10, 24])) (.leaf
  [25, 50, 29, 30, 11, 0, 52, 12, 75, 7, 5, 13, 67, 8, 6, 14, 9, 68, 10, 24])) (.leaf [25, 50, 29,
  30, 11, 0, 52, 12, 75, 7, 5, 13, 67, 8, 6, 14, 9, 68, 10, 24])) (.leaf [25, 50, 29, 3, 30, 11, 4,
  0, 52, 12, 2, 75, 7, 5, 1, 13, 67, 8, 6, 14, 9, 68, 10, 24])) (.leaf [25, 50, 29, 30, 11, 0, 52,
  12, 75, 7, 5, 13, 67, 8, 6, 14, 9, 68, 10, 24])) (.leaf [25, 50, 29, 30, 11, 0, 52, 12, 75, 7, 5,
  13, 67, 8, 6, 14, 9, 68, 10, 24])) (.leaf [25, 50, 29, 30, 11, 0, 52, 12, 75, 7, 5, 13, 67, 8, 6,
  14, 9, 68, 10, 24])) (.leaf [25, 50, 29, 3, 30, 11, 4, 0, 52, 12, 2, 75, 7, 5, 1, 13, 67, 8, 6,
  14, 9, 68, 10, 24])) (.leaf [25, 50, 29, 30, 11, 0, 52, 12, 75, 7, 5, 13, 67, 8, 6, 14, 9, 68,
  10, 24])) (.leaf [25, 50, 29, 3, 30, 11, 4, 0, 52, 12, 2, 75, 7, 5, 1, 67, 8, 6, 9, 68, 10, 24]))
  (.leaf [25, 50, 29, 3, 30, 11, 4, 0, 52, 12, 2, 75, 7, 5, 1, 13, 67, 8, 6, 14, 9, 68, 10, 24]))
  (.leaf [25, 50, 29, 3, 30, 11, 4, 0, 52, 12, 2, 75, 7, 5, 1, 13, 67, 8, 6, 14, 9, 68, 10, 24]))
  (.leaf [25, 50, 29, 3, 30, 11, 4, 0, 52, 12, 2, 75, 7, 5, 1, 13, 67, 8, 6, 14, 9, 68, 10, 24]))
  (.leaf [25, 50, 29, 3, 30, 11, 4, 0, 52, 12, 2, 75, 7, 5, 1, 13, 67, 8, 6, 14, 9, 68, 10, 24]))
  (.leaf [25, 50, 29, 3, 30, 11, 4, 0, 52, 12, 2, 75, 7, 5, 1, 13, 67, 8, 6, 14, 9, 68, 10, 24]))
  (.leaf [25, 30, 29, 3, 0, 52, 11, 4, 75, 7, 12, 2, 13, 67, 8, 5, 1, 14, 9, 68, 6, 10, 24]))
  (.leaf [25, 50, 29, 3, 30, 11, 4, 0, 52, 12, 2, 75, 7, 5, 1, 13, 67, 8, 6, 14, 9, 68, 10, 24])

/-- some of the cases -/
def real5OneCase161 : LooseTree :=
  .cases [] 21 (.breaks 1065045 (.breaks 17879237 (.breaks 4235346 (.breaks 13684817 (.breaks
  13713493 (.breaks 13725781 (.breaks 10526913 (.breaks 21053633 (.breaks 24191173 (.breaks
  24211649 (.breaks 10526737 (.breaks 18948177 (.breaks 21053457 (.breaks 24211473 (.breaks
  10526753 (.breaks 18948209 (.breaks 21053473 (.breaks 24211489 (.breaks 10526721 (.breaks
  21053441 (.breaks 24211457 (.leaf [26, 30, 38, 0, 76, 52, 3, 27, 75, 7, 4, 13, 28, 8, 2, 14, 22,
  9, 1, 23, 10]) (.leaf [26, 30, 11, 38, 0, 76, 52, 12, 3, 27, 75, 7, 5, 4, 13, 28, 8, 6, 2, 14,
  22, 9, 1, 23, 10])) (.leaf [26, 30, 11, 38, 0, 76, 52, 12, 3, 27, 75, 7, 5, 4, 13, 28, 8, 6, 2,
  14, 22, 9, 1, 23, 10])) (.leaf [26, 30, 11, 38, 0, 76, 52, 12, 3, 27, 75, 7, 5, 4, 13, 28, 8, 6,
  2, 14, 22, 9, 1, 23, 10])) (.leaf [26, 30, 11, 38, 0, 76, 52, 12, 3, 27, 75, 7, 5, 4, 13, 28, 8,
  6, 2, 14, 22, 9, 1, 23, 10])) (.leaf [26, 30, 11, 38, 0, 76, 52, 12, 3, 27, 75, 7, 5, 4, 13, 28,
  8, 6, 2, 14, 22, 9, 1, 23, 10])) (.leaf [26, 30, 11, 38, 0, 76, 52, 12, 3, 27, 75, 7, 5, 4, 13,
  28, 8, 6, 2, 14, 22, 9, 1, 23, 10])) (.leaf [26, 30, 11, 38, 0, 76, 52, 12, 3, 27, 75, 7, 5, 4,
  13, 28, 8, 6, 2, 14, 22, 9, 1, 23, 10])) (.leaf [26, 30, 11, 38, 0, 76, 52, 12, 3, 27, 75, 7, 5,
  4, 13, 28, 8, 6, 2, 14, 22, 9, 1, 23, 10])) (.leaf [26, 30, 11, 38, 0, 76, 52, 12, 3, 27, 75, 7,
  5, 4, 13, 28, 8, 6, 2, 14, 22, 9, 1, 23, 10])) (.leaf [26, 30, 11, 38, 0, 76, 52, 12, 3, 27, 75,
  7, 5, 4, 13, 28, 8, 6, 2, 14, 22, 9, 1, 23, 10])) (.leaf [26, 30, 11, 38, 0, 76, 52, 12, 3, 27,
  75, 7, 5, 4, 13, 28, 8, 6, 2, 14, 22, 9, 1, 23, 10])) (.leaf [26, 30, 11, 38, 0, 76, 52, 12, 3,
  27, 75, 7, 5, 4, 13, 28, 8, 6, 2, 14, 22, 9, 1, 23, 10])) (.leaf [26, 30, 11, 38, 0, 76, 52, 12,
  3, 27, 75, 7, 5, 4, 13, 28, 8, 6, 2, 14, 22, 9, 1, 23, 10])) (.leaf [26, 30, 11, 38, 0, 76, 52,
  12, 3, 27, 75, 7, 5, 4, 13, 28, 8, 6, 2, 14, 22, 9, 1, 23, 10])) (.leaf [26, 30, 11, 38, 0, 76,
  52, 12, 3, 27, 75, 7, 5, 4, 13, 28, 8, 6, 2, 14, 22, 9, 1, 23, 10])) (.leaf [26, 30, 11, 38, 0,
  76, 52, 12, 3, 27, 75, 7, 5, 4, 13, 28, 8, 6, 2, 14, 22, 9, 1, 23, 10])) (.leaf [26, 30, 11, 38,
  0, 76, 52, 12, 3, 27, 75, 7, 5, 4, 13, 28, 8, 6, 2, 14, 22, 9, 1, 23, 10])) (.leaf [26, 30, 11,
  38, 0, 76, 52, 12, 3, 27, 75, 7, 5, 4, 13, 28, 8, 6, 2, 14, 22, 9, 1, 23, 10])) (.leaf [26, 30,
  11, 38, 0, 76, 52, 12, 3, 27, 75, 7, 5, 4, 13, 28, 8, 6, 2, 14, 22, 9, 1, 23, 10])) (.leaf [26,
  30, 11, 38, 0, 76, 52, 12, 3, 27, 75, 7, 5, 4, 13, 28, 8, 6, 2, 14, 22, 9, 1, 23, 10])) (.leaf
  [26, 30, 38, 0, 76, 52, 3, 27, 75, 7, 86, 4, 13, 28, 8, 24, 2, 14, 22, 9, 1, 23, 10])) (.breaks
  17907794 (.breaks 21024965 (.breaks 10526913 (.breaks 13684817 (.breaks 13725781 (.breaks
  10526737 (.breaks 24191173 (.breaks 24211649 (.breaks 24215749 (.breaks 10526753 (.breaks
  18948177 (.breaks 24211473 (.breaks 25264209 (.breaks 10526721 (.breaks 18948209 (.breaks
  24211489 (.breaks 24211457 (.leaf [26, 47, 38, 78, 3, 0, 52, 4, 75, 7, 86, 2, 13, 8, 24, 1, 14,
  9, 10]) (.leaf [26, 47, 38, 78, 3, 0, 52, 4, 75, 7, 86, 2, 13, 8, 24, 1, 14, 9, 10])) (.leaf [26,
  47, 38, 78, 3, 0, 52, 4, 75, 7, 86, 2, 13, 8, 24, 1, 14, 9, 10])) (.leaf [26, 47, 38, 78, 3, 0,
  52, 4, 75, 7, 86, 2, 13, 8, 24, 1, 14, 9, 10])) (.leaf [26, 47, 38, 78, 3, 0, 52, 4, 75, 7, 86,
  2, 13, 8, 24, 1, 14, 9, 10])) (.leaf [26, 47, 38, 78, 3, 0, 52, 4, 75, 7, 86, 2, 13, 8, 24, 1,
  14, 9, 10])) (.leaf [26, 47, 38, 78, 3, 0, 52, 4, 75, 7, 86, 2, 13, 8, 24, 1, 14, 9, 10])) (.leaf
  [26, 47, 38, 78, 3, 0, 52, 4, 75, 7, 86, 2, 13, 8, 24, 1, 14, 9, 10])) (.leaf [26, 47, 38, 78, 3,
  0, 52, 4, 75, 7, 86, 2, 13, 8, 24, 1, 14, 9, 10])) (.leaf [26, 47, 38, 78, 3, 0, 52, 4, 75, 7,
  86, 2, 13, 8, 24, 1, 14, 9, 10])) (.leaf [26, 47, 38, 78, 3, 0, 52, 4, 75, 7, 86, 2, 13, 8, 24,
  1, 14, 9, 10])) (.leaf [26, 47, 38, 78, 3, 0, 52, 4, 75, 7, 86, 2, 13, 8, 24, 1, 14, 9, 10]))
  (.leaf [26, 47, 38, 78, 3, 0, 52, 4, 75, 7, 86, 2, 13, 8, 24, 1, 14, 9, 10])) (.leaf [26, 47, 38,
  78, 27, 3, 0, 52, 28, 4, 22, 75, 7, 2, 13, 23, 8, 1, 14, 9, 10])) (.leaf [26, 47, 38, 78, 3, 0,
  52, 4, 75, 7, 86, 2, 13, 8, 24, 1, 14, 9, 10])) (.leaf [26, 47, 38, 78, 3, 0, 52, 4, 75, 7, 86,
  2, 13, 8, 24, 1, 14, 9, 10])) (.leaf [26, 47, 38, 78, 27, 3, 0, 52, 28, 4, 22, 75, 7, 2, 13, 23,
  8, 1, 14, 9, 10])) (.leaf [26, 47, 38, 78, 27, 3, 0, 52, 28, 4, 22, 75, 7, 2, 13, 23, 8, 1, 14,
  9, 10]))

/-- some of the cases -/
def real5OneCase162 : LooseTree :=
  .breaks 1065045 (.breaks 21041234 (.breaks 26288325 (.breaks 4210881 (.breaks 4235346 (.breaks
  17879237 (.breaks 18948177 (.breaks 4210705 (.breaks 10526913 (.breaks 13684817 (.breaks 13725781
  (.breaks 18948209 (.breaks 4210721 (.breaks 10526737 (.breaks 24211649 (.breaks 4210689 (.breaks
  10526753 (.breaks 24211473 (.breaks 10526721 (.breaks 24211489 (.breaks 24211457 (.leaf [26, 50,
  80, 11, 38, 30, 13, 12, 3, 0, 52, 14, 5, 4, 7, 6, 2, 8, 1, 9, 10]) (.leaf [26, 50, 80, 11, 38,
  30, 13, 12, 3, 0, 52, 14, 5, 4, 7, 86, 6, 2, 8, 24, 1, 9, 10])) (.leaf [26, 50, 80, 11, 38, 30,
  13, 12, 3, 0, 52, 14, 5, 4, 7, 86, 6, 2, 8, 24, 1, 9, 10])) (.leaf [26, 50, 80, 11, 38, 30, 13,
  12, 3, 0, 52, 14, 5, 4, 7, 86, 6, 2, 8, 24, 1, 9, 10])) (.leaf [26, 50, 80, 11, 38, 30, 13, 12,
  3, 0, 52, 14, 5, 4, 7, 86, 6, 2, 8, 24, 1, 9, 10])) (.leaf [26, 50, 80, 11, 38, 30, 13, 12, 3, 0,
  52, 14, 5, 4, 7, 86, 6, 2, 8, 24, 1, 9, 10])) (.leaf [26, 50, 80, 11, 38, 30, 13, 12, 3, 0, 52,
  14, 5, 4, 7, 86, 6, 2, 8, 24, 1, 9, 10])) (.leaf [26, 50, 80, 11, 38, 30, 13, 12, 3, 0, 52, 14,
  5, 4, 7, 86, 6, 2, 8, 24, 1, 9, 10])) (.leaf [26, 50, 80, 11, 38, 30, 13, 12, 3, 0, 52, 14, 5, 4,
  7, 86, 6, 2, 8, 24, 1, 9, 10])) (.leaf [26, 50, 80, 11, 38, 30, 13, 12, 3, 0, 52, 14, 5, 4, 7,
  86, 6, 2, 8, 24, 1, 9, 10])) (.leaf [26, 50, 80, 11, 38, 30, 13, 12, 3, 0, 52, 14, 5, 4, 7, 86,
  6, 2, 8, 24, 1, 9, 10])) (.leaf [26, 50, 80, 11, 38, 30, 13, 12, 3, 0, 52, 14, 5, 4, 7, 86, 6, 2,
  8, 24, 1, 9, 10])) (.leaf [26, 50, 80, 11, 38, 30, 13, 12, 3, 0, 52, 14, 5, 4, 7, 86, 6, 2, 8,
  24, 1, 9, 10])) (.leaf [26, 50, 80, 11, 38, 30, 13, 12, 3, 0, 52, 14, 5, 4, 7, 86, 6, 2, 8, 24,
  1, 9, 10])) (.leaf [26, 50, 80, 11, 38, 30, 13, 12, 3, 0, 52, 14, 5, 4, 7, 86, 6, 2, 8, 24, 1, 9,
  10])) (.leaf [26, 50, 80, 11, 38, 30, 13, 12, 3, 0, 52, 14, 5, 4, 7, 86, 6, 2, 8, 24, 1, 9, 10]))
  (.leaf [26, 50, 80, 11, 38, 30, 13, 12, 3, 0, 52, 14, 5, 4, 7, 86, 6, 2, 8, 24, 1, 9, 10]))
  (.leaf [26, 50, 80, 11, 38, 30, 13, 12, 3, 0, 52, 14, 5, 4, 7, 86, 6, 2, 8, 24, 1, 9, 10]))
  (.leaf [26, 50, 80, 11, 38, 30, 13, 12, 3, 0, 52, 14, 5, 4, 7, 86, 6, 2, 8, 24, 1, 9, 10]))
  (.leaf [26, 50, 80, 11, 38, 30, 13, 12, 3, 0, 52, 14, 5, 4, 7, 86, 6, 2, 8, 24, 1, 9, 10]))
  (.leaf [26, 30, 80, 11, 38, 0, 52, 13, 12, 3, 14, 7, 86, 5, 4, 8, 24, 6, 2, 9, 1, 10])) (.leaf
  [26, 50, 80, 11, 38, 30, 13, 12, 3, 0, 52, 14, 5, 4, 7, 86, 6, 2, 8, 24, 1, 9, 10])

/-- some of the cases -/
def real5OneCase163 : LooseTree :=
  .breaks 12619795 (.breaks 21041234 (.breaks 4235346 (.breaks 9474065 (.breaks 17879237 (.breaks
  9474177 (.breaks 10526913 (.breaks 13684817 (.breaks 13725781 (.breaks 9474193 (.breaks 10526737
  (.breaks 24191173 (.breaks 24211649 (.breaks 24215749 (.breaks 10526753 (.breaks 18948177
  (.breaks 24211473 (.breaks 25264209 (.breaks 10526721 (.breaks 18948209 (.breaks 24211489
  (.breaks 24211457 (.leaf [26, 61, 50, 38, 62, 30, 55, 3, 0, 52, 56, 4, 75, 7, 86, 2, 13, 8, 24,
  1, 14, 9, 10]) (.leaf [26, 61, 50, 38, 62, 30, 55, 3, 0, 52, 56, 4, 75, 7, 86, 2, 13, 8, 24, 1,
  14, 9, 10])) (.leaf [26, 61, 50, 38, 62, 30, 55, 3, 0, 52, 56, 4, 75, 7, 86, 2, 13, 8, 24, 1, 14,
  9, 10])) (.leaf [26, 61, 50, 38, 62, 30, 55, 3, 0, 52, 56, 4, 75, 7, 86, 2, 13, 8, 24, 1, 14, 9,
  10])) (.leaf [26, 61, 50, 38, 62, 30, 55, 3, 0, 52, 56, 4, 75, 7, 86, 2, 13, 8, 24, 1, 14, 9,
  10])) (.leaf [26, 61, 50, 11, 38, 62, 30, 12, 55, 3, 0, 52, 5, 56, 4, 75, 7, 6, 2, 13, 8, 1, 14,
  9, 10])) (.leaf [26, 61, 50, 38, 62, 30, 55, 3, 0, 52, 56, 4, 75, 7, 86, 2, 13, 8, 24, 1, 14, 9,
  10])) (.leaf [26, 61, 50, 38, 62, 30, 55, 3, 0, 52, 56, 4, 75, 7, 86, 2, 13, 8, 24, 1, 14, 9,
  10])) (.leaf [26, 61, 50, 38, 62, 30, 55, 3, 0, 52, 56, 4, 75, 7, 86, 2, 13, 8, 24, 1, 14, 9,
  10])) (.leaf [26, 61, 50, 11, 38, 62, 30, 12, 55, 3, 0, 52, 5, 56, 4, 75, 7, 6, 2, 13, 8, 1, 14,
  9, 10])) (.leaf [26, 61, 50, 38, 62, 30, 55, 3, 0, 52, 56, 4, 75, 7, 86, 2, 13, 8, 24, 1, 14, 9,
  10])) (.leaf [26, 61, 50, 38, 62, 30, 55, 3, 0, 52, 56, 4, 75, 7, 86, 2, 13, 8, 24, 1, 14, 9,
  10])) (.leaf [26, 61, 50, 38, 62, 30, 55, 3, 0, 52, 56, 4, 75, 7, 86, 2, 13, 8, 24, 1, 14, 9,
  10])) (.leaf [26, 61, 50, 38, 62, 30, 55, 3, 0, 52, 56, 4, 75, 7, 86, 2, 13, 8, 24, 1, 14, 9,
  10])) (.leaf [26, 61, 50, 11, 38, 62, 30, 12, 55, 3, 0, 52, 5, 56, 4, 75, 7, 6, 2, 13, 8, 1, 14,
  9, 10])) (.leaf [26, 61, 50, 38, 62, 30, 55, 3, 0, 52, 56, 4, 75, 7, 86, 2, 13, 8, 24, 1, 14, 9,
  10])) (.leaf [26, 61, 50, 38, 62, 30, 55, 3, 0, 52, 56, 4, 75, 7, 86, 2, 13, 8, 24, 1, 14, 9,
  10])) (.leaf [26, 61, 50, 38, 62, 30, 55, 3, 0, 52, 56, 4, 75, 7, 86, 2, 13, 8, 24, 1, 14, 9,
  10])) (.leaf [26, 61, 50, 11, 38, 62, 30, 12, 55, 3, 0, 52, 5, 56, 4, 75, 7, 86, 6, 2, 13, 8, 24,
  1, 14, 9, 10])) (.leaf [26, 128, 50, 38, 55, 30, 56, 3, 0, 52, 4, 75, 7, 86, 2, 13, 8, 24, 1, 14,
  9, 10])) (.leaf [26, 61, 50, 38, 62, 30, 55, 3, 0, 52, 56, 4, 75, 7, 86, 2, 13, 8, 24, 1, 14, 9,
  10])) (.leaf [26, 61, 30, 11, 38, 62, 0, 52, 12, 55, 3, 75, 7, 86, 5, 56, 4, 13, 8, 24, 6, 2, 14,
  9, 1, 10])) (.leaf [26, 128, 50, 38, 55, 30, 56, 3, 0, 52, 4, 75, 7, 86, 2, 13, 8, 24, 1, 14, 9,
  10])

/-- some of the cases -/
def real5OneCase164 : LooseTree :=
  .cases [] 42 (.cases [] 7 (.breaks 13725781 (.breaks 24170579 (.cycle 1 [52, 137]) (.leaf [26,
  50, 38, 30, 3, 0, 52, 4, 7, 86, 2, 8, 63, 1, 13, 67, 9, 14, 10, 40, 41, 42, 43])) (.leaf [26, 50,
  11, 38, 30, 12, 3, 0, 52, 5, 4, 7, 86, 6, 2, 8, 63, 1, 13, 67, 9, 14, 10, 40, 41, 42, 43]))
  (.cases [] 12 (.breaks 13725781 (.breaks 24170579 (.cycle 1 [52, 137]) (.leaf [26, 50, 38, 30, 3,
  0, 52, 4, 75, 7, 2, 13, 34, 8, 1, 14, 9, 24, 58, 10, 40, 41, 42, 43])) (.leaf [26, 50, 11, 38,
  30, 12, 3, 0, 52, 5, 4, 75, 7, 6, 2, 13, 34, 8, 1, 14, 9, 24, 58, 10, 40, 41, 42, 43])) (.breaks
  13725781 (.breaks 24170579 (.cycle 1 [52, 137]) (.leaf [26, 50, 38, 30, 3, 0, 52, 4, 75, 7, 2,
  13, 67, 8, 1, 14, 9, 68, 10, 24])) (.leaf [26, 50, 11, 38, 30, 12, 3, 0, 52, 5, 4, 75, 7, 6, 2,
  13, 67, 8, 1, 14, 9, 68, 10, 24])))) (.breaks 21041234 (.breaks 4235346 (.breaks 17879237
  (.breaks 10526913 (.breaks 13684817 (.breaks 10526737 (.breaks 13725779 (.breaks 10526753
  (.breaks 24211537 (.breaks 10526721 (.breaks 24191173 (.breaks 24211649 (.breaks 18948177
  (.breaks 18976853 (.breaks 24211473 (.breaks 18948209 (.breaks 24211489 (.breaks 26316993
  (.breaks 24211457 (.breaks 26316817 (.breaks 26316833 (.breaks 26316801 (.leaf [26, 50, 38, 30,
  3, 0, 4, 118, 2, 20, 1, 75, 7, 13, 67, 8, 14, 9, 40, 10, 41, 42, 43]) (.leaf [26, 50, 38, 30, 3,
  0, 4, 118, 2, 20, 1, 75, 7, 13, 67, 8, 14, 9, 40, 10, 41, 42, 43])) (.leaf [26, 50, 38, 30, 3, 0,
  4, 118, 2, 20, 1, 75, 7, 13, 67, 8, 14, 9, 40, 10, 41, 42, 43])) (.leaf [26, 50, 38, 30, 3, 0, 4,
  118, 2, 20, 1, 75, 7, 13, 67, 8, 14, 9, 40, 10, 41, 42, 43])) (.leaf [26, 50, 38, 30, 3, 0, 4,
  118, 2, 20, 1, 75, 7, 13, 67, 8, 14, 9, 40, 10, 41, 42, 43])) (.leaf [26, 50, 38, 30, 3, 0, 4,
  118, 2, 20, 1, 75, 7, 13, 67, 8, 14, 9, 40, 10, 41, 42, 43])) (.leaf [26, 50, 38, 30, 3, 0, 4,
  118, 2, 20, 1, 75, 7, 13, 67, 8, 14, 9, 40, 10, 41, 42, 43])) (.leaf [26, 50, 38, 30, 3, 0, 4,
  118, 2, 20, 1, 75, 7, 13, 67, 8, 14, 9, 40, 10, 41, 42, 43])) (.leaf [26, 50, 38, 30, 3, 0, 4,
  118, 2, 20, 1, 75, 7, 13, 67, 8, 14, 9, 40, 10, 41, 42, 43])) (.leaf [26, 50, 38, 30, 3, 0, 4,
  118, 2, 20, 1, 75, 7, 13, 67, 8, 14, 9, 40, 10, 41, 42, 43])) (.leaf [26, 50, 38, 30, 3, 0, 4,
  118, 2, 20, 1, 75, 7, 13, 67, 8, 14, 9, 40, 10, 41, 42, 43])) (.leaf [26, 50, 38, 30, 3, 0, 4,
  118, 2, 20, 1, 75, 7, 13, 67, 8, 14, 9, 40, 10, 41, 42, 43])) (.leaf [26, 50, 38, 30, 3, 0, 4,
  118, 2, 20, 1, 75, 7, 86, 13, 67, 8, 24, 14, 9, 40, 10, 41, 42, 43])) (.leaf [26, 50, 38, 30, 3,
  0, 4, 118, 2, 20, 1, 75, 7, 13, 67, 8, 14, 9, 40, 10, 41, 42, 43])) (.leaf [26, 50, 38, 30, 3, 0,
  4, 118, 2, 20, 1, 75, 7, 86, 13, 67, 8, 24, 14, 9, 40, 10, 41, 42, 43])) (.leaf [26, 50, 38, 30,
  3, 0, 4, 118, 2, 20, 1, 75, 7, 13, 67, 8, 14, 9, 40, 10, 41, 42, 43])) (.leaf [26, 50, 38, 30, 3,
  0, 4, 118, 2, 20, 1, 75, 7, 86, 13, 67, 8, 24, 14, 9, 40, 10, 41, 42, 43])) (.leaf [26, 50, 38,
  30, 3, 0, 4, 118, 2, 20, 1, 75, 7, 13, 67, 8, 14, 9, 40, 10, 41, 42, 43])) (.leaf [26, 50, 38,
  30, 3, 0, 4, 118, 2, 20, 1, 75, 7, 86, 13, 67, 8, 24, 14, 9, 40, 10, 41, 42, 43])) (.leaf [26,
  50, 38, 30, 3, 0, 4, 118, 2, 20, 1, 75, 7, 13, 67, 8, 14, 9, 40, 10, 41, 42, 43])) (.leaf [26,
  50, 38, 30, 3, 0, 4, 118, 2, 20, 1, 75, 7, 86, 13, 67, 8, 24, 14, 9, 40, 10, 41, 42, 43])) (.leaf
  [26, 50, 38, 30, 3, 0, 4, 118, 2, 20, 1, 75, 7, 13, 67, 8, 14, 9, 40, 10, 41, 42, 43])) (.leaf
  [26, 30, 38, 0, 3, 118, 4, 20, 2, 75, 7, 86, 1, 13, 67, 8, 24, 14, 9, 40, 10, 41, 42, 43]))

/-- some of the cases -/
def real5OneCase165 : LooseTree :=
  .breaks 1065045 (.breaks 21041234 (.breaks 22097938 (.breaks 4235346 (.breaks 17879237 (.breaks
  20000897 (.breaks 10526913 (.breaks 13684817 (.breaks 13725781 (.breaks 20000945 (.breaks
  10526737 (.breaks 20000929 (.breaks 24191173 (.breaks 24211649 (.breaks 24215749 (.breaks
  10526753 (.breaks 18948177 (.breaks 24211473 (.breaks 25264209 (.breaks 10526721 (.breaks
  18948209 (.breaks 24211489 (.breaks 24211457 (.leaf [26, 50, 71, 38, 30, 51, 3, 0, 52, 35, 4, 36,
  75, 7, 86, 2, 13, 8, 24, 1, 14, 9, 10]) (.leaf [26, 50, 71, 11, 38, 30, 51, 12, 3, 0, 52, 35, 5,
  4, 36, 75, 7, 6, 2, 13, 8, 1, 14, 9, 10])) (.leaf [26, 50, 71, 11, 38, 30, 51, 12, 3, 0, 52, 35,
  5, 4, 36, 75, 7, 6, 2, 13, 8, 1, 14, 9, 10])) (.leaf [26, 50, 71, 11, 38, 30, 51, 12, 3, 0, 52,
  35, 5, 4, 36, 75, 7, 6, 2, 13, 8, 1, 14, 9, 10])) (.leaf [26, 50, 71, 11, 38, 30, 51, 12, 3, 0,
  52, 35, 5, 4, 36, 75, 7, 6, 2, 13, 8, 1, 14, 9, 10])) (.leaf [26, 50, 71, 11, 38, 30, 51, 12, 3,
  0, 52, 35, 5, 4, 36, 75, 7, 6, 2, 13, 8, 1, 14, 9, 10])) (.leaf [26, 50, 71, 11, 38, 30, 51, 12,
  3, 0, 52, 35, 5, 4, 36, 75, 7, 6, 2, 13, 8, 1, 14, 9, 10])) (.leaf [26, 50, 71, 11, 38, 30, 51,
  12, 3, 0, 52, 35, 5, 4, 36, 75, 7, 6, 2, 13, 8, 1, 14, 9, 10])) (.leaf [26, 50, 71, 11, 38, 30,
  51, 12, 3, 0, 52, 35, 5, 4, 36, 75, 7, 6, 2, 13, 8, 1, 14, 9, 10])) (.leaf [26, 50, 71, 11, 38,
  30, 51, 12, 3, 0, 52, 35, 5, 4, 36, 75, 7, 6, 2, 13, 8, 1, 14, 9, 10])) (.leaf [26, 50, 71, 11,
  38, 30, 51, 12, 3, 0, 52, 35, 5, 4, 36, 75, 7, 6, 2, 13, 8, 1, 14, 9, 10])) (.leaf [26, 50, 71,
  11, 38, 30, 51, 12, 3, 0, 52, 35, 5, 4, 36, 75, 7, 6, 2, 13, 8, 1, 14, 9, 10])) (.leaf [26, 50,
  71, 11, 38, 30, 51, 12, 3, 0, 52, 35, 5, 4, 36, 75, 7, 6, 2, 13, 8, 1, 14, 9, 10])) (.leaf [26,
  50, 71, 11, 38, 30, 51, 12, 3, 0, 52, 35, 5, 4, 36, 75, 7, 6, 2, 13, 8, 1, 14, 9, 10])) (.leaf
  [26, 50, 71, 11, 38, 30, 51, 12, 3, 0, 52, 35, 5, 4, 36, 75, 7, 6, 2, 13, 8, 1, 14, 9, 10]))
  (.leaf [26, 50, 71, 11, 38, 30, 51, 12, 3, 0, 52, 35, 5, 4, 36, 75, 7, 86, 6, 2, 13, 8, 24, 1,
  14, 9, 10])) (.leaf [26, 50, 71, 11, 38, 30, 51, 12, 3, 0, 52, 35, 5, 4, 36, 75, 7, 6, 2, 13, 8,
  1, 14, 9, 10])) (.leaf [26, 50, 71, 11, 38, 30, 51, 12, 3, 0, 52, 35, 5, 4, 36, 75, 7, 6, 2, 13,
  8, 1, 14, 9, 10])) (.leaf [26, 50, 71, 11, 38, 30, 51, 12, 3, 0, 52, 35, 5, 4, 36, 75, 7, 6, 2,
  13, 8, 1, 14, 9, 10])) (.leaf [26, 50, 71, 11, 38, 30, 51, 12, 3, 0, 52, 35, 5, 4, 36, 75, 7, 86,
  6, 2, 13, 8, 24, 1, 14, 9, 10])) (.leaf [26, 50, 71, 11, 38, 30, 51, 12, 3, 0, 52, 35, 5, 4, 36,
  75, 7, 6, 2, 13, 8, 1, 14, 9, 10])) (.leaf [26, 50, 71, 11, 38, 30, 51, 12, 3, 0, 52, 35, 5, 4,
  36, 75, 7, 6, 2, 13, 8, 1, 14, 9, 10])) (.leaf [26, 30, 71, 11, 38, 0, 52, 51, 12, 3, 35, 75, 7,
  86, 5, 4, 13, 36, 8, 24, 6, 2, 14, 9, 1, 10])) (.leaf [26, 50, 71, 38, 30, 51, 3, 0, 52, 35, 4,
  36, 75, 7, 2, 13, 67, 8, 1, 14, 9, 40, 10, 41, 42, 43])

/-- some of the cases -/
def real5OneCase166 : LooseTree :=
  .breaks 25260117 (.breaks 13684817 (.breaks 24191173 (.breaks 24211649 (.breaks 10526737 (.breaks
  18948177 (.breaks 24211473 (.breaks 10526753 (.breaks 18948209 (.breaks 24211489 (.breaks
  10526721 (.breaks 24211457 (.leaf [25, 30, 83, 3, 0, 75, 7, 4, 13, 8, 2, 14, 9, 1, 10]) (.leaf
  [25, 30, 83, 3, 0, 75, 7, 4, 13, 8, 2, 14, 9, 1, 10])) (.leaf
  [25, 30, 83, 3, 0, 75, 7, 4, 13, 8, 2, 14, 9, 1, 10])) (.leaf
  [25, 30, 83, 3, 0, 75, 7, 4, 13, 8, 2, 14, 9, 1, 10])) (.leaf
  [25, 30, 83, 3, 0, 75, 7, 4, 13, 8, 2, 14, 9, 1, 10])) (.leaf
  [25, 30, 83, 3, 0, 75, 7, 4, 13, 8, 2, 14, 9, 1, 10])) (.leaf
  [25, 30, 83, 3, 0, 75, 7, 4, 13, 8, 2, 14, 9, 1, 10])) (.leaf
  [25, 30, 83, 3, 0, 75, 7, 4, 13, 8, 2, 14, 9, 1, 10])) (.leaf
  [25, 30, 83, 3, 0, 75, 7, 4, 13, 8, 2, 14, 9, 1, 10])) (.leaf
  [25, 30, 83, 3, 0, 75, 7, 4, 13, 8, 2, 14, 9, 1, 10])) (.leaf
  [25, 30, 83, 3, 0, 75, 7, 4, 13, 8, 2, 14, 9, 1, 10])) (.leaf
  [25, 30, 83, 3, 0, 75, 7, 4, 13, 8, 2, 14, 9, 1, 10])) (.leaf
  [25, 30, 83, 3, 0, 75, 7, 4, 13, 8, 2, 14, 9, 1, 10])

/-- some of the cases -/
def real5OneCase167 : LooseTree :=
  .breaks 18968661 (.breaks 24211649 (.breaks 24215749 (.breaks 10526737 (.breaks 24211473 (.breaks
  25264209 (.breaks 25268309 (.breaks 10526753 (.breaks 24211489 (.breaks 26316993 (.breaks
  10526721 (.breaks 24211457 (.breaks 26316817 (.breaks 26316833 (.breaks 26316801 (.leaf [25, 30,
  92, 3, 0, 7, 86, 4, 8, 24, 58, 2, 9, 40, 1, 10, 41, 42, 43]) (.leaf [25, 30, 92, 3, 0, 7, 86, 4,
  8, 24, 58, 2, 9, 40, 1, 10, 41, 42, 43])) (.leaf [25, 30, 92, 3, 0, 7, 86, 4, 8, 24, 58, 2, 9,
  40, 1, 10, 41, 42, 43])) (.leaf [25, 30, 92, 3, 0, 7, 86, 4, 8, 24, 58, 2, 9, 40, 1, 10, 41, 42,
  43])) (.leaf [25, 30, 92, 3, 0, 7, 86, 4, 8, 24, 58, 2, 9, 40, 1, 10, 41, 42, 43])) (.leaf [25,
  30, 92, 3, 0, 7, 86, 4, 8, 24, 58, 2, 9, 40, 1, 10, 41, 42, 43])) (.leaf [25, 30, 92, 3, 0, 7,
  86, 4, 8, 24, 58, 2, 9, 40, 1, 10, 41, 42, 43])) (.leaf [25, 30, 92, 3, 0, 7, 86, 4, 8, 24, 58,
  2, 9, 40, 1, 10, 41, 42, 43])) (.leaf [25, 30, 92, 3, 0, 7, 86, 4, 8, 24, 58, 2, 9, 40, 1, 10,
  41, 42, 43])) (.leaf [25, 30, 92, 3, 0, 7, 86, 4, 8, 24, 58, 2, 9, 40, 1, 10, 41, 42, 43]))
  (.leaf [25, 30, 92, 3, 0, 7, 86, 4, 8, 24, 58, 2, 9, 40, 1, 10, 41, 42, 43])) (.leaf [25, 30, 92,
  3, 0, 7, 86, 4, 8, 24, 58, 2, 9, 40, 1, 10, 41, 42, 43])) (.leaf [25, 30, 92, 3, 0, 7, 86, 4, 8,
  24, 58, 2, 9, 40, 1, 10, 41, 42, 43])) (.leaf [25, 30, 92, 3, 0, 7, 86, 4, 8, 24, 58, 2, 9, 40,
  1, 10, 41, 42, 43])) (.leaf [25, 30, 92, 3, 0, 7, 86, 4, 8, 24, 58, 2, 9, 40, 1, 10, 41, 42,
  43])) (.leaf [25, 30, 92, 3, 0, 7, 86, 4, 8, 24, 58, 2, 9, 40, 1, 10, 41, 42, 43])

/-- some of the cases -/
def real5OneCase168 : LooseTree :=
  .breaks 17907794 (.breaks 18968661 (.breaks 26312901 (.breaks 10526913 (.breaks 13684817 (.breaks
  21053633 (.breaks 24211649 (.breaks 25264209 (.breaks 10526737 (.breaks 21053457 (.breaks
  24211473 (.breaks 10526753 (.breaks 21053473 (.breaks 24211489 (.breaks 10526721 (.breaks
  21053441 (.breaks 24211457 (.leaf [25, 30, 47, 92, 68, 3, 0, 27, 7, 24, 4, 28, 8, 2, 22, 9, 1,
  23, 10]) (.leaf [25, 30, 47, 92, 68, 3, 0, 27, 7, 24, 4, 28, 8, 2, 22, 9, 1, 23, 10])) (.leaf
  [25, 30, 47, 92, 68, 3, 0, 27, 7, 24, 4, 28, 8, 2, 22, 9, 1, 23, 10])) (.leaf [25, 30, 47, 92,
  68, 3, 0, 27, 7, 24, 4, 28, 8, 2, 22, 9, 1, 23, 10])) (.leaf [25, 30, 47, 92, 68, 3, 0, 27, 7,
  24, 4, 28, 8, 2, 22, 9, 1, 23, 10])) (.leaf [25, 30, 47, 92, 68, 3, 0, 27, 7, 24, 4, 28, 8, 2,
  22, 9, 1, 23, 10])) (.leaf [25, 30, 47, 92, 68, 3, 0, 27, 7, 24, 4, 28, 8, 2, 22, 9, 1, 23, 10]))
  (.leaf [25, 30, 47, 92, 68, 3, 0, 27, 7, 24, 4, 28, 8, 2, 22, 9, 1, 23, 10])) (.leaf [25, 30, 47,
  92, 68, 3, 0, 27, 7, 24, 4, 28, 8, 2, 22, 9, 1, 23, 10])) (.leaf [25, 30, 47, 92, 68, 3, 0, 27,
  7, 24, 4, 28, 8, 2, 22, 9, 1, 23, 10])) (.leaf [25, 30, 47, 92, 68, 3, 0, 27, 7, 24, 4, 28, 8, 2,
  22, 9, 1, 23, 10])) (.leaf [25, 30, 47, 92, 68, 3, 0, 27, 7, 24, 4, 28, 8, 2, 22, 9, 1, 23, 10]))
  (.leaf [25, 30, 47, 92, 68, 3, 0, 27, 7, 24, 4, 28, 8, 2, 22, 9, 1, 23, 10])) (.leaf [25, 30, 47,
  92, 68, 3, 0, 27, 7, 24, 4, 28, 8, 2, 22, 9, 1, 23, 10])) (.leaf [25, 30, 47, 92, 68, 3, 0, 27,
  7, 24, 4, 28, 8, 2, 22, 9, 1, 23, 10])) (.leaf [25, 30, 47, 92, 68, 3, 0, 27, 7, 24, 4, 28, 8, 2,
  22, 9, 1, 23, 10])) (.leaf [25, 30, 47, 92, 68, 3, 0, 27, 7, 24, 4, 28, 8, 2, 22, 9, 1, 23, 10]))
  (.leaf [25, 30, 47, 92, 68, 3, 0, 27, 7, 24, 4, 28, 8, 2, 22, 9, 1, 23, 10])

/-- some of the cases -/
def real5OneCase169 : LooseTree :=
  .cases [] 4 (.breaks 10502226 (.breaks 10526913 (.breaks 17879237 (.breaks 24211649 (.breaks
  25264209 (.breaks 4210881 (.breaks 10526737 (.breaks 13684817 (.breaks 24211473 (.breaks 4210705
  (.breaks 10526753 (.breaks 24211489 (.breaks 4210721 (.breaks 10526721 (.breaks 24211457 (.breaks
  4210689 (.leaf [25, 92, 50, 68, 29, 3, 30, 7, 24, 11, 4, 0, 8, 12, 2, 9, 5, 1, 10, 6]) (.leaf
  [25, 92, 50, 68, 29, 3, 30, 7, 24, 11, 4, 0, 8, 12, 2, 9, 5, 1, 10, 6])) (.leaf [25, 92, 50, 68,
  29, 3, 30, 7, 24, 11, 4, 0, 8, 12, 2, 9, 5, 1, 10, 6])) (.leaf [25, 92, 50, 68, 29, 3, 30, 7, 24,
  11, 4, 0, 8, 12, 2, 9, 5, 1, 10, 6])) (.leaf [25, 92, 50, 68, 29, 3, 30, 7, 24, 11, 4, 0, 8, 12,
  2, 9, 5, 1, 10, 6])) (.leaf [25, 92, 50, 68, 29, 3, 30, 7, 24, 11, 4, 0, 8, 12, 2, 9, 5, 1, 10,
  6])) (.leaf [25, 92, 50, 68, 29, 3, 30, 7, 24, 11, 4, 0, 8, 12, 2, 9, 5, 1, 10, 6])) (.leaf [25,
  92, 50, 68, 29, 3, 30, 7, 24, 11, 4, 0, 8, 12, 2, 9, 5, 1, 10, 6])) (.leaf [25, 92, 50, 68, 29,
  3, 30, 7, 24, 11, 4, 0, 8, 12, 2, 9, 5, 1, 10, 6])) (.leaf [25, 92, 50, 68, 29, 3, 30, 7, 24, 11,
  4, 0, 8, 12, 2, 9, 5, 1, 10, 6])) (.leaf [25, 92, 50, 68, 29, 3, 30, 7, 24, 11, 4, 0, 8, 12, 2,
  9, 5, 1, 10, 6])) (.leaf [25, 92, 50, 68, 29, 3, 30, 7, 24, 11, 4, 0, 8, 12, 2, 9, 5, 1, 10, 6]))
  (.leaf [25, 92, 50, 68, 29, 3, 30, 7, 24, 11, 4, 0, 8, 12, 2, 9, 5, 1, 10, 6])) (.leaf [25, 92,
  50, 68, 29, 3, 30, 7, 24, 11, 4, 0, 8, 12, 2, 9, 5, 1, 10, 6])) (.leaf [25, 92, 50, 68, 29, 3,
  30, 7, 24, 11, 4, 0, 8, 12, 2, 9, 5, 1, 10, 6])) (.leaf [25, 92, 50, 68, 29, 3, 30, 7, 24, 11, 4,
  0, 8, 12, 2, 9, 5, 1, 10, 6])) (.leaf [25, 92, 50, 68, 29, 3, 30, 7, 24, 11, 4, 0, 8, 12, 2, 9,
  5, 1, 10, 6])) (.breaks 21041234 (.breaks 26312901 (.breaks 4210881 (.breaks 4235346 (.breaks
  17879237 (.breaks 24211649 (.breaks 25264209 (.breaks 4210705 (.breaks 10526913 (.breaks 13684817
  (.breaks 24211473 (.breaks 4210721 (.breaks 10526737 (.breaks 24211489 (.breaks 4210689 (.breaks
  10526753 (.breaks 24211457 (.breaks 10526721 (.leaf [26, 92, 50, 68, 11, 38, 30, 7, 24, 12, 3, 0,
  8, 5, 4, 9, 6, 2, 10, 1]) (.leaf [26, 92, 50, 68, 11, 38, 30, 7, 24, 12, 3, 0, 8, 5, 4, 9, 6, 2,
  10, 1])) (.leaf [26, 92, 50, 68, 11, 38, 30, 7, 24, 12, 3, 0, 8, 5, 4, 9, 6, 2, 10, 1])) (.leaf
  [26, 92, 50, 68, 11, 38, 30, 7, 24, 12, 3, 0, 8, 5, 4, 9, 6, 2, 10, 1])) (.leaf [26, 92, 50, 68,
  11, 38, 30, 7, 24, 12, 3, 0, 8, 5, 4, 9, 6, 2, 10, 1])) (.leaf [26, 92, 50, 68, 11, 38, 30, 7,
  24, 12, 3, 0, 8, 5, 4, 9, 6, 2, 10, 1])) (.leaf [26, 92, 50, 68, 11, 38, 30, 7, 24, 12, 3, 0, 8,
  5, 4, 9, 6, 2, 10, 1])) (.leaf [26, 92, 50, 68, 11, 38, 30, 7, 24, 12, 3, 0, 8, 5, 4, 9, 6, 2,
  10, 1])) (.leaf [26, 92, 50, 68, 11, 38, 30, 7, 24, 12, 3, 0, 8, 5, 4, 9, 6, 2, 10, 1])) (.leaf
  [26, 92, 50, 68, 11, 38, 30, 7, 24, 12, 3, 0, 8, 5, 4, 9, 6, 2, 10, 1])) (.leaf [26, 92, 50, 68,
  11, 38, 30, 7, 24, 12, 3, 0, 8, 5, 4, 9, 6, 2, 10, 1])) (.leaf [26, 92, 50, 68, 11, 38, 30, 7,
  24, 12, 3, 0, 8, 5, 4, 9, 6, 2, 10, 1])) (.leaf [26, 92, 50, 68, 11, 38, 30, 7, 24, 12, 3, 0, 8,
  5, 4, 9, 6, 2, 10, 1])) (.leaf [26, 92, 50, 68, 11, 38, 30, 7, 24, 12, 3, 0, 8, 5, 4, 9, 6, 2,
  10, 1])) (.leaf [26, 92, 50, 68, 11, 38, 30, 7, 24, 12, 3, 0, 8, 5, 4, 9, 6, 2, 10, 1])) (.leaf
  [26, 92, 50, 68, 11, 38, 30, 7, 24, 12, 3, 0, 8, 5, 4, 9, 6, 2, 10, 1])) (.leaf [26, 92, 50, 68,
  11, 38, 30, 7, 24, 12, 3, 0, 8, 5, 4, 9, 6, 2, 10, 1])) (.leaf [26, 92, 50, 68, 11, 38, 30, 7,
  24, 12, 3, 0, 8, 5, 4, 9, 6, 2, 10, 1])) (.leaf [26, 30, 92, 68, 11, 38, 0, 7, 24, 12, 3, 8, 5,
  4, 9, 6, 2, 10, 1]))

/-- some of the cases -/
def real5OneCase170 : LooseTree :=
  .breaks 24170579 (.breaks 13725781 (.cycle 11 [137, 52]) (.leaf
  [25, 83, 29, 137, 7, 11, 0, 8, 12, 9, 5, 10, 6])) (.leaf
  [25, 83, 29, 137, 7, 11, 0, 8, 12, 9, 5, 10, 6])

/-- some of the cases -/
def real5OneCase171 : LooseTree :=
  .breaks 1089621 (.breaks 17879237 (.breaks 25260117 (.breaks 9474065 (.breaks 10502226 (.breaks
  13684817 (.breaks 24211649 (.breaks 4210881 (.breaks 9474177 (.breaks 24211473 (.breaks 4210705
  (.breaks 9474193 (.breaks 24211489 (.breaks 4210721 (.breaks 24211457 (.breaks 4210689 (.leaf
  [25, 61, 30, 83, 62, 29, 0, 7, 11, 55, 8, 12, 56, 9, 5, 10, 6]) (.leaf [25, 61, 30, 83, 62, 29,
  3, 0, 7, 11, 55, 4, 8, 12, 56, 2, 9, 5, 1, 10, 6])) (.leaf
  [25, 61, 30, 83, 62, 29, 0, 7, 11, 55, 8, 12, 56, 9, 5, 10, 6])) (.leaf [25, 61, 30, 83, 62, 29,
  3, 0, 7, 11, 55, 4, 8, 12, 56, 2, 9, 5, 1, 10, 6])) (.leaf
  [25, 61, 30, 83, 62, 29, 0, 7, 11, 55, 8, 12, 56, 9, 5, 10, 6])) (.leaf
  [25, 61, 30, 83, 62, 29, 0, 7, 11, 55, 8, 12, 56, 9, 5, 10, 6])) (.leaf [25, 61, 30, 83, 62, 29,
  3, 0, 7, 11, 55, 4, 8, 12, 56, 2, 9, 5, 1, 10, 6])) (.leaf
  [25, 61, 30, 83, 62, 29, 0, 7, 11, 55, 8, 12, 56, 9, 5, 10, 6])) (.leaf
  [25, 61, 30, 83, 62, 29, 0, 7, 11, 55, 8, 12, 56, 9, 5, 10, 6])) (.leaf [25, 61, 30, 83, 62, 29,
  3, 0, 7, 11, 55, 4, 8, 12, 56, 2, 9, 5, 1, 10, 6])) (.leaf
  [25, 61, 30, 83, 62, 29, 0, 7, 11, 55, 8, 12, 56, 9, 5, 10, 6])) (.leaf
  [25, 61, 30, 83, 62, 29, 0, 7, 11, 55, 8, 12, 56, 9, 5, 10, 6])) (.leaf [25, 61, 30, 83, 62, 29,
  3, 0, 7, 11, 55, 4, 8, 12, 56, 2, 9, 5, 1, 10, 6])) (.leaf
  [25, 128, 30, 83, 55, 29, 0, 7, 11, 56, 8, 12, 9, 5, 10, 6])) (.leaf
  [25, 61, 30, 83, 62, 29, 0, 7, 11, 55, 8, 12, 56, 9, 5, 10, 6])) (.leaf
  [25, 61, 30, 83, 62, 29, 0, 7, 11, 55, 8, 12, 56, 9, 5, 10, 6])) (.leaf [25, 61, 30, 83, 62, 29,
  3, 0, 7, 11, 55, 4, 8, 12, 56, 2, 9, 5, 1, 10, 6])

/-- some of the cases -/
def real5OneCase172 : LooseTree :=
  .breaks 1089621 (.breaks 25260117 (.breaks 10502226 (.breaks 10526913 (.breaks 13684817 (.breaks
  23158913 (.breaks 24211649 (.breaks 4210881 (.breaks 10526737 (.breaks 23158801 (.breaks 24211473
  (.breaks 4210705 (.breaks 10526753 (.breaks 24211489 (.breaks 4210721 (.breaks 10526721 (.breaks
  24211457 (.breaks 4210689 (.leaf [25, 30, 44, 83, 29, 3, 0, 45, 7, 11, 4, 37, 8, 12, 2, 9, 5, 1,
  10, 6]) (.leaf [25, 30, 44, 83, 29, 3, 0, 45, 7, 11, 4, 37, 8, 12, 2, 9, 5, 1, 10, 6])) (.leaf
  [25, 30, 44, 83, 29, 3, 0, 45, 7, 11, 4, 37, 8, 12, 2, 9, 5, 1, 10, 6])) (.leaf [25, 30, 44, 83,
  29, 3, 0, 45, 7, 11, 4, 37, 8, 12, 2, 9, 5, 1, 10, 6])) (.leaf [25, 30, 44, 83, 29, 3, 0, 45, 7,
  11, 4, 37, 8, 12, 2, 9, 5, 1, 10, 6])) (.leaf [25, 30, 44, 83, 29, 3, 0, 45, 7, 11, 4, 37, 8, 12,
  2, 9, 5, 1, 10, 6])) (.leaf [25, 30, 44, 83, 29, 3, 0, 45, 7, 11, 4, 37, 8, 12, 2, 9, 5, 1, 10,
  6])) (.leaf [25, 30, 44, 83, 29, 3, 0, 45, 7, 11, 4, 37, 8, 12, 2, 9, 5, 1, 10, 6])) (.leaf [25,
  30, 44, 83, 29, 3, 0, 45, 7, 11, 4, 37, 8, 12, 2, 9, 5, 1, 10, 6])) (.leaf [25, 30, 44, 83, 29,
  3, 0, 45, 7, 11, 4, 37, 8, 12, 2, 9, 5, 1, 10, 6])) (.leaf [25, 30, 44, 83, 29, 3, 0, 45, 7, 11,
  4, 37, 8, 12, 2, 9, 5, 1, 10, 6])) (.leaf [25, 30, 44, 83, 29, 3, 0, 45, 7, 11, 4, 37, 8, 12, 2,
  9, 5, 1, 10, 6])) (.leaf [25, 30, 44, 83, 29, 3, 0, 45, 7, 11, 4, 37, 8, 12, 2, 9, 5, 1, 10, 6]))
  (.leaf [25, 30, 44, 83, 29, 3, 0, 45, 7, 11, 4, 37, 8, 12, 2, 9, 5, 1, 10, 6])) (.leaf [25, 30,
  44, 83, 29, 3, 0, 45, 7, 11, 4, 37, 8, 12, 2, 9, 5, 1, 10, 6])) (.leaf [25, 30, 44, 83, 29, 3, 0,
  45, 7, 11, 4, 37, 8, 12, 2, 9, 5, 1, 10, 6])) (.leaf [25, 30, 44, 83, 29, 3, 0, 45, 7, 11, 4, 37,
  8, 12, 2, 9, 5, 1, 10, 6])) (.leaf [25, 30, 44, 83, 29, 3, 0, 45, 7, 11, 4, 37, 8, 12, 2, 9, 5,
  1, 10, 6])) (.leaf [25, 30, 44, 83, 29, 0, 45, 7, 100, 11, 37, 8, 40, 12, 9, 41, 5, 10, 42, 6,
  43])

/-- some of the cases -/
def real5OneCase173 : LooseTree :=
  .breaks 1089621 (.breaks 25260117 (.breaks 10502226 (.breaks 10526913 (.breaks 13684817 (.breaks
  24211649 (.breaks 24219730 (.breaks 4210881 (.breaks 10526737 (.breaks 24211473 (.breaks 26316993
  (.breaks 4210705 (.breaks 10526753 (.breaks 24211489 (.breaks 26316817 (.breaks 4210721 (.breaks
  10526721 (.breaks 24211457 (.breaks 26316833 (.breaks 4210689 (.breaks 26316801 (.leaf [25, 30,
  83, 29, 3, 0, 7, 100, 11, 4, 8, 40, 12, 2, 9, 41, 5, 1, 10, 42, 6, 43]) (.leaf [25, 30, 83, 29,
  3, 0, 7, 100, 11, 4, 8, 40, 12, 2, 9, 41, 5, 1, 10, 42, 6, 43])) (.leaf [25, 30, 83, 29, 3, 0, 7,
  100, 11, 4, 8, 40, 12, 2, 9, 41, 5, 1, 10, 42, 6, 43])) (.leaf [25, 30, 83, 29, 3, 0, 7, 100, 11,
  4, 8, 40, 12, 2, 9, 41, 5, 1, 10, 42, 6, 43])) (.leaf [25, 30, 83, 29, 3, 0, 7, 100, 11, 4, 8,
  40, 12, 2, 9, 41, 5, 1, 10, 42, 6, 43])) (.leaf [25, 30, 83, 29, 3, 0, 7, 100, 11, 4, 8, 40, 12,
  2, 9, 41, 5, 1, 10, 42, 6, 43])) (.leaf [25, 30, 83, 29, 3, 0, 7, 100, 11, 4, 8, 40, 12, 2, 9,
  41, 5, 1, 10, 42, 6, 43])) (.leaf [25, 30, 83, 29, 3, 0, 7, 100, 11, 4, 8, 40, 12, 2, 9, 41, 5,
  1, 10, 42, 6, 43])) (.leaf [25, 30, 83, 29, 3, 0, 7, 100, 11, 4, 8, 40, 12, 2, 9, 41, 5, 1, 10,
  42, 6, 43])) (.leaf [25, 30, 83, 29, 3, 0, 7, 100, 11, 4, 8, 40, 12, 2, 9, 41, 5, 1, 10, 42, 6,
  43])) (.leaf [25, 30, 83, 29, 3, 0, 7, 100, 11, 4, 8, 40, 12, 2, 9, 41, 5, 1, 10, 42, 6, 43]))
  (.leaf [25, 30, 83, 29, 3, 0, 7, 100, 11, 4, 8, 40, 12, 2, 9, 41, 5, 1, 10, 42, 6, 43])) (.leaf
  [25, 30, 83, 29, 3, 0, 7, 100, 11, 4, 8, 40, 12, 2, 9, 41, 5, 1, 10, 42, 6, 43])) (.leaf [25, 30,
  83, 29, 3, 0, 7, 100, 11, 4, 8, 40, 12, 2, 9, 41, 5, 1, 10, 42, 6, 43])) (.leaf [25, 30, 83, 29,
  3, 0, 7, 100, 11, 4, 8, 40, 12, 2, 9, 41, 5, 1, 10, 42, 6, 43])) (.leaf [25, 30, 83, 29, 3, 0, 7,
  100, 11, 4, 8, 40, 12, 2, 9, 41, 5, 1, 10, 42, 6, 43])) (.leaf [25, 30, 83, 29, 3, 0, 7, 100, 11,
  4, 8, 40, 12, 2, 9, 41, 5, 1, 10, 42, 6, 43])) (.leaf [25, 30, 83, 29, 3, 0, 7, 100, 11, 4, 8,
  40, 12, 2, 9, 41, 5, 1, 10, 42, 6, 43])) (.leaf [25, 30, 83, 29, 3, 0, 7, 100, 11, 4, 8, 40, 12,
  2, 9, 41, 5, 1, 10, 42, 6, 43])) (.leaf [25, 30, 83, 29, 3, 0, 7, 100, 11, 4, 8, 40, 12, 2, 9,
  41, 5, 1, 10, 42, 6, 43])) (.leaf [25, 30, 48, 83, 29, 3, 0, 35, 7, 100, 11, 4, 36, 8, 40, 12, 2,
  9, 41, 5, 1, 10, 42, 6, 43])) (.leaf [25, 30, 48, 83, 29, 3, 0, 35, 7, 100, 11, 4, 36, 8, 40, 12,
  2, 9, 41, 5, 1, 10, 42, 6, 43])

/-- some of the cases -/
def real5OneCase174 : LooseTree :=
  .cases [] 9 (.breaks 10526913 (.breaks 13684817 (.breaks 23158913 (.breaks 24211649 (.breaks
  4210881 (.breaks 10526737 (.breaks 23158801 (.breaks 24211473 (.breaks 4210705 (.breaks 10526753
  (.breaks 24211489 (.breaks 4210721 (.breaks 10526721 (.breaks 24211457 (.breaks 4210689 (.leaf
  [25, 30, 44, 132, 29, 3, 0, 45, 7, 11, 4, 37, 8, 12, 2, 9, 5, 1, 10, 6]) (.leaf [25, 30, 44, 132,
  29, 3, 0, 45, 7, 11, 4, 37, 8, 12, 2, 9, 5, 1, 10, 6])) (.leaf [25, 30, 44, 132, 29, 3, 0, 45, 7,
  11, 4, 37, 8, 12, 2, 9, 5, 1, 10, 6])) (.leaf [25, 30, 44, 132, 29, 3, 0, 45, 7, 11, 4, 37, 8,
  12, 2, 9, 5, 1, 10, 6])) (.leaf [25, 30, 44, 132, 29, 3, 0, 45, 7, 11, 4, 37, 8, 12, 2, 9, 5, 1,
  10, 6])) (.leaf [25, 30, 44, 132, 29, 3, 0, 45, 7, 11, 4, 37, 8, 12, 2, 9, 5, 1, 10, 6])) (.leaf
  [25, 30, 44, 132, 29, 3, 0, 45, 7, 11, 4, 37, 8, 12, 2, 9, 5, 1, 10, 6])) (.leaf [25, 30, 44,
  132, 29, 3, 0, 45, 7, 11, 4, 37, 8, 12, 2, 9, 5, 1, 10, 6])) (.leaf [25, 30, 44, 132, 29, 3, 0,
  45, 7, 11, 4, 37, 8, 12, 2, 9, 5, 1, 10, 6])) (.leaf [25, 30, 44, 132, 29, 3, 0, 45, 7, 11, 4,
  37, 8, 12, 2, 9, 5, 1, 10, 6])) (.leaf [25, 30, 44, 132, 29, 3, 0, 45, 7, 11, 4, 37, 8, 12, 2, 9,
  5, 1, 10, 6])) (.leaf [25, 30, 44, 132, 29, 3, 0, 45, 7, 11, 4, 37, 8, 12, 2, 9, 5, 1, 10, 6]))
  (.leaf [25, 30, 44, 132, 29, 3, 0, 45, 7, 11, 4, 37, 8, 12, 2, 9, 5, 1, 10, 6])) (.leaf [25, 30,
  44, 132, 29, 3, 0, 45, 7, 11, 4, 37, 8, 12, 2, 9, 5, 1, 10, 6])) (.leaf [25, 30, 44, 132, 29, 3,
  0, 45, 7, 11, 4, 37, 8, 12, 2, 9, 5, 1, 10, 6])) (.leaf [25, 30, 44, 132, 29, 3, 0, 45, 7, 11, 4,
  37, 8, 12, 2, 9, 5, 1, 10, 6])) (.cases [] 38 (.cycle 43 [173, 174, 106]) (.breaks 1089621
  (.breaks 26308706 (.breaks 10502226 (.breaks 10526913 (.breaks 13684817 (.breaks 24211537
  (.breaks 4210881 (.breaks 10526737 (.breaks 24211649 (.breaks 4210705 (.breaks 10526753 (.breaks
  24211473 (.breaks 4210721 (.breaks 10526721 (.breaks 24211489 (.breaks 4210689 (.breaks 24211457
  (.leaf [25, 30, 109, 29, 3, 0, 20, 11, 4, 7, 12, 2, 8, 5, 1, 9, 6, 10]) (.leaf [25, 30, 109, 29,
  3, 0, 20, 11, 4, 7, 12, 2, 8, 5, 1, 9, 6, 10])) (.leaf [25, 30, 48, 109, 29, 3, 0, 35, 20, 11, 4,
  36, 7, 12, 2, 8, 5, 1, 9, 6, 10])) (.leaf [25, 30, 109, 29, 3, 0, 20, 11, 4, 7, 12, 2, 8, 5, 1,
  9, 6, 10])) (.leaf [25, 30, 109, 29, 3, 0, 20, 11, 4, 7, 12, 2, 8, 5, 1, 9, 6, 10])) (.leaf [25,
  30, 48, 109, 29, 3, 0, 35, 20, 11, 4, 36, 7, 12, 2, 8, 5, 1, 9, 6, 10])) (.leaf [25, 30, 109, 29,
  3, 0, 20, 11, 4, 7, 12, 2, 8, 5, 1, 9, 6, 10])) (.leaf [25, 30, 109, 29, 3, 0, 20, 11, 4, 7, 12,
  2, 8, 5, 1, 9, 6, 10])) (.leaf [25, 30, 48, 109, 29, 3, 0, 35, 20, 11, 4, 36, 7, 12, 2, 8, 5, 1,
  9, 6, 10])) (.leaf [25, 30, 109, 29, 3, 0, 20, 11, 4, 7, 12, 2, 8, 5, 1, 9, 6, 10])) (.leaf [25,
  30, 109, 29, 3, 0, 20, 11, 4, 7, 12, 2, 8, 5, 1, 9, 6, 10])) (.leaf [25, 30, 48, 109, 29, 3, 0,
  35, 20, 11, 4, 36, 7, 12, 2, 8, 5, 1, 9, 6, 10])) (.leaf [25, 30, 109, 29, 3, 0, 20, 11, 4, 7,
  12, 2, 8, 5, 1, 9, 6, 10])) (.leaf [25, 30, 109, 29, 3, 0, 20, 11, 4, 7, 12, 2, 8, 5, 1, 9, 6,
  10])) (.leaf [25, 30, 109, 29, 3, 0, 20, 11, 4, 7, 12, 2, 8, 5, 1, 9, 6, 10])) (.leaf [25, 30,
  48, 109, 29, 3, 0, 35, 20, 11, 4, 36, 7, 12, 2, 8, 5, 1, 9, 6, 10])) (.leaf [25, 30, 109, 29, 3,
  0, 20, 11, 4, 7, 12, 2, 8, 5, 1, 9, 6, 10])) (.leaf [25, 30, 48, 109, 29, 3, 0, 35, 20, 11, 4,
  36, 7, 12, 2, 8, 5, 1, 9, 6, 10])))

/-- some of the cases -/
def real5OneCase175 : LooseTree :=
  .breaks 1089621 (.breaks 17879237 (.breaks 22097938 (.breaks 25260117 (.breaks 10502226 (.breaks
  13684817 (.breaks 20000897 (.breaks 24211649 (.breaks 4210881 (.breaks 20000945 (.breaks 24211473
  (.breaks 4210705 (.breaks 20000929 (.breaks 24211489 (.breaks 4210721 (.breaks 24211457 (.breaks
  4210689 (.leaf [25, 30, 71, 83, 29, 0, 51, 7, 11, 35, 8, 12, 36, 9, 5, 10, 6]) (.leaf [25, 30,
  71, 83, 29, 3, 0, 51, 7, 11, 4, 35, 8, 12, 2, 36, 9, 5, 1, 10, 6])) (.leaf [25, 30, 71, 83, 29,
  3, 0, 51, 7, 11, 4, 35, 8, 12, 2, 36, 9, 5, 1, 10, 6])) (.leaf [25, 30, 71, 83, 29, 3, 0, 51, 7,
  11, 4, 35, 8, 12, 2, 36, 9, 5, 1, 10, 6])) (.leaf [25, 30, 71, 83, 29, 3, 0, 51, 7, 11, 4, 35, 8,
  12, 2, 36, 9, 5, 1, 10, 6])) (.leaf [25, 30, 71, 83, 29, 3, 0, 51, 7, 11, 4, 35, 8, 12, 2, 36, 9,
  5, 1, 10, 6])) (.leaf [25, 30, 71, 83, 29, 3, 0, 51, 7, 11, 4, 35, 8, 12, 2, 36, 9, 5, 1, 10,
  6])) (.leaf [25, 30, 71, 83, 29, 3, 0, 51, 7, 11, 4, 35, 8, 12, 2, 36, 9, 5, 1, 10, 6])) (.leaf
  [25, 30, 71, 83, 29, 3, 0, 51, 7, 11, 4, 35, 8, 12, 2, 36, 9, 5, 1, 10, 6])) (.leaf [25, 30, 71,
  83, 29, 3, 0, 51, 7, 11, 4, 35, 8, 12, 2, 36, 9, 5, 1, 10, 6])) (.leaf [25, 30, 71, 83, 29, 3, 0,
  51, 7, 11, 4, 35, 8, 12, 2, 36, 9, 5, 1, 10, 6])) (.leaf [25, 30, 71, 83, 29, 3, 0, 51, 7, 11, 4,
  35, 8, 12, 2, 36, 9, 5, 1, 10, 6])) (.leaf [25, 30, 71, 83, 29, 3, 0, 51, 7, 11, 4, 35, 8, 12, 2,
  36, 9, 5, 1, 10, 6])) (.leaf [25, 30, 71, 83, 29, 3, 0, 51, 7, 11, 4, 35, 8, 12, 2, 36, 9, 5, 1,
  10, 6])) (.leaf [25, 30, 71, 83, 29, 3, 0, 51, 7, 11, 4, 35, 8, 12, 2, 36, 9, 5, 1, 10, 6]))
  (.leaf [25, 30, 71, 83, 29, 3, 0, 51, 7, 11, 4, 35, 8, 12, 2, 36, 9, 5, 1, 10, 6])) (.leaf [25,
  30, 71, 83, 29, 3, 0, 51, 7, 11, 4, 35, 8, 12, 2, 36, 9, 5, 1, 10, 6])) (.leaf [25, 30, 71, 83,
  29, 3, 0, 51, 7, 11, 4, 35, 8, 12, 2, 36, 9, 5, 1, 10, 6])

/-- some of the cases -/
def real5OneCase176 : LooseTree :=
  .breaks 24170579 (.breaks 13725781 (.cycle 11 [137, 52]) (.leaf
  [26, 83, 38, 137, 7, 3, 0, 8, 4, 9, 2, 10, 1])) (.leaf
  [26, 83, 38, 137, 7, 3, 0, 8, 4, 9, 2, 10, 1])

/-- some of the cases -/
def real5OneCase177 : LooseTree :=
  .breaks 17879237 (.breaks 25260117 (.breaks 4235346 (.breaks 9474065 (.breaks 13684817 (.breaks
  24211649 (.breaks 9474177 (.breaks 10526913 (.breaks 24211473 (.breaks 9474193 (.breaks 10526737
  (.breaks 24211489 (.breaks 10526753 (.breaks 24211457 (.breaks 10526721 (.leaf
  [26, 61, 30, 83, 38, 62, 0, 7, 55, 3, 8, 56, 4, 9, 2, 10, 1]) (.leaf
  [26, 61, 30, 83, 38, 62, 0, 7, 55, 3, 8, 56, 4, 9, 2, 10, 1])) (.leaf
  [26, 61, 30, 83, 38, 62, 0, 7, 55, 3, 8, 56, 4, 9, 2, 10, 1])) (.leaf
  [26, 61, 30, 83, 38, 62, 0, 7, 55, 3, 8, 56, 4, 9, 2, 10, 1])) (.leaf
  [26, 61, 30, 83, 38, 62, 0, 7, 55, 3, 8, 56, 4, 9, 2, 10, 1])) (.leaf
  [26, 61, 30, 83, 38, 62, 0, 7, 55, 3, 8, 56, 4, 9, 2, 10, 1])) (.leaf
  [26, 61, 30, 83, 38, 62, 0, 7, 55, 3, 8, 56, 4, 9, 2, 10, 1])) (.leaf
  [26, 61, 30, 83, 38, 62, 0, 7, 55, 3, 8, 56, 4, 9, 2, 10, 1])) (.leaf
  [26, 61, 30, 83, 38, 62, 0, 7, 55, 3, 8, 56, 4, 9, 2, 10, 1])) (.leaf
  [26, 61, 30, 83, 38, 62, 0, 7, 55, 3, 8, 56, 4, 9, 2, 10, 1])) (.leaf
  [26, 61, 30, 83, 38, 62, 0, 7, 55, 3, 8, 56, 4, 9, 2, 10, 1])) (.leaf
  [26, 61, 30, 83, 38, 62, 0, 7, 55, 3, 8, 56, 4, 9, 2, 10, 1])) (.leaf
  [26, 128, 30, 83, 38, 55, 0, 7, 56, 3, 8, 4, 9, 2, 10, 1])) (.leaf
  [26, 61, 30, 83, 38, 62, 0, 7, 55, 3, 8, 56, 4, 9, 2, 10, 1])) (.leaf
  [26, 61, 30, 83, 38, 62, 0, 7, 55, 3, 8, 56, 4, 9, 2, 10, 1])) (.leaf
  [26, 61, 30, 83, 38, 62, 0, 7, 55, 3, 8, 56, 4, 9, 2, 10, 1])

/-- some of the cases -/
def real5OneCase178 : LooseTree :=
  .breaks 20013237 (.breaks 25260117 (.breaks 4235346 (.breaks 13684817 (.breaks 23158913 (.breaks
  24211649 (.breaks 24219730 (.breaks 10526913 (.breaks 23158801 (.breaks 24211473 (.breaks
  26316993 (.breaks 10526737 (.breaks 24211489 (.breaks 26316817 (.breaks 10526753 (.breaks
  24211457 (.breaks 26316833 (.breaks 10526721 (.breaks 26316801 (.leaf [26, 30, 44, 83, 38, 0, 45,
  7, 100, 3, 37, 8, 40, 4, 9, 41, 2, 10, 42, 1, 43]) (.leaf [26, 30, 44, 83, 38, 0, 45, 7, 100, 3,
  37, 8, 40, 4, 9, 41, 2, 10, 42, 1, 43])) (.leaf [26, 30, 44, 83, 38, 0, 45, 7, 100, 3, 37, 8, 40,
  4, 9, 41, 2, 10, 42, 1, 43])) (.leaf [26, 30, 44, 83, 38, 0, 45, 7, 100, 3, 37, 8, 40, 4, 9, 41,
  2, 10, 42, 1, 43])) (.leaf [26, 30, 44, 83, 38, 0, 45, 7, 100, 3, 37, 8, 40, 4, 9, 41, 2, 10, 42,
  1, 43])) (.leaf [26, 30, 44, 83, 38, 0, 45, 7, 100, 3, 37, 8, 40, 4, 9, 41, 2, 10, 42, 1, 43]))
  (.leaf [26, 30, 44, 83, 38, 0, 45, 7, 100, 3, 37, 8, 40, 4, 9, 41, 2, 10, 42, 1, 43])) (.leaf
  [26, 30, 44, 83, 38, 0, 45, 7, 100, 3, 37, 8, 40, 4, 9, 41, 2, 10, 42, 1, 43])) (.leaf [26, 30,
  44, 83, 38, 0, 45, 7, 100, 3, 37, 8, 40, 4, 9, 41, 2, 10, 42, 1, 43])) (.leaf [26, 30, 44, 83,
  38, 0, 45, 7, 100, 3, 37, 8, 40, 4, 9, 41, 2, 10, 42, 1, 43])) (.leaf [26, 30, 44, 83, 38, 0, 45,
  7, 100, 3, 37, 8, 40, 4, 9, 41, 2, 10, 42, 1, 43])) (.leaf [26, 30, 44, 83, 38, 0, 45, 7, 100, 3,
  37, 8, 40, 4, 9, 41, 2, 10, 42, 1, 43])) (.leaf [26, 30, 44, 83, 38, 0, 45, 7, 100, 3, 37, 8, 40,
  4, 9, 41, 2, 10, 42, 1, 43])) (.leaf [26, 30, 44, 83, 38, 0, 45, 7, 100, 3, 37, 8, 40, 4, 9, 41,
  2, 10, 42, 1, 43])) (.leaf [26, 30, 44, 83, 38, 0, 45, 7, 100, 3, 37, 8, 40, 4, 9, 41, 2, 10, 42,
  1, 43])) (.leaf [26, 30, 44, 83, 38, 0, 45, 7, 100, 3, 37, 8, 40, 4, 9, 41, 2, 10, 42, 1, 43]))
  (.leaf [26, 30, 44, 83, 38, 0, 45, 7, 100, 3, 37, 8, 40, 4, 9, 41, 2, 10, 42, 1, 43])) (.leaf
  [26, 30, 44, 83, 38, 0, 45, 7, 100, 3, 37, 8, 40, 4, 9, 41, 2, 10, 42, 1, 43])) (.leaf [26, 30,
  44, 83, 38, 0, 45, 7, 100, 3, 37, 8, 40, 4, 9, 41, 2, 10, 42, 1, 43])) (.leaf [26, 30, 44, 83,
  38, 0, 45, 7, 100, 3, 37, 8, 40, 4, 9, 41, 2, 10, 42, 1, 43])

/-- some of the cases -/
def real5OneCase179 : LooseTree :=
  .breaks 25260117 (.breaks 4235346 (.breaks 13684817 (.breaks 21053633 (.breaks 24211649 (.breaks
  24219730 (.breaks 10526913 (.breaks 21053457 (.breaks 24211473 (.breaks 26316993 (.breaks
  10526737 (.breaks 21053473 (.breaks 24211489 (.breaks 26316817 (.breaks 10526753 (.breaks
  21053441 (.breaks 24211457 (.breaks 26316833 (.breaks 10526721 (.breaks 26316801 (.leaf [26, 30,
  47, 83, 38, 0, 27, 7, 100, 3, 28, 8, 40, 4, 22, 9, 41, 2, 23, 10, 42, 1, 43]) (.leaf [26, 30, 47,
  83, 38, 0, 27, 7, 100, 3, 28, 8, 40, 4, 22, 9, 41, 2, 23, 10, 42, 1, 43])) (.leaf [26, 30, 47,
  83, 38, 0, 27, 7, 100, 3, 28, 8, 40, 4, 22, 9, 41, 2, 23, 10, 42, 1, 43])) (.leaf [26, 30, 47,
  83, 38, 0, 27, 7, 100, 3, 28, 8, 40, 4, 22, 9, 41, 2, 23, 10, 42, 1, 43])) (.leaf [26, 30, 47,
  83, 38, 0, 27, 7, 100, 3, 28, 8, 40, 4, 22, 9, 41, 2, 23, 10, 42, 1, 43])) (.leaf [26, 30, 47,
  83, 38, 0, 27, 7, 100, 3, 28, 8, 40, 4, 22, 9, 41, 2, 23, 10, 42, 1, 43])) (.leaf [26, 30, 47,
  83, 38, 0, 27, 7, 100, 3, 28, 8, 40, 4, 22, 9, 41, 2, 23, 10, 42, 1, 43])) (.leaf [26, 30, 47,
  83, 38, 0, 27, 7, 100, 3, 28, 8, 40, 4, 22, 9, 41, 2, 23, 10, 42, 1, 43])) (.leaf [26, 30, 47,
  83, 38, 0, 27, 7, 100, 3, 28, 8, 40, 4, 22, 9, 41, 2, 23, 10, 42, 1, 43])) (.leaf [26, 30, 47,
  83, 38, 0, 27, 7, 100, 3, 28, 8, 40, 4, 22, 9, 41, 2, 23, 10, 42, 1, 43])) (.leaf [26, 30, 47,
  83, 38, 0, 27, 7, 100, 3, 28, 8, 40, 4, 22, 9, 41, 2, 23, 10, 42, 1, 43])) (.leaf [26, 30, 47,
  83, 38, 0, 27, 7, 100, 3, 28, 8, 40, 4, 22, 9, 41, 2, 23, 10, 42, 1, 43])) (.leaf [26, 30, 47,
  83, 38, 0, 27, 7, 100, 3, 28, 8, 40, 4, 22, 9, 41, 2, 23, 10, 42, 1, 43])) (.leaf [26, 30, 47,
  83, 38, 0, 27, 7, 100, 3, 28, 8, 40, 4, 22, 9, 41, 2, 23, 10, 42, 1, 43])) (.leaf [26, 30, 47,
  83, 38, 0, 27, 7, 100, 3, 28, 8, 40, 4, 22, 9, 41, 2, 23, 10, 42, 1, 43])) (.leaf [26, 30, 47,
  83, 38, 0, 27, 7, 100, 3, 28, 8, 40, 4, 22, 9, 41, 2, 23, 10, 42, 1, 43])) (.leaf [26, 30, 47,
  83, 38, 0, 27, 7, 100, 3, 28, 8, 40, 4, 22, 9, 41, 2, 23, 10, 42, 1, 43])) (.leaf [26, 30, 47,
  83, 38, 0, 27, 7, 100, 3, 28, 8, 40, 4, 22, 9, 41, 2, 23, 10, 42, 1, 43])) (.leaf [26, 30, 47,
  83, 38, 0, 27, 7, 100, 3, 28, 8, 40, 4, 22, 9, 41, 2, 23, 10, 42, 1, 43])) (.leaf [26, 30, 47,
  83, 38, 0, 27, 7, 100, 3, 28, 8, 40, 4, 22, 9, 41, 2, 23, 10, 42, 1, 43])) (.leaf [26, 30, 47,
  83, 38, 0, 27, 7, 100, 3, 28, 8, 40, 4, 22, 9, 41, 2, 23, 10, 42, 1, 43])

/-- some of the cases -/
def real5OneCase180 : LooseTree :=
  .breaks 1065045 (.breaks 21041234 (.breaks 25260117 (.breaks 4210881 (.breaks 4235346 (.breaks
  17879237 (.breaks 24211649 (.breaks 24219730 (.breaks 4210705 (.breaks 10526913 (.breaks 13684817
  (.breaks 24211473 (.breaks 26316993 (.breaks 4210721 (.breaks 10526737 (.breaks 24211489 (.breaks
  26316817 (.breaks 4210689 (.breaks 10526753 (.breaks 24211457 (.breaks 26316833 (.breaks 10526721
  (.breaks 26316801 (.leaf [26, 50, 83, 11, 38, 30, 7, 100, 12, 3, 0, 8, 40, 5, 4, 9, 41, 6, 2, 10,
  42, 1, 43]) (.leaf [26, 50, 48, 83, 11, 38, 30, 35, 7, 100, 12, 3, 0, 36, 8, 40, 5, 4, 9, 41, 6,
  2, 10, 42, 1, 43])) (.leaf [26, 50, 48, 83, 11, 38, 30, 35, 7, 100, 12, 3, 0, 36, 8, 40, 5, 4, 9,
  41, 6, 2, 10, 42, 1, 43])) (.leaf [26, 50, 48, 83, 11, 38, 30, 35, 7, 100, 12, 3, 0, 36, 8, 40,
  5, 4, 9, 41, 6, 2, 10, 42, 1, 43])) (.leaf [26, 50, 48, 83, 11, 38, 30, 35, 7, 100, 12, 3, 0, 36,
  8, 40, 5, 4, 9, 41, 6, 2, 10, 42, 1, 43])) (.leaf [26, 50, 48, 83, 11, 38, 30, 35, 7, 100, 12, 3,
  0, 36, 8, 40, 5, 4, 9, 41, 6, 2, 10, 42, 1, 43])) (.leaf [26, 50, 48, 83, 11, 38, 30, 35, 7, 100,
  12, 3, 0, 36, 8, 40, 5, 4, 9, 41, 6, 2, 10, 42, 1, 43])) (.leaf [26, 50, 48, 83, 11, 38, 30, 35,
  7, 100, 12, 3, 0, 36, 8, 40, 5, 4, 9, 41, 6, 2, 10, 42, 1, 43])) (.leaf [26, 50, 48, 83, 11, 38,
  30, 35, 7, 100, 12, 3, 0, 36, 8, 40, 5, 4, 9, 41, 6, 2, 10, 42, 1, 43])) (.leaf [26, 50, 48, 83,
  11, 38, 30, 35, 7, 100, 12, 3, 0, 36, 8, 40, 5, 4, 9, 41, 6, 2, 10, 42, 1, 43])) (.leaf [26, 50,
  48, 83, 11, 38, 30, 35, 7, 100, 12, 3, 0, 36, 8, 40, 5, 4, 9, 41, 6, 2, 10, 42, 1, 43])) (.leaf
  [26, 50, 48, 83, 11, 38, 30, 35, 7, 100, 12, 3, 0, 36, 8, 40, 5, 4, 9, 41, 6, 2, 10, 42, 1, 43]))
  (.leaf [26, 50, 48, 83, 11, 38, 30, 35, 7, 100, 12, 3, 0, 36, 8, 40, 5, 4, 9, 41, 6, 2, 10, 42,
  1, 43])) (.leaf [26, 50, 48, 83, 11, 38, 30, 35, 7, 100, 12, 3, 0, 36, 8, 40, 5, 4, 9, 41, 6, 2,
  10, 42, 1, 43])) (.leaf [26, 50, 48, 83, 11, 38, 30, 35, 7, 100, 12, 3, 0, 36, 8, 40, 5, 4, 9,
  41, 6, 2, 10, 42, 1, 43])) (.leaf [26, 50, 48, 83, 11, 38, 30, 35, 7, 100, 12, 3, 0, 36, 8, 40,
  5, 4, 9, 41, 6, 2, 10, 42, 1, 43])) (.leaf [26, 50, 48, 83, 11, 38, 30, 35, 7, 100, 12, 3, 0, 36,
  8, 40, 5, 4, 9, 41, 6, 2, 10, 42, 1, 43])) (.leaf [26, 50, 48, 83, 11, 38, 30, 35, 7, 100, 12, 3,
  0, 36, 8, 40, 5, 4, 9, 41, 6, 2, 10, 42, 1, 43])) (.leaf [26, 50, 48, 83, 11, 38, 30, 35, 7, 100,
  12, 3, 0, 36, 8, 40, 5, 4, 9, 41, 6, 2, 10, 42, 1, 43])) (.leaf [26, 50, 48, 83, 11, 38, 30, 35,
  7, 100, 12, 3, 0, 36, 8, 40, 5, 4, 9, 41, 6, 2, 10, 42, 1, 43])) (.leaf [26, 50, 48, 83, 11, 38,
  30, 35, 7, 100, 12, 3, 0, 36, 8, 40, 5, 4, 9, 41, 6, 2, 10, 42, 1, 43])) (.leaf [26, 50, 48, 83,
  11, 38, 30, 35, 7, 100, 12, 3, 0, 36, 8, 40, 5, 4, 9, 41, 6, 2, 10, 42, 1, 43])) (.leaf [26, 30,
  48, 83, 11, 38, 0, 35, 7, 100, 12, 3, 36, 8, 40, 5, 4, 9, 41, 6, 2, 10, 42, 1, 43])) (.leaf [26,
  50, 48, 83, 11, 38, 30, 35, 7, 100, 12, 3, 0, 36, 8, 40, 5, 4, 9, 41, 6, 2, 10, 42, 1, 43])

/-- some of the cases -/
def real5OneCase181 : LooseTree :=
  .breaks 20013237 (.breaks 26308706 (.breaks 4235346 (.breaks 13684817 (.breaks 23158913 (.breaks
  24211537 (.breaks 10526913 (.breaks 23158801 (.breaks 24211649 (.breaks 10526737 (.breaks
  24211473 (.breaks 10526753 (.breaks 24211489 (.breaks 10526721 (.breaks 24211457 (.leaf
  [26, 30, 44, 109, 38, 0, 45, 20, 3, 37, 7, 4, 8, 2, 9, 1, 10]) (.leaf
  [26, 30, 44, 109, 38, 0, 45, 20, 3, 37, 7, 4, 8, 2, 9, 1, 10])) (.leaf
  [26, 30, 44, 109, 38, 0, 45, 20, 3, 37, 7, 4, 8, 2, 9, 1, 10])) (.leaf
  [26, 30, 44, 109, 38, 0, 45, 20, 3, 37, 7, 4, 8, 2, 9, 1, 10])) (.leaf
  [26, 30, 44, 109, 38, 0, 45, 20, 3, 37, 7, 4, 8, 2, 9, 1, 10])) (.leaf
  [26, 30, 44, 109, 38, 0, 45, 20, 3, 37, 7, 4, 8, 2, 9, 1, 10])) (.leaf
  [26, 30, 44, 109, 38, 0, 45, 20, 3, 37, 7, 4, 8, 2, 9, 1, 10])) (.leaf
  [26, 30, 44, 109, 38, 0, 45, 20, 3, 37, 7, 4, 8, 2, 9, 1, 10])) (.leaf
  [26, 30, 44, 109, 38, 0, 45, 20, 3, 37, 7, 4, 8, 2, 9, 1, 10])) (.leaf
  [26, 30, 44, 109, 38, 0, 45, 20, 3, 37, 7, 4, 8, 2, 9, 1, 10])) (.leaf
  [26, 30, 44, 109, 38, 0, 45, 20, 3, 37, 7, 4, 8, 2, 9, 1, 10])) (.leaf
  [26, 30, 44, 109, 38, 0, 45, 20, 3, 37, 7, 4, 8, 2, 9, 1, 10])) (.leaf
  [26, 30, 44, 109, 38, 0, 45, 20, 3, 37, 7, 4, 8, 2, 9, 1, 10])) (.leaf
  [26, 30, 44, 109, 38, 0, 45, 20, 3, 37, 7, 4, 8, 2, 9, 1, 10])) (.leaf
  [26, 30, 44, 109, 38, 0, 45, 20, 3, 37, 7, 4, 8, 2, 9, 1, 10])) (.leaf
  [26, 30, 44, 109, 38, 0, 45, 20, 3, 37, 7, 4, 8, 2, 9, 1, 10])

/-- some of the cases -/
def real5OneCase182 : LooseTree :=
  .cases [] 10 (.breaks 26308706 (.breaks 4235346 (.breaks 13684817 (.breaks 21053633 (.breaks
  24211537 (.breaks 10526913 (.breaks 21053457 (.breaks 24211649 (.breaks 10526737 (.breaks
  21053473 (.breaks 24211473 (.breaks 10526753 (.breaks 21053441 (.breaks 24211489 (.breaks
  10526721 (.breaks 24211457 (.leaf [26, 30, 47, 109, 38, 0, 27, 20, 3, 28, 7, 4, 22, 8, 2, 23, 9,
  1, 10]) (.leaf [26, 30, 47, 109, 38, 0, 27, 20, 3, 28, 7, 4, 22, 8, 2, 23, 9, 1, 10])) (.leaf
  [26, 30, 47, 109, 38, 0, 27, 20, 3, 28, 7, 4, 22, 8, 2, 23, 9, 1, 10])) (.leaf [26, 30, 47, 109,
  38, 0, 27, 20, 3, 28, 7, 4, 22, 8, 2, 23, 9, 1, 10])) (.leaf [26, 30, 47, 109, 38, 0, 27, 20, 3,
  28, 7, 4, 22, 8, 2, 23, 9, 1, 10])) (.leaf [26, 30, 47, 109, 38, 0, 27, 20, 3, 28, 7, 4, 22, 8,
  2, 23, 9, 1, 10])) (.leaf [26, 30, 47, 109, 38, 0, 27, 20, 3, 28, 7, 4, 22, 8, 2, 23, 9, 1, 10]))
  (.leaf [26, 30, 47, 109, 38, 0, 27, 20, 3, 28, 7, 4, 22, 8, 2, 23, 9, 1, 10])) (.leaf [26, 30,
  47, 109, 38, 0, 27, 20, 3, 28, 7, 4, 22, 8, 2, 23, 9, 1, 10])) (.leaf [26, 30, 47, 109, 38, 0,
  27, 20, 3, 28, 7, 4, 22, 8, 2, 23, 9, 1, 10])) (.leaf [26, 30, 47, 109, 38, 0, 27, 20, 3, 28, 7,
  4, 22, 8, 2, 23, 9, 1, 10])) (.leaf [26, 30, 47, 109, 38, 0, 27, 20, 3, 28, 7, 4, 22, 8, 2, 23,
  9, 1, 10])) (.leaf [26, 30, 47, 109, 38, 0, 27, 20, 3, 28, 7, 4, 22, 8, 2, 23, 9, 1, 10])) (.leaf
  [26, 30, 47, 109, 38, 0, 27, 20, 3, 28, 7, 4, 22, 8, 2, 23, 9, 1, 10])) (.leaf [26, 30, 47, 109,
  38, 0, 27, 20, 3, 28, 7, 4, 22, 8, 2, 23, 9, 1, 10])) (.leaf [26, 30, 47, 109, 38, 0, 27, 20, 3,
  28, 7, 4, 22, 8, 2, 23, 9, 1, 10])) (.leaf [26, 30, 47, 109, 38, 0, 27, 20, 3, 28, 7, 4, 22, 8,
  2, 23, 9, 1, 10])) (.breaks 21041234 (.breaks 23146629 (.breaks 26308706 (.breaks 4210881
  (.breaks 4235346 (.breaks 17879237 (.breaks 20000945 (.breaks 24211537 (.breaks 4210705 (.breaks
  10526913 (.breaks 13684817 (.breaks 20000929 (.breaks 24211649 (.breaks 4210721 (.breaks 10526737
  (.breaks 24211473 (.breaks 4210689 (.breaks 10526753 (.breaks 24211489 (.breaks 10526721 (.breaks
  24211457 (.leaf [26, 50, 48, 109, 11, 38, 30, 35, 20, 12, 3, 0, 36, 7, 5, 4, 8, 6, 2, 9, 1, 10])
  (.leaf [26, 50, 48, 109, 11, 38, 30, 35, 20, 12, 3, 0, 36, 7, 5, 4, 8, 6, 2, 9, 1, 10])) (.leaf
  [26, 50, 48, 109, 11, 38, 30, 35, 20, 12, 3, 0, 36, 7, 5, 4, 8, 6, 2, 9, 1, 10])) (.leaf [26, 50,
  48, 109, 11, 38, 30, 35, 20, 12, 3, 0, 36, 7, 5, 4, 8, 6, 2, 9, 1, 10])) (.leaf [26, 50, 48, 109,
  11, 38, 30, 35, 20, 12, 3, 0, 36, 7, 5, 4, 8, 6, 2, 9, 1, 10])) (.leaf [26, 50, 48, 109, 11, 38,
  30, 35, 20, 12, 3, 0, 36, 7, 5, 4, 8, 6, 2, 9, 1, 10])) (.leaf [26, 50, 48, 109, 11, 38, 30, 35,
  20, 12, 3, 0, 36, 7, 5, 4, 8, 6, 2, 9, 1, 10])) (.leaf [26, 50, 48, 109, 11, 38, 30, 35, 20, 12,
  3, 0, 36, 7, 5, 4, 8, 6, 2, 9, 1, 10])) (.leaf [26, 50, 48, 109, 11, 38, 30, 35, 20, 12, 3, 0,
  36, 7, 5, 4, 8, 6, 2, 9, 1, 10])) (.leaf [26, 50, 48, 109, 11, 38, 30, 35, 20, 12, 3, 0, 36, 7,
  5, 4, 8, 6, 2, 9, 1, 10])) (.leaf [26, 50, 48, 109, 11, 38, 30, 35, 20, 12, 3, 0, 36, 7, 5, 4, 8,
  6, 2, 9, 1, 10])) (.leaf [26, 50, 48, 109, 11, 38, 30, 35, 20, 12, 3, 0, 36, 7, 5, 4, 8, 6, 2, 9,
  1, 10])) (.leaf [26, 50, 48, 109, 11, 38, 30, 35, 20, 12, 3, 0, 36, 7, 5, 4, 8, 6, 2, 9, 1, 10]))
  (.leaf [26, 50, 48, 109, 11, 38, 30, 35, 20, 12, 3, 0, 36, 7, 5, 4, 8, 6, 2, 9, 1, 10])) (.leaf
  [26, 50, 48, 109, 11, 38, 30, 35, 20, 12, 3, 0, 36, 7, 5, 4, 8, 6, 2, 9, 1, 10])) (.leaf [26, 50,
  48, 109, 11, 38, 30, 35, 20, 12, 3, 0, 36, 7, 5, 4, 8, 6, 2, 9, 1, 10])) (.leaf [26, 50, 48, 109,
  11, 38, 30, 35, 20, 12, 3, 0, 36, 7, 5, 4, 8, 6, 2, 9, 1, 10])) (.leaf [26, 50, 48, 109, 11, 38,
  30, 35, 20, 12, 3, 0, 36, 7, 5, 4, 8, 6, 2, 9, 1, 10])) (.leaf [26, 50, 48, 109, 11, 38, 30, 35,
  20, 12, 3, 0, 36, 7, 5, 4, 8, 6, 2, 9, 1, 10])) (.leaf [26, 50, 48, 109, 11, 38, 30, 35, 20, 12,
  3, 0, 36, 7, 5, 4, 8, 6, 2, 9, 1, 10])) (.leaf [26, 50, 48, 109, 11, 38, 30, 35, 20, 12, 3, 0,
  36, 7, 5, 4, 8, 6, 2, 9, 1, 10])) (.leaf [26, 30, 48, 109, 11, 38, 0, 35, 20, 12, 3, 36, 7, 5, 4,
  8, 6, 2, 9, 1, 10]))

/-- some of the cases -/
def real5OneCase183 : LooseTree :=
  .breaks 17879237 (.breaks 22097938 (.breaks 25260117 (.breaks 4235346 (.breaks 13684817 (.breaks
  20000897 (.breaks 24211649 (.breaks 10526913 (.breaks 20000945 (.breaks 24211473 (.breaks
  10526737 (.breaks 20000929 (.breaks 24211489 (.breaks 10526753 (.breaks 24211457 (.breaks
  10526721 (.leaf [26, 30, 71, 83, 38, 0, 51, 7, 3, 35, 8, 4, 36, 9, 2, 10, 1]) (.leaf
  [26, 30, 71, 83, 38, 0, 51, 7, 3, 35, 8, 4, 36, 9, 2, 10, 1])) (.leaf
  [26, 30, 71, 83, 38, 0, 51, 7, 3, 35, 8, 4, 36, 9, 2, 10, 1])) (.leaf
  [26, 30, 71, 83, 38, 0, 51, 7, 3, 35, 8, 4, 36, 9, 2, 10, 1])) (.leaf
  [26, 30, 71, 83, 38, 0, 51, 7, 3, 35, 8, 4, 36, 9, 2, 10, 1])) (.leaf
  [26, 30, 71, 83, 38, 0, 51, 7, 3, 35, 8, 4, 36, 9, 2, 10, 1])) (.leaf
  [26, 30, 71, 83, 38, 0, 51, 7, 3, 35, 8, 4, 36, 9, 2, 10, 1])) (.leaf
  [26, 30, 71, 83, 38, 0, 51, 7, 3, 35, 8, 4, 36, 9, 2, 10, 1])) (.leaf
  [26, 30, 71, 83, 38, 0, 51, 7, 3, 35, 8, 4, 36, 9, 2, 10, 1])) (.leaf
  [26, 30, 71, 83, 38, 0, 51, 7, 3, 35, 8, 4, 36, 9, 2, 10, 1])) (.leaf
  [26, 30, 71, 83, 38, 0, 51, 7, 3, 35, 8, 4, 36, 9, 2, 10, 1])) (.leaf
  [26, 30, 71, 83, 38, 0, 51, 7, 3, 35, 8, 4, 36, 9, 2, 10, 1])) (.leaf
  [26, 30, 71, 83, 38, 0, 51, 7, 3, 35, 8, 4, 36, 9, 2, 10, 1])) (.leaf
  [26, 30, 71, 83, 38, 0, 51, 7, 3, 35, 8, 4, 36, 9, 2, 10, 1])) (.leaf
  [26, 30, 71, 83, 38, 0, 51, 7, 3, 35, 8, 4, 36, 9, 2, 10, 1])) (.leaf
  [26, 30, 71, 83, 38, 0, 51, 7, 3, 35, 8, 4, 36, 9, 2, 10, 1])) (.leaf
  [26, 30, 71, 83, 38, 0, 51, 7, 3, 35, 8, 4, 36, 9, 2, 10, 1])

/-- some of the cases -/
def real5OneCase184 : LooseTree :=
  .breaks 4198597 (.breaks 1089621 (.breaks 1052769 (.breaks 10526913 (.breaks 10539205 (.breaks
  10526737 (.breaks 13701205 (.breaks 10526753 (.breaks 17895617 (.breaks 10526721 (.breaks
  17895441 (.breaks 17895457 (.breaks 17895425 (.leaf
  [49, 33, 25, 32, 3, 125, 4, 57, 2, 16, 1, 17, 18, 19]) (.leaf
  [49, 33, 25, 32, 3, 125, 4, 57, 2, 16, 1, 17, 18, 19])) (.leaf
  [49, 33, 25, 32, 3, 125, 4, 57, 2, 16, 1, 17, 18, 19])) (.leaf
  [49, 33, 25, 32, 3, 125, 4, 57, 2, 16, 1, 17, 18, 19])) (.leaf
  [49, 33, 25, 32, 3, 125, 4, 57, 2, 16, 1, 17, 18, 19])) (.leaf
  [49, 33, 25, 32, 3, 125, 4, 57, 2, 16, 1, 17, 18, 19])) (.leaf
  [49, 33, 25, 32, 3, 125, 4, 57, 2, 16, 1, 17, 18, 19])) (.leaf
  [49, 33, 25, 32, 3, 125, 4, 57, 2, 16, 1, 17, 18, 19])) (.leaf
  [49, 33, 25, 32, 3, 125, 4, 57, 2, 16, 1, 17, 18, 19])) (.leaf
  [49, 33, 25, 32, 3, 125, 4, 57, 2, 16, 1, 17, 18, 19])) (.leaf
  [49, 33, 25, 32, 3, 125, 4, 57, 2, 16, 1, 17, 18, 19])) (.leaf
  [49, 33, 25, 32, 3, 125, 4, 57, 2, 16, 1, 17, 18, 19])) (.leaf
  [49, 33, 25, 32, 3, 125, 4, 0, 57, 2, 16, 1, 17, 18, 19])) (.leaf
  [49, 33, 25, 32, 3, 125, 4, 0, 57, 2, 16, 1, 17, 18, 19])

/-- some of the cases -/
def real5OneCase185 : LooseTree :=
  .cases [] 41 (.breaks 10555474 (.breaks 21053633 (.breaks 1052769 (.breaks 10526737 (.breaks
  17895617 (.breaks 21053457 (.breaks 10526753 (.breaks 17895441 (.breaks 21053473 (.breaks
  10526721 (.breaks 17895457 (.breaks 21053441 (.breaks 17895425 (.leaf [49, 122, 76, 33, 3, 116,
  27, 32, 4, 16, 28, 2, 17, 22, 1, 18, 23, 19]) (.leaf [49, 122, 76, 33, 3, 116, 27, 32, 4, 16, 28,
  2, 17, 22, 1, 18, 23, 19])) (.leaf [49, 122, 76, 33, 3, 116, 27, 32, 4, 16, 28, 2, 17, 22, 1, 18,
  23, 19])) (.leaf [49, 122, 76, 33, 3, 116, 27, 32, 4, 16, 28, 2, 17, 22, 1, 18, 23, 19])) (.leaf
  [49, 122, 76, 33, 3, 116, 27, 32, 4, 16, 28, 2, 17, 22, 1, 18, 23, 19])) (.leaf [49, 122, 76, 33,
  3, 116, 27, 32, 4, 16, 28, 2, 17, 22, 1, 18, 23, 19])) (.leaf [49, 122, 76, 33, 3, 116, 27, 32,
  4, 16, 28, 2, 17, 22, 1, 18, 23, 19])) (.leaf [49, 122, 76, 33, 3, 116, 27, 32, 4, 16, 28, 2, 17,
  22, 1, 18, 23, 19])) (.leaf [49, 122, 76, 33, 3, 116, 27, 32, 4, 16, 28, 2, 17, 22, 1, 18, 23,
  19])) (.leaf [49, 122, 76, 33, 3, 116, 27, 32, 4, 16, 28, 2, 17, 22, 1, 18, 23, 19])) (.leaf [49,
  122, 76, 33, 3, 116, 27, 32, 4, 16, 28, 2, 17, 22, 1, 18, 23, 19])) (.leaf [49, 122, 76, 33, 3,
  116, 27, 32, 4, 16, 28, 2, 17, 22, 1, 18, 23, 19])) (.leaf [49, 122, 76, 33, 3, 116, 27, 32, 4,
  16, 28, 2, 17, 22, 1, 18, 23, 19])) (.leaf [49, 122, 76, 33, 3, 116, 27, 32, 4, 16, 28, 2, 17,
  22, 1, 18, 23, 19])) (.breaks 13713493 (.breaks 1052753 (.breaks 17866834 (.breaks 17895617
  (.breaks 21053633 (.breaks 1052769 (.breaks 10526913 (.breaks 17895441 (.breaks 21053457 (.breaks
  10526737 (.breaks 17895457 (.breaks 21053473 (.breaks 10526753 (.breaks 17895425 (.breaks
  21053441 (.breaks 10526721 (.leaf [49, 57, 76, 33, 121, 16, 27, 32, 3, 17, 28, 4, 18, 22, 2, 19,
  23, 1]) (.leaf [49, 57, 76, 33, 121, 16, 27, 32, 3, 17, 28, 4, 18, 22, 2, 19, 23, 1])) (.leaf
  [49, 57, 76, 33, 121, 16, 27, 32, 3, 17, 28, 4, 18, 22, 2, 19, 23, 1])) (.leaf [49, 57, 76, 33,
  121, 16, 27, 32, 3, 17, 28, 4, 18, 22, 2, 19, 23, 1])) (.leaf [49, 57, 76, 33, 121, 16, 27, 32,
  3, 17, 28, 4, 18, 22, 2, 19, 23, 1])) (.leaf [49, 57, 76, 33, 121, 16, 27, 32, 3, 17, 28, 4, 18,
  22, 2, 19, 23, 1])) (.leaf [49, 57, 76, 33, 121, 16, 27, 32, 3, 17, 28, 4, 18, 22, 2, 19, 23,
  1])) (.leaf [49, 57, 76, 33, 121, 16, 27, 32, 3, 17, 28, 4, 18, 22, 2, 19, 23, 1])) (.leaf [49,
  57, 76, 33, 121, 16, 27, 32, 3, 17, 28, 4, 18, 22, 2, 19, 23, 1])) (.leaf [49, 57, 76, 33, 121,
  16, 27, 32, 3, 17, 28, 4, 18, 22, 2, 19, 23, 1])) (.leaf [49, 57, 76, 33, 121, 16, 27, 32, 3, 17,
  28, 4, 18, 22, 2, 19, 23, 1])) (.leaf [49, 57, 76, 33, 121, 16, 27, 32, 3, 17, 28, 4, 18, 22, 2,
  19, 23, 1])) (.leaf [49, 57, 76, 33, 121, 16, 27, 32, 3, 17, 28, 4, 18, 22, 2, 19, 23, 1]))
  (.leaf [49, 57, 76, 33, 121, 16, 27, 32, 3, 17, 28, 4, 18, 22, 2, 19, 23, 1])) (.leaf [49, 57,
  76, 33, 121, 16, 27, 32, 3, 17, 28, 4, 18, 22, 2, 19, 23, 1])) (.leaf [49, 57, 76, 33, 121, 16,
  27, 32, 3, 17, 28, 4, 18, 22, 2, 19, 23, 1])) (.leaf [49, 57, 76, 33, 121, 16, 27, 32, 3, 17, 28,
  4, 18, 22, 2, 19, 23, 1]))

/-- some of the cases -/
def real5OneCase186 : LooseTree :=
  .breaks 4198597 (.breaks 1130581 (.breaks 1052769 (.breaks 21024965 (.breaks 13672533 (.breaks
  13684817 (.breaks 10526913 (.breaks 10526737 (.breaks 10526753 (.breaks 10526721 (.leaf
  [49, 33, 88, 32, 78, 122, 0, 3, 4, 2, 1]) (.leaf [49, 33, 88, 32, 78, 122, 0, 3, 4, 2, 1]))
  (.leaf [49, 33, 88, 32, 78, 122, 0, 3, 4, 2, 1])) (.leaf
  [49, 33, 88, 32, 78, 122, 0, 3, 4, 2, 1])) (.leaf [49, 33, 88, 32, 78, 122, 0, 3, 4, 2, 1]))
  (.leaf [49, 33, 88, 32, 78, 122, 0, 3, 4, 2, 1])) (.leaf
  [49, 33, 88, 32, 78, 122, 0, 3, 4, 2, 1])) (.leaf
  [49, 33, 88, 32, 78, 122, 57, 3, 16, 4, 17, 2, 18, 1, 19])) (.leaf
  [49, 33, 88, 32, 78, 122, 0, 3, 4, 2, 1])) (.leaf
  [49, 33, 88, 32, 78, 122, 57, 3, 16, 4, 17, 2, 18, 1, 19])) (.leaf
  [49, 33, 88, 32, 78, 122, 57, 3, 16, 4, 17, 2, 18, 1, 19])

/-- some of the cases -/
def real5OneCase187 : LooseTree :=
  .breaks 1052753 (.breaks 1089621 (.breaks 17879237 (.breaks 17895617 (.breaks 1052769 (.breaks
  10526913 (.breaks 13684817 (.breaks 17895441 (.breaks 10526737 (.breaks 17895457 (.breaks
  10526753 (.breaks 17895425 (.breaks 10526721 (.leaf
  [49, 39, 33, 25, 30, 16, 32, 3, 0, 17, 4, 18, 2, 19, 1]) (.leaf
  [49, 39, 33, 25, 30, 16, 32, 3, 0, 17, 4, 18, 2, 19, 1])) (.leaf
  [49, 39, 33, 25, 30, 16, 32, 3, 0, 17, 4, 18, 2, 19, 1])) (.leaf
  [49, 39, 33, 25, 30, 16, 32, 3, 0, 17, 4, 18, 2, 19, 1])) (.leaf
  [49, 39, 33, 25, 30, 16, 32, 3, 0, 17, 4, 18, 2, 19, 1])) (.leaf
  [49, 39, 33, 25, 30, 16, 32, 3, 0, 17, 4, 18, 2, 19, 1])) (.leaf
  [49, 39, 33, 25, 30, 16, 32, 3, 0, 17, 4, 18, 2, 19, 1])) (.leaf
  [49, 39, 33, 25, 30, 16, 32, 3, 0, 17, 4, 18, 2, 19, 1])) (.leaf
  [49, 39, 33, 25, 30, 16, 32, 3, 0, 17, 4, 18, 2, 19, 1])) (.leaf
  [49, 39, 33, 25, 30, 16, 32, 3, 0, 17, 4, 18, 2, 19, 1])) (.leaf
  [49, 39, 33, 25, 30, 16, 32, 3, 0, 17, 4, 18, 2, 19, 1])) (.leaf
  [49, 39, 33, 25, 30, 16, 32, 3, 0, 17, 4, 18, 2, 19, 1])) (.leaf
  [49, 39, 33, 25, 30, 16, 32, 3, 0, 17, 4, 18, 2, 19, 1])) (.leaf
  [49, 39, 33, 25, 30, 16, 32, 3, 0, 17, 4, 18, 2, 19, 1])

/-- some of the cases -/
def real5OneCase188 : LooseTree :=
  .breaks 4198597 (.breaks 1089621 (.breaks 10555474 (.breaks 10526737 (.breaks 17879237 (.breaks
  17895617 (.breaks 17920082 (.breaks 10526753 (.breaks 13684817 (.breaks 17895441 (.breaks
  24211649 (.breaks 10526721 (.breaks 17895457 (.breaks 24211473 (.breaks 17895425 (.breaks
  24211489 (.breaks 24211457 (.leaf [49, 33, 25, 32, 3, 116, 4, 30, 16, 73, 2, 0, 17, 7, 1, 18, 8,
  19, 9, 10]) (.leaf [49, 33, 25, 32, 3, 116, 4, 30, 16, 73, 2, 0, 17, 7, 1, 18, 8, 19, 9, 10]))
  (.leaf [49, 33, 25, 32, 3, 116, 4, 30, 16, 73, 2, 0, 17, 7, 1, 18, 8, 19, 9, 10])) (.leaf [49,
  33, 25, 32, 3, 116, 4, 30, 16, 73, 2, 0, 17, 7, 1, 18, 8, 19, 9, 10])) (.leaf [49, 33, 25, 32, 3,
  116, 4, 30, 16, 73, 2, 0, 17, 7, 1, 18, 8, 19, 9, 10])) (.leaf [49, 33, 25, 32, 3, 116, 4, 30,
  16, 73, 2, 0, 17, 7, 1, 18, 8, 19, 9, 10])) (.leaf [49, 33, 25, 32, 3, 116, 4, 30, 16, 73, 2, 0,
  17, 7, 1, 18, 8, 19, 9, 10])) (.leaf [49, 33, 25, 32, 3, 116, 4, 30, 16, 73, 2, 0, 17, 7, 1, 18,
  8, 19, 9, 10])) (.leaf [49, 33, 25, 32, 3, 116, 4, 30, 16, 73, 2, 0, 17, 7, 1, 18, 8, 19, 9,
  10])) (.leaf [49, 33, 25, 32, 3, 116, 4, 30, 16, 73, 2, 0, 17, 7, 1, 18, 8, 19, 9, 10])) (.leaf
  [49, 33, 25, 32, 3, 116, 4, 30, 16, 73, 2, 0, 17, 7, 1, 18, 8, 19, 9, 10])) (.leaf [49, 33, 25,
  32, 3, 116, 4, 30, 16, 73, 2, 0, 17, 7, 1, 18, 8, 19, 9, 10])) (.leaf [49, 33, 25, 32, 3, 116, 4,
  30, 16, 73, 2, 0, 17, 7, 1, 18, 8, 19, 9, 10])) (.leaf [49, 33, 25, 32, 3, 116, 4, 30, 16, 73, 2,
  0, 17, 7, 1, 18, 8, 19, 9, 10])) (.leaf [49, 33, 25, 32, 3, 116, 4, 30, 16, 73, 2, 0, 17, 7, 1,
  18, 8, 19, 9, 10])) (.leaf [49, 33, 25, 32, 3, 116, 4, 30, 16, 73, 2, 0, 17, 7, 1, 18, 8, 19, 9,
  10])) (.leaf [49, 33, 25, 32, 3, 116, 4, 30, 16, 73, 2, 0, 17, 7, 1, 18, 8, 19, 9, 10])) (.leaf
  [49, 33, 25, 88, 32, 3, 116, 27, 4, 30, 16, 73, 28, 2, 0, 17, 22, 7, 1, 18, 23, 8, 19, 9, 10])

/-- some of the cases -/
def real5OneCase189 : LooseTree :=
  .cases [] 10 (.breaks 17866834 (.breaks 17879237 (.breaks 17907794 (.breaks 1052753 (.breaks
  10526913 (.breaks 13684817 (.breaks 21053633 (.breaks 1052769 (.breaks 10526737 (.breaks 21053457
  (.breaks 10526753 (.breaks 21053473 (.breaks 10526721 (.breaks 21053441 (.leaf
  [49, 121, 30, 47, 33, 3, 0, 27, 32, 4, 28, 2, 22, 1, 23]) (.leaf
  [49, 121, 30, 47, 33, 3, 0, 27, 32, 4, 28, 2, 22, 1, 23])) (.leaf
  [49, 121, 30, 47, 33, 3, 0, 27, 32, 4, 28, 2, 22, 1, 23])) (.leaf
  [49, 121, 30, 47, 33, 3, 0, 27, 32, 4, 28, 2, 22, 1, 23])) (.leaf
  [49, 121, 30, 47, 33, 3, 0, 27, 32, 4, 28, 2, 22, 1, 23])) (.leaf
  [49, 121, 30, 47, 33, 3, 0, 27, 32, 4, 28, 2, 22, 1, 23])) (.leaf
  [49, 121, 30, 47, 33, 3, 0, 27, 32, 4, 28, 2, 22, 1, 23])) (.leaf
  [49, 121, 30, 47, 33, 3, 0, 27, 32, 4, 28, 2, 22, 1, 23])) (.leaf
  [49, 121, 30, 47, 33, 3, 0, 27, 32, 4, 28, 2, 22, 1, 23])) (.leaf
  [49, 121, 30, 47, 33, 3, 0, 27, 32, 4, 28, 2, 22, 1, 23])) (.leaf
  [49, 121, 30, 47, 33, 3, 0, 27, 32, 4, 28, 2, 22, 1, 23])) (.leaf
  [49, 121, 30, 47, 33, 3, 0, 27, 32, 4, 28, 2, 22, 1, 23])) (.leaf
  [49, 121, 30, 47, 33, 3, 0, 27, 32, 4, 28, 2, 22, 1, 23])) (.leaf
  [49, 121, 30, 47, 33, 3, 0, 27, 32, 4, 28, 2, 22, 1, 23])) (.leaf
  [49, 121, 30, 47, 33, 3, 0, 27, 32, 4, 28, 2, 22, 1, 23])) (.breaks 4198597 (.breaks 1052753
  (.breaks 1130581 (.breaks 1052769 (.breaks 21041234 (.breaks 17866834 (.breaks 17879237 (.breaks
  10526913 (.breaks 13684817 (.breaks 10526737 (.breaks 10526753 (.breaks 10526721 (.leaf
  [49, 33, 88, 32, 50, 121, 30, 3, 0, 4, 2, 1]) (.leaf
  [49, 33, 88, 32, 50, 121, 30, 16, 3, 0, 17, 4, 18, 2, 19, 1])) (.leaf
  [49, 33, 88, 32, 50, 121, 30, 16, 3, 0, 17, 4, 18, 2, 19, 1])) (.leaf
  [49, 33, 88, 32, 50, 121, 30, 16, 3, 0, 17, 4, 18, 2, 19, 1])) (.leaf
  [49, 33, 88, 32, 50, 121, 30, 16, 3, 0, 17, 4, 18, 2, 19, 1])) (.leaf
  [49, 33, 88, 32, 50, 121, 30, 16, 3, 0, 17, 4, 18, 2, 19, 1])) (.leaf
  [49, 33, 88, 32, 50, 121, 30, 16, 3, 0, 17, 4, 18, 2, 19, 1])) (.leaf
  [49, 33, 88, 32, 50, 121, 30, 16, 3, 0, 17, 4, 18, 2, 19, 1])) (.leaf
  [49, 33, 88, 32, 50, 121, 30, 16, 3, 0, 17, 4, 18, 2, 19, 1])) (.leaf
  [49, 33, 88, 32, 50, 121, 30, 16, 3, 0, 17, 4, 18, 2, 19, 1])) (.leaf
  [49, 33, 88, 32, 50, 121, 30, 16, 3, 0, 17, 4, 18, 2, 19, 1])) (.leaf
  [49, 33, 88, 32, 50, 121, 30, 16, 3, 0, 17, 4, 18, 2, 19, 1])) (.leaf
  [49, 33, 88, 32, 50, 121, 30, 16, 3, 0, 17, 4, 18, 2, 19, 1]))

/-- some of the cases -/
def real5OneCase190 : LooseTree :=
  .breaks 10526737 (.breaks 10526753 (.breaks 10526721 (.leaf [141, 33, 25, 32, 3, 4, 2, 1]) (.leaf
  [141, 33, 25, 32, 3, 4, 2, 1])) (.leaf [141, 33, 25, 32, 3, 4, 2, 1])) (.leaf
  [141, 33, 25, 32, 3, 4, 2, 1])

/-- some of the cases -/
def real5OneCase191 : LooseTree :=
  .breaks 1065045 (.breaks 13701205 (.breaks 1052769 (.breaks 4210881 (.breaks 17895617 (.breaks
  4210705 (.breaks 17895441 (.breaks 4210721 (.breaks 17895457 (.breaks 4210689 (.breaks 17895425
  (.leaf [69, 15, 33, 26, 0, 57, 32, 11, 16, 12, 17, 5, 18, 6, 19]) (.leaf
  [69, 15, 33, 26, 0, 57, 32, 11, 16, 12, 17, 5, 18, 6, 19])) (.leaf
  [69, 15, 33, 26, 0, 57, 32, 11, 16, 12, 17, 5, 18, 6, 19])) (.leaf
  [69, 15, 33, 26, 0, 57, 32, 11, 16, 12, 17, 5, 18, 6, 19])) (.leaf
  [69, 15, 33, 26, 0, 57, 32, 11, 16, 12, 17, 5, 18, 6, 19])) (.leaf
  [69, 15, 33, 26, 0, 57, 32, 11, 16, 12, 17, 5, 18, 6, 19])) (.leaf
  [69, 15, 33, 26, 0, 57, 32, 11, 16, 12, 17, 5, 18, 6, 19])) (.leaf
  [69, 15, 33, 26, 0, 57, 32, 11, 16, 12, 17, 5, 18, 6, 19])) (.leaf
  [69, 15, 33, 26, 0, 57, 32, 11, 16, 12, 17, 5, 18, 6, 19])) (.leaf
  [69, 15, 33, 26, 0, 57, 32, 11, 16, 12, 17, 5, 18, 6, 19])) (.leaf
  [69, 15, 33, 26, 0, 57, 32, 11, 16, 12, 17, 5, 18, 6, 19])) (.leaf
  [69, 15, 33, 26, 0, 57, 32, 11, 16, 12, 17, 5, 18, 6, 19])

/-- some of the cases -/
def real5OneCase192 : LooseTree :=
  .cases [] 48 (.breaks 13713493 (.breaks 1052753 (.breaks 17842258 (.breaks 17895617 (.breaks
  21053633 (.breaks 1052769 (.breaks 4210881 (.breaks 17895441 (.breaks 21053457 (.breaks 4210705
  (.breaks 17895457 (.breaks 21053473 (.breaks 4210721 (.breaks 17895425 (.breaks 21053441 (.breaks
  4210689 (.leaf [69, 57, 76, 33, 129, 16, 27, 32, 11, 17, 28, 12, 18, 22, 5, 19, 23, 6]) (.leaf
  [69, 57, 76, 33, 129, 16, 27, 32, 11, 17, 28, 12, 18, 22, 5, 19, 23, 6])) (.leaf [69, 57, 76, 33,
  129, 16, 27, 32, 11, 17, 28, 12, 18, 22, 5, 19, 23, 6])) (.leaf [69, 57, 76, 33, 129, 16, 27, 32,
  11, 17, 28, 12, 18, 22, 5, 19, 23, 6])) (.leaf [69, 57, 76, 33, 129, 16, 27, 32, 11, 17, 28, 12,
  18, 22, 5, 19, 23, 6])) (.leaf [69, 57, 76, 33, 129, 16, 27, 32, 11, 17, 28, 12, 18, 22, 5, 19,
  23, 6])) (.leaf [69, 57, 76, 33, 129, 16, 27, 32, 11, 17, 28, 12, 18, 22, 5, 19, 23, 6])) (.leaf
  [69, 57, 76, 33, 129, 16, 27, 32, 11, 17, 28, 12, 18, 22, 5, 19, 23, 6])) (.leaf [69, 57, 76, 33,
  129, 16, 27, 32, 11, 17, 28, 12, 18, 22, 5, 19, 23, 6])) (.leaf [69, 57, 76, 33, 129, 16, 27, 32,
  11, 17, 28, 12, 18, 22, 5, 19, 23, 6])) (.leaf [69, 57, 76, 33, 129, 16, 27, 32, 11, 17, 28, 12,
  18, 22, 5, 19, 23, 6])) (.leaf [69, 57, 76, 33, 129, 16, 27, 32, 11, 17, 28, 12, 18, 22, 5, 19,
  23, 6])) (.leaf [69, 57, 76, 33, 129, 16, 27, 32, 11, 17, 28, 12, 18, 22, 5, 19, 23, 6])) (.leaf
  [69, 57, 76, 33, 129, 16, 27, 32, 11, 17, 28, 12, 18, 22, 5, 19, 23, 6])) (.leaf [69, 57, 76, 33,
  129, 16, 27, 32, 11, 17, 28, 12, 18, 22, 5, 19, 23, 6])) (.leaf [69, 57, 76, 33, 129, 16, 27, 32,
  11, 17, 28, 12, 18, 22, 5, 19, 23, 6])) (.leaf [69, 57, 76, 33, 129, 16, 27, 32, 11, 17, 28, 12,
  18, 22, 5, 19, 23, 6])) (.breaks 1052753 (.breaks 4210881 (.breaks 4264018 (.breaks 1052769
  (.breaks 4210705 (.breaks 17895617 (.breaks 21053457 (.breaks 4210721 (.breaks 17895441 (.breaks
  21053473 (.breaks 4210689 (.breaks 17895457 (.breaks 21053441 (.breaks 17895425 (.leaf [69, 115,
  76, 33, 11, 136, 27, 32, 12, 16, 28, 5, 17, 22, 6, 18, 23, 19]) (.leaf [69, 115, 76, 33, 11, 136,
  27, 32, 12, 16, 28, 5, 17, 22, 6, 18, 23, 19])) (.leaf [69, 115, 76, 33, 11, 136, 27, 32, 12, 16,
  28, 5, 17, 22, 6, 18, 23, 19])) (.leaf [69, 115, 76, 33, 11, 136, 27, 32, 12, 16, 28, 5, 17, 22,
  6, 18, 23, 19])) (.leaf [69, 115, 76, 33, 11, 136, 27, 32, 12, 16, 28, 5, 17, 22, 6, 18, 23,
  19])) (.leaf [69, 115, 76, 33, 11, 136, 27, 32, 12, 16, 28, 5, 17, 22, 6, 18, 23, 19])) (.leaf
  [69, 115, 76, 33, 11, 136, 27, 32, 12, 16, 28, 5, 17, 22, 6, 18, 23, 19])) (.leaf [69, 115, 76,
  33, 11, 136, 27, 32, 12, 16, 28, 5, 17, 22, 6, 18, 23, 19])) (.leaf [69, 115, 76, 33, 11, 136,
  27, 32, 12, 16, 28, 5, 17, 22, 6, 18, 23, 19])) (.leaf [69, 115, 76, 33, 11, 136, 27, 32, 12, 16,
  28, 5, 17, 22, 6, 18, 23, 19])) (.leaf [69, 115, 76, 33, 11, 136, 27, 32, 12, 16, 28, 5, 17, 22,
  6, 18, 23, 19])) (.leaf [69, 115, 76, 33, 11, 136, 27, 32, 12, 16, 28, 5, 17, 22, 6, 18, 23,
  19])) (.leaf [69, 115, 76, 33, 11, 136, 27, 32, 12, 16, 28, 5, 17, 22, 6, 18, 23, 19])) (.leaf
  [69, 115, 76, 33, 11, 136, 27, 32, 12, 16, 28, 5, 17, 22, 6, 18, 23, 19])) (.leaf [69, 115, 76,
  33, 11, 136, 27, 32, 12, 16, 28, 5, 17, 22, 6, 18, 23, 19]))

/-- some of the cases -/
def real5OneCase193 : LooseTree :=
  .breaks 13701205 (.breaks 4210881 (.breaks 17895617 (.breaks 4210705 (.breaks 17895441 (.breaks
  4210721 (.breaks 17895457 (.breaks 4210689 (.breaks 17895425 (.leaf
  [78, 115, 0, 57, 11, 16, 12, 17, 5, 18, 6, 19]) (.leaf
  [78, 115, 0, 57, 11, 16, 12, 17, 5, 18, 6, 19])) (.leaf
  [78, 115, 0, 57, 11, 16, 12, 17, 5, 18, 6, 19])) (.leaf
  [78, 115, 0, 57, 11, 16, 12, 17, 5, 18, 6, 19])) (.leaf
  [78, 115, 0, 57, 11, 16, 12, 17, 5, 18, 6, 19])) (.leaf
  [78, 115, 0, 57, 11, 16, 12, 17, 5, 18, 6, 19])) (.leaf
  [78, 115, 0, 57, 11, 16, 12, 17, 5, 18, 6, 19])) (.leaf
  [78, 115, 0, 57, 11, 16, 12, 17, 5, 18, 6, 19])) (.leaf
  [78, 115, 0, 57, 11, 16, 12, 17, 5, 18, 6, 19])) (.leaf
  [78, 115, 0, 57, 11, 16, 12, 17, 5, 18, 6, 19])

/-- some of the cases -/
def real5OneCase194 : LooseTree :=
  .breaks 10490053 (.breaks 1052753 (.breaks 1065045 (.breaks 1052769 (.breaks 4210881 (.breaks
  4247749 (.breaks 4210705 (.breaks 13684817 (.breaks 13701205 (.breaks 13713493 (.breaks 4210721
  (.breaks 17895617 (.breaks 21053633 (.breaks 4210689 (.breaks 17895441 (.breaks 21053457 (.breaks
  17895457 (.breaks 21053473 (.breaks 17895425 (.breaks 21053441 (.leaf [69, 33, 26, 32, 11, 93,
  12, 0, 57, 76, 5, 16, 27, 6, 17, 28, 18, 22, 19, 23]) (.leaf [69, 33, 26, 32, 11, 93, 12, 57, 76,
  52, 5, 16, 27, 7, 6, 17, 28, 8, 18, 22, 9, 19, 23, 10])) (.leaf [69, 33, 26, 32, 11, 93, 12, 57,
  76, 52, 5, 16, 27, 7, 6, 17, 28, 8, 18, 22, 9, 19, 23, 10])) (.leaf [69, 33, 26, 32, 11, 93, 12,
  57, 76, 52, 5, 16, 27, 7, 6, 17, 28, 8, 18, 22, 9, 19, 23, 10])) (.leaf [69, 33, 26, 32, 11, 93,
  12, 57, 76, 52, 5, 16, 27, 7, 6, 17, 28, 8, 18, 22, 9, 19, 23, 10])) (.leaf [69, 33, 26, 32, 11,
  93, 12, 57, 76, 52, 5, 16, 27, 7, 6, 17, 28, 8, 18, 22, 9, 19, 23, 10])) (.leaf [69, 33, 26, 32,
  11, 93, 12, 57, 76, 52, 5, 16, 27, 7, 6, 17, 28, 8, 18, 22, 9, 19, 23, 10])) (.leaf [69, 33, 26,
  32, 11, 93, 12, 57, 76, 52, 5, 16, 27, 7, 6, 17, 28, 8, 18, 22, 9, 19, 23, 10])) (.leaf [69, 33,
  26, 32, 11, 93, 12, 57, 76, 52, 5, 16, 27, 7, 6, 17, 28, 8, 18, 22, 9, 19, 23, 10])) (.leaf [69,
  33, 26, 32, 11, 93, 12, 57, 76, 52, 5, 16, 27, 7, 6, 17, 28, 8, 18, 22, 9, 19, 23, 10])) (.leaf
  [69, 33, 26, 32, 11, 93, 12, 57, 76, 52, 5, 16, 27, 7, 6, 17, 28, 8, 18, 22, 9, 19, 23, 10]))
  (.leaf [69, 33, 26, 32, 11, 93, 12, 57, 76, 52, 5, 16, 27, 7, 6, 17, 28, 8, 18, 22, 9, 19, 23,
  10])) (.leaf [69, 33, 26, 32, 11, 93, 12, 57, 76, 52, 5, 16, 27, 7, 6, 17, 28, 8, 18, 22, 9, 19,
  23, 10])) (.leaf [69, 33, 26, 32, 11, 93, 12, 57, 76, 52, 5, 16, 27, 7, 6, 17, 28, 8, 18, 22, 9,
  19, 23, 10])) (.leaf [69, 33, 26, 32, 11, 93, 12, 57, 76, 52, 5, 16, 27, 7, 6, 17, 28, 8, 18, 22,
  9, 19, 23, 10])) (.leaf [69, 33, 26, 32, 11, 93, 12, 0, 57, 76, 52, 5, 16, 27, 7, 6, 17, 28, 8,
  18, 22, 9, 19, 23, 10])) (.leaf [69, 33, 26, 32, 11, 93, 12, 57, 76, 52, 5, 16, 27, 7, 6, 17, 28,
  8, 18, 22, 9, 19, 23, 10])) (.leaf [69, 33, 26, 32, 11, 93, 12, 57, 76, 52, 5, 16, 27, 7, 6, 17,
  28, 8, 18, 22, 9, 19, 23, 10])) (.leaf [69, 33, 26, 32, 11, 93, 12, 0, 57, 76, 52, 5, 16, 27, 7,
  6, 17, 28, 8, 18, 22, 9, 19, 23, 10])) (.leaf [69, 33, 26, 32, 11, 93, 12, 57, 76, 52, 5, 16, 27,
  7, 6, 17, 28, 8, 18, 22, 9, 19, 23, 10])) (.leaf [69, 33, 26, 32, 11, 93, 12, 0, 57, 76, 52, 5,
  16, 27, 7, 6, 17, 28, 8, 18, 22, 9, 19, 23, 10])

/-- some of the cases -/
def real5OneCase195 : LooseTree :=
  .cases [] 8 (.breaks 10490053 (.breaks 21024965 (.breaks 1052753 (.breaks 1065045 (.breaks
  13684817 (.breaks 13725781 (.breaks 1052769 (.breaks 4210881 (.breaks 24186962 (.breaks 4210705
  (.breaks 17895617 (.breaks 4210721 (.breaks 17895441 (.breaks 4210689 (.breaks 17895457 (.breaks
  17895425 (.leaf [69, 78, 33, 26, 0, 52, 32, 11, 39, 12, 16, 5, 17, 6, 18, 19]) (.leaf [69, 78,
  33, 26, 52, 32, 11, 39, 7, 12, 16, 8, 5, 17, 9, 6, 18, 10, 19])) (.leaf [69, 78, 33, 26, 52, 32,
  11, 39, 7, 12, 16, 8, 5, 17, 9, 6, 18, 10, 19])) (.leaf [69, 78, 33, 26, 52, 32, 11, 39, 7, 12,
  16, 8, 5, 17, 9, 6, 18, 10, 19])) (.leaf [69, 78, 33, 26, 52, 32, 11, 39, 7, 12, 16, 8, 5, 17, 9,
  6, 18, 10, 19])) (.leaf [69, 78, 33, 26, 52, 32, 11, 39, 7, 12, 16, 8, 5, 17, 9, 6, 18, 10, 19]))
  (.leaf [69, 78, 33, 26, 52, 32, 11, 39, 7, 12, 16, 8, 5, 17, 9, 6, 18, 10, 19])) (.leaf [69, 78,
  33, 26, 52, 32, 11, 39, 7, 12, 16, 8, 5, 17, 9, 6, 18, 10, 19])) (.leaf [69, 78, 33, 26, 52, 32,
  11, 39, 7, 12, 16, 8, 5, 17, 9, 6, 18, 10, 19])) (.leaf [69, 78, 33, 26, 52, 32, 11, 39, 7, 12,
  16, 8, 5, 17, 9, 6, 18, 10, 19])) (.leaf [69, 78, 33, 26, 52, 32, 11, 39, 7, 12, 16, 8, 5, 17, 9,
  6, 18, 10, 19])) (.leaf [69, 78, 33, 26, 52, 32, 11, 39, 7, 12, 16, 8, 5, 17, 9, 6, 18, 10, 19]))
  (.leaf [69, 78, 33, 26, 52, 32, 11, 39, 7, 12, 16, 8, 5, 17, 9, 6, 18, 10, 19])) (.leaf [69, 78,
  33, 26, 52, 32, 11, 39, 7, 12, 16, 8, 5, 17, 9, 6, 18, 10, 19])) (.leaf [69, 78, 33, 26, 52, 32,
  11, 39, 7, 12, 16, 8, 5, 17, 9, 6, 18, 10, 19])) (.leaf [69, 78, 33, 26, 52, 32, 11, 39, 7, 12,
  16, 8, 5, 17, 9, 6, 18, 10, 19])) (.leaf [69, 78, 33, 26, 52, 32, 11, 39, 7, 12, 16, 8, 5, 17, 9,
  6, 18, 10, 19])) (.breaks 1052753 (.breaks 1065045 (.breaks 13684817 (.breaks 13701205 (.breaks
  1052769 (.breaks 4210881 (.breaks 17895617 (.breaks 17920082 (.breaks 4210705 (.breaks 17895441
  (.breaks 24211649 (.breaks 4210721 (.breaks 17895457 (.breaks 24211473 (.breaks 4210689 (.breaks
  17895425 (.breaks 24211489 (.breaks 24211457 (.leaf [69, 78, 33, 26, 0, 57, 32, 11, 16, 73, 12,
  17, 7, 5, 18, 8, 6, 19, 9, 10]) (.leaf [69, 78, 33, 26, 0, 57, 32, 11, 16, 73, 12, 17, 7, 5, 18,
  8, 6, 19, 9, 10])) (.leaf [69, 78, 33, 26, 0, 57, 32, 11, 16, 73, 12, 17, 7, 5, 18, 8, 6, 19, 9,
  10])) (.leaf [69, 78, 33, 26, 0, 57, 32, 11, 16, 73, 12, 17, 7, 5, 18, 8, 6, 19, 9, 10])) (.leaf
  [69, 78, 33, 26, 0, 57, 32, 11, 16, 73, 12, 17, 7, 5, 18, 8, 6, 19, 9, 10])) (.leaf [69, 78, 33,
  26, 0, 57, 32, 11, 16, 73, 12, 17, 7, 5, 18, 8, 6, 19, 9, 10])) (.leaf [69, 78, 33, 26, 0, 57,
  32, 11, 16, 73, 12, 17, 7, 5, 18, 8, 6, 19, 9, 10])) (.leaf [69, 78, 33, 26, 0, 57, 32, 11, 16,
  73, 12, 17, 7, 5, 18, 8, 6, 19, 9, 10])) (.leaf [69, 78, 33, 26, 0, 57, 32, 11, 16, 73, 12, 17,
  7, 5, 18, 8, 6, 19, 9, 10])) (.leaf [69, 78, 33, 26, 0, 57, 32, 11, 16, 73, 12, 17, 7, 5, 18, 8,
  6, 19, 9, 10])) (.leaf [69, 78, 33, 26, 0, 57, 32, 11, 16, 73, 12, 17, 7, 5, 18, 8, 6, 19, 9,
  10])) (.leaf [69, 78, 33, 26, 0, 57, 32, 11, 16, 73, 12, 17, 7, 5, 18, 8, 6, 19, 9, 10])) (.leaf
  [69, 78, 33, 26, 0, 57, 32, 11, 16, 73, 12, 17, 7, 5, 18, 8, 6, 19, 9, 10])) (.leaf [69, 78, 33,
  26, 0, 57, 32, 11, 16, 73, 12, 17, 7, 5, 18, 8, 6, 19, 9, 10])) (.leaf [69, 78, 33, 26, 0, 57,
  32, 11, 16, 73, 12, 17, 7, 5, 18, 8, 6, 19, 9, 10])) (.leaf [69, 78, 33, 26, 0, 57, 32, 11, 16,
  73, 12, 17, 7, 5, 18, 8, 6, 19, 9, 10])) (.leaf [69, 78, 33, 26, 0, 57, 32, 11, 16, 73, 12, 17,
  7, 5, 18, 8, 6, 19, 9, 10])) (.leaf [69, 78, 33, 26, 0, 57, 32, 11, 16, 73, 12, 17, 7, 5, 18, 8,
  6, 19, 9, 10])) (.leaf [69, 78, 33, 26, 0, 57, 32, 11, 16, 73, 12, 17, 7, 5, 18, 8, 6, 19, 9,
  10]))

/-- some of the cases -/
def real5OneCase196 : LooseTree :=
  .breaks 1065045 (.breaks 9474065 (.breaks 17879237 (.breaks 17895617 (.breaks 1052769 (.breaks
  4210881 (.breaks 9474177 (.breaks 13684817 (.breaks 17895441 (.breaks 4210705 (.breaks 9474193
  (.breaks 17895457 (.breaks 4210721 (.breaks 17895425 (.breaks 4210689 (.leaf [69, 61, 39, 33, 26,
  62, 30, 16, 32, 11, 55, 0, 17, 12, 56, 18, 5, 19, 6]) (.leaf [69, 61, 39, 33, 26, 62, 30, 16, 32,
  11, 55, 0, 17, 12, 56, 18, 5, 19, 6])) (.leaf [69, 61, 39, 33, 26, 62, 30, 16, 32, 11, 55, 0, 17,
  12, 56, 18, 5, 19, 6])) (.leaf [69, 61, 39, 33, 26, 62, 30, 16, 32, 11, 55, 0, 17, 12, 56, 18, 5,
  19, 6])) (.leaf [69, 61, 39, 33, 26, 62, 30, 16, 32, 11, 55, 0, 17, 12, 56, 18, 5, 19, 6]))
  (.leaf [69, 61, 39, 33, 26, 62, 30, 16, 32, 11, 55, 0, 17, 12, 56, 18, 5, 19, 6])) (.leaf [69,
  61, 39, 33, 26, 62, 30, 16, 32, 11, 55, 0, 17, 12, 56, 18, 5, 19, 6])) (.leaf [69, 61, 39, 33,
  26, 62, 30, 16, 32, 11, 55, 0, 17, 12, 56, 18, 5, 19, 6])) (.leaf [69, 61, 39, 33, 26, 62, 30,
  16, 32, 11, 55, 0, 17, 12, 56, 18, 5, 19, 6])) (.leaf [69, 61, 39, 33, 26, 62, 30, 16, 32, 11,
  55, 0, 17, 12, 56, 18, 5, 19, 6])) (.leaf [69, 61, 39, 33, 26, 62, 30, 16, 32, 11, 55, 0, 17, 12,
  56, 18, 5, 19, 6])) (.leaf [69, 61, 39, 33, 26, 62, 30, 16, 32, 11, 55, 0, 17, 12, 56, 18, 5, 19,
  6])) (.leaf [69, 61, 39, 33, 26, 62, 30, 16, 32, 11, 55, 0, 17, 12, 56, 18, 5, 19, 6])) (.leaf
  [69, 61, 39, 33, 26, 62, 30, 16, 32, 11, 55, 0, 17, 12, 56, 18, 5, 19, 6])) (.leaf [69, 128, 39,
  33, 26, 55, 30, 16, 32, 11, 56, 0, 17, 12, 18, 5, 19, 6])) (.leaf [69, 61, 39, 33, 26, 62, 30,
  16, 32, 11, 55, 0, 17, 12, 56, 18, 5, 19, 6])

/-- some of the cases -/
def real5OneCase197 : LooseTree :=
  .cases [] 31 (.cases [] 49 (.cases [] 11 (.breaks 10490053 (.breaks 24186962 (.breaks 1052753
  (.breaks 17879237 (.breaks 17895617 (.breaks 1052769 (.breaks 1065043 (.breaks 13684817 (.breaks
  17895441 (.breaks 4210769 (.breaks 17895457 (.breaks 4210881 (.breaks 17895425 (.breaks 4210705
  (.breaks 4210721 (.breaks 4210689 (.leaf
  [69, 39, 33, 30, 16, 32, 53, 0, 17, 54, 18, 11, 19, 12, 5, 6]) (.leaf [69, 39, 33, 30, 16, 32,
  53, 0, 17, 54, 18, 11, 95, 19, 12, 27, 5, 28, 6, 22, 23])) (.leaf [69, 39, 33, 30, 16, 32, 53, 0,
  17, 54, 18, 11, 95, 19, 12, 27, 5, 28, 6, 22, 23])) (.leaf [69, 39, 33, 30, 16, 32, 53, 0, 17,
  54, 18, 11, 95, 19, 12, 27, 5, 28, 6, 22, 23])) (.leaf [69, 39, 33, 30, 16, 32, 53, 0, 17, 54,
  18, 11, 95, 19, 12, 27, 5, 28, 6, 22, 23])) (.leaf [69, 39, 33, 30, 16, 32, 53, 0, 17, 54, 18,
  11, 95, 19, 12, 27, 5, 28, 6, 22, 23])) (.leaf [69, 39, 33, 30, 16, 32, 53, 0, 17, 54, 18, 11,
  95, 19, 12, 27, 5, 28, 6, 22, 23])) (.leaf [69, 39, 33, 30, 16, 32, 53, 0, 17, 54, 18, 11, 95,
  19, 12, 27, 5, 28, 6, 22, 23])) (.leaf [69, 39, 33, 30, 16, 32, 53, 0, 17, 54, 18, 11, 95, 19,
  12, 27, 5, 28, 6, 22, 23])) (.leaf [69, 39, 33, 30, 16, 32, 53, 0, 17, 54, 18, 11, 95, 19, 12,
  27, 5, 28, 6, 22, 23])) (.leaf [69, 39, 33, 30, 16, 32, 53, 0, 17, 54, 18, 11, 95, 19, 12, 27, 5,
  28, 6, 22, 23])) (.leaf [69, 39, 33, 30, 16, 32, 53, 0, 17, 54, 18, 11, 95, 19, 12, 27, 5, 28, 6,
  22, 23])) (.leaf [69, 39, 33, 30, 16, 32, 53, 0, 17, 54, 18, 11, 95, 19, 12, 27, 5, 28, 6, 22,
  23])) (.leaf [69, 39, 33, 30, 16, 32, 53, 0, 17, 54, 18, 11, 95, 19, 12, 27, 5, 28, 6, 22, 23]))
  (.leaf [69, 39, 33, 30, 16, 32, 53, 0, 17, 54, 18, 11, 95, 19, 12, 27, 5, 28, 6, 22, 23])) (.leaf
  [69, 39, 33, 30, 16, 32, 53, 0, 17, 54, 18, 11, 95, 19, 12, 27, 5, 28, 6, 22, 23])) (.leaf [69,
  39, 33, 30, 16, 32, 53, 0, 17, 54, 18, 11, 95, 19, 12, 27, 5, 28, 6, 22, 23])) (.cases [] 16
  (.breaks 1065045 (.breaks 4198483 (.cycle 33 [26, 99]) (.leaf [69, 39, 77, 33, 26, 30, 16, 27,
  32, 11, 0, 17, 28, 12, 18, 22, 5, 19, 23, 6])) (.leaf [69, 39, 77, 33, 26, 30, 16, 27, 32, 11, 0,
  17, 28, 12, 18, 22, 5, 19, 23, 6])) (.cases [] 6 (.breaks 1065045 (.breaks 4198483 (.cycle 33
  [26, 99]) (.leaf [69, 33, 26, 32, 11, 95, 12, 66, 5, 39, 6, 30, 16, 0, 31, 17, 18, 13, 19, 14]))
  (.leaf [69, 33, 26, 32, 11, 95, 12, 27, 66, 5, 28, 39, 6, 30, 16, 22, 0, 31, 17, 23, 18, 13, 19,
  14])) (.breaks 1065045 (.breaks 4198483 (.cycle 33 [26, 99]) (.leaf [69, 87, 33, 26, 0, 32, 11,
  95, 12, 66, 5, 39, 6, 16, 17, 18, 19])) (.leaf [69, 87, 33, 26, 0, 32, 11, 95, 12, 66, 5, 39, 6,
  16, 17, 18, 19]))))) (.cycle 33 [26, 95, 145])) (.breaks 24186962 (.breaks 4210881 (.breaks
  17879237 (.breaks 17895617 (.breaks 1052769 (.breaks 4210705 (.breaks 13684817 (.breaks 17895441
  (.breaks 4210721 (.breaks 17895457 (.breaks 4210689 (.breaks 17895425 (.leaf
  [69, 119, 39, 33, 11, 30, 16, 32, 12, 0, 17, 5, 18, 6, 19]) (.leaf
  [69, 119, 39, 33, 11, 30, 16, 32, 12, 0, 17, 5, 18, 6, 19])) (.leaf
  [69, 119, 39, 33, 11, 30, 16, 32, 12, 0, 17, 5, 18, 6, 19])) (.leaf
  [69, 119, 39, 33, 11, 30, 16, 32, 12, 0, 17, 5, 18, 6, 19])) (.leaf
  [69, 119, 39, 33, 11, 30, 16, 32, 12, 0, 17, 5, 18, 6, 19])) (.leaf
  [69, 119, 39, 33, 11, 30, 16, 32, 12, 0, 17, 5, 18, 6, 19])) (.leaf
  [69, 119, 39, 33, 11, 30, 16, 32, 12, 0, 17, 5, 18, 6, 19])) (.leaf
  [69, 119, 39, 33, 11, 30, 16, 32, 12, 0, 17, 5, 18, 6, 19])) (.leaf
  [69, 119, 39, 33, 11, 30, 16, 32, 12, 0, 17, 5, 18, 6, 19])) (.leaf
  [69, 119, 39, 33, 11, 30, 16, 32, 12, 0, 17, 5, 18, 6, 19])) (.leaf
  [69, 119, 39, 33, 11, 30, 16, 32, 12, 0, 17, 5, 18, 6, 19])) (.leaf
  [69, 119, 39, 33, 11, 30, 16, 32, 12, 0, 17, 5, 18, 6, 19])) (.leaf
  [69, 119, 39, 33, 11, 30, 16, 32, 12, 0, 17, 5, 18, 6, 19]))

/-- some of the cases -/
def real5OneCase198 : LooseTree :=
  .breaks 1052753 (.breaks 1065045 (.breaks 17895617 (.breaks 20000897 (.breaks 1052769 (.breaks
  4210881 (.breaks 13684817 (.breaks 17895441 (.breaks 20000945 (.breaks 4210705 (.breaks 17895457
  (.breaks 20000929 (.breaks 4210721 (.breaks 17895425 (.breaks 4210689 (.leaf [69, 71, 39, 33, 26,
  30, 16, 51, 32, 11, 0, 17, 35, 12, 18, 36, 5, 19, 6]) (.leaf [69, 71, 39, 33, 26, 30, 16, 51, 32,
  11, 0, 17, 35, 12, 18, 36, 5, 19, 6])) (.leaf [69, 71, 39, 33, 26, 30, 16, 51, 32, 11, 0, 17, 35,
  12, 18, 36, 5, 19, 6])) (.leaf [69, 71, 39, 33, 26, 30, 16, 51, 32, 11, 0, 17, 35, 12, 18, 36, 5,
  19, 6])) (.leaf [69, 71, 39, 33, 26, 30, 16, 51, 32, 11, 0, 17, 35, 12, 18, 36, 5, 19, 6]))
  (.leaf [69, 71, 39, 33, 26, 30, 16, 51, 32, 11, 0, 17, 35, 12, 18, 36, 5, 19, 6])) (.leaf [69,
  71, 39, 33, 26, 30, 16, 51, 32, 11, 0, 17, 35, 12, 18, 36, 5, 19, 6])) (.leaf [69, 71, 39, 33,
  26, 30, 16, 51, 32, 11, 0, 17, 35, 12, 18, 36, 5, 19, 6])) (.leaf [69, 71, 39, 33, 26, 30, 16,
  51, 32, 11, 0, 17, 35, 12, 18, 36, 5, 19, 6])) (.leaf [69, 71, 39, 33, 26, 30, 16, 51, 32, 11, 0,
  17, 35, 12, 18, 36, 5, 19, 6])) (.leaf [69, 71, 39, 33, 26, 30, 16, 51, 32, 11, 0, 17, 35, 12,
  18, 36, 5, 19, 6])) (.leaf [69, 71, 39, 33, 26, 30, 16, 51, 32, 11, 0, 17, 35, 12, 18, 36, 5, 19,
  6])) (.leaf [69, 71, 39, 33, 26, 30, 16, 51, 32, 11, 0, 17, 35, 12, 18, 36, 5, 19, 6])) (.leaf
  [69, 71, 39, 33, 26, 30, 16, 51, 32, 11, 0, 17, 35, 12, 18, 36, 5, 19, 6])) (.leaf [69, 71, 39,
  33, 26, 30, 16, 51, 32, 11, 0, 17, 35, 12, 18, 36, 5, 19, 6])) (.leaf [69, 71, 39, 33, 26, 30,
  16, 51, 32, 11, 0, 17, 35, 12, 18, 36, 5, 19, 6])

/-- some of the cases -/
def real5OneCase199 : LooseTree :=
  .breaks 17907794 (.breaks 1052753 (.breaks 1065045 (.breaks 9474065 (.breaks 21053633 (.breaks
  24211537 (.breaks 1052769 (.breaks 4210881 (.breaks 9474177 (.breaks 21053457 (.breaks 24170693
  (.breaks 4210705 (.breaks 9474193 (.breaks 13684817 (.breaks 21053473 (.breaks 4210721 (.breaks
  21053441 (.breaks 4210689 (.leaf [69, 61, 21, 47, 33, 26, 62, 27, 20, 32, 11, 55, 28, 15, 12, 56,
  0, 22, 5, 23, 6]) (.leaf [69, 61, 21, 47, 33, 26, 62, 27, 20, 32, 11, 55, 28, 15, 12, 56, 0, 22,
  5, 23, 6])) (.leaf [69, 61, 21, 47, 33, 26, 62, 27, 20, 32, 11, 55, 28, 15, 12, 56, 0, 22, 5, 23,
  6])) (.leaf [69, 61, 21, 47, 33, 26, 62, 27, 20, 32, 11, 55, 28, 15, 12, 56, 0, 22, 5, 23, 6]))
  (.leaf [69, 61, 21, 47, 33, 26, 62, 27, 20, 32, 11, 55, 28, 15, 12, 56, 0, 22, 5, 23, 6])) (.leaf
  [69, 61, 21, 47, 33, 26, 62, 27, 20, 32, 11, 55, 28, 15, 12, 56, 0, 22, 5, 23, 6])) (.leaf [69,
  61, 21, 47, 33, 26, 62, 27, 20, 32, 11, 55, 28, 15, 12, 56, 0, 22, 5, 23, 6])) (.leaf [69, 61,
  21, 47, 33, 26, 62, 27, 20, 32, 11, 55, 28, 15, 12, 56, 0, 22, 5, 23, 6])) (.leaf [69, 61, 21,
  47, 33, 26, 62, 27, 20, 32, 11, 55, 28, 15, 12, 56, 0, 22, 5, 23, 6])) (.leaf [69, 61, 21, 47,
  33, 26, 62, 27, 20, 32, 11, 55, 28, 15, 12, 56, 0, 22, 5, 23, 6])) (.leaf [69, 61, 21, 47, 33,
  26, 62, 27, 20, 32, 11, 55, 28, 15, 12, 56, 0, 22, 5, 23, 6])) (.leaf [69, 61, 21, 47, 33, 26,
  62, 27, 20, 32, 11, 55, 28, 15, 12, 56, 0, 22, 5, 23, 6])) (.leaf [69, 61, 21, 47, 33, 26, 62,
  27, 20, 32, 11, 55, 28, 15, 12, 56, 0, 22, 5, 23, 6])) (.leaf [69, 61, 21, 47, 33, 26, 62, 27,
  20, 32, 11, 55, 28, 15, 12, 56, 0, 22, 5, 23, 6])) (.leaf [69, 61, 21, 47, 33, 26, 62, 27, 20,
  32, 11, 55, 28, 15, 12, 56, 0, 22, 5, 23, 6])) (.leaf [69, 128, 21, 47, 33, 26, 55, 27, 20, 32,
  11, 56, 28, 15, 12, 0, 22, 5, 23, 6])) (.leaf [69, 61, 21, 47, 33, 26, 62, 27, 20, 32, 11, 55,
  28, 15, 12, 56, 0, 22, 5, 23, 6])) (.leaf [69, 61, 21, 47, 33, 26, 62, 27, 20, 32, 11, 55, 28,
  15, 12, 56, 0, 22, 5, 23, 6])) (.leaf [69, 61, 21, 47, 33, 26, 62, 27, 20, 32, 11, 55, 28, 15,
  12, 56, 0, 22, 5, 23, 6])

/-- some of the cases -/
def real5OneCase200 : LooseTree :=
  .cases [] 21 (.breaks 24211537 (.breaks 1052769 (.breaks 4210881 (.breaks 24170693 (.breaks
  4210705 (.breaks 13684817 (.breaks 13713493 (.breaks 4210721 (.breaks 21053633 (.breaks 4210689
  (.breaks 21053457 (.breaks 21053473 (.breaks 21053441 (.leaf [69, 21, 33, 26, 20, 32, 11, 15, 12,
  0, 76, 5, 27, 6, 28, 22, 23]) (.leaf [69, 21, 33, 26, 20, 32, 11, 15, 12, 0, 76, 5, 27, 6, 28,
  22, 23])) (.leaf [69, 21, 33, 26, 20, 32, 11, 15, 12, 0, 76, 5, 27, 6, 28, 22, 23])) (.leaf [69,
  21, 33, 26, 20, 32, 11, 15, 12, 0, 76, 5, 27, 6, 28, 22, 23])) (.leaf [69, 21, 33, 26, 20, 32,
  11, 15, 12, 0, 76, 5, 27, 6, 28, 22, 23])) (.leaf [69, 21, 33, 26, 20, 32, 11, 15, 12, 0, 76, 5,
  27, 6, 28, 22, 23])) (.leaf [69, 21, 33, 26, 20, 32, 11, 15, 12, 0, 76, 5, 27, 6, 28, 22, 23]))
  (.leaf [69, 21, 33, 26, 20, 32, 11, 15, 12, 0, 76, 5, 27, 6, 28, 22, 23])) (.leaf [69, 21, 33,
  26, 20, 32, 11, 15, 12, 0, 76, 5, 27, 6, 28, 22, 23])) (.leaf [69, 21, 33, 26, 20, 32, 11, 15,
  12, 0, 76, 5, 27, 6, 28, 22, 23])) (.leaf [69, 21, 33, 26, 20, 32, 11, 15, 12, 0, 76, 5, 27, 6,
  28, 22, 23])) (.leaf [69, 21, 33, 26, 20, 32, 11, 15, 12, 0, 76, 5, 27, 6, 28, 22, 23])) (.leaf
  [69, 21, 33, 26, 20, 32, 11, 15, 12, 0, 76, 5, 27, 6, 28, 22, 23])) (.leaf [69, 21, 33, 26, 20,
  32, 11, 15, 12, 0, 76, 5, 27, 6, 28, 22, 23])) (.breaks 10490053 (.breaks 1052753 (.breaks
  1065045 (.breaks 24211537 (.breaks 1052769 (.breaks 4210881 (.breaks 24199250 (.breaks 4210705
  (.breaks 21024965 (.breaks 21053633 (.breaks 4210721 (.breaks 13684817 (.breaks 21053457 (.breaks
  4210689 (.breaks 21053473 (.breaks 21053441 (.leaf [69, 21, 33, 26, 20, 32, 11, 77, 12, 78, 27,
  5, 0, 28, 6, 22, 23]) (.leaf [69, 21, 33, 26, 20, 32, 11, 77, 12, 78, 27, 5, 0, 28, 6, 22, 23]))
  (.leaf [69, 21, 33, 26, 20, 32, 11, 77, 12, 78, 27, 5, 0, 28, 6, 22, 23])) (.leaf [69, 21, 33,
  26, 20, 32, 11, 77, 12, 78, 27, 5, 0, 28, 6, 22, 23])) (.leaf [69, 21, 33, 26, 20, 32, 11, 77,
  12, 78, 27, 5, 0, 28, 6, 22, 23])) (.leaf [69, 21, 33, 26, 20, 32, 11, 77, 12, 78, 27, 5, 0, 28,
  6, 22, 23])) (.leaf [69, 21, 33, 26, 20, 32, 11, 77, 12, 78, 27, 5, 0, 28, 6, 22, 23])) (.leaf
  [69, 21, 33, 26, 20, 32, 11, 77, 12, 78, 27, 5, 0, 28, 6, 22, 23])) (.leaf [69, 21, 33, 26, 20,
  32, 11, 77, 12, 78, 27, 5, 0, 28, 6, 22, 23])) (.leaf [69, 21, 33, 26, 20, 32, 11, 77, 12, 78,
  27, 5, 0, 28, 6, 22, 23])) (.leaf [69, 21, 33, 26, 20, 32, 11, 77, 12, 78, 27, 5, 0, 28, 6, 22,
  23])) (.leaf [69, 21, 33, 26, 20, 32, 11, 77, 12, 78, 27, 5, 0, 28, 6, 22, 23])) (.leaf [69, 21,
  33, 26, 20, 32, 11, 77, 12, 78, 27, 5, 0, 28, 6, 22, 23])) (.leaf [69, 21, 33, 26, 20, 32, 11,
  77, 12, 78, 27, 5, 0, 28, 6, 22, 23])) (.leaf [69, 21, 33, 26, 20, 32, 11, 77, 12, 78, 27, 5, 0,
  28, 6, 22, 23])) (.leaf [69, 21, 33, 26, 20, 32, 11, 77, 12, 78, 27, 5, 0, 28, 6, 22, 23]))
  (.leaf [69, 21, 33, 26, 20, 32, 11, 77, 7, 12, 78, 27, 8, 5, 0, 28, 9, 6, 22, 10, 23]))

/-- some of the cases -/
def real5OneCase201 : LooseTree :=
  .cases [] 6 (.breaks 10490053 (.breaks 17907794 (.breaks 1065045 (.breaks 21053633 (.breaks
  21065810 (.breaks 1052769 (.breaks 4210881 (.breaks 21053457 (.breaks 24170693 (.breaks 24211649
  (.breaks 4210705 (.breaks 13684817 (.breaks 21053473 (.breaks 24211473 (.breaks 4210721 (.breaks
  21053441 (.breaks 24211489 (.breaks 4210689 (.breaks 24211457 (.leaf [69, 47, 33, 26, 27, 66, 32,
  11, 28, 15, 7, 12, 0, 22, 8, 5, 23, 9, 6, 10]) (.leaf [69, 47, 33, 26, 27, 66, 32, 11, 28, 15, 7,
  12, 0, 22, 8, 5, 23, 9, 6, 10])) (.leaf [69, 47, 33, 26, 27, 66, 32, 11, 28, 15, 7, 12, 0, 22, 8,
  5, 23, 9, 6, 10])) (.leaf [69, 47, 33, 26, 27, 66, 32, 11, 28, 15, 7, 12, 0, 22, 8, 5, 23, 9, 6,
  10])) (.leaf [69, 47, 33, 26, 27, 66, 32, 11, 28, 15, 7, 12, 0, 22, 8, 5, 23, 9, 6, 10])) (.leaf
  [69, 47, 33, 26, 27, 66, 32, 11, 28, 15, 7, 12, 0, 22, 8, 5, 23, 9, 6, 10])) (.leaf [69, 47, 33,
  26, 27, 66, 32, 11, 28, 15, 7, 12, 0, 22, 8, 5, 23, 9, 6, 10])) (.leaf [69, 47, 33, 26, 27, 66,
  32, 11, 28, 15, 7, 12, 0, 22, 8, 5, 23, 9, 6, 10])) (.leaf [69, 47, 33, 26, 27, 66, 32, 11, 28,
  15, 7, 12, 0, 22, 8, 5, 23, 9, 6, 10])) (.leaf [69, 47, 33, 26, 27, 66, 32, 11, 28, 15, 7, 12, 0,
  22, 8, 5, 23, 9, 6, 10])) (.leaf [69, 47, 33, 26, 27, 66, 32, 11, 28, 15, 7, 12, 0, 22, 8, 5, 23,
  9, 6, 10])) (.leaf [69, 47, 33, 26, 27, 66, 32, 11, 28, 15, 7, 12, 0, 22, 8, 5, 23, 9, 6, 10]))
  (.leaf [69, 47, 33, 26, 27, 66, 32, 11, 28, 15, 7, 12, 0, 22, 8, 5, 23, 9, 6, 10])) (.leaf [69,
  47, 33, 26, 27, 66, 32, 11, 28, 15, 7, 12, 0, 22, 8, 5, 23, 9, 6, 10])) (.leaf [69, 47, 33, 26,
  27, 66, 32, 11, 28, 15, 7, 12, 0, 22, 8, 5, 23, 9, 6, 10])) (.leaf [69, 47, 33, 26, 27, 66, 32,
  11, 28, 15, 7, 12, 0, 31, 22, 8, 5, 13, 23, 9, 6, 14, 10])) (.leaf [69, 47, 33, 26, 27, 66, 32,
  11, 28, 15, 7, 12, 0, 22, 8, 5, 23, 9, 6, 10])) (.leaf [69, 47, 33, 26, 27, 66, 32, 11, 28, 15,
  7, 12, 0, 22, 8, 5, 23, 9, 6, 10])) (.leaf [69, 47, 33, 26, 27, 66, 32, 11, 28, 15, 7, 12, 0, 31,
  22, 8, 5, 13, 23, 9, 6, 14, 10])) (.leaf [69, 47, 33, 26, 27, 66, 32, 11, 28, 15, 7, 12, 0, 31,
  22, 8, 5, 13, 23, 9, 6, 14, 10])) (.breaks 18927810 (.breaks 1052753 (.breaks 1065045 (.breaks
  13684817 (.breaks 21053633 (.breaks 21065810 (.breaks 1052769 (.breaks 4210881 (.breaks 21053457
  (.breaks 24211649 (.breaks 4210705 (.breaks 21053473 (.breaks 24211473 (.breaks 4210721 (.breaks
  21053441 (.breaks 24211489 (.breaks 4210689 (.breaks 24211457 (.leaf [69, 47, 87, 33, 26, 0, 27,
  66, 32, 11, 28, 7, 12, 22, 8, 5, 23, 9, 6, 10]) (.leaf [69, 47, 87, 33, 26, 0, 27, 66, 32, 11,
  28, 7, 12, 22, 8, 5, 23, 9, 6, 10])) (.leaf [69, 47, 87, 33, 26, 0, 27, 66, 32, 11, 28, 7, 12,
  22, 8, 5, 23, 9, 6, 10])) (.leaf [69, 47, 87, 33, 26, 0, 27, 66, 32, 11, 28, 7, 12, 22, 8, 5, 23,
  9, 6, 10])) (.leaf [69, 47, 87, 33, 26, 0, 27, 66, 32, 11, 28, 7, 12, 22, 8, 5, 23, 9, 6, 10]))
  (.leaf [69, 47, 87, 33, 26, 0, 27, 66, 32, 11, 28, 7, 12, 22, 8, 5, 23, 9, 6, 10])) (.leaf [69,
  47, 87, 33, 26, 0, 27, 66, 32, 11, 28, 7, 12, 22, 8, 5, 23, 9, 6, 10])) (.leaf [69, 47, 87, 33,
  26, 0, 27, 66, 32, 11, 28, 7, 12, 22, 8, 5, 23, 9, 6, 10])) (.leaf [69, 47, 87, 33, 26, 0, 27,
  66, 32, 11, 28, 7, 12, 22, 8, 5, 23, 9, 6, 10])) (.leaf [69, 47, 87, 33, 26, 0, 27, 66, 32, 11,
  28, 7, 12, 22, 8, 5, 23, 9, 6, 10])) (.leaf [69, 47, 87, 33, 26, 0, 27, 66, 32, 11, 28, 7, 12,
  22, 8, 5, 23, 9, 6, 10])) (.leaf [69, 47, 87, 33, 26, 0, 27, 66, 32, 11, 28, 7, 12, 22, 8, 5, 23,
  9, 6, 10])) (.leaf [69, 47, 87, 33, 26, 0, 27, 66, 32, 11, 28, 7, 12, 22, 8, 5, 23, 9, 6, 10]))
  (.leaf [69, 47, 87, 33, 26, 0, 27, 66, 32, 11, 28, 7, 12, 22, 8, 5, 23, 9, 6, 10])) (.leaf [69,
  47, 87, 33, 26, 0, 27, 66, 32, 11, 28, 7, 12, 22, 8, 5, 23, 9, 6, 10])) (.leaf [69, 47, 87, 33,
  26, 0, 27, 66, 32, 11, 28, 7, 12, 22, 8, 5, 23, 9, 6, 10])) (.leaf [69, 47, 87, 33, 26, 0, 27,
  66, 32, 11, 28, 7, 12, 22, 8, 5, 23, 9, 6, 10])) (.leaf [69, 47, 87, 33, 26, 0, 27, 66, 32, 11,
  28, 7, 12, 22, 8, 5, 23, 9, 6, 10])) (.leaf [69, 47, 87, 33, 26, 0, 27, 66, 32, 11, 28, 7, 12,
  22, 8, 5, 23, 9, 6, 10]))

/-- some of the cases -/
def real5OneCase202 : LooseTree :=
  .breaks 17907794 (.breaks 22097938 (.breaks 1052753 (.breaks 1065045 (.breaks 20000897 (.breaks
  21053633 (.breaks 24211537 (.breaks 1052769 (.breaks 4210881 (.breaks 20000945 (.breaks 21053457
  (.breaks 24170693 (.breaks 4210705 (.breaks 13684817 (.breaks 20000929 (.breaks 21053473 (.breaks
  4210721 (.breaks 21053441 (.breaks 4210689 (.leaf [69, 21, 47, 71, 33, 26, 51, 27, 20, 32, 11,
  35, 28, 15, 12, 0, 36, 22, 5, 23, 6]) (.leaf [69, 21, 47, 71, 33, 26, 51, 27, 20, 32, 11, 35, 28,
  15, 12, 0, 36, 22, 5, 23, 6])) (.leaf [69, 21, 47, 71, 33, 26, 51, 27, 20, 32, 11, 35, 28, 15,
  12, 0, 36, 22, 5, 23, 6])) (.leaf [69, 21, 47, 71, 33, 26, 51, 27, 20, 32, 11, 35, 28, 15, 12, 0,
  36, 22, 5, 23, 6])) (.leaf [69, 21, 47, 71, 33, 26, 51, 27, 20, 32, 11, 35, 28, 15, 12, 0, 36,
  22, 5, 23, 6])) (.leaf [69, 21, 47, 71, 33, 26, 51, 27, 20, 32, 11, 35, 28, 15, 12, 0, 36, 22, 5,
  23, 6])) (.leaf [69, 21, 47, 71, 33, 26, 51, 27, 20, 32, 11, 35, 28, 15, 12, 0, 36, 22, 5, 23,
  6])) (.leaf [69, 21, 47, 71, 33, 26, 51, 27, 20, 32, 11, 35, 28, 15, 12, 0, 36, 22, 5, 23, 6]))
  (.leaf [69, 21, 47, 71, 33, 26, 51, 27, 20, 32, 11, 35, 28, 15, 12, 0, 36, 22, 5, 23, 6])) (.leaf
  [69, 21, 47, 71, 33, 26, 51, 27, 20, 32, 11, 35, 28, 15, 12, 0, 36, 22, 5, 23, 6])) (.leaf [69,
  21, 47, 71, 33, 26, 51, 27, 20, 32, 11, 35, 28, 15, 12, 0, 36, 22, 5, 23, 6])) (.leaf [69, 21,
  47, 71, 33, 26, 51, 27, 20, 32, 11, 35, 28, 15, 12, 0, 36, 22, 5, 23, 6])) (.leaf [69, 21, 47,
  71, 33, 26, 51, 27, 20, 32, 11, 35, 28, 15, 12, 0, 36, 22, 5, 23, 6])) (.leaf [69, 21, 47, 71,
  33, 26, 51, 27, 20, 32, 11, 35, 28, 15, 12, 0, 36, 22, 5, 23, 6])) (.leaf [69, 21, 47, 71, 33,
  26, 51, 27, 20, 32, 11, 35, 28, 15, 12, 0, 36, 22, 5, 23, 6])) (.leaf [69, 21, 47, 71, 33, 26,
  51, 27, 20, 32, 11, 35, 28, 15, 12, 0, 36, 22, 5, 23, 6])) (.leaf [69, 21, 47, 71, 33, 26, 51,
  27, 20, 32, 11, 35, 28, 15, 12, 0, 36, 22, 5, 23, 6])) (.leaf [69, 21, 47, 71, 33, 26, 51, 27,
  20, 32, 11, 35, 28, 15, 12, 0, 36, 22, 5, 23, 6])) (.leaf [69, 21, 47, 71, 33, 26, 51, 27, 20,
  32, 11, 35, 28, 15, 12, 0, 36, 22, 5, 23, 6])) (.leaf [69, 21, 47, 71, 33, 26, 51, 27, 20, 32,
  11, 35, 28, 15, 12, 0, 36, 22, 5, 23, 6])

/-- some of the cases -/
def real5OneCase203 : LooseTree :=
  .breaks 10490053 (.breaks 1065045 (.breaks 4210881 (.breaks 4276306 (.breaks 23158801 (.breaks
  4210705 (.breaks 21041234 (.breaks 4210721 (.breaks 17895617 (.breaks 17920082 (.breaks 4210689
  (.breaks 17895441 (.breaks 24170693 (.breaks 24211649 (.breaks 13684817 (.breaks 17895457
  (.breaks 24211473 (.breaks 17895425 (.breaks 24211489 (.breaks 24211457 (.leaf [69, 44, 33, 26,
  45, 32, 11, 95, 37, 12, 50, 5, 16, 73, 6, 17, 15, 7, 0, 18, 8, 19, 9, 10]) (.leaf [69, 44, 33,
  26, 45, 32, 11, 95, 37, 12, 50, 5, 16, 73, 6, 17, 15, 7, 0, 18, 8, 19, 9, 10])) (.leaf [69, 44,
  33, 26, 45, 32, 11, 95, 37, 12, 50, 5, 16, 73, 6, 17, 15, 7, 0, 18, 8, 19, 9, 10])) (.leaf [69,
  44, 33, 26, 45, 32, 11, 95, 37, 12, 50, 5, 16, 73, 6, 17, 15, 7, 0, 18, 8, 19, 9, 10])) (.leaf
  [69, 44, 33, 26, 45, 32, 11, 95, 37, 12, 50, 5, 16, 73, 6, 17, 15, 7, 0, 18, 8, 19, 9, 10]))
  (.leaf [69, 44, 33, 26, 45, 32, 11, 95, 37, 12, 50, 5, 16, 73, 6, 17, 15, 7, 0, 18, 8, 19, 9,
  10])) (.leaf [69, 44, 33, 26, 45, 32, 11, 95, 37, 12, 50, 5, 16, 73, 6, 17, 15, 7, 0, 18, 8, 19,
  9, 10])) (.leaf [69, 44, 33, 26, 45, 32, 11, 95, 37, 12, 50, 5, 16, 73, 6, 17, 15, 7, 0, 18, 8,
  19, 9, 10])) (.leaf [69, 44, 33, 26, 45, 32, 11, 95, 37, 12, 50, 5, 16, 73, 6, 17, 15, 7, 0, 18,
  8, 19, 9, 10])) (.leaf [69, 44, 33, 26, 45, 32, 11, 95, 37, 12, 50, 5, 16, 73, 6, 17, 15, 7, 0,
  18, 8, 19, 9, 10])) (.leaf [69, 44, 33, 26, 45, 32, 11, 95, 37, 12, 50, 5, 16, 73, 6, 17, 15, 7,
  0, 18, 8, 19, 9, 10])) (.leaf [69, 44, 33, 26, 45, 32, 11, 95, 37, 12, 50, 5, 16, 73, 6, 17, 15,
  7, 0, 18, 8, 19, 9, 10])) (.leaf [69, 44, 33, 26, 45, 32, 11, 95, 37, 12, 50, 5, 16, 73, 6, 17,
  15, 7, 0, 18, 8, 19, 9, 10])) (.leaf [69, 44, 33, 26, 45, 32, 11, 95, 37, 12, 50, 5, 16, 73, 6,
  17, 15, 7, 0, 18, 8, 19, 9, 10])) (.leaf [69, 44, 33, 26, 45, 32, 11, 95, 37, 12, 50, 5, 16, 73,
  6, 17, 15, 7, 0, 18, 8, 19, 9, 10])) (.leaf [69, 44, 33, 26, 45, 32, 11, 95, 37, 12, 50, 5, 16,
  73, 6, 17, 15, 7, 0, 18, 8, 19, 9, 10])) (.leaf [69, 44, 33, 26, 45, 32, 11, 95, 37, 12, 50, 5,
  16, 73, 6, 17, 15, 7, 0, 18, 8, 19, 9, 10])) (.leaf [69, 44, 33, 26, 45, 32, 11, 95, 37, 12, 50,
  5, 16, 73, 6, 17, 15, 7, 0, 18, 8, 19, 9, 10])) (.leaf [69, 44, 33, 26, 45, 32, 11, 95, 37, 12,
  50, 5, 16, 73, 6, 17, 15, 7, 0, 18, 8, 19, 9, 10])) (.leaf [69, 44, 33, 26, 45, 32, 11, 95, 37,
  12, 50, 5, 16, 73, 6, 17, 15, 7, 0, 18, 8, 19, 9, 10])) (.leaf [69, 44, 33, 26, 45, 32, 11, 95,
  37, 12, 50, 27, 5, 16, 73, 28, 6, 17, 22, 15, 7, 0, 18, 23, 8, 19, 9, 10])

/-- some of the cases -/
def real5OneCase204 : LooseTree :=
  .breaks 10490053 (.breaks 1065045 (.breaks 1052769 (.breaks 4210881 (.breaks 4276306 (.breaks
  4210705 (.breaks 21041234 (.breaks 4210721 (.breaks 17895617 (.breaks 17920082 (.breaks 4210689
  (.breaks 17895441 (.breaks 24170693 (.breaks 13684817 (.breaks 13705410 (.breaks 17895457
  (.breaks 24211473 (.breaks 17895425 (.breaks 18948177 (.breaks 24211489 (.breaks 18948209
  (.breaks 24211457 (.leaf [69, 33, 26, 32, 11, 95, 12, 50, 5, 16, 73, 6, 17, 15, 7, 0, 31, 18, 8,
  19, 13, 9, 14, 10]) (.leaf [69, 33, 26, 32, 11, 95, 12, 50, 5, 16, 73, 6, 17, 15, 7, 0, 31, 18,
  8, 19, 13, 9, 14, 10])) (.leaf [69, 33, 26, 32, 11, 95, 12, 50, 5, 16, 73, 6, 17, 15, 7, 0, 31,
  18, 8, 19, 13, 9, 14, 10])) (.leaf [69, 33, 26, 32, 11, 95, 12, 50, 5, 16, 73, 6, 17, 15, 7, 0,
  31, 18, 8, 19, 13, 9, 14, 10])) (.leaf [69, 33, 26, 32, 11, 95, 12, 50, 5, 16, 73, 6, 17, 15, 7,
  0, 31, 18, 8, 19, 13, 9, 14, 10])) (.leaf [69, 33, 26, 32, 11, 95, 12, 50, 5, 16, 73, 6, 17, 15,
  7, 0, 31, 18, 8, 19, 13, 9, 14, 10])) (.leaf [69, 33, 26, 32, 11, 95, 12, 50, 5, 16, 73, 6, 17,
  15, 7, 0, 31, 18, 8, 19, 13, 9, 14, 10])) (.leaf [69, 33, 26, 32, 11, 95, 12, 50, 5, 16, 73, 6,
  17, 15, 7, 0, 31, 18, 8, 19, 13, 9, 14, 10])) (.leaf [69, 33, 26, 32, 11, 95, 12, 50, 5, 16, 73,
  6, 17, 15, 7, 0, 31, 18, 8, 19, 13, 9, 14, 10])) (.leaf [69, 33, 26, 32, 11, 95, 12, 50, 5, 16,
  73, 6, 17, 15, 7, 0, 31, 18, 8, 19, 13, 9, 14, 10])) (.leaf [69, 33, 26, 32, 11, 95, 12, 50, 5,
  16, 73, 6, 17, 15, 7, 0, 31, 18, 8, 19, 13, 9, 14, 10])) (.leaf [69, 33, 26, 32, 11, 95, 12, 50,
  5, 16, 73, 6, 17, 15, 7, 0, 31, 18, 8, 19, 13, 9, 14, 10])) (.leaf [69, 33, 26, 32, 11, 95, 12,
  50, 5, 16, 73, 6, 17, 15, 7, 0, 31, 18, 8, 19, 13, 9, 14, 10])) (.leaf [69, 48, 33, 26, 35, 32,
  11, 95, 36, 12, 50, 5, 16, 73, 6, 17, 15, 7, 0, 31, 18, 8, 19, 13, 9, 14, 10])) (.leaf [69, 33,
  26, 32, 11, 95, 12, 50, 5, 16, 73, 6, 17, 15, 7, 0, 31, 18, 8, 19, 13, 9, 14, 10])) (.leaf [69,
  33, 26, 32, 11, 95, 12, 50, 5, 16, 73, 6, 17, 15, 7, 0, 31, 18, 8, 19, 13, 9, 14, 10])) (.leaf
  [69, 48, 33, 26, 35, 32, 11, 95, 36, 12, 50, 5, 16, 73, 6, 17, 15, 7, 0, 31, 18, 8, 19, 13, 9,
  14, 10])) (.leaf [69, 33, 26, 32, 11, 95, 12, 50, 5, 16, 73, 6, 17, 15, 7, 0, 31, 18, 8, 19, 13,
  9, 14, 10])) (.leaf [69, 48, 33, 26, 35, 32, 11, 95, 36, 12, 50, 5, 16, 73, 6, 17, 15, 7, 0, 31,
  18, 8, 19, 13, 9, 14, 10])) (.leaf [69, 33, 26, 32, 11, 95, 12, 50, 5, 16, 73, 6, 17, 15, 7, 0,
  31, 18, 8, 19, 13, 9, 14, 10])) (.leaf [69, 33, 26, 32, 11, 95, 12, 50, 5, 16, 73, 6, 17, 15, 7,
  0, 31, 18, 8, 19, 13, 9, 14, 10])) (.leaf [69, 48, 33, 26, 35, 32, 11, 95, 36, 12, 50, 27, 5, 16,
  73, 28, 6, 17, 22, 15, 7, 0, 31, 18, 23, 8, 19, 13, 9, 14, 10])) (.leaf [69, 48, 33, 26, 35, 32,
  11, 95, 36, 12, 50, 27, 5, 16, 73, 28, 6, 17, 22, 15, 7, 0, 31, 18, 23, 8, 19, 13, 9, 14, 10])

/-- some of the cases -/
def real5OneCase205 : LooseTree :=
  .breaks 10490053 (.breaks 1065045 (.breaks 13684817 (.breaks 1052769 (.breaks 4210881 (.breaks
  4276306 (.breaks 4210705 (.breaks 21041234 (.breaks 4210721 (.breaks 17895617 (.breaks 17920082
  (.breaks 4210689 (.breaks 17895441 (.breaks 24211649 (.breaks 17895457 (.breaks 24211473 (.breaks
  17895425 (.breaks 24211489 (.breaks 24211457 (.leaf [69, 87, 33, 26, 0, 32, 11, 95, 12, 50, 5,
  16, 73, 6, 17, 7, 18, 8, 19, 9, 10]) (.leaf [69, 87, 33, 26, 0, 32, 11, 95, 12, 50, 5, 16, 73, 6,
  17, 7, 18, 8, 19, 9, 10])) (.leaf [69, 87, 33, 26, 0, 32, 11, 95, 12, 50, 5, 16, 73, 6, 17, 7,
  18, 8, 19, 9, 10])) (.leaf [69, 87, 33, 26, 0, 32, 11, 95, 12, 50, 5, 16, 73, 6, 17, 7, 18, 8,
  19, 9, 10])) (.leaf [69, 87, 33, 26, 0, 32, 11, 95, 12, 50, 5, 16, 73, 6, 17, 7, 18, 8, 19, 9,
  10])) (.leaf [69, 87, 33, 26, 0, 32, 11, 95, 12, 50, 5, 16, 73, 6, 17, 7, 18, 8, 19, 9, 10]))
  (.leaf [69, 87, 33, 26, 0, 32, 11, 95, 12, 50, 5, 16, 73, 6, 17, 7, 18, 8, 19, 9, 10])) (.leaf
  [69, 87, 33, 26, 0, 32, 11, 95, 12, 50, 5, 16, 73, 6, 17, 7, 18, 8, 19, 9, 10])) (.leaf [69, 87,
  33, 26, 0, 32, 11, 95, 12, 50, 5, 16, 73, 6, 17, 7, 18, 8, 19, 9, 10])) (.leaf [69, 87, 33, 26,
  0, 32, 11, 95, 12, 50, 5, 16, 73, 6, 17, 7, 18, 8, 19, 9, 10])) (.leaf [69, 87, 33, 26, 0, 32,
  11, 95, 12, 50, 5, 16, 73, 6, 17, 7, 18, 8, 19, 9, 10])) (.leaf [69, 87, 33, 26, 0, 32, 11, 95,
  12, 50, 5, 16, 73, 6, 17, 7, 18, 8, 19, 9, 10])) (.leaf [69, 87, 33, 26, 0, 32, 11, 95, 12, 50,
  5, 16, 73, 6, 17, 7, 18, 8, 19, 9, 10])) (.leaf [69, 87, 33, 26, 0, 32, 11, 95, 12, 50, 5, 16,
  73, 6, 17, 7, 18, 8, 19, 9, 10])) (.leaf [69, 87, 33, 26, 0, 32, 11, 95, 12, 50, 5, 16, 73, 6,
  17, 7, 18, 8, 19, 9, 10])) (.leaf [69, 87, 33, 26, 0, 32, 11, 95, 12, 50, 5, 16, 73, 6, 17, 7,
  18, 8, 19, 9, 10])) (.leaf [69, 87, 33, 26, 0, 32, 11, 95, 12, 50, 5, 16, 73, 6, 17, 7, 18, 8,
  19, 9, 10])) (.leaf [69, 87, 33, 26, 0, 32, 11, 95, 12, 50, 5, 16, 73, 6, 17, 7, 18, 8, 19, 9,
  10])) (.leaf [69, 87, 48, 33, 26, 0, 35, 32, 11, 95, 36, 12, 50, 5, 16, 73, 6, 17, 7, 18, 8, 19,
  9, 10])) (.leaf [69, 87, 48, 33, 26, 0, 35, 32, 11, 95, 36, 12, 50, 5, 16, 73, 6, 17, 7, 18, 8,
  19, 9, 10])

/-- some of the cases -/
def real5OneCase206 : LooseTree :=
  .cases [] 48 (.breaks 17920098 (.breaks 1052753 (.breaks 4210881 (.breaks 24211537 (.breaks
  1052769 (.breaks 4210705 (.breaks 24170693 (.breaks 24211649 (.breaks 4210721 (.breaks 13684817
  (.breaks 24211473 (.breaks 4210689 (.breaks 24211489 (.breaks 24211457 (.leaf
  [69, 21, 129, 33, 11, 20, 32, 12, 15, 7, 5, 0, 8, 6, 9, 10]) (.leaf
  [69, 21, 129, 33, 11, 20, 32, 12, 15, 7, 5, 0, 8, 6, 9, 10])) (.leaf
  [69, 21, 129, 33, 11, 20, 32, 12, 15, 7, 5, 0, 8, 6, 9, 10])) (.leaf
  [69, 21, 129, 33, 11, 20, 32, 12, 15, 7, 5, 0, 8, 6, 9, 10])) (.leaf
  [69, 21, 129, 33, 11, 20, 32, 12, 15, 7, 5, 0, 8, 6, 9, 10])) (.leaf
  [69, 21, 129, 33, 11, 20, 32, 12, 15, 7, 5, 0, 8, 6, 9, 10])) (.leaf
  [69, 21, 129, 33, 11, 20, 32, 12, 15, 7, 5, 0, 8, 6, 9, 10])) (.leaf
  [69, 21, 129, 33, 11, 20, 32, 12, 15, 7, 5, 0, 8, 6, 9, 10])) (.leaf
  [69, 21, 129, 33, 11, 20, 32, 12, 15, 7, 5, 0, 8, 6, 9, 10])) (.leaf
  [69, 21, 129, 33, 11, 20, 32, 12, 15, 7, 5, 0, 8, 6, 9, 10])) (.leaf
  [69, 21, 129, 33, 11, 20, 32, 12, 15, 7, 5, 0, 8, 6, 9, 10])) (.leaf
  [69, 21, 129, 33, 11, 20, 32, 12, 15, 7, 5, 0, 8, 6, 9, 10])) (.leaf
  [69, 21, 129, 33, 11, 20, 32, 12, 15, 7, 5, 0, 8, 6, 9, 10])) (.leaf
  [69, 21, 129, 33, 11, 20, 32, 12, 15, 7, 5, 0, 8, 6, 9, 10])) (.leaf
  [69, 21, 129, 33, 11, 20, 32, 12, 15, 7, 5, 0, 8, 6, 9, 10])) (.breaks 1052753 (.breaks 4210881
  (.breaks 4264019 (.breaks 4264018 (.breaks 1052769 (.breaks 4210705 (.breaks 17920098 (.breaks
  17895617 (.breaks 4210721 (.breaks 17895441 (.breaks 24211537 (.breaks 4210689 (.breaks 17895457
  (.breaks 24170693 (.breaks 13684817 (.breaks 17895425 (.leaf [69, 119, 33, 11, 140, 136, 32, 12,
  21, 16, 5, 17, 20, 6, 18, 15, 0, 19]) (.leaf [69, 119, 33, 11, 140, 32, 12, 21, 5, 20, 6, 15, 7,
  0, 8, 9, 10])) (.leaf [69, 119, 33, 11, 140, 136, 32, 12, 21, 16, 5, 17, 20, 6, 18, 15, 0, 19]))
  (.leaf [69, 119, 33, 11, 140, 136, 32, 12, 21, 16, 5, 17, 20, 6, 18, 15, 0, 19])) (.leaf [69,
  119, 33, 11, 140, 32, 12, 21, 5, 20, 6, 15, 7, 0, 8, 9, 10])) (.leaf [69, 119, 33, 11, 140, 136,
  32, 12, 21, 16, 5, 17, 20, 6, 18, 15, 0, 19])) (.leaf [69, 119, 33, 11, 140, 136, 32, 12, 21, 16,
  5, 17, 20, 6, 18, 15, 0, 19])) (.leaf [69, 119, 33, 11, 140, 32, 12, 21, 5, 20, 6, 15, 7, 0, 8,
  9, 10])) (.leaf [69, 119, 33, 11, 140, 136, 32, 12, 21, 16, 5, 17, 20, 6, 18, 15, 0, 19])) (.leaf
  [69, 119, 33, 11, 140, 32, 12, 21, 5, 20, 6, 15, 7, 0, 8, 9, 10])) (.leaf [69, 119, 33, 11, 140,
  136, 32, 12, 21, 16, 5, 17, 20, 6, 18, 15, 0, 19])) (.leaf [69, 119, 33, 11, 140, 136, 32, 12,
  21, 16, 5, 17, 20, 6, 18, 15, 0, 19])) (.leaf [69, 119, 33, 11, 140, 136, 32, 12, 21, 16, 5, 17,
  20, 6, 18, 15, 0, 19])) (.leaf [69, 119, 33, 11, 140, 32, 12, 21, 5, 20, 6, 15, 7, 0, 8, 9, 10]))
  (.leaf [69, 119, 33, 11, 140, 136, 32, 12, 21, 16, 5, 17, 20, 6, 18, 15, 0, 19])) (.leaf [69,
  119, 33, 11, 140, 136, 32, 12, 21, 16, 5, 17, 20, 6, 18, 15, 0, 19])) (.leaf [69, 119, 33, 11,
  140, 136, 32, 12, 21, 16, 5, 17, 20, 6, 18, 15, 0, 19]))

/-- some of the cases -/
def real5OneCase207 : LooseTree :=
  .breaks 17879237 (.breaks 1052753 (.breaks 1065045 (.breaks 13684817 (.breaks 13725781 (.breaks
  21053633 (.breaks 1052769 (.breaks 4210881 (.breaks 21053457 (.breaks 24191173 (.breaks 24211649
  (.breaks 4210705 (.breaks 18948177 (.breaks 21053473 (.breaks 24211473 (.breaks 4210721 (.breaks
  18948209 (.breaks 21053441 (.breaks 24211489 (.breaks 4210689 (.breaks 24211457 (.leaf [69, 30,
  47, 33, 26, 0, 52, 27, 32, 11, 28, 75, 7, 12, 13, 22, 8, 5, 14, 23, 9, 6, 10]) (.leaf [69, 30,
  47, 33, 26, 0, 52, 27, 32, 11, 28, 75, 7, 12, 13, 22, 8, 5, 14, 23, 9, 6, 10])) (.leaf [69, 30,
  47, 33, 26, 0, 52, 27, 32, 11, 28, 75, 7, 12, 13, 22, 8, 5, 14, 23, 9, 6, 10])) (.leaf [69, 30,
  47, 33, 26, 0, 52, 27, 32, 11, 28, 75, 7, 12, 13, 22, 8, 5, 14, 23, 9, 6, 10])) (.leaf [69, 30,
  47, 33, 26, 0, 52, 27, 32, 11, 28, 75, 7, 12, 13, 22, 8, 5, 14, 23, 9, 6, 10])) (.leaf [69, 30,
  47, 33, 26, 0, 52, 27, 32, 11, 28, 75, 7, 12, 13, 22, 8, 5, 14, 23, 9, 6, 10])) (.leaf [69, 30,
  47, 33, 26, 0, 52, 27, 32, 11, 28, 75, 7, 12, 13, 22, 8, 5, 14, 23, 9, 6, 10])) (.leaf [69, 30,
  47, 33, 26, 0, 52, 27, 32, 11, 28, 75, 7, 12, 13, 22, 8, 5, 14, 23, 9, 6, 10])) (.leaf [69, 30,
  47, 33, 26, 0, 52, 27, 32, 11, 28, 75, 7, 12, 13, 22, 8, 5, 14, 23, 9, 6, 10])) (.leaf [69, 30,
  47, 33, 26, 0, 52, 27, 32, 11, 28, 75, 7, 12, 13, 22, 8, 5, 14, 23, 9, 6, 10])) (.leaf [69, 30,
  47, 33, 26, 0, 52, 27, 32, 11, 28, 75, 7, 12, 13, 22, 8, 5, 14, 23, 9, 6, 10])) (.leaf [69, 30,
  47, 33, 26, 0, 52, 27, 32, 11, 28, 75, 7, 12, 13, 22, 8, 5, 14, 23, 9, 6, 10])) (.leaf [69, 30,
  47, 33, 26, 0, 52, 27, 32, 11, 28, 75, 7, 12, 13, 22, 8, 5, 14, 23, 9, 6, 10])) (.leaf [69, 30,
  47, 33, 26, 0, 52, 27, 32, 11, 28, 75, 7, 12, 13, 22, 8, 5, 14, 23, 9, 6, 10])) (.leaf [69, 30,
  47, 33, 26, 0, 52, 27, 32, 11, 28, 75, 7, 12, 13, 22, 8, 5, 14, 23, 9, 6, 10])) (.leaf [69, 30,
  47, 33, 26, 0, 52, 27, 32, 11, 28, 75, 7, 12, 13, 22, 8, 5, 14, 23, 9, 6, 10])) (.leaf [69, 30,
  47, 33, 26, 0, 52, 27, 32, 11, 28, 75, 7, 12, 13, 22, 8, 5, 14, 23, 9, 6, 10])) (.leaf [69, 30,
  47, 33, 26, 0, 52, 27, 32, 11, 28, 75, 7, 12, 13, 22, 8, 5, 14, 23, 9, 6, 10])) (.leaf [69, 30,
  47, 33, 26, 0, 52, 27, 32, 11, 28, 75, 7, 12, 13, 22, 8, 5, 14, 23, 9, 6, 10])) (.leaf [69, 30,
  47, 33, 26, 0, 52, 27, 32, 11, 28, 75, 7, 12, 13, 22, 8, 5, 14, 23, 9, 6, 10])) (.leaf [69, 30,
  47, 33, 26, 0, 52, 27, 32, 11, 28, 75, 7, 12, 13, 22, 8, 5, 14, 23, 9, 6, 10])) (.leaf [69, 30,
  47, 33, 26, 0, 52, 27, 32, 11, 28, 75, 7, 12, 13, 22, 8, 5, 14, 23, 9, 6, 10])

/-- some of the cases -/
def real5OneCase208 : LooseTree :=
  .breaks 1065045 (.breaks 1052769 (.breaks 4210881 (.breaks 4276306 (.breaks 4210705 (.breaks
  21041234 (.breaks 4210721 (.breaks 17879237 (.breaks 4210689 (.breaks 13684817 (.breaks 13725781
  (.breaks 24191173 (.breaks 24211649 (.breaks 18948177 (.breaks 24211473 (.breaks 18948209
  (.breaks 24211489 (.breaks 24211457 (.leaf [69, 33, 26, 32, 11, 95, 12, 50, 5, 30, 6, 0, 52, 75,
  7, 13, 8, 14, 9, 10]) (.leaf [69, 33, 26, 32, 11, 95, 12, 50, 5, 30, 6, 0, 52, 75, 7, 13, 8, 14,
  9, 10])) (.leaf [69, 33, 26, 32, 11, 95, 12, 50, 5, 30, 6, 0, 52, 75, 7, 13, 8, 14, 9, 10]))
  (.leaf [69, 33, 26, 32, 11, 95, 12, 50, 5, 30, 6, 0, 52, 75, 7, 13, 8, 14, 9, 10])) (.leaf [69,
  33, 26, 32, 11, 95, 12, 50, 5, 30, 6, 0, 52, 75, 7, 13, 8, 14, 9, 10])) (.leaf [69, 33, 26, 32,
  11, 95, 12, 50, 5, 30, 6, 0, 52, 75, 7, 13, 8, 14, 9, 10])) (.leaf [69, 33, 26, 32, 11, 95, 12,
  50, 5, 30, 6, 0, 52, 75, 7, 13, 8, 14, 9, 10])) (.leaf [69, 33, 26, 32, 11, 95, 12, 50, 5, 30, 6,
  0, 52, 75, 7, 13, 8, 14, 9, 10])) (.leaf [69, 33, 26, 32, 11, 95, 12, 50, 5, 30, 6, 0, 52, 75, 7,
  13, 8, 14, 9, 10])) (.leaf [69, 33, 26, 32, 11, 95, 12, 50, 5, 30, 6, 0, 52, 75, 7, 13, 8, 14, 9,
  10])) (.leaf [69, 33, 26, 32, 11, 95, 12, 50, 5, 30, 6, 0, 52, 75, 7, 13, 8, 14, 9, 10])) (.leaf
  [69, 33, 26, 32, 11, 95, 12, 50, 5, 30, 6, 0, 52, 75, 7, 13, 8, 14, 9, 10])) (.leaf [69, 33, 26,
  32, 11, 95, 12, 50, 5, 30, 6, 0, 52, 75, 7, 13, 8, 14, 9, 10])) (.leaf [69, 33, 26, 32, 11, 95,
  12, 50, 5, 30, 6, 0, 52, 75, 7, 13, 8, 14, 9, 10])) (.leaf [69, 33, 26, 32, 11, 95, 12, 50, 5,
  30, 6, 0, 52, 75, 7, 13, 8, 14, 9, 10])) (.leaf [69, 33, 26, 32, 11, 95, 12, 50, 5, 30, 6, 0, 52,
  75, 7, 13, 8, 14, 9, 10])) (.leaf [69, 33, 26, 32, 11, 95, 12, 50, 5, 30, 6, 0, 52, 75, 7, 13, 8,
  14, 9, 10])) (.leaf [69, 33, 26, 32, 11, 95, 12, 50, 5, 30, 6, 0, 52, 75, 7, 13, 8, 14, 9, 10]))
  (.leaf [69, 33, 26, 32, 11, 95, 12, 50, 5, 30, 6, 0, 52, 75, 7, 13, 8, 14, 9, 10])

/-- some of the cases -/
def real5OneCase209 : LooseTree :=
  .breaks 1052753 (.breaks 4210881 (.breaks 13684817 (.breaks 13725781 (.breaks 1052769 (.breaks
  4210705 (.breaks 24191173 (.breaks 24211649 (.breaks 4210721 (.breaks 18948177 (.breaks 24211473
  (.breaks 4210689 (.breaks 18948209 (.breaks 24211489 (.breaks 24211457 (.leaf [69, 30, 119, 33,
  11, 0, 52, 32, 12, 75, 7, 5, 13, 8, 6, 14, 9, 10]) (.leaf [69, 30, 119, 33, 11, 0, 52, 32, 12,
  75, 7, 5, 13, 8, 6, 14, 9, 10])) (.leaf [69, 30, 119, 33, 11, 0, 52, 32, 12, 75, 7, 5, 13, 8, 6,
  14, 9, 10])) (.leaf [69, 30, 119, 33, 11, 0, 52, 32, 12, 75, 7, 5, 13, 8, 6, 14, 9, 10])) (.leaf
  [69, 30, 119, 33, 11, 0, 52, 32, 12, 75, 7, 5, 13, 8, 6, 14, 9, 10])) (.leaf [69, 30, 119, 33,
  11, 0, 52, 32, 12, 75, 7, 5, 13, 8, 6, 14, 9, 10])) (.leaf [69, 30, 119, 33, 11, 0, 52, 32, 12,
  75, 7, 5, 13, 8, 6, 14, 9, 10])) (.leaf [69, 30, 119, 33, 11, 0, 52, 32, 12, 75, 7, 5, 13, 8, 6,
  14, 9, 10])) (.leaf [69, 30, 119, 33, 11, 0, 52, 32, 12, 75, 7, 5, 13, 8, 6, 14, 9, 10])) (.leaf
  [69, 30, 119, 33, 11, 0, 52, 32, 12, 75, 7, 5, 13, 8, 6, 14, 9, 10])) (.leaf [69, 30, 119, 33,
  11, 0, 52, 32, 12, 75, 7, 5, 13, 8, 6, 14, 9, 10])) (.leaf [69, 30, 119, 33, 11, 0, 52, 32, 12,
  75, 7, 5, 13, 8, 6, 14, 9, 10])) (.leaf [69, 30, 119, 33, 11, 0, 52, 32, 12, 75, 7, 5, 13, 8, 6,
  14, 9, 10])) (.leaf [69, 30, 119, 33, 11, 0, 52, 32, 12, 75, 7, 5, 13, 8, 6, 14, 9, 10])) (.leaf
  [69, 30, 119, 33, 11, 0, 52, 32, 12, 75, 7, 5, 13, 8, 6, 14, 9, 10])) (.leaf [69, 30, 119, 33,
  11, 0, 52, 32, 12, 75, 7, 5, 13, 8, 6, 14, 9, 10])

/-- some of the cases -/
def real5OneCase210 : LooseTree :=
  .cases [] 24 (.breaks 1065045 (.breaks 24211649 (.breaks 24215749 (.breaks 1052769 (.breaks
  4210881 (.breaks 24211473 (.breaks 25264209 (.breaks 4210705 (.breaks 24211489 (.breaks 4210721
  (.breaks 24211457 (.breaks 4210689 (.leaf
  [69, 30, 92, 33, 26, 0, 7, 86, 32, 11, 8, 24, 12, 9, 5, 10, 6]) (.leaf
  [69, 30, 92, 33, 26, 0, 7, 86, 32, 11, 8, 24, 12, 9, 5, 10, 6])) (.leaf
  [69, 30, 92, 33, 26, 0, 7, 86, 32, 11, 8, 24, 12, 9, 5, 10, 6])) (.leaf
  [69, 30, 92, 33, 26, 0, 7, 86, 32, 11, 8, 24, 12, 9, 5, 10, 6])) (.leaf
  [69, 30, 92, 33, 26, 0, 7, 86, 32, 11, 8, 24, 12, 9, 5, 10, 6])) (.leaf
  [69, 30, 92, 33, 26, 0, 7, 86, 32, 11, 8, 24, 12, 9, 5, 10, 6])) (.leaf
  [69, 30, 92, 33, 26, 0, 7, 86, 32, 11, 8, 24, 12, 9, 5, 10, 6])) (.leaf
  [69, 30, 92, 33, 26, 0, 7, 86, 32, 11, 8, 24, 12, 9, 5, 10, 6])) (.leaf
  [69, 30, 92, 33, 26, 0, 7, 86, 32, 11, 8, 24, 12, 9, 5, 10, 6])) (.leaf
  [69, 30, 92, 33, 26, 0, 7, 86, 32, 11, 8, 24, 12, 9, 5, 10, 6])) (.leaf
  [69, 30, 92, 33, 26, 0, 7, 86, 32, 11, 8, 24, 12, 9, 5, 10, 6])) (.leaf
  [69, 30, 92, 33, 26, 0, 7, 86, 32, 11, 8, 24, 12, 9, 5, 10, 6])) (.leaf
  [69, 30, 92, 33, 26, 0, 7, 86, 32, 11, 8, 24, 12, 9, 5, 10, 6])) (.cases [] 34 (.breaks 10490053
  (.breaks 1052753 (.breaks 1065045 (.breaks 13684817 (.breaks 24211649 (.breaks 1052769 (.breaks
  4210881 (.breaks 24211473 (.breaks 4210705 (.breaks 24211489 (.breaks 4210721 (.breaks 24211457
  (.breaks 4210689 (.leaf [69, 30, 83, 33, 26, 0, 7, 32, 11, 8, 12, 9, 5, 10, 6]) (.leaf
  [69, 30, 83, 33, 26, 0, 7, 32, 11, 8, 12, 9, 5, 10, 6])) (.leaf
  [69, 30, 83, 33, 26, 0, 7, 32, 11, 8, 12, 9, 5, 10, 6])) (.leaf
  [69, 30, 83, 33, 26, 0, 7, 32, 11, 8, 12, 9, 5, 10, 6])) (.leaf
  [69, 30, 83, 33, 26, 0, 7, 32, 11, 8, 12, 9, 5, 10, 6])) (.leaf
  [69, 30, 83, 33, 26, 0, 7, 32, 11, 8, 12, 9, 5, 10, 6])) (.leaf
  [69, 30, 83, 33, 26, 0, 7, 32, 11, 8, 12, 9, 5, 10, 6])) (.leaf
  [69, 30, 83, 33, 26, 0, 7, 32, 11, 8, 12, 9, 5, 10, 6])) (.leaf
  [69, 30, 83, 33, 26, 0, 7, 32, 11, 8, 12, 9, 5, 10, 6])) (.leaf
  [69, 30, 83, 33, 26, 0, 7, 32, 11, 8, 12, 9, 5, 10, 6])) (.leaf
  [69, 30, 83, 33, 26, 0, 7, 32, 11, 8, 12, 9, 5, 10, 6])) (.leaf
  [69, 30, 83, 33, 26, 0, 7, 32, 11, 8, 12, 9, 5, 10, 6])) (.leaf
  [69, 30, 83, 33, 26, 0, 7, 32, 11, 8, 12, 9, 5, 10, 6])) (.leaf [69, 30, 83, 33, 26, 0, 7, 100,
  32, 11, 8, 40, 12, 9, 41, 5, 10, 42, 6, 43])) (.breaks 1065045 (.breaks 24211649 (.breaks 1052769
  (.breaks 4210881 (.breaks 24211473 (.breaks 4210705 (.breaks 24211489 (.breaks 4210721 (.breaks
  24211457 (.breaks 4210689 (.leaf [69, 30, 132, 33, 26, 0, 7, 32, 11, 8, 12, 9, 5, 10, 6]) (.leaf
  [69, 30, 132, 33, 26, 0, 7, 32, 11, 8, 12, 9, 5, 10, 6])) (.leaf
  [69, 30, 132, 33, 26, 0, 7, 32, 11, 8, 12, 9, 5, 10, 6])) (.leaf
  [69, 30, 132, 33, 26, 0, 7, 32, 11, 8, 12, 9, 5, 10, 6])) (.leaf
  [69, 30, 132, 33, 26, 0, 7, 32, 11, 8, 12, 9, 5, 10, 6])) (.leaf
  [69, 30, 132, 33, 26, 0, 7, 32, 11, 8, 12, 9, 5, 10, 6])) (.leaf
  [69, 30, 132, 33, 26, 0, 7, 32, 11, 8, 12, 9, 5, 10, 6])) (.leaf
  [69, 30, 132, 33, 26, 0, 7, 32, 11, 8, 12, 9, 5, 10, 6])) (.leaf
  [69, 30, 132, 33, 26, 0, 7, 32, 11, 8, 12, 9, 5, 10, 6])) (.leaf
  [69, 30, 132, 33, 26, 0, 7, 32, 11, 8, 12, 9, 5, 10, 6])) (.leaf
  [69, 30, 132, 33, 26, 0, 7, 32, 11, 8, 12, 9, 5, 10, 6])))

/-- some of the cases -/
def real5OneCase211 : LooseTree :=
  .breaks 24170693 (.breaks 13701205 (.breaks 13713493 (.breaks 17895617 (.breaks 21053633 (.breaks
  17895441 (.breaks 21053457 (.breaks 17895457 (.breaks 21053473 (.breaks 17895425 (.breaks
  21053441 (.leaf [15, 0, 57, 76, 16, 27, 17, 28, 18, 22, 19, 23]) (.leaf
  [15, 0, 57, 76, 16, 27, 17, 28, 18, 22, 19, 23])) (.leaf
  [15, 0, 57, 76, 16, 27, 17, 28, 18, 22, 19, 23])) (.leaf
  [15, 0, 57, 76, 16, 27, 17, 28, 18, 22, 19, 23])) (.leaf
  [15, 0, 57, 76, 16, 27, 17, 28, 18, 22, 19, 23])) (.leaf
  [15, 0, 57, 76, 16, 27, 17, 28, 18, 22, 19, 23])) (.leaf
  [15, 0, 57, 76, 16, 27, 17, 28, 18, 22, 19, 23])) (.leaf
  [15, 0, 57, 76, 16, 27, 17, 28, 18, 22, 19, 23])) (.leaf
  [15, 0, 57, 76, 16, 27, 17, 28, 18, 22, 19, 23])) (.leaf
  [15, 0, 57, 76, 16, 27, 17, 28, 18, 22, 19, 23])) (.leaf
  [15, 0, 57, 76, 16, 27, 17, 28, 18, 22, 19, 23])) (.leaf
  [49, 15, 33, 57, 76, 32, 16, 27, 17, 28, 18, 22, 19, 23])

/-- some of the cases -/
def real5OneCase212 : LooseTree :=
  .breaks 20013237 (.breaks 1052753 (.breaks 23158913 (.breaks 24186962 (.breaks 1052769 (.breaks
  17895617 (.breaks 17907794 (.breaks 23158801 (.breaks 17895441 (.breaks 21045445 (.breaks
  21053633 (.breaks 17895457 (.breaks 18948177 (.breaks 21053457 (.breaks 17895425 (.breaks
  18948209 (.breaks 21053473 (.breaks 21053441 (.leaf [49, 52, 44, 33, 45, 39, 32, 16, 47, 37, 17,
  90, 27, 18, 13, 28, 19, 14, 22, 23]) (.leaf [49, 52, 44, 33, 45, 39, 32, 16, 47, 37, 17, 90, 27,
  18, 13, 28, 19, 14, 22, 23])) (.leaf [49, 52, 44, 33, 45, 39, 32, 16, 47, 37, 17, 90, 27, 18, 13,
  28, 19, 14, 22, 23])) (.leaf [49, 52, 44, 33, 45, 39, 32, 16, 47, 37, 17, 90, 27, 18, 13, 28, 19,
  14, 22, 23])) (.leaf [49, 52, 44, 33, 45, 39, 32, 16, 47, 37, 17, 90, 27, 18, 13, 28, 19, 14, 22,
  23])) (.leaf [49, 52, 44, 33, 45, 39, 32, 16, 47, 37, 17, 90, 27, 18, 13, 28, 19, 14, 22, 23]))
  (.leaf [49, 52, 44, 33, 45, 39, 32, 16, 47, 37, 17, 90, 27, 18, 13, 28, 19, 14, 22, 23])) (.leaf
  [49, 52, 44, 33, 45, 39, 32, 16, 47, 37, 17, 90, 27, 18, 13, 28, 19, 14, 22, 23])) (.leaf [49,
  52, 44, 33, 45, 39, 32, 16, 47, 37, 17, 90, 27, 18, 13, 28, 19, 14, 22, 23])) (.leaf [49, 52, 44,
  33, 45, 39, 32, 16, 47, 37, 17, 90, 27, 18, 13, 28, 19, 14, 22, 23])) (.leaf [49, 52, 44, 33, 45,
  39, 32, 16, 47, 37, 17, 90, 27, 18, 13, 28, 19, 14, 22, 23])) (.leaf [49, 52, 44, 33, 45, 39, 32,
  16, 47, 37, 17, 90, 27, 18, 13, 28, 19, 14, 22, 23])) (.leaf [49, 52, 44, 33, 45, 39, 32, 16, 47,
  37, 17, 90, 27, 18, 13, 28, 19, 14, 22, 23])) (.leaf [49, 52, 44, 33, 45, 39, 32, 16, 47, 37, 17,
  90, 27, 18, 13, 28, 19, 14, 22, 23])) (.leaf [49, 52, 44, 33, 45, 39, 32, 16, 47, 37, 17, 90, 27,
  18, 13, 28, 19, 14, 22, 23])) (.leaf [49, 52, 44, 33, 45, 39, 32, 16, 47, 37, 17, 90, 27, 18, 13,
  28, 19, 14, 22, 23])) (.leaf [49, 52, 44, 33, 45, 39, 32, 16, 47, 37, 17, 90, 27, 18, 13, 28, 19,
  14, 22, 23])) (.leaf [49, 52, 44, 33, 45, 39, 32, 16, 47, 37, 17, 90, 27, 18, 13, 28, 19, 14, 22,
  23])) (.leaf [49, 52, 44, 33, 45, 39, 32, 16, 47, 37, 17, 90, 27, 18, 13, 28, 19, 14, 22, 23])

/-- some of the cases -/
def real5OneCase213 : LooseTree :=
  .cases [] 7 (.breaks 4198597 (.breaks 13725781 (.breaks 1052753 (.breaks 18948177 (.breaks
  24186962 (.breaks 1052769 (.breaks 17895617 (.breaks 17907794 (.breaks 18948209 (.breaks 17895441
  (.breaks 21053633 (.breaks 17895457 (.breaks 21053457 (.breaks 17895425 (.breaks 21053473
  (.breaks 21053441 (.leaf [49, 52, 63, 33, 13, 39, 32, 16, 47, 14, 17, 27, 18, 28, 19, 22, 23])
  (.leaf [49, 52, 63, 33, 13, 39, 32, 16, 47, 14, 17, 27, 18, 28, 19, 22, 23])) (.leaf [49, 52, 63,
  33, 13, 39, 32, 16, 47, 14, 17, 27, 18, 28, 19, 22, 23])) (.leaf [49, 52, 48, 63, 33, 13, 35, 39,
  32, 16, 47, 14, 36, 17, 27, 18, 28, 19, 22, 23])) (.leaf [49, 52, 63, 33, 13, 39, 32, 16, 47, 14,
  17, 27, 18, 28, 19, 22, 23])) (.leaf [49, 52, 48, 63, 33, 13, 35, 39, 32, 16, 47, 14, 36, 17, 27,
  18, 28, 19, 22, 23])) (.leaf [49, 52, 63, 33, 13, 39, 32, 16, 47, 14, 17, 27, 18, 28, 19, 22,
  23])) (.leaf [49, 52, 48, 63, 33, 13, 35, 39, 32, 16, 47, 14, 36, 17, 27, 18, 28, 19, 22, 23]))
  (.leaf [49, 52, 63, 33, 13, 39, 32, 16, 47, 14, 17, 27, 18, 28, 19, 22, 23])) (.leaf [49, 52, 63,
  33, 13, 39, 32, 16, 47, 14, 17, 27, 18, 28, 19, 22, 23])) (.leaf [49, 52, 48, 63, 33, 13, 35, 39,
  32, 16, 47, 14, 36, 17, 27, 18, 28, 19, 22, 23])) (.leaf [49, 52, 48, 63, 33, 13, 35, 39, 32, 16,
  47, 14, 36, 17, 27, 18, 28, 19, 22, 23])) (.leaf [49, 52, 48, 63, 33, 13, 35, 39, 32, 16, 47, 14,
  36, 17, 27, 18, 28, 19, 22, 23])) (.leaf [49, 52, 63, 33, 13, 39, 32, 16, 47, 14, 17, 27, 18, 28,
  19, 22, 23])) (.leaf [49, 52, 48, 63, 33, 13, 35, 39, 32, 16, 47, 14, 36, 17, 27, 18, 28, 19, 22,
  23])) (.leaf [49, 52, 48, 63, 33, 13, 35, 39, 32, 16, 47, 14, 36, 17, 27, 18, 28, 19, 22, 23]))
  (.leaf [49, 52, 48, 63, 33, 13, 35, 39, 32, 16, 47, 14, 36, 17, 27, 18, 28, 19, 22, 23]))
  (.breaks 13725781 (.breaks 24186962 (.breaks 1052769 (.breaks 17895617 (.breaks 17907794 (.breaks
  17895441 (.breaks 21045445 (.breaks 21053633 (.breaks 17895457 (.breaks 18948177 (.breaks
  18972866 (.breaks 21053457 (.breaks 17895425 (.breaks 18948209 (.breaks 21053473 (.breaks
  25264209 (.breaks 21053441 (.leaf [49, 52, 33, 39, 32, 16, 47, 17, 90, 27, 18, 13, 34, 28, 19,
  14, 22, 24, 23]) (.leaf [49, 52, 33, 39, 32, 16, 47, 17, 90, 27, 18, 13, 34, 28, 19, 14, 22, 24,
  23])) (.leaf [49, 52, 33, 39, 32, 16, 47, 17, 90, 27, 18, 13, 34, 28, 19, 14, 22, 24, 23]))
  (.leaf [49, 52, 33, 39, 32, 16, 47, 17, 90, 27, 18, 13, 34, 28, 19, 14, 22, 24, 23])) (.leaf [49,
  52, 33, 39, 32, 16, 47, 17, 90, 27, 18, 13, 34, 28, 19, 14, 22, 24, 23])) (.leaf [49, 52, 33, 39,
  32, 16, 47, 17, 90, 27, 18, 13, 34, 28, 19, 14, 22, 24, 23])) (.leaf [49, 52, 33, 39, 32, 16, 47,
  17, 90, 27, 18, 13, 34, 28, 19, 14, 22, 24, 23])) (.leaf [49, 52, 33, 39, 32, 16, 47, 17, 90, 27,
  18, 13, 34, 28, 19, 14, 22, 24, 23])) (.leaf [49, 52, 33, 39, 32, 16, 47, 17, 90, 27, 18, 13, 34,
  28, 19, 14, 22, 24, 23])) (.leaf [49, 52, 33, 39, 32, 16, 47, 17, 90, 27, 18, 13, 34, 28, 19, 14,
  22, 24, 23])) (.leaf [49, 52, 33, 39, 32, 16, 47, 17, 90, 27, 18, 13, 34, 28, 19, 14, 22, 24,
  23])) (.leaf [49, 52, 33, 39, 32, 16, 47, 17, 90, 27, 18, 13, 34, 28, 19, 14, 22, 24, 23]))
  (.leaf [49, 52, 33, 39, 32, 16, 47, 17, 90, 27, 18, 13, 34, 28, 19, 14, 22, 24, 23])) (.leaf [49,
  52, 33, 39, 32, 16, 47, 17, 90, 27, 18, 13, 34, 28, 19, 14, 22, 24, 23])) (.leaf [49, 52, 33, 39,
  32, 16, 47, 17, 90, 27, 18, 13, 34, 28, 19, 14, 22, 24, 23])) (.leaf [49, 52, 33, 39, 32, 16, 47,
  17, 90, 27, 18, 13, 34, 28, 19, 14, 22, 24, 23])) (.leaf [49, 52, 48, 33, 35, 39, 32, 16, 47, 36,
  17, 90, 27, 18, 13, 34, 28, 19, 14, 22, 24, 23])) (.leaf [49, 52, 48, 33, 35, 39, 32, 16, 47, 36,
  17, 90, 27, 18, 13, 34, 28, 19, 14, 22, 24, 23]))

/-- some of the cases -/
def real5OneCase214 : LooseTree :=
  .breaks 13725781 (.breaks 1052753 (.breaks 24186962 (.breaks 1052769 (.breaks 17895617 (.breaks
  17899717 (.breaks 17895441 (.breaks 18956373 (.breaks 17895457 (.breaks 21053633 (.breaks
  17895425 (.breaks 21053457 (.breaks 21053473 (.breaks 21053441 (.leaf
  [49, 52, 33, 39, 32, 16, 82, 17, 113, 18, 27, 19, 28, 22, 23]) (.leaf
  [49, 52, 33, 39, 32, 16, 82, 17, 113, 18, 27, 19, 28, 22, 23])) (.leaf
  [49, 52, 33, 39, 32, 16, 82, 17, 113, 18, 27, 19, 28, 22, 23])) (.leaf
  [49, 52, 33, 39, 32, 16, 82, 17, 113, 18, 27, 19, 28, 22, 23])) (.leaf
  [49, 52, 33, 39, 32, 16, 82, 17, 113, 18, 27, 19, 28, 22, 23])) (.leaf
  [49, 52, 33, 39, 32, 16, 82, 17, 113, 18, 27, 19, 28, 22, 23])) (.leaf
  [49, 52, 33, 39, 32, 16, 82, 17, 113, 18, 27, 19, 28, 22, 23])) (.leaf
  [49, 52, 33, 39, 32, 16, 82, 17, 113, 18, 27, 19, 28, 22, 23])) (.leaf
  [49, 52, 33, 39, 32, 16, 82, 17, 113, 18, 27, 19, 28, 22, 23])) (.leaf
  [49, 52, 113, 33, 27, 39, 32, 16, 28, 17, 22, 18, 23, 19])) (.leaf
  [49, 52, 33, 39, 32, 16, 82, 17, 113, 18, 27, 19, 28, 22, 23])) (.leaf
  [49, 52, 33, 39, 32, 16, 82, 17, 113, 18, 27, 19, 28, 22, 23])) (.leaf [49, 52, 113, 33, 27, 39,
  7, 32, 16, 28, 8, 17, 22, 9, 18, 23, 10, 19])) (.leaf
  [49, 52, 33, 39, 32, 16, 82, 17, 113, 18, 27, 19, 28, 22, 23])) (.leaf [49, 52, 113, 33, 27, 39,
  7, 32, 16, 28, 8, 17, 22, 9, 18, 23, 10, 19])

/-- some of the cases -/
def real5OneCase215 : LooseTree :=
  .breaks 21053473 (.breaks 21053441 (.leaf [105, 16, 47, 17, 27, 18, 28, 19, 22, 23]) (.leaf
  [105, 16, 47, 17, 27, 18, 28, 19, 22, 23])) (.leaf [105, 16, 47, 17, 27, 18, 28, 19, 22, 23])

/-- some of the cases -/
def real5OneCase216 : LooseTree :=
  .breaks 1052753 (.breaks 17895617 (.breaks 17920082 (.breaks 21053633 (.breaks 1052769 (.breaks
  17895441 (.breaks 21053457 (.breaks 24211649 (.breaks 17895457 (.breaks 21053473 (.breaks
  24211473 (.breaks 17895425 (.breaks 21053441 (.breaks 24211489 (.breaks 24211457 (.leaf [49, 57,
  138, 33, 16, 73, 27, 32, 17, 28, 7, 18, 22, 8, 19, 23, 9, 10]) (.leaf [49, 57, 138, 33, 16, 73,
  27, 32, 17, 28, 7, 18, 22, 8, 19, 23, 9, 10])) (.leaf [49, 57, 138, 33, 16, 73, 27, 32, 17, 28,
  7, 18, 22, 8, 19, 23, 9, 10])) (.leaf [49, 57, 138, 33, 16, 73, 27, 32, 17, 28, 7, 18, 22, 8, 19,
  23, 9, 10])) (.leaf [49, 57, 138, 33, 16, 73, 27, 32, 17, 28, 7, 18, 22, 8, 19, 23, 9, 10]))
  (.leaf [49, 57, 138, 33, 16, 73, 27, 32, 17, 28, 7, 18, 22, 8, 19, 23, 9, 10])) (.leaf [49, 57,
  138, 33, 16, 73, 27, 32, 17, 28, 7, 18, 22, 8, 19, 23, 9, 10])) (.leaf [49, 57, 138, 33, 16, 73,
  27, 32, 17, 28, 7, 18, 22, 8, 19, 23, 9, 10])) (.leaf [49, 57, 138, 33, 16, 73, 27, 32, 17, 28,
  7, 18, 22, 8, 19, 23, 9, 10])) (.leaf [49, 57, 138, 33, 16, 73, 27, 32, 17, 28, 7, 18, 22, 8, 19,
  23, 9, 10])) (.leaf [49, 57, 138, 33, 16, 73, 27, 32, 17, 28, 7, 18, 22, 8, 19, 23, 9, 10]))
  (.leaf [49, 57, 138, 33, 16, 73, 27, 32, 17, 28, 7, 18, 22, 8, 19, 23, 9, 10])) (.leaf [49, 57,
  138, 33, 16, 73, 27, 32, 17, 28, 7, 18, 22, 8, 19, 23, 9, 10])) (.leaf [49, 57, 138, 33, 16, 73,
  27, 32, 17, 28, 7, 18, 22, 8, 19, 23, 9, 10])) (.leaf [49, 57, 138, 33, 16, 73, 27, 32, 17, 28,
  7, 18, 22, 8, 19, 23, 9, 10])) (.leaf [49, 57, 138, 33, 16, 73, 27, 32, 17, 28, 7, 18, 22, 8, 19,
  23, 9, 10])

/-- some of the cases -/
def real5OneCase217 : LooseTree :=
  .breaks 13701205 (.breaks 1052753 (.breaks 17895617 (.breaks 18948177 (.breaks 1052769 (.breaks
  17895441 (.breaks 18948209 (.breaks 24199250 (.breaks 17895457 (.breaks 21053633 (.breaks
  17895425 (.breaks 21053457 (.breaks 21053473 (.breaks 21053441 (.leaf [49, 57, 80, 33, 16, 73,
  13, 32, 17, 14, 77, 18, 27, 19, 28, 22, 23]) (.leaf [49, 57, 80, 33, 16, 73, 13, 32, 17, 14, 77,
  18, 27, 19, 28, 22, 23])) (.leaf [49, 57, 80, 33, 16, 73, 13, 32, 17, 14, 77, 18, 27, 19, 28, 22,
  23])) (.leaf [49, 57, 80, 33, 16, 73, 13, 32, 17, 14, 77, 18, 27, 19, 28, 22, 23])) (.leaf [49,
  57, 80, 33, 73, 13, 32, 14, 77, 7, 27, 8, 28, 9, 22, 10, 23])) (.leaf [49, 57, 80, 33, 16, 73,
  13, 32, 17, 14, 77, 18, 27, 19, 28, 22, 23])) (.leaf [49, 57, 80, 33, 73, 13, 32, 14, 77, 7, 27,
  8, 28, 9, 22, 10, 23])) (.leaf [49, 57, 80, 33, 16, 73, 13, 32, 17, 14, 77, 18, 27, 19, 28, 22,
  23])) (.leaf [49, 57, 80, 33, 16, 73, 13, 32, 17, 14, 77, 18, 27, 19, 28, 22, 23])) (.leaf [49,
  57, 80, 33, 73, 13, 32, 14, 77, 7, 27, 8, 28, 9, 22, 10, 23])) (.leaf [49, 57, 80, 33, 16, 73,
  13, 32, 17, 14, 77, 18, 27, 19, 28, 22, 23])) (.leaf [49, 57, 80, 33, 16, 73, 13, 32, 17, 14, 77,
  18, 27, 19, 28, 22, 23])) (.leaf [49, 57, 80, 33, 73, 13, 32, 14, 77, 7, 27, 8, 28, 9, 22, 10,
  23])) (.leaf [49, 57, 80, 33, 16, 73, 13, 32, 17, 14, 77, 18, 27, 19, 28, 22, 23])) (.leaf [49,
  57, 80, 33, 16, 73, 13, 32, 17, 14, 77, 18, 27, 19, 28, 22, 23])

/-- some of the cases -/
def real5OneCase218 : LooseTree :=
  .breaks 13701205 (.breaks 1052753 (.breaks 17895617 (.breaks 17920082 (.breaks 1052769 (.breaks
  17895441 (.breaks 24199250 (.breaks 24211649 (.breaks 17895457 (.breaks 21053633 (.breaks
  21070021 (.breaks 24211473 (.breaks 17895425 (.breaks 21053457 (.breaks 24211489 (.breaks
  25239746 (.breaks 18948177 (.breaks 21053473 (.breaks 24211457 (.breaks 18948209 (.breaks
  21053441 (.leaf [49, 57, 33, 16, 73, 32, 17, 77, 7, 18, 27, 127, 8, 19, 28, 9, 63, 13, 22, 10,
  14, 23]) (.leaf [49, 57, 33, 16, 73, 32, 17, 77, 7, 18, 27, 127, 8, 19, 28, 9, 63, 13, 22, 10,
  14, 23])) (.leaf [49, 57, 33, 16, 73, 32, 17, 77, 7, 18, 27, 127, 8, 19, 28, 9, 63, 13, 22, 10,
  14, 23])) (.leaf [49, 57, 33, 16, 73, 32, 17, 77, 18, 27, 127, 19, 28, 63, 13, 67, 22, 14, 23,
  40, 41, 42, 43])) (.leaf [49, 57, 33, 16, 73, 32, 17, 77, 7, 18, 27, 127, 8, 19, 28, 9, 63, 13,
  22, 10, 14, 23])) (.leaf [49, 57, 33, 16, 73, 32, 17, 77, 7, 18, 27, 127, 8, 19, 28, 9, 63, 13,
  22, 10, 14, 23])) (.leaf [49, 57, 33, 16, 73, 32, 17, 77, 7, 18, 27, 127, 8, 19, 28, 9, 63, 13,
  22, 10, 14, 23])) (.leaf [49, 57, 33, 16, 73, 32, 17, 77, 18, 27, 127, 19, 28, 63, 13, 67, 22,
  14, 23, 40, 41, 42, 43])) (.leaf [49, 57, 33, 16, 73, 32, 17, 77, 7, 18, 27, 127, 8, 19, 28, 9,
  63, 13, 22, 10, 14, 23])) (.leaf [49, 57, 33, 73, 32, 77, 7, 27, 127, 8, 28, 9, 63, 13, 67, 22,
  10, 14, 23, 40, 41, 42, 43])) (.leaf [49, 57, 33, 16, 73, 32, 17, 77, 18, 27, 127, 19, 28, 63,
  13, 67, 22, 14, 23, 40, 41, 42, 43])) (.leaf [49, 57, 63, 33, 16, 73, 13, 32, 17, 14, 77, 7, 18,
  27, 8, 19, 28, 9, 22, 10, 23])) (.leaf [49, 57, 33, 16, 73, 32, 17, 77, 7, 18, 27, 127, 8, 19,
  28, 9, 63, 13, 22, 10, 14, 23])) (.leaf [49, 57, 33, 73, 32, 77, 7, 27, 127, 8, 28, 9, 63, 13,
  67, 22, 10, 14, 23, 40, 41, 42, 43])) (.leaf [49, 57, 33, 16, 73, 32, 17, 77, 18, 27, 127, 19,
  28, 63, 13, 67, 22, 14, 23, 40, 41, 42, 43])) (.leaf [49, 57, 63, 33, 16, 73, 13, 67, 32, 17, 14,
  77, 7, 40, 18, 27, 8, 41, 19, 28, 9, 42, 22, 10, 43, 23])) (.leaf [49, 57, 33, 73, 32, 77, 7, 27,
  127, 8, 28, 9, 63, 13, 67, 22, 10, 14, 23, 40, 41, 42, 43])) (.leaf [49, 57, 33, 16, 73, 32, 17,
  77, 7, 18, 27, 127, 8, 19, 28, 9, 63, 13, 22, 10, 14, 23])) (.leaf [49, 57, 63, 33, 16, 73, 13,
  67, 32, 17, 14, 77, 7, 40, 18, 27, 8, 41, 19, 28, 9, 42, 22, 10, 43, 23])) (.leaf [49, 57, 33,
  73, 32, 77, 7, 27, 127, 8, 28, 9, 63, 13, 67, 22, 10, 14, 23, 40, 41, 42, 43])) (.leaf [49, 57,
  33, 16, 73, 32, 17, 77, 7, 18, 27, 127, 8, 19, 28, 9, 63, 13, 22, 10, 14, 23])) (.leaf [49, 57,
  63, 33, 16, 73, 13, 67, 32, 17, 14, 77, 7, 40, 18, 27, 8, 41, 19, 28, 9, 42, 22, 10, 43, 23])

/-- some of the cases -/
def real5OneCase219 : LooseTree :=
  .cases [] 12 (.breaks 13701205 (.breaks 1052753 (.breaks 17895617 (.breaks 17920082 (.breaks
  1052769 (.breaks 17895441 (.breaks 24199250 (.breaks 17895457 (.breaks 21045445 (.breaks 21053633
  (.breaks 24211473 (.breaks 17895425 (.breaks 18948177 (.breaks 18972866 (.breaks 21053457
  (.breaks 24211489 (.breaks 18948209 (.breaks 21053473 (.breaks 24211457 (.breaks 25264209
  (.breaks 21053441 (.leaf [49, 57, 33, 16, 73, 32, 17, 77, 7, 18, 90, 27, 8, 19, 13, 34, 28, 9,
  14, 22, 10, 24, 23]) (.leaf [49, 57, 33, 16, 73, 32, 17, 77, 7, 18, 90, 27, 8, 19, 13, 34, 28, 9,
  14, 22, 10, 24, 23])) (.leaf [49, 57, 33, 16, 73, 32, 17, 77, 7, 18, 90, 27, 8, 19, 13, 34, 28,
  9, 14, 22, 10, 24, 23])) (.leaf [49, 57, 33, 16, 73, 32, 17, 77, 18, 90, 27, 19, 13, 34, 28, 14,
  22, 24, 58, 23, 40, 41, 42, 43])) (.leaf [49, 57, 33, 16, 73, 32, 17, 77, 7, 18, 90, 27, 8, 19,
  13, 34, 28, 9, 14, 22, 10, 24, 23])) (.leaf [49, 57, 33, 16, 73, 32, 17, 77, 7, 18, 90, 27, 8,
  19, 13, 34, 28, 9, 14, 22, 10, 24, 23])) (.leaf [49, 57, 33, 16, 73, 32, 17, 77, 18, 90, 27, 19,
  13, 34, 28, 14, 22, 24, 58, 23, 40, 41, 42, 43])) (.leaf [49, 57, 33, 16, 73, 32, 17, 77, 7, 18,
  90, 27, 8, 19, 13, 34, 28, 9, 14, 22, 10, 24, 23])) (.leaf [49, 57, 33, 16, 73, 32, 17, 77, 7,
  18, 90, 27, 8, 19, 13, 34, 28, 9, 14, 22, 10, 24, 23])) (.leaf [49, 57, 33, 16, 73, 32, 17, 77,
  7, 18, 90, 27, 8, 19, 13, 34, 28, 9, 14, 22, 10, 24, 23])) (.leaf [49, 57, 33, 73, 32, 77, 7, 90,
  27, 8, 13, 34, 28, 9, 14, 22, 10, 24, 58, 23, 40, 41, 42, 43])) (.leaf [49, 57, 33, 16, 73, 32,
  17, 77, 18, 90, 27, 19, 13, 34, 28, 14, 22, 24, 58, 23, 40, 41, 42, 43])) (.leaf [49, 57, 33, 16,
  73, 32, 17, 77, 7, 18, 90, 27, 8, 19, 13, 34, 28, 9, 14, 22, 10, 24, 23])) (.leaf [49, 57, 33,
  16, 73, 32, 17, 77, 7, 18, 90, 27, 8, 19, 13, 34, 28, 9, 14, 22, 10, 24, 23])) (.leaf [49, 57,
  33, 73, 32, 77, 7, 90, 27, 8, 13, 34, 28, 9, 14, 22, 10, 24, 58, 23, 40, 41, 42, 43])) (.leaf
  [49, 57, 33, 16, 73, 32, 17, 77, 7, 18, 90, 27, 8, 19, 34, 28, 9, 22, 10, 24, 58, 23, 40, 41, 42,
  43])) (.leaf [49, 57, 33, 73, 32, 77, 7, 90, 27, 8, 13, 34, 28, 9, 14, 22, 10, 24, 58, 23, 40,
  41, 42, 43])) (.leaf [49, 57, 33, 16, 73, 32, 17, 77, 7, 18, 90, 27, 8, 19, 13, 34, 28, 9, 14,
  22, 10, 24, 23])) (.leaf [49, 57, 33, 16, 73, 32, 17, 77, 7, 18, 90, 27, 8, 19, 34, 28, 9, 22,
  10, 24, 58, 23, 40, 41, 42, 43])) (.leaf [49, 57, 33, 73, 32, 77, 7, 90, 27, 8, 13, 34, 28, 9,
  14, 22, 10, 24, 58, 23, 40, 41, 42, 43])) (.leaf [49, 57, 33, 16, 73, 32, 17, 77, 7, 18, 90, 27,
  8, 19, 13, 34, 28, 9, 14, 22, 10, 24, 23])) (.leaf [49, 57, 33, 16, 73, 32, 17, 77, 7, 18, 90,
  27, 8, 19, 13, 34, 28, 9, 14, 22, 10, 24, 58, 23, 40, 41, 42, 43])) (.breaks 13701205 (.breaks
  17920082 (.breaks 1052769 (.breaks 17895441 (.breaks 24199250 (.breaks 17895457 (.breaks 21045445
  (.breaks 21053633 (.breaks 17895425 (.breaks 18948177 (.breaks 18976853 (.breaks 21053457
  (.breaks 18948209 (.breaks 21053473 (.breaks 26312901 (.breaks 21053441 (.breaks 25264209 (.leaf
  [49, 57, 33, 16, 73, 32, 17, 77, 18, 90, 27, 19, 13, 67, 28, 14, 22, 68, 23, 24]) (.leaf [49, 57,
  33, 16, 73, 32, 17, 77, 18, 90, 27, 19, 13, 67, 28, 14, 22, 68, 23, 24])) (.leaf [49, 57, 33, 16,
  73, 32, 17, 77, 18, 90, 27, 19, 13, 67, 28, 14, 22, 68, 23, 24])) (.leaf [49, 57, 33, 16, 73, 32,
  17, 77, 18, 90, 27, 19, 13, 67, 28, 14, 22, 68, 23, 24])) (.leaf [49, 57, 33, 16, 73, 32, 17, 77,
  18, 90, 27, 19, 13, 67, 28, 14, 22, 68, 23, 24])) (.leaf [49, 57, 33, 16, 73, 32, 17, 77, 18, 90,
  27, 19, 13, 67, 28, 14, 22, 68, 23, 24])) (.leaf [49, 57, 33, 16, 73, 32, 17, 77, 18, 90, 27, 19,
  13, 67, 28, 14, 22, 68, 23, 24])) (.leaf [49, 57, 68, 33, 16, 73, 24, 32, 17, 77, 18, 90, 27, 19,
  13, 28, 14, 22, 23])) (.leaf [49, 57, 33, 16, 73, 32, 17, 77, 18, 90, 27, 19, 13, 67, 28, 14, 22,
  68, 23, 24])) (.leaf [49, 57, 33, 73, 32, 77, 7, 90, 27, 8, 13, 67, 28, 9, 14, 22, 10, 68, 23,
  24])) (.leaf [49, 57, 33, 16, 73, 32, 17, 77, 18, 90, 27, 19, 13, 67, 28, 14, 22, 68, 23, 24]))
  (.leaf [49, 57, 68, 33, 16, 73, 24, 32, 17, 77, 7, 18, 27, 8, 19, 28, 9, 22, 10, 23])) (.leaf
  [49, 57, 33, 73, 32, 77, 7, 90, 27, 8, 13, 67, 28, 9, 14, 22, 10, 68, 23, 24])) (.leaf [49, 57,
  68, 33, 16, 73, 24, 32, 17, 77, 7, 18, 27, 8, 19, 28, 9, 22, 10, 23])) (.leaf [49, 57, 33, 73,
  32, 77, 7, 90, 27, 8, 13, 67, 28, 9, 14, 22, 10, 68, 23, 24])) (.leaf [49, 57, 33, 16, 73, 32,
  17, 77, 18, 90, 27, 19, 13, 67, 28, 14, 22, 68, 23, 24])) (.leaf [49, 57, 68, 33, 16, 73, 24, 32,
  17, 77, 7, 18, 27, 8, 19, 28, 9, 22, 10, 23])) (.leaf [49, 57, 68, 33, 16, 73, 24, 32, 17, 77, 7,
  18, 27, 8, 19, 28, 9, 22, 10, 23]))

/-- some of the cases -/
def real5OneCase220 : LooseTree :=
  .breaks 1052753 (.breaks 17895617 (.breaks 1052769 (.breaks 17895441 (.breaks 17895457 (.breaks
  18956373 (.breaks 17895425 (.breaks 21053633 (.breaks 21070021 (.breaks 21053457 (.breaks
  25264209 (.breaks 21053473 (.breaks 21053441 (.leaf [49, 57, 33, 16, 73, 32, 17, 75, 18, 113, 19,
  27, 127, 28, 24, 22, 23]) (.leaf [49, 57, 33, 16, 73, 32, 17, 75, 18, 113, 19, 27, 127, 28, 24,
  22, 23])) (.leaf [49, 57, 33, 16, 73, 32, 17, 75, 18, 113, 19, 27, 127, 28, 24, 22, 23])) (.leaf
  [49, 57, 33, 16, 73, 32, 17, 75, 18, 113, 19, 27, 127, 28, 24, 22, 23])) (.leaf [49, 57, 33, 16,
  73, 32, 17, 75, 18, 113, 19, 27, 127, 28, 24, 22, 23])) (.leaf [49, 57, 33, 16, 73, 32, 17, 75,
  18, 113, 19, 27, 127, 28, 24, 22, 23])) (.leaf [49, 57, 33, 16, 73, 32, 17, 75, 18, 113, 19, 27,
  127, 28, 24, 22, 23])) (.leaf [49, 57, 33, 73, 32, 75, 7, 113, 8, 27, 127, 9, 28, 10, 24, 22,
  23])) (.leaf [49, 57, 33, 16, 73, 32, 17, 75, 18, 113, 19, 27, 127, 28, 24, 22, 23])) (.leaf [49,
  57, 33, 73, 32, 75, 7, 113, 8, 27, 127, 9, 28, 10, 24, 22, 23])) (.leaf [49, 57, 33, 73, 32, 75,
  7, 113, 8, 27, 127, 9, 28, 10, 24, 22, 23])) (.leaf [49, 57, 33, 16, 73, 32, 17, 75, 18, 113, 19,
  27, 127, 28, 24, 22, 23])) (.leaf [49, 57, 33, 73, 32, 75, 7, 113, 8, 27, 127, 9, 28, 10, 24, 22,
  23])) (.leaf [49, 57, 33, 16, 73, 32, 17, 75, 18, 113, 19, 27, 127, 28, 24, 22, 23])

/-- some of the cases -/
def real5OneCase221 : LooseTree :=
  .breaks 24211489 (.breaks 21053473 (.breaks 24211457 (.breaks 21053441 (.leaf
  [49, 92, 33, 77, 7, 32, 27, 8, 28, 9, 22, 10, 23]) (.leaf
  [49, 92, 33, 77, 7, 32, 27, 8, 28, 9, 22, 10, 23])) (.leaf
  [49, 92, 33, 77, 7, 32, 27, 8, 28, 9, 22, 10, 23])) (.leaf
  [49, 92, 33, 77, 7, 32, 27, 8, 28, 9, 22, 10, 23])) (.leaf
  [49, 92, 33, 77, 7, 32, 27, 8, 28, 9, 22, 10, 23])

/-- some of the cases -/
def real5OneCase222 : LooseTree :=
  .breaks 13701205 (.breaks 1052753 (.breaks 17907794 (.breaks 18948177 (.breaks 1052769 (.breaks
  18948209 (.breaks 21053633 (.breaks 21065810 (.breaks 21053457 (.breaks 24211649 (.breaks
  21053473 (.breaks 24211473 (.breaks 21053441 (.breaks 24211489 (.breaks 24211457 (.leaf [49, 57,
  80, 33, 47, 13, 32, 14, 27, 66, 28, 7, 22, 8, 23, 9, 10]) (.leaf [49, 57, 80, 33, 47, 13, 32, 14,
  27, 66, 28, 7, 22, 8, 23, 9, 10])) (.leaf [49, 57, 80, 33, 47, 13, 32, 14, 27, 66, 28, 7, 22, 8,
  23, 9, 10])) (.leaf [49, 57, 80, 33, 47, 13, 32, 14, 27, 66, 28, 7, 22, 8, 23, 9, 10])) (.leaf
  [49, 57, 80, 33, 47, 13, 32, 14, 27, 66, 28, 7, 22, 8, 23, 9, 10])) (.leaf [49, 57, 80, 33, 47,
  13, 32, 14, 27, 66, 28, 7, 22, 8, 23, 9, 10])) (.leaf [49, 57, 80, 33, 47, 13, 32, 14, 27, 66,
  28, 7, 22, 8, 23, 9, 10])) (.leaf [49, 57, 80, 33, 47, 13, 32, 14, 27, 66, 28, 7, 22, 8, 23, 9,
  10])) (.leaf [49, 57, 80, 33, 47, 13, 32, 14, 27, 66, 28, 7, 22, 8, 23, 9, 10])) (.leaf [49, 57,
  80, 33, 47, 13, 32, 14, 27, 66, 28, 7, 22, 8, 23, 9, 10])) (.leaf [49, 57, 80, 33, 47, 13, 32,
  14, 27, 66, 28, 7, 22, 8, 23, 9, 10])) (.leaf [49, 57, 80, 33, 47, 13, 32, 14, 27, 66, 28, 7, 22,
  8, 23, 9, 10])) (.leaf [49, 57, 80, 33, 47, 13, 32, 14, 27, 66, 28, 7, 22, 8, 23, 9, 10])) (.leaf
  [49, 57, 80, 33, 47, 13, 32, 14, 27, 66, 28, 7, 22, 8, 23, 9, 10])) (.leaf [49, 57, 80, 33, 47,
  13, 32, 14, 27, 66, 28, 7, 22, 8, 23, 9, 10])) (.leaf [49, 57, 80, 33, 47, 13, 32, 14, 27, 66,
  28, 7, 22, 8, 23, 9, 10])

/-- some of the cases -/
def real5OneCase223 : LooseTree :=
  .breaks 13701205 (.breaks 1052753 (.breaks 17895617 (.breaks 17907794 (.breaks 1052769 (.breaks
  17895441 (.breaks 21053633 (.breaks 21065810 (.breaks 17895457 (.breaks 21053457 (.breaks
  24211649 (.breaks 24215749 (.breaks 17895425 (.breaks 21053473 (.breaks 24211473 (.breaks
  25239746 (.breaks 18948177 (.breaks 21053441 (.breaks 24211489 (.breaks 18948209 (.breaks
  24211457 (.leaf [49, 57, 33, 16, 47, 32, 17, 27, 66, 18, 28, 7, 86, 19, 22, 8, 63, 13, 23, 9, 14,
  10]) (.leaf [49, 57, 33, 16, 47, 32, 17, 27, 66, 18, 28, 7, 86, 19, 22, 8, 63, 13, 23, 9, 14,
  10])) (.leaf [49, 57, 33, 16, 47, 32, 17, 27, 66, 18, 28, 7, 86, 19, 22, 8, 63, 13, 23, 9, 14,
  10])) (.leaf [49, 57, 33, 16, 47, 32, 17, 27, 66, 18, 28, 7, 86, 19, 22, 8, 63, 13, 23, 9, 14,
  10])) (.leaf [49, 57, 33, 16, 47, 32, 17, 27, 66, 18, 28, 7, 86, 19, 22, 8, 63, 13, 23, 9, 14,
  10])) (.leaf [49, 57, 33, 16, 47, 32, 17, 27, 66, 18, 28, 7, 86, 19, 22, 8, 63, 13, 23, 9, 14,
  10])) (.leaf [49, 57, 33, 16, 47, 32, 17, 27, 66, 18, 28, 7, 86, 19, 22, 8, 63, 13, 23, 9, 14,
  10])) (.leaf [49, 57, 33, 16, 47, 32, 17, 27, 66, 18, 28, 7, 86, 19, 22, 8, 63, 13, 23, 9, 14,
  10])) (.leaf [49, 57, 33, 16, 47, 32, 17, 27, 66, 18, 28, 7, 86, 19, 22, 8, 63, 13, 23, 9, 14,
  10])) (.leaf [49, 57, 33, 47, 32, 27, 66, 28, 7, 86, 22, 8, 63, 13, 67, 23, 9, 14, 10, 40, 41,
  42, 43])) (.leaf [49, 57, 63, 33, 16, 47, 13, 32, 17, 14, 27, 66, 18, 28, 7, 19, 22, 8, 23, 9,
  10])) (.leaf [49, 57, 33, 16, 47, 32, 17, 27, 66, 18, 28, 7, 86, 19, 22, 8, 63, 13, 23, 9, 14,
  10])) (.leaf [49, 57, 33, 16, 47, 32, 17, 27, 66, 18, 28, 7, 86, 19, 22, 8, 63, 13, 23, 9, 14,
  10])) (.leaf [49, 57, 33, 47, 32, 27, 66, 28, 7, 86, 22, 8, 63, 13, 67, 23, 9, 14, 10, 40, 41,
  42, 43])) (.leaf [49, 57, 63, 33, 16, 47, 13, 67, 32, 17, 14, 27, 66, 40, 18, 28, 7, 41, 19, 22,
  8, 42, 23, 9, 43, 10])) (.leaf [49, 57, 33, 16, 47, 32, 17, 27, 66, 18, 28, 7, 86, 19, 22, 8, 63,
  13, 23, 9, 14, 10])) (.leaf [49, 57, 33, 47, 32, 27, 66, 28, 7, 86, 22, 8, 63, 13, 67, 23, 9, 14,
  10, 40, 41, 42, 43])) (.leaf [49, 57, 33, 16, 47, 32, 17, 27, 66, 18, 28, 7, 86, 19, 22, 8, 63,
  13, 23, 9, 14, 10])) (.leaf [49, 57, 63, 33, 16, 47, 13, 67, 32, 17, 14, 27, 66, 40, 18, 28, 7,
  41, 19, 22, 8, 42, 23, 9, 43, 10])) (.leaf [49, 57, 33, 47, 32, 27, 66, 28, 7, 86, 22, 8, 63, 13,
  67, 23, 9, 14, 10, 40, 41, 42, 43])) (.leaf [49, 57, 33, 16, 47, 32, 17, 27, 66, 18, 28, 7, 86,
  19, 22, 8, 63, 13, 23, 9, 14, 10])) (.leaf [49, 57, 63, 33, 16, 47, 13, 67, 32, 17, 14, 27, 66,
  40, 18, 28, 7, 41, 19, 22, 8, 42, 23, 9, 43, 10])

/-- some of the cases -/
def real5OneCase224 : LooseTree :=
  .cases [] 12 (.breaks 13701205 (.breaks 1052753 (.breaks 17895617 (.breaks 17907794 (.breaks
  1052769 (.breaks 17895441 (.breaks 21065810 (.breaks 17895457 (.breaks 21053457 (.breaks 24191173
  (.breaks 24211649 (.breaks 17895425 (.breaks 18948177 (.breaks 18972866 (.breaks 21053473
  (.breaks 24211473 (.breaks 18948209 (.breaks 21053441 (.breaks 24211489 (.breaks 25264209
  (.breaks 24211457 (.leaf [49, 57, 33, 16, 47, 32, 17, 27, 66, 18, 28, 75, 7, 19, 13, 34, 22, 8,
  14, 23, 9, 24, 10]) (.leaf [49, 57, 33, 16, 47, 32, 17, 27, 66, 18, 28, 75, 7, 19, 13, 34, 22, 8,
  14, 23, 9, 24, 10])) (.leaf [49, 57, 33, 16, 47, 32, 17, 27, 66, 18, 28, 75, 7, 19, 13, 34, 22,
  8, 14, 23, 9, 24, 10])) (.leaf [49, 57, 33, 16, 47, 32, 17, 27, 66, 18, 28, 75, 7, 19, 13, 34,
  22, 8, 14, 23, 9, 24, 10])) (.leaf [49, 57, 33, 16, 47, 32, 17, 27, 66, 18, 28, 75, 7, 19, 13,
  34, 22, 8, 14, 23, 9, 24, 10])) (.leaf [49, 57, 33, 16, 47, 32, 17, 27, 66, 18, 28, 75, 7, 19,
  13, 34, 22, 8, 14, 23, 9, 24, 10])) (.leaf [49, 57, 33, 16, 47, 32, 17, 27, 66, 18, 28, 75, 7,
  19, 13, 34, 22, 8, 14, 23, 9, 24, 10])) (.leaf [49, 57, 33, 16, 47, 32, 17, 27, 66, 18, 28, 75,
  7, 19, 13, 34, 22, 8, 14, 23, 9, 24, 10])) (.leaf [49, 57, 33, 16, 47, 32, 17, 27, 66, 18, 28,
  75, 7, 19, 13, 34, 22, 8, 14, 23, 9, 24, 10])) (.leaf [49, 57, 33, 16, 47, 32, 17, 27, 66, 18,
  28, 75, 7, 19, 13, 34, 22, 8, 14, 23, 9, 24, 10])) (.leaf [49, 57, 33, 47, 32, 27, 66, 28, 75, 7,
  13, 34, 22, 8, 14, 23, 9, 24, 58, 10, 40, 41, 42, 43])) (.leaf [49, 57, 33, 16, 47, 32, 17, 27,
  66, 18, 28, 75, 7, 19, 13, 34, 22, 8, 14, 23, 9, 24, 10])) (.leaf [49, 57, 33, 16, 47, 32, 17,
  27, 66, 18, 28, 75, 7, 19, 13, 34, 22, 8, 14, 23, 9, 24, 10])) (.leaf [49, 57, 33, 16, 47, 32,
  17, 27, 66, 18, 28, 75, 7, 19, 13, 34, 22, 8, 14, 23, 9, 24, 10])) (.leaf [49, 57, 33, 47, 32,
  27, 66, 28, 75, 7, 13, 34, 22, 8, 14, 23, 9, 24, 58, 10, 40, 41, 42, 43])) (.leaf [49, 57, 33,
  16, 47, 32, 17, 27, 66, 18, 28, 75, 7, 19, 34, 22, 8, 23, 9, 24, 58, 10, 40, 41, 42, 43])) (.leaf
  [49, 57, 33, 47, 32, 27, 66, 28, 75, 7, 13, 34, 22, 8, 14, 23, 9, 24, 58, 10, 40, 41, 42, 43]))
  (.leaf [49, 57, 33, 16, 47, 32, 17, 27, 66, 18, 28, 75, 7, 19, 13, 34, 22, 8, 14, 23, 9, 24,
  10])) (.leaf [49, 57, 33, 16, 47, 32, 17, 27, 66, 18, 28, 75, 7, 19, 34, 22, 8, 23, 9, 24, 58,
  10, 40, 41, 42, 43])) (.leaf [49, 57, 33, 47, 32, 27, 66, 28, 75, 7, 13, 34, 22, 8, 14, 23, 9,
  24, 58, 10, 40, 41, 42, 43])) (.leaf [49, 57, 33, 16, 47, 32, 17, 27, 66, 18, 28, 75, 7, 19, 13,
  34, 22, 8, 14, 23, 9, 24, 10])) (.leaf [49, 57, 33, 16, 47, 32, 17, 27, 66, 18, 28, 75, 7, 19,
  13, 34, 22, 8, 14, 23, 9, 24, 58, 10, 40, 41, 42, 43])) (.breaks 13701205 (.breaks 17907794
  (.breaks 21053633 (.breaks 21065810 (.breaks 21053457 (.breaks 24191173 (.breaks 24211649
  (.breaks 18948177 (.breaks 18976853 (.breaks 21053473 (.breaks 24211473 (.breaks 18948209
  (.breaks 21053441 (.breaks 24211489 (.breaks 26312901 (.breaks 24211457 (.breaks 25264209 (.leaf
  [49, 57, 33, 47, 32, 27, 66, 28, 75, 7, 13, 67, 22, 8, 14, 23, 9, 68, 10, 24]) (.leaf [49, 57,
  33, 47, 32, 27, 66, 28, 75, 7, 13, 67, 22, 8, 14, 23, 9, 68, 10, 24])) (.leaf [49, 57, 33, 47,
  32, 27, 66, 28, 75, 7, 13, 67, 22, 8, 14, 23, 9, 68, 10, 24])) (.leaf [49, 57, 33, 47, 32, 27,
  66, 28, 75, 7, 13, 67, 22, 8, 14, 23, 9, 68, 10, 24])) (.leaf [49, 57, 33, 47, 32, 27, 66, 28,
  75, 7, 13, 67, 22, 8, 14, 23, 9, 68, 10, 24])) (.leaf [49, 57, 33, 47, 32, 27, 66, 28, 75, 7, 13,
  67, 22, 8, 14, 23, 9, 68, 10, 24])) (.leaf [49, 57, 33, 47, 32, 27, 66, 28, 75, 7, 13, 67, 22, 8,
  14, 23, 9, 68, 10, 24])) (.leaf [49, 57, 33, 47, 32, 27, 66, 28, 75, 7, 13, 67, 22, 8, 14, 23, 9,
  68, 10, 24])) (.leaf [49, 57, 33, 47, 32, 27, 66, 28, 75, 7, 13, 67, 22, 8, 14, 23, 9, 68, 10,
  24])) (.leaf [49, 57, 68, 33, 16, 47, 24, 32, 17, 27, 66, 18, 28, 7, 19, 22, 8, 23, 9, 10]))
  (.leaf [49, 57, 33, 47, 32, 27, 66, 28, 75, 7, 13, 67, 22, 8, 14, 23, 9, 68, 10, 24])) (.leaf
  [49, 57, 33, 47, 32, 27, 66, 28, 75, 7, 13, 67, 22, 8, 14, 23, 9, 68, 10, 24])) (.leaf [49, 57,
  68, 33, 16, 47, 24, 32, 17, 27, 66, 18, 28, 7, 19, 22, 8, 23, 9, 10])) (.leaf [49, 57, 33, 47,
  32, 27, 66, 28, 75, 7, 13, 67, 22, 8, 14, 23, 9, 68, 10, 24])) (.leaf [49, 57, 68, 33, 16, 47,
  24, 32, 17, 27, 66, 18, 28, 7, 19, 22, 8, 23, 9, 10])) (.leaf [49, 57, 33, 47, 32, 27, 66, 28,
  75, 7, 13, 67, 22, 8, 14, 23, 9, 68, 10, 24])) (.leaf [49, 57, 68, 33, 16, 47, 24, 32, 17, 27,
  66, 18, 28, 7, 19, 22, 8, 23, 9, 10])) (.leaf [49, 57, 68, 33, 16, 47, 24, 32, 17, 27, 66, 18,
  28, 7, 19, 22, 8, 23, 9, 10]))

/-- some of the cases -/
def real5OneCase225 : LooseTree :=
  .breaks 1052753 (.breaks 17907794 (.breaks 1052769 (.breaks 21053633 (.breaks 18968661 (.breaks
  21053457 (.breaks 21053473 (.breaks 24211649 (.breaks 24215749 (.breaks 21053441 (.breaks
  24211473 (.breaks 25264209 (.breaks 24211489 (.breaks 24211457 (.leaf [49, 57, 33, 47, 32, 90,
  27, 92, 28, 22, 7, 86, 23, 8, 24, 9, 10]) (.leaf [49, 57, 33, 47, 32, 90, 27, 92, 28, 22, 7, 86,
  23, 8, 24, 9, 10])) (.leaf [49, 57, 33, 47, 32, 90, 27, 92, 28, 22, 7, 86, 23, 8, 24, 9, 10]))
  (.leaf [49, 57, 33, 47, 32, 90, 27, 92, 28, 22, 7, 86, 23, 8, 24, 9, 10])) (.leaf [49, 57, 33,
  47, 32, 90, 27, 92, 28, 22, 7, 86, 23, 8, 24, 9, 10])) (.leaf [49, 57, 33, 47, 32, 90, 27, 92,
  28, 22, 7, 86, 23, 8, 24, 9, 10])) (.leaf [49, 57, 33, 47, 32, 90, 27, 92, 28, 22, 7, 86, 23, 8,
  24, 9, 10])) (.leaf [49, 57, 33, 47, 32, 90, 27, 92, 28, 22, 7, 86, 23, 8, 24, 9, 10])) (.leaf
  [49, 57, 33, 47, 32, 90, 27, 92, 28, 22, 7, 86, 23, 8, 24, 9, 10])) (.leaf [49, 57, 33, 47, 32,
  90, 27, 92, 28, 22, 7, 86, 23, 8, 24, 9, 10])) (.leaf [49, 57, 33, 47, 32, 90, 27, 92, 28, 22, 7,
  86, 23, 8, 24, 9, 10])) (.leaf [49, 57, 33, 47, 32, 90, 27, 92, 28, 22, 7, 86, 23, 8, 24, 9,
  10])) (.leaf [49, 57, 33, 47, 32, 90, 27, 92, 28, 22, 7, 86, 23, 8, 24, 9, 10])) (.leaf
  [49, 57, 92, 33, 47, 7, 86, 32, 27, 8, 24, 28, 9, 22, 10, 23])) (.leaf [49, 57, 33, 47, 32, 90,
  27, 92, 28, 22, 7, 86, 23, 8, 24, 9, 10])

/-- some of the cases -/
def real5OneCase226 : LooseTree :=
  .breaks 1052753 (.breaks 17895617 (.breaks 17907794 (.breaks 24211649 (.breaks 1052769 (.breaks
  17895441 (.breaks 21053633 (.breaks 24211473 (.breaks 17895457 (.breaks 21053457 (.breaks
  24211489 (.breaks 17895425 (.breaks 21053473 (.breaks 24211457 (.breaks 21053441 (.leaf [49, 57,
  83, 33, 16, 47, 7, 32, 17, 27, 8, 18, 28, 9, 19, 22, 10, 23]) (.leaf [49, 57, 83, 33, 16, 47, 7,
  32, 17, 27, 8, 18, 28, 9, 19, 22, 10, 23])) (.leaf [49, 57, 83, 33, 16, 47, 7, 32, 17, 27, 8, 18,
  28, 9, 19, 22, 10, 23])) (.leaf [49, 57, 83, 33, 16, 47, 7, 32, 17, 27, 8, 18, 28, 9, 19, 22, 10,
  23])) (.leaf [49, 57, 83, 33, 16, 47, 7, 32, 17, 27, 8, 18, 28, 9, 19, 22, 10, 23])) (.leaf [49,
  57, 83, 33, 16, 47, 7, 32, 17, 27, 8, 18, 28, 9, 19, 22, 10, 23])) (.leaf [49, 57, 83, 33, 16,
  47, 7, 32, 17, 27, 8, 18, 28, 9, 19, 22, 10, 23])) (.leaf [49, 57, 83, 33, 16, 47, 7, 32, 17, 27,
  8, 18, 28, 9, 19, 22, 10, 23])) (.leaf [49, 57, 83, 33, 16, 47, 7, 32, 17, 27, 8, 18, 28, 9, 19,
  22, 10, 23])) (.leaf [49, 57, 83, 33, 16, 47, 7, 32, 17, 27, 8, 18, 28, 9, 19, 22, 10, 23]))
  (.leaf [49, 57, 83, 33, 16, 47, 7, 32, 17, 27, 8, 18, 28, 9, 19, 22, 10, 23])) (.leaf [49, 57,
  83, 33, 16, 47, 7, 32, 17, 27, 8, 18, 28, 9, 19, 22, 10, 23])) (.leaf [49, 57, 83, 33, 16, 47, 7,
  32, 17, 27, 8, 18, 28, 9, 19, 22, 10, 23])) (.leaf [49, 57, 83, 33, 16, 47, 7, 32, 17, 27, 8, 18,
  28, 9, 19, 22, 10, 23])) (.leaf [49, 57, 83, 33, 16, 47, 7, 32, 17, 27, 8, 18, 28, 9, 19, 22, 10,
  23])) (.leaf [49, 57, 83, 33, 16, 47, 7, 32, 17, 27, 8, 18, 28, 9, 19, 22, 10, 23])

/-- some of the cases -/
def real5OneCase227 : LooseTree :=
  .breaks 24211473 (.breaks 21053441 (.breaks 24211489 (.breaks 24211457 (.leaf
  [49, 113, 33, 27, 66, 32, 28, 7, 22, 8, 23, 9, 10]) (.leaf
  [49, 113, 33, 27, 66, 32, 28, 7, 22, 8, 23, 9, 10])) (.leaf
  [49, 113, 33, 27, 66, 32, 28, 7, 22, 8, 23, 9, 10])) (.leaf
  [49, 113, 33, 27, 66, 32, 28, 7, 22, 8, 23, 9, 10])) (.leaf
  [49, 113, 33, 27, 66, 32, 28, 7, 22, 8, 23, 9, 10])

/-- some of the cases -/
def real5OneCase228 : LooseTree :=
  .cases [] 7 (.breaks 25239746 (.breaks 1052753 (.breaks 18948177 (.breaks 24199250 (.breaks
  1052769 (.breaks 18948209 (.breaks 21041234 (.breaks 21053633 (.breaks 17895617 (.breaks 21053457
  (.breaks 17895441 (.breaks 21053473 (.breaks 17895457 (.breaks 21053441 (.breaks 17895425 (.leaf
  [49, 52, 63, 33, 13, 77, 32, 14, 50, 27, 16, 28, 17, 22, 18, 23, 19]) (.leaf [49, 52, 63, 33, 13,
  77, 32, 14, 50, 27, 16, 28, 17, 22, 18, 23, 19])) (.leaf [49, 52, 63, 33, 13, 77, 32, 14, 50, 27,
  16, 28, 17, 22, 18, 23, 19])) (.leaf [49, 52, 63, 33, 13, 77, 32, 14, 50, 27, 16, 28, 17, 22, 18,
  23, 19])) (.leaf [49, 52, 63, 33, 13, 77, 32, 14, 50, 27, 16, 28, 17, 22, 18, 23, 19])) (.leaf
  [49, 52, 63, 33, 13, 77, 32, 14, 50, 27, 16, 28, 17, 22, 18, 23, 19])) (.leaf [49, 52, 63, 33,
  13, 77, 32, 14, 50, 27, 16, 28, 17, 22, 18, 23, 19])) (.leaf [49, 52, 63, 33, 13, 77, 32, 14, 50,
  27, 16, 28, 17, 22, 18, 23, 19])) (.leaf [49, 52, 63, 33, 13, 77, 32, 14, 50, 27, 16, 28, 17, 22,
  18, 23, 19])) (.leaf [49, 52, 63, 33, 13, 77, 32, 14, 50, 27, 16, 28, 17, 22, 18, 23, 19]))
  (.leaf [49, 52, 63, 33, 13, 77, 32, 14, 50, 27, 16, 28, 17, 22, 18, 23, 19])) (.leaf [49, 52, 63,
  33, 13, 77, 32, 14, 50, 27, 16, 28, 17, 22, 18, 23, 19])) (.leaf [49, 52, 63, 33, 13, 77, 32, 14,
  50, 27, 16, 28, 17, 22, 18, 23, 19])) (.leaf [49, 52, 63, 33, 13, 77, 32, 14, 50, 27, 16, 28, 17,
  22, 18, 23, 19])) (.leaf [49, 52, 63, 33, 13, 77, 32, 14, 50, 27, 16, 28, 17, 22, 18, 23, 19]))
  (.leaf [49, 52, 63, 33, 13, 77, 32, 14, 50, 27, 16, 28, 17, 22, 18, 23, 19])) (.breaks 4198597
  (.breaks 13725781 (.breaks 1052753 (.breaks 24199250 (.breaks 1052769 (.breaks 21041234 (.breaks
  17895617 (.breaks 17899717 (.breaks 21053457 (.breaks 17895441 (.breaks 18972866 (.breaks
  21053473 (.breaks 17895457 (.breaks 21053441 (.breaks 25264209 (.breaks 17895425 (.leaf [49, 52,
  33, 77, 32, 50, 27, 16, 82, 28, 17, 34, 22, 18, 23, 24, 19]) (.leaf [49, 52, 33, 77, 32, 50, 27,
  16, 82, 28, 17, 13, 34, 22, 18, 14, 23, 24, 19])) (.leaf [49, 52, 33, 77, 32, 50, 27, 16, 82, 28,
  17, 13, 22, 18, 14, 23, 19])) (.leaf [49, 52, 33, 77, 32, 50, 27, 16, 82, 28, 17, 34, 22, 18, 23,
  24, 19])) (.leaf [49, 52, 33, 77, 32, 50, 27, 16, 82, 28, 17, 13, 34, 22, 18, 14, 23, 24, 19]))
  (.leaf [49, 52, 33, 77, 32, 50, 27, 16, 82, 28, 17, 34, 22, 18, 23, 24, 19])) (.leaf [49, 52, 33,
  77, 32, 50, 27, 16, 82, 28, 17, 13, 22, 18, 14, 23, 19])) (.leaf [49, 52, 33, 77, 32, 50, 27, 16,
  82, 28, 17, 13, 34, 22, 18, 14, 23, 24, 19])) (.leaf [49, 52, 33, 77, 32, 50, 27, 16, 82, 28, 17,
  34, 22, 18, 23, 24, 19])) (.leaf [49, 52, 33, 77, 32, 50, 27, 16, 82, 28, 17, 34, 22, 18, 23, 24,
  19])) (.leaf [49, 52, 33, 77, 32, 50, 27, 16, 82, 28, 17, 13, 34, 22, 18, 14, 23, 24, 19]))
  (.leaf [49, 52, 33, 77, 32, 50, 27, 16, 82, 28, 17, 13, 34, 22, 18, 14, 23, 24, 19])) (.leaf [49,
  52, 33, 77, 32, 50, 27, 16, 82, 28, 17, 13, 34, 22, 18, 14, 23, 24, 19])) (.leaf [49, 52, 33, 77,
  32, 50, 27, 16, 82, 28, 17, 13, 34, 22, 18, 14, 23, 24, 19])) (.leaf [49, 52, 33, 77, 32, 50, 27,
  16, 82, 28, 17, 13, 34, 22, 18, 14, 23, 24, 19])) (.leaf [49, 52, 33, 77, 32, 50, 27, 16, 82, 28,
  17, 13, 34, 22, 18, 14, 23, 24, 19])) (.leaf [49, 52, 33, 77, 32, 50, 27, 16, 82, 28, 17, 13, 34,
  22, 18, 14, 23, 24, 19]))

/-- some of the cases -/
def real5OneCase229 : LooseTree :=
  .cases [] 42 (.cycle 1 [76, 66, 137]) (.cases [] 46 (.breaks 13713491 (.breaks 21053521 (.breaks
  1052769 (.breaks 21041234 (.breaks 21065810 (.breaks 17895617 (.breaks 21053457 (.breaks 24211649
  (.breaks 17895441 (.breaks 21053473 (.breaks 24211473 (.breaks 17895457 (.breaks 21053441
  (.breaks 24211489 (.breaks 17895425 (.breaks 24211457 (.leaf [49, 124, 33, 111, 32, 50, 27, 66,
  16, 28, 7, 17, 22, 8, 18, 23, 9, 19, 10]) (.leaf [49, 124, 33, 111, 32, 50, 27, 66, 16, 28, 7,
  17, 22, 8, 18, 23, 9, 19, 10])) (.leaf [49, 124, 33, 111, 32, 50, 27, 66, 16, 28, 7, 17, 22, 8,
  18, 23, 9, 19, 10])) (.leaf [49, 124, 33, 111, 32, 50, 27, 66, 16, 28, 7, 17, 22, 8, 18, 23, 9,
  19, 10])) (.leaf [49, 124, 33, 111, 32, 50, 27, 66, 16, 28, 7, 17, 22, 8, 18, 23, 9, 19, 10]))
  (.leaf [49, 124, 33, 111, 32, 50, 27, 66, 16, 28, 7, 17, 22, 8, 18, 23, 9, 19, 10])) (.leaf [49,
  124, 33, 111, 32, 50, 27, 66, 16, 28, 7, 17, 22, 8, 18, 23, 9, 19, 10])) (.leaf [49, 124, 33,
  111, 32, 50, 27, 66, 16, 28, 7, 17, 22, 8, 18, 23, 9, 19, 10])) (.leaf [49, 124, 33, 111, 32, 50,
  27, 66, 16, 28, 7, 17, 22, 8, 18, 23, 9, 19, 10])) (.leaf [49, 124, 33, 111, 32, 50, 27, 66, 16,
  28, 7, 17, 22, 8, 18, 23, 9, 19, 10])) (.leaf [49, 124, 33, 111, 32, 50, 27, 66, 16, 28, 7, 17,
  22, 8, 18, 23, 9, 19, 10])) (.leaf [49, 124, 33, 111, 32, 50, 27, 66, 16, 28, 7, 17, 22, 8, 18,
  23, 9, 19, 10])) (.leaf [49, 124, 33, 111, 32, 50, 27, 66, 16, 28, 7, 17, 22, 8, 18, 23, 9, 19,
  10])) (.leaf [49, 124, 33, 111, 32, 50, 27, 66, 16, 28, 7, 17, 22, 8, 18, 23, 9, 19, 10])) (.leaf
  [49, 124, 33, 111, 32, 50, 27, 66, 16, 28, 7, 17, 22, 8, 18, 23, 9, 19, 10])) (.leaf [49, 124,
  33, 111, 32, 50, 27, 66, 16, 28, 7, 17, 22, 8, 18, 23, 9, 19, 10])) (.leaf [49, 124, 33, 111, 32,
  50, 27, 66, 16, 28, 7, 17, 22, 8, 18, 23, 9, 19, 10])) (.cases [] 8 (.cases [] 7 (.breaks
  13713493 (.breaks 21024851 (.cycle 1 [76, 144]) (.leaf [49, 76, 63, 33, 13, 27, 66, 32, 14, 28,
  39, 16, 22, 17, 23, 18, 19])) (.leaf [49, 76, 63, 33, 13, 27, 66, 32, 14, 28, 39, 7, 16, 22, 8,
  17, 23, 9, 18, 10, 19])) (.breaks 13713493 (.breaks 21024851 (.cycle 1 [76, 144]) (.leaf [49, 76,
  33, 27, 66, 32, 28, 39, 16, 82, 22, 17, 13, 34, 23, 18, 14, 24, 19])) (.leaf [49, 76, 33, 27, 66,
  32, 28, 39, 7, 16, 82, 22, 8, 17, 13, 34, 23, 9, 18, 14, 10, 24, 19]))) (.cases [] 20 (.cases []
  9 (.breaks 13713493 (.breaks 21024851 (.cycle 1 [76, 144]) (.leaf [49, 76, 44, 33, 50, 27, 45,
  32, 16, 73, 28, 37, 17, 22, 7, 18, 23, 8, 19, 9, 10])) (.leaf [49, 76, 44, 33, 50, 27, 45, 32,
  16, 73, 28, 37, 17, 22, 75, 7, 18, 13, 23, 8, 19, 14, 9, 10])) (.cases [] 7 (.breaks 13713493
  (.breaks 21024851 (.cycle 1 [76, 144]) (.leaf [49, 76, 63, 33, 13, 50, 27, 32, 16, 73, 14, 28,
  17, 22, 7, 18, 23, 8, 19, 9, 10])) (.leaf [49, 76, 63, 33, 13, 50, 27, 32, 16, 73, 14, 28, 17,
  22, 7, 18, 23, 8, 19, 9, 10])) (.breaks 13713493 (.breaks 21024851 (.cycle 1 [76, 144]) (.leaf
  [49, 76, 33, 50, 27, 32, 16, 73, 28, 17, 22, 75, 7, 18, 34, 23, 8, 19, 9, 24, 10])) (.leaf [49,
  76, 33, 50, 27, 32, 16, 73, 28, 17, 22, 75, 7, 18, 13, 34, 23, 8, 19, 14, 9, 24, 10])))) (.breaks
  13713493 (.breaks 21024851 (.cycle 1 [76, 144]) (.leaf [49, 76, 33, 50, 27, 32, 16, 82, 28, 17,
  92, 22, 18, 23, 7, 19, 8, 9, 10])) (.leaf [49, 76, 92, 33, 50, 27, 7, 32, 16, 28, 8, 17, 22, 9,
  18, 23, 10, 19])))))

/-- some of the cases -/
def real5OneCase230 : LooseTree :=
  .breaks 21053633 (.breaks 1052769 (.breaks 17895441 (.breaks 21053457 (.breaks 17895457 (.breaks
  21053473 (.breaks 17895425 (.breaks 21053441 (.leaf
  [49, 76, 105, 33, 16, 27, 32, 17, 28, 18, 22, 19, 23]) (.leaf
  [49, 76, 105, 33, 16, 27, 32, 17, 28, 18, 22, 19, 23])) (.leaf
  [49, 76, 105, 33, 16, 27, 32, 17, 28, 18, 22, 19, 23])) (.leaf
  [49, 76, 105, 33, 16, 27, 32, 17, 28, 18, 22, 19, 23])) (.leaf
  [49, 76, 105, 33, 16, 27, 32, 17, 28, 18, 22, 19, 23])) (.leaf
  [49, 76, 105, 33, 16, 27, 32, 17, 28, 18, 22, 19, 23])) (.leaf
  [49, 76, 105, 33, 16, 27, 32, 17, 28, 18, 22, 19, 23])) (.leaf
  [49, 76, 105, 33, 16, 27, 32, 17, 28, 18, 22, 19, 23])) (.leaf
  [49, 76, 105, 33, 16, 27, 32, 17, 28, 18, 22, 19, 23])

/-- some of the cases -/
def real5OneCase231 : LooseTree :=
  .cases [] 26 (.cases [] 0 (.breaks 13701205 (.breaks 1052769 (.breaks 17895617 (.breaks 17899717
  (.breaks 17895441 (.breaks 18948177 (.breaks 17895457 (.breaks 18948209 (.breaks 17895425 (.leaf
  [49, 15, 33, 0, 57, 32, 16, 82, 17, 13, 18, 14, 19]) (.leaf
  [49, 15, 33, 0, 57, 32, 16, 82, 17, 13, 18, 14, 19])) (.leaf
  [49, 15, 33, 0, 57, 32, 16, 82, 17, 13, 18, 14, 19])) (.leaf
  [49, 15, 33, 0, 57, 32, 16, 82, 17, 13, 18, 14, 19])) (.leaf
  [49, 15, 33, 0, 57, 32, 16, 82, 17, 13, 18, 14, 19])) (.leaf
  [49, 15, 33, 0, 57, 32, 16, 82, 17, 13, 18, 14, 19])) (.leaf
  [49, 15, 33, 0, 57, 32, 16, 82, 17, 13, 18, 14, 19])) (.leaf
  [49, 15, 33, 0, 57, 32, 16, 82, 17, 13, 18, 14, 19])) (.leaf
  [49, 15, 33, 0, 57, 32, 16, 82, 17, 13, 18, 14, 19])) (.leaf
  [49, 15, 33, 0, 57, 32, 16, 82, 17, 13, 18, 14, 19])) (.breaks 4198597 (.breaks 1130581 (.breaks
  21024965 (.breaks 13701205 (.breaks 13725781 (.breaks 17895617 (.breaks 24211649 (.breaks
  17895441 (.breaks 24211473 (.breaks 17895457 (.breaks 24211489 (.breaks 17895425 (.breaks
  24211457 (.leaf [49, 33, 88, 32, 78, 0, 57, 52, 16, 7, 17, 8, 18, 9, 19, 10]) (.leaf
  [49, 33, 88, 32, 78, 0, 57, 52, 16, 7, 17, 8, 18, 9, 19, 10])) (.leaf
  [49, 33, 88, 32, 78, 0, 57, 52, 16, 7, 17, 8, 18, 9, 19, 10])) (.leaf
  [49, 33, 88, 32, 78, 0, 57, 52, 16, 7, 17, 8, 18, 9, 19, 10])) (.leaf
  [49, 33, 88, 32, 78, 0, 57, 52, 16, 7, 17, 8, 18, 9, 19, 10])) (.leaf
  [49, 33, 88, 32, 78, 0, 57, 52, 16, 7, 17, 8, 18, 9, 19, 10])) (.leaf
  [49, 33, 88, 32, 78, 0, 57, 52, 16, 7, 17, 8, 18, 9, 19, 10])) (.leaf
  [49, 33, 88, 32, 78, 0, 57, 52, 16, 7, 17, 8, 18, 9, 19, 10])) (.leaf
  [49, 33, 88, 32, 78, 0, 57, 52, 16, 7, 17, 8, 18, 9, 19, 10])) (.leaf
  [49, 33, 88, 32, 78, 0, 57, 52, 16, 7, 17, 8, 18, 9, 19, 10])) (.leaf
  [49, 33, 88, 32, 78, 0, 57, 52, 16, 7, 17, 8, 18, 9, 19, 10])) (.leaf
  [49, 33, 88, 32, 78, 0, 57, 52, 16, 7, 17, 8, 18, 9, 19, 10])) (.leaf
  [49, 33, 88, 32, 78, 0, 57, 52, 16, 7, 17, 8, 18, 9, 19, 10])) (.leaf [49, 33, 88, 32, 78, 0, 57,
  52, 16, 82, 7, 17, 13, 8, 18, 14, 9, 19, 10]))) (.breaks 21024965 (.breaks 1052753 (.breaks
  13684817 (.breaks 13701205 (.breaks 1052769 (.breaks 17895617 (.breaks 17895441 (.breaks 17895457
  (.breaks 17895425 (.leaf [141, 78, 33, 0, 57, 32, 16, 17, 18, 19]) (.leaf
  [141, 78, 33, 0, 57, 32, 16, 17, 18, 19])) (.leaf [141, 78, 33, 0, 57, 32, 16, 17, 18, 19]))
  (.leaf [141, 78, 33, 0, 57, 32, 16, 17, 18, 19])) (.leaf
  [141, 78, 33, 0, 57, 32, 16, 17, 18, 19])) (.leaf [141, 78, 33, 0, 57, 32, 16, 17, 18, 19]))
  (.leaf [141, 78, 33, 0, 57, 32, 16, 17, 18, 19])) (.leaf
  [141, 78, 33, 0, 57, 32, 16, 17, 18, 19])) (.leaf [141, 78, 33, 0, 57, 32, 16, 17, 18, 19]))
  (.leaf [141, 78, 33, 0, 57, 32, 16, 82, 17, 13, 18, 14, 19]))

/-- some of the cases -/
def real5OneCase232 : LooseTree :=
  .breaks 1052753 (.breaks 17895617 (.breaks 1052769 (.breaks 17895441 (.breaks 17895457 (.breaks
  17895425 (.leaf [49, 105, 78, 33, 0, 16, 32, 17, 18, 19]) (.leaf
  [49, 105, 78, 33, 0, 16, 32, 17, 18, 19])) (.leaf [49, 105, 78, 33, 0, 16, 32, 17, 18, 19]))
  (.leaf [49, 105, 78, 33, 0, 16, 32, 17, 18, 19])) (.leaf
  [49, 105, 78, 33, 0, 16, 32, 17, 18, 19])) (.leaf [49, 105, 78, 33, 0, 16, 32, 17, 18, 19]))
  (.leaf [49, 105, 78, 33, 0, 16, 32, 17, 18, 19])

/-- some of the cases -/
def real5OneCase233 : LooseTree :=
  .cases [] 8 (.cases [] 21 (.breaks 13684817 (.breaks 13713493 (.breaks 17895441 (.breaks 17895457
  (.breaks 21053633 (.breaks 17895425 (.breaks 21053457 (.breaks 21053473 (.breaks 21053441 (.leaf
  [49, 39, 33, 30, 16, 32, 0, 76, 17, 18, 27, 19, 28, 22, 23]) (.leaf
  [49, 39, 33, 30, 16, 32, 0, 76, 17, 18, 27, 19, 28, 22, 23])) (.leaf
  [49, 39, 33, 30, 16, 32, 0, 76, 17, 18, 27, 19, 28, 22, 23])) (.leaf
  [49, 39, 33, 30, 16, 32, 0, 76, 17, 18, 27, 19, 28, 22, 23])) (.leaf
  [49, 39, 33, 30, 16, 32, 0, 76, 17, 18, 27, 19, 28, 22, 23])) (.leaf
  [49, 39, 33, 30, 16, 32, 0, 76, 17, 18, 27, 19, 28, 22, 23])) (.leaf
  [49, 39, 33, 30, 16, 32, 0, 76, 17, 18, 27, 19, 28, 22, 23])) (.leaf
  [49, 39, 33, 30, 16, 32, 0, 76, 17, 18, 27, 19, 28, 22, 23])) (.leaf
  [49, 39, 33, 30, 16, 32, 0, 76, 17, 18, 27, 19, 28, 22, 23])) (.leaf
  [49, 39, 33, 30, 16, 32, 0, 76, 17, 18, 27, 19, 28, 22, 23])) (.breaks 1052753 (.breaks 17895617
  (.breaks 17907794 (.breaks 1052769 (.breaks 17895441 (.breaks 21024965 (.breaks 21053633 (.breaks
  13684817 (.breaks 17895457 (.breaks 21053457 (.breaks 17895425 (.breaks 21053473 (.breaks
  21053441 (.leaf [49, 39, 33, 16, 47, 32, 17, 78, 27, 0, 18, 28, 19, 22, 23]) (.leaf
  [49, 39, 33, 16, 47, 32, 17, 78, 27, 0, 18, 28, 19, 22, 23])) (.leaf
  [49, 39, 33, 16, 47, 32, 17, 78, 27, 0, 18, 28, 19, 22, 23])) (.leaf
  [49, 39, 33, 16, 47, 32, 17, 78, 27, 0, 18, 28, 19, 22, 23])) (.leaf
  [49, 39, 33, 16, 47, 32, 17, 78, 27, 0, 18, 28, 19, 22, 23])) (.leaf
  [49, 39, 33, 16, 47, 32, 17, 78, 27, 0, 18, 28, 19, 22, 23])) (.leaf
  [49, 39, 33, 16, 47, 32, 17, 78, 27, 0, 18, 28, 19, 22, 23])) (.leaf
  [49, 39, 33, 16, 47, 32, 17, 78, 27, 0, 18, 28, 19, 22, 23])) (.leaf
  [49, 39, 33, 16, 47, 32, 17, 78, 27, 0, 18, 28, 19, 22, 23])) (.leaf
  [49, 39, 33, 16, 47, 32, 17, 78, 27, 0, 18, 28, 19, 22, 23])) (.leaf
  [49, 39, 33, 16, 47, 32, 17, 78, 27, 0, 18, 28, 19, 22, 23])) (.leaf
  [49, 39, 33, 16, 47, 32, 17, 78, 27, 0, 18, 28, 19, 22, 23])) (.leaf
  [49, 39, 33, 16, 47, 32, 17, 78, 27, 0, 18, 28, 19, 22, 23])) (.leaf
  [49, 39, 33, 16, 47, 32, 17, 78, 27, 0, 18, 28, 19, 22, 23]))) (.cycle 26 [149, 110, 166])

/-- some of the cases -/
def real5OneCase234 : LooseTree :=
  .breaks 1052753 (.breaks 24211537 (.breaks 1052769 (.breaks 24170693 (.breaks 24211649 (.breaks
  13684817 (.breaks 13713493 (.breaks 24211473 (.breaks 21053633 (.breaks 24211489 (.breaks
  21053457 (.breaks 24211457 (.breaks 21053473 (.breaks 21053441 (.leaf
  [49, 21, 33, 20, 32, 15, 7, 0, 76, 8, 27, 9, 28, 10, 22, 23]) (.leaf
  [49, 21, 33, 20, 32, 15, 7, 0, 76, 8, 27, 9, 28, 10, 22, 23])) (.leaf
  [49, 21, 33, 20, 32, 15, 7, 0, 76, 8, 27, 9, 28, 10, 22, 23])) (.leaf
  [49, 21, 33, 20, 32, 15, 7, 0, 76, 8, 27, 9, 28, 10, 22, 23])) (.leaf
  [49, 21, 33, 20, 32, 15, 7, 0, 76, 8, 27, 9, 28, 10, 22, 23])) (.leaf
  [49, 21, 33, 20, 32, 15, 7, 0, 76, 8, 27, 9, 28, 10, 22, 23])) (.leaf
  [49, 21, 33, 20, 32, 15, 7, 0, 76, 8, 27, 9, 28, 10, 22, 23])) (.leaf
  [49, 21, 33, 20, 32, 15, 7, 0, 76, 8, 27, 9, 28, 10, 22, 23])) (.leaf
  [49, 21, 33, 20, 32, 15, 7, 0, 76, 8, 27, 9, 28, 10, 22, 23])) (.leaf
  [49, 21, 33, 20, 32, 15, 7, 0, 76, 8, 27, 9, 28, 10, 22, 23])) (.leaf
  [49, 21, 33, 20, 32, 15, 7, 0, 76, 8, 27, 9, 28, 10, 22, 23])) (.leaf
  [49, 21, 33, 20, 32, 15, 7, 0, 76, 8, 27, 9, 28, 10, 22, 23])) (.leaf
  [49, 21, 33, 20, 32, 15, 7, 0, 76, 8, 27, 9, 28, 10, 22, 23])) (.leaf
  [49, 21, 33, 20, 32, 15, 7, 0, 76, 8, 27, 9, 28, 10, 22, 23])) (.leaf
  [49, 21, 33, 20, 32, 15, 7, 0, 76, 8, 27, 9, 28, 10, 22, 23])

/-- some of the cases -/
def real5OneCase235 : LooseTree :=
  .breaks 1052753 (.breaks 1118291 (.breaks 17920098 (.breaks 24211537 (.breaks 24199250 (.breaks
  21024965 (.breaks 21053633 (.breaks 24211473 (.breaks 13684817 (.breaks 21053457 (.breaks
  24211489 (.breaks 21053473 (.breaks 24211457 (.breaks 21053441 (.leaf [49, 33, 32, 107, 21, 20,
  77, 7, 78, 27, 8, 0, 28, 9, 22, 10, 23]) (.leaf [49, 33, 32, 107, 21, 20, 77, 7, 78, 27, 8, 0,
  28, 9, 22, 10, 23])) (.leaf [49, 33, 32, 107, 21, 20, 77, 7, 78, 27, 8, 0, 28, 9, 22, 10, 23]))
  (.leaf [49, 33, 32, 107, 21, 20, 77, 7, 78, 27, 8, 0, 28, 9, 22, 10, 23])) (.leaf [49, 33, 32,
  107, 21, 20, 77, 7, 78, 27, 8, 0, 28, 9, 22, 10, 23])) (.leaf [49, 33, 32, 107, 21, 20, 77, 7,
  78, 27, 8, 0, 28, 9, 22, 10, 23])) (.leaf [49, 33, 32, 107, 21, 20, 77, 7, 78, 27, 8, 0, 28, 9,
  22, 10, 23])) (.leaf [49, 33, 32, 107, 21, 20, 77, 7, 78, 27, 8, 0, 28, 9, 22, 10, 23])) (.leaf
  [49, 33, 32, 107, 21, 20, 77, 7, 78, 27, 8, 0, 28, 9, 22, 10, 23])) (.leaf [49, 33, 32, 107, 21,
  20, 77, 7, 78, 27, 8, 0, 28, 9, 22, 10, 23])) (.leaf [49, 33, 32, 107, 21, 20, 77, 7, 78, 27, 8,
  0, 28, 9, 22, 10, 23])) (.leaf [49, 33, 32, 107, 21, 20, 77, 7, 78, 27, 8, 0, 28, 9, 22, 10,
  23])) (.leaf [49, 33, 32, 107, 21, 20, 77, 7, 78, 27, 8, 0, 28, 9, 22, 10, 23])) (.leaf [49, 33,
  32, 107, 21, 20, 77, 7, 78, 27, 8, 0, 28, 9, 22, 10, 23])) (.leaf [49, 33, 32, 107, 21, 20, 77,
  7, 78, 27, 8, 0, 28, 9, 22, 10, 23])

/-- some of the cases -/
def real5OneCase236 : LooseTree :=
  .cases [] 9 (.breaks 1052753 (.breaks 23158913 (.breaks 24211537 (.breaks 1052769 (.breaks
  23158801 (.breaks 24199250 (.breaks 21024965 (.breaks 21053633 (.breaks 13684817 (.breaks
  21053457 (.breaks 21053473 (.breaks 21053441 (.leaf
  [21, 98, 44, 33, 45, 20, 32, 37, 77, 78, 27, 0, 28, 22, 23]) (.leaf
  [21, 98, 44, 33, 45, 20, 32, 37, 77, 78, 27, 0, 28, 22, 23])) (.leaf
  [21, 98, 44, 33, 45, 20, 32, 37, 77, 78, 27, 0, 28, 22, 23])) (.leaf
  [21, 98, 44, 33, 45, 20, 32, 37, 77, 78, 27, 0, 28, 22, 23])) (.leaf
  [21, 98, 44, 33, 45, 20, 32, 37, 77, 78, 27, 0, 28, 22, 23])) (.leaf
  [21, 98, 44, 33, 45, 20, 32, 37, 77, 78, 27, 0, 28, 22, 23])) (.leaf
  [21, 98, 44, 33, 45, 20, 32, 37, 77, 78, 27, 0, 28, 22, 23])) (.leaf
  [21, 98, 44, 33, 45, 20, 32, 37, 77, 78, 27, 0, 28, 22, 23])) (.leaf
  [21, 98, 44, 33, 45, 20, 32, 37, 77, 78, 27, 0, 28, 22, 23])) (.leaf
  [21, 98, 44, 33, 45, 20, 32, 37, 77, 78, 27, 0, 28, 22, 23])) (.leaf
  [21, 98, 44, 33, 45, 20, 32, 37, 77, 78, 27, 0, 28, 22, 23])) (.leaf
  [21, 98, 44, 33, 45, 20, 32, 37, 77, 78, 27, 0, 28, 22, 23])) (.leaf
  [21, 98, 44, 33, 45, 20, 32, 37, 77, 78, 27, 0, 28, 22, 23])) (.breaks 17920098 (.breaks 1052753
  (.breaks 24211537 (.breaks 1052769 (.breaks 24199250 (.breaks 24211649 (.breaks 21024965 (.breaks
  21053633 (.breaks 24211473 (.breaks 13684817 (.breaks 21053457 (.breaks 24211489 (.breaks
  21053473 (.breaks 24211457 (.breaks 21053441 (.leaf
  [21, 98, 33, 20, 32, 77, 7, 78, 27, 8, 0, 28, 9, 22, 10, 23]) (.leaf
  [21, 98, 33, 20, 32, 77, 7, 78, 27, 8, 0, 28, 9, 22, 10, 23])) (.leaf
  [21, 98, 33, 20, 32, 77, 7, 78, 27, 8, 0, 28, 9, 22, 10, 23])) (.leaf
  [21, 98, 33, 20, 32, 77, 7, 78, 27, 8, 0, 28, 9, 22, 10, 23])) (.leaf
  [21, 98, 33, 20, 32, 77, 7, 78, 27, 8, 0, 28, 9, 22, 10, 23])) (.leaf
  [21, 98, 33, 20, 32, 77, 7, 78, 27, 8, 0, 28, 9, 22, 10, 23])) (.leaf
  [21, 98, 33, 20, 32, 77, 7, 78, 27, 8, 0, 28, 9, 22, 10, 23])) (.leaf
  [21, 98, 33, 20, 32, 77, 7, 78, 27, 8, 0, 28, 9, 22, 10, 23])) (.leaf
  [21, 98, 33, 20, 32, 77, 7, 78, 27, 8, 0, 28, 9, 22, 10, 23])) (.leaf
  [21, 98, 33, 20, 32, 77, 7, 78, 27, 8, 0, 28, 9, 22, 10, 23])) (.leaf
  [21, 98, 33, 20, 32, 77, 7, 78, 27, 8, 0, 28, 9, 22, 10, 23])) (.leaf [21, 98, 48, 33, 35, 20,
  32, 36, 77, 7, 78, 27, 8, 0, 28, 9, 22, 10, 23])) (.leaf
  [21, 98, 33, 20, 32, 77, 7, 78, 27, 8, 0, 28, 9, 22, 10, 23])) (.leaf [21, 98, 48, 33, 35, 20,
  32, 36, 77, 7, 78, 27, 8, 0, 28, 9, 22, 10, 23])) (.leaf
  [21, 98, 33, 20, 32, 77, 7, 78, 27, 8, 0, 28, 9, 22, 10, 23])) (.leaf [21, 98, 48, 33, 35, 20,
  32, 36, 77, 7, 78, 27, 8, 0, 28, 9, 22, 10, 23]))

/-- some of the cases -/
def real5OneCase237 : LooseTree :=
  .breaks 4198597 (.breaks 1052753 (.breaks 1118291 (.breaks 17895505 (.breaks 17907794 (.breaks
  21053633 (.breaks 21065810 (.breaks 21053457 (.breaks 24170693 (.breaks 24211649 (.breaks
  13684817 (.breaks 21053473 (.breaks 24211473 (.breaks 21053441 (.breaks 24211489 (.breaks
  24211457 (.leaf [49, 33, 32, 107, 110, 47, 27, 66, 28, 15, 7, 0, 22, 8, 23, 9, 10]) (.leaf [49,
  33, 32, 107, 110, 47, 27, 66, 28, 15, 7, 0, 22, 8, 23, 9, 10])) (.leaf [49, 33, 32, 107, 110, 47,
  27, 66, 28, 15, 7, 0, 22, 8, 23, 9, 10])) (.leaf [49, 33, 32, 107, 110, 47, 27, 66, 28, 15, 7, 0,
  22, 8, 23, 9, 10])) (.leaf [49, 33, 32, 107, 110, 47, 27, 66, 28, 15, 7, 0, 22, 8, 23, 9, 10]))
  (.leaf [49, 33, 32, 107, 110, 47, 27, 66, 28, 15, 7, 0, 22, 8, 23, 9, 10])) (.leaf [49, 33, 32,
  107, 110, 47, 27, 66, 28, 15, 7, 0, 22, 8, 23, 9, 10])) (.leaf [49, 33, 32, 107, 110, 47, 27, 66,
  28, 15, 7, 0, 22, 8, 23, 9, 10])) (.leaf [49, 33, 32, 107, 110, 47, 27, 66, 28, 15, 7, 0, 22, 8,
  23, 9, 10])) (.leaf [49, 33, 32, 107, 110, 47, 27, 66, 28, 15, 7, 0, 22, 8, 23, 9, 10])) (.leaf
  [49, 33, 32, 107, 110, 16, 47, 17, 27, 66, 18, 28, 15, 7, 0, 19, 22, 8, 23, 9, 10])) (.leaf [49,
  33, 32, 107, 110, 47, 27, 66, 28, 15, 7, 0, 22, 8, 23, 9, 10])) (.leaf [49, 33, 32, 107, 110, 16,
  47, 17, 27, 66, 18, 28, 15, 7, 0, 19, 22, 8, 23, 9, 10])) (.leaf [49, 33, 32, 107, 110, 16, 47,
  17, 27, 66, 18, 28, 15, 7, 0, 19, 22, 8, 23, 9, 10])) (.leaf [49, 33, 32, 107, 110, 16, 47, 17,
  27, 66, 18, 28, 15, 7, 0, 19, 22, 8, 23, 9, 10])) (.leaf [49, 33, 32, 107, 110, 16, 47, 17, 27,
  66, 18, 28, 15, 7, 0, 19, 22, 8, 23, 9, 10])) (.leaf [49, 33, 32, 107, 110, 16, 47, 17, 27, 66,
  18, 28, 15, 7, 0, 19, 22, 8, 23, 9, 10])

/-- some of the cases -/
def real5OneCase238 : LooseTree :=
  .cases [] 7 (.breaks 1052753 (.breaks 21065810 (.breaks 1052769 (.breaks 21053457 (.breaks
  24170693 (.breaks 24211649 (.breaks 13684817 (.breaks 21053473 (.breaks 24211473 (.breaks
  21053441 (.breaks 24211489 (.breaks 25239746 (.breaks 18948177 (.breaks 24211457 (.breaks
  18948209 (.leaf [98, 47, 33, 27, 66, 32, 28, 15, 7, 0, 123, 22, 8, 23, 9, 63, 13, 10, 14]) (.leaf
  [98, 47, 33, 27, 66, 32, 28, 15, 7, 0, 123, 22, 8, 23, 9, 63, 13, 10, 14])) (.leaf [98, 47, 33,
  27, 66, 32, 28, 15, 7, 0, 123, 22, 8, 23, 9, 63, 13, 10, 14])) (.leaf [98, 47, 33, 27, 66, 32,
  28, 15, 7, 0, 123, 22, 8, 23, 9, 63, 13, 10, 14])) (.leaf [98, 47, 33, 27, 66, 32, 28, 15, 7, 0,
  123, 22, 8, 23, 9, 63, 13, 10, 14])) (.leaf [98, 47, 33, 27, 66, 32, 28, 15, 7, 0, 123, 22, 8,
  23, 9, 63, 13, 10, 14])) (.leaf [98, 47, 33, 27, 66, 32, 28, 15, 7, 0, 123, 22, 8, 23, 9, 63, 13,
  10, 14])) (.leaf [98, 47, 33, 27, 66, 32, 28, 15, 7, 0, 123, 22, 8, 23, 9, 63, 13, 10, 14]))
  (.leaf [98, 47, 33, 27, 66, 32, 28, 15, 7, 0, 123, 22, 8, 23, 9, 63, 13, 10, 14])) (.leaf [98,
  47, 33, 27, 66, 32, 28, 15, 7, 0, 123, 22, 8, 23, 9, 63, 13, 10, 14])) (.leaf [98, 47, 33, 27,
  66, 32, 28, 15, 7, 0, 123, 22, 8, 23, 9, 63, 13, 10, 14])) (.leaf [98, 47, 63, 33, 13, 27, 66,
  32, 14, 28, 15, 7, 0, 22, 8, 23, 9, 10])) (.leaf [98, 47, 33, 27, 66, 32, 28, 15, 7, 0, 123, 22,
  8, 23, 9, 63, 13, 10, 14])) (.leaf [98, 47, 33, 27, 66, 32, 28, 15, 7, 0, 123, 22, 8, 23, 9, 63,
  13, 10, 14])) (.leaf [98, 47, 63, 33, 13, 27, 66, 32, 14, 28, 15, 7, 0, 22, 8, 23, 9, 10]))
  (.leaf [98, 47, 33, 27, 66, 32, 28, 15, 7, 0, 123, 22, 8, 23, 9, 63, 13, 10, 14])) (.breaks
  17907794 (.breaks 1052753 (.breaks 21053633 (.breaks 21065810 (.breaks 1052769 (.breaks 21053457
  (.breaks 24170693 (.breaks 24211649 (.breaks 13684817 (.breaks 13705410 (.breaks 21053473
  (.breaks 24211473 (.breaks 18972866 (.breaks 21053441 (.breaks 24211489 (.breaks 24211457
  (.breaks 25264209 (.leaf [98, 47, 33, 27, 66, 32, 28, 15, 7, 0, 31, 22, 8, 34, 23, 9, 10, 24])
  (.leaf [98, 47, 33, 27, 66, 32, 28, 15, 7, 0, 31, 22, 8, 13, 23, 9, 14, 10])) (.leaf [98, 47, 33,
  27, 66, 32, 28, 15, 7, 0, 31, 22, 8, 34, 23, 9, 10, 24])) (.leaf [98, 47, 33, 27, 66, 32, 28, 15,
  7, 0, 31, 22, 8, 34, 23, 9, 10, 24])) (.leaf [98, 47, 33, 27, 66, 32, 28, 15, 7, 0, 31, 22, 8,
  34, 23, 9, 10, 24])) (.leaf [98, 47, 33, 27, 66, 32, 28, 15, 7, 0, 31, 22, 8, 13, 23, 9, 14,
  10])) (.leaf [98, 47, 33, 27, 66, 32, 28, 15, 7, 0, 31, 22, 8, 34, 23, 9, 10, 24])) (.leaf [98,
  47, 33, 27, 66, 32, 28, 15, 7, 0, 31, 22, 8, 34, 23, 9, 10, 24])) (.leaf [98, 47, 33, 27, 66, 32,
  28, 15, 7, 0, 31, 22, 8, 34, 23, 9, 10, 24])) (.leaf [98, 47, 33, 27, 66, 32, 28, 15, 7, 0, 31,
  22, 8, 34, 23, 9, 10, 24])) (.leaf [98, 47, 33, 27, 66, 32, 28, 15, 7, 0, 31, 22, 8, 34, 23, 9,
  10, 24])) (.leaf [98, 47, 33, 27, 66, 32, 28, 15, 7, 0, 31, 22, 8, 13, 34, 23, 9, 14, 10, 24]))
  (.leaf [98, 47, 33, 27, 66, 32, 28, 15, 7, 0, 31, 22, 8, 34, 23, 9, 10, 24])) (.leaf [98, 47, 33,
  27, 66, 32, 28, 15, 7, 0, 31, 22, 8, 34, 23, 9, 10, 24])) (.leaf [98, 47, 33, 27, 66, 32, 28, 15,
  7, 0, 31, 22, 8, 13, 34, 23, 9, 14, 10, 24])) (.leaf [98, 47, 33, 27, 66, 32, 28, 15, 7, 0, 31,
  22, 8, 34, 23, 9, 10, 24])) (.leaf [98, 47, 33, 27, 66, 32, 28, 15, 7, 0, 31, 22, 8, 34, 23, 9,
  10, 24])) (.leaf [98, 47, 33, 27, 66, 32, 28, 15, 7, 0, 31, 22, 8, 13, 34, 23, 9, 14, 10, 24]))

/-- some of the cases -/
def real5OneCase239 : LooseTree :=
  .breaks 17829971 (.breaks 17907794 (.breaks 1052753 (.breaks 21053633 (.breaks 21065810 (.breaks
  1052769 (.breaks 21053457 (.breaks 24191173 (.breaks 24211649 (.breaks 18927810 (.breaks 21053473
  (.breaks 24211473 (.breaks 13684817 (.breaks 21053441 (.breaks 24211489 (.breaks 24211457 (.leaf
  [98, 47, 33, 27, 66, 32, 28, 75, 7, 87, 22, 8, 0, 23, 9, 10]) (.leaf [98, 47, 33, 27, 66, 32, 28,
  75, 7, 87, 22, 8, 0, 123, 23, 9, 10, 24])) (.leaf [98, 47, 33, 27, 66, 32, 28, 75, 7, 87, 22, 8,
  0, 123, 23, 9, 10, 24])) (.leaf [98, 47, 33, 27, 66, 32, 28, 75, 7, 87, 22, 8, 0, 123, 23, 9, 10,
  24])) (.leaf [98, 47, 33, 27, 66, 32, 28, 75, 7, 87, 22, 8, 0, 123, 23, 9, 10, 24])) (.leaf [98,
  47, 33, 27, 66, 32, 28, 75, 7, 87, 22, 8, 0, 123, 23, 9, 10, 24])) (.leaf [98, 47, 33, 27, 66,
  32, 28, 75, 7, 87, 22, 8, 0, 123, 23, 9, 10, 24])) (.leaf [98, 47, 33, 27, 66, 32, 28, 75, 7, 87,
  22, 8, 0, 123, 23, 9, 10, 24])) (.leaf [98, 47, 33, 27, 66, 32, 28, 75, 7, 87, 22, 8, 0, 123, 23,
  9, 10, 24])) (.leaf [98, 47, 87, 33, 0, 123, 27, 66, 32, 28, 7, 24, 22, 8, 23, 9, 10])) (.leaf
  [98, 47, 33, 27, 66, 32, 28, 75, 7, 87, 22, 8, 0, 123, 23, 9, 10, 24])) (.leaf [98, 47, 33, 27,
  66, 32, 28, 75, 7, 87, 22, 8, 0, 123, 23, 9, 10, 24])) (.leaf [98, 47, 87, 33, 0, 123, 27, 66,
  32, 28, 7, 24, 22, 8, 23, 9, 10])) (.leaf [98, 47, 33, 27, 66, 32, 28, 75, 7, 87, 22, 8, 0, 123,
  23, 9, 10, 24])) (.leaf [98, 47, 33, 27, 66, 32, 28, 75, 7, 87, 22, 8, 0, 123, 23, 9, 10, 24]))
  (.leaf [98, 47, 87, 33, 0, 123, 27, 66, 32, 28, 7, 24, 22, 8, 23, 9, 10])) (.leaf [98, 47, 33,
  27, 66, 32, 28, 75, 7, 87, 22, 8, 0, 123, 23, 9, 10, 24])

/-- some of the cases -/
def real5OneCase240 : LooseTree :=
  .breaks 1052753 (.breaks 13684817 (.breaks 21053633 (.breaks 21065810 (.breaks 1052769 (.breaks
  21053457 (.breaks 24211649 (.breaks 21053473 (.breaks 24211473 (.breaks 21053441 (.breaks
  24211489 (.breaks 24211457 (.leaf [98, 47, 126, 33, 0, 27, 66, 32, 28, 7, 22, 8, 23, 9, 10])
  (.leaf [98, 47, 126, 33, 0, 27, 66, 32, 28, 7, 22, 8, 23, 9, 10])) (.leaf
  [98, 47, 126, 33, 0, 27, 66, 32, 28, 7, 22, 8, 23, 9, 10])) (.leaf
  [98, 47, 126, 33, 0, 27, 66, 32, 28, 7, 22, 8, 23, 9, 10])) (.leaf
  [98, 47, 126, 33, 0, 27, 66, 32, 28, 7, 22, 8, 23, 9, 10])) (.leaf
  [98, 47, 126, 33, 0, 27, 66, 32, 28, 7, 22, 8, 23, 9, 10])) (.leaf
  [98, 47, 126, 33, 0, 27, 66, 32, 28, 7, 22, 8, 23, 9, 10])) (.leaf
  [98, 47, 126, 33, 0, 27, 66, 32, 28, 7, 22, 8, 23, 9, 10])) (.leaf
  [98, 47, 126, 33, 0, 27, 66, 32, 28, 7, 22, 8, 23, 9, 10])) (.leaf
  [98, 47, 126, 33, 0, 27, 66, 32, 28, 7, 22, 8, 23, 9, 10])) (.leaf
  [98, 47, 126, 33, 0, 27, 66, 32, 28, 7, 22, 8, 23, 9, 10])) (.leaf
  [98, 47, 126, 33, 0, 27, 66, 32, 28, 7, 22, 8, 23, 9, 10])) (.leaf
  [98, 47, 126, 33, 0, 27, 66, 32, 28, 7, 22, 8, 23, 9, 10])

/-- some of the cases -/
def real5OneCase241 : LooseTree :=
  .cases [] 16 (.breaks 1052753 (.breaks 13684817 (.breaks 13725781 (.breaks 1052769 (.breaks
  24199250 (.breaks 24211649 (.breaks 21053633 (.breaks 24211473 (.breaks 21053457 (.breaks
  24211489 (.breaks 21053473 (.breaks 24211457 (.breaks 21053441 (.leaf
  [49, 30, 33, 0, 52, 32, 77, 7, 27, 8, 28, 9, 22, 10, 23]) (.leaf
  [49, 30, 33, 0, 52, 32, 77, 7, 27, 8, 28, 9, 22, 10, 23])) (.leaf
  [49, 30, 33, 0, 52, 32, 77, 7, 27, 8, 28, 9, 22, 10, 23])) (.leaf
  [49, 30, 33, 0, 52, 32, 77, 7, 27, 8, 28, 9, 22, 10, 23])) (.leaf
  [49, 30, 33, 0, 52, 32, 77, 7, 27, 8, 28, 9, 22, 10, 23])) (.leaf
  [49, 30, 33, 0, 52, 32, 77, 7, 27, 8, 28, 9, 22, 10, 23])) (.leaf
  [49, 30, 33, 0, 52, 32, 77, 7, 27, 8, 28, 9, 22, 10, 23])) (.leaf
  [49, 30, 33, 0, 52, 32, 77, 7, 27, 8, 28, 9, 22, 10, 23])) (.leaf
  [49, 30, 33, 0, 52, 32, 77, 7, 27, 8, 28, 9, 22, 10, 23])) (.leaf
  [49, 30, 33, 0, 52, 32, 77, 7, 27, 8, 28, 9, 22, 10, 23])) (.leaf
  [49, 30, 33, 0, 52, 32, 77, 7, 27, 8, 28, 9, 22, 10, 23])) (.leaf
  [49, 30, 33, 0, 52, 32, 77, 7, 27, 8, 28, 9, 22, 10, 23])) (.leaf
  [49, 30, 33, 0, 52, 32, 77, 7, 27, 8, 28, 9, 22, 10, 23])) (.leaf
  [49, 30, 33, 0, 52, 32, 77, 7, 27, 8, 28, 9, 22, 10, 23])) (.breaks 1052753 (.breaks 13684817
  (.breaks 13713493 (.breaks 1052769 (.breaks 21053633 (.breaks 21065810 (.breaks 21053457 (.breaks
  24211649 (.breaks 21053473 (.breaks 24211473 (.breaks 21053441 (.breaks 24211489 (.breaks
  24211457 (.leaf [49, 30, 33, 0, 76, 32, 27, 66, 28, 7, 22, 8, 23, 9, 10]) (.leaf
  [49, 30, 33, 0, 76, 32, 27, 66, 28, 7, 22, 8, 23, 9, 10])) (.leaf
  [49, 30, 33, 0, 76, 32, 27, 66, 28, 7, 22, 8, 23, 9, 10])) (.leaf
  [49, 30, 33, 0, 76, 32, 27, 66, 28, 7, 22, 8, 23, 9, 10])) (.leaf
  [49, 30, 33, 0, 76, 32, 27, 66, 28, 7, 22, 8, 23, 9, 10])) (.leaf
  [49, 30, 33, 0, 76, 32, 27, 66, 28, 7, 22, 8, 23, 9, 10])) (.leaf
  [49, 30, 33, 0, 76, 32, 27, 66, 28, 7, 22, 8, 23, 9, 10])) (.leaf
  [49, 30, 33, 0, 76, 32, 27, 66, 28, 7, 22, 8, 23, 9, 10])) (.leaf
  [49, 30, 33, 0, 76, 32, 27, 66, 28, 7, 22, 8, 23, 9, 10])) (.leaf
  [49, 30, 33, 0, 76, 32, 27, 66, 28, 7, 22, 8, 23, 9, 10])) (.leaf
  [49, 30, 33, 0, 76, 32, 27, 66, 28, 7, 22, 8, 23, 9, 10])) (.leaf
  [49, 30, 33, 0, 76, 32, 27, 66, 28, 7, 22, 8, 23, 9, 10])) (.leaf
  [49, 30, 33, 0, 76, 32, 27, 66, 28, 7, 22, 8, 23, 9, 10])) (.leaf
  [49, 30, 33, 0, 76, 32, 27, 66, 28, 7, 22, 8, 23, 9, 10]))

/-- some of the cases -/
def real5OneCase242 : LooseTree :=
  .cases [] 24 (.breaks 1052753 (.breaks 21024965 (.breaks 21053633 (.breaks 1052769 (.breaks
  13684817 (.breaks 13725781 (.breaks 21053457 (.breaks 21053473 (.breaks 24211649 (.breaks
  24215749 (.breaks 21053441 (.breaks 24211473 (.breaks 25264209 (.breaks 24211489 (.breaks
  24211457 (.leaf [49, 47, 33, 78, 27, 32, 0, 52, 28, 22, 7, 86, 23, 8, 24, 9, 10]) (.leaf [49, 47,
  33, 78, 27, 32, 0, 52, 28, 22, 7, 86, 23, 8, 24, 9, 10])) (.leaf [49, 47, 33, 78, 27, 32, 0, 52,
  28, 22, 7, 86, 23, 8, 24, 9, 10])) (.leaf [49, 47, 33, 78, 27, 32, 0, 52, 28, 22, 7, 86, 23, 8,
  24, 9, 10])) (.leaf [49, 47, 33, 78, 27, 32, 0, 52, 28, 22, 7, 86, 23, 8, 24, 9, 10])) (.leaf
  [49, 47, 33, 78, 27, 32, 0, 52, 28, 22, 7, 86, 23, 8, 24, 9, 10])) (.leaf [49, 47, 33, 78, 27,
  32, 0, 52, 28, 22, 7, 86, 23, 8, 24, 9, 10])) (.leaf [49, 47, 33, 78, 27, 32, 0, 52, 28, 22, 7,
  86, 23, 8, 24, 9, 10])) (.leaf [49, 47, 33, 78, 27, 32, 0, 52, 28, 22, 7, 86, 23, 8, 24, 9, 10]))
  (.leaf [49, 47, 33, 78, 27, 32, 0, 52, 28, 22, 7, 86, 23, 8, 24, 9, 10])) (.leaf [49, 47, 33, 78,
  27, 32, 0, 52, 28, 22, 7, 86, 23, 8, 24, 9, 10])) (.leaf [49, 47, 33, 78, 27, 32, 0, 52, 28, 22,
  7, 86, 23, 8, 24, 9, 10])) (.leaf [49, 47, 33, 78, 27, 32, 0, 52, 28, 22, 7, 86, 23, 8, 24, 9,
  10])) (.leaf [49, 47, 33, 78, 27, 32, 0, 52, 28, 22, 7, 86, 23, 8, 24, 9, 10])) (.leaf [49, 47,
  33, 78, 27, 32, 0, 52, 28, 22, 7, 86, 23, 8, 24, 9, 10])) (.leaf [49, 47, 33, 78, 27, 32, 0, 52,
  28, 22, 7, 86, 23, 8, 24, 9, 10])) (.breaks 21053633 (.breaks 24211649 (.breaks 1052769 (.breaks
  13684817 (.breaks 21053457 (.breaks 24211473 (.breaks 21053473 (.breaks 24211489 (.breaks
  21053441 (.breaks 24211457 (.leaf [49, 47, 83, 33, 78, 27, 7, 32, 0, 28, 8, 22, 9, 23, 10])
  (.leaf [49, 47, 83, 33, 78, 27, 7, 32, 0, 28, 8, 22, 9, 23, 10])) (.leaf
  [49, 47, 83, 33, 78, 27, 7, 32, 0, 28, 8, 22, 9, 23, 10])) (.leaf
  [49, 47, 83, 33, 78, 27, 7, 32, 0, 28, 8, 22, 9, 23, 10])) (.leaf
  [49, 47, 83, 33, 78, 27, 7, 32, 0, 28, 8, 22, 9, 23, 10])) (.leaf
  [49, 47, 83, 33, 78, 27, 7, 32, 0, 28, 8, 22, 9, 23, 10])) (.leaf
  [49, 47, 83, 33, 78, 27, 7, 32, 0, 28, 8, 22, 9, 23, 10])) (.leaf
  [49, 47, 83, 33, 78, 27, 7, 32, 0, 28, 8, 22, 9, 23, 10])) (.leaf
  [49, 47, 83, 33, 78, 27, 7, 32, 0, 28, 8, 22, 9, 23, 10])) (.leaf
  [49, 47, 83, 33, 78, 27, 7, 32, 0, 28, 8, 22, 9, 23, 10])) (.leaf
  [49, 47, 83, 33, 78, 27, 7, 32, 0, 28, 8, 22, 9, 23, 10]))

/-- some of the cases -/
def real5OneCase243 : LooseTree :=
  .breaks 21053633 (.breaks 1052769 (.breaks 17879237 (.breaks 17895617 (.breaks 21053457 (.breaks
  13684817 (.breaks 17895441 (.breaks 21053473 (.breaks 17895457 (.breaks 21053441 (.breaks
  17895425 (.leaf [49, 77, 33, 50, 27, 32, 30, 16, 28, 0, 17, 22, 18, 23, 19]) (.leaf
  [49, 77, 33, 50, 27, 32, 30, 16, 28, 0, 17, 22, 18, 23, 19])) (.leaf
  [49, 77, 33, 50, 27, 32, 30, 16, 28, 0, 17, 22, 18, 23, 19])) (.leaf
  [49, 77, 33, 50, 27, 32, 30, 16, 28, 0, 17, 22, 18, 23, 19])) (.leaf
  [49, 77, 33, 50, 27, 32, 30, 16, 28, 0, 17, 22, 18, 23, 19])) (.leaf
  [49, 77, 33, 50, 27, 32, 30, 16, 28, 0, 17, 22, 18, 23, 19])) (.leaf
  [49, 77, 33, 50, 27, 32, 30, 16, 28, 0, 17, 22, 18, 23, 19])) (.leaf
  [49, 77, 33, 50, 27, 32, 30, 16, 28, 0, 17, 22, 18, 23, 19])) (.leaf
  [49, 77, 33, 50, 27, 32, 30, 16, 28, 0, 17, 22, 18, 23, 19])) (.leaf
  [49, 77, 33, 50, 27, 32, 30, 16, 28, 0, 17, 22, 18, 23, 19])) (.leaf
  [49, 77, 33, 50, 27, 32, 30, 16, 28, 0, 17, 22, 18, 23, 19])) (.leaf
  [49, 77, 33, 50, 27, 32, 30, 16, 28, 0, 17, 22, 18, 23, 19])

/-- some of the cases -/
def real5OneCase244 : LooseTree :=
  .breaks 1052753 (.breaks 1130581 (.breaks 9474065 (.breaks 1052769 (.breaks 9474177 (.breaks
  21065810 (.breaks 9474193 (.breaks 24186962 (.breaks 17879237 (.breaks 17895617 (.breaks 13684817
  (.breaks 17895441 (.breaks 17895457 (.breaks 17895425 (.leaf [49, 61, 33, 88, 62, 32, 55, 66, 56,
  39, 30, 16, 0, 17, 18, 19]) (.leaf [49, 61, 33, 88, 62, 32, 55, 66, 56, 39, 30, 16, 0, 17, 18,
  19])) (.leaf [49, 61, 33, 88, 62, 32, 55, 66, 56, 39, 30, 16, 0, 17, 18, 19])) (.leaf [49, 61,
  33, 88, 62, 32, 55, 66, 56, 39, 30, 16, 0, 17, 18, 19])) (.leaf [49, 61, 33, 88, 62, 32, 55, 66,
  56, 39, 30, 16, 0, 17, 18, 19])) (.leaf [49, 61, 33, 88, 62, 32, 55, 66, 56, 39, 30, 16, 0, 17,
  18, 19])) (.leaf [49, 61, 33, 88, 62, 32, 55, 66, 56, 39, 30, 16, 0, 17, 18, 19])) (.leaf [49,
  61, 33, 88, 62, 32, 55, 66, 56, 39, 30, 16, 0, 17, 18, 19])) (.leaf [49, 61, 33, 88, 62, 32, 55,
  66, 56, 39, 30, 16, 0, 17, 18, 19])) (.leaf [49, 61, 33, 88, 62, 32, 55, 66, 56, 39, 30, 16, 0,
  17, 18, 19])) (.leaf [49, 61, 33, 88, 62, 32, 55, 66, 56, 39, 30, 16, 0, 17, 18, 19])) (.leaf
  [49, 61, 33, 88, 62, 32, 55, 66, 56, 39, 30, 16, 0, 17, 18, 19])) (.leaf
  [49, 128, 33, 88, 55, 32, 56, 66, 39, 30, 16, 0, 17, 18, 19])) (.leaf [49, 61, 33, 88, 62, 32,
  55, 66, 56, 39, 30, 16, 0, 17, 18, 19])) (.leaf [49, 61, 33, 88, 62, 32, 55, 66, 56, 39, 30, 16,
  0, 17, 18, 19])

/-- some of the cases -/
def real5OneCase245 : LooseTree :=
  .cases [] 49 (.breaks 4198597 (.breaks 1052753 (.breaks 1130579 (.breaks 21053521 (.breaks
  21065810 (.breaks 24186962 (.breaks 17879237 (.breaks 17895617 (.breaks 13684817 (.breaks
  17895441 (.breaks 17895457 (.breaks 17895425 (.leaf
  [49, 33, 32, 131, 111, 66, 39, 30, 16, 0, 17, 18, 19]) (.leaf [49, 33, 32, 131, 111, 27, 66, 28,
  39, 30, 16, 22, 0, 17, 23, 18, 19])) (.leaf [49, 33, 32, 131, 111, 27, 66, 28, 39, 30, 16, 22, 0,
  17, 23, 18, 19])) (.leaf [49, 33, 32, 131, 111, 27, 66, 28, 39, 30, 16, 22, 0, 17, 23, 18, 19]))
  (.leaf [49, 33, 32, 131, 111, 66, 39, 30, 16, 0, 17, 18, 19])) (.leaf [49, 33, 32, 131, 111, 27,
  66, 28, 39, 30, 16, 22, 0, 17, 23, 18, 19])) (.leaf
  [49, 33, 32, 131, 111, 66, 39, 30, 16, 0, 17, 18, 19])) (.leaf [49, 33, 32, 131, 111, 27, 66, 28,
  39, 30, 16, 22, 0, 17, 23, 18, 19])) (.leaf [49, 33, 32, 131, 111, 27, 66, 28, 39, 30, 16, 22, 0,
  17, 23, 18, 19])) (.leaf [49, 33, 32, 131, 111, 27, 66, 28, 39, 30, 16, 22, 0, 17, 23, 18, 19]))
  (.leaf [49, 33, 32, 131, 111, 27, 66, 28, 39, 30, 16, 22, 0, 17, 23, 18, 19])) (.leaf [49, 33,
  32, 131, 111, 27, 66, 28, 39, 30, 16, 22, 0, 17, 23, 18, 19])) (.leaf [49, 33, 32, 131, 111, 27,
  66, 28, 39, 30, 16, 22, 0, 17, 23, 18, 19])) (.cases [] 6 (.cases [] 9 (.breaks 1130581 (.breaks
  20975699 (.cycle 33 [88, 145]) (.leaf [49, 44, 33, 88, 45, 32, 66, 37, 39, 30, 16, 0, 31, 17, 18,
  13, 19, 14])) (.leaf [49, 44, 33, 88, 45, 32, 27, 66, 37, 28, 39, 30, 16, 22, 0, 31, 17, 23, 18,
  13, 19, 14])) (.cases [] 7 (.breaks 1130581 (.breaks 20975699 (.cycle 33 [88, 145]) (.leaf
  [49, 63, 33, 88, 13, 32, 14, 66, 39, 30, 16, 0, 17, 18, 19])) (.leaf [49, 48, 63, 33, 88, 13, 35,
  32, 14, 36, 66, 39, 30, 16, 0, 17, 18, 19])) (.breaks 1130581 (.breaks 20975699 (.cycle 33
  [88, 145]) (.leaf [49, 33, 88, 32, 66, 39, 30, 16, 0, 31, 17, 18, 13, 34, 19, 14, 24])) (.leaf
  [49, 48, 33, 88, 35, 32, 36, 27, 66, 28, 39, 30, 16, 22, 0, 31, 17, 23, 18, 13, 34, 19, 14,
  24])))) (.cases [] 9 (.breaks 1130581 (.breaks 20975699 (.cycle 33 [88, 145]) (.leaf
  [49, 87, 44, 33, 88, 0, 45, 32, 66, 37, 39, 16, 17, 18, 19])) (.leaf
  [49, 87, 44, 33, 88, 0, 45, 32, 66, 37, 39, 16, 17, 18, 19])) (.cases [] 45 (.breaks 1130581
  (.breaks 20975699 (.cycle 33 [88, 145]) (.leaf
  [49, 87, 33, 88, 0, 123, 32, 66, 24, 39, 16, 17, 18, 19])) (.leaf [49, 87, 48, 33, 88, 0, 123,
  35, 32, 36, 66, 24, 39, 16, 17, 18, 19])) (.breaks 1130581 (.breaks 20975699 (.cycle 33
  [88, 145]) (.leaf [49, 126, 33, 88, 0, 32, 66, 39, 16, 17, 18, 19])) (.leaf
  [49, 48, 126, 33, 88, 0, 35, 32, 36, 66, 39, 16, 17, 18, 19])))))

/-- some of the cases -/
def real5OneCase246 : LooseTree :=
  .breaks 22097938 (.breaks 1052753 (.breaks 1130581 (.breaks 20000897 (.breaks 1052769 (.breaks
  20000945 (.breaks 21065810 (.breaks 20000929 (.breaks 24186962 (.breaks 17879237 (.breaks
  17895617 (.breaks 13684817 (.breaks 17895441 (.breaks 17895457 (.breaks 17895425 (.leaf [49, 71,
  33, 88, 51, 32, 35, 66, 36, 39, 30, 16, 0, 17, 18, 19]) (.leaf [49, 71, 33, 88, 51, 32, 35, 66,
  36, 39, 30, 16, 0, 17, 18, 19])) (.leaf [49, 71, 33, 88, 51, 32, 35, 66, 36, 39, 30, 16, 0, 17,
  18, 19])) (.leaf [49, 71, 33, 88, 51, 32, 35, 66, 36, 39, 30, 16, 0, 17, 18, 19])) (.leaf [49,
  71, 33, 88, 51, 32, 35, 66, 36, 39, 30, 16, 0, 17, 18, 19])) (.leaf [49, 71, 33, 88, 51, 32, 35,
  66, 36, 39, 30, 16, 0, 17, 18, 19])) (.leaf [49, 71, 33, 88, 51, 32, 35, 66, 36, 39, 30, 16, 0,
  17, 18, 19])) (.leaf [49, 71, 33, 88, 51, 32, 35, 66, 36, 39, 30, 16, 0, 17, 18, 19])) (.leaf
  [49, 71, 33, 88, 51, 32, 35, 66, 36, 39, 30, 16, 0, 17, 18, 19])) (.leaf [49, 71, 33, 88, 51, 32,
  35, 66, 36, 39, 30, 16, 0, 17, 18, 19])) (.leaf [49, 71, 33, 88, 51, 32, 35, 66, 36, 39, 30, 16,
  0, 17, 18, 19])) (.leaf [49, 71, 33, 88, 51, 32, 35, 66, 36, 39, 30, 16, 0, 17, 18, 19])) (.leaf
  [49, 71, 33, 88, 51, 32, 35, 66, 36, 39, 30, 16, 0, 17, 18, 19])) (.leaf [49, 71, 33, 88, 51, 32,
  35, 66, 36, 39, 30, 16, 0, 17, 18, 19])) (.leaf [49, 71, 33, 88, 51, 32, 35, 66, 36, 39, 30, 16,
  0, 17, 18, 19])) (.leaf [49, 71, 33, 88, 51, 32, 35, 66, 36, 39, 30, 16, 0, 17, 18, 19])

/-- some of the cases -/
def real5OneCase247 : LooseTree :=
  .breaks 12619795 (.breaks 1052753 (.breaks 1130581 (.breaks 9474065 (.breaks 1052769 (.breaks
  1118291 (.breaks 9474177 (.breaks 21041234 (.breaks 9474193 (.breaks 17920098 (.breaks 17895617
  (.breaks 17895441 (.breaks 24211537 (.breaks 17895457 (.breaks 24170693 (.breaks 24211649
  (.breaks 13684817 (.breaks 17895425 (.breaks 24211473 (.breaks 24211489 (.breaks 24211457 (.leaf
  [49, 61, 33, 88, 62, 32, 107, 55, 50, 56, 21, 16, 17, 20, 18, 15, 7, 0, 19, 8, 9, 10]) (.leaf
  [49, 61, 33, 88, 62, 32, 107, 55, 50, 56, 21, 16, 17, 20, 18, 15, 7, 0, 19, 8, 9, 10])) (.leaf
  [49, 61, 33, 88, 62, 32, 107, 55, 50, 56, 21, 16, 17, 20, 18, 15, 7, 0, 19, 8, 9, 10])) (.leaf
  [49, 61, 33, 88, 62, 32, 107, 55, 50, 56, 21, 16, 17, 20, 18, 15, 7, 0, 19, 8, 9, 10])) (.leaf
  [49, 61, 33, 88, 62, 32, 107, 55, 50, 56, 21, 16, 17, 20, 18, 15, 7, 0, 19, 8, 9, 10])) (.leaf
  [49, 61, 33, 88, 62, 32, 107, 55, 50, 56, 21, 16, 17, 20, 18, 15, 7, 0, 19, 8, 9, 10])) (.leaf
  [49, 61, 33, 88, 62, 32, 107, 55, 50, 56, 21, 16, 17, 20, 18, 15, 7, 0, 19, 8, 9, 10])) (.leaf
  [49, 61, 33, 88, 62, 32, 107, 55, 50, 56, 21, 16, 17, 20, 18, 15, 7, 0, 19, 8, 9, 10])) (.leaf
  [49, 61, 33, 88, 62, 32, 107, 55, 50, 56, 21, 16, 17, 20, 18, 15, 7, 0, 19, 8, 9, 10])) (.leaf
  [49, 61, 33, 88, 62, 32, 55, 50, 56, 16, 73, 17, 15, 7, 0, 18, 8, 19, 9, 10])) (.leaf [49, 61,
  33, 88, 62, 32, 107, 55, 50, 56, 21, 16, 17, 20, 18, 15, 7, 0, 19, 8, 9, 10])) (.leaf [49, 61,
  33, 88, 62, 32, 107, 55, 50, 56, 21, 16, 17, 20, 18, 15, 7, 0, 19, 8, 9, 10])) (.leaf [49, 61,
  33, 88, 62, 32, 55, 50, 56, 16, 73, 17, 15, 7, 0, 18, 8, 19, 9, 10])) (.leaf [49, 61, 33, 88, 62,
  32, 107, 55, 50, 56, 21, 16, 17, 20, 18, 15, 7, 0, 19, 8, 9, 10])) (.leaf [49, 61, 33, 88, 62,
  32, 107, 55, 50, 56, 21, 16, 17, 20, 18, 15, 7, 0, 19, 8, 9, 10])) (.leaf [49, 61, 33, 88, 62,
  32, 107, 55, 50, 56, 21, 16, 17, 20, 18, 15, 7, 0, 19, 8, 9, 10])) (.leaf [49, 61, 33, 88, 62,
  32, 55, 50, 56, 16, 73, 17, 15, 7, 0, 18, 8, 19, 9, 10])) (.leaf [49, 61, 33, 88, 62, 32, 107,
  55, 50, 56, 21, 16, 17, 20, 18, 15, 7, 0, 19, 8, 9, 10])) (.leaf [49, 128, 33, 88, 55, 32, 107,
  56, 50, 21, 16, 17, 20, 18, 15, 7, 0, 19, 8, 9, 10])) (.leaf [49, 61, 33, 88, 62, 32, 107, 55,
  50, 56, 21, 16, 17, 20, 18, 15, 7, 0, 19, 8, 9, 10])) (.leaf [49, 61, 33, 88, 62, 32, 55, 50, 56,
  16, 73, 17, 15, 7, 0, 18, 8, 19, 9, 10])) (.leaf [49, 128, 33, 88, 55, 32, 107, 56, 50, 21, 16,
  17, 20, 18, 15, 7, 0, 19, 8, 9, 10])

/-- some of the cases -/
def real5OneCase248 : LooseTree :=
  .cases [] 49 (.breaks 4198597 (.breaks 1052753 (.breaks 1130579 (.breaks 21053521 (.breaks
  21041234 (.breaks 17920082 (.breaks 17895441 (.breaks 24170693 (.breaks 24211649 (.breaks
  13684817 (.breaks 17895457 (.breaks 24211473 (.breaks 17895425 (.breaks 24211489 (.breaks
  24211457 (.leaf [49, 33, 32, 131, 111, 50, 16, 73, 17, 15, 7, 0, 18, 8, 19, 9, 10]) (.leaf [49,
  33, 32, 131, 111, 50, 16, 73, 17, 15, 7, 0, 18, 8, 19, 9, 10])) (.leaf [49, 33, 32, 131, 111, 50,
  16, 73, 17, 15, 7, 0, 18, 8, 19, 9, 10])) (.leaf [49, 33, 32, 131, 111, 50, 16, 73, 17, 15, 7, 0,
  18, 8, 19, 9, 10])) (.leaf [49, 33, 32, 131, 111, 50, 16, 73, 17, 15, 7, 0, 18, 8, 19, 9, 10]))
  (.leaf [49, 33, 32, 131, 111, 50, 16, 73, 17, 15, 7, 0, 18, 8, 19, 9, 10])) (.leaf [49, 33, 32,
  131, 111, 50, 16, 73, 17, 15, 7, 0, 18, 8, 19, 9, 10])) (.leaf [49, 33, 32, 131, 111, 50, 16, 73,
  17, 15, 7, 0, 18, 8, 19, 9, 10])) (.leaf [49, 33, 32, 131, 111, 50, 16, 73, 17, 15, 7, 0, 18, 8,
  19, 9, 10])) (.leaf [49, 33, 32, 131, 111, 50, 16, 73, 17, 15, 7, 0, 18, 8, 19, 9, 10])) (.leaf
  [49, 33, 32, 131, 111, 50, 16, 73, 17, 15, 7, 0, 18, 8, 19, 9, 10])) (.leaf [49, 33, 32, 131,
  111, 50, 16, 73, 17, 15, 7, 0, 18, 8, 19, 9, 10])) (.leaf [49, 33, 32, 131, 111, 50, 16, 73, 17,
  15, 7, 0, 18, 8, 19, 9, 10])) (.leaf [49, 33, 32, 131, 111, 50, 16, 73, 17, 15, 7, 0, 18, 8, 19,
  9, 10])) (.leaf [49, 33, 32, 131, 111, 50, 27, 16, 73, 28, 17, 22, 15, 7, 0, 18, 23, 8, 19, 9,
  10])) (.leaf [49, 33, 32, 131, 111, 50, 27, 16, 73, 28, 17, 22, 15, 7, 0, 18, 23, 8, 19, 9, 10]))
  (.cases [] 6 (.cases [] 17 (.breaks 1130581 (.breaks 20975699 (.cycle 33 [88, 145]) (.leaf
  [49, 80, 33, 13, 32, 107, 14, 21, 20, 15, 7, 0, 8, 9, 10])) (.leaf
  [49, 80, 33, 13, 32, 107, 14, 21, 20, 15, 7, 0, 8, 9, 10])) (.cases [] 7 (.breaks 1130581
  (.breaks 20975699 (.cycle 33 [88, 145]) (.leaf [49, 63, 33, 13, 67, 32, 107, 14, 40, 21, 41, 20,
  42, 15, 7, 43, 0, 8, 9, 10])) (.leaf [49, 63, 33, 13, 67, 32, 107, 14, 40, 21, 41, 20, 42, 15, 7,
  43, 0, 8, 9, 10])) (.breaks 1130581 (.breaks 20975699 (.cycle 33 [88, 145]) (.leaf [49, 33, 88,
  32, 107, 50, 21, 16, 17, 20, 18, 15, 7, 0, 31, 19, 8, 13, 34, 9, 14, 10, 24])) (.leaf [49, 33,
  88, 32, 107, 50, 21, 16, 17, 20, 18, 15, 7, 0, 31, 19, 8, 13, 34, 9, 14, 10, 24])))) (.cases []
  57 (.cases [] 45 (.breaks 1130581 (.breaks 20975699 (.cycle 33 [88, 145]) (.leaf [49, 33, 88, 32,
  107, 50, 21, 16, 17, 20, 18, 75, 7, 19, 87, 8, 0, 123, 9, 10, 24])) (.leaf [49, 33, 88, 32, 107,
  50, 21, 16, 17, 20, 18, 75, 7, 19, 87, 8, 0, 123, 9, 10, 24])) (.breaks 1130581 (.breaks 20975699
  (.cycle 33 [88, 145]) (.leaf [49, 126, 33, 0, 172, 32, 107, 40, 21, 41, 20, 42, 7, 43, 8, 9,
  10])) (.leaf [49, 126, 33, 0, 172, 32, 107, 40, 21, 41, 20, 42, 7, 43, 8, 9, 10]))) (.breaks
  1130581 (.breaks 20975699 (.cycle 33 [88, 145]) (.leaf [171])) (.leaf [171]))))

/-- some of the cases -/
def real5OneCase249 : LooseTree :=
  .breaks 4198597 (.breaks 1130581 (.breaks 20000897 (.breaks 1052769 (.breaks 1118291 (.breaks
  20000945 (.breaks 21041234 (.breaks 17920098 (.breaks 17895617 (.breaks 20000929 (.breaks
  17895441 (.breaks 24211537 (.breaks 17895457 (.breaks 24170693 (.breaks 24211649 (.breaks
  13684817 (.breaks 17895425 (.breaks 24211473 (.breaks 24211489 (.breaks 24211457 (.leaf [49, 71,
  33, 88, 51, 32, 107, 35, 50, 21, 16, 36, 17, 20, 18, 15, 7, 0, 19, 8, 9, 10]) (.leaf [49, 71, 33,
  88, 51, 32, 107, 35, 50, 21, 16, 36, 17, 20, 18, 15, 7, 0, 19, 8, 9, 10])) (.leaf [49, 71, 33,
  88, 51, 32, 107, 35, 50, 21, 16, 36, 17, 20, 18, 15, 7, 0, 19, 8, 9, 10])) (.leaf [49, 71, 33,
  88, 51, 32, 107, 35, 50, 21, 16, 36, 17, 20, 18, 15, 7, 0, 19, 8, 9, 10])) (.leaf [49, 71, 33,
  88, 51, 32, 107, 35, 50, 21, 16, 36, 17, 20, 18, 15, 7, 0, 19, 8, 9, 10])) (.leaf [49, 71, 33,
  88, 51, 32, 107, 35, 50, 21, 16, 36, 17, 20, 18, 15, 7, 0, 19, 8, 9, 10])) (.leaf [49, 71, 33,
  88, 51, 32, 107, 35, 50, 21, 16, 36, 17, 20, 18, 15, 7, 0, 19, 8, 9, 10])) (.leaf [49, 71, 33,
  88, 51, 32, 107, 35, 50, 21, 16, 36, 17, 20, 18, 15, 7, 0, 19, 8, 9, 10])) (.leaf [49, 71, 33,
  88, 51, 32, 107, 35, 50, 21, 16, 36, 17, 20, 18, 15, 7, 0, 19, 8, 9, 10])) (.leaf [49, 71, 33,
  88, 51, 32, 35, 50, 16, 73, 36, 17, 15, 7, 0, 18, 8, 19, 9, 10])) (.leaf [49, 71, 33, 88, 51, 32,
  107, 35, 50, 21, 16, 36, 17, 20, 18, 15, 7, 0, 19, 8, 9, 10])) (.leaf [49, 71, 33, 88, 51, 32,
  107, 35, 50, 21, 16, 36, 17, 20, 18, 15, 7, 0, 19, 8, 9, 10])) (.leaf [49, 71, 33, 88, 51, 32,
  107, 35, 50, 21, 16, 36, 17, 20, 18, 15, 7, 0, 19, 8, 9, 10])) (.leaf [49, 71, 33, 88, 51, 32,
  35, 50, 16, 73, 36, 17, 15, 7, 0, 18, 8, 19, 9, 10])) (.leaf [49, 71, 33, 88, 51, 32, 107, 35,
  50, 21, 16, 36, 17, 20, 18, 15, 7, 0, 19, 8, 9, 10])) (.leaf [49, 71, 33, 88, 51, 32, 107, 35,
  50, 21, 16, 36, 17, 20, 18, 15, 7, 0, 19, 8, 9, 10])) (.leaf [49, 71, 33, 88, 51, 32, 35, 50, 16,
  73, 36, 17, 15, 7, 0, 18, 8, 19, 9, 10])) (.leaf [49, 71, 33, 88, 51, 32, 107, 35, 50, 21, 16,
  36, 17, 20, 18, 15, 7, 0, 19, 8, 9, 10])) (.leaf [49, 71, 33, 88, 51, 32, 107, 35, 50, 21, 16,
  36, 17, 20, 18, 15, 7, 0, 19, 8, 9, 10])) (.leaf [49, 71, 33, 88, 51, 32, 107, 35, 50, 21, 16,
  36, 17, 20, 18, 15, 7, 0, 19, 8, 9, 10])) (.leaf [49, 71, 33, 88, 51, 32, 107, 35, 50, 27, 21,
  16, 36, 28, 17, 22, 20, 18, 23, 15, 7, 0, 19, 8, 9, 10])

/-- some of the cases -/
def real5OneCase250 : LooseTree :=
  .cases [] 12 (.breaks 4198597 (.breaks 1130581 (.breaks 1052769 (.breaks 21041234 (.breaks
  17879237 (.breaks 13725781 (.breaks 24211649 (.breaks 24215749 (.breaks 24211473 (.breaks
  25264209 (.breaks 25268309 (.breaks 24211489 (.breaks 26316993 (.breaks 24211457 (.breaks
  26316817 (.breaks 26316833 (.breaks 26316801 (.leaf [49, 33, 88, 32, 50, 30, 0, 52, 7, 86, 8, 24,
  58, 9, 40, 10, 41, 42, 43]) (.leaf [49, 33, 88, 32, 50, 30, 16, 0, 52, 17, 18, 7, 86, 19, 8, 24,
  9, 10])) (.leaf [49, 33, 88, 32, 50, 30, 16, 0, 52, 17, 18, 7, 86, 19, 8, 24, 9, 10])) (.leaf
  [49, 33, 88, 32, 50, 30, 16, 0, 52, 17, 18, 7, 86, 19, 8, 24, 9, 10])) (.leaf [49, 33, 88, 32,
  50, 30, 0, 52, 7, 86, 8, 24, 58, 9, 40, 10, 41, 42, 43])) (.leaf [49, 33, 88, 32, 50, 30, 16, 0,
  52, 17, 18, 7, 86, 19, 8, 24, 9, 10])) (.leaf [49, 33, 88, 32, 50, 30, 0, 52, 7, 86, 8, 24, 58,
  9, 40, 10, 41, 42, 43])) (.leaf [49, 33, 88, 32, 50, 30, 16, 0, 52, 17, 18, 7, 86, 19, 8, 24, 9,
  10])) (.leaf [49, 33, 88, 32, 50, 30, 0, 52, 7, 86, 8, 24, 58, 9, 40, 10, 41, 42, 43])) (.leaf
  [49, 33, 88, 32, 50, 30, 0, 52, 7, 86, 8, 24, 58, 9, 40, 10, 41, 42, 43])) (.leaf [49, 33, 88,
  32, 50, 30, 0, 52, 7, 86, 8, 24, 58, 9, 40, 10, 41, 42, 43])) (.leaf [49, 33, 88, 32, 50, 30, 0,
  52, 7, 86, 8, 24, 58, 9, 40, 10, 41, 42, 43])) (.leaf [49, 33, 88, 32, 50, 30, 16, 0, 52, 17, 18,
  7, 86, 19, 8, 58, 9, 40, 10, 41, 42, 43])) (.leaf [49, 33, 88, 32, 50, 30, 16, 0, 52, 17, 18, 7,
  86, 19, 8, 58, 9, 40, 10, 41, 42, 43])) (.leaf [49, 33, 88, 32, 50, 30, 16, 0, 52, 17, 18, 7, 86,
  19, 8, 24, 58, 9, 40, 10, 41, 42, 43])) (.leaf [49, 33, 88, 32, 50, 30, 0, 52, 7, 86, 8, 24, 58,
  9, 40, 10, 41, 42, 43])) (.leaf [49, 33, 88, 32, 50, 30, 16, 0, 52, 17, 18, 7, 86, 19, 8, 24, 58,
  9, 40, 10, 41, 42, 43])) (.leaf [49, 33, 88, 32, 50, 30, 16, 0, 52, 17, 18, 7, 86, 19, 8, 24, 58,
  9, 40, 10, 41, 42, 43])) (.breaks 26312901 (.breaks 1052753 (.breaks 1130581 (.breaks 25264209
  (.breaks 1052769 (.breaks 21041234 (.breaks 17879237 (.breaks 13684817 (.breaks 13725781 (.breaks
  24211649 (.breaks 24211473 (.breaks 24211489 (.breaks 24211457 (.leaf
  [49, 68, 33, 88, 24, 32, 50, 30, 0, 52, 7, 8, 9, 10]) (.leaf
  [49, 68, 33, 88, 24, 32, 50, 30, 0, 52, 7, 8, 9, 10])) (.leaf
  [49, 68, 33, 88, 24, 32, 50, 30, 0, 52, 7, 8, 9, 10])) (.leaf
  [49, 68, 33, 88, 24, 32, 50, 30, 0, 52, 7, 8, 9, 10])) (.leaf
  [49, 68, 33, 88, 24, 32, 50, 30, 0, 52, 7, 8, 9, 10])) (.leaf
  [49, 68, 33, 88, 24, 32, 50, 30, 0, 52, 7, 8, 9, 10])) (.leaf
  [49, 68, 33, 88, 24, 32, 50, 30, 0, 52, 7, 8, 9, 10])) (.leaf
  [49, 68, 33, 88, 24, 32, 50, 30, 0, 52, 7, 8, 9, 10])) (.leaf
  [49, 68, 33, 88, 24, 32, 50, 30, 0, 52, 7, 8, 9, 10])) (.leaf
  [49, 68, 33, 88, 24, 32, 50, 30, 0, 52, 7, 8, 9, 10])) (.leaf
  [49, 68, 33, 88, 24, 32, 50, 30, 0, 52, 7, 8, 9, 10])) (.leaf
  [49, 68, 33, 88, 24, 32, 50, 30, 0, 52, 7, 8, 9, 10])) (.leaf
  [49, 68, 33, 88, 24, 32, 50, 30, 0, 52, 7, 8, 9, 10])) (.leaf
  [49, 68, 33, 88, 24, 32, 50, 30, 0, 52, 7, 8, 9, 10]))

/-- some of the cases -/
def real5OneCase251 : LooseTree :=
  .breaks 25260117 (.breaks 1052753 (.breaks 1130581 (.breaks 24211649 (.breaks 1052769 (.breaks
  21041234 (.breaks 24211473 (.breaks 17879237 (.breaks 17895617 (.breaks 24211489 (.breaks
  13684817 (.breaks 17895441 (.breaks 24211457 (.breaks 17895457 (.breaks 17895425 (.leaf
  [49, 83, 33, 88, 7, 32, 50, 8, 30, 16, 9, 0, 17, 10, 18, 19]) (.leaf
  [49, 83, 33, 88, 7, 32, 50, 8, 30, 16, 9, 0, 17, 10, 18, 19])) (.leaf
  [49, 83, 33, 88, 7, 32, 50, 8, 30, 16, 9, 0, 17, 10, 18, 19])) (.leaf
  [49, 83, 33, 88, 7, 32, 50, 8, 30, 16, 9, 0, 17, 10, 18, 19])) (.leaf
  [49, 83, 33, 88, 7, 32, 50, 8, 30, 16, 9, 0, 17, 10, 18, 19])) (.leaf
  [49, 83, 33, 88, 7, 32, 50, 8, 30, 16, 9, 0, 17, 10, 18, 19])) (.leaf
  [49, 83, 33, 88, 7, 32, 50, 8, 30, 16, 9, 0, 17, 10, 18, 19])) (.leaf
  [49, 83, 33, 88, 7, 32, 50, 8, 30, 16, 9, 0, 17, 10, 18, 19])) (.leaf
  [49, 83, 33, 88, 7, 32, 50, 8, 30, 16, 9, 0, 17, 10, 18, 19])) (.leaf
  [49, 83, 33, 88, 7, 32, 50, 8, 30, 16, 9, 0, 17, 10, 18, 19])) (.leaf
  [49, 83, 33, 88, 7, 32, 50, 8, 30, 16, 9, 0, 17, 10, 18, 19])) (.leaf
  [49, 83, 33, 88, 7, 32, 50, 8, 30, 16, 9, 0, 17, 10, 18, 19])) (.leaf
  [49, 83, 33, 88, 7, 32, 50, 8, 30, 16, 9, 0, 17, 10, 18, 19])) (.leaf
  [49, 83, 33, 88, 7, 32, 50, 8, 30, 16, 9, 0, 17, 10, 18, 19])) (.leaf
  [49, 83, 33, 88, 7, 32, 50, 8, 30, 16, 9, 0, 17, 10, 18, 19])) (.leaf
  [49, 83, 33, 88, 7, 32, 50, 8, 30, 16, 9, 0, 17, 10, 18, 19])

/-- some of the cases -/
def real5OneCase252 : LooseTree :=
  .cases [] 52 (.breaks 17895425 (.leaf [141, 33, 170, 32, 30, 16, 0, 17, 18, 19]) (.leaf
  [141, 33, 170, 32, 30, 16, 0, 17, 18, 19])) (.cases [] 1 (.breaks 24186978 (.breaks 17895505
  (.breaks 17830085 (.breaks 1052753 (.breaks 13684817 (.breaks 1052769 (.leaf
  [149, 110, 143, 30, 33, 0, 32]) (.leaf [149, 110, 143, 30, 16, 33, 0, 17, 32, 18, 19])) (.leaf
  [149, 110, 143, 30, 33, 0, 32])) (.leaf [149, 110, 143, 30, 16, 33, 0, 17, 32, 18, 19])) (.leaf
  [149, 110, 143, 30, 16, 33, 0, 17, 32, 18, 19])) (.leaf
  [149, 110, 143, 30, 16, 33, 0, 17, 32, 18, 19])) (.leaf
  [149, 110, 143, 30, 16, 33, 0, 17, 32, 18, 19])) (.cases [] 54 (.breaks 1142869 (.breaks 13684817
  (.breaks 1052769 (.breaks 24211649 (.breaks 24211473 (.breaks 24211489 (.breaks 24211457 (.leaf
  [143, 30, 33, 154, 0, 32, 7, 8, 9, 10]) (.leaf [143, 30, 33, 154, 0, 32, 7, 8, 9, 10])) (.leaf
  [143, 30, 33, 154, 0, 32, 7, 8, 9, 10])) (.leaf [143, 30, 33, 154, 0, 32, 7, 8, 9, 10])) (.leaf
  [143, 30, 33, 154, 0, 32, 7, 8, 9, 10])) (.leaf [143, 30, 33, 154, 0, 32, 7, 8, 9, 10])) (.leaf
  [143, 30, 33, 154, 0, 32, 7, 8, 9, 10])) (.leaf [143, 30, 33, 154, 0, 32, 7, 8, 9, 10])) (.breaks
  17879237 (.breaks 13684817 (.breaks 24211537 (.breaks 24121541 (.breaks 1052753 (.breaks 1052769
  (.leaf [21, 30, 0, 20, 159, 33, 32]) (.leaf [21, 30, 0, 20, 159, 33, 32])) (.leaf
  [21, 30, 0, 20, 159, 33, 32])) (.leaf [21, 30, 0, 20, 159, 33, 32])) (.leaf
  [21, 30, 0, 20, 159, 33, 32])) (.leaf [21, 30, 0, 20, 159, 33, 32])) (.leaf
  [21, 30, 0, 20, 159, 33, 32]))))

/-- all cases -/
def real5OneCases : LooseTree :=
  .cases [] 2 (.cases [] 3 (.cases [] 5 (.cases [] 21 (.cases [] 0 real5OneCase0 (.cases [] 10
  (.cases [] 46 (.cases [] 8 (.cases [] 23 (.cases [] 43 (.cases [] 42 real5OneCase1 real5OneCase2)
  (.cycle 1 [52, 39, 151])) real5OneCase3) (.cases [] 42 (.cycle 1 [57, 73, 137]) (.cases [] 4
  (.cases [] 30 real5OneCase4 (.cases [] 28 (.cases [] 16 real5OneCase5 (.cases [] 20 real5OneCase6
  real5OneCase7)) real5OneCase8)) (.cases [] 13 (.cycle 16 [163, 164, 54]) (.cases [] 44
  real5OneCase9 real5OneCase10))))) (.cycle 1 [57, 47, 144])) (.cases [] 43 (.cases [] 16 (.cases
  [] 23 (.cases [] 17 real5OneCase11 (.cases [] 40 real5OneCase12 (.cases [] 7 real5OneCase13
  (.cases [] 12 real5OneCase14 real5OneCase15)))) real5OneCase16) (.cases [] 23 (.cases [] 42
  (.cycle 1 [76, 66, 137]) (.cases [] 8 (.cases [] 17 real5OneCase17 (.cases [] 40 real5OneCase18
  (.cases [] 7 real5OneCase19 (.cases [] 12 real5OneCase20 real5OneCase21)))) (.cases [] 1 (.cycle
  21 [166, 149, 110]) (.cases [] 46 real5OneCase22 real5OneCase23)))) real5OneCase24)) (.cycle 1
  [76, 50, 151])))) (.cases [] 0 real5OneCase25 (.cases [] 23 (.cases [] 8 real5OneCase26 (.cases
  [] 15 real5OneCase27 real5OneCase28)) real5OneCase29))) (.cases [] 1 (.cases [] 8 (.cases [] 4
  (.cases [] 11 (.cases [] 9 (.cases [] 19 (.cases [] 15 real5OneCase30 (.cases [] 6 (.cases [] 7
  real5OneCase31 (.cases [] 12 (.cases [] 18 real5OneCase32 real5OneCase33) real5OneCase34))
  (.cases [] 18 real5OneCase35 real5OneCase36))) real5OneCase37) (.cases [] 6 (.cases [] 7 (.cases
  [] 17 real5OneCase38 real5OneCase39) (.cases [] 15 real5OneCase40 (.cases [] 12 (.cases [] 19
  (.cases [] 51 (.cycle 43 [139, 34, 58]) (.cases [] 14 real5OneCase41 real5OneCase42))
  real5OneCase43) real5OneCase44))) real5OneCase45)) (.cycle 33 [25, 29, 99])) (.cases [] 13
  (.cycle 16 [163, 164, 54]) (.cases [] 9 (.cases [] 19 (.cases [] 6 (.cases [] 15 real5OneCase46
  (.cases [] 7 real5OneCase47 (.cases [] 12 real5OneCase48 real5OneCase49))) real5OneCase50)
  real5OneCase51) (.cases [] 6 (.cases [] 7 (.cases [] 15 real5OneCase52 real5OneCase53) (.cases []
  12 (.cases [] 15 real5OneCase54 (.cases [] 51 (.cycle 43 [139, 34, 58]) (.cases [] 14 (.cases []
  19 (.cases [] 11 real5OneCase55 real5OneCase56) real5OneCase57) (.cases [] 19 (.cases [] 27
  real5OneCase58 (.cases [] 18 (.cases [] 25 real5OneCase59 real5OneCase60) real5OneCase61))
  real5OneCase62)))) real5OneCase63)) real5OneCase64)))) (.cycle 26 [149, 110, 166])) (.cases [] 0
  (.cases [] 4 (.cases [] 11 (.cases [] 9 (.cases [] 19 (.cases [] 6 (.cases [] 7 (.cases [] 17
  real5OneCase65 real5OneCase66) (.cases [] 12 (.cases [] 15 real5OneCase67 (.cases [] 51 (.cycle
  43 [139, 34, 58]) (.cases [] 18 (.cases [] 14 real5OneCase68 (.cases [] 10 real5OneCase69 (.cases
  [] 32 real5OneCase70 real5OneCase71))) (.cases [] 10 real5OneCase72 real5OneCase73))))
  real5OneCase74)) real5OneCase75) real5OneCase76) (.cases [] 6 (.cases [] 7 (.cases [] 17 (.cases
  [] 10 real5OneCase77 real5OneCase78) (.cases [] 19 (.cases [] 15 real5OneCase79 real5OneCase80)
  real5OneCase81)) (.cases [] 12 (.cases [] 51 (.cycle 43 [139, 34, 58]) (.cases [] 14 (.cases []
  10 (.cases [] 16 real5OneCase82 real5OneCase83) (.cases [] 15 real5OneCase84 (.cases [] 19
  (.cases [] 32 real5OneCase85 (.cases [] 29 real5OneCase86 (.cases [] 18 (.cases [] 25
  real5OneCase87 real5OneCase88) real5OneCase89))) real5OneCase90))) (.cases [] 10 real5OneCase91
  (.cases [] 15 real5OneCase92 (.cases [] 19 (.cases [] 32 (.cases [] 18 real5OneCase93
  real5OneCase94) (.cases [] 29 real5OneCase95 (.cases [] 18 (.cases [] 25 real5OneCase96
  real5OneCase97) real5OneCase98))) real5OneCase99))))) (.cases [] 10 real5OneCase100 (.cases [] 19
  (.cases [] 15 real5OneCase101 real5OneCase102) real5OneCase103)))) real5OneCase104)) (.cycle 33
  [25, 29, 99])) (.cases [] 13 (.cycle 16 [163, 164, 54]) (.cases [] 9 (.cases [] 19 (.cases [] 6
  (.cases [] 7 (.cases [] 15 real5OneCase105 (.cases [] 17 real5OneCase106 (.cases [] 10
  real5OneCase107 real5OneCase108))) (.cases [] 12 (.cases [] 51 (.cycle 43 [139, 34, 58]) (.cases
  [] 18 (.cases [] 15 real5OneCase109 (.cases [] 14 (.cases [] 11 real5OneCase110 real5OneCase111)
  (.cases [] 10 real5OneCase112 (.cases [] 27 real5OneCase113 real5OneCase114)))) (.cases [] 15
  real5OneCase115 real5OneCase116))) (.cases [] 18 real5OneCase117 real5OneCase118)))
  real5OneCase119) real5OneCase120) (.cases [] 6 (.cases [] 7 (.cases [] 17 (.cases [] 10
  real5OneCase121 (.cases [] 39 real5OneCase122 real5OneCase123)) (.cases [] 15 real5OneCase124
  (.cases [] 39 (.cases [] 11 real5OneCase125 (.cases [] 14 real5OneCase126 real5OneCase127))
  (.cycle 31 [63, 67, 117])))) (.cases [] 12 (.cases [] 51 (.cycle 43 [139, 34, 58]) (.cases [] 14
  (.cases [] 10 (.cases [] 16 real5OneCase128 real5OneCase129) (.cases [] 37 (.cases [] 15
  real5OneCase130 (.cases [] 19 (.cases [] 27 (.cases [] 18 real5OneCase131 real5OneCase132)
  (.cases [] 18 (.cases [] 25 real5OneCase133 real5OneCase134) real5OneCase135)) real5OneCase136))
  (.cases [] 11 real5OneCase137 real5OneCase138))) (.cases [] 10 real5OneCase139 (.cases [] 15
  real5OneCase140 (.cases [] 19 (.cases [] 27 (.cases [] 18 (.cases [] 11 real5OneCase141
  real5OneCase142) real5OneCase143) (.cases [] 18 (.cases [] 25 real5OneCase144 (.cases [] 11
  real5OneCase145 real5OneCase146)) (.cases [] 25 real5OneCase147 real5OneCase148)))
  real5OneCase149))))) (.cases [] 19 (.cases [] 15 real5OneCase150 real5OneCase151)
  real5OneCase152))) real5OneCase153)))) (.cases [] 20 (.cases [] 24 (.cases [] 4 (.cases [] 11
  (.cases [] 10 (.cases [] 21 real5OneCase154 real5OneCase155) (.cases [] 15 real5OneCase156
  (.cases [] 17 real5OneCase157 (.cases [] 7 real5OneCase158 (.cases [] 12 real5OneCase159
  real5OneCase160))))) (.cycle 33 [25, 29, 99])) (.cases [] 13 (.cycle 16 [163, 164, 54]) (.cases
  [] 10 real5OneCase161 (.cases [] 17 real5OneCase162 (.cases [] 19 (.cases [] 15 real5OneCase163
  real5OneCase164) real5OneCase165))))) real5OneCase166) (.cases [] 24 (.cases [] 12
  real5OneCase167 (.cases [] 10 real5OneCase168 real5OneCase169)) (.cases [] 4 (.cases [] 42
  real5OneCase170 (.cases [] 19 (.cases [] 15 real5OneCase171 (.cases [] 11 (.cases [] 34 (.cases
  [] 9 real5OneCase172 real5OneCase173) real5OneCase174) (.cycle 33 [25, 29, 99])))
  real5OneCase175)) (.cases [] 42 real5OneCase176 (.cases [] 19 (.cases [] 15 real5OneCase177
  (.cases [] 13 (.cycle 16 [163, 164, 54]) (.cases [] 34 (.cases [] 9 real5OneCase178 (.cases [] 10
  real5OneCase179 real5OneCase180)) (.cases [] 38 (.cycle 43 [173, 174, 106]) (.cases [] 9
  real5OneCase181 real5OneCase182))))) real5OneCase183)))))))) (.cases [] 26 (.cases [] 4 (.cycle
  16 [49, 25, 29]) (.cases [] 13 (.cycle 16 [163, 164, 54]) (.cases [] 5 (.cases [] 44
  real5OneCase184 (.cases [] 21 real5OneCase185 real5OneCase186)) (.cases [] 8 real5OneCase187
  (.cases [] 41 real5OneCase188 real5OneCase189))))) real5OneCase190)) (.cases [] 3 (.cases [] 5
  (.cases [] 0 real5OneCase191 (.cases [] 30 (.cases [] 21 real5OneCase192 real5OneCase193) (.cases
  [] 21 real5OneCase194 real5OneCase195))) (.cases [] 1 (.cases [] 8 (.cases [] 19 (.cases [] 15
  real5OneCase196 real5OneCase197) real5OneCase198) (.cycle 26 [149, 110, 166])) (.cases [] 0
  (.cases [] 31 (.cases [] 49 (.cases [] 10 (.cases [] 19 (.cases [] 15 real5OneCase199 (.cases []
  16 real5OneCase200 real5OneCase201)) real5OneCase202) (.cases [] 8 (.cycle 11 [181, 21, 20])
  (.cases [] 9 real5OneCase203 (.cases [] 6 real5OneCase204 real5OneCase205)))) (.cycle 33
  [26, 95, 145])) real5OneCase206) (.cases [] 20 (.cases [] 31 (.cases [] 10 real5OneCase207
  real5OneCase208) real5OneCase209) real5OneCase210)))) (.cases [] 5 (.cases [] 21 (.cases [] 0
  real5OneCase211 (.cases [] 10 (.cases [] 46 (.cases [] 8 (.cases [] 23 (.cases [] 28 (.cases [] 9
  real5OneCase212 real5OneCase213) real5OneCase214) real5OneCase215) (.cases [] 42 (.cycle 1
  [57, 73, 137]) (.cases [] 16 (.cases [] 20 (.cases [] 47 real5OneCase216 (.cases [] 28 (.cases []
  17 real5OneCase217 (.cases [] 7 real5OneCase218 real5OneCase219)) real5OneCase220))
  real5OneCase221) (.cases [] 28 (.cases [] 24 (.cases [] 20 (.cases [] 17 real5OneCase222 (.cases
  [] 7 real5OneCase223 real5OneCase224)) real5OneCase225) real5OneCase226) real5OneCase227))))
  (.cycle 1 [57, 47, 144])) (.cases [] 23 (.cases [] 43 (.cases [] 16 real5OneCase228
  real5OneCase229) (.cycle 1 [76, 50, 151])) real5OneCase230))) (.cases [] 23 real5OneCase231
  real5OneCase232)) (.cases [] 26 (.cases [] 10 (.cases [] 1 real5OneCase233 (.cases [] 0 (.cases
  [] 16 (.cases [] 21 real5OneCase234 (.cases [] 33 real5OneCase235 real5OneCase236)) (.cases [] 33
  real5OneCase237 (.cases [] 20 (.cases [] 45 (.cases [] 6 real5OneCase238 real5OneCase239)
  real5OneCase240) (.leaf [98, 92, 33, 15, 7, 32, 0, 8, 9, 10])))) (.cases [] 21 real5OneCase241
  real5OneCase242))) (.cases [] 16 real5OneCase243 (.cases [] 33 (.cases [] 60 (.cases [] 8 (.cases
  [] 19 (.cases [] 15 real5OneCase244 real5OneCase245) real5OneCase246) (.cases [] 1 (.cycle 21
  [166, 149, 110]) (.cases [] 0 (.cases [] 20 (.cases [] 19 (.cases [] 15 real5OneCase247
  real5OneCase248) real5OneCase249) (.leaf [49, 92, 33, 15, 7, 32, 0, 8, 9, 10])) (.cases [] 24
  real5OneCase250 real5OneCase251)))) (.cycle 33 [88, 66, 180])) (.cycle 33 [88, 50, 98]))))
  real5OneCase252)))

theorem real5One_part0 : real5OneCases.checkAt real5OneArcs 259 real5OneChoices.length
    [true, true, true, true, true]
    (.not []) [] real5OneTimes 0 = true := by decide +kernel

theorem real5One_part1 : real5OneCases.checkAt real5OneArcs 259 real5OneChoices.length
    [true, true, true, true, false, true, true, true]
    (.not []) [] real5OneTimes 0 = true := by decide +kernel

theorem real5One_part2 : real5OneCases.checkAt real5OneArcs 259 real5OneChoices.length
    [true, true, true, true, false, true, true, false, true]
    (.not []) [] real5OneTimes 0 = true := by decide +kernel

theorem real5One_part3 : real5OneCases.checkAt real5OneArcs 259 real5OneChoices.length
    [true, true, true, true, false, true, true, false, false, true]
    (.not []) [] real5OneTimes 0 = true := by decide +kernel

theorem real5One_part4 : real5OneCases.checkAt real5OneArcs 259 real5OneChoices.length
    [true, true, true, true, false, true, true, false, false, false]
    (.not []) [] real5OneTimes 0 = true := by decide +kernel

theorem real5One_part5 : real5OneCases.checkAt real5OneArcs 259 real5OneChoices.length
    [true, true, true, true, false, true, false]
    (.not []) [] real5OneTimes 0 = true := by decide +kernel

theorem real5One_part6 : real5OneCases.checkAt real5OneArcs 259 real5OneChoices.length
    [true, true, true, true, false, false, true, true]
    (.not []) [] real5OneTimes 0 = true := by decide +kernel

theorem real5One_part7 : real5OneCases.checkAt real5OneArcs 259 real5OneChoices.length
    [true, true, true, true, false, false, true, false, true]
    (.not []) [] real5OneTimes 0 = true := by decide +kernel

theorem real5One_part8 : real5OneCases.checkAt real5OneArcs 259 real5OneChoices.length
    [true, true, true, true, false, false, true, false, false]
    (.not []) [] real5OneTimes 0 = true := by decide +kernel

theorem real5One_part9 : real5OneCases.checkAt real5OneArcs 259 real5OneChoices.length
    [true, true, true, true, false, false, false]
    (.not []) [] real5OneTimes 0 = true := by decide +kernel

theorem real5One_part10 : real5OneCases.checkAt real5OneArcs 259 real5OneChoices.length
    [true, true, true, false]
    (.not []) [] real5OneTimes 0 = true := by decide +kernel

theorem real5One_part11 : real5OneCases.checkAt real5OneArcs 259 real5OneChoices.length
    [true, true, false, true, true, true, true, true, true, true]
    (.not []) [] real5OneTimes 0 = true := by decide +kernel

theorem real5One_part12 : real5OneCases.checkAt real5OneArcs 259 real5OneChoices.length
    [true, true, false, true, true, true, true, true, true, false]
    (.not []) [] real5OneTimes 0 = true := by decide +kernel

theorem real5One_part13 : real5OneCases.checkAt real5OneArcs 259 real5OneChoices.length
    [true, true, false, true, true, true, true, true, false]
    (.not []) [] real5OneTimes 0 = true := by decide +kernel

theorem real5One_part14 : real5OneCases.checkAt real5OneArcs 259 real5OneChoices.length
    [true, true, false, true, true, true, true, false, true, true]
    (.not []) [] real5OneTimes 0 = true := by decide +kernel

theorem real5One_part15 : real5OneCases.checkAt real5OneArcs 259 real5OneChoices.length
    [true, true, false, true, true, true, true, false, true, false]
    (.not []) [] real5OneTimes 0 = true := by decide +kernel

theorem real5One_part16 : real5OneCases.checkAt real5OneArcs 259 real5OneChoices.length
    [true, true, false, true, true, true, true, false, false]
    (.not []) [] real5OneTimes 0 = true := by decide +kernel

theorem real5One_part17 : real5OneCases.checkAt real5OneArcs 259 real5OneChoices.length
    [true, true, false, true, true, true, false]
    (.not []) [] real5OneTimes 0 = true := by decide +kernel

theorem real5One_part18 : real5OneCases.checkAt real5OneArcs 259 real5OneChoices.length
    [true, true, false, true, true, false, true]
    (.not []) [] real5OneTimes 0 = true := by decide +kernel

theorem real5One_part19 : real5OneCases.checkAt real5OneArcs 259 real5OneChoices.length
    [true, true, false, true, true, false, false, true]
    (.not []) [] real5OneTimes 0 = true := by decide +kernel

theorem real5One_part20 : real5OneCases.checkAt real5OneArcs 259 real5OneChoices.length
    [true, true, false, true, true, false, false, false, true, true]
    (.not []) [] real5OneTimes 0 = true := by decide +kernel

theorem real5One_part21 : real5OneCases.checkAt real5OneArcs 259 real5OneChoices.length
    [true, true, false, true, true, false, false, false, true, false, true, true]
    (.not []) [] real5OneTimes 0 = true := by decide +kernel

theorem real5One_part22 : real5OneCases.checkAt real5OneArcs 259 real5OneChoices.length
    [true, true, false, true, true, false, false, false, true, false, true, false, true]
    (.not []) [] real5OneTimes 0 = true := by decide +kernel

theorem real5One_part23 : real5OneCases.checkAt real5OneArcs 259 real5OneChoices.length
    [true, true, false, true, true, false, false, false, true, false, true, false, false, true]
    (.not []) [] real5OneTimes 0 = true := by decide +kernel

theorem real5One_part24 : real5OneCases.checkAt real5OneArcs 259 real5OneChoices.length
    [true, true, false, true, true, false, false, false, true, false, true, false, false, false]
    (.not []) [] real5OneTimes 0 = true := by decide +kernel

theorem real5One_part25 : real5OneCases.checkAt real5OneArcs 259 real5OneChoices.length
    [true, true, false, true, true, false, false, false, true, false, false]
    (.not []) [] real5OneTimes 0 = true := by decide +kernel

theorem real5One_part26 : real5OneCases.checkAt real5OneArcs 259 real5OneChoices.length
    [true, true, false, true, true, false, false, false, false]
    (.not []) [] real5OneTimes 0 = true := by decide +kernel

theorem real5One_part27 : real5OneCases.checkAt real5OneArcs 259 real5OneChoices.length
    [true, true, false, true, false]
    (.not []) [] real5OneTimes 0 = true := by decide +kernel

theorem real5One_part28 : real5OneCases.checkAt real5OneArcs 259 real5OneChoices.length
    [true, true, false, false, true, true, true, true, true, true, true]
    (.not []) [] real5OneTimes 0 = true := by decide +kernel

theorem real5One_part29 : real5OneCases.checkAt real5OneArcs 259 real5OneChoices.length
    [true, true, false, false, true, true, true, true, true, true, false, true, true]
    (.not []) [] real5OneTimes 0 = true := by decide +kernel

theorem real5One_part30 : real5OneCases.checkAt real5OneArcs 259 real5OneChoices.length
    [true, true, false, false, true, true, true, true, true, true, false, true, false, true]
    (.not []) [] real5OneTimes 0 = true := by decide +kernel

theorem real5One_part31 : real5OneCases.checkAt real5OneArcs 259 real5OneChoices.length
    [true, true, false, false, true, true, true, true, true, true, false, true, false, false, true]
    (.not []) [] real5OneTimes 0 = true := by decide +kernel

theorem real5One_part32 : real5OneCases.checkAt real5OneArcs 259 real5OneChoices.length
    [true, true, false, false, true, true, true, true, true, true, false, true, false, false,
    false]
    (.not []) [] real5OneTimes 0 = true := by decide +kernel

theorem real5One_part33 : real5OneCases.checkAt real5OneArcs 259 real5OneChoices.length
    [true, true, false, false, true, true, true, true, true, true, false, false]
    (.not []) [] real5OneTimes 0 = true := by decide +kernel

theorem real5One_part34 : real5OneCases.checkAt real5OneArcs 259 real5OneChoices.length
    [true, true, false, false, true, true, true, true, true, false]
    (.not []) [] real5OneTimes 0 = true := by decide +kernel

theorem real5One_part35 : real5OneCases.checkAt real5OneArcs 259 real5OneChoices.length
    [true, true, false, false, true, true, true, true, false]
    (.not []) [] real5OneTimes 0 = true := by decide +kernel

theorem real5One_part36 : real5OneCases.checkAt real5OneArcs 259 real5OneChoices.length
    [true, true, false, false, true, true, true, false, true, true]
    (.not []) [] real5OneTimes 0 = true := by decide +kernel

theorem real5One_part37 : real5OneCases.checkAt real5OneArcs 259 real5OneChoices.length
    [true, true, false, false, true, true, true, false, true, false, true, true]
    (.not []) [] real5OneTimes 0 = true := by decide +kernel

theorem real5One_part38 : real5OneCases.checkAt real5OneArcs 259 real5OneChoices.length
    [true, true, false, false, true, true, true, false, true, false, true, false, true, true]
    (.not []) [] real5OneTimes 0 = true := by decide +kernel

theorem real5One_part39 : real5OneCases.checkAt real5OneArcs 259 real5OneChoices.length
    [true, true, false, false, true, true, true, false, true, false, true, false, true, false,
    true]
    (.not []) [] real5OneTimes 0 = true := by decide +kernel

theorem real5One_part40 : real5OneCases.checkAt real5OneArcs 259 real5OneChoices.length
    [true, true, false, false, true, true, true, false, true, false, true, false, true, false,
    false, true]
    (.not []) [] real5OneTimes 0 = true := by decide +kernel

theorem real5One_part41 : real5OneCases.checkAt real5OneArcs 259 real5OneChoices.length
    [true, true, false, false, true, true, true, false, true, false, true, false, true, false,
    false, false]
    (.not []) [] real5OneTimes 0 = true := by decide +kernel

theorem real5One_part42 : real5OneCases.checkAt real5OneArcs 259 real5OneChoices.length
    [true, true, false, false, true, true, true, false, true, false, true, false, false, true]
    (.not []) [] real5OneTimes 0 = true := by decide +kernel

theorem real5One_part43 : real5OneCases.checkAt real5OneArcs 259 real5OneChoices.length
    [true, true, false, false, true, true, true, false, true, false, true, false, false, false,
    true]
    (.not []) [] real5OneTimes 0 = true := by decide +kernel

theorem real5One_part44 : real5OneCases.checkAt real5OneArcs 259 real5OneChoices.length
    [true, true, false, false, true, true, true, false, true, false, true, false, false, false,
    false, true, true]
    (.not []) [] real5OneTimes 0 = true := by decide +kernel

theorem real5One_part45 : real5OneCases.checkAt real5OneArcs 259 real5OneChoices.length
    [true, true, false, false, true, true, true, false, true, false, true, false, false, false,
    false, true, false]
    (.not []) [] real5OneTimes 0 = true := by decide +kernel

theorem real5One_part46 : real5OneCases.checkAt real5OneArcs 259 real5OneChoices.length
    [true, true, false, false, true, true, true, false, true, false, true, false, false, false,
    false, false]
    (.not []) [] real5OneTimes 0 = true := by decide +kernel

theorem real5One_part47 : real5OneCases.checkAt real5OneArcs 259 real5OneChoices.length
    [true, true, false, false, true, true, true, false, true, false, false]
    (.not []) [] real5OneTimes 0 = true := by decide +kernel

theorem real5One_part48 : real5OneCases.checkAt real5OneArcs 259 real5OneChoices.length
    [true, true, false, false, true, true, true, false, false]
    (.not []) [] real5OneTimes 0 = true := by decide +kernel

theorem real5One_part49 : real5OneCases.checkAt real5OneArcs 259 real5OneChoices.length
    [true, true, false, false, true, true, false]
    (.not []) [] real5OneTimes 0 = true := by decide +kernel

theorem real5One_part50 : real5OneCases.checkAt real5OneArcs 259 real5OneChoices.length
    [true, true, false, false, true, false, true]
    (.not []) [] real5OneTimes 0 = true := by decide +kernel

theorem real5One_part51 : real5OneCases.checkAt real5OneArcs 259 real5OneChoices.length
    [true, true, false, false, true, false, false, true, true, true, true]
    (.not []) [] real5OneTimes 0 = true := by decide +kernel

theorem real5One_part52 : real5OneCases.checkAt real5OneArcs 259 real5OneChoices.length
    [true, true, false, false, true, false, false, true, true, true, false, true, true]
    (.not []) [] real5OneTimes 0 = true := by decide +kernel

theorem real5One_part53 : real5OneCases.checkAt real5OneArcs 259 real5OneChoices.length
    [true, true, false, false, true, false, false, true, true, true, false, true, false, true]
    (.not []) [] real5OneTimes 0 = true := by decide +kernel

theorem real5One_part54 : real5OneCases.checkAt real5OneArcs 259 real5OneChoices.length
    [true, true, false, false, true, false, false, true, true, true, false, true, false, false]
    (.not []) [] real5OneTimes 0 = true := by decide +kernel

theorem real5One_part55 : real5OneCases.checkAt real5OneArcs 259 real5OneChoices.length
    [true, true, false, false, true, false, false, true, true, true, false, false]
    (.not []) [] real5OneTimes 0 = true := by decide +kernel

theorem real5One_part56 : real5OneCases.checkAt real5OneArcs 259 real5OneChoices.length
    [true, true, false, false, true, false, false, true, true, false]
    (.not []) [] real5OneTimes 0 = true := by decide +kernel

theorem real5One_part57 : real5OneCases.checkAt real5OneArcs 259 real5OneChoices.length
    [true, true, false, false, true, false, false, true, false]
    (.not []) [] real5OneTimes 0 = true := by decide +kernel

theorem real5One_part58 : real5OneCases.checkAt real5OneArcs 259 real5OneChoices.length
    [true, true, false, false, true, false, false, false, true, true, true]
    (.not []) [] real5OneTimes 0 = true := by decide +kernel

theorem real5One_part59 : real5OneCases.checkAt real5OneArcs 259 real5OneChoices.length
    [true, true, false, false, true, false, false, false, true, true, false]
    (.not []) [] real5OneTimes 0 = true := by decide +kernel

theorem real5One_part60 : real5OneCases.checkAt real5OneArcs 259 real5OneChoices.length
    [true, true, false, false, true, false, false, false, true, false, true, true]
    (.not []) [] real5OneTimes 0 = true := by decide +kernel

theorem real5One_part61 : real5OneCases.checkAt real5OneArcs 259 real5OneChoices.length
    [true, true, false, false, true, false, false, false, true, false, true, false, true, true]
    (.not []) [] real5OneTimes 0 = true := by decide +kernel

theorem real5One_part62 : real5OneCases.checkAt real5OneArcs 259 real5OneChoices.length
    [true, true, false, false, true, false, false, false, true, false, true, false, true, false,
    true, true]
    (.not []) [] real5OneTimes 0 = true := by decide +kernel

theorem real5One_part63 : real5OneCases.checkAt real5OneArcs 259 real5OneChoices.length
    [true, true, false, false, true, false, false, false, true, false, true, false, true, false,
    true, false, true, true]
    (.not []) [] real5OneTimes 0 = true := by decide +kernel

theorem real5One_part64 : real5OneCases.checkAt real5OneArcs 259 real5OneChoices.length
    [true, true, false, false, true, false, false, false, true, false, true, false, true, false,
    true, false, true, false]
    (.not []) [] real5OneTimes 0 = true := by decide +kernel

theorem real5One_part65 : real5OneCases.checkAt real5OneArcs 259 real5OneChoices.length
    [true, true, false, false, true, false, false, false, true, false, true, false, true, false,
    true, false, false]
    (.not []) [] real5OneTimes 0 = true := by decide +kernel

theorem real5One_part66 : real5OneCases.checkAt real5OneArcs 259 real5OneChoices.length
    [true, true, false, false, true, false, false, false, true, false, true, false, true, false,
    false]
    (.not []) [] real5OneTimes 0 = true := by decide +kernel

theorem real5One_part67 : real5OneCases.checkAt real5OneArcs 259 real5OneChoices.length
    [true, true, false, false, true, false, false, false, true, false, true, false, false, true]
    (.not []) [] real5OneTimes 0 = true := by decide +kernel

theorem real5One_part68 : real5OneCases.checkAt real5OneArcs 259 real5OneChoices.length
    [true, true, false, false, true, false, false, false, true, false, true, false, false, false,
    true]
    (.not []) [] real5OneTimes 0 = true := by decide +kernel

theorem real5One_part69 : real5OneCases.checkAt real5OneArcs 259 real5OneChoices.length
    [true, true, false, false, true, false, false, false, true, false, true, false, false, false,
    false, true, true]
    (.not []) [] real5OneTimes 0 = true := by decide +kernel

theorem real5One_part70 : real5OneCases.checkAt real5OneArcs 259 real5OneChoices.length
    [true, true, false, false, true, false, false, false, true, false, true, false, false, false,
    false, true, false]
    (.not []) [] real5OneTimes 0 = true := by decide +kernel

theorem real5One_part71 : real5OneCases.checkAt real5OneArcs 259 real5OneChoices.length
    [true, true, false, false, true, false, false, false, true, false, true, false, false, false,
    false, false]
    (.not []) [] real5OneTimes 0 = true := by decide +kernel

theorem real5One_part72 : real5OneCases.checkAt real5OneArcs 259 real5OneChoices.length
    [true, true, false, false, true, false, false, false, true, false, false]
    (.not []) [] real5OneTimes 0 = true := by decide +kernel

theorem real5One_part73 : real5OneCases.checkAt real5OneArcs 259 real5OneChoices.length
    [true, true, false, false, true, false, false, false, false]
    (.not []) [] real5OneTimes 0 = true := by decide +kernel

theorem real5One_part74 : real5OneCases.checkAt real5OneArcs 259 real5OneChoices.length
    [true, true, false, false, false, true, true, true, true, true]
    (.not []) [] real5OneTimes 0 = true := by decide +kernel

theorem real5One_part75 : real5OneCases.checkAt real5OneArcs 259 real5OneChoices.length
    [true, true, false, false, false, true, true, true, true, false]
    (.not []) [] real5OneTimes 0 = true := by decide +kernel

theorem real5One_part76 : real5OneCases.checkAt real5OneArcs 259 real5OneChoices.length
    [true, true, false, false, false, true, true, true, false]
    (.not []) [] real5OneTimes 0 = true := by decide +kernel

theorem real5One_part77 : real5OneCases.checkAt real5OneArcs 259 real5OneChoices.length
    [true, true, false, false, false, true, true, false]
    (.not []) [] real5OneTimes 0 = true := by decide +kernel

theorem real5One_part78 : real5OneCases.checkAt real5OneArcs 259 real5OneChoices.length
    [true, true, false, false, false, true, false]
    (.not []) [] real5OneTimes 0 = true := by decide +kernel

theorem real5One_part79 : real5OneCases.checkAt real5OneArcs 259 real5OneChoices.length
    [true, true, false, false, false, false, true]
    (.not []) [] real5OneTimes 0 = true := by decide +kernel

theorem real5One_part80 : real5OneCases.checkAt real5OneArcs 259 real5OneChoices.length
    [true, true, false, false, false, false, false, true]
    (.not []) [] real5OneTimes 0 = true := by decide +kernel

theorem real5One_part81 : real5OneCases.checkAt real5OneArcs 259 real5OneChoices.length
    [true, true, false, false, false, false, false, false, true]
    (.not []) [] real5OneTimes 0 = true := by decide +kernel

theorem real5One_part82 : real5OneCases.checkAt real5OneArcs 259 real5OneChoices.length
    [true, true, false, false, false, false, false, false, false, true]
    (.not []) [] real5OneTimes 0 = true := by decide +kernel

theorem real5One_part83 : real5OneCases.checkAt real5OneArcs 259 real5OneChoices.length
    [true, true, false, false, false, false, false, false, false, false]
    (.not []) [] real5OneTimes 0 = true := by decide +kernel

theorem real5One_part84 : real5OneCases.checkAt real5OneArcs 259 real5OneChoices.length
    [true, false]
    (.not []) [] real5OneTimes 0 = true := by decide +kernel

theorem real5One_part85 : real5OneCases.checkAt real5OneArcs 259 real5OneChoices.length
    [false, true, true]
    (.not []) [] real5OneTimes 0 = true := by decide +kernel

theorem real5One_part86 : real5OneCases.checkAt real5OneArcs 259 real5OneChoices.length
    [false, true, false, true]
    (.not []) [] real5OneTimes 0 = true := by decide +kernel

theorem real5One_part87 : real5OneCases.checkAt real5OneArcs 259 real5OneChoices.length
    [false, true, false, false, true, true, true, true]
    (.not []) [] real5OneTimes 0 = true := by decide +kernel

theorem real5One_part88 : real5OneCases.checkAt real5OneArcs 259 real5OneChoices.length
    [false, true, false, false, true, true, true, false]
    (.not []) [] real5OneTimes 0 = true := by decide +kernel

theorem real5One_part89 : real5OneCases.checkAt real5OneArcs 259 real5OneChoices.length
    [false, true, false, false, true, true, false]
    (.not []) [] real5OneTimes 0 = true := by decide +kernel

theorem real5One_part90 : real5OneCases.checkAt real5OneArcs 259 real5OneChoices.length
    [false, true, false, false, true, false]
    (.not []) [] real5OneTimes 0 = true := by decide +kernel

theorem real5One_part91 : real5OneCases.checkAt real5OneArcs 259 real5OneChoices.length
    [false, true, false, false, false]
    (.not []) [] real5OneTimes 0 = true := by decide +kernel

theorem real5One_part92 : real5OneCases.checkAt real5OneArcs 259 real5OneChoices.length
    [false, false, true, true, true]
    (.not []) [] real5OneTimes 0 = true := by decide +kernel

theorem real5One_part93 : real5OneCases.checkAt real5OneArcs 259 real5OneChoices.length
    [false, false, true, true, false, true, true, true]
    (.not []) [] real5OneTimes 0 = true := by decide +kernel

theorem real5One_part94 : real5OneCases.checkAt real5OneArcs 259 real5OneChoices.length
    [false, false, true, true, false, true, true, false, true]
    (.not []) [] real5OneTimes 0 = true := by decide +kernel

theorem real5One_part95 : real5OneCases.checkAt real5OneArcs 259 real5OneChoices.length
    [false, false, true, true, false, true, true, false, false, true]
    (.not []) [] real5OneTimes 0 = true := by decide +kernel

theorem real5One_part96 : real5OneCases.checkAt real5OneArcs 259 real5OneChoices.length
    [false, false, true, true, false, true, true, false, false, false]
    (.not []) [] real5OneTimes 0 = true := by decide +kernel

theorem real5One_part97 : real5OneCases.checkAt real5OneArcs 259 real5OneChoices.length
    [false, false, true, true, false, true, false]
    (.not []) [] real5OneTimes 0 = true := by decide +kernel

theorem real5One_part98 : real5OneCases.checkAt real5OneArcs 259 real5OneChoices.length
    [false, false, true, true, false, false]
    (.not []) [] real5OneTimes 0 = true := by decide +kernel

theorem real5One_part99 : real5OneCases.checkAt real5OneArcs 259 real5OneChoices.length
    [false, false, true, false]
    (.not []) [] real5OneTimes 0 = true := by decide +kernel

theorem real5One_part100 : real5OneCases.checkAt real5OneArcs 259 real5OneChoices.length
    [false, false, false, true, true, true]
    (.not []) [] real5OneTimes 0 = true := by decide +kernel

theorem real5One_part101 : real5OneCases.checkAt real5OneArcs 259 real5OneChoices.length
    [false, false, false, true, true, false, true]
    (.not []) [] real5OneTimes 0 = true := by decide +kernel

theorem real5One_part102 : real5OneCases.checkAt real5OneArcs 259 real5OneChoices.length
    [false, false, false, true, true, false, false]
    (.not []) [] real5OneTimes 0 = true := by decide +kernel

theorem real5One_part103 : real5OneCases.checkAt real5OneArcs 259 real5OneChoices.length
    [false, false, false, true, false, true]
    (.not []) [] real5OneTimes 0 = true := by decide +kernel

theorem real5One_part104 : real5OneCases.checkAt real5OneArcs 259 real5OneChoices.length
    [false, false, false, true, false, false, true, true, true]
    (.not []) [] real5OneTimes 0 = true := by decide +kernel

theorem real5One_part105 : real5OneCases.checkAt real5OneArcs 259 real5OneChoices.length
    [false, false, false, true, false, false, true, true, false]
    (.not []) [] real5OneTimes 0 = true := by decide +kernel

theorem real5One_part106 : real5OneCases.checkAt real5OneArcs 259 real5OneChoices.length
    [false, false, false, true, false, false, true, false]
    (.not []) [] real5OneTimes 0 = true := by decide +kernel

theorem real5One_part107 : real5OneCases.checkAt real5OneArcs 259 real5OneChoices.length
    [false, false, false, true, false, false, false]
    (.not []) [] real5OneTimes 0 = true := by decide +kernel

theorem real5One_part108 : real5OneCases.checkAt real5OneArcs 259 real5OneChoices.length
    [false, false, false, false]
    (.not []) [] real5OneTimes 0 = true := by decide +kernel

theorem real5One_cases : real5OneCases.check real5OneArcs 259 real5OneChoices.length (.not []) [] real5OneTimes 0 = true :=
  LooseTree.join (path := []) (LooseTree.join (LooseTree.join (LooseTree.join (LooseTree.join
  real5One_part0 (LooseTree.join (LooseTree.join (LooseTree.join real5One_part1 (LooseTree.join
  real5One_part2 (LooseTree.join real5One_part3 real5One_part4))) real5One_part5) (LooseTree.join
  (LooseTree.join real5One_part6 (LooseTree.join real5One_part7 real5One_part8)) real5One_part9)))
  real5One_part10) (LooseTree.join (LooseTree.join (LooseTree.join (LooseTree.join (LooseTree.join
  (LooseTree.join (LooseTree.join real5One_part11 real5One_part12) real5One_part13) (LooseTree.join
  (LooseTree.join real5One_part14 real5One_part15) real5One_part16)) real5One_part17)
  (LooseTree.join real5One_part18 (LooseTree.join real5One_part19 (LooseTree.join (LooseTree.join
  real5One_part20 (LooseTree.join (LooseTree.join real5One_part21 (LooseTree.join real5One_part22
  (LooseTree.join real5One_part23 real5One_part24))) real5One_part25)) real5One_part26))))
  real5One_part27) (LooseTree.join (LooseTree.join (LooseTree.join (LooseTree.join (LooseTree.join
  (LooseTree.join (LooseTree.join real5One_part28 (LooseTree.join (LooseTree.join real5One_part29
  (LooseTree.join real5One_part30 (LooseTree.join real5One_part31 real5One_part32)))
  real5One_part33)) real5One_part34) real5One_part35) (LooseTree.join (LooseTree.join
  real5One_part36 (LooseTree.join (LooseTree.join real5One_part37 (LooseTree.join (LooseTree.join
  real5One_part38 (LooseTree.join real5One_part39 (LooseTree.join real5One_part40
  real5One_part41))) (LooseTree.join real5One_part42 (LooseTree.join real5One_part43
  (LooseTree.join (LooseTree.join real5One_part44 real5One_part45) real5One_part46)))))
  real5One_part47)) real5One_part48)) real5One_part49) (LooseTree.join real5One_part50
  (LooseTree.join (LooseTree.join (LooseTree.join (LooseTree.join real5One_part51 (LooseTree.join
  (LooseTree.join real5One_part52 (LooseTree.join real5One_part53 real5One_part54))
  real5One_part55)) real5One_part56) real5One_part57) (LooseTree.join (LooseTree.join
  (LooseTree.join real5One_part58 real5One_part59) (LooseTree.join (LooseTree.join real5One_part60
  (LooseTree.join (LooseTree.join real5One_part61 (LooseTree.join (LooseTree.join real5One_part62
  (LooseTree.join (LooseTree.join real5One_part63 real5One_part64) real5One_part65))
  real5One_part66)) (LooseTree.join real5One_part67 (LooseTree.join real5One_part68 (LooseTree.join
  (LooseTree.join real5One_part69 real5One_part70) real5One_part71))))) real5One_part72))
  real5One_part73)))) (LooseTree.join (LooseTree.join (LooseTree.join (LooseTree.join
  (LooseTree.join real5One_part74 real5One_part75) real5One_part76) real5One_part77)
  real5One_part78) (LooseTree.join real5One_part79 (LooseTree.join real5One_part80 (LooseTree.join
  real5One_part81 (LooseTree.join real5One_part82 real5One_part83)))))))) real5One_part84)
  (LooseTree.join (LooseTree.join real5One_part85 (LooseTree.join real5One_part86 (LooseTree.join
  (LooseTree.join (LooseTree.join (LooseTree.join real5One_part87 real5One_part88) real5One_part89)
  real5One_part90) real5One_part91))) (LooseTree.join (LooseTree.join (LooseTree.join
  real5One_part92 (LooseTree.join (LooseTree.join (LooseTree.join real5One_part93 (LooseTree.join
  real5One_part94 (LooseTree.join real5One_part95 real5One_part96))) real5One_part97)
  real5One_part98)) real5One_part99) (LooseTree.join (LooseTree.join (LooseTree.join
  real5One_part100 (LooseTree.join real5One_part101 real5One_part102)) (LooseTree.join
  real5One_part103 (LooseTree.join (LooseTree.join (LooseTree.join real5One_part104
  real5One_part105) real5One_part106) real5One_part107))) real5One_part108)))

theorem real5One_choices : real5OneChoices.all (CodedNet.Choice.ok netGt netGtSpecial real5Plan) = true := by
  decide +kernel

theorem real5One_arcs : (real5OneArcs.toList.all fun x =>
    netGt.arcOK netGtSpecial real5Plan real5OneNodes real5OneChoices x.1 &&
      netGt.keyOK real5Plan real5OneNodes real5OneChoices x.1 x.2) = true := by decide +kernel

theorem real5One_times : netGt.startOK real5Plan real5OneNodes 10 40 real5OneTimes = true := by decide +kernel

end Verif.Real
