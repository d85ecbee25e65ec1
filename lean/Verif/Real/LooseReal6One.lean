import Verif.Proofs.LooseSum
import Verif.Real.OptReal6

/-!
# Bounds of the delays in case 6 of `solve_real_problem.py` when rules are broken

Generated; see `Verif/Proofs/LooseTree.lean`. `d_max` is 40.
-/

namespace Verif.Real

set_option maxRecDepth 100000

/-- the departures: train and station -/
def real6OneNodes : List (Nat × Nat) := [
  (9, 8), (9, 9), (26, 8), (26, 1), (26, 2), (26, 0), (26, 9), (8, 8), (8, 9), (12, 8), (12, 9),
  (11, 9), (21, 8), (21, 9), (0, 8), (0, 1), (21, 1), (11, 8), (11, 1), (11, 2), (11, 0), (12, 1),
  (22, 8), (22, 1), (8, 1), (16, 8), (16, 9), (16, 1), (19, 8), (19, 11), (19, 10), (0, 9), (9, 1),
  (22, 11), (19, 1), (19, 2), (16, 2), (12, 3), (9, 3), (4, 2), (14, 0), (14, 2), (8, 2), (4, 0),
  (24, 2), (24, 1), (24, 5), (21, 2), (20, 5), (17, 5), (17, 1), (17, 2), (17, 0)]

/-- the choices -/
def real6OneChoices : List CodedNet.Choice := [
  .against 11 9 9 8, .against 8 26 8 9, .against 22 21 8 1, .against 26 21 8 1, .against 12 0 1 8,
  .first 12 9 8, .against 26 12 9 8, .against 16 26 8 9, .against 8 11 1 8, .against 9 0 8 9,
  .against 26 21 9 8, .first 8 12 8, .against 9 0 1 8, .against 8 0 1 8, .first 26 22 8,
  .against 19 22 8 11, .against 11 12 8 1, .first 11 0 9, .against 12 0 8 9, .first 8 16 8,
  .against 26 9 9 8, .against 16 0 1 8, .against 16 11 1 8, .first 19 21 1, .first 16 12 8,
  .first 11 0 8, .against 11 12 9 8, .first 8 19 1, .first 8 16 1, .against 11 9 8 1,
  .first 16 9 8, .against 8 22 1 8, .first 8 9 8, .against 8 11 8 9, .first 12 9 1,
  .against 11 19 8 1, .against 4 14 2 0, .against 8 0 8 9, .first 19 12 1, .first 16 21 8,
  .first 12 21 8, .against 16 22 1 8, .against 26 19 8 1, .against 8 26 1 8, .first 8 21 8,
  .first 16 24 1, .first 26 19 8, .first 12 21 1, .against 16 11 8 9, .against 19 0 1 8,
  .against 11 21 8 1, .against 16 26 1 8, .first 19 9 1, .against 22 12 8 1, .first 9 21 8,
  .against 16 0 8 9, .first 26 0 9, .first 17 20 5, .first 19 22 8, .first 9 21 1]

/-- the inequalities and their rules -/
def real6OneArcs : KeyTree :=
  .node ⟨.run, 0, 1, 2, 10, 0, false⟩ 9474193 (.node ⟨.run, 0, 3, 4, 7, 0, false⟩ 27369489 (.node
  ⟨.run, 0, 5, 6, 3, 0, false⟩ 27369473 (.node ⟨.come, 1, 12, 1, 7, 0, false⟩ 11571333 (.node
  ⟨.run, 0, 22, 10, 7, 0, false⟩ 12632193 (.node ⟨.run, 0, 12, 18, 8, 0, false⟩ 11579521 (.node
  ⟨.run, 0, 36, 35, 3, 0, false⟩ 20000785 (.node ⟨.run, 0, 46, 47, 6, 0, false⟩ 25264209 .none
  .none) .none) (.node ⟨.track, 24, 10, 25, 0, 4, false⟩ 12615811 (.node
  ⟨.track, 114, 32, 0, 0, 41, false⟩ 106643 .none .none) .none)) (.node
  ⟨.track, 11, 10, 33, 0, 4, false⟩ 12619907 (.node ⟨.track, 57, 25, 37, 0, 0, false⟩ 8454163
  (.node ⟨.come, 97, 26, 12, 10, 0, false⟩ 16822421 .none .none) .none) (.node
  ⟨.come, 63, 25, 23, 5, 0, false⟩ 8478853 (.node ⟨.track, 113, 7, 0, 0, 17, false⟩ 27263123 .none
  .none) .none))) (.node ⟨.run, 0, 29, 30, 7, 0, false⟩ 20000945 (.node
  ⟨.come, 25, 33, 15, 5, 0, false⟩ 9437317 (.node ⟨.track, 51, 18, 32, 0, 8, false⟩ 11534467 (.node
  ⟨.run, 0, 48, 17, 3, 0, false⟩ 22106129 .none .none) .none) (.node
  ⟨.come, 71, 18, 35, 5, 0, false⟩ 11612181 (.node ⟨.track, 118, 23, 35, 0, 4, false⟩ 23146627
  .none .none) .none)) (.node ⟨.track, 39, 8, 28, 0, 4, false⟩ 8454275 (.node
  ⟨.come, 60, 33, 18, 5, 0, false⟩ 9482373 (.node ⟨.come, 86, 35, 3, 5, 0, false⟩ 20029573 .none
  .none) .none) (.node ⟨.run, 0, 40, 44, 3, 0, false⟩ 4210689 (.node
  ⟨.track, 119, 33, 48, 0, 0, false⟩ 9523219 .none .none) .none)))) (.node
  ⟨.come, 3, 8, 7, 7, 0, false⟩ 8495253 (.node ⟨.run, 0, 26, 27, 11, 0, false⟩ 16842897 (.node
  ⟨.run, 0, 33, 1, 7, 0, false⟩ 9474177 (.node ⟨.track, 48, 17, 36, 0, 0, false⟩ 22097939 (.node
  ⟨.track, 50, 10, 28, 0, 4, false⟩ 12648579 .none .none) .none) (.node
  ⟨.track, 58, 28, 43, 0, 0, false⟩ 16810003 (.node ⟨.run, 0, 50, 51, 7, 0, false⟩ 17895441 .none
  .none) .none)) (.node ⟨.come, 2, 1, 12, 9, 0, false⟩ 9482389 (.node
  ⟨.come, 54, 10, 12, 9, 0, false⟩ 12628117 (.node ⟨.come, 102, 17, 18, 5, 0, false⟩ 22065285 .none
  .none) .none) (.node ⟨.follow, 39, 8, 26, 2, 0, false⟩ 8454274 (.node
  ⟨.follow, 89, 8, 13, 2, 0, false⟩ 8474754 .none .none) .none))) (.node
  ⟨.follow, 11, 10, 1, 4, 0, false⟩ 12619906 (.node ⟨.come, 27, 25, 15, 5, 0, false⟩ 8388741 (.node
  ⟨.come, 53, 12, 10, 7, 0, false⟩ 11583621 (.node ⟨.come, 103, 28, 3, 5, 0, false⟩ 16883845 .none
  .none) .none) (.node ⟨.come, 84, 23, 28, 6, 0, false⟩ 23134229 (.node
  ⟨.come, 108, 22, 23, 5, 0, false⟩ 12673157 .none .none) .none)) (.node
  ⟨.come, 44, 15, 28, 6, 0, false⟩ 65557 (.node ⟨.come, 72, 35, 18, 5, 0, false⟩ 19968133 (.node
  ⟨.track, 94, 29, 7, 0, 6, false⟩ 20029571 .none .none) .none) (.node
  ⟨.follow, 48, 17, 35, 2, 0, false⟩ 22097938 .none .none))))) (.node ⟨.run, 0, 8, 9, 8, 0, false⟩
  8421521 (.node ⟨.run, 0, 15, 16, 8, 0, false⟩ 17 (.node ⟨.come, 5, 23, 17, 6, 0, false⟩ 23154709
  (.node ⟨.come, 20, 32, 1, 9, 0, false⟩ 36997 (.node ⟨.come, 43, 28, 15, 5, 0, false⟩ 16777349
  (.node ⟨.follow, 90, 13, 8, 4, 0, false⟩ 22052994 .none .none) .none) (.node
  ⟨.come, 76, 32, 8, 9, 0, false⟩ 32901 (.node ⟨.track, 82, 13, 22, 0, 4, false⟩ 22069379 .none
  .none) .none)) (.node ⟨.track, 23, 8, 22, 0, 4, false⟩ 8437891 (.node
  ⟨.come, 59, 18, 33, 5, 0, false⟩ 11571221 (.node ⟨.follow, 109, 1, 13, 4, 0, false⟩ 9523330 .none
  .none) .none) (.node ⟨.come, 85, 3, 35, 5, 0, false⟩ 27340821 (.node
  ⟨.follow, 96, 17, 22, 2, 0, false⟩ 22069266 .none .none) .none))) (.node
  ⟨.come, 6, 17, 23, 5, 0, false⟩ 22110341 (.node ⟨.come, 28, 15, 25, 6, 0, false⟩ 32789 (.node
  ⟨.track, 12, 1, 22, 0, 4, false⟩ 9486467 (.node ⟨.come, 87, 25, 3, 5, 0, false⟩ 8495237 .none
  .none) .none) (.node ⟨.follow, 80, 13, 26, 4, 0, false⟩ 22085762 (.node
  ⟨.track, 47, 35, 48, 0, 0, false⟩ 20008979 .none .none) .none)) (.node
  ⟨.come, 42, 1, 7, 9, 0, false⟩ 9543829 (.node ⟨.come, 68, 12, 8, 7, 0, false⟩ 11567237 (.node
  ⟨.follow, 69, 22, 33, 2, 0, false⟩ 12619794 .none .none) .none) (.node
  ⟨.follow, 62, 1, 26, 4, 0, false⟩ 9502850 .none .none)))) (.node ⟨.run, 0, 19, 20, 2, 0, false⟩
  11579425 (.node ⟨.run, 0, 28, 26, 7, 0, false⟩ 16842881 (.node ⟨.come, 16, 7, 26, 7, 0, false⟩
  27328645 (.node ⟨.come, 46, 18, 28, 5, 0, false⟩ 11599893 (.node
  ⟨.come, 100, 15, 35, 6, 0, false⟩ 77845 .none .none) .none) (.node
  ⟨.track, 77, 35, 38, 0, 0, false⟩ 19972115 (.node ⟨.run, 0, 52, 53, 3, 0, false⟩ 17895425 .none
  .none) .none)) (.node ⟨.come, 38, 32, 10, 9, 0, false⟩ 49285 (.node
  ⟨.come, 64, 23, 25, 6, 0, false⟩ 23101461 (.node ⟨.track, 49, 26, 22, 0, 4, false⟩ 16826499 .none
  .none) .none) (.node ⟨.follow, 79, 26, 13, 4, 0, false⟩ 16863362 (.node
  ⟨.track, 120, 17, 39, 0, 0, false⟩ 22056979 .none .none) .none))) (.node
  ⟨.come, 14, 10, 7, 9, 0, false⟩ 12689557 (.node ⟨.run, 0, 34, 23, 6, 0, false⟩ 23158913 (.node
  ⟨.follow, 52, 15, 18, 3, 0, false⟩ 45186 (.node ⟨.track, 79, 26, 17, 0, 4, false⟩ 16863363 .none
  .none) .none) (.node ⟨.follow, 23, 8, 10, 2, 0, false⟩ 8437890 (.node
  ⟨.track, 105, 35, 39, 0, 0, false⟩ 19959827 .none .none) .none)) (.node
  ⟨.come, 18, 18, 25, 5, 0, false⟩ 11567125 (.node ⟨.come, 73, 40, 41, 3, 0, false⟩ 4251653 (.node
  ⟨.follow, 57, 25, 28, 2, 0, false⟩ 8454162 .none .none) .none) (.node
  ⟨.track, 91, 28, 45, 0, 0, false⟩ 16875539 .none .none)))))) (.node ⟨.run, 0, 4, 5, 2, 0, false⟩
  27369505 (.node ⟨.run, 0, 7, 3, 8, 0, false⟩ 27369601 (.node ⟨.run, 0, 13, 14, 11, 0, false⟩
  22106257 (.node ⟨.run, 0, 23, 24, 8, 0, false⟩ 23158801 (.node ⟨.come, 17, 25, 18, 5, 0, false⟩
  8433797 (.node ⟨.come, 45, 28, 18, 5, 0, false⟩ 16822405 (.node ⟨.track, 93, 3, 35, 0, 4, false⟩
  27340931 .none .none) .none) (.node ⟨.run, 0, 39, 33, 3, 0, false⟩ 9474065 (.node
  ⟨.follow, 70, 33, 22, 2, 0, false⟩ 9486354 .none .none) .none)) (.node
  ⟨.come, 8, 17, 3, 5, 0, false⟩ 22126725 (.node ⟨.run, 0, 37, 28, 3, 0, false⟩ 16842769 (.node
  ⟨.track, 109, 1, 17, 0, 4, false⟩ 9523331 .none .none) .none) (.node
  ⟨.come, 75, 8, 32, 7, 0, false⟩ 8388757 (.node ⟨.track, 78, 22, 36, 0, 0, false⟩ 12660755 .none
  .none) .none))) (.node ⟨.run, 0, 30, 31, 4, 0, false⟩ 20000929 (.node
  ⟨.come, 13, 7, 10, 7, 0, false⟩ 27312261 (.node ⟨.follow, 49, 26, 10, 4, 0, false⟩ 16826498
  (.node ⟨.track, 80, 13, 28, 0, 4, false⟩ 22085763 .none .none) .none) (.node
  ⟨.come, 37, 10, 32, 9, 0, false⟩ 12583061 (.node ⟨.track, 117, 29, 34, 0, 5, false⟩ 20013187
  .none .none) .none)) (.node ⟨.come, 32, 34, 29, 6, 0, false⟩ 23146629 (.node
  ⟨.follow, 66, 1, 8, 4, 0, false⟩ 9470082 (.node ⟨.follow, 58, 28, 25, 2, 0, false⟩ 16810002 .none
  .none) .none) (.node ⟨.come, 88, 3, 25, 5, 0, false⟩ 27295765 (.node
  ⟨.follow, 120, 17, 33, 2, 0, false⟩ 22056978 .none .none) .none)))) (.node
  ⟨.run, 0, 18, 19, 7, 0, false⟩ 11579409 (.node ⟨.come, 4, 7, 8, 7, 0, false⟩ 27295877 (.node
  ⟨.run, 0, 32, 15, 9, 0, false⟩ 129 (.node ⟨.follow, 50, 10, 26, 4, 0, false⟩ 12648578 (.node
  ⟨.come, 98, 12, 26, 7, 0, false⟩ 11600005 .none .none) .none) (.node
  ⟨.run, 0, 43, 25, 3, 0, false⟩ 8421393 (.node ⟨.run, 0, 51, 52, 2, 0, false⟩ 17895457 .none
  .none) .none)) (.node ⟨.follow, 35, 12, 32, 2, 0, false⟩ 11534482 (.node
  ⟨.run, 0, 38, 22, 3, 0, false⟩ 12632081 (.node ⟨.track, 29, 3, 34, 0, 5, false⟩ 27353219 .none
  .none) .none) (.node ⟨.track, 62, 1, 28, 0, 4, false⟩ 9502851 (.node
  ⟨.follow, 95, 22, 17, 2, 0, false⟩ 12668946 .none .none) .none))) (.node
  ⟨.come, 9, 22, 15, 5, 0, false⟩ 12583045 (.node ⟨.come, 31, 29, 34, 6, 0, false⟩ 20013237 (.node
  ⟨.track, 52, 15, 12, 0, 6, false⟩ 45187 (.node ⟨.track, 106, 33, 36, 0, 0, false⟩ 9515027 .none
  .none) .none) (.node ⟨.track, 61, 26, 33, 0, 4, false⟩ 16814211 (.node
  ⟨.track, 81, 10, 17, 0, 4, false⟩ 12669059 .none .none) .none)) (.node
  ⟨.come, 34, 22, 18, 5, 0, false⟩ 12628101 (.node ⟨.follow, 12, 1, 10, 4, 0, false⟩ 9486466 (.node
  ⟨.follow, 77, 35, 22, 2, 0, false⟩ 19972114 .none .none) .none) (.node
  ⟨.track, 30, 23, 7, 0, 6, false⟩ 23175299 .none .none))))) (.node ⟨.run, 0, 10, 11, 10, 0, false⟩
  12632209 (.node ⟨.run, 0, 17, 13, 7, 0, false⟩ 22106241 (.node ⟨.run, 0, 25, 8, 6, 0, false⟩
  8421505 (.node ⟨.come, 21, 7, 13, 7, 0, false⟩ 27349125 (.node ⟨.follow, 30, 23, 3, 3, 0, false⟩
  23175298 (.node ⟨.track, 96, 17, 38, 0, 0, false⟩ 22069267 .none .none) .none) (.node
  ⟨.follow, 36, 32, 12, 4, 0, false⟩ 45202 (.node ⟨.follow, 116, 49, 50, 4, 0, false⟩ 21041234
  .none .none) .none)) (.node ⟨.come, 33, 18, 22, 5, 0, false⟩ 11583509 (.node
  ⟨.follow, 61, 26, 1, 4, 0, false⟩ 16814210 (.node ⟨.come, 99, 35, 15, 5, 0, false⟩ 19923077 .none
  .none) .none) (.node ⟨.come, 67, 8, 12, 7, 0, false⟩ 8433813 (.node
  ⟨.track, 92, 46, 37, 0, 0, false⟩ 25231379 .none .none) .none))) (.node
  ⟨.come, 10, 15, 22, 6, 0, false⟩ 49173 (.node ⟨.follow, 29, 3, 23, 2, 0, false⟩ 27353218 (.node
  ⟨.come, 22, 13, 7, 10, 0, false⟩ 22126741 (.node ⟨.come, 104, 3, 28, 5, 0, false⟩ 27328533 .none
  .none) .none) (.node ⟨.follow, 81, 10, 13, 4, 0, false⟩ 12669058 (.node
  ⟨.come, 83, 28, 23, 5, 0, false⟩ 16867461 .none .none) .none)) (.node
  ⟨.follow, 40, 26, 8, 4, 0, false⟩ 16810114 (.node ⟨.track, 69, 22, 39, 0, 0, false⟩ 12619795
  (.node ⟨.follow, 65, 8, 1, 2, 0, false⟩ 8425602 .none .none) .none) (.node
  ⟨.track, 89, 8, 17, 0, 4, false⟩ 8474755 .none .none)))) (.node ⟨.run, 0, 20, 21, 3, 0, false⟩
  11579393 (.node ⟨.come, 7, 3, 17, 5, 0, false⟩ 27349013 (.node ⟨.follow, 24, 10, 8, 4, 0, false⟩
  12615810 (.node ⟨.follow, 51, 18, 15, 2, 0, false⟩ 11534466 (.node
  ⟨.come, 101, 18, 17, 5, 0, false⟩ 11620373 .none .none) .none) (.node
  ⟨.track, 65, 8, 33, 0, 4, false⟩ 8425603 (.node ⟨.track, 40, 26, 25, 0, 4, false⟩ 16810115 .none
  .none) .none)) (.node ⟨.come, 19, 1, 32, 9, 0, false⟩ 9437333 (.node
  ⟨.come, 41, 7, 1, 7, 0, false⟩ 27299973 (.node ⟨.track, 95, 22, 48, 0, 0, false⟩ 12668947 .none
  .none) .none) (.node ⟨.come, 74, 41, 40, 2, 0, false⟩ 14696485 (.node
  ⟨.track, 110, 13, 33, 0, 4, false⟩ 22057091 .none .none) .none))) (.node
  ⟨.come, 15, 26, 7, 10, 0, false⟩ 16883861 (.node ⟨.run, 0, 35, 29, 6, 0, false⟩ 20000897 (.node
  ⟨.follow, 56, 35, 25, 2, 0, false⟩ 19955730 (.node ⟨.come, 107, 23, 22, 6, 0, false⟩ 23117845
  .none .none) .none) (.node ⟨.follow, 82, 13, 10, 4, 0, false⟩ 22069378 (.node
  ⟨.follow, 105, 35, 33, 2, 0, false⟩ 19959826 .none .none) .none)) (.node
  ⟨.come, 26, 15, 33, 6, 0, false⟩ 36885 (.node ⟨.run, 0, 41, 42, 3, 0, false⟩ 14737441 (.node
  ⟨.come, 111, 26, 32, 10, 0, false⟩ 16777365 .none .none) .none) (.node
  ⟨.run, 0, 45, 46, 3, 0, false⟩ 25264145 .none .none))))))

/-- the bounds of the departures -/
def real6OneTimes : TimeTree :=
  .node 10 0 10 (.node 29 0 69 (.node 59 0 99 (.node 51 0 91 (.node 36 0 76 (.node 65 4 105 .none
  .none) (.node 72 4 112 .none .none)) (.node 57 0 97 (.node 5 0 45 .none .none) .none)) (.node 51
  4 91 (.node 47 0 87 (.node 46 0 86 .none .none) (.node 49 0 89 .none .none)) (.node 65 4 105
  (.node 42 0 82 .none .none) .none))) (.node 72 0 112 (.node 59 6 99 (.node 57 0 97 (.node 22 0 62
  .none .none) (.node 41 0 81 .none .none)) (.node 45 0 85 (.node 34 0 74 .none .none) .none))
  (.node 64 0 104 (.node 52 6 92 (.node 10 0 50 .none .none) (.node 54 7 94 .none .none)) (.node 53
  0 93 (.node 57 0 97 .none .none) .none)))) (.node 39 4 79 (.node 70 0 110 (.node 51 0 91 (.node
  44 4 84 (.node 27 0 67 .none .none) (.node 40 0 80 .none .none)) (.node 65 4 105 (.node 34 0 74
  .none .none) .none)) (.node 32 0 72 (.node 49 0 89 (.node 35 0 75 .none .none) (.node 51 0 91
  .none .none)) (.node 39 0 79 (.node 37 6 77 .none .none) .none))) (.node 75 6 115 (.node 41 0 81
  (.node 40 0 80 (.node 51 0 91 .none .none) (.node 42 0 82 .none .none)) (.node 46 0 86 (.node 37
  6 77 .none .none) .none)) (.node 76 4 116 (.node 34 0 74 (.node 17 0 57 .none .none) .none)
  (.node 61 0 101 (.node 65 0 105 .none .none) .none))))

/-- some of the cases -/
def real6OneCase0 : LooseTree :=
  .cases [] 12 (.cases [] 13 (.breaks 9474193 (.breaks 27369601 (.breaks 27353218 (.breaks 23154709
  (.breaks 23158801 (.breaks 22106241 (.breaks 22106257 (.leaf
  [43, 11, 27, 9, 0, 4, 42, 17, 16, 10, 8]) (.leaf [43, 11, 27, 9, 0, 4, 42, 17, 16, 10, 8]))
  (.leaf [43, 11, 27, 9, 0, 4, 42, 17, 16, 10, 8])) (.leaf
  [43, 11, 27, 9, 0, 4, 42, 17, 16, 10, 8])) (.leaf [43, 11, 27, 9, 0, 4, 42, 17, 16, 10, 8]))
  (.leaf [43, 11, 27, 9, 0, 4, 42, 17, 16, 10, 8])) (.leaf
  [43, 11, 27, 9, 0, 4, 42, 17, 16, 10, 8])) (.leaf [43, 11, 27, 9, 0, 4, 42, 17, 16, 10, 8]))
  (.breaks 12619906 (.breaks 9437317 (.breaks 9474193 (.breaks 17 (.breaks 32789 (.breaks 8421505
  (.breaks 8495253 (.breaks 27369601 (.breaks 27353218 (.breaks 23154709 (.breaks 23158801 (.breaks
  22106241 (.breaks 22106257 (.leaf [47, 27, 39, 0, 9, 41, 18, 11, 4, 42, 17, 16, 10, 8]) (.leaf
  [47, 27, 39, 0, 9, 41, 18, 11, 4, 42, 17, 16, 10, 8])) (.leaf
  [47, 27, 39, 0, 9, 41, 18, 11, 4, 42, 17, 16, 10, 8])) (.leaf
  [47, 27, 39, 0, 9, 41, 18, 11, 4, 42, 17, 16, 10, 8])) (.leaf
  [47, 27, 39, 0, 9, 41, 18, 11, 4, 42, 17, 16, 10, 8])) (.leaf
  [47, 27, 39, 0, 9, 41, 18, 11, 4, 42, 17, 16, 10, 8])) (.leaf
  [47, 27, 39, 0, 9, 41, 18, 11, 4, 42, 17, 16, 10, 8])) (.leaf
  [47, 27, 39, 0, 9, 41, 18, 11, 4, 42, 17, 16, 10, 8])) (.leaf
  [47, 27, 39, 0, 9, 41, 18, 11, 4, 42, 17, 16, 10, 8])) (.leaf
  [47, 27, 39, 0, 9, 41, 18, 11, 4, 42, 17, 16, 10, 8])) (.leaf
  [47, 27, 39, 0, 9, 41, 18, 11, 4, 42, 17, 16, 10, 8])) (.leaf
  [47, 27, 39, 0, 9, 41, 18, 11, 4, 42, 17, 16, 10, 8])) (.leaf
  [47, 27, 39, 0, 9, 41, 18, 11, 4, 42, 17, 16, 10, 8])) (.leaf
  [47, 27, 39, 0, 9, 41, 18, 11, 4, 42, 17, 16, 10, 8]))) (.breaks 8495253 (.breaks 12583045
  (.breaks 36885 (.breaks 27369601 (.breaks 9474177 (.breaks 27353218 (.breaks 9474193 (.breaks
  23154709 (.breaks 23158801 (.breaks 22106241 (.breaks 22106257 (.leaf
  [11, 28, 9, 62, 4, 35, 42, 0, 17, 16, 10, 8]) (.leaf
  [11, 28, 9, 62, 4, 35, 42, 0, 17, 16, 10, 8])) (.leaf
  [11, 28, 9, 62, 4, 35, 42, 0, 17, 16, 10, 8])) (.leaf
  [11, 28, 9, 62, 4, 35, 42, 0, 17, 16, 10, 8])) (.leaf
  [11, 28, 9, 62, 4, 35, 42, 0, 17, 16, 10, 8])) (.leaf
  [11, 28, 9, 62, 4, 35, 42, 0, 17, 16, 10, 8])) (.leaf
  [11, 28, 62, 4, 35, 42, 1, 0, 17, 16, 2, 10, 3, 8])) (.leaf
  [11, 28, 9, 62, 4, 35, 42, 0, 17, 16, 10, 8])) (.leaf
  [11, 28, 9, 62, 4, 35, 42, 1, 0, 17, 16, 2, 10, 3, 8])) (.leaf
  [11, 28, 9, 62, 4, 35, 42, 0, 17, 16, 10, 8])) (.leaf
  [11, 28, 62, 4, 35, 42, 1, 0, 17, 16, 2, 10, 3, 8])) (.leaf
  [11, 28, 9, 62, 4, 35, 42, 1, 0, 17, 16, 2, 10, 3, 8]))

/-- some of the cases -/
def real6OneCase1 : LooseTree :=
  .cases [] 25 (.cases [] 13 (.breaks 8495253 (.breaks 27369601 (.breaks 27353218 (.breaks 27369489
  (.breaks 23154709 (.breaks 23158801 (.breaks 27369505 (.breaks 22106241 (.breaks 27369473
  (.breaks 22106257 (.leaf [43, 11, 7, 9, 0, 4, 42, 1, 17, 16, 2, 10, 3, 8]) (.leaf
  [43, 11, 7, 9, 0, 4, 42, 1, 17, 16, 2, 10, 3, 8])) (.leaf
  [43, 11, 7, 9, 0, 92, 4, 6, 42, 17, 16, 10, 8])) (.leaf
  [43, 11, 7, 9, 0, 4, 42, 1, 17, 16, 2, 10, 3, 8])) (.leaf
  [43, 11, 7, 9, 0, 92, 4, 6, 42, 17, 16, 10, 8])) (.leaf
  [43, 11, 7, 9, 0, 4, 42, 1, 17, 16, 2, 10, 3, 8])) (.leaf
  [43, 11, 7, 9, 0, 4, 42, 1, 17, 16, 2, 10, 3, 8])) (.leaf
  [43, 11, 7, 9, 0, 92, 4, 6, 42, 17, 16, 10, 8])) (.leaf
  [43, 11, 7, 9, 0, 4, 42, 1, 17, 16, 2, 10, 3, 8])) (.leaf
  [43, 11, 7, 9, 0, 4, 42, 1, 17, 16, 2, 10, 3, 8])) (.leaf
  [43, 11, 7, 9, 0, 4, 42, 1, 17, 16, 2, 10, 3, 8])) (.breaks 11534466 (.breaks 32789 (.breaks
  9474193 (.breaks 8421505 (.breaks 8421521 (.breaks 8495253 (.breaks 27369601 (.breaks 27353218
  (.breaks 23154709 (.breaks 23158801 (.breaks 22106241 (.breaks 22106257 (.leaf
  [7, 70, 9, 41, 0, 18, 5, 11, 4, 42, 17, 16, 10, 8]) (.leaf
  [7, 70, 9, 41, 0, 18, 5, 11, 4, 42, 17, 16, 10, 8])) (.leaf
  [7, 70, 9, 41, 0, 18, 5, 11, 4, 42, 17, 16, 10, 8])) (.leaf
  [7, 70, 9, 41, 0, 18, 5, 11, 4, 42, 17, 16, 10, 8])) (.leaf
  [7, 70, 9, 41, 0, 18, 5, 11, 4, 42, 17, 16, 10, 8])) (.leaf
  [7, 70, 9, 41, 0, 18, 5, 11, 4, 42, 17, 16, 10, 8])) (.leaf
  [7, 70, 9, 41, 0, 18, 5, 11, 4, 42, 17, 16, 10, 8])) (.leaf
  [7, 70, 9, 41, 0, 18, 5, 11, 4, 42, 17, 16, 10, 8])) (.leaf
  [7, 70, 9, 41, 0, 18, 5, 11, 4, 42, 17, 16, 10, 8])) (.leaf
  [7, 70, 9, 41, 0, 18, 11, 4, 42, 1, 17, 16, 2, 10, 3, 8])) (.leaf
  [7, 70, 9, 41, 0, 18, 5, 11, 4, 42, 17, 16, 10, 8])) (.leaf
  [7, 70, 9, 41, 0, 18, 11, 4, 42, 1, 17, 16, 2, 10, 3, 8])) (.leaf
  [7, 70, 9, 41, 0, 18, 11, 4, 42, 1, 17, 16, 2, 10, 3, 8]))) (.breaks 9486467 (.breaks 12583045
  (.breaks 45187 (.cycle 12 [7, 73, 28, 76]) (.cycle 12 [7, 73, 28, 76])) (.cycle 12
  [7, 73, 28, 76])) (.cycle 22 [28, 76, 7, 73]))

/-- some of the cases -/
def real6OneCase2 : LooseTree :=
  .breaks 11571333 (.breaks 19955730 (.breaks 8421505 (.breaks 9474193 (.breaks 8495253 (.breaks
  27369601 (.breaks 27353218 (.breaks 27369489 (.breaks 23154709 (.breaks 23158801 (.breaks
  27369505 (.breaks 22106241 (.breaks 27369473 (.breaks 22106257 (.leaf
  [7, 78, 18, 0, 11, 4, 42, 1, 17, 16, 2, 10, 3, 8]) (.leaf
  [7, 78, 18, 0, 5, 11, 4, 42, 1, 17, 16, 2, 10, 3, 8])) (.leaf
  [7, 78, 18, 0, 5, 11, 4, 42, 1, 17, 16, 2, 10, 3, 8])) (.leaf
  [7, 78, 18, 0, 5, 11, 4, 42, 1, 17, 16, 2, 10, 3, 8])) (.leaf
  [7, 78, 18, 0, 5, 11, 4, 42, 1, 17, 16, 2, 10, 3, 8])) (.leaf
  [7, 78, 18, 0, 5, 11, 4, 42, 1, 17, 16, 2, 10, 3, 8])) (.leaf
  [7, 78, 18, 0, 5, 11, 4, 42, 1, 17, 16, 2, 10, 3, 8])) (.leaf
  [7, 78, 18, 0, 5, 11, 4, 42, 1, 17, 16, 2, 10, 3, 8])) (.leaf
  [7, 78, 18, 0, 5, 11, 4, 42, 1, 17, 16, 2, 10, 3, 8])) (.leaf
  [7, 78, 18, 0, 5, 11, 4, 42, 1, 17, 16, 2, 10, 3, 8])) (.leaf
  [7, 78, 18, 0, 5, 11, 4, 42, 1, 17, 16, 2, 10, 3, 8])) (.leaf
  [7, 78, 18, 0, 5, 11, 4, 42, 1, 17, 16, 2, 10, 3, 8])) (.leaf
  [7, 78, 18, 0, 5, 11, 4, 42, 1, 17, 16, 2, 10, 3, 8])) (.leaf
  [7, 78, 18, 0, 5, 11, 4, 42, 1, 17, 16, 2, 10, 3, 8])) (.leaf
  [7, 78, 18, 0, 5, 11, 4, 42, 1, 17, 16, 2, 10, 3, 8])

/-- some of the cases -/
def real6OneCase3 : LooseTree :=
  .cases [] 11 (.cases [] 6 (.breaks 27353218 (.breaks 23154709 (.breaks 23158801 (.breaks 22106241
  (.breaks 22106257 (.leaf [11, 7, 0, 40, 4, 6, 42, 17, 16, 10, 8]) (.leaf
  [11, 7, 0, 40, 4, 6, 42, 17, 16, 10, 8])) (.leaf [11, 7, 0, 40, 4, 6, 42, 17, 16, 10, 8])) (.leaf
  [11, 7, 0, 40, 4, 6, 42, 17, 16, 10, 8])) (.leaf [11, 7, 0, 40, 4, 6, 42, 17, 16, 10, 8])) (.leaf
  [11, 7, 0, 40, 4, 6, 42, 17, 16, 10, 8])) (.breaks 12632209 (.breaks 12689557 (.breaks 27369601
  (.breaks 27353218 (.breaks 23154709 (.breaks 23158801 (.breaks 22106241 (.breaks 22106257 (.leaf
  [49, 7, 0, 15, 6, 29, 4, 42, 17, 16, 10, 8]) (.leaf [49, 7, 0, 15, 6, 29, 4, 42, 17, 16, 10, 8]))
  (.leaf [49, 7, 0, 15, 6, 29, 4, 42, 17, 16, 10, 8])) (.leaf
  [49, 7, 0, 15, 6, 29, 4, 42, 17, 16, 10, 8])) (.leaf
  [49, 7, 0, 15, 6, 29, 4, 42, 17, 16, 10, 8])) (.leaf
  [49, 7, 0, 15, 6, 29, 4, 42, 17, 16, 10, 8])) (.leaf
  [49, 7, 0, 15, 6, 29, 4, 42, 17, 16, 10, 8])) (.leaf
  [49, 7, 0, 15, 6, 29, 4, 42, 17, 16, 10, 8])) (.leaf
  [49, 7, 0, 15, 6, 29, 4, 42, 17, 16, 10, 8]))) (.breaks 49173 (.breaks 11571333 (.breaks 9474193
  (.breaks 12632193 (.breaks 12615810 (.breaks 12632209 (.breaks 8421521 (.breaks 8495253 (.breaks
  27369601 (.breaks 27353218 (.breaks 23154709 (.breaks 23158801 (.breaks 22106241 (.breaks
  22106257 (.leaf [26, 7, 0, 15, 38, 6, 5, 11, 4, 42, 17, 16, 10, 8]) (.leaf
  [26, 7, 0, 15, 38, 6, 11, 4, 42, 1, 17, 16, 2, 10, 3, 8])) (.leaf
  [26, 7, 0, 15, 38, 6, 11, 4, 42, 1, 17, 16, 2, 10, 3, 8])) (.leaf
  [26, 7, 0, 15, 38, 6, 11, 4, 42, 1, 17, 16, 2, 10, 3, 8])) (.leaf
  [26, 7, 0, 15, 38, 6, 11, 4, 42, 1, 17, 16, 2, 10, 3, 8])) (.leaf
  [26, 7, 0, 15, 38, 6, 11, 4, 42, 1, 17, 16, 2, 10, 3, 8])) (.leaf
  [26, 7, 0, 15, 38, 6, 11, 4, 42, 1, 17, 16, 2, 10, 3, 8])) (.leaf
  [26, 7, 0, 15, 38, 6, 11, 4, 42, 1, 17, 16, 2, 10, 3, 8])) (.leaf
  [26, 7, 0, 15, 38, 6, 11, 4, 42, 1, 17, 16, 2, 10, 3, 8])) (.leaf
  [26, 7, 0, 15, 38, 6, 11, 4, 42, 1, 17, 16, 2, 10, 3, 8])) (.leaf
  [26, 7, 0, 15, 38, 6, 11, 4, 42, 1, 17, 16, 2, 10, 3, 8])) (.leaf
  [26, 7, 0, 15, 38, 6, 11, 4, 42, 1, 17, 16, 2, 10, 3, 8])) (.leaf
  [26, 7, 0, 15, 38, 6, 11, 4, 42, 1, 17, 16, 2, 10, 3, 8])) (.leaf
  [26, 7, 0, 15, 38, 6, 11, 4, 42, 1, 17, 16, 2, 10, 3, 8])) (.leaf
  [26, 7, 0, 15, 38, 6, 11, 4, 42, 1, 17, 16, 2, 10, 3, 8]))

/-- some of the cases -/
def real6OneCase4 : LooseTree :=
  .breaks 19959827 (.leaf [173]) (.leaf [174, 44, 35, 45, 0, 16, 66, 22, 1, 10, 2, 8, 3])

/-- some of the cases -/
def real6OneCase5 : LooseTree :=
  .cases [] 13 (.breaks 12619906 (.breaks 20013237 (.breaks 17 (.breaks 9474193 (.breaks 23158913
  (.breaks 23158801 (.breaks 23175298 (.breaks 27349013 (.breaks 22106241 (.breaks 22106257 (.leaf
  [43, 27, 44, 9, 0, 45, 16, 66, 22, 10, 8]) (.leaf [43, 27, 44, 9, 0, 45, 16, 66, 22, 10, 8]))
  (.leaf [43, 27, 44, 9, 0, 45, 16, 66, 22, 10, 8])) (.leaf
  [43, 27, 44, 9, 0, 45, 16, 66, 22, 10, 8])) (.leaf [43, 27, 44, 9, 0, 45, 16, 66, 22, 10, 8]))
  (.leaf [43, 27, 44, 9, 0, 45, 16, 66, 22, 10, 8])) (.leaf
  [43, 27, 44, 9, 0, 45, 16, 66, 22, 1, 10, 2, 8, 3])) (.leaf
  [43, 27, 44, 9, 0, 45, 16, 66, 22, 10, 8])) (.leaf [43, 27, 44, 9, 0, 45, 16, 66, 22, 10, 8]))
  (.leaf [43, 27, 44, 9, 0, 45, 16, 66, 22, 1, 10, 2, 8, 3])) (.leaf
  [43, 27, 44, 9, 0, 45, 16, 66, 22, 10, 8])) (.breaks 12619907 (.breaks 12619906 (.breaks 9437317
  (.breaks 9474193 (.breaks 17 (.breaks 32789 (.breaks 8421505 (.breaks 8421521 (.breaks 8495253
  (.breaks 27369601 (.breaks 27349013 (.breaks 27369489 (.breaks 22106241 (.breaks 27369505
  (.breaks 22106257 (.breaks 27369473 (.leaf
  [47, 27, 39, 0, 9, 41, 18, 5, 11, 4, 22, 1, 10, 2, 8, 3]) (.leaf [47, 27, 44, 39, 0, 45, 9, 41,
  16, 18, 11, 4, 22, 1, 10, 2, 8, 3])) (.leaf [47, 27, 44, 39, 0, 45, 9, 41, 16, 18, 11, 4, 22, 1,
  10, 2, 8, 3])) (.leaf [47, 27, 44, 39, 0, 45, 9, 41, 16, 18, 11, 4, 22, 1, 10, 2, 8, 3])) (.leaf
  [47, 27, 44, 39, 0, 45, 9, 41, 16, 18, 11, 4, 22, 1, 10, 2, 8, 3])) (.leaf [47, 27, 44, 39, 0,
  45, 9, 41, 16, 18, 11, 4, 22, 1, 10, 2, 8, 3])) (.leaf [47, 27, 44, 39, 0, 45, 9, 41, 16, 18, 11,
  4, 22, 1, 10, 2, 8, 3])) (.leaf [47, 27, 44, 39, 0, 45, 9, 16, 66, 22, 1, 10, 2, 8, 3])) (.leaf
  [47, 27, 44, 39, 0, 45, 9, 16, 66, 22, 1, 10, 2, 8, 3])) (.leaf [47, 27, 44, 39, 0, 45, 9, 41,
  16, 18, 11, 4, 22, 1, 10, 2, 8, 3])) (.leaf
  [47, 27, 44, 39, 0, 45, 9, 16, 66, 22, 1, 10, 2, 8, 3])) (.leaf
  [47, 27, 44, 39, 0, 45, 9, 16, 66, 22, 1, 10, 2, 8, 3])) (.leaf [47, 27, 44, 39, 0, 45, 9, 41,
  16, 18, 11, 4, 22, 1, 10, 2, 8, 3])) (.leaf [47, 27, 44, 39, 0, 45, 9, 41, 16, 18, 11, 4, 22, 1,
  10, 2, 8, 3])) (.leaf [47, 27, 44, 39, 0, 45, 9, 16, 66, 22, 1, 10, 2, 8, 3])) (.leaf [47, 27,
  44, 39, 0, 45, 9, 41, 16, 18, 11, 4, 22, 1, 10, 2, 8, 3])) (.leaf
  [90, 27, 96, 0, 39, 9, 41, 18, 5, 11, 4, 22, 1, 10, 2, 8, 3]))

/-- some of the cases -/
def real6OneCase6 : LooseTree :=
  .breaks 9474177 (.breaks 9474193 (.breaks 20013237 (.breaks 23158913 (.breaks 23158801 (.breaks
  23175298 (.breaks 27349013 (.breaks 27369489 (.breaks 22106241 (.breaks 27369505 (.breaks
  22106257 (.breaks 27369473 (.leaf [28, 62, 35, 140, 0, 63, 46, 44, 45, 16, 66, 22, 1, 10, 2, 8,
  3]) (.leaf [28, 62, 35, 140, 0, 63, 46, 44, 45, 16, 66, 22, 1, 10, 2, 8, 3])) (.leaf [28, 62, 35,
  140, 0, 63, 46, 44, 45, 16, 66, 22, 1, 10, 2, 8, 3])) (.leaf [28, 62, 35, 140, 0, 63, 46, 44, 45,
  16, 66, 22, 1, 10, 2, 8, 3])) (.leaf [28, 62, 35, 140, 0, 63, 46, 44, 45, 16, 66, 22, 1, 10, 2,
  8, 3])) (.leaf [28, 62, 35, 140, 0, 63, 46, 44, 45, 16, 66, 22, 1, 10, 2, 8, 3])) (.leaf [28, 62,
  35, 140, 0, 63, 46, 44, 45, 16, 66, 22, 1, 10, 2, 8, 3])) (.leaf [28, 62, 35, 140, 0, 63, 46, 44,
  45, 16, 66, 22, 1, 10, 2, 8, 3])) (.leaf [28, 62, 35, 140, 0, 63, 46, 44, 45, 16, 66, 22, 1, 10,
  2, 8, 3])) (.leaf [28, 62, 35, 140, 0, 63, 46, 44, 45, 16, 66, 22, 1, 10, 2, 8, 3])) (.leaf [28,
  62, 35, 140, 0, 63, 46, 44, 45, 16, 66, 22, 1, 10, 2, 8, 3])) (.leaf [28, 62, 35, 140, 0, 63, 46,
  44, 45, 16, 66, 22, 1, 10, 2, 8, 3])) (.leaf [28, 62, 35, 140, 0, 63, 46, 44, 45, 16, 66, 22, 1,
  10, 2, 8, 3])

/-- some of the cases -/
def real6OneCase7 : LooseTree :=
  .cases [] 9 (.breaks 20013237 (.breaks 9437333 (.breaks 9474193 (.breaks 23158913 (.breaks 129
  (.breaks 23158801 (.breaks 23175298 (.breaks 17 (.breaks 27349013 (.breaks 22106241 (.breaks
  22106257 (.leaf [7, 44, 54, 0, 45, 36, 16, 66, 9, 22, 10, 8]) (.leaf
  [7, 44, 54, 0, 45, 36, 16, 66, 9, 22, 10, 8])) (.leaf
  [7, 44, 54, 0, 45, 36, 16, 66, 9, 22, 10, 8])) (.leaf
  [7, 44, 54, 0, 45, 36, 16, 66, 9, 22, 10, 8])) (.leaf
  [7, 44, 54, 0, 45, 36, 16, 66, 9, 22, 10, 8])) (.leaf
  [7, 44, 54, 0, 45, 36, 16, 66, 9, 22, 10, 8])) (.leaf
  [7, 44, 54, 0, 45, 36, 16, 66, 9, 22, 10, 8])) (.leaf
  [7, 44, 54, 0, 45, 36, 16, 66, 9, 22, 10, 8])) (.leaf
  [7, 44, 54, 0, 45, 36, 16, 66, 9, 22, 10, 8])) (.leaf
  [7, 44, 54, 0, 45, 36, 16, 66, 9, 22, 10, 8])) (.leaf
  [7, 44, 54, 0, 45, 36, 16, 66, 9, 22, 10, 8])) (.leaf
  [7, 44, 54, 0, 45, 36, 16, 66, 9, 22, 10, 8])) (.cases [] 13 (.breaks 20013237 (.breaks 23158913
  (.breaks 23158801 (.breaks 23175298 (.breaks 27349013 (.breaks 27369489 (.breaks 22106241
  (.breaks 27369505 (.breaks 22106257 (.breaks 27369473 (.leaf
  [43, 71, 44, 33, 9, 45, 0, 16, 66, 22, 1, 10, 2, 8, 3]) (.leaf
  [43, 71, 44, 33, 9, 45, 0, 92, 16, 66, 6, 22, 10, 8])) (.leaf
  [43, 71, 44, 33, 9, 45, 0, 16, 66, 22, 1, 10, 2, 8, 3])) (.leaf
  [43, 71, 44, 33, 9, 45, 0, 92, 16, 66, 6, 22, 10, 8])) (.leaf
  [43, 71, 44, 33, 9, 45, 0, 16, 66, 22, 1, 10, 2, 8, 3])) (.leaf
  [43, 71, 44, 33, 9, 45, 0, 92, 16, 66, 6, 22, 10, 8])) (.leaf
  [43, 71, 44, 33, 9, 45, 0, 16, 66, 22, 1, 10, 2, 8, 3])) (.leaf
  [43, 71, 44, 33, 9, 45, 0, 92, 16, 66, 6, 22, 10, 8])) (.leaf
  [43, 71, 44, 33, 9, 45, 0, 16, 66, 22, 1, 10, 2, 8, 3])) (.leaf
  [43, 71, 44, 33, 9, 45, 0, 16, 66, 22, 1, 10, 2, 8, 3])) (.leaf
  [43, 71, 44, 33, 9, 45, 0, 16, 66, 22, 1, 10, 2, 8, 3])) (.breaks 11534466 (.breaks 32789
  (.breaks 23158913 (.breaks 8421505 (.breaks 9474193 (.breaks 23158801 (.breaks 8421521 (.breaks
  8495253 (.breaks 27369601 (.breaks 27349013 (.breaks 27369489 (.breaks 22106241 (.breaks 27369505
  (.breaks 22106257 (.breaks 27369473 (.leaf [71, 70, 44, 33, 9, 41, 45, 18, 0, 16, 5, 11, 4, 22,
  1, 10, 2, 8, 3]) (.leaf [71, 70, 44, 33, 9, 41, 45, 18, 0, 16, 5, 11, 4, 22, 1, 10, 2, 8, 3]))
  (.leaf [71, 70, 44, 33, 9, 41, 45, 18, 0, 16, 5, 11, 4, 22, 1, 10, 2, 8, 3])) (.leaf [71, 70, 44,
  33, 9, 41, 45, 18, 0, 16, 5, 11, 4, 22, 1, 10, 2, 8, 3])) (.leaf [71, 70, 44, 33, 9, 41, 45, 18,
  0, 16, 5, 11, 4, 22, 1, 10, 2, 8, 3])) (.leaf [71, 70, 44, 33, 9, 41, 45, 18, 0, 16, 5, 11, 4,
  22, 1, 10, 2, 8, 3])) (.leaf [71, 70, 44, 33, 9, 41, 45, 18, 0, 16, 5, 11, 4, 22, 1, 10, 2, 8,
  3])) (.leaf [71, 70, 44, 33, 9, 45, 0, 92, 16, 66, 6, 22, 1, 10, 2, 8, 3])) (.leaf
  [71, 70, 44, 33, 9, 45, 0, 92, 16, 66, 6, 22, 1, 10, 2, 8, 3])) (.leaf [71, 70, 44, 33, 9, 41,
  45, 18, 0, 16, 5, 11, 4, 22, 1, 10, 2, 8, 3])) (.leaf [71, 70, 44, 33, 9, 41, 45, 18, 0, 16, 5,
  11, 4, 22, 1, 10, 2, 8, 3])) (.leaf [71, 70, 44, 33, 9, 41, 45, 18, 0, 16, 5, 11, 4, 22, 1, 10,
  2, 8, 3])) (.leaf [71, 70, 44, 33, 9, 45, 0, 92, 16, 66, 6, 22, 1, 10, 2, 8, 3])) (.leaf [71, 70,
  44, 33, 9, 41, 45, 18, 0, 16, 5, 11, 4, 22, 1, 10, 2, 8, 3])) (.leaf
  [71, 70, 44, 33, 9, 45, 0, 92, 16, 66, 6, 22, 1, 10, 2, 8, 3])) (.leaf [71, 44, 33, 45, 0, 73,
  16, 28, 9, 41, 18, 5, 11, 4, 22, 1, 10, 2, 8, 3])))

/-- some of the cases -/
def real6OneCase8 : LooseTree :=
  .breaks 9486467 (.breaks 12583045 (.breaks 45187 (.cycle 12 [7, 73, 28, 76]) (.cycle 12
  [7, 73, 28, 76])) (.cycle 12 [7, 73, 28, 76])) (.cycle 22 [28, 76, 7, 73])

/-- some of the cases -/
def real6OneCase9 : LooseTree :=
  .cases [] 6 (.breaks 23158913 (.breaks 23175299 (.breaks 23175298 (.breaks 27312261 (.breaks
  27349013 (.breaks 12632209 (.breaks 22106241 (.breaks 22106257 (.leaf
  [7, 44, 0, 45, 16, 124, 66, 40, 22, 6, 10, 8]) (.leaf
  [7, 44, 0, 45, 16, 124, 66, 40, 22, 6, 10, 8])) (.leaf
  [7, 44, 0, 45, 16, 124, 66, 40, 22, 6, 10, 8])) (.leaf
  [7, 44, 0, 45, 16, 124, 66, 40, 22, 6, 10, 8])) (.leaf
  [7, 44, 0, 45, 16, 124, 66, 40, 22, 6, 10, 8])) (.leaf
  [7, 44, 0, 45, 16, 124, 66, 40, 22, 6, 10, 8])) (.leaf
  [7, 44, 0, 45, 16, 124, 66, 40, 22, 6, 10, 8])) (.leaf
  [11, 7, 44, 0, 45, 40, 6, 16, 66, 22, 10, 8])) (.leaf
  [11, 7, 44, 0, 45, 40, 6, 16, 66, 22, 10, 8])) (.cases [] 11 (.breaks 8437891 (.breaks 9474193
  (.breaks 12632193 (.breaks 12632209 (.breaks 12689557 (.breaks 27369601 (.breaks 27349013
  (.breaks 27369489 (.breaks 22106241 (.breaks 27369505 (.breaks 22106257 (.breaks 27369473 (.leaf
  [49, 7, 0, 15, 6, 29, 4, 22, 1, 10, 2, 8, 3]) (.leaf
  [49, 7, 0, 15, 6, 29, 4, 22, 1, 10, 2, 8, 3])) (.leaf
  [49, 7, 0, 15, 6, 29, 4, 22, 1, 10, 2, 8, 3])) (.leaf
  [49, 7, 0, 15, 6, 29, 4, 22, 1, 10, 2, 8, 3])) (.leaf
  [49, 7, 0, 15, 6, 29, 4, 22, 1, 10, 2, 8, 3])) (.leaf
  [49, 7, 0, 15, 6, 29, 4, 22, 1, 10, 2, 8, 3])) (.leaf
  [49, 7, 0, 15, 6, 29, 4, 22, 1, 10, 2, 8, 3])) (.leaf
  [49, 7, 44, 0, 15, 45, 6, 29, 16, 4, 22, 1, 10, 2, 8, 3])) (.leaf
  [49, 7, 44, 0, 15, 45, 6, 29, 16, 4, 22, 1, 10, 2, 8, 3])) (.leaf
  [49, 7, 0, 15, 6, 29, 4, 22, 1, 10, 2, 8, 3])) (.leaf
  [109, 7, 44, 0, 6, 29, 45, 16, 4, 22, 1, 10, 2, 8, 3])) (.leaf
  [49, 7, 0, 15, 6, 29, 4, 22, 1, 10, 2, 8, 3])) (.leaf
  [109, 7, 44, 0, 6, 29, 45, 16, 4, 22, 1, 10, 2, 8, 3])) (.breaks 12632193 (.breaks 12615810
  (.breaks 12632209 (.breaks 8421521 (.breaks 8495253 (.breaks 27369601 (.breaks 27349013 (.breaks
  27369489 (.breaks 22106241 (.breaks 27369505 (.breaks 22106257 (.breaks 27369473 (.leaf
  [7, 50, 0, 15, 38, 6, 5, 11, 4, 22, 1, 10, 2, 8, 3]) (.leaf
  [7, 50, 0, 15, 38, 6, 5, 11, 4, 22, 1, 10, 2, 8, 3])) (.leaf
  [7, 50, 0, 15, 38, 6, 5, 11, 4, 22, 1, 10, 2, 8, 3])) (.leaf
  [7, 50, 0, 15, 38, 6, 5, 11, 4, 22, 1, 10, 2, 8, 3])) (.leaf
  [7, 50, 0, 15, 38, 6, 5, 11, 4, 22, 1, 10, 2, 8, 3])) (.leaf
  [7, 50, 0, 15, 38, 6, 5, 11, 4, 22, 1, 10, 2, 8, 3])) (.leaf
  [7, 50, 0, 15, 38, 6, 5, 11, 4, 22, 1, 10, 2, 8, 3])) (.leaf
  [7, 50, 0, 15, 38, 6, 5, 11, 4, 22, 1, 10, 2, 8, 3])) (.leaf
  [7, 50, 0, 15, 38, 6, 5, 11, 4, 22, 1, 10, 2, 8, 3])) (.leaf
  [7, 50, 0, 15, 38, 6, 5, 11, 4, 22, 1, 10, 2, 8, 3])) (.leaf
  [7, 50, 0, 15, 38, 6, 5, 11, 4, 22, 1, 10, 2, 8, 3])) (.leaf
  [7, 50, 0, 15, 38, 6, 5, 11, 4, 22, 1, 10, 2, 8, 3])) (.leaf
  [7, 50, 0, 15, 38, 6, 5, 11, 4, 22, 1, 10, 2, 8, 3])))

/-- some of the cases -/
def real6OneCase10 : LooseTree :=
  .breaks 49173 (.breaks 11571333 (.breaks 20013237 (.breaks 9474193 (.breaks 12628101 (.breaks
  12632193 (.breaks 23158913 (.breaks 11579409 (.breaks 12632209 (.breaks 23158801 (.breaks
  23175298 (.breaks 11579425 (.breaks 27349013 (.breaks 11579393 (.breaks 22106241 (.breaks
  22106257 (.leaf [26, 7, 44, 0, 60, 15, 45, 12, 6, 16, 66, 13, 22, 14, 10, 8]) (.leaf [26, 7, 44,
  0, 60, 15, 45, 12, 6, 16, 66, 13, 22, 1, 14, 10, 2, 8, 3])) (.leaf [26, 7, 44, 0, 60, 15, 45, 12,
  6, 16, 66, 13, 22, 1, 14, 10, 2, 8, 3])) (.leaf [26, 7, 44, 0, 60, 15, 45, 12, 6, 16, 66, 13, 22,
  1, 14, 10, 2, 8, 3])) (.leaf [26, 7, 44, 0, 60, 15, 45, 12, 6, 16, 66, 13, 22, 1, 14, 10, 2, 8,
  3])) (.leaf [26, 7, 44, 0, 60, 15, 45, 12, 6, 16, 66, 13, 22, 1, 14, 10, 2, 8, 3])) (.leaf [26,
  7, 44, 0, 60, 15, 45, 12, 6, 16, 66, 13, 22, 1, 14, 10, 2, 8, 3])) (.leaf [26, 7, 44, 0, 60, 15,
  45, 12, 6, 16, 66, 13, 22, 1, 14, 10, 2, 8, 3])) (.leaf [26, 7, 44, 0, 60, 15, 45, 12, 6, 16, 66,
  13, 22, 1, 14, 10, 2, 8, 3])) (.leaf [26, 7, 44, 0, 60, 15, 45, 12, 6, 16, 66, 13, 22, 1, 14, 10,
  2, 8, 3])) (.leaf [26, 7, 44, 0, 60, 15, 45, 12, 6, 16, 66, 13, 22, 1, 14, 10, 2, 8, 3])) (.leaf
  [26, 7, 44, 0, 60, 15, 45, 12, 6, 16, 66, 13, 22, 1, 14, 10, 2, 8, 3])) (.leaf [26, 7, 44, 0, 60,
  15, 45, 12, 6, 16, 66, 13, 22, 1, 14, 10, 2, 8, 3])) (.leaf [26, 7, 44, 0, 60, 15, 45, 12, 6, 16,
  66, 13, 22, 1, 14, 10, 2, 8, 3])) (.leaf [26, 7, 44, 0, 60, 15, 45, 12, 6, 16, 66, 13, 22, 1, 14,
  10, 2, 8, 3])) (.leaf [26, 7, 44, 0, 60, 15, 45, 12, 6, 16, 66, 13, 22, 1, 14, 10, 2, 8, 3]))
  (.leaf [26, 7, 44, 0, 60, 15, 45, 12, 6, 16, 66, 13, 22, 1, 14, 10, 2, 8, 3])

/-- some of the cases -/
def real6OneCase11 : LooseTree :=
  .cases [] 4 (.cases [] 5 (.breaks 9474193 (.breaks 23158913 (.breaks 23154709 (.breaks 23158801
  (.breaks 22106241 (.breaks 22126725 (.breaks 22106257 (.breaks 27369489 (.breaks 27369505
  (.breaks 27369473 (.leaf [27, 44, 0, 45, 17, 16, 10, 48, 8, 1, 2, 3]) (.leaf
  [27, 44, 0, 45, 17, 16, 10, 48, 8, 1, 2, 3])) (.leaf
  [27, 44, 0, 45, 17, 16, 10, 48, 8, 1, 2, 3])) (.leaf
  [27, 44, 0, 45, 17, 16, 10, 48, 8, 1, 2, 3])) (.leaf
  [27, 44, 0, 45, 17, 16, 10, 48, 8, 1, 2, 3])) (.leaf
  [27, 44, 0, 45, 17, 16, 10, 48, 8, 1, 2, 3])) (.leaf
  [27, 44, 0, 45, 17, 16, 10, 48, 8, 1, 2, 3])) (.leaf
  [27, 44, 0, 45, 17, 16, 10, 48, 8, 1, 2, 3])) (.leaf
  [27, 44, 0, 45, 17, 16, 10, 48, 8, 1, 2, 3])) (.leaf
  [27, 44, 0, 45, 17, 16, 10, 48, 8, 1, 2, 3])) (.leaf
  [27, 44, 0, 45, 17, 16, 10, 48, 8, 1, 2, 3])) (.breaks 20013237 (.breaks 23158913 (.breaks
  12583045 (.breaks 23154709 (.breaks 23158801 (.breaks 17 (.breaks 22106241 (.breaks 22126725
  (.breaks 22106257 (.breaks 27369489 (.breaks 27369505 (.breaks 27369473 (.leaf
  [7, 44, 0, 73, 45, 28, 17, 16, 9, 10, 48, 8, 1, 2, 3]) (.leaf
  [7, 44, 0, 73, 45, 28, 17, 16, 9, 10, 48, 8, 1, 2, 3])) (.leaf
  [7, 44, 0, 73, 45, 28, 17, 16, 9, 10, 48, 8, 1, 2, 3])) (.leaf
  [7, 44, 0, 73, 45, 28, 17, 16, 9, 10, 48, 8, 1, 2, 3])) (.leaf
  [7, 44, 0, 73, 45, 28, 17, 16, 9, 10, 48, 8, 1, 2, 3])) (.leaf
  [7, 44, 0, 73, 45, 28, 17, 16, 9, 10, 48, 8, 1, 2, 3])) (.leaf
  [7, 44, 0, 73, 45, 28, 17, 16, 9, 10, 48, 8, 1, 2, 3])) (.leaf
  [7, 44, 0, 92, 45, 6, 17, 16, 10, 48, 8, 1, 2, 3])) (.leaf
  [7, 44, 0, 73, 45, 28, 17, 16, 9, 10, 48, 8, 1, 2, 3])) (.leaf
  [7, 44, 0, 73, 45, 28, 17, 16, 9, 10, 48, 8, 1, 2, 3])) (.leaf
  [7, 44, 0, 92, 45, 6, 17, 16, 10, 48, 8, 1, 2, 3])) (.leaf
  [7, 44, 0, 73, 92, 45, 28, 6, 17, 16, 9, 10, 48, 8, 1, 2, 3])) (.leaf
  [7, 44, 0, 73, 92, 45, 28, 6, 17, 16, 9, 10, 48, 8, 1, 2, 3]))) (.breaks 12632193 (.breaks
  23158913 (.breaks 12632209 (.breaks 23154709 (.breaks 23158801 (.breaks 22106241 (.breaks
  22126725 (.breaks 22106257 (.breaks 27369489 (.breaks 27369505 (.breaks 27369473 (.leaf
  [26, 7, 44, 0, 15, 45, 6, 17, 16, 10, 48, 8, 1, 2, 3]) (.leaf
  [26, 7, 44, 0, 15, 45, 6, 17, 16, 10, 48, 8, 1, 2, 3])) (.leaf
  [26, 7, 44, 0, 15, 45, 6, 17, 16, 10, 48, 8, 1, 2, 3])) (.leaf
  [26, 7, 44, 0, 15, 45, 6, 17, 16, 10, 48, 8, 1, 2, 3])) (.leaf
  [26, 7, 44, 0, 15, 45, 6, 17, 16, 10, 48, 8, 1, 2, 3])) (.leaf
  [26, 7, 44, 0, 15, 45, 6, 17, 16, 10, 48, 8, 1, 2, 3])) (.leaf
  [26, 7, 44, 0, 15, 45, 6, 17, 16, 10, 48, 8, 1, 2, 3])) (.leaf
  [26, 7, 44, 0, 15, 45, 6, 17, 16, 10, 48, 8, 1, 2, 3])) (.leaf
  [26, 7, 44, 0, 15, 45, 6, 17, 16, 10, 48, 8, 1, 2, 3])) (.leaf
  [26, 7, 44, 0, 15, 45, 6, 17, 16, 10, 48, 8, 1, 2, 3])) (.leaf
  [26, 7, 44, 0, 15, 45, 6, 17, 16, 10, 48, 8, 1, 2, 3])) (.leaf
  [26, 7, 44, 0, 15, 45, 6, 17, 16, 10, 48, 8, 1, 2, 3]))

/-- some of the cases -/
def real6OneCase12 : LooseTree :=
  .breaks 11571221 (.breaks 9437317 (.breaks 9474177 (.breaks 27369601 (.breaks 17 (.breaks 9474193
  (.breaks 27349013 (.breaks 27369489 (.breaks 22106241 (.breaks 27369505 (.breaks 22106257
  (.breaks 27369473 (.leaf [11, 81, 39, 35, 4, 9, 0, 22, 1, 10, 2, 8, 3]) (.leaf
  [11, 81, 56, 39, 35, 23, 4, 9, 0, 24, 22, 10, 8])) (.leaf
  [11, 81, 39, 35, 4, 9, 0, 22, 1, 10, 2, 8, 3])) (.leaf
  [11, 81, 56, 39, 35, 23, 4, 9, 0, 24, 22, 10, 8])) (.leaf
  [11, 81, 39, 35, 4, 9, 0, 22, 1, 10, 2, 8, 3])) (.leaf
  [11, 81, 56, 39, 35, 23, 4, 9, 0, 24, 22, 10, 8])) (.leaf
  [11, 81, 39, 35, 4, 9, 0, 22, 1, 10, 2, 8, 3])) (.leaf
  [11, 81, 39, 35, 4, 9, 0, 22, 1, 10, 2, 8, 3])) (.leaf
  [11, 81, 39, 35, 4, 9, 0, 22, 1, 10, 2, 8, 3])) (.leaf
  [11, 81, 56, 39, 35, 23, 4, 9, 0, 24, 22, 10, 8])) (.leaf
  [11, 81, 39, 35, 4, 9, 0, 22, 1, 10, 2, 8, 3])) (.leaf
  [11, 81, 39, 35, 4, 9, 0, 22, 1, 10, 2, 8, 3])) (.leaf
  [11, 81, 39, 35, 4, 9, 0, 22, 1, 10, 2, 8, 3])

/-- some of the cases -/
def real6OneCase13 : LooseTree :=
  .breaks 16814210 (.breaks 9437317 (.breaks 9482373 (.breaks 9474193 (.breaks 27369601 (.breaks 17
  (.breaks 11579409 (.breaks 27349013 (.breaks 11579425 (.breaks 22106241 (.breaks 11579393
  (.breaks 22106257 (.leaf [11, 108, 82, 39, 87, 0, 4, 9, 12, 22, 13, 10, 14, 8]) (.leaf
  [11, 108, 82, 39, 87, 0, 4, 9, 12, 22, 13, 10, 14, 8])) (.leaf
  [11, 108, 82, 39, 87, 0, 4, 9, 12, 22, 13, 10, 14, 8])) (.leaf
  [11, 108, 82, 39, 87, 0, 4, 9, 12, 22, 13, 10, 14, 8])) (.leaf
  [11, 108, 82, 39, 87, 0, 4, 9, 12, 22, 13, 10, 14, 8])) (.leaf
  [11, 108, 82, 39, 87, 0, 4, 9, 12, 22, 13, 10, 14, 8])) (.leaf
  [11, 108, 82, 39, 87, 0, 4, 9, 12, 22, 13, 10, 14, 8])) (.leaf
  [11, 108, 82, 39, 87, 0, 4, 9, 12, 22, 13, 10, 14, 8])) (.leaf
  [11, 108, 82, 39, 87, 0, 4, 9, 12, 22, 13, 10, 14, 8])) (.leaf
  [11, 108, 82, 39, 87, 0, 4, 9, 12, 22, 13, 10, 14, 8])) (.leaf
  [11, 108, 82, 39, 87, 0, 4, 9, 12, 22, 13, 10, 14, 8])) (.leaf
  [11, 108, 82, 39, 87, 0, 4, 9, 12, 22, 13, 10, 14, 8])) (.leaf
  [11, 108, 82, 39, 87, 0, 4, 9, 12, 22, 13, 10, 14, 8])

/-- some of the cases -/
def real6OneCase14 : LooseTree :=
  .breaks 19959827 (.leaf [173]) (.leaf [174, 39, 35, 87, 9, 0, 12, 13, 14])

/-- some of the cases -/
def real6OneCase15 : LooseTree :=
  .breaks 9437317 (.breaks 9474193 (.breaks 11579409 (.breaks 11612181 (.breaks 27369601 (.breaks
  17 (.breaks 11579425 (.breaks 20000897 (.breaks 27349013 (.breaks 11579393 (.breaks 20000945
  (.breaks 22106241 (.breaks 20000929 (.breaks 22106257 (.leaf [32, 11, 47, 27, 39, 0, 12, 103, 4,
  9, 13, 46, 22, 14, 23, 10, 24, 8]) (.leaf [32, 11, 47, 27, 39, 0, 12, 103, 4, 9, 13, 46, 22, 14,
  23, 10, 24, 8])) (.leaf [32, 11, 47, 27, 39, 0, 12, 103, 4, 9, 13, 46, 22, 14, 23, 10, 24, 8]))
  (.leaf [32, 11, 47, 27, 39, 0, 12, 103, 4, 9, 13, 46, 22, 14, 23, 10, 24, 8])) (.leaf [32, 11,
  47, 27, 39, 0, 12, 103, 4, 9, 13, 46, 22, 14, 23, 10, 24, 8])) (.leaf [32, 11, 47, 27, 39, 0, 12,
  103, 4, 9, 13, 46, 22, 14, 23, 10, 24, 8])) (.leaf [32, 11, 47, 27, 39, 0, 12, 103, 4, 9, 13, 46,
  22, 14, 23, 10, 24, 8])) (.leaf [32, 11, 47, 27, 39, 0, 12, 103, 4, 9, 13, 46, 22, 14, 23, 10,
  24, 8])) (.leaf [32, 11, 47, 27, 39, 0, 12, 103, 4, 9, 13, 46, 22, 14, 23, 10, 24, 8])) (.leaf
  [32, 11, 47, 27, 39, 0, 12, 103, 4, 9, 13, 46, 22, 14, 23, 10, 24, 8])) (.leaf [32, 11, 47, 27,
  39, 0, 12, 103, 4, 9, 13, 46, 22, 14, 23, 10, 24, 8])) (.leaf [32, 11, 47, 27, 39, 0, 12, 103, 4,
  9, 13, 46, 22, 14, 23, 10, 24, 8])) (.leaf [32, 11, 47, 27, 39, 0, 12, 103, 4, 9, 13, 46, 22, 14,
  23, 10, 24, 8])) (.leaf [32, 11, 47, 27, 39, 0, 12, 103, 4, 9, 13, 46, 22, 14, 23, 10, 24, 8]))
  (.leaf [32, 11, 47, 27, 39, 0, 12, 103, 4, 9, 13, 46, 22, 14, 23, 10, 24, 8])

/-- some of the cases -/
def real6OneCase16 : LooseTree :=
  .cases [] 13 (.breaks 12619907 (.breaks 9482373 (.breaks 11567125 (.breaks 8421505 (.breaks 17
  (.breaks 8495253 (.breaks 27369601 (.breaks 27349013 (.breaks 27369489 (.breaks 22106241 (.breaks
  27369505 (.breaks 22106257 (.breaks 27369473 (.leaf
  [47, 27, 87, 0, 61, 43, 18, 9, 11, 4, 22, 1, 10, 2, 8, 3]) (.leaf
  [47, 27, 87, 0, 61, 43, 18, 9, 11, 4, 22, 1, 10, 2, 8, 3])) (.leaf
  [47, 27, 87, 0, 61, 43, 18, 9, 11, 4, 22, 1, 10, 2, 8, 3])) (.leaf
  [47, 27, 87, 0, 61, 43, 18, 9, 11, 4, 22, 1, 10, 2, 8, 3])) (.leaf
  [47, 27, 87, 0, 61, 43, 18, 9, 11, 4, 22, 1, 10, 2, 8, 3])) (.leaf
  [47, 27, 87, 0, 61, 43, 18, 9, 11, 4, 22, 1, 10, 2, 8, 3])) (.leaf
  [47, 27, 87, 0, 61, 43, 18, 9, 11, 4, 22, 1, 10, 2, 8, 3])) (.leaf
  [47, 27, 87, 0, 61, 43, 18, 9, 11, 4, 22, 1, 10, 2, 8, 3])) (.leaf
  [47, 27, 87, 0, 61, 43, 18, 9, 11, 4, 22, 1, 10, 2, 8, 3])) (.leaf
  [47, 27, 87, 0, 61, 43, 18, 9, 11, 4, 22, 1, 10, 2, 8, 3])) (.leaf
  [47, 27, 87, 0, 61, 43, 18, 9, 11, 4, 22, 1, 10, 2, 8, 3])) (.leaf
  [47, 27, 87, 0, 61, 43, 18, 9, 5, 11, 4, 22, 1, 10, 2, 8, 3])) (.leaf
  [47, 27, 87, 0, 61, 43, 18, 9, 5, 11, 4, 22, 1, 10, 2, 8, 3])) (.leaf
  [90, 27, 96, 0, 87, 61, 43, 18, 9, 11, 4, 22, 1, 10, 2, 8, 3])) (.breaks 12619907 (.breaks
  12619906 (.breaks 9437317 (.breaks 9474193 (.breaks 17 (.breaks 32789 (.breaks 8421505 (.breaks
  8421521 (.breaks 8495253 (.breaks 27369601 (.breaks 27349013 (.breaks 27369489 (.breaks 22106241
  (.breaks 27369505 (.breaks 22106257 (.breaks 27369473 (.leaf
  [47, 27, 39, 0, 9, 41, 18, 5, 11, 4, 22, 1, 10, 2, 8, 3]) (.leaf [47, 27, 56, 39, 0, 23, 9, 41,
  24, 18, 5, 11, 4, 22, 1, 10, 2, 8, 3])) (.leaf [47, 27, 56, 39, 0, 23, 9, 41, 24, 18, 5, 11, 4,
  22, 1, 10, 2, 8, 3])) (.leaf [47, 27, 56, 39, 0, 23, 9, 41, 24, 18, 5, 11, 4, 22, 1, 10, 2, 8,
  3])) (.leaf [47, 27, 56, 39, 0, 23, 9, 41, 24, 18, 5, 11, 4, 22, 1, 10, 2, 8, 3])) (.leaf [47,
  27, 56, 39, 0, 23, 9, 41, 24, 18, 5, 11, 4, 22, 1, 10, 2, 8, 3])) (.leaf [47, 27, 56, 39, 0, 23,
  9, 41, 24, 18, 5, 11, 4, 22, 1, 10, 2, 8, 3])) (.leaf [47, 27, 56, 39, 0, 23, 9, 41, 24, 18, 5,
  11, 4, 22, 1, 10, 2, 8, 3])) (.leaf [47, 27, 56, 39, 0, 23, 9, 41, 24, 18, 5, 11, 4, 22, 1, 10,
  2, 8, 3])) (.leaf [47, 27, 56, 39, 0, 23, 9, 41, 24, 18, 5, 11, 4, 22, 1, 10, 2, 8, 3])) (.leaf
  [47, 27, 56, 39, 87, 0, 23, 9, 41, 12, 24, 18, 13, 5, 11, 14, 4, 22, 1, 10, 2, 8, 3])) (.leaf
  [47, 27, 56, 39, 87, 0, 23, 9, 61, 12, 24, 18, 13, 5, 11, 14, 4, 22, 1, 10, 2, 8, 3])) (.leaf
  [47, 27, 56, 39, 0, 23, 9, 41, 24, 18, 5, 11, 4, 22, 1, 10, 2, 8, 3])) (.leaf [47, 27, 56, 39, 0,
  23, 9, 41, 24, 18, 5, 11, 4, 22, 1, 10, 2, 8, 3])) (.leaf [47, 27, 56, 39, 87, 0, 23, 9, 61, 12,
  24, 18, 13, 5, 11, 14, 4, 22, 1, 10, 2, 8, 3])) (.leaf [47, 27, 56, 39, 0, 23, 9, 41, 24, 18, 5,
  11, 4, 22, 1, 10, 2, 8, 3])) (.leaf
  [90, 27, 96, 0, 39, 9, 41, 18, 5, 11, 4, 22, 1, 10, 2, 8, 3]))

/-- some of the cases -/
def real6OneCase17 : LooseTree :=
  .breaks 8495253 (.breaks 12619907 (.breaks 12619906 (.breaks 19968133 (.breaks 9437317 (.breaks
  9474193 (.breaks 11579409 (.breaks 27369601 (.breaks 17 (.breaks 11579425 (.breaks 27349013
  (.breaks 11579393 (.breaks 22106241 (.breaks 22106257 (.leaf
  [11, 47, 27, 91, 39, 0, 12, 4, 9, 13, 22, 14, 10, 8]) (.leaf
  [11, 47, 27, 91, 39, 0, 12, 4, 9, 13, 22, 1, 14, 10, 2, 8, 3])) (.leaf
  [11, 47, 27, 91, 39, 0, 12, 4, 9, 13, 22, 1, 14, 10, 2, 8, 3])) (.leaf
  [11, 47, 27, 91, 39, 0, 12, 4, 9, 13, 22, 1, 14, 10, 2, 8, 3])) (.leaf
  [11, 47, 27, 91, 39, 0, 12, 4, 9, 13, 22, 1, 14, 10, 2, 8, 3])) (.leaf
  [11, 47, 27, 91, 39, 0, 12, 4, 9, 13, 22, 1, 14, 10, 2, 8, 3])) (.leaf
  [11, 47, 27, 91, 39, 0, 12, 4, 9, 13, 22, 1, 14, 10, 2, 8, 3])) (.leaf [11, 47, 27, 91, 56, 39,
  0, 12, 23, 4, 9, 13, 24, 22, 14, 10, 8])) (.leaf
  [11, 47, 27, 91, 39, 0, 12, 4, 9, 13, 22, 1, 14, 10, 2, 8, 3])) (.leaf
  [11, 47, 27, 91, 39, 0, 12, 4, 9, 13, 22, 1, 14, 10, 2, 8, 3])) (.leaf
  [11, 47, 27, 91, 39, 0, 12, 4, 9, 13, 22, 1, 14, 10, 2, 8, 3])) (.leaf
  [11, 47, 27, 91, 39, 0, 12, 4, 9, 13, 22, 1, 14, 10, 2, 8, 3])) (.leaf
  [11, 47, 27, 91, 39, 0, 12, 4, 9, 13, 22, 1, 14, 10, 2, 8, 3])) (.leaf
  [11, 90, 27, 91, 96, 0, 12, 4, 39, 13, 22, 9, 14, 10, 8])) (.leaf [11, 47, 27, 91, 56, 39, 0, 12,
  23, 4, 9, 13, 24, 22, 14, 10, 8])

/-- some of the cases -/
def real6OneCase18 : LooseTree :=
  .cases [] 20 (.breaks 8495253 (.breaks 12583045 (.breaks 17 (.breaks 27299973 (.breaks 27369601
  (.breaks 9474193 (.breaks 27349013 (.breaks 22106241 (.breaks 22106257 (.leaf
  [11, 28, 9, 86, 4, 0, 22, 10, 8]) (.leaf [11, 86, 4, 0, 22, 1, 10, 2, 8, 3])) (.leaf
  [11, 86, 4, 0, 22, 1, 10, 2, 8, 3])) (.leaf [11, 86, 4, 0, 22, 1, 10, 2, 8, 3])) (.leaf
  [11, 86, 4, 0, 22, 1, 10, 2, 8, 3])) (.leaf [11, 28, 56, 9, 23, 86, 4, 0, 24, 22, 10, 8])) (.leaf
  [11, 86, 4, 0, 22, 1, 10, 2, 8, 3])) (.leaf [11, 86, 4, 0, 22, 1, 10, 2, 8, 3])) (.leaf
  [11, 86, 4, 0, 22, 1, 10, 2, 8, 3])) (.leaf [11, 28, 56, 9, 23, 86, 4, 0, 24, 22, 10, 8]))
  (.cases [] 32 (.breaks 9474177 (.breaks 9474193 (.breaks 9543829 (.breaks 27369601 (.breaks
  27349013 (.breaks 27369489 (.breaks 22106241 (.breaks 27369505 (.breaks 22106257 (.breaks
  27369473 (.leaf [102, 35, 0, 57, 4, 22, 1, 10, 2, 8, 3]) (.leaf
  [102, 35, 0, 57, 4, 22, 1, 10, 2, 8, 3])) (.leaf [102, 35, 0, 57, 4, 22, 1, 10, 2, 8, 3])) (.leaf
  [102, 35, 0, 57, 4, 22, 1, 10, 2, 8, 3])) (.leaf [102, 35, 0, 57, 4, 22, 1, 10, 2, 8, 3])) (.leaf
  [102, 35, 0, 57, 4, 22, 1, 10, 2, 8, 3])) (.leaf [102, 35, 0, 57, 4, 22, 1, 10, 2, 8, 3])) (.leaf
  [102, 35, 0, 57, 4, 22, 1, 10, 2, 8, 3])) (.leaf [102, 35, 0, 57, 4, 22, 1, 10, 2, 8, 3])) (.leaf
  [102, 35, 0, 57, 4, 22, 1, 10, 2, 8, 3])) (.leaf [154, 0, 57, 4, 22, 1, 10, 2, 8, 3])) (.breaks
  12583045 (.breaks 36885 (.breaks 9474177 (.breaks 9470082 (.breaks 8495253 (.breaks 27369601
  (.breaks 27349013 (.breaks 27369489 (.breaks 22106241 (.breaks 27369505 (.breaks 22106257
  (.breaks 27369473 (.leaf [28, 62, 35, 88, 0, 11, 4, 22, 1, 10, 2, 8, 3]) (.leaf
  [28, 62, 35, 88, 0, 11, 4, 22, 1, 10, 2, 8, 3])) (.leaf
  [28, 62, 35, 88, 0, 11, 4, 22, 1, 10, 2, 8, 3])) (.leaf
  [28, 62, 35, 88, 0, 11, 4, 22, 1, 10, 2, 8, 3])) (.leaf
  [28, 62, 35, 88, 0, 11, 4, 22, 1, 10, 2, 8, 3])) (.leaf
  [28, 62, 35, 88, 0, 11, 4, 22, 1, 10, 2, 8, 3])) (.leaf
  [28, 62, 35, 88, 0, 11, 4, 22, 1, 10, 2, 8, 3])) (.leaf
  [28, 62, 35, 88, 0, 5, 11, 4, 22, 1, 10, 2, 8, 3])) (.leaf
  [28, 62, 35, 88, 0, 5, 11, 4, 22, 1, 10, 2, 8, 3])) (.leaf
  [28, 62, 35, 88, 0, 5, 11, 4, 22, 1, 10, 2, 8, 3])) (.leaf
  [28, 62, 35, 88, 0, 5, 11, 4, 22, 1, 10, 2, 8, 3])) (.leaf
  [28, 62, 35, 88, 0, 5, 11, 4, 22, 1, 10, 2, 8, 3])) (.leaf
  [28, 62, 35, 88, 0, 5, 11, 4, 22, 1, 10, 2, 8, 3])))

/-- some of the cases -/
def real6OneCase19 : LooseTree :=
  .breaks 9474193 (.breaks 27369601 (.breaks 27349013 (.breaks 22097939 (.breaks 22106241 (.breaks
  20000785 (.breaks 22106257 (.breaks 20000897 (.breaks 20000945 (.breaks 20000929 (.leaf
  [11, 27, 0, 4, 22, 67, 10, 63, 8, 46, 23, 24]) (.leaf
  [11, 27, 0, 4, 22, 67, 10, 63, 8, 46, 23, 24])) (.leaf
  [11, 27, 0, 4, 22, 67, 10, 63, 8, 46, 23, 24])) (.leaf
  [11, 27, 0, 4, 22, 67, 10, 63, 8, 46, 23, 24])) (.leaf
  [11, 27, 0, 4, 22, 67, 10, 63, 8, 46, 23, 24])) (.leaf
  [11, 27, 0, 4, 22, 123, 10, 46, 8, 23, 24])) (.leaf
  [11, 27, 0, 4, 22, 67, 10, 63, 8, 46, 23, 24])) (.leaf
  [11, 27, 0, 4, 22, 123, 10, 46, 8, 23, 24])) (.leaf
  [11, 27, 0, 4, 22, 67, 10, 63, 8, 46, 23, 24])) (.leaf
  [11, 27, 0, 4, 22, 67, 10, 63, 8, 46, 23, 24])) (.leaf
  [11, 27, 0, 4, 22, 67, 10, 63, 8, 46, 23, 24])

/-- some of the cases -/
def real6OneCase20 : LooseTree :=
  .cases [] 34 (.cycle 1 [73, 153, 35]) (.cases [] 9 (.cases [] 37 (.breaks 11571333 (.breaks 129
  (.breaks 9474193 (.breaks 27369601 (.breaks 17 (.breaks 27349013 (.breaks 22106241 (.breaks
  22106257 (.leaf [112, 11, 7, 36, 0, 4, 9, 22, 10, 8]) (.leaf
  [112, 11, 7, 36, 0, 4, 9, 22, 10, 8])) (.leaf [112, 11, 7, 36, 0, 4, 9, 22, 10, 8])) (.leaf
  [112, 11, 7, 36, 0, 4, 9, 22, 10, 8])) (.leaf [112, 11, 7, 36, 0, 4, 9, 22, 10, 8])) (.leaf
  [112, 11, 7, 36, 0, 4, 9, 22, 10, 8])) (.leaf [112, 11, 7, 36, 0, 4, 9, 22, 10, 8])) (.leaf
  [112, 11, 7, 36, 0, 4, 9, 22, 10, 8])) (.leaf [112, 11, 7, 36, 0, 4, 9, 22, 10, 8])) (.breaks
  9437333 (.breaks 32901 (.breaks 8421521 (.breaks 8495253 (.breaks 27369601 (.breaks 27349013
  (.breaks 22106241 (.breaks 22106257 (.leaf [7, 54, 0, 36, 97, 9, 5, 11, 4, 22, 10, 8]) (.leaf
  [7, 54, 0, 36, 97, 9, 5, 11, 4, 22, 10, 8])) (.leaf [7, 54, 0, 36, 97, 9, 5, 11, 4, 22, 10, 8]))
  (.leaf [7, 54, 0, 36, 97, 9, 5, 11, 4, 22, 10, 8])) (.leaf
  [7, 54, 0, 36, 97, 9, 5, 11, 4, 22, 10, 8])) (.leaf [7, 54, 0, 36, 97, 9, 5, 11, 4, 22, 10, 8]))
  (.leaf [7, 54, 0, 36, 97, 9, 5, 11, 4, 22, 10, 8])) (.leaf
  [7, 54, 0, 36, 97, 9, 5, 11, 4, 22, 10, 8])) (.leaf [7, 54, 0, 36, 97, 9, 5, 11, 4, 22, 10, 8])))
  (.cases [] 16 (.breaks 8495253 (.breaks 11534482 (.breaks 11583509 (.breaks 36997 (.breaks
  12583045 (.breaks 12632193 (.breaks 27369601 (.breaks 17 (.breaks 9474193 (.breaks 12632209
  (.breaks 27349013 (.breaks 22106241 (.breaks 22106257 (.leaf
  [11, 52, 50, 33, 28, 15, 4, 9, 0, 6, 22, 10, 8]) (.leaf
  [11, 52, 50, 33, 28, 15, 4, 9, 0, 6, 22, 1, 10, 2, 8, 3])) (.leaf
  [11, 52, 50, 33, 28, 15, 4, 9, 0, 6, 22, 1, 10, 2, 8, 3])) (.leaf
  [11, 52, 50, 33, 28, 15, 4, 9, 0, 6, 22, 1, 10, 2, 8, 3])) (.leaf
  [11, 52, 50, 33, 28, 15, 4, 9, 0, 6, 22, 1, 10, 2, 8, 3])) (.leaf
  [11, 52, 50, 33, 28, 15, 4, 9, 0, 6, 22, 1, 10, 2, 8, 3])) (.leaf
  [11, 52, 50, 33, 28, 15, 4, 9, 0, 6, 22, 1, 10, 2, 8, 3])) (.leaf
  [11, 52, 50, 56, 33, 28, 15, 23, 4, 9, 0, 6, 24, 22, 10, 8])) (.leaf
  [11, 52, 50, 33, 28, 15, 4, 9, 0, 6, 22, 1, 10, 2, 8, 3])) (.leaf
  [11, 52, 50, 33, 28, 15, 4, 9, 0, 6, 22, 1, 10, 2, 8, 3])) (.leaf
  [11, 52, 50, 33, 28, 15, 4, 9, 0, 6, 22, 1, 10, 2, 8, 3])) (.leaf
  [11, 52, 50, 33, 28, 15, 4, 9, 0, 6, 22, 1, 10, 2, 8, 3])) (.leaf
  [11, 52, 50, 33, 28, 15, 4, 9, 0, 6, 22, 1, 10, 2, 8, 3])) (.leaf
  [11, 52, 50, 56, 33, 28, 15, 23, 4, 9, 0, 6, 24, 22, 10, 8])) (.breaks 9486467 (.breaks 12628101
  (.breaks 11534467 (.cycle 32 [33, 73, 60, 71]) (.cycle 32 [33, 73, 60, 71])) (.cycle 32
  [33, 73, 60, 71])) (.cycle 32 [33, 73, 60, 71]))))

/-- some of the cases -/
def real6OneCase21 : LooseTree :=
  .breaks 129 (.breaks 9474193 (.breaks 27369601 (.breaks 17 (.breaks 27349013 (.breaks 22097939
  (.breaks 22106241 (.breaks 20000785 (.breaks 22106257 (.breaks 20000897 (.breaks 20000945
  (.breaks 20000929 (.leaf [11, 52, 7, 36, 0, 4, 9, 22, 67, 10, 63, 8, 46, 23, 24]) (.leaf
  [11, 52, 7, 36, 0, 4, 9, 22, 67, 10, 63, 8, 46, 23, 24])) (.leaf
  [11, 52, 7, 36, 0, 4, 9, 22, 67, 10, 63, 8, 46, 23, 24])) (.leaf
  [11, 52, 7, 36, 0, 4, 9, 22, 67, 10, 63, 8, 46, 23, 24])) (.leaf
  [11, 52, 7, 36, 0, 4, 9, 22, 67, 10, 63, 8, 46, 23, 24])) (.leaf
  [11, 52, 7, 36, 0, 4, 9, 22, 123, 10, 46, 8, 23, 24])) (.leaf
  [11, 52, 7, 36, 0, 4, 9, 22, 67, 10, 63, 8, 46, 23, 24])) (.leaf
  [11, 52, 7, 36, 0, 4, 9, 22, 123, 10, 46, 8, 23, 24])) (.leaf
  [11, 52, 7, 36, 0, 4, 9, 22, 67, 10, 63, 8, 46, 23, 24])) (.leaf
  [11, 52, 7, 36, 0, 4, 9, 22, 67, 10, 63, 8, 46, 23, 24])) (.leaf
  [11, 52, 7, 36, 0, 4, 9, 22, 67, 10, 63, 8, 46, 23, 24])) (.leaf
  [11, 52, 7, 36, 0, 4, 9, 22, 67, 10, 63, 8, 46, 23, 24])) (.leaf
  [11, 7, 70, 9, 0, 4, 22, 67, 10, 63, 8, 46, 23, 24])

/-- some of the cases -/
def real6OneCase22 : LooseTree :=
  .breaks 9486467 (.breaks 12583045 (.breaks 45187 (.cycle 12 [7, 73, 28, 76]) (.cycle 12
  [7, 73, 28, 76])) (.cycle 12 [7, 73, 28, 76])) (.cycle 22 [28, 76, 7, 73])

/-- some of the cases -/
def real6OneCase23 : LooseTree :=
  .breaks 12619795 (.leaf [49, 90]) (.leaf [49, 90])

/-- some of the cases -/
def real6OneCase24 : LooseTree :=
  .cases [] 6 (.cases [] 36 (.breaks 4251653 (.breaks 8495253 (.breaks 11571333 (.breaks 9474193
  (.breaks 14737441 (.breaks 27312261 (.breaks 27369601 (.breaks 12632209 (.breaks 27349013
  (.breaks 22106241 (.breaks 22106257 (.leaf [93, 11, 7, 0, 94, 40, 4, 6, 22, 10, 8]) (.leaf
  [93, 11, 7, 0, 94, 40, 4, 6, 22, 1, 10, 2, 8, 3])) (.leaf
  [93, 11, 7, 0, 94, 40, 4, 6, 22, 1, 10, 2, 8, 3])) (.leaf
  [93, 11, 7, 0, 94, 40, 4, 6, 22, 1, 10, 2, 8, 3])) (.leaf
  [93, 11, 7, 0, 94, 40, 4, 6, 22, 1, 10, 2, 8, 3])) (.leaf
  [93, 11, 7, 56, 0, 94, 23, 40, 4, 6, 24, 22, 10, 8])) (.leaf
  [93, 11, 7, 0, 94, 40, 4, 6, 22, 1, 10, 2, 8, 3])) (.leaf
  [11, 7, 0, 40, 4, 6, 22, 1, 10, 2, 8, 3])) (.leaf
  [93, 11, 7, 0, 94, 40, 4, 6, 22, 1, 10, 2, 8, 3])) (.leaf
  [93, 11, 7, 0, 94, 40, 4, 6, 22, 1, 10, 2, 8, 3])) (.leaf
  [93, 11, 7, 56, 0, 94, 23, 40, 4, 6, 24, 22, 10, 8])) (.leaf
  [11, 7, 0, 40, 4, 6, 22, 1, 10, 2, 8, 3])) (.breaks 8495253 (.breaks 11571333 (.breaks 9474193
  (.breaks 27312261 (.breaks 27369601 (.breaks 12632209 (.breaks 27349013 (.breaks 27369489
  (.breaks 22106241 (.breaks 27369505 (.breaks 22106257 (.breaks 27369473 (.leaf
  [11, 7, 0, 40, 4, 6, 22, 1, 10, 2, 8, 3]) (.leaf
  [11, 7, 118, 56, 119, 0, 23, 40, 4, 6, 24, 22, 10, 8])) (.leaf
  [11, 7, 118, 119, 0, 40, 4, 6, 22, 1, 10, 2, 8, 3])) (.leaf
  [11, 7, 118, 56, 119, 0, 23, 40, 4, 6, 24, 22, 10, 8])) (.leaf
  [11, 7, 118, 119, 0, 40, 4, 6, 22, 1, 10, 2, 8, 3])) (.leaf
  [11, 7, 118, 56, 119, 0, 23, 40, 4, 6, 24, 22, 10, 8])) (.leaf
  [11, 7, 118, 119, 0, 40, 4, 6, 22, 1, 10, 2, 8, 3])) (.leaf
  [11, 7, 118, 119, 0, 40, 4, 6, 22, 1, 10, 2, 8, 3])) (.leaf
  [11, 7, 118, 56, 119, 0, 23, 40, 4, 6, 24, 22, 10, 8])) (.leaf
  [11, 7, 118, 119, 0, 40, 4, 6, 22, 1, 10, 2, 8, 3])) (.leaf
  [11, 7, 118, 119, 0, 40, 4, 6, 22, 1, 10, 2, 8, 3])) (.leaf
  [11, 7, 118, 119, 0, 40, 4, 6, 22, 1, 10, 2, 8, 3])) (.leaf
  [11, 7, 118, 56, 119, 0, 23, 40, 4, 6, 24, 22, 1, 10, 2, 8, 3]))) (.breaks 8437891 (.breaks
  9474193 (.breaks 12632193 (.breaks 12632209 (.breaks 12689557 (.breaks 27369601 (.breaks 27349013
  (.breaks 27369489 (.breaks 22106241 (.breaks 27369505 (.breaks 22106257 (.breaks 27369473 (.leaf
  [49, 7, 0, 15, 6, 29, 4, 22, 1, 10, 2, 8, 3]) (.leaf
  [49, 7, 0, 15, 6, 29, 4, 22, 1, 10, 2, 8, 3])) (.leaf
  [49, 7, 0, 15, 6, 29, 4, 22, 1, 10, 2, 8, 3])) (.leaf
  [49, 7, 0, 15, 6, 29, 4, 22, 1, 10, 2, 8, 3])) (.leaf
  [49, 7, 0, 15, 6, 29, 4, 22, 1, 10, 2, 8, 3])) (.leaf
  [49, 7, 0, 15, 6, 29, 4, 22, 1, 10, 2, 8, 3])) (.leaf
  [49, 7, 0, 15, 6, 29, 4, 22, 1, 10, 2, 8, 3])) (.leaf
  [49, 7, 56, 0, 15, 23, 6, 29, 24, 4, 22, 1, 10, 2, 8, 3])) (.leaf
  [49, 7, 56, 0, 15, 23, 6, 29, 24, 4, 22, 1, 10, 2, 8, 3])) (.leaf
  [49, 7, 0, 15, 6, 29, 4, 22, 1, 10, 2, 8, 3])) (.leaf
  [109, 7, 56, 0, 6, 29, 23, 24, 4, 22, 1, 10, 2, 8, 3])) (.leaf
  [49, 7, 0, 15, 6, 29, 4, 22, 1, 10, 2, 8, 3])) (.leaf
  [109, 7, 56, 0, 6, 29, 23, 24, 4, 22, 1, 10, 2, 8, 3]))

/-- some of the cases -/
def real6OneCase25 : LooseTree :=
  .breaks 19955730 (.breaks 8421505 (.breaks 8437891 (.breaks 8495253 (.breaks 12632193 (.breaks
  27369601 (.breaks 12632209 (.breaks 27349013 (.breaks 27369489 (.breaks 22106241 (.breaks
  27369505 (.breaks 22106257 (.breaks 27369473 (.leaf
  [7, 78, 18, 0, 5, 49, 11, 15, 4, 6, 22, 1, 10, 2, 8, 3]) (.leaf
  [7, 78, 18, 0, 5, 49, 11, 15, 4, 6, 22, 1, 10, 2, 8, 3])) (.leaf
  [7, 78, 18, 0, 5, 49, 11, 15, 4, 6, 22, 1, 10, 2, 8, 3])) (.leaf
  [7, 78, 18, 0, 5, 49, 11, 15, 4, 6, 22, 1, 10, 2, 8, 3])) (.leaf
  [7, 78, 18, 0, 5, 49, 11, 15, 4, 6, 22, 1, 10, 2, 8, 3])) (.leaf
  [7, 78, 18, 0, 5, 49, 11, 15, 4, 6, 22, 1, 10, 2, 8, 3])) (.leaf
  [7, 78, 18, 0, 5, 49, 11, 15, 4, 6, 22, 1, 10, 2, 8, 3])) (.leaf
  [7, 78, 18, 0, 5, 49, 11, 15, 4, 6, 22, 1, 10, 2, 8, 3])) (.leaf
  [7, 78, 18, 0, 5, 49, 11, 15, 4, 6, 22, 1, 10, 2, 8, 3])) (.leaf
  [7, 78, 18, 0, 5, 109, 11, 6, 4, 22, 1, 10, 2, 8, 3])) (.leaf
  [7, 78, 18, 0, 5, 49, 11, 15, 4, 6, 22, 1, 10, 2, 8, 3])) (.leaf
  [7, 78, 18, 0, 5, 109, 11, 6, 4, 22, 1, 10, 2, 8, 3])) (.leaf [7, 78, 56, 18, 0, 23, 5, 49, 11,
  24, 15, 4, 6, 22, 1, 10, 2, 8, 3])) (.leaf [7, 78, 56, 18, 0, 23, 5, 49, 11, 24, 15, 4, 6, 22, 1,
  10, 2, 8, 3])

/-- some of the cases -/
def real6OneCase26 : LooseTree :=
  .breaks 12632193 (.breaks 12615810 (.breaks 12632209 (.breaks 8421521 (.breaks 8495253 (.breaks
  27369601 (.breaks 27349013 (.breaks 27369489 (.breaks 22106241 (.breaks 27369505 (.breaks
  22106257 (.breaks 27369473 (.leaf [7, 50, 0, 15, 38, 6, 5, 11, 4, 22, 1, 10, 2, 8, 3]) (.leaf
  [7, 50, 0, 15, 38, 6, 5, 11, 4, 22, 1, 10, 2, 8, 3])) (.leaf
  [7, 50, 0, 15, 38, 6, 5, 11, 4, 22, 1, 10, 2, 8, 3])) (.leaf
  [7, 50, 0, 15, 38, 6, 5, 11, 4, 22, 1, 10, 2, 8, 3])) (.leaf
  [7, 50, 0, 15, 38, 6, 5, 11, 4, 22, 1, 10, 2, 8, 3])) (.leaf
  [7, 50, 0, 15, 38, 6, 5, 11, 4, 22, 1, 10, 2, 8, 3])) (.leaf
  [7, 50, 0, 15, 38, 6, 5, 11, 4, 22, 1, 10, 2, 8, 3])) (.leaf
  [7, 50, 0, 15, 38, 6, 5, 11, 4, 22, 1, 10, 2, 8, 3])) (.leaf
  [7, 50, 0, 15, 38, 6, 5, 11, 4, 22, 1, 10, 2, 8, 3])) (.leaf
  [7, 50, 0, 15, 38, 6, 5, 11, 4, 22, 1, 10, 2, 8, 3])) (.leaf
  [7, 50, 0, 15, 38, 6, 5, 11, 4, 22, 1, 10, 2, 8, 3])) (.leaf
  [7, 50, 0, 15, 38, 6, 5, 11, 4, 22, 1, 10, 2, 8, 3])) (.leaf
  [7, 50, 0, 15, 38, 6, 5, 11, 4, 22, 1, 10, 2, 8, 3])

/-- some of the cases -/
def real6OneCase27 : LooseTree :=
  .cases [] 8 (.breaks 8433797 (.breaks 11571333 (.breaks 9474193 (.breaks 11579409 (.breaks
  12632193 (.breaks 11579425 (.breaks 12615810 (.breaks 12632209 (.breaks 8495253 (.breaks 11579393
  (.breaks 27369601 (.breaks 27349013 (.breaks 27369489 (.breaks 22106241 (.breaks 27369505
  (.breaks 22106257 (.breaks 27369473 (.leaf [26, 32, 7, 0, 12, 15, 13, 38, 6, 11, 14, 4, 22, 1,
  10, 2, 8, 3]) (.leaf [26, 32, 7, 0, 12, 15, 13, 38, 6, 11, 14, 4, 22, 1, 10, 2, 8, 3])) (.leaf
  [26, 32, 7, 0, 12, 15, 13, 38, 6, 11, 14, 4, 22, 1, 10, 2, 8, 3])) (.leaf [26, 32, 7, 0, 12, 15,
  13, 38, 6, 11, 14, 4, 22, 1, 10, 2, 8, 3])) (.leaf [26, 32, 7, 0, 12, 15, 13, 38, 6, 11, 14, 4,
  22, 1, 10, 2, 8, 3])) (.leaf [26, 32, 7, 0, 12, 15, 13, 38, 6, 11, 14, 4, 22, 1, 10, 2, 8, 3]))
  (.leaf [26, 32, 7, 0, 12, 15, 13, 38, 6, 11, 14, 4, 22, 1, 10, 2, 8, 3])) (.leaf [26, 32, 7, 0,
  12, 15, 13, 38, 6, 11, 14, 4, 22, 1, 10, 2, 8, 3])) (.leaf [26, 32, 7, 0, 12, 15, 13, 38, 6, 11,
  14, 4, 22, 1, 10, 2, 8, 3])) (.leaf [26, 32, 7, 0, 12, 15, 13, 38, 6, 11, 14, 4, 22, 1, 10, 2, 8,
  3])) (.leaf [26, 32, 7, 0, 12, 15, 13, 38, 6, 11, 14, 4, 22, 1, 10, 2, 8, 3])) (.leaf [26, 32, 7,
  0, 12, 15, 13, 38, 6, 11, 14, 4, 22, 1, 10, 2, 8, 3])) (.leaf [26, 32, 7, 0, 12, 15, 13, 38, 6,
  11, 14, 4, 22, 1, 10, 2, 8, 3])) (.leaf [26, 32, 7, 0, 12, 15, 13, 38, 6, 11, 14, 4, 22, 1, 10,
  2, 8, 3])) (.leaf [26, 32, 7, 0, 12, 15, 13, 38, 6, 11, 14, 4, 22, 1, 10, 2, 8, 3])) (.leaf [26,
  32, 7, 0, 12, 15, 13, 38, 6, 11, 14, 4, 22, 1, 10, 2, 8, 3])) (.leaf [26, 32, 7, 0, 12, 15, 13,
  38, 6, 11, 14, 4, 22, 1, 10, 2, 8, 3])) (.leaf [26, 32, 7, 0, 12, 15, 13, 38, 6, 11, 14, 4, 22,
  1, 10, 2, 8, 3])) (.breaks 11571333 (.breaks 9474193 (.breaks 12628101 (.breaks 11567125 (.breaks
  8421505 (.breaks 8421521 (.breaks 8495253 (.breaks 27369601 (.breaks 27349013 (.breaks 27369489
  (.breaks 22106241 (.breaks 27369505 (.breaks 22106257 (.breaks 27369473 (.leaf
  [26, 7, 0, 60, 61, 18, 5, 11, 4, 22, 1, 10, 2, 8, 3]) (.leaf
  [26, 7, 0, 60, 61, 18, 5, 11, 4, 22, 1, 10, 2, 8, 3])) (.leaf
  [26, 7, 0, 60, 61, 18, 5, 11, 4, 22, 1, 10, 2, 8, 3])) (.leaf
  [26, 7, 0, 60, 61, 18, 5, 11, 4, 22, 1, 10, 2, 8, 3])) (.leaf
  [26, 7, 0, 60, 61, 18, 5, 11, 4, 22, 1, 10, 2, 8, 3])) (.leaf
  [26, 7, 0, 60, 61, 18, 5, 11, 4, 22, 1, 10, 2, 8, 3])) (.leaf
  [26, 7, 0, 60, 61, 18, 5, 11, 4, 22, 1, 10, 2, 8, 3])) (.leaf
  [26, 7, 0, 60, 61, 18, 5, 11, 4, 22, 1, 10, 2, 8, 3])) (.leaf
  [26, 7, 0, 60, 61, 18, 5, 11, 4, 22, 1, 10, 2, 8, 3])) (.leaf
  [26, 7, 0, 60, 61, 18, 5, 11, 4, 22, 1, 10, 2, 8, 3])) (.leaf
  [26, 7, 0, 60, 61, 18, 5, 11, 4, 22, 1, 10, 2, 8, 3])) (.leaf
  [26, 7, 0, 60, 61, 18, 5, 11, 4, 22, 1, 10, 2, 8, 3])) (.leaf
  [26, 7, 0, 60, 61, 18, 5, 11, 4, 22, 1, 10, 2, 8, 3])) (.leaf
  [26, 7, 0, 60, 61, 18, 5, 11, 4, 22, 1, 10, 2, 8, 3])) (.leaf
  [26, 7, 0, 60, 61, 18, 5, 11, 4, 22, 1, 10, 2, 8, 3]))

/-- some of the cases -/
def real6OneCase28 : LooseTree :=
  .breaks 12632193 (.breaks 27369601 (.breaks 12632209 (.breaks 27349013 (.breaks 22097939 (.breaks
  22106241 (.breaks 20000785 (.breaks 22106257 (.breaks 20000897 (.breaks 20000945 (.breaks
  20000929 (.leaf [26, 11, 7, 0, 15, 4, 6, 22, 67, 10, 63, 8, 46, 23, 24]) (.leaf
  [26, 11, 7, 0, 15, 4, 6, 22, 67, 10, 63, 8, 46, 23, 24])) (.leaf
  [26, 11, 7, 0, 15, 4, 6, 22, 67, 10, 63, 8, 46, 23, 24])) (.leaf
  [26, 11, 7, 0, 15, 4, 6, 22, 67, 10, 63, 8, 46, 23, 24])) (.leaf
  [26, 11, 7, 0, 15, 4, 6, 22, 67, 10, 63, 8, 46, 23, 24])) (.leaf
  [26, 11, 7, 0, 15, 4, 6, 22, 123, 10, 46, 8, 23, 24])) (.leaf
  [26, 11, 7, 0, 15, 4, 6, 22, 67, 10, 63, 8, 46, 23, 24])) (.leaf
  [26, 11, 7, 0, 15, 4, 6, 22, 123, 10, 46, 8, 23, 24])) (.leaf
  [26, 11, 7, 0, 15, 4, 6, 22, 67, 10, 63, 8, 46, 23, 24])) (.leaf
  [26, 11, 7, 0, 15, 4, 6, 22, 67, 10, 63, 8, 46, 23, 24])) (.leaf
  [26, 11, 7, 0, 15, 4, 6, 22, 67, 10, 63, 8, 46, 23, 24])) (.leaf
  [26, 11, 7, 0, 15, 4, 6, 22, 67, 10, 63, 8, 46, 23, 24])

/-- some of the cases -/
def real6OneCase29 : LooseTree :=
  .breaks 19959827 (.leaf [173]) (.leaf [174, 17, 39, 35, 10, 48, 9, 0, 8, 1, 2, 3])

/-- some of the cases -/
def real6OneCase30 : LooseTree :=
  .cases [] 17 (.cases [] 18 (.breaks 12583061 (.breaks 12619906 (.breaks 23154709 (.breaks 129
  (.breaks 9474193 (.breaks 22106241 (.breaks 22126725 (.breaks 17 (.breaks 22106257 (.breaks
  27369489 (.breaks 27369505 (.breaks 27369473 (.leaf [104, 27, 17, 36, 0, 10, 48, 9, 8, 1, 2, 3])
  (.leaf [104, 27, 56, 17, 36, 0, 23, 10, 48, 9, 24, 8, 1, 2, 3])) (.leaf
  [104, 27, 56, 17, 36, 0, 23, 10, 48, 9, 24, 8, 1, 2, 3])) (.leaf
  [104, 27, 56, 17, 36, 0, 23, 10, 48, 9, 24, 8, 1, 2, 3])) (.leaf
  [104, 27, 56, 17, 36, 0, 23, 10, 48, 9, 24, 8, 1, 2, 3])) (.leaf
  [104, 27, 56, 17, 36, 0, 23, 10, 48, 9, 24, 8, 1, 2, 3])) (.leaf
  [104, 27, 56, 17, 36, 0, 23, 10, 48, 9, 24, 8, 1, 2, 3])) (.leaf
  [104, 27, 56, 17, 36, 0, 23, 10, 48, 9, 24, 8, 1, 2, 3])) (.leaf
  [104, 27, 56, 17, 36, 0, 23, 10, 48, 9, 24, 8, 1, 2, 3])) (.leaf
  [104, 27, 56, 17, 36, 0, 23, 10, 48, 9, 24, 8, 1, 2, 3])) (.leaf
  [104, 27, 56, 17, 36, 0, 23, 10, 48, 9, 24, 8, 1, 2, 3])) (.leaf
  [104, 27, 56, 17, 36, 0, 23, 10, 48, 9, 24, 8, 1, 2, 3])) (.leaf
  [104, 27, 56, 17, 36, 0, 23, 10, 48, 9, 24, 8, 1, 2, 3])) (.cases [] 29 (.breaks 11571221
  (.breaks 23146629 (.breaks 23154709 (.breaks 17 (.breaks 9474177 (.breaks 20000945 (.breaks
  22106241 (.breaks 22126725 (.breaks 9474193 (.breaks 20000929 (.breaks 22106257 (.breaks 27369489
  (.breaks 27369505 (.breaks 27369473 (.leaf
  [43, 81, 56, 17, 9, 35, 23, 10, 48, 0, 24, 8, 1, 2, 3]) (.leaf [43, 52, 81, 56, 17, 53, 9, 35,
  23, 10, 48, 0, 6, 24, 8, 1, 2, 3])) (.leaf [43, 52, 81, 56, 17, 53, 9, 35, 23, 10, 48, 0, 6, 24,
  8, 1, 2, 3])) (.leaf [43, 52, 81, 56, 17, 53, 9, 35, 23, 10, 48, 0, 6, 24, 8, 1, 2, 3])) (.leaf
  [43, 81, 56, 17, 9, 35, 23, 10, 48, 0, 24, 8, 1, 2, 3])) (.leaf
  [43, 52, 81, 17, 53, 9, 35, 10, 48, 0, 6, 8, 1, 2, 3])) (.leaf
  [43, 81, 56, 17, 9, 35, 23, 10, 48, 0, 24, 8, 1, 2, 3])) (.leaf [43, 52, 81, 56, 17, 53, 9, 35,
  23, 10, 48, 0, 6, 24, 8, 1, 2, 3])) (.leaf
  [43, 81, 56, 17, 9, 35, 23, 10, 48, 0, 24, 8, 1, 2, 3])) (.leaf
  [43, 52, 81, 17, 53, 9, 35, 10, 48, 0, 6, 8, 1, 2, 3])) (.leaf
  [43, 81, 56, 17, 9, 35, 23, 10, 48, 0, 24, 8, 1, 2, 3])) (.leaf
  [43, 81, 56, 17, 9, 35, 23, 10, 48, 0, 24, 8, 1, 2, 3])) (.leaf [43, 52, 81, 56, 17, 53, 9, 35,
  23, 10, 48, 0, 6, 24, 8, 1, 2, 3])) (.leaf
  [43, 52, 81, 17, 53, 9, 35, 10, 48, 0, 6, 8, 1, 2, 3])) (.leaf
  [43, 81, 56, 17, 9, 35, 23, 10, 48, 0, 24, 8, 1, 2, 3])) (.breaks 12619907 (.breaks 9482373
  (.breaks 11534467 (.cycle 32 [53, 47, 87, 71]) (.cycle 32 [53, 47, 87, 71])) (.cycle 32
  [53, 47, 87, 71])) (.cycle 32 [53, 47, 87, 71])))) (.cycle 18 [71, 98, 31])

/-- some of the cases -/
def real6OneCase31 : LooseTree :=
  .breaks 17 (.breaks 45187 (.breaks 45186 (.breaks 11571333 (.breaks 11579409 (.breaks 9474193
  (.breaks 11579425 (.breaks 11579393 (.leaf [43, 9, 76, 77, 7, 12, 0, 13, 14]) (.leaf
  [43, 9, 76, 77, 7, 12, 0, 13, 14])) (.leaf [43, 9, 76, 77, 7, 12, 0, 13, 14])) (.leaf
  [43, 9, 76, 77, 7, 12, 0, 13, 14])) (.leaf [43, 9, 76, 77, 7, 12, 0, 13, 14])) (.leaf
  [43, 9, 76, 77, 7, 12, 0, 13, 14])) (.leaf [43, 9, 76, 77, 7, 12, 0, 13, 14])) (.leaf
  [43, 9, 76, 77, 7, 12, 0, 13, 14])) (.leaf [43, 9, 76, 77, 7, 12, 0, 13, 14])

/-- some of the cases -/
def real6OneCase32 : LooseTree :=
  .breaks 12619906 (.breaks 23154709 (.breaks 17 (.breaks 9474193 (.breaks 22097939 (.breaks
  22106241 (.breaks 20000785 (.breaks 22106257 (.breaks 20000897 (.breaks 20000945 (.breaks
  20000929 (.leaf [43, 27, 17, 9, 0, 67, 10, 63, 8, 46, 23, 24]) (.leaf
  [43, 27, 17, 9, 0, 67, 10, 63, 8, 46, 23, 24])) (.leaf
  [43, 27, 17, 9, 0, 67, 10, 63, 8, 46, 23, 24])) (.leaf
  [43, 27, 17, 9, 0, 67, 10, 63, 8, 46, 23, 24])) (.leaf
  [43, 27, 17, 9, 0, 67, 10, 63, 8, 46, 23, 24])) (.leaf
  [43, 27, 17, 9, 0, 123, 10, 46, 8, 23, 24])) (.leaf
  [43, 27, 17, 9, 0, 67, 10, 63, 8, 46, 23, 24])) (.leaf
  [43, 27, 17, 9, 0, 123, 10, 46, 8, 23, 24])) (.leaf
  [43, 27, 17, 9, 0, 67, 10, 63, 8, 46, 23, 24])) (.leaf
  [43, 27, 17, 9, 0, 67, 10, 63, 8, 46, 23, 24])) (.leaf
  [43, 27, 17, 9, 0, 67, 48, 63, 1, 46, 2, 23, 3, 24])) (.leaf
  [43, 27, 17, 9, 0, 67, 10, 63, 8, 46, 23, 24])

/-- some of the cases -/
def real6OneCase33 : LooseTree :=
  .breaks 11571221 (.breaks 9437317 (.breaks 32789 (.breaks 9474193 (.breaks 8421505 (.breaks
  8421521 (.leaf [81, 39, 35, 9, 41, 0, 18, 5]) (.leaf [81, 39, 35, 9, 41, 0, 18, 5])) (.leaf
  [81, 39, 35, 9, 41, 0, 18, 5])) (.leaf [81, 39, 35, 9, 41, 0, 18, 5])) (.leaf
  [81, 39, 35, 9, 41, 0, 18, 5])) (.leaf [81, 39, 35, 41, 0, 18, 5, 11, 4, 1, 2, 3])) (.leaf
  [81, 39, 35, 41, 0, 18, 5, 11, 4, 1, 2, 3])

/-- some of the cases -/
def real6OneCase34 : LooseTree :=
  .breaks 9474193 (.breaks 17 (.breaks 32789 (.breaks 8421505 (.breaks 8421521 (.breaks 8495253
  (.breaks 27369601 (.breaks 27369489 (.breaks 27369505 (.breaks 27369473 (.leaf
  [108, 82, 39, 0, 9, 41, 18, 5, 11, 4, 1, 2, 3]) (.leaf
  [108, 82, 39, 0, 9, 41, 18, 5, 11, 4, 1, 2, 3])) (.leaf
  [108, 82, 39, 0, 9, 41, 18, 5, 11, 4, 1, 2, 3])) (.leaf
  [108, 82, 39, 0, 9, 41, 18, 5, 11, 4, 1, 2, 3])) (.leaf
  [108, 82, 39, 0, 9, 41, 18, 5, 11, 4, 1, 2, 3])) (.leaf
  [108, 82, 39, 0, 9, 41, 18, 5, 11, 4, 1, 2, 3])) (.leaf
  [108, 82, 39, 0, 9, 41, 18, 5, 11, 4, 1, 2, 3])) (.leaf
  [108, 82, 39, 0, 9, 41, 18, 5, 11, 4, 1, 2, 3])) (.leaf
  [108, 82, 39, 0, 9, 41, 18, 5, 11, 4, 1, 2, 3])) (.leaf
  [108, 82, 39, 0, 9, 41, 18, 5, 11, 4, 1, 2, 3])) (.leaf
  [108, 82, 39, 0, 9, 41, 18, 5, 11, 4, 1, 2, 3])

/-- some of the cases -/
def real6OneCase35 : LooseTree :=
  .breaks 12619906 (.breaks 9474193 (.breaks 9502851 (.breaks 16777349 (.breaks 17 (.breaks 32789
  (.breaks 8421505 (.breaks 8421521 (.breaks 8495253 (.breaks 27369601 (.breaks 27369489 (.breaks
  27369505 (.breaks 27369473 (.leaf [27, 0, 116, 65, 9, 41, 18, 5, 11, 4, 1, 2, 3]) (.leaf
  [27, 17, 0, 116, 10, 65, 8, 9, 41, 18, 5, 11, 4, 1, 2, 3])) (.leaf
  [27, 17, 0, 116, 10, 65, 8, 9, 41, 18, 5, 11, 4, 1, 2, 3])) (.leaf
  [27, 17, 0, 116, 10, 65, 8, 9, 41, 18, 5, 11, 4, 1, 2, 3])) (.leaf
  [27, 17, 0, 116, 10, 65, 8, 9, 41, 18, 5, 11, 4, 1, 2, 3])) (.leaf
  [27, 17, 0, 116, 10, 65, 8, 9, 41, 18, 5, 11, 4, 1, 2, 3])) (.leaf
  [27, 17, 0, 116, 10, 65, 8, 9, 41, 18, 5, 11, 4, 1, 2, 3])) (.leaf
  [27, 17, 0, 116, 10, 65, 8, 9, 41, 18, 5, 11, 4, 1, 2, 3])) (.leaf
  [27, 17, 0, 116, 10, 65, 8, 9, 41, 18, 5, 11, 4, 1, 2, 3])) (.leaf
  [27, 17, 0, 116, 10, 65, 8, 9, 41, 18, 5, 11, 4, 1, 2, 3])) (.leaf
  [27, 17, 0, 116, 10, 65, 8, 9, 41, 18, 5, 11, 4, 1, 2, 3])) (.leaf
  [27, 17, 0, 116, 10, 65, 8, 9, 41, 18, 5, 11, 4, 1, 2, 3])) (.leaf
  [27, 17, 0, 116, 10, 65, 8, 9, 41, 18, 5, 11, 4, 1, 2, 3])) (.leaf
  [27, 17, 0, 116, 10, 65, 8, 9, 41, 18, 5, 11, 4, 1, 2, 3])

/-- some of the cases -/
def real6OneCase36 : LooseTree :=
  .cases [] 28 (.cases [] 7 (.breaks 12619907 (.breaks 9437317 (.breaks 22106241 (.breaks 17
  (.breaks 32789 (.breaks 22106257 (.breaks 8421505 (.breaks 8454163 (.breaks 8421521 (.breaks
  16842769 (.breaks 16842881 (.breaks 16842897 (.breaks 16883861 (.breaks 27369601 (.breaks
  27369489 (.breaks 27369505 (.breaks 27369473 (.leaf [47, 27, 17, 39, 0, 10, 9, 41, 8, 18, 79, 5,
  80, 21, 19, 30, 4, 1, 2, 3]) (.leaf [47, 27, 17, 39, 0, 10, 9, 41, 8, 18, 79, 5, 80, 21, 19, 30,
  4, 1, 2, 3])) (.leaf [47, 27, 17, 39, 0, 10, 9, 41, 8, 18, 79, 5, 80, 21, 19, 30, 4, 1, 2, 3]))
  (.leaf [47, 27, 17, 39, 0, 10, 9, 41, 8, 18, 79, 5, 80, 21, 19, 30, 4, 1, 2, 3])) (.leaf [47, 27,
  17, 39, 0, 10, 9, 41, 8, 18, 79, 5, 80, 21, 19, 30, 4, 1, 2, 3])) (.leaf [47, 27, 17, 39, 0, 10,
  9, 41, 8, 18, 79, 5, 80, 21, 19, 30, 4, 1, 2, 3])) (.leaf [47, 27, 17, 39, 0, 10, 9, 41, 8, 18,
  79, 5, 80, 21, 19, 30, 4, 1, 2, 3])) (.leaf [47, 27, 17, 39, 0, 10, 9, 41, 8, 18, 79, 5, 80, 21,
  19, 30, 4, 1, 2, 3])) (.leaf [47, 27, 17, 39, 0, 10, 9, 41, 8, 18, 157, 5, 21, 19, 30, 4, 1, 2,
  3])) (.leaf [47, 27, 17, 39, 0, 10, 9, 41, 8, 18, 79, 5, 80, 21, 19, 30, 4, 1, 2, 3])) (.leaf
  [47, 27, 17, 39, 0, 10, 9, 41, 8, 18, 157, 5, 21, 19, 30, 4, 1, 2, 3])) (.leaf [47, 27, 17, 39,
  0, 10, 9, 41, 8, 18, 79, 5, 80, 21, 19, 30, 4, 1, 2, 3])) (.leaf [47, 27, 17, 39, 0, 10, 9, 41,
  8, 18, 79, 5, 80, 21, 19, 30, 4, 1, 2, 3])) (.leaf [47, 27, 56, 17, 39, 0, 23, 10, 9, 41, 24, 8,
  18, 79, 5, 80, 21, 19, 30, 4, 1, 2, 3])) (.leaf [47, 27, 17, 39, 0, 10, 9, 41, 8, 18, 79, 5, 80,
  21, 19, 30, 4, 1, 2, 3])) (.leaf [47, 27, 17, 39, 0, 10, 9, 41, 8, 18, 79, 5, 80, 21, 19, 30, 4,
  1, 2, 3])) (.leaf [47, 27, 56, 17, 39, 0, 23, 10, 9, 41, 24, 8, 18, 79, 5, 80, 21, 19, 30, 4, 1,
  2, 3])) (.leaf [90, 27, 17, 96, 0, 10, 39, 8, 9, 41, 18, 79, 5, 80, 21, 19, 30, 4, 1, 2, 3]))
  (.breaks 12619907 (.breaks 9437317 (.breaks 22106241 (.breaks 17 (.breaks 32789 (.breaks 22106257
  (.breaks 8421505 (.breaks 8421521 (.breaks 8495253 (.breaks 27328645 (.breaks 27369601 (.breaks
  16842897 (.breaks 27369489 (.breaks 27369505 (.breaks 27369473 (.leaf [47, 27, 17, 39, 0, 10, 9,
  41, 8, 18, 5, 11, 37, 4, 19, 1, 2, 3]) (.leaf [47, 27, 17, 39, 0, 10, 9, 41, 8, 18, 5, 11, 37, 4,
  19, 1, 2, 3])) (.leaf [47, 27, 17, 39, 0, 10, 9, 41, 8, 18, 5, 11, 37, 4, 19, 1, 2, 3])) (.leaf
  [47, 27, 17, 39, 0, 10, 9, 41, 8, 18, 5, 11, 37, 4, 19, 1, 2, 3])) (.leaf [47, 27, 17, 39, 0, 10,
  9, 41, 8, 18, 5, 11, 37, 4, 19, 1, 2, 3])) (.leaf [47, 27, 17, 39, 0, 10, 48, 9, 41, 8, 1, 18, 2,
  5, 11, 3, 37, 19])) (.leaf [47, 27, 17, 39, 0, 10, 9, 41, 8, 18, 5, 11, 37, 4, 19, 1, 2, 3]))
  (.leaf [47, 27, 17, 39, 0, 10, 48, 9, 41, 8, 1, 18, 2, 5, 11, 3, 37, 19])) (.leaf [47, 27, 17,
  39, 0, 10, 9, 41, 8, 18, 5, 11, 37, 4, 19, 1, 2, 3])) (.leaf [47, 27, 56, 17, 39, 0, 23, 10, 48,
  9, 41, 24, 8, 1, 18, 2, 5, 11, 3, 37, 19])) (.leaf [47, 27, 17, 39, 0, 10, 9, 41, 8, 18, 5, 11,
  37, 4, 19, 1, 2, 3])) (.leaf [47, 27, 56, 17, 39, 0, 23, 10, 48, 9, 41, 24, 8, 1, 18, 2, 5, 11,
  3, 37, 19])) (.leaf [47, 27, 17, 39, 0, 10, 9, 41, 8, 18, 5, 11, 37, 4, 19, 1, 2, 3])) (.leaf
  [47, 27, 17, 39, 0, 10, 9, 41, 8, 18, 5, 11, 37, 4, 19, 1, 2, 3])) (.leaf [47, 27, 56, 17, 39, 0,
  23, 10, 48, 9, 41, 24, 8, 1, 18, 2, 5, 11, 3, 37, 19])) (.leaf [90, 27, 17, 96, 0, 10, 39, 8, 9,
  41, 18, 5, 11, 37, 4, 19, 1, 2, 3]))) (.cycle 28 [99, 100, 18, 55])

/-- some of the cases -/
def real6OneCase37 : LooseTree :=
  .breaks 12619906 (.breaks 23154709 (.breaks 9437317 (.breaks 9474193 (.breaks 22106241 (.breaks
  17 (.breaks 65557 (.breaks 22106257 (.breaks 16842881 (.breaks 16810114 (.breaks 8421521 (.breaks
  8495253 (.breaks 27369601 (.breaks 27369489 (.breaks 27369505 (.breaks 27369473 (.leaf
  [47, 27, 17, 39, 0, 10, 9, 59, 8, 21, 58, 5, 11, 4, 1, 2, 3]) (.leaf
  [47, 27, 17, 39, 0, 10, 9, 59, 8, 21, 58, 5, 11, 4, 1, 2, 3])) (.leaf
  [47, 27, 17, 39, 0, 10, 9, 59, 8, 21, 58, 5, 11, 4, 1, 2, 3])) (.leaf
  [47, 27, 17, 39, 0, 10, 9, 59, 8, 21, 58, 5, 11, 4, 1, 2, 3])) (.leaf
  [47, 27, 17, 39, 0, 10, 9, 59, 8, 21, 58, 5, 11, 4, 1, 2, 3])) (.leaf
  [47, 27, 17, 39, 0, 10, 9, 59, 8, 21, 58, 5, 11, 4, 1, 2, 3])) (.leaf
  [47, 27, 17, 39, 0, 10, 9, 59, 8, 21, 58, 5, 11, 4, 1, 2, 3])) (.leaf
  [47, 27, 17, 39, 0, 10, 9, 59, 8, 21, 58, 5, 11, 4, 1, 2, 3])) (.leaf
  [47, 27, 17, 39, 0, 10, 9, 59, 8, 21, 58, 5, 11, 4, 1, 2, 3])) (.leaf
  [47, 27, 17, 39, 0, 10, 9, 59, 8, 21, 58, 5, 11, 4, 1, 2, 3])) (.leaf
  [47, 27, 17, 39, 0, 10, 9, 59, 8, 21, 58, 5, 11, 4, 1, 2, 3])) (.leaf
  [47, 27, 17, 39, 0, 10, 9, 59, 8, 21, 58, 5, 11, 4, 1, 2, 3])) (.leaf
  [47, 27, 17, 39, 0, 10, 9, 59, 8, 21, 58, 5, 11, 4, 1, 2, 3])) (.leaf
  [47, 27, 17, 39, 0, 10, 9, 59, 8, 21, 58, 5, 11, 4, 1, 2, 3])) (.leaf
  [47, 27, 17, 39, 0, 10, 9, 59, 8, 21, 58, 5, 11, 4, 1, 2, 3])) (.leaf
  [47, 27, 17, 39, 0, 10, 9, 59, 8, 21, 58, 5, 11, 4, 1, 2, 3])) (.leaf
  [47, 27, 17, 39, 0, 10, 9, 59, 8, 21, 58, 5, 11, 4, 1, 2, 3])

/-- some of the cases -/
def real6OneCase38 : LooseTree :=
  .breaks 12619907 (.breaks 9437317 (.breaks 9474193 (.breaks 22097939 (.breaks 17 (.breaks 32789
  (.breaks 20000785 (.breaks 8421505 (.breaks 20000897 (.breaks 8421521 (.breaks 8495253 (.breaks
  20000945 (.breaks 20000929 (.breaks 27369601 (.breaks 27369489 (.breaks 27369505 (.breaks
  27369473 (.leaf [47, 27, 17, 39, 0, 67, 9, 41, 63, 18, 46, 5, 11, 23, 24, 4, 1, 2, 3]) (.leaf
  [47, 27, 17, 39, 0, 67, 9, 41, 63, 18, 46, 5, 11, 23, 24, 4, 1, 2, 3])) (.leaf [47, 27, 17, 39,
  0, 67, 9, 41, 63, 18, 46, 5, 11, 23, 24, 4, 1, 2, 3])) (.leaf [47, 27, 17, 39, 0, 67, 9, 41, 63,
  18, 46, 5, 11, 23, 24, 4, 1, 2, 3])) (.leaf
  [47, 27, 17, 39, 0, 67, 10, 48, 9, 63, 8, 1, 46, 2, 23, 3, 24])) (.leaf [47, 27, 17, 39, 0, 67,
  9, 41, 63, 18, 46, 5, 11, 23, 24, 4, 1, 2, 3])) (.leaf [47, 27, 17, 39, 0, 67, 9, 41, 63, 18, 46,
  5, 11, 23, 24, 4, 1, 2, 3])) (.leaf
  [47, 27, 17, 39, 0, 67, 10, 48, 9, 63, 8, 1, 46, 2, 23, 3, 24])) (.leaf [47, 27, 17, 39, 0, 67,
  9, 41, 63, 18, 46, 5, 11, 23, 24, 4, 1, 2, 3])) (.leaf [47, 27, 17, 39, 0, 67, 9, 41, 63, 18, 46,
  5, 11, 23, 24, 4, 1, 2, 3])) (.leaf
  [47, 27, 17, 39, 0, 67, 10, 48, 9, 63, 8, 1, 46, 2, 23, 3, 24])) (.leaf [47, 27, 17, 39, 0, 123,
  9, 41, 46, 18, 23, 5, 11, 24, 4, 1, 2, 3])) (.leaf
  [47, 27, 17, 39, 0, 67, 10, 48, 9, 63, 8, 1, 46, 2, 23, 3, 24])) (.leaf [47, 27, 17, 39, 0, 67,
  9, 41, 63, 18, 46, 5, 11, 23, 24, 4, 1, 2, 3])) (.leaf [47, 27, 17, 39, 0, 123, 9, 41, 46, 18,
  23, 5, 11, 24, 4, 1, 2, 3])) (.leaf [47, 27, 17, 39, 0, 67, 9, 41, 63, 18, 46, 5, 11, 23, 24, 4,
  1, 2, 3])) (.leaf [47, 27, 17, 39, 0, 67, 10, 48, 9, 63, 8, 1, 46, 2, 23, 3, 24])) (.leaf [90,
  27, 17, 96, 0, 67, 39, 63, 9, 41, 46, 18, 23, 5, 11, 24, 4, 1, 2, 3])

/-- some of the cases -/
def real6OneCase39 : LooseTree :=
  .breaks 8495253 (.breaks 12583045 (.breaks 23154709 (.breaks 17 (.breaks 22106241 (.breaks
  22126725 (.breaks 27299973 (.breaks 9474193 (.breaks 22106257 (.breaks 27369489 (.breaks 27369505
  (.breaks 27369473 (.leaf [11, 28, 17, 9, 10, 48, 86, 0, 8, 1, 2, 3]) (.leaf
  [11, 28, 56, 17, 9, 23, 10, 48, 86, 0, 24, 8, 1, 2, 3])) (.leaf
  [11, 28, 56, 17, 9, 23, 10, 48, 86, 0, 24, 8, 1, 2, 3])) (.leaf
  [11, 28, 56, 17, 9, 23, 10, 48, 86, 0, 24, 8, 1, 2, 3])) (.leaf
  [11, 28, 56, 17, 9, 23, 10, 48, 86, 0, 24, 8, 1, 2, 3])) (.leaf
  [11, 28, 56, 17, 9, 23, 10, 48, 86, 0, 24, 8, 1, 2, 3])) (.leaf
  [11, 28, 56, 17, 9, 23, 10, 48, 86, 0, 24, 8, 1, 2, 3])) (.leaf
  [11, 28, 56, 17, 9, 23, 10, 48, 86, 0, 24, 8, 1, 2, 3])) (.leaf
  [11, 28, 56, 17, 9, 23, 10, 48, 86, 0, 24, 8, 1, 2, 3])) (.leaf
  [11, 56, 17, 23, 10, 48, 86, 0, 24, 8, 1, 2, 3])) (.leaf
  [11, 28, 56, 17, 9, 23, 10, 48, 86, 0, 24, 8, 1, 2, 3])) (.leaf
  [11, 56, 17, 23, 10, 48, 86, 0, 24, 8, 1, 2, 3])) (.leaf
  [11, 28, 56, 17, 9, 23, 10, 48, 86, 0, 24, 8, 1, 2, 3])

/-- some of the cases -/
def real6OneCase40 : LooseTree :=
  .breaks 16777349 (.breaks 36885 (.breaks 9474177 (.breaks 9474193 (.breaks 9543829 (.breaks
  27369601 (.breaks 27369489 (.breaks 27369505 (.breaks 27369473 (.leaf
  [65, 9, 62, 35, 0, 57, 4, 1, 2, 3]) (.leaf [65, 17, 9, 62, 10, 35, 8, 0, 57, 4, 1, 2, 3])) (.leaf
  [65, 17, 9, 62, 10, 35, 8, 0, 57, 4, 1, 2, 3])) (.leaf
  [65, 17, 9, 62, 10, 35, 8, 0, 57, 4, 1, 2, 3])) (.leaf
  [65, 17, 9, 62, 10, 35, 8, 0, 57, 4, 1, 2, 3])) (.leaf
  [65, 17, 9, 62, 10, 35, 8, 0, 57, 4, 1, 2, 3])) (.leaf [65, 9, 62, 35, 0, 57, 4, 1, 2, 3]))
  (.leaf [65, 17, 9, 62, 10, 35, 8, 0, 57, 4, 1, 2, 3])) (.leaf
  [65, 17, 9, 62, 10, 35, 8, 0, 57, 4, 1, 2, 3])) (.leaf
  [65, 17, 9, 62, 10, 35, 8, 0, 57, 4, 1, 2, 3])

/-- some of the cases -/
def real6OneCase41 : LooseTree :=
  .cases [] 7 (.cases [] 30 (.breaks 23154709 (.breaks 16842769 (.breaks 22106241 (.breaks 16842881
  (.breaks 22106257 (.breaks 16814210 (.breaks 9474193 (.breaks 9543829 (.breaks 27369601 (.breaks
  27369489 (.breaks 27369505 (.breaks 27369473 (.leaf
  [79, 17, 80, 10, 21, 8, 82, 0, 57, 4, 1, 2, 3]) (.leaf
  [79, 17, 80, 10, 21, 8, 82, 0, 57, 4, 1, 2, 3])) (.leaf
  [79, 17, 80, 10, 21, 8, 82, 0, 57, 4, 1, 2, 3])) (.leaf
  [79, 17, 80, 10, 21, 8, 82, 0, 57, 4, 1, 2, 3])) (.leaf
  [79, 17, 80, 10, 21, 8, 82, 0, 57, 4, 1, 2, 3])) (.leaf
  [79, 17, 80, 10, 21, 8, 82, 0, 57, 4, 1, 2, 3])) (.leaf
  [79, 17, 80, 10, 21, 8, 82, 0, 57, 4, 1, 2, 3])) (.leaf
  [79, 17, 80, 10, 21, 8, 82, 0, 57, 4, 1, 2, 3])) (.leaf
  [79, 28, 9, 80, 21, 82, 0, 57, 4, 1, 2, 3])) (.leaf
  [79, 17, 80, 10, 21, 8, 82, 0, 57, 4, 1, 2, 3])) (.leaf
  [79, 28, 9, 80, 21, 82, 0, 57, 4, 1, 2, 3])) (.leaf [157, 17, 21, 10, 82, 8, 0, 57, 4, 1, 2, 3]))
  (.leaf [79, 28, 9, 80, 21, 82, 0, 57, 4, 1, 2, 3])) (.breaks 8425603 (.breaks 9474177 (.breaks
  9474193 (.breaks 9502850 (.breaks 22106257 (.breaks 16842897 (.breaks 16883861 (.breaks 27369601
  (.breaks 27369489 (.breaks 27369505 (.breaks 27369473 (.leaf
  [102, 17, 35, 10, 0, 121, 8, 19, 30, 4, 1, 2, 3]) (.leaf
  [102, 17, 35, 10, 0, 121, 8, 19, 30, 4, 1, 2, 3])) (.leaf
  [102, 17, 35, 10, 0, 121, 8, 19, 30, 4, 1, 2, 3])) (.leaf
  [102, 17, 35, 10, 0, 121, 8, 19, 30, 4, 1, 2, 3])) (.leaf
  [102, 17, 35, 10, 0, 121, 8, 19, 30, 4, 1, 2, 3])) (.leaf
  [102, 17, 35, 10, 0, 121, 8, 19, 30, 4, 1, 2, 3])) (.leaf
  [102, 17, 35, 10, 0, 121, 8, 19, 30, 4, 1, 2, 3])) (.leaf
  [102, 28, 9, 35, 0, 121, 19, 30, 4, 1, 2, 3])) (.leaf
  [102, 28, 17, 9, 35, 10, 0, 121, 8, 19, 30, 4, 1, 2, 3])) (.leaf
  [102, 17, 35, 10, 0, 121, 8, 19, 30, 4, 1, 2, 3])) (.leaf
  [154, 28, 17, 9, 0, 121, 10, 19, 30, 8, 4, 1, 2, 3])) (.leaf
  [154, 28, 17, 9, 0, 121, 10, 19, 30, 8, 4, 1, 2, 3]))) (.breaks 8425603 (.breaks 9474177 (.breaks
  9543829 (.breaks 27328645 (.breaks 27369601 (.breaks 16842897 (.breaks 27369489 (.breaks 27369505
  (.breaks 27369473 (.leaf [102, 35, 0, 57, 37, 4, 19, 1, 2, 3]) (.leaf
  [102, 35, 0, 57, 37, 4, 19, 1, 2, 3])) (.leaf [102, 35, 0, 57, 37, 4, 19, 1, 2, 3])) (.leaf
  [102, 35, 0, 57, 37, 4, 19, 1, 2, 3])) (.leaf [102, 35, 0, 57, 37, 4, 19, 1, 2, 3])) (.leaf
  [102, 35, 0, 57, 37, 4, 19, 1, 2, 3])) (.leaf [102, 35, 0, 57, 37, 4, 19, 1, 2, 3])) (.leaf
  [102, 17, 35, 10, 0, 57, 8, 37, 4, 19, 1, 2, 3])) (.leaf
  [154, 17, 0, 57, 10, 8, 37, 4, 19, 1, 2, 3])) (.leaf
  [154, 17, 0, 57, 10, 8, 37, 4, 19, 1, 2, 3]))

/-- some of the cases -/
def real6OneCase42 : LooseTree :=
  .breaks 12583045 (.breaks 17 (.breaks 65557 (.breaks 16810003 (.breaks 8421393 (.breaks 8421505
  (.breaks 8421521 (.breaks 8425603 (.breaks 9474177 (.breaks 9474193 (.breaks 9543829 (.breaks
  27369601 (.breaks 27369489 (.breaks 27369505 (.breaks 27369473 (.leaf
  [28, 9, 59, 99, 100, 18, 5, 102, 35, 0, 57, 4, 1, 2, 3]) (.leaf [28, 17, 59, 10, 99, 8, 100, 18,
  5, 102, 35, 0, 57, 4, 1, 2, 3])) (.leaf [28, 17, 59, 10, 99, 8, 100, 18, 5, 102, 35, 0, 57, 4, 1,
  2, 3])) (.leaf [28, 17, 59, 10, 99, 8, 100, 18, 5, 102, 35, 0, 57, 4, 1, 2, 3])) (.leaf [28, 17,
  59, 10, 99, 8, 100, 18, 5, 102, 35, 0, 57, 4, 1, 2, 3])) (.leaf [28, 17, 59, 10, 99, 8, 100, 18,
  5, 102, 35, 0, 57, 4, 1, 2, 3])) (.leaf [28, 17, 59, 10, 99, 8, 100, 18, 5, 102, 35, 0, 57, 4, 1,
  2, 3])) (.leaf [28, 17, 59, 10, 99, 8, 100, 18, 5, 154, 0, 57, 4, 1, 2, 3])) (.leaf
  [28, 17, 59, 10, 99, 8, 100, 18, 5, 154, 0, 57, 4, 1, 2, 3])) (.leaf [28, 17, 59, 10, 99, 8, 100,
  18, 5, 102, 35, 0, 57, 4, 1, 2, 3])) (.leaf [28, 17, 9, 59, 10, 99, 8, 100, 18, 5, 102, 35, 0,
  57, 4, 1, 2, 3])) (.leaf [28, 17, 9, 59, 10, 152, 8, 18, 5, 102, 35, 0, 57, 4, 1, 2, 3])) (.leaf
  [28, 17, 9, 59, 10, 152, 8, 18, 5, 102, 35, 0, 57, 4, 1, 2, 3])) (.leaf [28, 17, 9, 59, 10, 99,
  8, 100, 18, 5, 102, 35, 0, 57, 4, 1, 2, 3])) (.leaf [28, 17, 59, 10, 99, 8, 100, 18, 5, 102, 35,
  0, 57, 4, 1, 2, 3])) (.leaf [28, 17, 9, 59, 10, 99, 8, 100, 18, 5, 102, 35, 0, 57, 4, 1, 2, 3])

/-- some of the cases -/
def real6OneCase43 : LooseTree :=
  .cases [] 25 (.breaks 11534466 (.breaks 36885 (.breaks 9474177 (.breaks 9474193 (.breaks 8421521
  (.breaks 8495253 (.breaks 27369601 (.breaks 27369489 (.breaks 27369505 (.breaks 27369473 (.leaf
  [70, 62, 35, 88, 0, 5, 11, 4, 1, 2, 3]) (.leaf [70, 62, 35, 88, 0, 5, 11, 4, 1, 2, 3])) (.leaf
  [70, 62, 35, 88, 0, 5, 11, 4, 1, 2, 3])) (.leaf [70, 62, 35, 88, 0, 5, 11, 4, 1, 2, 3])) (.leaf
  [70, 62, 35, 88, 0, 5, 11, 4, 1, 2, 3])) (.leaf [70, 62, 35, 88, 0, 5, 11, 4, 1, 2, 3])) (.leaf
  [70, 62, 35, 88, 0, 5, 11, 4, 1, 2, 3])) (.leaf [70, 62, 35, 88, 0, 5, 11, 4, 1, 2, 3])) (.leaf
  [70, 9, 62, 35, 88, 0, 5, 11, 4, 1, 2, 3])) (.leaf [70, 9, 62, 35, 88, 0, 5, 11, 4, 1, 2, 3]))
  (.leaf [70, 9, 62, 35, 88, 0, 5, 11, 4, 1, 2, 3])) (.cases [] 29 (.breaks 12583045 (.breaks 45186
  (.breaks 11571221 (.breaks 9474177 (.breaks 9470082 (.breaks 8421521 (.breaks 8495253 (.breaks
  27369601 (.breaks 27369489 (.breaks 27369505 (.breaks 27369473 (.leaf
  [28, 9, 77, 81, 35, 88, 0, 5, 11, 4, 1, 2, 3]) (.leaf
  [28, 9, 77, 81, 35, 88, 0, 5, 11, 4, 1, 2, 3])) (.leaf
  [28, 9, 77, 81, 35, 88, 0, 5, 11, 4, 1, 2, 3])) (.leaf
  [28, 9, 77, 81, 35, 88, 0, 5, 11, 4, 1, 2, 3])) (.leaf
  [28, 9, 77, 81, 35, 88, 0, 5, 11, 4, 1, 2, 3])) (.leaf
  [28, 9, 77, 81, 35, 88, 0, 5, 11, 4, 1, 2, 3])) (.leaf
  [28, 9, 77, 81, 35, 88, 0, 5, 11, 4, 1, 2, 3])) (.leaf
  [28, 17, 77, 10, 81, 8, 35, 88, 0, 5, 11, 4, 1, 2, 3])) (.leaf
  [28, 17, 77, 10, 81, 8, 35, 88, 0, 5, 11, 4, 1, 2, 3])) (.leaf
  [28, 17, 77, 10, 81, 8, 35, 88, 0, 5, 11, 4, 1, 2, 3])) (.leaf
  [28, 17, 77, 10, 81, 8, 35, 88, 0, 5, 11, 4, 1, 2, 3])) (.leaf
  [28, 17, 77, 10, 81, 8, 35, 88, 0, 5, 11, 4, 1, 2, 3])) (.breaks 36885 (.breaks 9474177 (.breaks
  9482373 (.breaks 9470082 (.breaks 9474193 (.breaks 11579409 (.breaks 8421521 (.breaks 8495253
  (.breaks 11579425 (.breaks 11579393 (.breaks 27369601 (.breaks 27369489 (.breaks 27369505
  (.breaks 27369473 (.leaf [28, 62, 35, 87, 88, 0, 12, 5, 11, 13, 14, 4, 1, 2, 3]) (.leaf
  [28, 62, 35, 87, 88, 0, 12, 5, 11, 13, 14, 4, 1, 2, 3])) (.leaf
  [28, 62, 35, 87, 88, 0, 12, 5, 11, 13, 14, 4, 1, 2, 3])) (.leaf
  [28, 62, 35, 87, 88, 0, 12, 5, 11, 13, 14, 4, 1, 2, 3])) (.leaf
  [28, 62, 35, 87, 88, 0, 12, 5, 11, 13, 14, 4, 1, 2, 3])) (.leaf
  [28, 62, 35, 87, 88, 0, 12, 5, 11, 13, 14, 4, 1, 2, 3])) (.leaf
  [28, 62, 35, 87, 88, 0, 12, 5, 11, 13, 14, 4, 1, 2, 3])) (.leaf
  [28, 62, 35, 87, 88, 0, 12, 5, 11, 13, 14, 4, 1, 2, 3])) (.leaf
  [28, 62, 35, 87, 88, 0, 12, 5, 11, 13, 14, 4, 1, 2, 3])) (.leaf
  [28, 62, 35, 87, 88, 0, 12, 5, 11, 13, 14, 4, 1, 2, 3])) (.leaf
  [28, 62, 35, 87, 88, 0, 12, 5, 11, 13, 14, 4, 1, 2, 3])) (.leaf
  [28, 62, 35, 87, 88, 0, 12, 5, 11, 13, 14, 4, 1, 2, 3])) (.leaf
  [28, 62, 35, 87, 88, 0, 12, 5, 11, 13, 14, 4, 1, 2, 3])) (.leaf
  [28, 62, 35, 87, 88, 0, 12, 5, 11, 13, 14, 4, 1, 2, 3])) (.leaf
  [28, 62, 35, 87, 88, 0, 12, 5, 11, 13, 14, 4, 1, 2, 3])))

/-- some of the cases -/
def real6OneCase44 : LooseTree :=
  .cases [] 37 (.breaks 23154709 (.breaks 129 (.breaks 9474193 (.breaks 22106241 (.breaks 22126725
  (.breaks 17 (.breaks 22106257 (.breaks 27369489 (.breaks 27369505 (.breaks 27369473 (.leaf
  [112, 7, 17, 36, 0, 10, 48, 9, 8, 1, 2, 3]) (.leaf [112, 7, 17, 36, 0, 10, 48, 9, 8, 1, 2, 3]))
  (.leaf [112, 7, 17, 36, 0, 10, 48, 9, 8, 1, 2, 3])) (.leaf
  [112, 7, 17, 36, 0, 10, 48, 9, 8, 1, 2, 3])) (.leaf [112, 7, 17, 36, 0, 10, 48, 9, 8, 1, 2, 3]))
  (.leaf [112, 7, 17, 36, 0, 10, 48, 9, 8, 1, 2, 3])) (.leaf
  [112, 7, 17, 36, 0, 10, 48, 9, 8, 1, 2, 3])) (.leaf [112, 7, 17, 36, 0, 10, 48, 9, 8, 1, 2, 3]))
  (.leaf [112, 7, 17, 36, 0, 10, 48, 9, 8, 1, 2, 3])) (.leaf
  [112, 7, 17, 36, 0, 10, 48, 9, 8, 1, 2, 3])) (.leaf
  [112, 7, 17, 36, 0, 92, 10, 48, 9, 6, 8, 1, 2, 3])) (.breaks 11571333 (.breaks 9437333 (.breaks
  32901 (.breaks 17 (.breaks 8421521 (.breaks 8495253 (.breaks 27369601 (.breaks 27369489 (.breaks
  27369505 (.breaks 27369473 (.leaf [7, 54, 0, 36, 97, 9, 5, 11, 4, 1, 2, 3]) (.leaf
  [7, 54, 0, 36, 97, 9, 5, 11, 4, 1, 2, 3])) (.leaf [7, 54, 0, 36, 97, 9, 5, 11, 4, 1, 2, 3]))
  (.leaf [7, 54, 0, 36, 97, 9, 5, 11, 4, 1, 2, 3])) (.leaf
  [7, 54, 0, 36, 97, 9, 5, 11, 4, 1, 2, 3])) (.leaf [7, 54, 0, 36, 97, 9, 5, 11, 4, 1, 2, 3]))
  (.leaf [7, 54, 0, 36, 97, 9, 5, 11, 4, 1, 2, 3])) (.leaf
  [7, 54, 0, 36, 97, 9, 5, 11, 4, 1, 2, 3])) (.leaf
  [7, 17, 54, 0, 10, 36, 97, 8, 9, 5, 11, 4, 1, 2, 3])) (.leaf
  [7, 17, 54, 0, 10, 36, 97, 8, 9, 5, 11, 4, 1, 2, 3])) (.leaf
  [7, 17, 54, 0, 10, 36, 97, 8, 9, 5, 11, 4, 1, 2, 3]))

/-- some of the cases -/
def real6OneCase45 : LooseTree :=
  .cases [] 16 (.breaks 11534482 (.breaks 11583509 (.breaks 23154709 (.breaks 36997 (.breaks
  12583045 (.breaks 12632193 (.breaks 22106241 (.breaks 22126725 (.breaks 17 (.breaks 9474193
  (.breaks 12632209 (.breaks 22106257 (.breaks 27369489 (.breaks 27369505 (.breaks 27369473 (.leaf
  [52, 50, 17, 33, 28, 15, 10, 48, 9, 0, 6, 8, 1, 2, 3]) (.leaf [52, 50, 56, 17, 33, 28, 15, 23,
  10, 48, 9, 0, 6, 24, 8, 1, 2, 3])) (.leaf [52, 50, 56, 17, 33, 28, 15, 23, 10, 48, 9, 0, 6, 24,
  8, 1, 2, 3])) (.leaf [52, 50, 56, 17, 33, 28, 15, 23, 10, 48, 9, 0, 6, 24, 8, 1, 2, 3])) (.leaf
  [52, 50, 56, 17, 33, 28, 15, 23, 10, 48, 9, 0, 6, 24, 8, 1, 2, 3])) (.leaf [52, 50, 56, 17, 33,
  28, 15, 23, 10, 48, 9, 0, 6, 24, 8, 1, 2, 3])) (.leaf [52, 50, 56, 17, 33, 28, 15, 23, 10, 48, 9,
  0, 6, 24, 8, 1, 2, 3])) (.leaf [52, 50, 56, 17, 33, 28, 15, 23, 10, 48, 9, 0, 6, 24, 8, 1, 2,
  3])) (.leaf [52, 50, 56, 17, 33, 28, 15, 23, 10, 48, 9, 0, 6, 24, 8, 1, 2, 3])) (.leaf [52, 50,
  56, 17, 33, 28, 15, 23, 10, 48, 9, 0, 6, 24, 8, 1, 2, 3])) (.leaf [52, 50, 56, 17, 33, 28, 15,
  23, 10, 48, 9, 0, 6, 24, 8, 1, 2, 3])) (.leaf [52, 50, 56, 17, 33, 28, 15, 23, 10, 48, 9, 0, 6,
  24, 8, 1, 2, 3])) (.leaf [52, 50, 56, 17, 33, 28, 15, 23, 10, 48, 9, 0, 6, 24, 8, 1, 2, 3]))
  (.leaf [52, 50, 56, 17, 33, 28, 15, 23, 10, 48, 9, 0, 6, 24, 8, 1, 2, 3])) (.leaf [52, 50, 56,
  17, 33, 28, 15, 23, 10, 48, 9, 0, 6, 24, 8, 1, 2, 3])) (.leaf [52, 50, 56, 17, 33, 28, 15, 23,
  10, 48, 9, 0, 6, 24, 8, 1, 2, 3])) (.breaks 9486467 (.breaks 12628101 (.breaks 11534467 (.cycle
  32 [33, 73, 60, 71]) (.cycle 32 [33, 73, 60, 71])) (.cycle 32 [33, 73, 60, 71])) (.cycle 32
  [33, 73, 60, 71]))

/-- some of the cases -/
def real6OneCase46 : LooseTree :=
  .breaks 9486467 (.breaks 12583045 (.breaks 45187 (.cycle 12 [7, 73, 28, 76]) (.cycle 12
  [7, 73, 28, 76])) (.cycle 12 [7, 73, 28, 76])) (.cycle 22 [28, 76, 7, 73])

/-- some of the cases -/
def real6OneCase47 : LooseTree :=
  .breaks 12619795 (.leaf [49, 90]) (.leaf [49, 90])

/-- some of the cases -/
def real6OneCase48 : LooseTree :=
  .breaks 11571333 (.breaks 23146629 (.breaks 23154709 (.breaks 9474193 (.breaks 14737441 (.breaks
  20000945 (.breaks 22106241 (.breaks 22126725 (.breaks 27312261 (.breaks 12632209 (.breaks
  20000929 (.breaks 22106257 (.breaks 27369489 (.breaks 27369505 (.breaks 27369473 (.leaf
  [93, 11, 7, 56, 17, 0, 94, 23, 10, 48, 40, 6, 24, 8, 1, 2, 3]) (.leaf
  [93, 11, 7, 56, 17, 0, 94, 23, 10, 48, 40, 6, 24, 8, 1, 2, 3])) (.leaf
  [93, 11, 7, 56, 17, 0, 94, 23, 10, 48, 40, 6, 24, 8, 1, 2, 3])) (.leaf
  [93, 11, 7, 56, 17, 0, 94, 23, 10, 48, 40, 6, 24, 8, 1, 2, 3])) (.leaf
  [93, 11, 7, 56, 17, 0, 94, 23, 10, 48, 40, 6, 24, 8, 1, 2, 3])) (.leaf
  [93, 11, 7, 56, 17, 0, 94, 23, 10, 48, 40, 6, 24, 8, 1, 2, 3])) (.leaf
  [93, 11, 7, 56, 17, 0, 94, 23, 10, 48, 40, 6, 24, 8, 1, 2, 3])) (.leaf
  [93, 11, 7, 56, 17, 0, 94, 23, 10, 48, 40, 6, 24, 8, 1, 2, 3])) (.leaf
  [93, 11, 7, 56, 17, 0, 94, 23, 10, 48, 40, 6, 24, 8, 1, 2, 3])) (.leaf
  [93, 11, 7, 56, 17, 0, 94, 23, 10, 48, 40, 6, 24, 8, 1, 2, 3])) (.leaf
  [93, 11, 7, 56, 17, 0, 94, 23, 10, 48, 40, 6, 24, 8, 1, 2, 3])) (.leaf
  [93, 11, 7, 56, 17, 0, 94, 23, 10, 48, 40, 6, 24, 8, 1, 2, 3])) (.leaf
  [93, 11, 7, 56, 17, 0, 94, 23, 10, 48, 40, 6, 24, 8, 1, 2, 3])) (.leaf
  [93, 11, 7, 56, 17, 0, 94, 23, 10, 48, 40, 6, 24, 8, 1, 2, 3])) (.leaf
  [93, 11, 7, 56, 17, 0, 94, 23, 10, 48, 40, 6, 24, 8, 1, 2, 3])) (.leaf
  [93, 11, 7, 56, 17, 0, 94, 23, 10, 48, 40, 6, 24, 8, 1, 2, 3])

/-- some of the cases -/
def real6OneCase49 : LooseTree :=
  .breaks 23154709 (.breaks 17 (.breaks 9474193 (.breaks 22106241 (.breaks 22126725 (.breaks
  27312261 (.breaks 12632209 (.breaks 22106257 (.breaks 27369489 (.breaks 27369505 (.breaks
  27369473 (.leaf [11, 7, 65, 17, 9, 0, 10, 48, 40, 6, 8, 1, 2, 3]) (.leaf
  [11, 7, 65, 17, 9, 0, 10, 48, 40, 6, 8, 1, 2, 3])) (.leaf
  [11, 7, 65, 17, 9, 0, 10, 48, 40, 6, 8, 1, 2, 3])) (.leaf
  [11, 7, 65, 17, 9, 0, 10, 48, 40, 6, 8, 1, 2, 3])) (.leaf
  [11, 7, 65, 17, 9, 0, 10, 48, 40, 6, 8, 1, 2, 3])) (.leaf
  [11, 7, 65, 17, 9, 0, 10, 48, 40, 6, 8, 1, 2, 3])) (.leaf
  [11, 7, 65, 17, 9, 0, 10, 48, 40, 6, 8, 1, 2, 3])) (.leaf
  [11, 7, 65, 17, 9, 0, 10, 48, 40, 6, 8, 1, 2, 3])) (.leaf
  [11, 7, 65, 17, 9, 0, 10, 48, 40, 6, 8, 1, 2, 3])) (.leaf
  [11, 7, 65, 17, 9, 0, 10, 48, 40, 6, 8, 1, 2, 3])) (.leaf
  [11, 7, 65, 17, 9, 0, 10, 48, 40, 6, 8, 1, 2, 3])) (.leaf
  [11, 7, 65, 17, 9, 0, 10, 48, 40, 6, 8, 1, 2, 3])

/-- some of the cases -/
def real6OneCase50 : LooseTree :=
  .cases [] 22 (.breaks 65557 (.breaks 23154709 (.breaks 9474193 (.breaks 16822405 (.breaks
  16842881 (.breaks 22126725 (.breaks 11579409 (.breaks 16883861 (.breaks 27369489 (.breaks
  11579425 (.breaks 27312261 (.breaks 27369505 (.breaks 11579393 (.breaks 12632209 (.breaks
  27369473 (.leaf [59, 7, 17, 0, 64, 21, 48, 12, 30, 1, 13, 40, 2, 14, 6, 3]) (.leaf
  [59, 7, 17, 0, 64, 21, 48, 12, 30, 1, 13, 40, 2, 14, 6, 3])) (.leaf
  [59, 7, 17, 0, 64, 21, 48, 12, 30, 1, 13, 40, 2, 14, 6, 3])) (.leaf
  [59, 7, 17, 0, 64, 21, 48, 12, 30, 1, 13, 40, 2, 14, 6, 3])) (.leaf
  [59, 7, 17, 0, 64, 21, 48, 12, 30, 1, 13, 40, 2, 14, 6, 3])) (.leaf
  [59, 7, 17, 0, 64, 21, 48, 12, 30, 1, 13, 40, 2, 14, 6, 3])) (.leaf
  [59, 7, 17, 0, 64, 21, 48, 12, 30, 1, 13, 40, 2, 14, 6, 3])) (.leaf
  [59, 7, 17, 0, 64, 21, 48, 12, 30, 1, 13, 40, 2, 14, 6, 3])) (.leaf
  [59, 11, 7, 17, 0, 64, 48, 40, 12, 6, 1, 13, 2, 14, 3])) (.leaf
  [59, 7, 17, 0, 64, 21, 48, 12, 30, 1, 13, 40, 2, 14, 6, 3])) (.leaf
  [59, 7, 17, 0, 64, 21, 48, 12, 30, 1, 13, 40, 2, 14, 6, 3])) (.leaf
  [59, 11, 7, 17, 0, 64, 48, 40, 12, 6, 1, 13, 2, 14, 3])) (.leaf
  [59, 7, 17, 0, 64, 21, 48, 12, 30, 1, 13, 40, 2, 14, 6, 3])) (.leaf
  [59, 7, 17, 0, 64, 21, 48, 12, 30, 1, 13, 40, 2, 14, 6, 3])) (.leaf
  [59, 7, 17, 0, 64, 21, 48, 12, 30, 1, 13, 40, 2, 14, 6, 3])) (.leaf
  [59, 11, 7, 17, 0, 64, 10, 48, 40, 12, 6, 8, 1, 13, 2, 14, 3])) (.breaks 11599893 (.breaks
  9474193 (.breaks 16842881 (.breaks 22106241 (.breaks 16883861 (.breaks 22106257 (.breaks 27312261
  (.breaks 27369601 (.breaks 12632209 (.breaks 27369489 (.breaks 27369505 (.breaks 27369473 (.leaf
  [7, 69, 17, 0, 21, 10, 30, 8, 40, 4, 6, 1, 2, 3]) (.leaf
  [7, 69, 17, 0, 21, 10, 30, 8, 40, 4, 6, 1, 2, 3])) (.leaf
  [7, 69, 17, 0, 21, 10, 30, 8, 40, 4, 6, 1, 2, 3])) (.leaf
  [7, 69, 17, 0, 21, 10, 30, 8, 40, 4, 6, 1, 2, 3])) (.leaf
  [7, 69, 17, 0, 21, 10, 30, 8, 40, 4, 6, 1, 2, 3])) (.leaf
  [7, 69, 17, 0, 21, 10, 30, 8, 40, 4, 6, 1, 2, 3])) (.leaf
  [7, 69, 17, 0, 21, 10, 30, 8, 40, 4, 6, 1, 2, 3])) (.leaf
  [7, 69, 118, 119, 0, 21, 30, 40, 4, 6, 1, 2, 3])) (.leaf
  [7, 69, 118, 17, 119, 0, 21, 10, 30, 8, 40, 4, 6, 1, 2, 3])) (.leaf
  [7, 69, 118, 119, 0, 21, 30, 40, 4, 6, 1, 2, 3])) (.leaf
  [7, 69, 118, 17, 119, 0, 21, 10, 30, 8, 40, 4, 6, 1, 2, 3])) (.leaf
  [7, 69, 17, 0, 21, 10, 30, 8, 40, 4, 6, 1, 2, 3])) (.leaf
  [7, 69, 118, 17, 119, 0, 21, 10, 30, 8, 40, 4, 6, 1, 2, 3]))

/-- some of the cases -/
def real6OneCase51 : LooseTree :=
  .breaks 8495253 (.breaks 23154709 (.breaks 9474193 (.breaks 22126725 (.breaks 27312261 (.breaks
  27328645 (.breaks 12632209 (.breaks 16842897 (.breaks 27369489 (.breaks 27369505 (.breaks
  27369473 (.leaf [11, 7, 17, 0, 48, 40, 37, 6, 19, 1, 2, 3]) (.leaf
  [11, 7, 17, 0, 10, 48, 40, 37, 6, 19, 8, 1, 2, 3])) (.leaf
  [11, 7, 17, 0, 10, 48, 40, 37, 6, 19, 8, 1, 2, 3])) (.leaf
  [11, 7, 17, 0, 10, 48, 40, 37, 6, 19, 8, 1, 2, 3])) (.leaf
  [11, 7, 17, 0, 48, 40, 37, 6, 19, 1, 2, 3])) (.leaf [11, 7, 17, 0, 48, 40, 37, 6, 19, 1, 2, 3]))
  (.leaf [11, 7, 17, 0, 48, 40, 37, 6, 19, 1, 2, 3])) (.leaf
  [11, 7, 17, 0, 48, 40, 37, 6, 19, 1, 2, 3])) (.leaf
  [11, 7, 17, 0, 10, 48, 40, 37, 6, 19, 8, 1, 2, 3])) (.leaf
  [11, 7, 17, 0, 48, 40, 37, 6, 19, 1, 2, 3])) (.leaf
  [11, 7, 17, 0, 10, 48, 40, 37, 6, 19, 8, 1, 2, 3])) (.leaf
  [11, 7, 17, 0, 10, 48, 40, 37, 6, 19, 8, 1, 2, 3])

/-- some of the cases -/
def real6OneCase52 : LooseTree :=
  .breaks 19955730 (.breaks 8421505 (.breaks 8421521 (.breaks 8495253 (.breaks 22106257 (.breaks
  27312261 (.breaks 27369601 (.breaks 12632209 (.breaks 27369489 (.breaks 27369505 (.breaks
  27369473 (.leaf [7, 78, 17, 18, 0, 10, 5, 11, 8, 40, 4, 6, 1, 2, 3]) (.leaf
  [7, 78, 17, 18, 0, 10, 5, 11, 8, 40, 4, 6, 1, 2, 3])) (.leaf
  [7, 78, 17, 18, 0, 10, 5, 11, 8, 40, 4, 6, 1, 2, 3])) (.leaf
  [7, 78, 17, 18, 0, 10, 5, 11, 8, 40, 4, 6, 1, 2, 3])) (.leaf
  [7, 78, 17, 18, 0, 10, 5, 11, 8, 40, 4, 6, 1, 2, 3])) (.leaf
  [7, 78, 17, 18, 0, 10, 48, 5, 11, 8, 1, 40, 2, 6, 3])) (.leaf
  [7, 78, 17, 18, 0, 10, 5, 11, 8, 40, 4, 6, 1, 2, 3])) (.leaf
  [7, 78, 17, 18, 0, 10, 5, 11, 8, 40, 4, 6, 1, 2, 3])) (.leaf
  [7, 78, 17, 18, 0, 10, 48, 5, 11, 8, 1, 40, 2, 6, 3])) (.leaf
  [7, 78, 17, 18, 0, 10, 5, 11, 8, 40, 4, 6, 1, 2, 3])) (.leaf
  [7, 78, 17, 18, 0, 10, 48, 5, 11, 8, 1, 40, 2, 6, 3])) (.leaf
  [7, 78, 17, 18, 0, 10, 48, 5, 11, 8, 1, 40, 2, 6, 3])

/-- some of the cases -/
def real6OneCase53 : LooseTree :=
  .breaks 16777349 (.breaks 49173 (.breaks 22106241 (.breaks 12632193 (.breaks 22106257 (.breaks
  12632209 (.breaks 12689557 (.breaks 27369601 (.breaks 27369489 (.breaks 27369505 (.breaks
  27369473 (.leaf [7, 65, 17, 9, 26, 0, 10, 15, 8, 6, 29, 4, 1, 2, 3]) (.leaf
  [7, 65, 17, 9, 26, 0, 10, 15, 8, 6, 29, 4, 1, 2, 3])) (.leaf
  [7, 65, 17, 9, 26, 0, 10, 15, 8, 6, 29, 4, 1, 2, 3])) (.leaf
  [7, 65, 17, 9, 26, 0, 10, 15, 8, 6, 29, 4, 1, 2, 3])) (.leaf
  [7, 65, 17, 9, 26, 0, 10, 15, 8, 6, 29, 4, 1, 2, 3])) (.leaf
  [7, 65, 17, 9, 26, 0, 10, 15, 8, 6, 29, 4, 1, 2, 3])) (.leaf
  [7, 65, 17, 9, 26, 0, 10, 15, 8, 6, 29, 4, 1, 2, 3])) (.leaf
  [7, 65, 17, 9, 26, 0, 10, 15, 8, 6, 29, 4, 1, 2, 3])) (.leaf
  [7, 65, 17, 9, 26, 0, 10, 15, 8, 6, 29, 4, 1, 2, 3])) (.leaf
  [7, 65, 17, 9, 26, 0, 10, 15, 8, 6, 29, 4, 1, 2, 3])) (.leaf
  [7, 65, 17, 9, 26, 0, 10, 15, 8, 6, 29, 4, 1, 2, 3])) (.leaf
  [7, 65, 17, 9, 26, 0, 10, 15, 8, 6, 29, 4, 1, 2, 3])

/-- some of the cases -/
def real6OneCase54 : LooseTree :=
  .breaks 16822405 (.breaks 11579409 (.breaks 11583509 (.breaks 11579425 (.breaks 12632193 (.breaks
  11579393 (.breaks 12632209 (.breaks 12689557 (.breaks 27369601 (.breaks 27369489 (.breaks
  27369505 (.breaks 27369473 (.leaf [59, 7, 0, 64, 12, 50, 13, 15, 14, 6, 29, 4, 1, 2, 3]) (.leaf
  [59, 7, 0, 64, 12, 50, 13, 15, 14, 6, 29, 4, 1, 2, 3])) (.leaf
  [59, 7, 0, 64, 12, 50, 13, 15, 14, 6, 29, 4, 1, 2, 3])) (.leaf
  [59, 7, 0, 64, 12, 50, 13, 15, 14, 6, 29, 4, 1, 2, 3])) (.leaf
  [59, 7, 0, 64, 12, 50, 13, 15, 14, 6, 29, 4, 1, 2, 3])) (.leaf
  [59, 7, 0, 64, 12, 50, 13, 15, 14, 6, 29, 4, 1, 2, 3])) (.leaf
  [59, 7, 0, 64, 12, 50, 13, 15, 14, 6, 29, 4, 1, 2, 3])) (.leaf
  [59, 7, 0, 64, 12, 50, 13, 15, 14, 6, 29, 4, 1, 2, 3])) (.leaf
  [59, 7, 0, 64, 12, 50, 13, 15, 14, 6, 29, 4, 1, 2, 3])) (.leaf
  [59, 7, 0, 64, 12, 50, 13, 15, 14, 6, 29, 4, 1, 2, 3])) (.leaf
  [59, 7, 0, 64, 12, 50, 13, 15, 14, 6, 29, 4, 1, 2, 3])) (.leaf
  [59, 7, 0, 64, 12, 50, 13, 15, 14, 6, 29, 4, 1, 2, 3])) (.leaf
  [59, 7, 0, 64, 12, 50, 13, 15, 14, 6, 29, 4, 1, 2, 3])

/-- some of the cases -/
def real6OneCase55 : LooseTree :=
  .cases [] 28 (.cases [] 10 (.cases [] 24 (.breaks 16842769 (.breaks 16842881 (.breaks 16826498
  (.breaks 12632209 (.breaks 12689557 (.breaks 27349125 (.breaks 27369601 (.breaks 22106257
  (.breaks 27369489 (.breaks 27369505 (.breaks 27369473 (.leaf
  [79, 7, 0, 80, 21, 72, 6, 29, 34, 4, 8, 1, 2, 3]) (.leaf
  [79, 7, 0, 80, 21, 72, 6, 29, 34, 4, 8, 1, 2, 3])) (.leaf
  [79, 7, 0, 80, 21, 72, 6, 29, 34, 4, 8, 1, 2, 3])) (.leaf
  [79, 7, 0, 80, 21, 72, 6, 29, 34, 4, 8, 1, 2, 3])) (.leaf
  [79, 7, 0, 80, 21, 72, 6, 29, 34, 4, 8, 1, 2, 3])) (.leaf
  [79, 7, 0, 80, 21, 72, 6, 29, 34, 4, 8, 1, 2, 3])) (.leaf
  [79, 7, 0, 80, 21, 72, 6, 29, 34, 4, 8, 1, 2, 3])) (.leaf
  [79, 7, 0, 80, 21, 72, 6, 29, 34, 4, 8, 1, 2, 3])) (.leaf
  [79, 7, 0, 80, 21, 72, 6, 29, 34, 4, 8, 1, 2, 3])) (.leaf
  [79, 7, 0, 80, 21, 72, 6, 29, 34, 4, 8, 1, 2, 3])) (.leaf
  [79, 7, 0, 80, 21, 72, 6, 29, 34, 4, 8, 1, 2, 3])) (.leaf
  [55, 7, 0, 21, 72, 6, 29, 34, 4, 8, 1, 2, 3])) (.breaks 8437891 (.breaks 9474193 (.breaks
  12632193 (.breaks 12632209 (.breaks 12648578 (.breaks 16883861 (.breaks 27349125 (.breaks
  27369601 (.breaks 22106257 (.breaks 27369489 (.breaks 27369505 (.breaks 27369473 (.leaf
  [49, 7, 0, 15, 6, 68, 30, 34, 4, 8, 1, 2, 3]) (.leaf
  [49, 7, 0, 15, 6, 68, 19, 30, 34, 4, 8, 1, 2, 3])) (.leaf
  [49, 7, 0, 15, 6, 68, 19, 30, 34, 4, 8, 1, 2, 3])) (.leaf
  [49, 7, 0, 15, 6, 68, 19, 30, 34, 4, 8, 1, 2, 3])) (.leaf
  [49, 7, 0, 15, 6, 68, 30, 34, 4, 8, 1, 2, 3])) (.leaf
  [49, 7, 0, 15, 6, 68, 19, 30, 34, 4, 8, 1, 2, 3])) (.leaf
  [49, 7, 0, 15, 6, 68, 30, 34, 4, 8, 1, 2, 3])) (.leaf
  [49, 7, 0, 15, 6, 68, 19, 30, 34, 4, 8, 1, 2, 3])) (.leaf
  [49, 7, 0, 15, 6, 68, 19, 30, 34, 4, 8, 1, 2, 3])) (.leaf
  [49, 7, 0, 15, 6, 68, 30, 34, 4, 8, 1, 2, 3])) (.leaf
  [109, 7, 0, 6, 68, 19, 30, 34, 4, 8, 1, 2, 3])) (.leaf
  [49, 7, 0, 15, 6, 68, 30, 34, 4, 8, 1, 2, 3])) (.leaf
  [109, 7, 0, 6, 68, 19, 30, 34, 4, 8, 1, 2, 3]))) (.breaks 23154709 (.breaks 9474193 (.breaks
  22106241 (.breaks 22106257 (.breaks 22126741 (.breaks 27369601 (.breaks 27369489 (.breaks
  27369505 (.breaks 27369473 (.leaf [7, 17, 0, 10, 8, 74, 4, 1, 2, 3]) (.leaf
  [49, 17, 15, 10, 6, 8, 74, 4, 1, 2, 3])) (.leaf [49, 17, 15, 10, 6, 8, 74, 4, 1, 2, 3])) (.leaf
  [49, 17, 15, 10, 6, 8, 74, 4, 1, 2, 3])) (.leaf [49, 17, 15, 10, 6, 8, 74, 4, 1, 2, 3])) (.leaf
  [49, 17, 15, 10, 6, 8, 74, 4, 1, 2, 3])) (.leaf [49, 7, 17, 0, 15, 10, 6, 74, 4, 1, 2, 3]))
  (.leaf [49, 7, 17, 0, 15, 10, 6, 74, 4, 1, 2, 3])) (.leaf [7, 17, 0, 10, 8, 74, 4, 1, 2, 3]))
  (.leaf [49, 7, 17, 0, 15, 10, 6, 74, 4, 1, 2, 3]))) (.cycle 8 [55, 152, 18])

/-- some of the cases -/
def real6OneCase56 : LooseTree :=
  .breaks 23154709 (.breaks 9474193 (.breaks 12632193 (.breaks 22106241 (.breaks 12632209 (.breaks
  12689557 (.breaks 22106257 (.breaks 27328645 (.breaks 27369601 (.breaks 16842897 (.breaks
  27369489 (.breaks 27369505 (.breaks 27369473 (.leaf
  [49, 7, 17, 0, 15, 10, 6, 29, 8, 37, 4, 19, 1, 2, 3]) (.leaf
  [49, 7, 17, 0, 15, 10, 6, 29, 8, 37, 4, 19, 1, 2, 3])) (.leaf
  [49, 7, 17, 0, 15, 10, 6, 29, 8, 37, 4, 19, 1, 2, 3])) (.leaf
  [49, 7, 17, 0, 15, 10, 6, 29, 8, 37, 4, 19, 1, 2, 3])) (.leaf
  [49, 7, 17, 0, 15, 10, 6, 29, 8, 37, 4, 19, 1, 2, 3])) (.leaf
  [49, 7, 17, 0, 15, 10, 6, 29, 8, 37, 4, 19, 1, 2, 3])) (.leaf
  [49, 7, 17, 0, 15, 10, 6, 29, 8, 37, 4, 19, 1, 2, 3])) (.leaf
  [49, 7, 17, 0, 15, 10, 6, 29, 8, 37, 4, 19, 1, 2, 3])) (.leaf
  [49, 7, 17, 0, 15, 10, 6, 29, 8, 37, 4, 19, 1, 2, 3])) (.leaf
  [49, 7, 17, 0, 15, 10, 6, 29, 8, 37, 4, 19, 1, 2, 3])) (.leaf
  [49, 7, 17, 0, 15, 10, 6, 29, 8, 37, 4, 19, 1, 2, 3])) (.leaf
  [109, 7, 17, 0, 6, 29, 10, 8, 37, 4, 19, 1, 2, 3])) (.leaf
  [49, 7, 17, 0, 15, 10, 6, 29, 8, 37, 4, 19, 1, 2, 3])) (.leaf
  [49, 7, 17, 0, 15, 10, 6, 29, 8, 37, 4, 19, 1, 2, 3])

/-- some of the cases -/
def real6OneCase57 : LooseTree :=
  .breaks 11599893 (.breaks 16842881 (.breaks 16810114 (.breaks 8437891 (.breaks 12632193 (.breaks
  12632209 (.breaks 12689557 (.breaks 27369601 (.breaks 27369489 (.breaks 27369505 (.breaks
  27369473 (.leaf [7, 69, 0, 21, 58, 5, 49, 15, 6, 29, 4, 1, 2, 3]) (.leaf
  [7, 69, 0, 21, 58, 5, 49, 15, 6, 29, 4, 1, 2, 3])) (.leaf
  [7, 69, 0, 21, 58, 5, 49, 15, 6, 29, 4, 1, 2, 3])) (.leaf
  [7, 69, 0, 21, 58, 5, 49, 15, 6, 29, 4, 1, 2, 3])) (.leaf
  [7, 69, 0, 21, 58, 5, 49, 15, 6, 29, 4, 1, 2, 3])) (.leaf
  [7, 69, 0, 21, 58, 5, 49, 15, 6, 29, 4, 1, 2, 3])) (.leaf
  [7, 69, 0, 21, 58, 5, 49, 15, 6, 29, 4, 1, 2, 3])) (.leaf
  [7, 69, 0, 21, 58, 5, 109, 6, 29, 4, 1, 2, 3])) (.leaf
  [7, 69, 0, 21, 58, 5, 109, 6, 29, 4, 1, 2, 3])) (.leaf
  [7, 69, 17, 0, 21, 10, 58, 8, 5, 49, 15, 6, 29, 4, 1, 2, 3])) (.leaf
  [7, 69, 17, 0, 21, 10, 58, 8, 5, 49, 15, 6, 29, 4, 1, 2, 3])) (.leaf
  [7, 69, 17, 0, 21, 10, 58, 8, 5, 49, 15, 6, 29, 4, 1, 2, 3])

/-- some of the cases -/
def real6OneCase58 : LooseTree :=
  .breaks 9474193 (.breaks 12632081 (.breaks 12632193 (.breaks 12615810 (.breaks 12632209 (.breaks
  8421521 (.breaks 8495253 (.breaks 27369601 (.breaks 27369489 (.breaks 27369505 (.breaks 27369473
  (.leaf [7, 101, 0, 84, 15, 38, 6, 5, 11, 4, 1, 2, 3]) (.leaf
  [7, 101, 0, 84, 15, 38, 6, 5, 11, 4, 1, 2, 3])) (.leaf
  [7, 101, 0, 84, 15, 38, 6, 5, 11, 4, 1, 2, 3])) (.leaf
  [7, 101, 0, 84, 15, 38, 6, 5, 11, 4, 1, 2, 3])) (.leaf
  [7, 101, 0, 84, 15, 38, 6, 5, 11, 4, 1, 2, 3])) (.leaf
  [7, 101, 0, 84, 15, 38, 6, 5, 11, 4, 1, 2, 3])) (.leaf
  [7, 101, 0, 84, 15, 38, 6, 5, 11, 4, 1, 2, 3])) (.leaf
  [7, 101, 0, 84, 15, 38, 6, 5, 11, 4, 1, 2, 3])) (.leaf
  [7, 101, 0, 84, 15, 38, 6, 5, 11, 4, 1, 2, 3])) (.leaf
  [7, 101, 0, 84, 15, 38, 6, 5, 11, 4, 1, 2, 3])) (.leaf
  [7, 156, 0, 15, 38, 6, 5, 11, 4, 1, 2, 3])) (.leaf [7, 101, 0, 84, 15, 38, 6, 5, 11, 4, 1, 2, 3])

/-- some of the cases -/
def real6OneCase59 : LooseTree :=
  .breaks 9474193 (.breaks 11583509 (.breaks 12632193 (.breaks 12615810 (.breaks 12632209 (.breaks
  8421521 (.breaks 8495253 (.breaks 27369601 (.breaks 27369489 (.breaks 27369505 (.breaks 27369473
  (.leaf [7, 64, 0, 50, 15, 38, 6, 5, 11, 4, 1, 2, 3]) (.leaf
  [7, 64, 0, 50, 15, 38, 6, 5, 11, 4, 1, 2, 3])) (.leaf
  [7, 64, 0, 50, 15, 38, 6, 5, 11, 4, 1, 2, 3])) (.leaf
  [7, 64, 0, 50, 15, 38, 6, 5, 11, 4, 1, 2, 3])) (.leaf
  [7, 64, 0, 50, 15, 38, 6, 5, 11, 4, 1, 2, 3])) (.leaf
  [7, 64, 0, 50, 15, 38, 6, 5, 11, 4, 1, 2, 3])) (.leaf
  [7, 64, 0, 50, 15, 38, 6, 5, 11, 4, 1, 2, 3])) (.leaf
  [7, 64, 0, 50, 15, 38, 6, 5, 11, 4, 1, 2, 3])) (.leaf
  [7, 64, 0, 50, 15, 38, 6, 5, 11, 4, 1, 2, 3])) (.leaf
  [7, 64, 0, 50, 15, 38, 6, 5, 11, 4, 1, 2, 3])) (.leaf
  [7, 64, 0, 50, 15, 38, 6, 5, 11, 4, 1, 2, 3])) (.leaf
  [7, 64, 0, 50, 15, 38, 6, 5, 11, 4, 1, 2, 3])

/-- some of the cases -/
def real6OneCase60 : LooseTree :=
  .breaks 9474193 (.breaks 16842881 (.breaks 16826498 (.breaks 12615810 (.breaks 12632209 (.breaks
  8421521 (.breaks 8495253 (.breaks 27369601 (.breaks 27369489 (.breaks 27369505 (.breaks 27369473
  (.leaf [7, 69, 0, 21, 72, 38, 6, 5, 11, 4, 1, 2, 3]) (.leaf
  [7, 69, 0, 21, 72, 38, 6, 5, 11, 4, 1, 2, 3])) (.leaf
  [7, 69, 0, 21, 72, 38, 6, 5, 11, 4, 1, 2, 3])) (.leaf
  [7, 69, 0, 21, 72, 38, 6, 5, 11, 4, 1, 2, 3])) (.leaf
  [7, 69, 0, 21, 72, 38, 6, 5, 11, 4, 1, 2, 3])) (.leaf
  [7, 69, 0, 21, 72, 38, 6, 5, 11, 4, 1, 2, 3])) (.leaf
  [7, 69, 0, 21, 72, 38, 6, 5, 11, 4, 1, 2, 3])) (.leaf
  [7, 69, 0, 21, 72, 38, 6, 5, 11, 4, 1, 2, 3])) (.leaf
  [7, 69, 0, 21, 72, 38, 6, 5, 11, 4, 1, 2, 3])) (.leaf
  [7, 69, 0, 21, 72, 38, 6, 5, 11, 4, 1, 2, 3])) (.leaf
  [7, 69, 0, 21, 72, 38, 6, 5, 11, 4, 1, 2, 3])) (.leaf
  [7, 69, 0, 21, 72, 38, 6, 5, 11, 4, 1, 2, 3])

/-- some of the cases -/
def real6OneCase61 : LooseTree :=
  .cases [] 7 (.cases [] 19 (.breaks 11583509 (.breaks 12632193 (.breaks 12615810 (.breaks 8421521
  (.breaks 8454275 (.breaks 16842881 (.breaks 16842897 (.breaks 16883861 (.breaks 27369601 (.breaks
  27369489 (.breaks 27369505 (.breaks 27369473 (.leaf
  [7, 50, 0, 15, 38, 6, 5, 55, 21, 19, 30, 4, 1, 2, 3]) (.leaf
  [7, 50, 0, 15, 38, 6, 5, 55, 21, 19, 30, 4, 1, 2, 3])) (.leaf
  [7, 50, 0, 15, 38, 6, 5, 55, 21, 19, 30, 4, 1, 2, 3])) (.leaf
  [7, 50, 0, 15, 38, 6, 5, 55, 21, 19, 30, 4, 1, 2, 3])) (.leaf
  [7, 50, 0, 15, 38, 6, 5, 55, 21, 19, 30, 4, 1, 2, 3])) (.leaf
  [7, 50, 0, 15, 38, 6, 5, 55, 21, 19, 30, 4, 1, 2, 3])) (.leaf
  [7, 50, 0, 15, 38, 6, 5, 55, 21, 19, 30, 4, 1, 2, 3])) (.leaf
  [7, 50, 0, 15, 38, 6, 5, 115, 19, 30, 4, 1, 2, 3])) (.leaf
  [7, 50, 0, 15, 38, 6, 5, 115, 19, 30, 4, 1, 2, 3])) (.leaf
  [7, 50, 0, 15, 38, 6, 5, 55, 21, 19, 30, 4, 1, 2, 3])) (.leaf
  [7, 50, 17, 0, 15, 10, 38, 6, 8, 5, 55, 21, 30, 4, 1, 2, 3])) (.leaf [7, 50, 17, 0, 15, 10, 38,
  6, 8, 5, 55, 21, 19, 30, 4, 1, 2, 3])) (.leaf [7, 50, 17, 0, 15, 10, 38, 6, 8, 5, 55, 21, 19, 30,
  4, 1, 2, 3])) (.breaks 11583509 (.breaks 9474193 (.breaks 12632193 (.breaks 12632209 (.breaks
  12648578 (.breaks 16810114 (.breaks 8421521 (.breaks 8495253 (.breaks 27369601 (.breaks 27369489
  (.breaks 27369505 (.breaks 27369473 (.leaf [7, 50, 0, 15, 6, 68, 58, 5, 11, 4, 1, 2, 3]) (.leaf
  [7, 50, 0, 15, 6, 68, 58, 19, 5, 11, 4, 1, 2, 3])) (.leaf
  [7, 50, 0, 15, 6, 68, 58, 19, 5, 11, 4, 1, 2, 3])) (.leaf
  [7, 50, 0, 15, 6, 68, 58, 19, 5, 11, 4, 1, 2, 3])) (.leaf
  [7, 50, 0, 15, 6, 68, 58, 19, 5, 11, 4, 1, 2, 3])) (.leaf
  [7, 50, 0, 15, 6, 68, 58, 19, 30, 5, 4, 1, 2, 3])) (.leaf
  [7, 50, 0, 15, 6, 68, 58, 19, 5, 11, 4, 1, 2, 3])) (.leaf
  [7, 50, 0, 15, 6, 68, 58, 19, 30, 5, 4, 1, 2, 3])) (.leaf
  [7, 50, 17, 0, 15, 10, 6, 68, 8, 58, 5, 11, 4, 1, 2, 3])) (.leaf
  [7, 50, 0, 15, 6, 68, 58, 5, 11, 4, 1, 2, 3])) (.leaf
  [7, 50, 17, 0, 15, 10, 6, 68, 8, 58, 5, 11, 4, 1, 2, 3])) (.leaf
  [7, 50, 0, 15, 6, 68, 58, 5, 11, 4, 1, 2, 3])) (.leaf
  [7, 50, 17, 0, 15, 10, 6, 68, 8, 58, 5, 11, 4, 1, 2, 3]))) (.breaks 11583509 (.breaks 12632193
  (.breaks 12615810 (.breaks 8495253 (.breaks 27328645 (.breaks 27369601 (.breaks 16842897 (.breaks
  27369489 (.breaks 27369505 (.breaks 27369473 (.leaf
  [7, 50, 0, 15, 38, 6, 5, 11, 37, 4, 19, 1, 2, 3]) (.leaf
  [7, 50, 0, 15, 38, 6, 5, 11, 37, 4, 19, 1, 2, 3])) (.leaf
  [7, 50, 0, 15, 38, 6, 5, 11, 37, 4, 19, 1, 2, 3])) (.leaf
  [7, 50, 0, 15, 38, 6, 5, 11, 37, 4, 19, 1, 2, 3])) (.leaf
  [7, 50, 0, 15, 38, 6, 5, 11, 37, 4, 19, 1, 2, 3])) (.leaf
  [7, 50, 0, 15, 38, 6, 5, 11, 37, 4, 19, 1, 2, 3])) (.leaf
  [7, 50, 0, 15, 38, 6, 5, 11, 37, 4, 19, 1, 2, 3])) (.leaf
  [7, 50, 0, 15, 38, 6, 5, 11, 37, 4, 19, 1, 2, 3])) (.leaf
  [7, 50, 0, 15, 38, 6, 5, 11, 37, 4, 19, 1, 2, 3])) (.leaf
  [7, 50, 0, 15, 38, 6, 5, 11, 37, 4, 19, 1, 2, 3])) (.leaf
  [7, 50, 0, 15, 38, 6, 5, 11, 37, 4, 19, 1, 2, 3]))

/-- some of the cases -/
def real6OneCase62 : LooseTree :=
  .breaks 19972115 (.breaks 23154709 (.breaks 12632081 (.breaks 22126725 (.breaks 12628101 (.breaks
  12632193 (.breaks 27369489 (.breaks 11579409 (.breaks 12632209 (.breaks 27369505 (.breaks
  11579425 (.breaks 27369473 (.breaks 11579393 (.leaf
  [7, 101, 17, 0, 84, 48, 60, 15, 1, 12, 6, 2, 13, 3, 14]) (.leaf
  [7, 101, 17, 0, 84, 48, 60, 15, 1, 12, 6, 2, 13, 3, 14])) (.leaf
  [7, 101, 17, 0, 84, 48, 60, 15, 1, 12, 6, 2, 13, 3, 14])) (.leaf
  [7, 101, 17, 0, 84, 48, 60, 15, 1, 12, 6, 2, 13, 3, 14])) (.leaf
  [7, 101, 17, 0, 84, 48, 60, 15, 1, 12, 6, 2, 13, 3, 14])) (.leaf
  [7, 101, 17, 0, 84, 48, 60, 15, 1, 12, 6, 2, 13, 3, 14])) (.leaf
  [7, 101, 17, 0, 84, 48, 60, 15, 1, 12, 6, 2, 13, 3, 14])) (.leaf
  [7, 101, 17, 0, 84, 48, 60, 15, 1, 12, 6, 2, 13, 3, 14])) (.leaf
  [7, 101, 17, 0, 84, 48, 60, 15, 1, 12, 6, 2, 13, 3, 14])) (.leaf
  [7, 101, 17, 0, 84, 48, 60, 15, 1, 12, 6, 2, 13, 3, 14])) (.leaf
  [7, 101, 17, 0, 84, 48, 60, 15, 1, 12, 6, 2, 13, 3, 14])) (.leaf
  [7, 156, 17, 0, 60, 15, 10, 48, 12, 6, 8, 1, 13, 2, 14, 3])) (.leaf
  [7, 101, 17, 0, 84, 48, 60, 15, 1, 12, 6, 2, 13, 3, 14])) (.leaf
  [7, 156, 17, 0, 60, 15, 10, 48, 12, 6, 8, 1, 13, 2, 14, 3])

/-- some of the cases -/
def real6OneCase63 : LooseTree :=
  .breaks 17 (.breaks 49173 (.breaks 9474193 (.breaks 12628101 (.breaks 12632193 (.breaks 11579409
  (.breaks 12632209 (.breaks 11579425 (.breaks 11579393 (.leaf
  [7, 65, 9, 26, 0, 60, 15, 12, 6, 13, 14]) (.leaf [7, 65, 9, 26, 0, 60, 15, 12, 6, 13, 14]))
  (.leaf [7, 65, 9, 26, 0, 60, 15, 12, 6, 13, 14])) (.leaf
  [7, 65, 9, 26, 0, 60, 15, 12, 6, 13, 14])) (.leaf [7, 65, 9, 26, 0, 60, 15, 12, 6, 13, 14]))
  (.leaf [7, 65, 9, 26, 0, 60, 15, 12, 6, 13, 14])) (.leaf
  [7, 65, 9, 26, 0, 60, 15, 12, 6, 13, 14])) (.leaf [7, 65, 9, 26, 0, 60, 15, 12, 6, 13, 14]))
  (.leaf [7, 65, 9, 26, 0, 60, 15, 12, 6, 13, 14])) (.leaf
  [7, 65, 9, 26, 0, 60, 15, 12, 6, 13, 14])

/-- some of the cases -/
def real6OneCase64 : LooseTree :=
  .breaks 8433797 (.breaks 23154709 (.breaks 11579409 (.breaks 12619795 (.breaks 12632193 (.breaks
  22126725 (.breaks 9474065 (.breaks 11579425 (.breaks 12632209 (.breaks 27369489 (.breaks 9474177
  (.breaks 11579393 (.breaks 27369505 (.breaks 9474193 (.breaks 27369473 (.leaf
  [26, 32, 17, 12, 90, 15, 48, 96, 13, 6, 1, 35, 14, 2, 0, 3]) (.leaf
  [26, 32, 17, 12, 90, 15, 48, 96, 13, 6, 1, 35, 14, 2, 0, 3])) (.leaf
  [26, 32, 17, 12, 90, 15, 48, 96, 13, 6, 1, 35, 14, 2, 0, 3])) (.leaf
  [26, 32, 17, 12, 90, 15, 48, 96, 13, 6, 1, 35, 14, 2, 0, 3])) (.leaf
  [26, 32, 17, 12, 90, 15, 48, 96, 13, 6, 1, 35, 14, 2, 0, 3])) (.leaf
  [26, 32, 17, 12, 90, 15, 48, 96, 13, 6, 1, 35, 14, 2, 0, 3])) (.leaf
  [26, 32, 17, 12, 90, 15, 48, 96, 13, 6, 1, 35, 14, 2, 0, 3])) (.leaf
  [26, 32, 17, 12, 90, 15, 48, 96, 13, 6, 1, 35, 14, 2, 0, 3])) (.leaf
  [26, 32, 17, 12, 90, 15, 48, 96, 13, 6, 1, 35, 14, 2, 0, 3])) (.leaf
  [26, 32, 17, 12, 153, 15, 48, 35, 13, 6, 1, 0, 14, 2, 3])) (.leaf
  [26, 32, 17, 12, 90, 15, 48, 96, 13, 6, 1, 35, 14, 2, 0, 3])) (.leaf
  [26, 32, 17, 12, 90, 15, 48, 96, 13, 6, 1, 35, 14, 2, 0, 3])) (.leaf
  [26, 32, 17, 12, 153, 15, 48, 35, 13, 6, 1, 0, 14, 2, 3])) (.leaf
  [26, 32, 17, 12, 90, 15, 48, 96, 13, 6, 1, 35, 14, 2, 0, 3])) (.leaf
  [26, 32, 17, 12, 90, 15, 48, 96, 13, 6, 1, 35, 14, 2, 0, 3])) (.leaf
  [26, 32, 17, 12, 90, 15, 48, 96, 13, 6, 1, 35, 14, 2, 0, 3])

/-- some of the cases -/
def real6OneCase65 : LooseTree :=
  .cases [] 11 (.breaks 8437891 (.breaks 23154709 (.breaks 12628101 (.breaks 12632193 (.breaks
  22106241 (.breaks 22126725 (.breaks 11579409 (.breaks 12632209 (.breaks 22106257 (.breaks
  27369489 (.breaks 11579425 (.breaks 27369505 (.breaks 11579393 (.breaks 27369473 (.leaf
  [49, 7, 17, 0, 60, 15, 10, 48, 12, 6, 8, 1, 13, 2, 14, 3]) (.leaf
  [49, 7, 17, 0, 60, 15, 10, 48, 12, 6, 8, 1, 13, 2, 14, 3])) (.leaf
  [49, 7, 17, 0, 60, 15, 10, 48, 12, 6, 8, 1, 13, 2, 14, 3])) (.leaf
  [49, 7, 17, 0, 60, 15, 10, 48, 12, 6, 8, 1, 13, 2, 14, 3])) (.leaf
  [49, 7, 17, 0, 60, 15, 10, 48, 12, 6, 8, 1, 13, 2, 14, 3])) (.leaf
  [49, 7, 17, 0, 60, 15, 10, 48, 12, 6, 8, 1, 13, 2, 14, 3])) (.leaf
  [49, 7, 17, 0, 60, 15, 10, 48, 12, 6, 8, 1, 13, 2, 14, 3])) (.leaf
  [49, 7, 17, 0, 60, 15, 10, 48, 12, 6, 8, 1, 13, 2, 14, 3])) (.leaf
  [49, 7, 17, 0, 60, 15, 10, 48, 12, 6, 8, 1, 13, 2, 14, 3])) (.leaf
  [49, 7, 17, 0, 60, 15, 10, 48, 12, 6, 8, 1, 13, 2, 14, 3])) (.leaf
  [49, 7, 17, 0, 60, 15, 10, 48, 12, 6, 8, 1, 13, 2, 14, 3])) (.leaf
  [49, 109, 7, 17, 0, 60, 6, 10, 48, 12, 8, 1, 13, 2, 14, 3])) (.leaf
  [49, 7, 17, 0, 60, 15, 10, 48, 12, 6, 8, 1, 13, 2, 14, 3])) (.leaf [49, 7, 56, 17, 0, 60, 15, 23,
  10, 48, 12, 6, 24, 8, 1, 13, 2, 14, 3])) (.leaf [49, 109, 7, 56, 17, 0, 60, 6, 23, 10, 48, 12,
  24, 8, 1, 13, 2, 14, 3])) (.breaks 65557 (.breaks 11571333 (.breaks 9474193 (.breaks 16842881
  (.breaks 16826498 (.breaks 12615811 (.breaks 12615810 (.breaks 12632209 (.breaks 8433797 (.breaks
  8421521 (.breaks 11579409 (.breaks 11579425 (.breaks 11579393 (.leaf
  [59, 7, 0, 21, 72, 95, 38, 6, 32, 5, 12, 13, 14]) (.leaf
  [59, 21, 72, 95, 38, 6, 32, 5, 11, 12, 4, 13, 1, 14, 2, 3])) (.leaf
  [59, 21, 72, 95, 38, 6, 32, 5, 11, 12, 4, 13, 1, 14, 2, 3])) (.leaf
  [59, 21, 72, 95, 38, 6, 32, 5, 11, 12, 4, 13, 1, 14, 2, 3])) (.leaf
  [59, 21, 72, 95, 38, 6, 32, 5, 11, 12, 4, 13, 1, 14, 2, 3])) (.leaf
  [59, 21, 72, 95, 38, 6, 32, 5, 11, 12, 4, 13, 1, 14, 2, 3])) (.leaf
  [59, 21, 72, 95, 38, 6, 32, 5, 11, 12, 4, 13, 1, 14, 2, 3])) (.leaf
  [59, 21, 72, 95, 38, 6, 32, 5, 11, 12, 4, 13, 1, 14, 2, 3])) (.leaf
  [59, 21, 72, 95, 38, 6, 32, 5, 11, 12, 4, 13, 1, 14, 2, 3])) (.leaf
  [59, 7, 0, 21, 72, 95, 38, 6, 32, 11, 12, 4, 13, 1, 14, 2, 3])) (.leaf
  [59, 7, 0, 21, 72, 95, 38, 6, 32, 11, 12, 4, 13, 1, 14, 2, 3])) (.leaf
  [59, 21, 72, 95, 38, 6, 32, 5, 11, 12, 4, 13, 1, 14, 2, 3])) (.leaf
  [59, 21, 72, 95, 38, 6, 32, 5, 11, 12, 4, 13, 1, 14, 2, 3])) (.leaf
  [59, 7, 0, 21, 72, 95, 38, 6, 32, 11, 12, 4, 13, 1, 14, 2, 3]))

/-- some of the cases -/
def real6OneCase66 : LooseTree :=
  .cases [] 28 (.breaks 8433797 (.breaks 8454163 (.breaks 11571333 (.breaks 23154709 (.breaks
  9474193 (.breaks 11579409 (.breaks 12632193 (.breaks 16842769 (.breaks 22106241 (.breaks 11579425
  (.breaks 12632209 (.breaks 16842881 (.breaks 22106257 (.breaks 11579393 (.breaks 16883861
  (.breaks 27369601 (.breaks 27369489 (.breaks 27369505 (.breaks 27369473 (.leaf [26, 32, 79, 7,
  17, 0, 12, 15, 80, 10, 13, 6, 21, 8, 14, 30, 4, 1, 2, 3]) (.leaf [26, 32, 79, 7, 17, 0, 12, 15,
  80, 10, 13, 6, 21, 8, 14, 30, 4, 1, 2, 3])) (.leaf [26, 32, 79, 7, 17, 0, 12, 15, 80, 10, 13, 6,
  21, 8, 14, 30, 4, 1, 2, 3])) (.leaf [26, 32, 79, 7, 17, 0, 12, 15, 80, 10, 13, 6, 21, 8, 14, 30,
  4, 1, 2, 3])) (.leaf [26, 32, 79, 7, 17, 0, 12, 15, 80, 10, 13, 6, 21, 8, 14, 30, 4, 1, 2, 3]))
  (.leaf [26, 32, 79, 7, 17, 0, 12, 15, 80, 10, 13, 6, 21, 8, 14, 30, 4, 1, 2, 3])) (.leaf [26, 32,
  79, 7, 17, 0, 12, 15, 80, 10, 13, 6, 21, 8, 14, 30, 4, 1, 2, 3])) (.leaf [26, 32, 79, 7, 17, 0,
  12, 15, 80, 10, 13, 6, 21, 8, 14, 30, 4, 1, 2, 3])) (.leaf [26, 32, 79, 7, 17, 0, 12, 15, 80, 10,
  13, 6, 21, 8, 14, 30, 4, 1, 2, 3])) (.leaf [26, 32, 79, 7, 17, 0, 12, 15, 80, 10, 13, 6, 21, 8,
  14, 30, 4, 1, 2, 3])) (.leaf [26, 32, 79, 7, 17, 0, 12, 15, 80, 10, 13, 6, 21, 8, 14, 30, 4, 1,
  2, 3])) (.leaf [26, 32, 79, 7, 17, 0, 12, 15, 80, 10, 13, 6, 21, 8, 14, 30, 4, 1, 2, 3])) (.leaf
  [26, 32, 157, 7, 17, 0, 12, 15, 21, 10, 13, 6, 30, 8, 14, 4, 1, 2, 3])) (.leaf [26, 32, 79, 7,
  17, 0, 12, 15, 80, 10, 13, 6, 21, 8, 14, 30, 4, 1, 2, 3])) (.leaf [26, 32, 79, 7, 17, 0, 12, 15,
  80, 10, 13, 6, 21, 8, 14, 30, 4, 1, 2, 3])) (.leaf [26, 32, 79, 7, 17, 0, 12, 15, 80, 10, 13, 6,
  21, 8, 14, 30, 4, 1, 2, 3])) (.leaf [26, 32, 79, 7, 17, 0, 12, 15, 80, 10, 13, 6, 21, 8, 14, 30,
  4, 1, 2, 3])) (.leaf [26, 32, 79, 7, 17, 0, 12, 15, 80, 10, 13, 6, 21, 8, 14, 30, 4, 1, 2, 3]))
  (.leaf [26, 32, 157, 7, 17, 0, 12, 15, 21, 10, 13, 6, 30, 8, 14, 4, 1, 2, 3])) (.leaf [26, 32,
  79, 7, 17, 0, 12, 15, 80, 10, 13, 6, 21, 8, 14, 30, 4, 1, 2, 3])) (.breaks 49173 (.breaks
  12632193 (.breaks 12632209 (.breaks 12648579 (.breaks 12648578 (.breaks 16810003 (.breaks
  16883861 (.breaks 8421393 (.breaks 27369601 (.breaks 8421505 (.breaks 8433797 (.breaks 27369489
  (.breaks 8421521 (.breaks 11579409 (.breaks 27369505 (.breaks 11579425 (.breaks 27369473 (.breaks
  11579393 (.leaf [26, 7, 0, 15, 6, 131, 68, 99, 30, 100, 4, 18, 32, 1, 5, 12, 2, 13, 3, 14])
  (.leaf [26, 7, 0, 15, 6, 131, 68, 99, 30, 100, 4, 18, 32, 1, 5, 12, 2, 13, 3, 14])) (.leaf [26,
  7, 0, 15, 6, 131, 68, 99, 30, 100, 4, 18, 32, 1, 5, 12, 2, 13, 3, 14])) (.leaf [26, 7, 0, 15, 6,
  131, 68, 99, 30, 100, 4, 18, 32, 1, 5, 12, 2, 13, 3, 14])) (.leaf [26, 7, 0, 15, 6, 131, 68, 99,
  30, 100, 4, 18, 32, 1, 5, 12, 2, 13, 3, 14])) (.leaf [26, 7, 0, 15, 6, 131, 68, 99, 30, 100, 4,
  18, 32, 1, 5, 12, 2, 13, 3, 14])) (.leaf [26, 7, 17, 0, 15, 10, 6, 131, 68, 8, 99, 30, 100, 4,
  32, 1, 12, 2, 13, 3, 14])) (.leaf [26, 7, 0, 15, 6, 131, 68, 99, 30, 100, 4, 18, 32, 1, 5, 12, 2,
  13, 3, 14])) (.leaf [26, 7, 0, 15, 6, 131, 68, 99, 30, 100, 4, 18, 32, 1, 5, 12, 2, 13, 3, 14]))
  (.leaf [26, 7, 17, 0, 15, 10, 6, 131, 68, 8, 99, 30, 100, 4, 32, 1, 12, 2, 13, 3, 14])) (.leaf
  [26, 7, 0, 15, 6, 131, 68, 99, 30, 100, 4, 18, 32, 1, 5, 12, 2, 13, 3, 14])) (.leaf [26, 7, 17,
  0, 15, 10, 6, 131, 68, 8, 152, 30, 32, 4, 12, 1, 13, 2, 14, 3])) (.leaf [26, 7, 0, 15, 6, 131,
  68, 99, 30, 100, 4, 18, 32, 1, 5, 12, 2, 13, 3, 14])) (.leaf [26, 7, 17, 0, 15, 10, 6, 131, 68,
  8, 152, 30, 32, 4, 12, 1, 13, 2, 14, 3])) (.leaf [26, 7, 0, 15, 6, 131, 68, 99, 30, 100, 4, 18,
  32, 1, 5, 12, 2, 13, 3, 14])) (.leaf [26, 7, 17, 0, 15, 10, 6, 131, 68, 8, 99, 30, 100, 4, 32, 1,
  12, 2, 13, 3, 14])) (.leaf [26, 7, 0, 15, 6, 131, 68, 99, 30, 100, 4, 18, 32, 1, 5, 12, 2, 13, 3,
  14])) (.leaf [26, 7, 17, 0, 15, 10, 6, 131, 68, 8, 99, 30, 100, 4, 18, 32, 1, 5, 12, 2, 13, 3,
  14])) (.leaf [26, 7, 17, 0, 15, 10, 6, 131, 68, 8, 99, 30, 100, 4, 18, 32, 1, 5, 12, 2, 13, 3,
  14]))

/-- some of the cases -/
def real6OneCase67 : LooseTree :=
  .breaks 49173 (.breaks 8433797 (.breaks 8495253 (.breaks 11571333 (.breaks 23154709 (.breaks
  9474193 (.breaks 11579409 (.breaks 12632193 (.breaks 22126725 (.breaks 27328645 (.breaks 11579425
  (.breaks 12632209 (.breaks 16842897 (.breaks 27369489 (.breaks 11579393 (.breaks 27369505
  (.breaks 27369473 (.leaf [26, 32, 11, 7, 17, 0, 12, 15, 48, 37, 13, 6, 19, 1, 14, 2, 3]) (.leaf
  [26, 32, 11, 7, 17, 0, 12, 15, 10, 48, 37, 13, 6, 19, 8, 1, 14, 2, 3])) (.leaf [26, 32, 11, 7,
  17, 0, 12, 15, 10, 48, 37, 13, 6, 19, 8, 1, 14, 2, 3])) (.leaf [26, 32, 11, 7, 17, 0, 12, 15, 10,
  48, 37, 13, 6, 19, 8, 1, 14, 2, 3])) (.leaf [26, 32, 11, 7, 17, 0, 12, 15, 10, 48, 37, 13, 6, 19,
  8, 1, 14, 2, 3])) (.leaf [26, 32, 11, 7, 17, 0, 12, 15, 10, 48, 37, 13, 6, 19, 8, 1, 14, 2, 3]))
  (.leaf [26, 32, 11, 7, 17, 0, 12, 15, 10, 48, 37, 13, 6, 19, 8, 1, 14, 2, 3])) (.leaf [26, 32,
  11, 7, 17, 0, 12, 15, 10, 48, 37, 13, 6, 19, 8, 1, 14, 2, 3])) (.leaf [26, 32, 11, 7, 17, 0, 12,
  15, 10, 48, 37, 13, 6, 19, 8, 1, 14, 2, 3])) (.leaf [26, 32, 11, 7, 17, 0, 12, 15, 10, 48, 37,
  13, 6, 19, 8, 1, 14, 2, 3])) (.leaf [26, 32, 11, 7, 17, 0, 12, 15, 10, 48, 37, 13, 6, 19, 8, 1,
  14, 2, 3])) (.leaf [26, 32, 11, 7, 17, 0, 12, 15, 10, 48, 37, 13, 6, 19, 8, 1, 14, 2, 3])) (.leaf
  [26, 32, 11, 7, 17, 0, 12, 15, 10, 48, 37, 13, 6, 19, 8, 1, 14, 2, 3])) (.leaf [26, 32, 11, 7,
  17, 0, 12, 15, 10, 48, 37, 13, 6, 19, 8, 1, 14, 2, 3])) (.leaf [26, 32, 11, 7, 17, 0, 12, 15, 10,
  48, 37, 13, 6, 19, 8, 1, 14, 2, 3])) (.leaf [26, 32, 11, 7, 17, 0, 12, 15, 10, 48, 37, 13, 6, 19,
  8, 1, 14, 2, 3])) (.leaf [26, 32, 11, 7, 17, 0, 12, 15, 10, 48, 37, 13, 6, 19, 8, 1, 14, 2, 3]))
  (.leaf [26, 32, 11, 7, 17, 0, 12, 15, 10, 48, 37, 13, 6, 19, 8, 1, 14, 2, 3])

/-- some of the cases -/
def real6OneCase68 : LooseTree :=
  .breaks 23154709 (.breaks 11579409 (.breaks 12632193 (.breaks 22097939 (.breaks 22106241 (.breaks
  11579425 (.breaks 12632209 (.breaks 20000785 (.breaks 22106257 (.breaks 11579393 (.breaks
  20000897 (.breaks 20000945 (.breaks 20000929 (.leaf [26, 32, 7, 17, 0, 12, 15, 67, 10, 13, 6, 63,
  8, 14, 46, 23, 24]) (.leaf [26, 32, 7, 17, 0, 12, 15, 67, 10, 13, 6, 63, 8, 14, 46, 23, 24]))
  (.leaf [26, 32, 7, 17, 0, 12, 15, 67, 10, 13, 6, 63, 8, 14, 46, 23, 24])) (.leaf [26, 32, 7, 17,
  0, 12, 15, 67, 10, 13, 6, 63, 8, 14, 46, 23, 24])) (.leaf [26, 32, 7, 17, 0, 12, 15, 67, 10, 13,
  6, 63, 8, 14, 46, 23, 24])) (.leaf [26, 32, 7, 17, 0, 12, 15, 67, 10, 13, 6, 63, 8, 14, 46, 23,
  24])) (.leaf [26, 32, 7, 17, 0, 12, 15, 123, 10, 13, 6, 46, 8, 14, 23, 24])) (.leaf [26, 32, 7,
  17, 0, 12, 15, 67, 10, 13, 6, 63, 8, 14, 46, 23, 24])) (.leaf [26, 32, 7, 17, 0, 12, 15, 67, 10,
  13, 6, 63, 8, 14, 46, 23, 24])) (.leaf [26, 32, 7, 17, 0, 12, 15, 67, 10, 13, 6, 63, 8, 14, 46,
  23, 24])) (.leaf [26, 32, 7, 17, 0, 12, 15, 123, 10, 13, 6, 46, 8, 14, 23, 24])) (.leaf [26, 32,
  7, 17, 0, 12, 15, 67, 10, 13, 6, 63, 8, 14, 46, 23, 24])) (.leaf [26, 32, 7, 17, 0, 12, 15, 67,
  10, 13, 6, 63, 8, 14, 46, 23, 24])) (.leaf [26, 32, 7, 17, 0, 12, 15, 67, 10, 13, 6, 63, 8, 14,
  46, 23, 24])

/-- some of the cases -/
def real6OneCase69 : LooseTree :=
  .breaks 49173 (.breaks 12628101 (.breaks 12632193 (.breaks 11567125 (.breaks 11579409 (.breaks
  12632209 (.breaks 8421505 (.breaks 11579425 (.breaks 8421521 (.breaks 8495253 (.breaks 11579393
  (.breaks 27369601 (.breaks 27369489 (.breaks 27369505 (.breaks 27369473 (.leaf
  [26, 7, 0, 60, 15, 61, 12, 6, 18, 13, 5, 11, 14, 4, 1, 2, 3]) (.leaf
  [26, 7, 0, 60, 15, 61, 12, 6, 18, 13, 5, 11, 14, 4, 1, 2, 3])) (.leaf
  [26, 7, 0, 60, 15, 61, 12, 6, 18, 13, 5, 11, 14, 4, 1, 2, 3])) (.leaf
  [26, 7, 0, 60, 15, 61, 12, 6, 18, 13, 5, 11, 14, 4, 1, 2, 3])) (.leaf
  [26, 7, 0, 60, 15, 61, 12, 6, 18, 13, 5, 11, 14, 4, 1, 2, 3])) (.leaf
  [26, 7, 0, 60, 15, 61, 12, 6, 18, 13, 5, 11, 14, 4, 1, 2, 3])) (.leaf
  [26, 7, 0, 60, 15, 61, 12, 6, 18, 13, 5, 11, 14, 4, 1, 2, 3])) (.leaf
  [26, 7, 0, 60, 15, 61, 12, 6, 18, 13, 5, 11, 14, 4, 1, 2, 3])) (.leaf
  [26, 7, 0, 60, 15, 61, 12, 6, 18, 13, 5, 11, 14, 4, 1, 2, 3])) (.leaf [26, 7, 17, 0, 60, 15, 10,
  61, 12, 6, 8, 18, 13, 5, 11, 14, 4, 1, 2, 3])) (.leaf
  [26, 7, 0, 60, 15, 61, 12, 6, 18, 13, 5, 11, 14, 4, 1, 2, 3])) (.leaf
  [26, 7, 0, 60, 15, 61, 12, 6, 18, 13, 5, 11, 14, 4, 1, 2, 3])) (.leaf [26, 7, 17, 0, 60, 15, 10,
  61, 12, 6, 8, 18, 13, 5, 11, 14, 4, 1, 2, 3])) (.leaf
  [26, 7, 0, 60, 15, 61, 12, 6, 18, 13, 5, 11, 14, 4, 1, 2, 3])) (.leaf [26, 7, 17, 0, 60, 15, 10,
  61, 12, 6, 8, 18, 13, 5, 11, 14, 4, 1, 2, 3])) (.leaf [26, 7, 17, 0, 60, 15, 10, 61, 12, 6, 8,
  18, 13, 5, 11, 14, 4, 1, 2, 3])

/-- some of the cases -/
def real6OneCase70 : LooseTree :=
  .cases [] 37 (.breaks 8388757 (.breaks 12619906 (.breaks 22110341 (.breaks 129 (.breaks 9474193
  (.breaks 23158801 (.breaks 17 (.leaf [112, 27, 25, 36, 0, 16, 9]) (.leaf
  [112, 11, 27, 25, 36, 0, 16, 4, 9, 1, 2, 3])) (.leaf [112, 11, 27, 36, 0, 4, 9, 1, 2, 3])) (.leaf
  [112, 11, 27, 25, 36, 0, 16, 4, 9, 1, 2, 3])) (.leaf
  [112, 11, 27, 25, 36, 0, 16, 4, 9, 1, 2, 3])) (.leaf [112, 11, 27, 36, 0, 4, 9, 1, 2, 3])) (.leaf
  [112, 11, 27, 25, 36, 0, 16, 4, 9, 1, 2, 3])) (.leaf
  [112, 11, 27, 25, 36, 0, 16, 4, 9, 1, 2, 3])) (.breaks 12583061 (.breaks 129 (.breaks 32901
  (.breaks 17 (.breaks 8421521 (.breaks 8495253 (.breaks 27369601 (.breaks 27369489 (.breaks
  27369505 (.breaks 27369473 (.leaf [104, 36, 97, 9, 5, 11, 4, 1, 2, 3]) (.leaf
  [104, 27, 36, 97, 0, 9, 5, 11, 34, 8])) (.leaf [104, 27, 36, 97, 0, 9, 5, 11, 34, 8])) (.leaf
  [104, 27, 36, 97, 0, 9, 5, 11, 34, 8])) (.leaf [104, 27, 36, 97, 0, 9, 5, 11, 34, 8])) (.leaf
  [104, 27, 36, 97, 0, 9, 11, 4, 1, 2, 3])) (.leaf [104, 27, 36, 97, 0, 9, 11, 4, 1, 2, 3])) (.leaf
  [104, 27, 36, 97, 0, 9, 11, 4, 1, 2, 3])) (.leaf [104, 27, 36, 97, 0, 9, 11, 4, 1, 2, 3])) (.leaf
  [104, 27, 36, 97, 0, 9, 11, 4, 1, 2, 3])) (.leaf [104, 27, 36, 97, 0, 9, 11, 4, 1, 2, 3]))

/-- some of the cases -/
def real6OneCase71 : LooseTree :=
  .cases [] 29 (.cases [] 20 (.breaks 17 (.breaks 23158801 (.breaks 27299973 (.breaks 9474193
  (.leaf [43, 11, 25, 9, 16, 86, 0]) (.leaf [43, 11, 25, 9, 16, 86, 0])) (.leaf
  [43, 11, 25, 9, 16, 86, 0])) (.leaf [43, 11, 25, 9, 16, 86, 0])) (.leaf
  [43, 11, 25, 9, 16, 86, 0])) (.breaks 11571221 (.breaks 17 (.breaks 9474177 (.breaks 23158801
  (.breaks 9474193 (.breaks 9543829 (.breaks 27349125 (.breaks 27369601 (.breaks 22106257 (.breaks
  27369489 (.breaks 27369505 (.breaks 27369473 (.leaf
  [43, 81, 25, 9, 35, 16, 0, 57, 34, 4, 8, 1, 2, 3]) (.leaf
  [43, 81, 25, 9, 35, 16, 0, 57, 34, 4, 8, 1, 2, 3])) (.leaf
  [43, 81, 25, 9, 35, 16, 0, 57, 34, 4, 8, 1, 2, 3])) (.leaf
  [43, 81, 25, 9, 35, 16, 0, 57, 34, 4, 8, 1, 2, 3])) (.leaf
  [43, 81, 25, 9, 35, 16, 0, 57, 34, 4, 8, 1, 2, 3])) (.leaf
  [43, 81, 25, 9, 35, 16, 0, 57, 34, 4, 8, 1, 2, 3])) (.leaf
  [43, 81, 25, 9, 35, 16, 0, 57, 34, 4, 8, 1, 2, 3])) (.leaf
  [43, 81, 25, 9, 35, 16, 0, 57, 34, 4, 8, 1, 2, 3])) (.leaf
  [43, 81, 25, 9, 35, 16, 0, 57, 34, 4, 8, 1, 2, 3])) (.leaf
  [43, 81, 25, 9, 35, 16, 0, 57, 34, 4, 8, 1, 2, 3])) (.leaf
  [43, 52, 81, 25, 53, 9, 35, 16, 0, 57, 6, 34, 4, 8, 1, 2, 3])) (.leaf
  [43, 81, 25, 9, 35, 16, 0, 57, 34, 4, 8, 1, 2, 3])) (.leaf
  [43, 52, 81, 25, 53, 9, 35, 16, 0, 57, 6, 34, 4, 8, 1, 2, 3]))) (.breaks 12619907 (.breaks
  9482373 (.breaks 11534467 (.cycle 32 [53, 47, 87, 71]) (.cycle 32 [53, 47, 87, 71])) (.cycle 32
  [53, 47, 87, 71])) (.cycle 32 [53, 47, 87, 71]))

/-- some of the cases -/
def real6OneCase72 : LooseTree :=
  .breaks 27369489 (.breaks 27369505 (.breaks 27369473 (.leaf [43, 27, 74, 9, 0, 4, 1, 2, 3])
  (.leaf [43, 27, 74, 9, 0, 4, 1, 2, 3])) (.leaf [43, 27, 74, 9, 0, 4, 1, 2, 3])) (.leaf
  [43, 27, 74, 9, 0, 4, 1, 2, 3])

/-- some of the cases -/
def real6OneCase73 : LooseTree :=
  .breaks 17 (.breaks 45187 (.breaks 45186 (.breaks 11571333 (.breaks 11579409 (.breaks 9474193
  (.breaks 11579425 (.breaks 11579393 (.leaf [43, 9, 76, 77, 7, 12, 0, 13, 14]) (.leaf
  [43, 9, 76, 77, 7, 12, 0, 13, 14])) (.leaf [43, 9, 76, 77, 7, 12, 0, 13, 14])) (.leaf
  [43, 9, 76, 77, 7, 12, 0, 13, 14])) (.leaf [43, 9, 76, 77, 7, 12, 0, 13, 14])) (.leaf
  [43, 9, 76, 77, 7, 12, 0, 13, 14])) (.leaf [43, 9, 76, 77, 7, 12, 0, 13, 14])) (.leaf
  [43, 9, 76, 77, 7, 12, 0, 13, 14])) (.leaf [43, 9, 76, 77, 7, 12, 0, 13, 14])

/-- some of the cases -/
def real6OneCase74 : LooseTree :=
  .breaks 11571221 (.breaks 9437317 (.breaks 32789 (.breaks 9474193 (.breaks 8421505 (.breaks
  8421521 (.leaf [81, 39, 35, 9, 41, 0, 18, 5]) (.leaf [81, 39, 35, 9, 41, 0, 18, 5])) (.leaf
  [81, 39, 35, 9, 41, 0, 18, 5])) (.leaf [81, 39, 35, 9, 41, 0, 18, 5])) (.leaf
  [81, 39, 35, 9, 41, 0, 18, 5])) (.leaf [81, 39, 35, 9, 41, 0, 18, 5, 11, 34, 8])) (.leaf
  [81, 39, 35, 9, 41, 0, 18, 5, 11, 34, 8])

/-- some of the cases -/
def real6OneCase75 : LooseTree :=
  .breaks 9474193 (.breaks 17 (.breaks 32789 (.breaks 8421505 (.breaks 8421521 (.breaks 8495253
  (.breaks 27369601 (.breaks 27369489 (.breaks 27369505 (.breaks 27369473 (.leaf
  [108, 82, 39, 0, 9, 41, 18, 5, 11, 4, 1, 2, 3]) (.leaf
  [108, 82, 39, 0, 9, 41, 18, 5, 11, 34, 8])) (.leaf [108, 82, 39, 0, 9, 41, 18, 5, 11, 34, 8]))
  (.leaf [108, 82, 39, 0, 9, 41, 18, 5, 11, 34, 8])) (.leaf
  [108, 82, 39, 0, 9, 41, 18, 5, 11, 34, 8])) (.leaf
  [108, 82, 39, 0, 9, 41, 18, 5, 11, 4, 1, 2, 3])) (.leaf
  [108, 82, 39, 0, 9, 41, 18, 5, 11, 4, 1, 2, 3])) (.leaf
  [108, 82, 39, 0, 9, 41, 18, 5, 11, 4, 1, 2, 3])) (.leaf
  [108, 82, 39, 0, 9, 41, 18, 5, 11, 4, 1, 2, 3])) (.leaf
  [108, 82, 39, 0, 9, 41, 18, 5, 11, 4, 1, 2, 3])) (.leaf
  [108, 82, 39, 0, 9, 41, 18, 5, 11, 4, 1, 2, 3])

/-- some of the cases -/
def real6OneCase76 : LooseTree :=
  .breaks 12619906 (.breaks 9474193 (.breaks 9502851 (.breaks 16777349 (.breaks 17 (.breaks 32789
  (.breaks 8421505 (.breaks 8421521 (.breaks 8495253 (.breaks 27369601 (.breaks 27369489 (.breaks
  27369505 (.breaks 27369473 (.leaf [27, 0, 116, 65, 9, 41, 18, 5, 11, 4, 1, 2, 3]) (.leaf
  [27, 0, 116, 65, 9, 41, 18, 5, 11, 34, 4, 8, 1, 2, 3])) (.leaf
  [27, 0, 116, 65, 9, 41, 18, 5, 11, 34, 4, 8, 1, 2, 3])) (.leaf
  [27, 0, 116, 65, 9, 41, 18, 5, 11, 34, 4, 8, 1, 2, 3])) (.leaf
  [27, 0, 116, 65, 9, 41, 18, 5, 11, 34, 4, 8, 1, 2, 3])) (.leaf
  [27, 0, 116, 65, 9, 41, 18, 5, 11, 34, 4, 8, 1, 2, 3])) (.leaf
  [27, 0, 116, 65, 9, 41, 18, 5, 11, 34, 4, 8, 1, 2, 3])) (.leaf
  [27, 0, 116, 65, 9, 41, 18, 5, 11, 34, 4, 8, 1, 2, 3])) (.leaf
  [27, 0, 116, 65, 9, 41, 18, 5, 11, 34, 4, 8, 1, 2, 3])) (.leaf
  [27, 0, 116, 65, 9, 41, 18, 5, 11, 34, 4, 8, 1, 2, 3])) (.leaf
  [27, 0, 116, 65, 9, 41, 18, 5, 11, 34, 4, 8, 1, 2, 3])) (.leaf
  [27, 0, 116, 65, 9, 41, 18, 5, 11, 34, 4, 8, 1, 2, 3])) (.leaf
  [27, 0, 116, 65, 9, 41, 18, 5, 11, 34, 4, 8, 1, 2, 3])) (.leaf
  [27, 0, 116, 65, 9, 41, 18, 5, 11, 34, 4, 8, 1, 2, 3])

/-- some of the cases -/
def real6OneCase77 : LooseTree :=
  .cases [] 7 (.breaks 12619907 (.breaks 9437317 (.breaks 17 (.breaks 32789 (.breaks 8421505
  (.breaks 8421521 (.breaks 8454275 (.breaks 16842881 (.breaks 16883861 (.breaks 27349125 (.breaks
  27369601 (.breaks 22106257 (.breaks 27369489 (.breaks 27369505 (.breaks 27369473 (.leaf
  [47, 27, 39, 0, 9, 41, 18, 5, 55, 21, 30, 34, 4, 8, 1, 2, 3]) (.leaf
  [47, 27, 39, 0, 9, 41, 18, 5, 55, 21, 30, 34, 4, 8, 1, 2, 3])) (.leaf
  [47, 27, 39, 0, 9, 41, 18, 5, 55, 21, 30, 34, 4, 8, 1, 2, 3])) (.leaf
  [47, 27, 39, 0, 9, 41, 18, 5, 55, 21, 30, 34, 4, 8, 1, 2, 3])) (.leaf
  [47, 27, 39, 0, 9, 41, 18, 5, 55, 21, 30, 34, 4, 8, 1, 2, 3])) (.leaf
  [47, 27, 39, 0, 9, 41, 18, 5, 55, 21, 30, 34, 4, 8, 1, 2, 3])) (.leaf
  [47, 27, 39, 0, 9, 41, 18, 5, 55, 21, 30, 34, 4, 8, 1, 2, 3])) (.leaf [47, 27, 39, 0, 9, 41, 18,
  5, 55, 21, 19, 30, 34, 4, 8, 1, 2, 3])) (.leaf
  [47, 27, 25, 39, 0, 16, 9, 41, 18, 115, 30, 34, 4, 8, 1, 2, 3])) (.leaf
  [47, 27, 25, 39, 0, 16, 9, 41, 18, 115, 30, 34, 4, 8, 1, 2, 3])) (.leaf
  [47, 27, 39, 0, 9, 41, 18, 5, 55, 21, 30, 34, 4, 8, 1, 2, 3])) (.leaf [47, 27, 25, 39, 0, 16, 9,
  41, 18, 55, 21, 30, 34, 4, 8, 1, 2, 3])) (.leaf [47, 27, 25, 39, 0, 16, 9, 41, 18, 55, 21, 30,
  34, 4, 8, 1, 2, 3])) (.leaf [47, 27, 39, 0, 9, 41, 18, 5, 55, 21, 30, 34, 4, 8, 1, 2, 3])) (.leaf
  [47, 27, 25, 39, 0, 16, 9, 41, 18, 5, 55, 21, 30, 34, 4, 8, 1, 2, 3])) (.leaf [90, 27, 96, 0, 39,
  9, 41, 18, 5, 55, 21, 30, 34, 4, 8, 1, 2, 3])) (.breaks 12619907 (.breaks 9437317 (.breaks
  23158801 (.breaks 17 (.breaks 32789 (.breaks 8421505 (.breaks 8421521 (.breaks 8495253 (.breaks
  27328645 (.breaks 27369601 (.breaks 16842897 (.breaks 27369489 (.breaks 27369505 (.breaks
  27369473 (.leaf [47, 27, 25, 39, 0, 16, 9, 41, 18, 5, 11, 37, 4, 19, 1, 2, 3]) (.leaf
  [47, 27, 25, 39, 0, 16, 9, 41, 18, 5, 11, 37, 4, 19, 1, 2, 3])) (.leaf
  [47, 27, 25, 39, 0, 16, 9, 41, 18, 5, 11, 37, 4, 19, 1, 2, 3])) (.leaf
  [47, 27, 25, 39, 0, 16, 9, 41, 18, 5, 11, 37, 4, 19, 1, 2, 3])) (.leaf
  [47, 27, 25, 39, 0, 16, 9, 41, 18, 5, 11, 37, 4, 19, 1, 2, 3])) (.leaf
  [47, 27, 25, 39, 0, 16, 9, 41, 18, 5, 11, 37, 4, 19, 1, 2, 3])) (.leaf
  [47, 27, 25, 39, 0, 16, 9, 41, 18, 5, 11, 37, 4, 19, 1, 2, 3])) (.leaf
  [47, 27, 25, 39, 0, 16, 9, 41, 18, 5, 11, 37, 4, 19, 1, 2, 3])) (.leaf
  [47, 27, 25, 39, 0, 16, 9, 41, 18, 5, 11, 37, 4, 19, 1, 2, 3])) (.leaf [47, 27, 25, 39, 0, 16, 9,
  41, 18, 5, 11, 37, 34, 4, 19, 8, 1, 2, 3])) (.leaf [47, 27, 25, 39, 0, 16, 9, 41, 18, 5, 11, 37,
  34, 4, 19, 8, 1, 2, 3])) (.leaf [47, 27, 25, 39, 0, 16, 9, 41, 18, 5, 11, 37, 4, 19, 1, 2, 3]))
  (.leaf [47, 27, 25, 39, 0, 16, 9, 41, 18, 5, 11, 37, 4, 19, 1, 2, 3])) (.leaf [47, 27, 25, 39, 0,
  16, 9, 41, 18, 5, 11, 37, 34, 4, 19, 8, 1, 2, 3])) (.leaf [90, 27, 25, 96, 0, 16, 39, 9, 41, 18,
  5, 11, 37, 4, 19, 1, 2, 3]))

/-- some of the cases -/
def real6OneCase78 : LooseTree :=
  .breaks 12619907 (.breaks 9437317 (.breaks 9474193 (.breaks 65557 (.breaks 16842881 (.breaks
  16810114 (.breaks 8421521 (.breaks 8495253 (.breaks 27349125 (.breaks 27369601 (.breaks 22106257
  (.breaks 27369489 (.breaks 27369505 (.breaks 27369473 (.leaf
  [47, 27, 39, 0, 59, 21, 58, 5, 11, 34, 4, 8, 1, 2, 3]) (.leaf
  [47, 27, 39, 0, 9, 59, 21, 58, 5, 11, 34, 4, 8, 1, 2, 3])) (.leaf
  [47, 27, 39, 0, 9, 59, 21, 58, 5, 11, 34, 4, 8, 1, 2, 3])) (.leaf
  [47, 27, 39, 0, 9, 59, 21, 58, 5, 11, 34, 4, 8, 1, 2, 3])) (.leaf
  [47, 27, 39, 0, 59, 21, 58, 5, 11, 34, 4, 8, 1, 2, 3])) (.leaf
  [47, 27, 39, 0, 9, 59, 21, 58, 5, 11, 34, 4, 8, 1, 2, 3])) (.leaf
  [47, 27, 39, 0, 59, 21, 58, 5, 11, 34, 4, 8, 1, 2, 3])) (.leaf
  [47, 27, 39, 0, 9, 59, 21, 58, 5, 11, 34, 4, 8, 1, 2, 3])) (.leaf
  [47, 27, 39, 0, 9, 59, 21, 58, 5, 11, 34, 4, 8, 1, 2, 3])) (.leaf
  [47, 27, 39, 0, 9, 59, 21, 58, 5, 11, 34, 4, 8, 1, 2, 3])) (.leaf
  [47, 27, 39, 0, 9, 59, 21, 58, 5, 11, 34, 4, 8, 1, 2, 3])) (.leaf
  [47, 27, 39, 0, 9, 59, 21, 58, 5, 11, 34, 4, 8, 1, 2, 3])) (.leaf
  [47, 27, 39, 0, 59, 21, 58, 5, 11, 34, 4, 8, 1, 2, 3])) (.leaf
  [47, 27, 39, 0, 9, 59, 21, 58, 5, 11, 34, 4, 8, 1, 2, 3])) (.leaf
  [90, 27, 96, 0, 39, 59, 21, 58, 5, 11, 34, 4, 8, 1, 2, 3])

/-- some of the cases -/
def real6OneCase79 : LooseTree :=
  .breaks 22126741 (.breaks 9474193 (.breaks 23158801 (.breaks 27369601 (.breaks 17 (.breaks
  27369489 (.breaks 27369505 (.breaks 27369473 (.leaf [47, 27, 25, 74, 39, 0, 16, 4, 9, 1, 2, 3])
  (.leaf [47, 27, 25, 74, 39, 0, 16, 4, 9, 1, 2, 3])) (.leaf
  [47, 27, 25, 74, 39, 0, 16, 4, 9, 1, 2, 3])) (.leaf [47, 27, 25, 74, 39, 0, 16, 4, 9, 1, 2, 3]))
  (.leaf [47, 27, 25, 74, 39, 0, 16, 4, 9, 1, 2, 3])) (.leaf
  [47, 27, 25, 74, 39, 0, 16, 4, 9, 1, 2, 3])) (.leaf [47, 27, 25, 74, 39, 0, 16, 4, 9, 1, 2, 3]))
  (.leaf [47, 27, 25, 74, 39, 0, 16, 4, 9, 1, 2, 3])) (.leaf
  [47, 27, 25, 74, 39, 0, 16, 4, 9, 1, 2, 3])

/-- some of the cases -/
def real6OneCase80 : LooseTree :=
  .cases [] 54 (.breaks 8495253 (.breaks 12583045 (.breaks 17 (.breaks 27299973 (.breaks 9474193
  (.breaks 9523331 (.breaks 9523330 (.breaks 22110341 (.breaks 22106257 (.breaks 23158801 (.leaf
  [11, 28, 9, 86, 0, 144, 145, 25, 8, 16]) (.leaf [11, 86, 4, 0, 144, 145, 1, 25, 8, 2, 16, 3]))
  (.leaf [11, 86, 4, 0, 144, 145, 1, 25, 8, 2, 16, 3])) (.leaf
  [11, 86, 4, 0, 144, 145, 1, 25, 8, 2, 16, 3])) (.leaf
  [11, 86, 4, 0, 144, 145, 1, 25, 8, 2, 16, 3])) (.leaf
  [11, 86, 4, 0, 144, 145, 1, 25, 8, 2, 16, 3])) (.leaf
  [11, 86, 4, 0, 144, 145, 1, 25, 8, 2, 16, 3])) (.leaf
  [11, 28, 9, 86, 4, 0, 144, 145, 1, 25, 8, 2, 16, 3])) (.leaf
  [11, 86, 4, 0, 144, 145, 1, 25, 8, 2, 16, 3])) (.leaf
  [11, 86, 4, 0, 144, 145, 1, 25, 8, 2, 16, 3])) (.leaf
  [11, 28, 9, 86, 4, 0, 144, 145, 1, 25, 8, 2, 16, 3])) (.cycle 13 [182, 183, 135, 10])

/-- some of the cases -/
def real6OneCase81 : LooseTree :=
  .breaks 19959827 (.leaf [173]) (.leaf [28, 174, 25, 9, 35, 16, 0, 57, 34, 4, 8, 1, 2, 3])

/-- some of the cases -/
def real6OneCase82 : LooseTree :=
  .breaks 11534466 (.breaks 17 (.breaks 36885 (.breaks 9474177 (.breaks 9474193 (.breaks 9543829
  (.breaks 27349125 (.breaks 27369601 (.breaks 22106257 (.breaks 27369489 (.breaks 27369505
  (.breaks 27369473 (.leaf [70, 9, 62, 35, 0, 57, 34, 4, 8, 1, 2, 3]) (.leaf
  [70, 25, 9, 62, 16, 35, 0, 57, 34, 4, 8, 1, 2, 3])) (.leaf
  [70, 25, 9, 62, 16, 35, 0, 57, 34, 4, 8, 1, 2, 3])) (.leaf
  [70, 25, 9, 62, 16, 35, 0, 57, 34, 4, 8, 1, 2, 3])) (.leaf
  [70, 25, 9, 62, 16, 35, 0, 57, 34, 4, 8, 1, 2, 3])) (.leaf
  [70, 25, 9, 62, 16, 35, 0, 57, 34, 4, 8, 1, 2, 3])) (.leaf
  [70, 25, 9, 62, 16, 35, 0, 57, 34, 4, 8, 1, 2, 3])) (.leaf
  [70, 25, 9, 62, 16, 35, 0, 57, 34, 4, 8, 1, 2, 3])) (.leaf
  [70, 25, 9, 62, 16, 35, 0, 57, 34, 4, 8, 1, 2, 3])) (.leaf
  [70, 25, 9, 62, 16, 35, 0, 57, 34, 4, 8, 1, 2, 3])) (.leaf
  [70, 25, 9, 62, 16, 35, 0, 57, 34, 4, 8, 1, 2, 3])) (.leaf
  [70, 25, 9, 62, 16, 35, 0, 57, 34, 4, 8, 1, 2, 3])) (.leaf
  [70, 25, 9, 62, 16, 35, 0, 57, 34, 4, 8, 1, 2, 3])

/-- some of the cases -/
def real6OneCase83 : LooseTree :=
  .breaks 16777349 (.breaks 36885 (.breaks 9474177 (.breaks 9474193 (.breaks 9543829 (.breaks
  27369601 (.breaks 27369489 (.breaks 27369505 (.breaks 27369473 (.leaf
  [65, 9, 62, 35, 0, 57, 4, 1, 2, 3]) (.leaf [65, 9, 62, 35, 0, 57, 34, 4, 8, 1, 2, 3])) (.leaf
  [65, 9, 62, 35, 0, 57, 34, 4, 8, 1, 2, 3])) (.leaf [65, 9, 62, 35, 0, 57, 34, 4, 8, 1, 2, 3]))
  (.leaf [65, 9, 62, 35, 0, 57, 34, 4, 8, 1, 2, 3])) (.leaf
  [65, 9, 62, 35, 0, 57, 34, 4, 8, 1, 2, 3])) (.leaf [65, 9, 62, 35, 0, 57, 4, 1, 2, 3])) (.leaf
  [65, 9, 62, 35, 0, 57, 34, 4, 8, 1, 2, 3])) (.leaf [65, 9, 62, 35, 0, 57, 34, 4, 8, 1, 2, 3]))
  (.leaf [65, 9, 62, 35, 0, 57, 34, 4, 8, 1, 2, 3])

/-- some of the cases -/
def real6OneCase84 : LooseTree :=
  .cases [] 30 (.breaks 12583045 (.breaks 17 (.breaks 65557 (.breaks 16842881 (.breaks 16814210
  (.breaks 9474193 (.breaks 9543829 (.breaks 27349125 (.breaks 27369601 (.breaks 22106257 (.breaks
  27369489 (.breaks 27369505 (.breaks 27369473 (.leaf
  [28, 9, 59, 21, 82, 0, 57, 34, 4, 8, 1, 2, 3]) (.leaf
  [28, 25, 59, 16, 21, 82, 0, 57, 34, 4, 8, 1, 2, 3])) (.leaf
  [28, 25, 59, 16, 21, 82, 0, 57, 34, 4, 8, 1, 2, 3])) (.leaf
  [28, 25, 59, 16, 21, 82, 0, 57, 34, 4, 8, 1, 2, 3])) (.leaf
  [28, 25, 59, 16, 21, 82, 0, 57, 34, 4, 8, 1, 2, 3])) (.leaf
  [28, 25, 59, 16, 21, 82, 0, 57, 34, 4, 8, 1, 2, 3])) (.leaf
  [28, 25, 59, 16, 21, 82, 0, 57, 34, 4, 8, 1, 2, 3])) (.leaf
  [28, 25, 59, 16, 21, 82, 0, 57, 34, 4, 8, 1, 2, 3])) (.leaf
  [28, 25, 59, 16, 21, 82, 0, 57, 34, 4, 8, 1, 2, 3])) (.leaf
  [28, 25, 9, 59, 16, 21, 82, 0, 57, 34, 4, 8, 1, 2, 3])) (.leaf
  [28, 25, 9, 59, 16, 21, 82, 0, 57, 34, 4, 8, 1, 2, 3])) (.leaf
  [28, 25, 9, 59, 16, 21, 82, 0, 57, 34, 4, 8, 1, 2, 3])) (.leaf
  [28, 25, 59, 16, 21, 82, 0, 57, 34, 4, 8, 1, 2, 3])) (.leaf
  [28, 25, 9, 59, 16, 21, 82, 0, 57, 34, 4, 8, 1, 2, 3])) (.breaks 12583045 (.breaks 36885 (.breaks
  23158801 (.breaks 9474177 (.breaks 9474193 (.breaks 9502850 (.breaks 16883861 (.breaks 27349125
  (.breaks 27369601 (.breaks 22106257 (.breaks 27369489 (.breaks 27369505 (.breaks 27369473 (.leaf
  [28, 25, 62, 16, 35, 0, 121, 30, 34, 4, 8, 1, 2, 3]) (.leaf
  [28, 25, 9, 62, 16, 35, 0, 121, 30, 34, 4, 8, 1, 2, 3])) (.leaf
  [28, 25, 9, 62, 16, 35, 0, 121, 30, 34, 4, 8, 1, 2, 3])) (.leaf
  [28, 25, 9, 62, 16, 35, 0, 121, 30, 34, 4, 8, 1, 2, 3])) (.leaf
  [28, 25, 62, 16, 35, 0, 121, 30, 34, 4, 8, 1, 2, 3])) (.leaf
  [28, 25, 9, 62, 16, 35, 0, 121, 30, 34, 4, 8, 1, 2, 3])) (.leaf
  [28, 25, 62, 16, 35, 0, 121, 30, 34, 4, 8, 1, 2, 3])) (.leaf
  [28, 25, 9, 62, 16, 35, 0, 121, 30, 34, 4, 8, 1, 2, 3])) (.leaf
  [28, 25, 9, 62, 16, 35, 0, 121, 30, 34, 4, 8, 1, 2, 3])) (.leaf
  [28, 25, 62, 16, 35, 0, 121, 30, 34, 4, 8, 1, 2, 3])) (.leaf
  [28, 25, 9, 62, 16, 35, 0, 121, 30, 34, 4, 8, 1, 2, 3])) (.leaf
  [28, 25, 62, 16, 35, 0, 121, 30, 34, 4, 8, 1, 2, 3])) (.leaf
  [28, 25, 9, 62, 16, 35, 0, 121, 30, 34, 4, 8, 1, 2, 3])) (.leaf
  [28, 25, 9, 62, 16, 35, 0, 121, 19, 30, 34, 4, 8, 1, 2, 3]))

/-- some of the cases -/
def real6OneCase85 : LooseTree :=
  .breaks 12583045 (.breaks 36885 (.breaks 23158801 (.breaks 9474177 (.breaks 9474193 (.breaks
  9543829 (.breaks 27328645 (.breaks 27369601 (.breaks 16842897 (.breaks 27369489 (.breaks 27369505
  (.breaks 27369473 (.leaf [28, 25, 9, 62, 16, 35, 0, 57, 37, 4, 19, 1, 2, 3]) (.leaf
  [28, 25, 9, 62, 16, 35, 0, 57, 37, 4, 19, 1, 2, 3])) (.leaf
  [28, 25, 9, 62, 16, 35, 0, 57, 37, 4, 19, 1, 2, 3])) (.leaf
  [28, 25, 9, 62, 16, 35, 0, 57, 37, 4, 19, 1, 2, 3])) (.leaf
  [28, 25, 9, 62, 16, 35, 0, 57, 37, 4, 19, 1, 2, 3])) (.leaf
  [28, 25, 9, 62, 16, 35, 0, 57, 37, 4, 19, 1, 2, 3])) (.leaf
  [28, 25, 9, 62, 16, 35, 0, 57, 37, 4, 19, 1, 2, 3])) (.leaf
  [28, 25, 9, 62, 16, 35, 0, 57, 37, 4, 19, 1, 2, 3])) (.leaf
  [28, 25, 9, 62, 16, 35, 0, 57, 37, 4, 19, 1, 2, 3])) (.leaf
  [28, 25, 9, 62, 16, 35, 0, 57, 37, 34, 4, 19, 8, 1, 2, 3])) (.leaf
  [28, 25, 9, 62, 16, 35, 0, 57, 37, 4, 19, 1, 2, 3])) (.leaf
  [28, 25, 9, 62, 16, 35, 0, 57, 37, 34, 4, 19, 8, 1, 2, 3])) (.leaf
  [28, 25, 9, 62, 16, 35, 0, 57, 37, 34, 4, 19, 8, 1, 2, 3])

/-- some of the cases -/
def real6OneCase86 : LooseTree :=
  .breaks 12583045 (.breaks 22126741 (.breaks 36885 (.breaks 27369601 (.breaks 9474177 (.breaks
  27369489 (.breaks 9474193 (.breaks 27369505 (.breaks 27369473 (.leaf
  [28, 74, 62, 4, 35, 1, 0, 2, 3]) (.leaf [28, 74, 9, 62, 4, 35, 1, 0, 2, 3])) (.leaf
  [28, 74, 9, 62, 4, 35, 1, 0, 2, 3])) (.leaf [28, 74, 9, 62, 4, 35, 1, 0, 2, 3])) (.leaf
  [28, 74, 9, 62, 4, 35, 1, 0, 2, 3])) (.leaf [28, 74, 9, 62, 4, 35, 1, 0, 2, 3])) (.leaf
  [28, 74, 9, 62, 4, 35, 1, 0, 2, 3])) (.leaf [28, 74, 9, 62, 4, 35, 1, 0, 2, 3])) (.leaf
  [28, 74, 9, 62, 4, 35, 1, 0, 2, 3])) (.leaf [28, 25, 74, 62, 16, 4, 35, 1, 0, 2, 3])

/-- some of the cases -/
def real6OneCase87 : LooseTree :=
  .cases [] 37 (.cases [] 56 (.leaf [11, 175]) (.leaf [112, 159])) (.breaks 11571333 (.breaks
  9437333 (.breaks 32901 (.breaks 17 (.breaks 8421521 (.breaks 8495253 (.breaks 27369601 (.breaks
  27369489 (.breaks 27369505 (.breaks 27369473 (.leaf [7, 54, 0, 36, 97, 9, 5, 11, 4, 1, 2, 3])
  (.leaf [7, 54, 0, 36, 97, 9, 5, 11, 4, 1, 2, 3])) (.leaf
  [7, 54, 0, 36, 97, 9, 5, 11, 4, 1, 2, 3])) (.leaf [7, 54, 0, 36, 97, 9, 5, 11, 4, 1, 2, 3]))
  (.leaf [7, 54, 0, 36, 97, 9, 5, 11, 4, 1, 2, 3])) (.leaf
  [7, 54, 0, 36, 97, 9, 5, 11, 4, 1, 2, 3])) (.leaf [7, 54, 0, 36, 97, 9, 5, 11, 4, 1, 2, 3]))
  (.leaf [7, 54, 0, 36, 97, 9, 5, 11, 4, 1, 2, 3])) (.leaf
  [7, 25, 54, 0, 16, 36, 97, 9, 5, 11, 4, 1, 2, 3])) (.leaf
  [7, 25, 54, 0, 16, 36, 97, 9, 5, 11, 4, 1, 2, 3])) (.leaf
  [7, 25, 54, 0, 16, 36, 97, 9, 5, 11, 4, 1, 2, 3]))

/-- some of the cases -/
def real6OneCase88 : LooseTree :=
  .cases [] 16 (.cases [] 6 (.breaks 8495253 (.breaks 11534482 (.breaks 11583509 (.breaks 36997
  (.breaks 12583045 (.breaks 27312261 (.breaks 17 (.breaks 9474193 (.breaks 12632209 (.leaf
  [11, 52, 50, 33, 28, 40, 9, 0, 6]) (.leaf [11, 52, 50, 25, 33, 28, 16, 40, 9, 0, 6])) (.leaf
  [11, 52, 50, 25, 33, 28, 16, 40, 9, 0, 6])) (.leaf [11, 52, 50, 25, 33, 28, 16, 40, 9, 0, 6]))
  (.leaf [11, 52, 50, 25, 33, 28, 16, 40, 9, 0, 6])) (.leaf
  [11, 52, 50, 25, 33, 28, 16, 40, 9, 0, 6])) (.leaf [11, 52, 50, 25, 33, 28, 16, 40, 9, 0, 6]))
  (.leaf [11, 52, 50, 25, 33, 28, 16, 40, 9, 0, 6])) (.leaf
  [11, 52, 50, 25, 33, 28, 16, 40, 9, 0, 6])) (.leaf [11, 52, 50, 25, 33, 28, 16, 40, 9, 0, 6]))
  (.cases [] 11 (.breaks 11534482 (.breaks 36997 (.breaks 12583045 (.breaks 12632193 (.breaks 17
  (.breaks 9474193 (.breaks 12632209 (.breaks 12689557 (.breaks 27369601 (.breaks 27369489 (.breaks
  27369505 (.breaks 27369473 (.leaf [49, 52, 33, 28, 15, 9, 0, 6, 29, 4, 1, 2, 3]) (.leaf
  [49, 52, 33, 28, 15, 9, 0, 6, 29, 4, 1, 2, 3])) (.leaf
  [49, 52, 33, 28, 15, 9, 0, 6, 29, 4, 1, 2, 3])) (.leaf
  [49, 52, 33, 28, 15, 9, 0, 6, 29, 4, 1, 2, 3])) (.leaf
  [49, 52, 33, 28, 15, 9, 0, 6, 29, 4, 1, 2, 3])) (.leaf
  [49, 52, 33, 28, 15, 9, 0, 6, 29, 4, 1, 2, 3])) (.leaf
  [49, 52, 33, 28, 15, 9, 0, 6, 29, 4, 1, 2, 3])) (.leaf
  [49, 52, 33, 28, 15, 9, 0, 6, 29, 4, 1, 2, 3])) (.leaf
  [49, 52, 33, 28, 15, 9, 0, 6, 29, 4, 1, 2, 3])) (.leaf
  [49, 109, 52, 33, 28, 6, 29, 9, 0, 4, 1, 2, 3])) (.leaf
  [49, 52, 33, 28, 15, 9, 0, 6, 29, 4, 1, 2, 3])) (.leaf
  [49, 52, 33, 28, 15, 9, 0, 6, 29, 4, 1, 2, 3])) (.leaf
  [49, 52, 33, 28, 15, 9, 0, 6, 29, 4, 1, 2, 3])) (.breaks 11534482 (.breaks 11583509 (.breaks
  22110341 (.breaks 36997 (.breaks 12583045 (.breaks 12632193 (.breaks 23158801 (.breaks 17
  (.breaks 9474193 (.breaks 12615810 (.breaks 12632209 (.breaks 8421521 (.leaf
  [52, 50, 25, 33, 28, 15, 16, 9, 0, 38, 6, 5]) (.leaf
  [52, 50, 33, 28, 15, 9, 0, 38, 6, 5, 11, 4, 1, 2, 3])) (.leaf
  [52, 50, 33, 28, 15, 9, 0, 38, 6, 5, 11, 4, 1, 2, 3])) (.leaf
  [52, 50, 33, 28, 15, 9, 0, 38, 6, 5, 11, 4, 1, 2, 3])) (.leaf
  [52, 50, 33, 28, 15, 9, 0, 38, 6, 5, 11, 4, 1, 2, 3])) (.leaf
  [52, 50, 33, 28, 15, 9, 0, 38, 6, 5, 11, 4, 1, 2, 3])) (.leaf
  [52, 50, 33, 28, 15, 9, 0, 38, 6, 5, 11, 4, 1, 2, 3])) (.leaf
  [52, 50, 33, 28, 15, 9, 0, 38, 6, 5, 11, 4, 1, 2, 3])) (.leaf
  [52, 50, 33, 28, 15, 9, 0, 38, 6, 5, 11, 4, 1, 2, 3])) (.leaf
  [52, 50, 33, 28, 15, 9, 0, 38, 6, 5, 11, 4, 1, 2, 3])) (.leaf
  [52, 50, 33, 28, 15, 9, 0, 38, 6, 5, 11, 4, 1, 2, 3])) (.leaf
  [52, 50, 33, 28, 15, 9, 0, 38, 6, 5, 11, 4, 1, 2, 3])) (.leaf
  [52, 50, 33, 28, 15, 9, 0, 38, 6, 5, 11, 4, 1, 2, 3])))) (.breaks 9486467 (.breaks 12628101
  (.breaks 11534467 (.cycle 32 [33, 73, 60, 71]) (.cycle 32 [33, 73, 60, 71])) (.cycle 32
  [33, 73, 60, 71])) (.cycle 32 [33, 73, 60, 71]))

/-- some of the cases -/
def real6OneCase89 : LooseTree :=
  .breaks 9486467 (.breaks 12583045 (.breaks 45187 (.cycle 12 [7, 73, 28, 76]) (.cycle 12
  [7, 73, 28, 76])) (.cycle 12 [7, 73, 28, 76])) (.cycle 22 [28, 76, 7, 73])

/-- some of the cases -/
def real6OneCase90 : LooseTree :=
  .breaks 12619795 (.breaks 23158801 (.breaks 27312261 (.breaks 9474065 (.breaks 12632209 (.breaks
  9474177 (.breaks 9474193 (.leaf [11, 50, 25, 90, 16, 40, 96, 6, 35, 0]) (.leaf
  [11, 50, 25, 90, 16, 40, 96, 6, 35, 0])) (.leaf [11, 50, 25, 90, 16, 40, 96, 6, 35, 0])) (.leaf
  [11, 50, 25, 90, 16, 40, 96, 6, 35, 0])) (.leaf [11, 50, 25, 153, 16, 40, 35, 6, 0])) (.leaf
  [11, 50, 25, 90, 16, 40, 96, 6, 35, 0])) (.leaf [11, 50, 25, 90, 16, 40, 96, 6, 35, 0])) (.leaf
  [11, 50, 25, 153, 16, 40, 35, 6, 0])

/-- some of the cases -/
def real6OneCase91 : LooseTree :=
  .cases [] 14 (.cases [] 57 (.cases [] 36 (.breaks 8495253 (.breaks 11571333 (.breaks 9474193
  (.breaks 14737441 (.breaks 27312261 (.breaks 27369601 (.breaks 12632209 (.breaks 12669058
  (.breaks 27353218 (.breaks 22106257 (.breaks 23158801 (.leaf
  [93, 11, 7, 0, 94, 40, 4, 6, 106, 42, 8, 16]) (.leaf
  [93, 11, 7, 0, 94, 40, 4, 6, 106, 42, 8, 16])) (.leaf
  [93, 11, 7, 0, 94, 40, 4, 6, 106, 42, 8, 16])) (.leaf
  [93, 11, 7, 0, 94, 40, 4, 6, 106, 42, 8, 16])) (.leaf
  [93, 11, 7, 0, 94, 40, 4, 6, 106, 42, 8, 16])) (.leaf
  [93, 11, 7, 0, 94, 40, 4, 6, 106, 42, 8, 16])) (.leaf
  [93, 11, 7, 0, 94, 40, 4, 6, 106, 42, 8, 16])) (.leaf
  [93, 11, 7, 0, 94, 40, 4, 6, 106, 42, 8, 16])) (.leaf
  [93, 11, 7, 0, 94, 40, 4, 6, 106, 42, 8, 16])) (.leaf
  [93, 11, 7, 0, 94, 40, 4, 6, 106, 42, 8, 16])) (.leaf
  [93, 11, 7, 0, 94, 40, 4, 6, 106, 42, 8, 16])) (.leaf
  [93, 11, 7, 0, 94, 40, 4, 6, 106, 42, 1, 8, 16, 2, 3])) (.breaks 8495253 (.breaks 27312261
  (.breaks 27369601 (.breaks 12632209 (.breaks 12669058 (.breaks 27353218 (.breaks 27369489
  (.breaks 22106257 (.breaks 23158801 (.breaks 27369505 (.breaks 27369473 (.leaf
  [11, 7, 0, 40, 4, 6, 106, 42, 1, 8, 16, 2, 3]) (.leaf
  [11, 7, 118, 119, 0, 40, 4, 6, 106, 42, 8, 16])) (.leaf
  [11, 7, 118, 119, 0, 40, 4, 6, 106, 42, 8, 16])) (.leaf
  [11, 7, 0, 40, 4, 6, 106, 42, 1, 8, 16, 2, 3])) (.leaf
  [11, 7, 0, 40, 4, 6, 106, 42, 1, 8, 16, 2, 3])) (.leaf
  [11, 7, 118, 119, 0, 40, 4, 6, 106, 42, 8, 16])) (.leaf
  [11, 7, 0, 40, 4, 6, 106, 42, 1, 8, 16, 2, 3])) (.leaf
  [11, 7, 0, 40, 4, 6, 106, 42, 1, 8, 16, 2, 3])) (.leaf
  [11, 7, 0, 40, 4, 6, 106, 42, 1, 8, 16, 2, 3])) (.leaf
  [11, 7, 118, 119, 0, 40, 4, 6, 106, 42, 1, 8, 16, 2, 3])) (.leaf
  [11, 7, 0, 40, 4, 6, 106, 42, 1, 8, 16, 2, 3])) (.leaf
  [11, 7, 118, 119, 0, 40, 4, 6, 106, 42, 1, 8, 16, 2, 3]))) (.breaks 8495253 (.breaks 27312261
  (.breaks 27369601 (.breaks 12632209 (.breaks 12669058 (.breaks 27353218 (.breaks 27369489
  (.breaks 22106257 (.breaks 23158801 (.breaks 27369505 (.breaks 27369473 (.leaf
  [11, 7, 0, 40, 4, 6, 106, 42, 1, 8, 16, 2, 3]) (.leaf
  [11, 7, 162, 0, 163, 40, 4, 6, 106, 164, 42, 165, 8, 16])) (.leaf
  [11, 7, 162, 0, 163, 40, 4, 6, 106, 164, 42, 165, 8, 16])) (.leaf
  [11, 7, 0, 40, 4, 6, 106, 42, 1, 8, 16, 2, 3])) (.leaf
  [11, 7, 0, 40, 4, 6, 106, 42, 1, 8, 16, 2, 3])) (.leaf
  [11, 7, 162, 0, 163, 40, 4, 6, 106, 164, 42, 165, 8, 16])) (.leaf
  [11, 7, 0, 40, 4, 6, 106, 42, 1, 8, 16, 2, 3])) (.leaf
  [11, 7, 0, 40, 4, 6, 106, 42, 1, 8, 16, 2, 3])) (.leaf
  [11, 7, 0, 40, 4, 6, 106, 42, 1, 8, 16, 2, 3])) (.leaf
  [11, 7, 162, 0, 163, 40, 4, 6, 106, 164, 42, 165, 8, 16])) (.leaf
  [11, 7, 0, 40, 4, 6, 106, 42, 1, 8, 16, 2, 3])) (.leaf [11, 7, 162, 0, 163, 40, 4, 6, 106, 164,
  42, 1, 165, 8, 16, 2, 3]))) (.breaks 12669059 (.breaks 22110341 (.breaks 23175299 (.cycle 7
  [40, 172, 25, 124]) (.cycle 7 [40, 172, 25, 124])) (.cycle 7 [40, 172, 25, 124])) (.cycle 7
  [40, 172, 25, 124]))

/-- some of the cases -/
def real6OneCase92 : LooseTree :=
  .cases [] 53 (.breaks 11571333 (.breaks 22110341 (.breaks 9474193 (.breaks 23117845 (.breaks
  23158801 (.breaks 27369601 (.breaks 12632193 (.breaks 27369489 (.breaks 12632209 (.breaks
  27369505 (.breaks 27369473 (.leaf [11, 7, 25, 0, 142, 16, 4, 15, 1, 6, 2, 3]) (.leaf
  [11, 7, 25, 0, 142, 16, 4, 15, 1, 6, 2, 3])) (.leaf [11, 7, 25, 0, 142, 16, 4, 15, 1, 6, 2, 3]))
  (.leaf [11, 7, 25, 0, 142, 16, 4, 15, 1, 6, 2, 3])) (.leaf
  [11, 7, 25, 0, 142, 16, 4, 15, 1, 6, 2, 3])) (.leaf [11, 7, 25, 0, 142, 16, 4, 15, 1, 6, 2, 3]))
  (.leaf [11, 7, 25, 0, 142, 16, 4, 15, 1, 6, 2, 3])) (.leaf
  [11, 7, 25, 0, 142, 16, 4, 15, 1, 6, 2, 3])) (.leaf [11, 7, 25, 0, 142, 16, 4, 15, 1, 6, 2, 3]))
  (.leaf [11, 7, 25, 0, 142, 16, 4, 15, 1, 6, 2, 3])) (.leaf
  [11, 7, 25, 0, 142, 16, 4, 15, 1, 6, 2, 3])) (.leaf [11, 7, 25, 0, 142, 16, 4, 15, 1, 6, 2, 3]))
  (.cases [] 14 (.cases [] 36 (.breaks 8495253 (.breaks 11571333 (.breaks 9474193 (.breaks 14737441
  (.breaks 27349125 (.breaks 27369601 (.breaks 22069378 (.breaks 27353218 (.breaks 12632209
  (.breaks 23158801 (.leaf [93, 11, 7, 0, 94, 34, 4, 110, 42, 6, 16]) (.leaf
  [93, 11, 7, 0, 94, 34, 4, 110, 42, 6, 16])) (.leaf [93, 11, 7, 0, 94, 34, 4, 110, 42, 6, 16]))
  (.leaf [93, 11, 7, 0, 94, 34, 4, 110, 42, 6, 16])) (.leaf
  [93, 11, 7, 0, 94, 34, 4, 110, 42, 6, 16])) (.leaf [93, 11, 7, 0, 94, 34, 4, 110, 42, 6, 16]))
  (.leaf [93, 11, 7, 110, 0, 6, 94, 4, 42, 16])) (.leaf
  [11, 7, 0, 34, 4, 110, 42, 1, 6, 16, 2, 3])) (.leaf [93, 11, 7, 0, 94, 34, 4, 110, 42, 6, 16]))
  (.leaf [93, 11, 7, 0, 94, 34, 4, 110, 42, 6, 16])) (.leaf [93, 11, 7, 110, 0, 6, 94, 4, 42, 16]))
  (.breaks 8495253 (.breaks 27349125 (.breaks 27369601 (.breaks 22069378 (.breaks 27353218 (.breaks
  27369489 (.breaks 12632209 (.breaks 23158801 (.breaks 27369505 (.breaks 27369473 (.leaf
  [11, 7, 0, 34, 4, 110, 42, 1, 6, 16, 2, 3]) (.leaf [11, 7, 118, 119, 0, 34, 4, 110, 42, 6, 16]))
  (.leaf [11, 7, 118, 119, 0, 34, 4, 110, 42, 6, 16])) (.leaf
  [11, 7, 0, 34, 4, 110, 42, 1, 6, 16, 2, 3])) (.leaf [11, 7, 0, 34, 4, 110, 42, 1, 6, 16, 2, 3]))
  (.leaf [11, 7, 118, 119, 0, 34, 4, 110, 42, 6, 16])) (.leaf
  [11, 7, 0, 34, 4, 110, 42, 1, 6, 16, 2, 3])) (.leaf [11, 7, 0, 34, 4, 110, 42, 1, 6, 16, 2, 3]))
  (.leaf [11, 7, 118, 119, 0, 34, 4, 110, 42, 1, 6, 16, 2, 3])) (.leaf
  [11, 7, 110, 0, 6, 4, 42, 1, 16, 2, 3])) (.leaf
  [11, 7, 118, 110, 119, 0, 6, 4, 42, 1, 16, 2, 3]))) (.breaks 22069379 (.breaks 12673157 (.breaks
  23175299 (.cycle 7 [34, 161, 171, 124]) (.cycle 7 [34, 161, 171, 124])) (.cycle 7
  [34, 161, 171, 124])) (.cycle 7 [34, 161, 171, 124])))

/-- some of the cases -/
def real6OneCase93 : LooseTree :=
  .breaks 22110341 (.breaks 9474193 (.breaks 20000785 (.breaks 23158801 (.breaks 20000897 (.breaks
  22069378 (.breaks 12632209 (.breaks 20000945 (.breaks 20000929 (.leaf
  [11, 7, 67, 25, 0, 63, 16, 34, 46, 110, 6, 23, 24]) (.leaf
  [11, 7, 67, 25, 0, 63, 16, 34, 46, 110, 6, 23, 24])) (.leaf
  [11, 7, 67, 25, 0, 63, 16, 34, 46, 110, 6, 23, 24])) (.leaf
  [11, 7, 67, 25, 0, 63, 16, 34, 46, 110, 6, 23, 24])) (.leaf
  [11, 7, 67, 25, 0, 63, 16, 34, 46, 110, 6, 23, 24])) (.leaf
  [11, 7, 67, 25, 0, 63, 16, 34, 46, 110, 6, 23, 24])) (.leaf
  [11, 7, 67, 25, 0, 63, 16, 34, 46, 110, 6, 23, 24])) (.leaf
  [11, 7, 123, 25, 0, 46, 16, 34, 23, 110, 6, 24])) (.leaf
  [11, 7, 67, 25, 0, 63, 16, 34, 46, 110, 6, 23, 24])) (.leaf
  [11, 7, 67, 25, 0, 63, 16, 34, 46, 110, 6, 23, 24])

/-- some of the cases -/
def real6OneCase94 : LooseTree :=
  .breaks 19955730 (.breaks 8421505 (.breaks 8421521 (.breaks 8495253 (.breaks 27312261 (.breaks
  27369601 (.breaks 12632209 (.breaks 27369489 (.breaks 27369505 (.breaks 27369473 (.leaf
  [7, 78, 25, 18, 0, 16, 5, 11, 40, 4, 6, 1, 2, 3]) (.leaf
  [7, 78, 25, 18, 0, 16, 5, 11, 40, 4, 6, 1, 2, 3])) (.leaf
  [7, 78, 25, 18, 0, 16, 5, 11, 40, 4, 6, 1, 2, 3])) (.leaf
  [7, 78, 25, 18, 0, 16, 5, 11, 40, 4, 6, 1, 2, 3])) (.leaf
  [7, 78, 25, 18, 0, 16, 5, 11, 40, 4, 6, 1, 2, 3])) (.leaf
  [7, 78, 25, 18, 0, 16, 5, 11, 40, 4, 6, 1, 2, 3])) (.leaf
  [7, 78, 25, 18, 0, 16, 5, 11, 40, 4, 6, 1, 2, 3])) (.leaf
  [7, 78, 25, 18, 0, 16, 5, 11, 40, 4, 6, 1, 2, 3])) (.leaf
  [7, 78, 25, 18, 0, 16, 5, 11, 40, 4, 6, 1, 2, 3])) (.leaf
  [7, 78, 25, 18, 0, 16, 5, 11, 40, 4, 6, 1, 2, 3])) (.leaf
  [7, 78, 25, 18, 0, 16, 5, 11, 40, 4, 6, 1, 2, 3])

/-- some of the cases -/
def real6OneCase95 : LooseTree :=
  .breaks 49173 (.breaks 9474193 (.breaks 12632193 (.breaks 12632209 (.breaks 12689557 (.breaks
  27349125 (.breaks 27369601 (.breaks 22106257 (.breaks 27369489 (.breaks 27369505 (.breaks
  27369473 (.leaf [7, 65, 9, 26, 0, 15, 6, 29, 34, 4, 8, 1, 2, 3]) (.leaf
  [7, 65, 9, 26, 0, 15, 6, 29, 34, 4, 8, 1, 2, 3])) (.leaf
  [7, 65, 9, 26, 0, 15, 6, 29, 34, 4, 8, 1, 2, 3])) (.leaf
  [7, 65, 9, 26, 0, 15, 6, 29, 34, 4, 8, 1, 2, 3])) (.leaf
  [7, 65, 9, 26, 0, 15, 6, 29, 34, 4, 8, 1, 2, 3])) (.leaf
  [7, 65, 9, 26, 0, 15, 6, 29, 34, 4, 8, 1, 2, 3])) (.leaf
  [7, 65, 9, 26, 0, 15, 6, 29, 34, 4, 8, 1, 2, 3])) (.leaf
  [7, 65, 9, 26, 0, 15, 6, 29, 34, 4, 8, 1, 2, 3])) (.leaf
  [7, 65, 9, 26, 0, 15, 6, 29, 34, 4, 8, 1, 2, 3])) (.leaf
  [7, 65, 9, 26, 0, 15, 6, 29, 34, 4, 8, 1, 2, 3])) (.leaf
  [7, 65, 9, 26, 0, 15, 6, 29, 34, 4, 8, 1, 2, 3])) (.leaf
  [7, 65, 9, 26, 0, 15, 6, 29, 34, 4, 8, 1, 2, 3])

/-- some of the cases -/
def real6OneCase96 : LooseTree :=
  .breaks 16822405 (.breaks 11583509 (.breaks 12632193 (.breaks 12632209 (.breaks 12689557 (.breaks
  27349125 (.breaks 27369601 (.breaks 22106257 (.breaks 27369489 (.breaks 27369505 (.breaks
  27369473 (.leaf [59, 7, 0, 64, 50, 15, 6, 29, 34, 4, 8, 1, 2, 3]) (.leaf
  [59, 7, 0, 64, 50, 15, 6, 29, 34, 4, 8, 1, 2, 3])) (.leaf
  [59, 7, 0, 64, 50, 15, 6, 29, 34, 4, 8, 1, 2, 3])) (.leaf
  [59, 7, 0, 64, 50, 15, 6, 29, 34, 4, 8, 1, 2, 3])) (.leaf
  [59, 7, 0, 64, 50, 15, 6, 29, 34, 4, 8, 1, 2, 3])) (.leaf
  [59, 7, 0, 64, 50, 15, 6, 29, 34, 4, 8, 1, 2, 3])) (.leaf
  [59, 7, 0, 64, 50, 15, 6, 29, 34, 4, 8, 1, 2, 3])) (.leaf
  [59, 7, 0, 64, 50, 15, 6, 29, 34, 4, 8, 1, 2, 3])) (.leaf
  [59, 7, 0, 64, 50, 15, 6, 29, 34, 4, 8, 1, 2, 3])) (.leaf
  [59, 7, 0, 64, 50, 15, 6, 29, 34, 4, 8, 1, 2, 3])) (.leaf
  [59, 7, 0, 64, 50, 15, 6, 29, 34, 4, 8, 1, 2, 3])) (.leaf
  [59, 7, 0, 64, 50, 15, 6, 29, 34, 4, 8, 1, 2, 3])

/-- some of the cases -/
def real6OneCase97 : LooseTree :=
  .cases [] 7 (.cases [] 24 (.breaks 16842769 (.breaks 16842881 (.breaks 16826498 (.breaks 12632209
  (.breaks 12689557 (.breaks 27349125 (.breaks 27369601 (.breaks 22106257 (.breaks 27369489
  (.breaks 27369505 (.breaks 27369473 (.leaf [79, 7, 0, 80, 21, 72, 6, 29, 34, 4, 8, 1, 2, 3])
  (.leaf [79, 7, 0, 80, 21, 72, 6, 29, 34, 4, 8, 1, 2, 3])) (.leaf
  [79, 7, 0, 80, 21, 72, 6, 29, 34, 4, 8, 1, 2, 3])) (.leaf
  [79, 7, 0, 80, 21, 72, 6, 29, 34, 4, 8, 1, 2, 3])) (.leaf
  [79, 7, 0, 80, 21, 72, 6, 29, 34, 4, 8, 1, 2, 3])) (.leaf
  [79, 7, 0, 80, 21, 72, 6, 29, 34, 4, 8, 1, 2, 3])) (.leaf
  [79, 7, 0, 80, 21, 72, 6, 29, 34, 4, 8, 1, 2, 3])) (.leaf
  [79, 7, 0, 80, 21, 72, 6, 29, 34, 4, 8, 1, 2, 3])) (.leaf
  [79, 7, 0, 80, 21, 72, 6, 29, 34, 4, 8, 1, 2, 3])) (.leaf
  [79, 7, 0, 80, 21, 72, 6, 29, 34, 4, 8, 1, 2, 3])) (.leaf
  [79, 7, 0, 80, 21, 72, 6, 29, 34, 4, 8, 1, 2, 3])) (.leaf
  [157, 7, 0, 21, 72, 6, 29, 34, 4, 8, 1, 2, 3])) (.breaks 8437891 (.breaks 9474193 (.breaks
  12632193 (.breaks 12632209 (.breaks 12648578 (.breaks 16883861 (.breaks 27349125 (.breaks
  27369601 (.breaks 22106257 (.breaks 27369489 (.breaks 27369505 (.breaks 27369473 (.leaf
  [49, 7, 0, 15, 6, 68, 30, 34, 4, 8, 1, 2, 3]) (.leaf
  [49, 7, 0, 15, 6, 68, 19, 30, 34, 4, 8, 1, 2, 3])) (.leaf
  [49, 7, 0, 15, 6, 68, 19, 30, 34, 4, 8, 1, 2, 3])) (.leaf
  [49, 7, 0, 15, 6, 68, 19, 30, 34, 4, 8, 1, 2, 3])) (.leaf
  [49, 7, 0, 15, 6, 68, 30, 34, 4, 8, 1, 2, 3])) (.leaf
  [49, 7, 0, 15, 6, 68, 19, 30, 34, 4, 8, 1, 2, 3])) (.leaf
  [49, 7, 0, 15, 6, 68, 30, 34, 4, 8, 1, 2, 3])) (.leaf
  [49, 7, 0, 15, 6, 68, 19, 30, 34, 4, 8, 1, 2, 3])) (.leaf
  [49, 7, 0, 15, 6, 68, 19, 30, 34, 4, 8, 1, 2, 3])) (.leaf
  [49, 7, 0, 15, 6, 68, 30, 34, 4, 8, 1, 2, 3])) (.leaf
  [109, 7, 0, 6, 68, 19, 30, 34, 4, 8, 1, 2, 3])) (.leaf
  [49, 7, 0, 15, 6, 68, 30, 34, 4, 8, 1, 2, 3])) (.leaf
  [109, 7, 0, 6, 68, 19, 30, 34, 4, 8, 1, 2, 3]))) (.breaks 22110341 (.breaks 9474193 (.breaks
  12632193 (.breaks 23158801 (.breaks 12632209 (.breaks 12689557 (.breaks 27328645 (.breaks
  27369601 (.breaks 16842897 (.breaks 27369489 (.breaks 27369505 (.breaks 27369473 (.leaf
  [49, 7, 25, 0, 15, 16, 6, 29, 37, 4, 19, 1, 2, 3]) (.leaf
  [49, 7, 25, 0, 15, 16, 6, 29, 37, 4, 19, 1, 2, 3])) (.leaf
  [49, 7, 25, 0, 15, 16, 6, 29, 37, 4, 19, 1, 2, 3])) (.leaf
  [49, 7, 25, 0, 15, 16, 6, 29, 37, 4, 19, 1, 2, 3])) (.leaf
  [49, 7, 25, 0, 15, 16, 6, 29, 37, 4, 19, 1, 2, 3])) (.leaf
  [49, 7, 25, 0, 15, 16, 6, 29, 37, 4, 19, 1, 2, 3])) (.leaf
  [49, 7, 25, 0, 15, 16, 6, 29, 37, 4, 19, 1, 2, 3])) (.leaf
  [49, 7, 25, 0, 15, 16, 6, 29, 37, 4, 19, 1, 2, 3])) (.leaf
  [49, 7, 25, 0, 15, 16, 6, 29, 37, 4, 19, 1, 2, 3])) (.leaf
  [49, 7, 0, 15, 6, 29, 37, 34, 4, 19, 8, 1, 2, 3])) (.leaf
  [109, 7, 25, 0, 6, 29, 16, 37, 4, 19, 1, 2, 3])) (.leaf
  [49, 7, 25, 0, 15, 16, 6, 29, 37, 4, 19, 1, 2, 3])) (.leaf
  [49, 7, 0, 15, 6, 29, 37, 34, 4, 19, 8, 1, 2, 3]))

/-- some of the cases -/
def real6OneCase98 : LooseTree :=
  .breaks 11599893 (.breaks 16810003 (.breaks 8421393 (.breaks 8421505 (.breaks 8437891 (.breaks
  12632193 (.breaks 12632209 (.breaks 12689557 (.breaks 27349125 (.breaks 27369601 (.breaks
  22106257 (.breaks 27369489 (.breaks 27369505 (.breaks 27369473 (.leaf
  [7, 69, 0, 99, 100, 18, 5, 49, 15, 6, 29, 34, 4, 8, 1, 2, 3]) (.leaf
  [7, 69, 0, 99, 100, 18, 5, 49, 15, 6, 29, 34, 4, 8, 1, 2, 3])) (.leaf
  [7, 69, 0, 99, 100, 18, 5, 49, 15, 6, 29, 34, 4, 8, 1, 2, 3])) (.leaf
  [7, 69, 0, 99, 100, 18, 5, 49, 15, 6, 29, 34, 4, 8, 1, 2, 3])) (.leaf
  [7, 69, 0, 99, 100, 18, 5, 49, 15, 6, 29, 34, 4, 8, 1, 2, 3])) (.leaf
  [7, 69, 0, 99, 100, 18, 5, 49, 15, 6, 29, 34, 4, 8, 1, 2, 3])) (.leaf
  [7, 69, 0, 99, 100, 18, 5, 49, 15, 6, 29, 34, 4, 8, 1, 2, 3])) (.leaf
  [7, 69, 0, 99, 100, 18, 5, 49, 15, 6, 29, 34, 4, 8, 1, 2, 3])) (.leaf
  [7, 69, 0, 99, 100, 18, 5, 49, 15, 6, 29, 34, 4, 8, 1, 2, 3])) (.leaf
  [7, 69, 0, 99, 100, 18, 5, 109, 6, 29, 34, 4, 8, 1, 2, 3])) (.leaf
  [7, 69, 0, 99, 100, 18, 5, 109, 6, 29, 34, 4, 8, 1, 2, 3])) (.leaf [7, 69, 25, 0, 99, 16, 100,
  18, 49, 15, 6, 29, 34, 4, 8, 1, 2, 3])) (.leaf
  [7, 69, 25, 0, 152, 16, 18, 49, 15, 6, 29, 34, 4, 8, 1, 2, 3])) (.leaf
  [7, 69, 25, 0, 152, 16, 18, 49, 15, 6, 29, 34, 4, 8, 1, 2, 3])) (.leaf [7, 69, 25, 0, 99, 16,
  100, 18, 49, 15, 6, 29, 34, 4, 8, 1, 2, 3])

/-- some of the cases -/
def real6OneCase99 : LooseTree :=
  .breaks 8437891 (.breaks 11571333 (.breaks 22126741 (.breaks 9474193 (.breaks 12632193 (.breaks
  27369601 (.breaks 12632209 (.breaks 27369489 (.breaks 27369505 (.breaks 27369473 (.leaf
  [49, 7, 74, 0, 15, 4, 6, 1, 2, 3]) (.leaf [49, 7, 25, 74, 0, 15, 16, 4, 6, 1, 2, 3])) (.leaf
  [49, 7, 25, 74, 0, 15, 16, 4, 6, 1, 2, 3])) (.leaf [49, 7, 25, 74, 0, 15, 16, 4, 6, 1, 2, 3]))
  (.leaf [49, 7, 25, 74, 0, 15, 16, 4, 6, 1, 2, 3])) (.leaf
  [49, 7, 25, 74, 0, 15, 16, 4, 6, 1, 2, 3])) (.leaf [109, 7, 25, 74, 0, 6, 16, 4, 1, 2, 3]))
  (.leaf [49, 7, 25, 74, 0, 15, 16, 4, 6, 1, 2, 3])) (.leaf
  [49, 7, 25, 74, 0, 15, 16, 4, 6, 1, 2, 3])) (.leaf [49, 7, 25, 74, 0, 15, 16, 4, 6, 1, 2, 3]))
  (.leaf [109, 7, 25, 74, 0, 6, 16, 4, 1, 2, 3])

/-- some of the cases -/
def real6OneCase100 : LooseTree :=
  .breaks 9474193 (.breaks 12632081 (.breaks 12632193 (.breaks 12615810 (.breaks 12632209 (.breaks
  8421521 (.breaks 8495253 (.breaks 27369601 (.breaks 27369489 (.breaks 27369505 (.breaks 27369473
  (.leaf [7, 101, 0, 84, 15, 38, 6, 5, 11, 4, 1, 2, 3]) (.leaf
  [7, 101, 0, 84, 15, 38, 6, 5, 11, 4, 1, 2, 3])) (.leaf
  [7, 101, 0, 84, 15, 38, 6, 5, 11, 4, 1, 2, 3])) (.leaf
  [7, 101, 0, 84, 15, 38, 6, 5, 11, 4, 1, 2, 3])) (.leaf
  [7, 101, 0, 84, 15, 38, 6, 5, 11, 4, 1, 2, 3])) (.leaf
  [7, 101, 0, 84, 15, 38, 6, 5, 11, 4, 1, 2, 3])) (.leaf
  [7, 101, 0, 84, 15, 38, 6, 5, 11, 4, 1, 2, 3])) (.leaf
  [7, 101, 0, 84, 15, 38, 6, 5, 11, 4, 1, 2, 3])) (.leaf
  [7, 101, 0, 84, 15, 38, 6, 5, 11, 4, 1, 2, 3])) (.leaf
  [7, 101, 0, 84, 15, 38, 6, 5, 11, 4, 1, 2, 3])) (.leaf
  [7, 156, 0, 15, 38, 6, 5, 11, 4, 1, 2, 3])) (.leaf
  [101, 84, 15, 38, 6, 5, 11, 34, 4, 8, 1, 2, 3])

/-- some of the cases -/
def real6OneCase101 : LooseTree :=
  .breaks 9474193 (.breaks 11583509 (.breaks 12632193 (.breaks 12615810 (.breaks 12632209 (.breaks
  8421521 (.breaks 8495253 (.breaks 27369601 (.breaks 27369489 (.breaks 27369505 (.breaks 27369473
  (.leaf [7, 64, 0, 50, 15, 38, 6, 5, 11, 4, 1, 2, 3]) (.leaf
  [7, 64, 0, 50, 15, 38, 6, 5, 11, 4, 1, 2, 3])) (.leaf
  [7, 64, 0, 50, 15, 38, 6, 5, 11, 4, 1, 2, 3])) (.leaf
  [7, 64, 0, 50, 15, 38, 6, 5, 11, 4, 1, 2, 3])) (.leaf
  [7, 64, 0, 50, 15, 38, 6, 5, 11, 4, 1, 2, 3])) (.leaf
  [7, 64, 0, 50, 15, 38, 6, 5, 11, 4, 1, 2, 3])) (.leaf
  [7, 64, 0, 50, 15, 38, 6, 5, 11, 4, 1, 2, 3])) (.leaf
  [7, 64, 0, 50, 15, 38, 6, 5, 11, 4, 1, 2, 3])) (.leaf
  [7, 64, 0, 50, 15, 38, 6, 5, 11, 4, 1, 2, 3])) (.leaf
  [7, 64, 0, 50, 15, 38, 6, 5, 11, 4, 1, 2, 3])) (.leaf
  [7, 64, 0, 50, 15, 38, 6, 5, 11, 4, 1, 2, 3])) (.leaf
  [64, 50, 15, 38, 6, 5, 11, 34, 4, 8, 1, 2, 3])

/-- some of the cases -/
def real6OneCase102 : LooseTree :=
  .cases [] 24 (.breaks 9474193 (.breaks 16842881 (.breaks 16826498 (.breaks 12615810 (.breaks
  12632209 (.breaks 8421521 (.breaks 8495253 (.breaks 27369601 (.breaks 27369489 (.breaks 27369505
  (.breaks 27369473 (.leaf [7, 69, 0, 21, 72, 38, 6, 5, 11, 4, 1, 2, 3]) (.leaf
  [7, 69, 0, 21, 72, 38, 6, 5, 11, 4, 1, 2, 3])) (.leaf
  [7, 69, 0, 21, 72, 38, 6, 5, 11, 4, 1, 2, 3])) (.leaf
  [7, 69, 0, 21, 72, 38, 6, 5, 11, 4, 1, 2, 3])) (.leaf
  [7, 69, 0, 21, 72, 38, 6, 5, 11, 4, 1, 2, 3])) (.leaf
  [7, 69, 0, 21, 72, 38, 6, 5, 11, 4, 1, 2, 3])) (.leaf
  [7, 69, 0, 21, 72, 38, 6, 5, 11, 4, 1, 2, 3])) (.leaf
  [7, 69, 0, 21, 72, 38, 6, 5, 11, 4, 1, 2, 3])) (.leaf
  [7, 69, 0, 21, 72, 38, 6, 5, 11, 4, 1, 2, 3])) (.leaf
  [7, 69, 0, 21, 72, 38, 6, 5, 11, 4, 1, 2, 3])) (.leaf
  [7, 69, 0, 21, 72, 38, 6, 5, 11, 4, 1, 2, 3])) (.leaf
  [69, 21, 72, 38, 6, 5, 11, 34, 4, 8, 1, 2, 3])) (.cases [] 7 (.breaks 11583509 (.breaks 9474193
  (.breaks 12632193 (.breaks 12615810 (.breaks 12632209 (.breaks 12648578 (.breaks 8421521 (.breaks
  16883861 (.breaks 27349125 (.breaks 27369601 (.breaks 22106257 (.breaks 27369489 (.breaks
  27369505 (.breaks 27369473 (.leaf [7, 50, 0, 15, 38, 6, 68, 5, 30, 34, 4, 8, 1, 2, 3]) (.leaf
  [7, 50, 0, 15, 38, 6, 68, 5, 30, 34, 4, 8, 1, 2, 3])) (.leaf
  [7, 50, 0, 15, 38, 6, 68, 5, 30, 34, 4, 8, 1, 2, 3])) (.leaf
  [7, 50, 0, 15, 38, 6, 68, 5, 30, 34, 4, 8, 1, 2, 3])) (.leaf
  [7, 50, 0, 15, 38, 6, 68, 5, 30, 34, 4, 8, 1, 2, 3])) (.leaf
  [7, 50, 0, 15, 38, 6, 68, 5, 30, 34, 4, 8, 1, 2, 3])) (.leaf
  [7, 50, 0, 15, 38, 6, 68, 5, 30, 34, 4, 8, 1, 2, 3])) (.leaf
  [7, 50, 25, 0, 15, 16, 38, 6, 68, 5, 30, 34, 4, 8, 1, 2, 3])) (.leaf
  [7, 50, 0, 15, 38, 6, 68, 5, 30, 34, 4, 8, 1, 2, 3])) (.leaf
  [7, 50, 25, 0, 15, 16, 38, 6, 68, 5, 30, 34, 4, 8, 1, 2, 3])) (.leaf
  [7, 50, 0, 15, 38, 6, 68, 5, 30, 34, 4, 8, 1, 2, 3])) (.leaf
  [7, 50, 0, 15, 38, 6, 68, 5, 30, 34, 4, 8, 1, 2, 3])) (.leaf
  [7, 50, 25, 0, 15, 16, 38, 6, 68, 5, 30, 34, 4, 8, 1, 2, 3])) (.leaf
  [7, 50, 0, 15, 38, 6, 68, 5, 30, 34, 4, 8, 1, 2, 3])) (.leaf
  [7, 50, 25, 0, 15, 16, 38, 6, 68, 5, 30, 34, 4, 8, 1, 2, 3])) (.breaks 11583509 (.breaks 12632193
  (.breaks 12615810 (.breaks 8495253 (.breaks 27328645 (.breaks 27369601 (.breaks 16842897 (.breaks
  27369489 (.breaks 27369505 (.breaks 27369473 (.leaf
  [7, 50, 0, 15, 38, 6, 5, 11, 37, 4, 19, 1, 2, 3]) (.leaf
  [7, 50, 0, 15, 38, 6, 5, 11, 37, 4, 19, 1, 2, 3])) (.leaf
  [7, 50, 0, 15, 38, 6, 5, 11, 37, 4, 19, 1, 2, 3])) (.leaf
  [7, 50, 0, 15, 38, 6, 5, 11, 37, 4, 19, 1, 2, 3])) (.leaf
  [7, 50, 0, 15, 38, 6, 5, 11, 37, 4, 19, 1, 2, 3])) (.leaf
  [7, 50, 0, 15, 38, 6, 5, 11, 37, 4, 19, 1, 2, 3])) (.leaf
  [7, 50, 0, 15, 38, 6, 5, 11, 37, 4, 19, 1, 2, 3])) (.leaf
  [7, 50, 0, 15, 38, 6, 5, 11, 37, 4, 19, 1, 2, 3])) (.leaf
  [7, 50, 0, 15, 38, 6, 5, 11, 37, 4, 19, 1, 2, 3])) (.leaf
  [7, 50, 0, 15, 38, 6, 5, 11, 37, 4, 19, 1, 2, 3])) (.leaf
  [7, 50, 0, 15, 38, 6, 5, 11, 37, 4, 19, 1, 2, 3])))

/-- some of the cases -/
def real6OneCase103 : LooseTree :=
  .breaks 9474193 (.breaks 12632193 (.breaks 27369601 (.breaks 12615810 (.breaks 12632209 (.breaks
  27369489 (.breaks 8421521 (.breaks 27369505 (.breaks 27369473 (.leaf
  [7, 50, 74, 0, 15, 4, 38, 6, 1, 5, 2, 3]) (.leaf [7, 50, 74, 0, 15, 4, 38, 6, 1, 5, 2, 3]))
  (.leaf [7, 50, 74, 0, 15, 4, 38, 6, 1, 5, 2, 3])) (.leaf
  [7, 50, 74, 0, 15, 4, 38, 6, 1, 5, 2, 3])) (.leaf [7, 50, 74, 0, 15, 4, 38, 6, 1, 5, 2, 3]))
  (.leaf [7, 50, 74, 0, 15, 4, 38, 6, 1, 5, 2, 3])) (.leaf
  [7, 50, 74, 0, 15, 4, 38, 6, 1, 5, 2, 3])) (.leaf [7, 50, 74, 0, 15, 4, 38, 6, 1, 5, 2, 3]))
  (.leaf [7, 50, 74, 0, 15, 4, 38, 6, 1, 5, 2, 3])) (.leaf
  [7, 50, 74, 0, 15, 4, 38, 6, 1, 5, 2, 3])

/-- some of the cases -/
def real6OneCase104 : LooseTree :=
  .breaks 12632193 (.breaks 12689557 (.breaks 27369601 (.breaks 27369489 (.breaks 27369505 (.breaks
  27369473 (.leaf [130, 84, 15, 6, 29, 4, 1, 2, 3]) (.leaf [130, 84, 15, 6, 29, 4, 1, 2, 3]))
  (.leaf [130, 84, 15, 6, 29, 4, 1, 2, 3])) (.leaf [130, 84, 15, 6, 29, 4, 1, 2, 3])) (.leaf
  [130, 84, 15, 6, 29, 4, 1, 2, 3])) (.leaf [130, 84, 15, 6, 29, 4, 1, 2, 3])) (.leaf
  [130, 84, 15, 6, 29, 4, 1, 2, 3])

/-- some of the cases -/
def real6OneCase105 : LooseTree :=
  .breaks 17 (.breaks 49173 (.breaks 9474193 (.breaks 12628101 (.breaks 12632193 (.breaks 11579409
  (.breaks 12632209 (.breaks 11579425 (.breaks 11579393 (.leaf
  [7, 65, 9, 26, 0, 60, 15, 12, 6, 13, 14]) (.leaf [7, 65, 9, 26, 0, 60, 15, 12, 6, 13, 14]))
  (.leaf [7, 65, 9, 26, 0, 60, 15, 12, 6, 13, 14])) (.leaf
  [7, 65, 9, 26, 0, 60, 15, 12, 6, 13, 14])) (.leaf [7, 65, 9, 26, 0, 60, 15, 12, 6, 13, 14]))
  (.leaf [7, 65, 9, 26, 0, 60, 15, 12, 6, 13, 14])) (.leaf
  [7, 65, 9, 26, 0, 60, 15, 12, 6, 13, 14])) (.leaf [7, 65, 9, 26, 0, 60, 15, 12, 6, 13, 14]))
  (.leaf [7, 65, 9, 26, 0, 60, 15, 12, 6, 13, 14])) (.leaf
  [7, 65, 9, 26, 0, 60, 15, 12, 6, 13, 14])

/-- some of the cases -/
def real6OneCase106 : LooseTree :=
  .cases [] 6 (.breaks 8437891 (.breaks 8495253 (.breaks 11571333 (.breaks 9474193 (.breaks
  12628101 (.breaks 27312261 (.breaks 11579409 (.breaks 12632209 (.breaks 11579425 (.breaks
  11579393 (.leaf [49, 11, 7, 0, 60, 40, 12, 6, 13, 14]) (.leaf
  [49, 11, 7, 25, 0, 60, 16, 40, 12, 6, 13, 14])) (.leaf
  [49, 11, 7, 25, 0, 60, 16, 40, 12, 6, 13, 14])) (.leaf
  [49, 11, 7, 25, 0, 60, 16, 40, 12, 6, 13, 14])) (.leaf
  [49, 11, 7, 25, 0, 60, 16, 40, 12, 6, 13, 14])) (.leaf
  [49, 11, 7, 25, 0, 60, 16, 40, 12, 6, 13, 14])) (.leaf
  [49, 11, 7, 25, 0, 60, 16, 40, 12, 6, 13, 14])) (.leaf
  [49, 11, 7, 25, 0, 60, 16, 40, 12, 6, 13, 14])) (.leaf
  [49, 11, 7, 25, 0, 60, 16, 40, 12, 6, 13, 14])) (.leaf
  [49, 11, 7, 25, 0, 60, 16, 40, 12, 6, 13, 14])) (.leaf
  [49, 11, 7, 25, 0, 60, 16, 40, 12, 6, 13, 14])) (.breaks 8437891 (.breaks 9474193 (.breaks
  12628101 (.breaks 12632193 (.breaks 11579409 (.breaks 12632209 (.breaks 12689557 (.breaks
  11579425 (.breaks 27369601 (.breaks 11579393 (.breaks 27369489 (.breaks 27369505 (.breaks
  27369473 (.leaf [49, 7, 0, 60, 15, 12, 6, 29, 13, 4, 14, 1, 2, 3]) (.leaf
  [49, 7, 0, 60, 15, 12, 6, 29, 13, 4, 14, 1, 2, 3])) (.leaf
  [49, 7, 0, 60, 15, 12, 6, 29, 13, 4, 14, 1, 2, 3])) (.leaf
  [49, 7, 0, 60, 15, 12, 6, 29, 13, 4, 14, 1, 2, 3])) (.leaf
  [49, 7, 0, 60, 15, 12, 6, 29, 13, 4, 14, 1, 2, 3])) (.leaf
  [49, 7, 0, 60, 15, 12, 6, 29, 13, 4, 14, 1, 2, 3])) (.leaf
  [49, 7, 0, 60, 15, 12, 6, 29, 13, 4, 14, 1, 2, 3])) (.leaf
  [49, 7, 0, 60, 15, 12, 6, 29, 13, 4, 14, 1, 2, 3])) (.leaf
  [49, 7, 0, 60, 15, 12, 6, 29, 13, 4, 14, 1, 2, 3])) (.leaf
  [49, 7, 0, 60, 15, 12, 6, 29, 13, 4, 14, 1, 2, 3])) (.leaf
  [49, 109, 7, 25, 0, 60, 6, 29, 16, 12, 4, 13, 1, 14, 2, 3])) (.leaf
  [49, 7, 0, 60, 15, 12, 6, 29, 13, 4, 14, 1, 2, 3])) (.leaf
  [49, 7, 0, 60, 15, 12, 6, 29, 13, 4, 14, 1, 2, 3])) (.leaf
  [49, 109, 7, 25, 0, 60, 6, 29, 16, 12, 4, 13, 1, 14, 2, 3]))

/-- some of the cases -/
def real6OneCase107 : LooseTree :=
  .breaks 19972115 (.breaks 12632081 (.breaks 12632193 (.breaks 12615810 (.breaks 8433797 (.breaks
  8421521 (.breaks 11579409 (.breaks 11579425 (.breaks 11579393 (.leaf
  [101, 84, 15, 95, 38, 6, 32, 5, 12, 13, 14]) (.leaf [101, 84, 15, 95, 38, 6, 32, 5, 12, 13, 14]))
  (.leaf [101, 84, 15, 95, 38, 6, 32, 5, 12, 13, 14])) (.leaf
  [101, 84, 15, 95, 38, 6, 32, 5, 12, 13, 14])) (.leaf
  [101, 84, 15, 95, 38, 6, 32, 5, 12, 13, 14])) (.leaf
  [101, 84, 15, 95, 38, 6, 32, 5, 12, 13, 14])) (.leaf
  [101, 84, 15, 95, 38, 6, 32, 5, 12, 13, 14])) (.leaf
  [7, 101, 0, 84, 15, 95, 38, 6, 32, 5, 12, 13, 14])) (.leaf
  [7, 156, 0, 15, 95, 38, 6, 32, 5, 12, 13, 14])) (.leaf
  [7, 156, 0, 15, 95, 38, 6, 32, 5, 12, 13, 14])

/-- some of the cases -/
def real6OneCase108 : LooseTree :=
  .breaks 65557 (.breaks 11571333 (.breaks 9474193 (.breaks 16842881 (.breaks 16826498 (.breaks
  12615811 (.breaks 12615810 (.breaks 12632209 (.breaks 8433797 (.breaks 8421521 (.breaks 11579409
  (.breaks 11579425 (.breaks 11579393 (.leaf [59, 7, 0, 21, 72, 95, 38, 6, 32, 5, 12, 13, 14])
  (.leaf [59, 21, 72, 95, 38, 6, 32, 5, 11, 12, 4, 13, 1, 14, 2, 3])) (.leaf
  [59, 21, 72, 95, 38, 6, 32, 5, 11, 12, 4, 13, 1, 14, 2, 3])) (.leaf
  [59, 21, 72, 95, 38, 6, 32, 5, 11, 12, 4, 13, 1, 14, 2, 3])) (.leaf
  [59, 21, 72, 95, 38, 6, 32, 5, 11, 12, 4, 13, 1, 14, 2, 3])) (.leaf
  [59, 21, 72, 95, 38, 6, 32, 5, 11, 12, 4, 13, 1, 14, 2, 3])) (.leaf
  [59, 21, 72, 95, 38, 6, 32, 5, 11, 12, 4, 13, 1, 14, 2, 3])) (.leaf
  [59, 7, 25, 0, 21, 16, 72, 95, 38, 6, 32, 5, 12, 13, 14])) (.leaf
  [59, 21, 72, 95, 38, 6, 32, 5, 11, 12, 4, 13, 1, 14, 2, 3])) (.leaf
  [59, 7, 25, 0, 21, 16, 72, 95, 38, 6, 32, 5, 12, 13, 14])) (.leaf
  [59, 7, 25, 0, 21, 16, 72, 95, 38, 6, 32, 5, 12, 13, 14])) (.leaf
  [59, 21, 72, 95, 38, 6, 32, 5, 11, 12, 4, 13, 1, 14, 2, 3])) (.leaf
  [59, 21, 72, 95, 38, 6, 32, 5, 11, 12, 4, 13, 1, 14, 2, 3])) (.leaf
  [59, 7, 25, 0, 21, 16, 72, 95, 38, 6, 32, 5, 12, 13, 14])

/-- some of the cases -/
def real6OneCase109 : LooseTree :=
  .cases [] 7 (.breaks 8433797 (.breaks 11571333 (.breaks 22110341 (.breaks 9474193 (.breaks
  11579409 (.breaks 12632193 (.breaks 23158801 (.breaks 11579425 (.breaks 12632209 (.breaks
  12648578 (.breaks 11579393 (.breaks 16883861 (.breaks 27349125 (.breaks 27369601 (.breaks
  22106257 (.breaks 27369489 (.breaks 27369505 (.breaks 27369473 (.leaf [26, 32, 7, 25, 0, 12, 15,
  16, 13, 6, 68, 14, 30, 34, 4, 8, 1, 2, 3]) (.leaf [26, 32, 7, 25, 0, 12, 15, 16, 13, 6, 68, 14,
  30, 34, 4, 8, 1, 2, 3])) (.leaf [26, 32, 7, 25, 0, 12, 15, 16, 13, 6, 68, 14, 30, 34, 4, 8, 1, 2,
  3])) (.leaf [26, 32, 7, 25, 0, 12, 15, 16, 13, 6, 68, 14, 30, 34, 4, 8, 1, 2, 3])) (.leaf [26,
  32, 7, 25, 0, 12, 15, 16, 13, 6, 68, 14, 30, 34, 4, 8, 1, 2, 3])) (.leaf [26, 32, 7, 25, 0, 12,
  15, 16, 13, 6, 68, 14, 30, 34, 4, 8, 1, 2, 3])) (.leaf [26, 32, 7, 25, 0, 12, 15, 16, 13, 6, 68,
  14, 30, 34, 4, 8, 1, 2, 3])) (.leaf [26, 32, 7, 25, 0, 12, 15, 16, 13, 6, 68, 14, 30, 34, 4, 8,
  1, 2, 3])) (.leaf [26, 32, 7, 25, 0, 12, 15, 16, 13, 6, 68, 14, 30, 34, 4, 8, 1, 2, 3])) (.leaf
  [26, 32, 7, 25, 0, 12, 15, 16, 13, 6, 68, 14, 30, 34, 4, 8, 1, 2, 3])) (.leaf [26, 32, 7, 25, 0,
  12, 15, 16, 13, 6, 68, 14, 30, 34, 4, 8, 1, 2, 3])) (.leaf [26, 32, 7, 25, 0, 12, 15, 16, 13, 6,
  68, 14, 30, 34, 4, 8, 1, 2, 3])) (.leaf [26, 32, 7, 25, 0, 12, 15, 16, 13, 6, 68, 14, 30, 34, 4,
  8, 1, 2, 3])) (.leaf [26, 32, 7, 25, 0, 12, 15, 16, 13, 6, 68, 14, 30, 34, 4, 8, 1, 2, 3]))
  (.leaf [26, 32, 7, 25, 0, 12, 15, 16, 13, 6, 68, 14, 30, 34, 4, 8, 1, 2, 3])) (.leaf [26, 32, 7,
  25, 0, 12, 15, 16, 13, 6, 68, 14, 30, 34, 4, 8, 1, 2, 3])) (.leaf [26, 32, 7, 25, 0, 12, 15, 16,
  13, 6, 68, 14, 30, 34, 4, 8, 1, 2, 3])) (.leaf [26, 32, 7, 25, 0, 12, 15, 16, 13, 6, 68, 14, 30,
  34, 4, 8, 1, 2, 3])) (.leaf [26, 32, 7, 25, 0, 12, 15, 16, 13, 6, 68, 14, 30, 34, 4, 8, 1, 2,
  3])) (.breaks 49173 (.breaks 22110341 (.breaks 9474193 (.breaks 11579409 (.breaks 12632193
  (.breaks 23158801 (.breaks 11579425 (.breaks 12615810 (.breaks 12632209 (.breaks 8421521 (.breaks
  8495253 (.breaks 11579393 (.breaks 27328645 (.breaks 16842897 (.leaf
  [26, 32, 7, 25, 0, 12, 15, 16, 13, 38, 6, 5, 11, 14, 37, 19]) (.leaf
  [26, 32, 7, 25, 0, 12, 15, 16, 13, 38, 6, 5, 11, 14, 37, 19])) (.leaf
  [26, 32, 7, 25, 0, 12, 15, 16, 13, 38, 6, 5, 11, 14, 37, 19])) (.leaf
  [26, 32, 7, 25, 0, 12, 15, 16, 13, 38, 6, 5, 11, 14, 37, 19])) (.leaf
  [26, 32, 7, 25, 0, 12, 15, 16, 13, 38, 6, 5, 11, 14, 37, 19])) (.leaf
  [26, 32, 7, 0, 12, 15, 13, 38, 6, 11, 14, 37, 4, 19, 1, 2, 3])) (.leaf
  [26, 32, 7, 25, 0, 12, 15, 16, 13, 38, 6, 5, 11, 14, 37, 19])) (.leaf
  [26, 32, 7, 25, 0, 12, 15, 16, 13, 38, 6, 5, 11, 14, 37, 19])) (.leaf
  [26, 32, 7, 25, 0, 12, 15, 16, 13, 38, 6, 5, 11, 14, 37, 19])) (.leaf
  [26, 32, 7, 25, 0, 12, 15, 16, 13, 38, 6, 5, 11, 14, 37, 19])) (.leaf [26, 32, 7, 25, 0, 12, 15,
  16, 13, 38, 6, 11, 14, 37, 4, 19, 1, 2, 3])) (.leaf
  [26, 32, 7, 25, 0, 12, 15, 16, 13, 38, 6, 5, 11, 14, 37, 19])) (.leaf
  [26, 32, 7, 25, 0, 12, 15, 16, 13, 38, 6, 5, 11, 14, 37, 19])) (.leaf
  [26, 32, 7, 25, 0, 12, 15, 16, 13, 38, 6, 5, 11, 14, 37, 19])) (.leaf [26, 32, 7, 25, 0, 12, 15,
  16, 13, 38, 6, 11, 14, 37, 4, 19, 1, 2, 3]))

/-- some of the cases -/
def real6OneCase110 : LooseTree :=
  .breaks 11571333 (.breaks 22126741 (.breaks 9474193 (.breaks 11579409 (.breaks 27369601 (.breaks
  11579425 (.breaks 27369489 (.breaks 11579393 (.breaks 27369505 (.breaks 27369473 (.leaf
  [32, 7, 74, 0, 12, 4, 13, 1, 14, 2, 3]) (.leaf [32, 7, 74, 0, 12, 4, 13, 1, 14, 2, 3])) (.leaf
  [32, 7, 74, 0, 12, 4, 13, 1, 14, 2, 3])) (.leaf [32, 7, 74, 0, 12, 4, 13, 1, 14, 2, 3])) (.leaf
  [32, 7, 74, 0, 12, 4, 13, 1, 14, 2, 3])) (.leaf [32, 7, 74, 0, 12, 4, 13, 1, 14, 2, 3])) (.leaf
  [32, 7, 74, 0, 12, 4, 13, 1, 14, 2, 3])) (.leaf [32, 7, 74, 0, 12, 4, 13, 1, 14, 2, 3])) (.leaf
  [32, 7, 74, 0, 12, 4, 13, 1, 14, 2, 3])) (.leaf [32, 7, 74, 0, 12, 4, 13, 1, 14, 2, 3])) (.leaf
  [32, 7, 74, 0, 12, 4, 13, 1, 14, 2, 3])

/-- some of the cases -/
def real6OneCase111 : LooseTree :=
  .breaks 11579393 (.leaf [130, 84, 60, 15, 12, 6, 13, 14]) (.leaf
  [130, 84, 60, 15, 12, 6, 13, 14])

/-- some of the cases -/
def real6OneCase112 : LooseTree :=
  .breaks 49173 (.breaks 12628101 (.breaks 12632193 (.breaks 11567125 (.breaks 11579409 (.breaks
  12632209 (.breaks 8421505 (.breaks 11579425 (.breaks 8421521 (.breaks 8495253 (.breaks 11579393
  (.breaks 27369601 (.breaks 27369489 (.breaks 27369505 (.breaks 27369473 (.leaf
  [26, 7, 0, 60, 15, 61, 12, 6, 18, 13, 5, 11, 14, 4, 1, 2, 3]) (.leaf
  [26, 7, 0, 60, 15, 61, 12, 6, 18, 13, 5, 11, 14, 4, 1, 2, 3])) (.leaf
  [26, 7, 0, 60, 15, 61, 12, 6, 18, 13, 5, 11, 14, 4, 1, 2, 3])) (.leaf
  [26, 7, 0, 60, 15, 61, 12, 6, 18, 13, 5, 11, 14, 4, 1, 2, 3])) (.leaf
  [26, 7, 0, 60, 15, 61, 12, 6, 18, 13, 5, 11, 14, 4, 1, 2, 3])) (.leaf
  [26, 7, 0, 60, 15, 61, 12, 6, 18, 13, 5, 11, 14, 4, 1, 2, 3])) (.leaf
  [26, 7, 0, 60, 15, 61, 12, 6, 18, 13, 5, 11, 14, 4, 1, 2, 3])) (.leaf
  [26, 7, 0, 60, 15, 61, 12, 6, 18, 13, 5, 11, 14, 4, 1, 2, 3])) (.leaf
  [26, 7, 0, 60, 15, 61, 12, 6, 18, 13, 5, 11, 14, 4, 1, 2, 3])) (.leaf [26, 7, 25, 0, 60, 15, 16,
  61, 12, 6, 18, 13, 5, 11, 14, 4, 1, 2, 3])) (.leaf
  [26, 7, 0, 60, 15, 61, 12, 6, 18, 13, 5, 11, 14, 4, 1, 2, 3])) (.leaf
  [26, 7, 0, 60, 15, 61, 12, 6, 18, 13, 5, 11, 14, 4, 1, 2, 3])) (.leaf [26, 7, 25, 0, 60, 15, 16,
  61, 12, 6, 18, 13, 5, 11, 14, 4, 1, 2, 3])) (.leaf
  [26, 7, 0, 60, 15, 61, 12, 6, 18, 13, 5, 11, 14, 4, 1, 2, 3])) (.leaf [26, 7, 25, 0, 60, 15, 16,
  61, 12, 6, 18, 13, 5, 11, 14, 4, 1, 2, 3])) (.leaf [26, 7, 25, 0, 60, 15, 16, 61, 12, 6, 18, 13,
  5, 11, 14, 4, 1, 2, 3])

/-- some of the cases -/
def real6OneCase113 : LooseTree :=
  .breaks 129 (.breaks 9474193 (.breaks 11579409 (.breaks 27295877 (.breaks 17 (.breaks 8421521
  (.breaks 11579425 (.breaks 11579393 (.leaf [7, 104, 64, 30, 36, 0, 12, 20, 9, 5, 13, 14]) (.leaf
  [7, 104, 64, 30, 36, 0, 12, 20, 9, 5, 13, 14])) (.leaf
  [7, 104, 64, 30, 36, 0, 12, 20, 9, 5, 13, 14])) (.leaf
  [7, 104, 64, 30, 36, 0, 12, 20, 9, 5, 13, 14])) (.leaf
  [7, 104, 64, 30, 36, 0, 12, 20, 9, 5, 13, 14])) (.leaf
  [7, 104, 64, 30, 36, 0, 12, 20, 9, 5, 13, 14])) (.leaf
  [7, 104, 64, 30, 36, 0, 12, 20, 9, 5, 13, 14])) (.leaf
  [7, 104, 64, 30, 36, 0, 12, 20, 9, 5, 13, 14])) (.leaf
  [7, 104, 64, 30, 36, 0, 12, 20, 9, 5, 13, 14])

/-- some of the cases -/
def real6OneCase114 : LooseTree :=
  .cases [] 9 (.breaks 9437333 (.breaks 27295877 (.breaks 129 (.breaks 49285 (.breaks 8421521
  (.breaks 17 (.breaks 12632209 (.leaf [7, 30, 54, 20, 36, 53, 5, 9, 6]) (.leaf
  [7, 30, 54, 20, 36, 53, 5, 9, 6])) (.leaf [7, 30, 54, 20, 36, 53, 5, 9, 6])) (.leaf
  [7, 30, 54, 20, 36, 53, 5, 9, 6])) (.leaf [7, 30, 54, 20, 36, 53, 5, 9, 6])) (.leaf
  [7, 30, 54, 20, 36, 53, 5, 9, 6])) (.leaf [7, 30, 54, 20, 36, 53, 5, 9, 6])) (.leaf
  [7, 30, 54, 20, 36, 53, 5, 9, 6])) (.cases [] 5 (.breaks 16822405 (.breaks 16883861 (.breaks
  11534467 (.breaks 11534466 (.breaks 27295877 (.breaks 49285 (.breaks 17 (.breaks 8421521 (.breaks
  12619906 (.breaks 12632209 (.breaks 9474193 (.leaf [64, 30, 71, 70, 20, 53, 9, 5, 27, 6, 0])
  (.leaf [64, 30, 71, 70, 12, 20, 53, 9, 5, 13, 14, 27, 0])) (.leaf
  [64, 30, 71, 70, 12, 20, 53, 9, 5, 13, 14, 27, 0])) (.leaf
  [64, 30, 71, 70, 12, 20, 53, 9, 5, 13, 14, 27, 0])) (.leaf
  [64, 30, 71, 70, 12, 20, 53, 9, 5, 13, 14, 27, 0])) (.leaf
  [64, 30, 71, 70, 12, 20, 53, 9, 5, 13, 14, 27, 0])) (.leaf
  [64, 30, 71, 70, 12, 20, 53, 9, 5, 13, 14, 27, 0])) (.leaf
  [64, 30, 71, 70, 12, 20, 53, 9, 5, 13, 14, 27, 0])) (.leaf
  [64, 30, 71, 70, 12, 20, 53, 9, 5, 13, 14, 27, 0])) (.leaf
  [64, 30, 71, 70, 12, 20, 53, 9, 5, 13, 14, 27, 0])) (.leaf
  [64, 30, 71, 70, 12, 20, 53, 9, 5, 13, 14, 27, 0])) (.leaf
  [64, 30, 71, 70, 12, 20, 53, 9, 5, 13, 14, 27, 6, 0])) (.breaks 16822405 (.breaks 16883861
  (.breaks 11534467 (.breaks 11534466 (.breaks 27295877 (.breaks 36997 (.breaks 17 (.breaks 8421521
  (.breaks 9474193 (.breaks 9486466 (.breaks 12632209 (.leaf
  [64, 30, 71, 70, 20, 33, 9, 5, 0, 92, 6]) (.leaf
  [64, 30, 71, 70, 12, 20, 33, 9, 5, 13, 0, 92, 14, 6])) (.leaf
  [64, 30, 71, 70, 12, 20, 33, 9, 5, 13, 0, 92, 14, 6])) (.leaf
  [64, 30, 71, 70, 12, 20, 33, 9, 5, 13, 0, 92, 14, 6])) (.leaf
  [64, 30, 71, 70, 12, 20, 33, 9, 5, 13, 0, 92, 14, 6])) (.leaf
  [64, 30, 71, 70, 12, 20, 33, 9, 5, 13, 0, 92, 14, 6])) (.leaf
  [64, 30, 71, 70, 12, 20, 33, 9, 5, 13, 0, 92, 14, 6])) (.leaf
  [64, 30, 71, 70, 12, 20, 33, 9, 5, 13, 0, 92, 14, 6])) (.leaf
  [64, 30, 71, 70, 12, 20, 33, 9, 5, 13, 0, 92, 14, 6])) (.leaf
  [64, 30, 71, 70, 12, 20, 33, 9, 5, 13, 0, 92, 14, 6])) (.leaf
  [64, 30, 71, 70, 12, 20, 33, 9, 5, 13, 0, 92, 14, 6])) (.leaf
  [64, 30, 71, 70, 12, 20, 33, 9, 5, 13, 0, 92, 14, 6])))

/-- some of the cases -/
def real6OneCase115 : LooseTree :=
  .cases [] 2 (.breaks 16777349 (.breaks 16883861 (.breaks 45187 (.breaks 45186 (.breaks 27295877
  (.breaks 8421521 (.breaks 11571333 (.breaks 11579409 (.breaks 9474193 (.breaks 11579425 (.breaks
  11579393 (.leaf [65, 30, 9, 76, 77, 20, 5, 7, 12, 0, 13, 14]) (.leaf
  [65, 30, 17, 9, 76, 77, 10, 20, 5, 7, 12, 8, 0, 13, 14])) (.leaf
  [65, 30, 17, 9, 76, 77, 10, 20, 5, 7, 12, 8, 0, 13, 14])) (.leaf
  [65, 30, 9, 76, 77, 20, 5, 7, 12, 0, 13, 14])) (.leaf
  [65, 30, 17, 9, 76, 77, 10, 20, 5, 7, 12, 8, 0, 13, 14])) (.leaf
  [65, 30, 9, 76, 77, 20, 5, 7, 12, 0, 13, 14])) (.leaf
  [65, 30, 17, 9, 76, 77, 10, 20, 5, 7, 12, 8, 0, 13, 14])) (.leaf
  [65, 30, 17, 9, 76, 77, 10, 20, 5, 7, 12, 8, 0, 13, 14])) (.leaf
  [65, 30, 17, 9, 76, 77, 10, 20, 5, 7, 12, 8, 0, 13, 14])) (.leaf
  [65, 30, 9, 76, 77, 20, 5, 7, 12, 0, 13, 14])) (.leaf
  [65, 30, 17, 9, 76, 77, 10, 20, 5, 7, 12, 8, 0, 13, 14])) (.leaf
  [65, 30, 17, 9, 76, 77, 10, 20, 5, 7, 12, 8, 0, 13, 14])) (.breaks 16777349 (.breaks 16883861
  (.breaks 45187 (.breaks 45186 (.breaks 27295877 (.breaks 8421521 (.breaks 11571333 (.breaks
  11579409 (.breaks 9474193 (.breaks 11579425 (.breaks 11579393 (.leaf
  [65, 30, 9, 76, 77, 20, 5, 7, 12, 0, 13, 14]) (.leaf
  [65, 30, 25, 9, 76, 77, 16, 20, 5, 7, 12, 0, 13, 14])) (.leaf
  [65, 30, 25, 9, 76, 77, 16, 20, 5, 7, 12, 0, 13, 14])) (.leaf
  [65, 30, 9, 76, 77, 20, 5, 7, 12, 0, 13, 14])) (.leaf
  [65, 30, 25, 9, 76, 77, 16, 20, 5, 7, 12, 0, 13, 14])) (.leaf
  [65, 30, 9, 76, 77, 20, 5, 7, 12, 0, 13, 14])) (.leaf
  [65, 30, 25, 9, 76, 77, 16, 20, 5, 7, 12, 0, 13, 14])) (.leaf
  [65, 30, 25, 9, 76, 77, 16, 20, 5, 7, 12, 0, 13, 14])) (.leaf
  [65, 30, 25, 9, 76, 77, 16, 20, 5, 7, 12, 0, 13, 14])) (.leaf
  [65, 30, 9, 76, 77, 20, 5, 7, 12, 0, 13, 14])) (.leaf
  [65, 30, 25, 9, 76, 77, 16, 20, 5, 7, 12, 0, 13, 14])) (.leaf
  [65, 30, 25, 9, 76, 77, 16, 20, 5, 7, 12, 0, 13, 14]))

/-- some of the cases -/
def real6OneCase116 : LooseTree :=
  .cases [] 4 (.breaks 11571333 (.breaks 12583045 (.breaks 65557 (.breaks 9474193 (.breaks 16822405
  (.breaks 16842881 (.breaks 11579409 (.breaks 16883861 (.breaks 11579425 (.breaks 27295877
  (.breaks 8421521 (.breaks 11579393 (.leaf [7, 28, 59, 0, 64, 21, 12, 30, 13, 20, 5, 14]) (.leaf
  [7, 28, 9, 59, 0, 64, 21, 12, 30, 13, 20, 5, 14])) (.leaf
  [7, 28, 9, 59, 0, 64, 21, 12, 30, 13, 20, 5, 14])) (.leaf
  [7, 28, 9, 59, 0, 64, 21, 12, 30, 13, 20, 5, 14])) (.leaf
  [7, 28, 9, 59, 0, 64, 21, 12, 30, 13, 20, 5, 14])) (.leaf
  [7, 28, 9, 59, 0, 64, 21, 12, 30, 13, 20, 5, 14])) (.leaf
  [7, 28, 9, 59, 0, 64, 21, 12, 30, 13, 20, 5, 14])) (.leaf
  [7, 28, 9, 59, 0, 64, 21, 12, 30, 13, 20, 5, 14])) (.leaf
  [7, 28, 9, 59, 0, 64, 21, 12, 30, 13, 20, 5, 14])) (.leaf
  [7, 28, 9, 59, 0, 64, 21, 12, 30, 13, 20, 5, 14])) (.leaf
  [7, 28, 9, 59, 0, 64, 21, 12, 30, 13, 20, 5, 14])) (.leaf
  [7, 28, 59, 0, 64, 21, 12, 30, 13, 20, 4, 5, 14, 1, 2, 3])) (.leaf
  [7, 28, 9, 59, 0, 64, 21, 12, 30, 13, 20, 5, 14])) (.breaks 11571333 (.breaks 9474193 (.breaks
  12632193 (.breaks 16822405 (.breaks 16842881 (.breaks 11579409 (.breaks 12632209 (.breaks
  16883861 (.breaks 11579425 (.breaks 27295877 (.breaks 27369601 (.breaks 8421521 (.breaks 11579393
  (.breaks 27369489 (.breaks 27369505 (.breaks 27369473 (.leaf [26, 59, 7, 0, 15, 64, 21, 12, 6,
  30, 13, 20, 4, 5, 14, 1, 2, 3]) (.leaf [26, 59, 7, 0, 15, 64, 21, 12, 6, 30, 13, 20, 4, 5, 14, 1,
  2, 3])) (.leaf [26, 59, 7, 0, 15, 64, 21, 12, 6, 30, 13, 20, 4, 5, 14, 1, 2, 3])) (.leaf [26, 59,
  7, 0, 15, 64, 21, 12, 6, 30, 13, 20, 4, 5, 14, 1, 2, 3])) (.leaf [26, 59, 7, 0, 15, 64, 21, 12,
  6, 30, 13, 20, 4, 5, 14, 1, 2, 3])) (.leaf [26, 59, 7, 0, 15, 64, 21, 12, 6, 30, 13, 20, 4, 5,
  14, 1, 2, 3])) (.leaf [26, 59, 7, 0, 15, 64, 21, 12, 6, 30, 13, 20, 4, 5, 14, 1, 2, 3])) (.leaf
  [26, 59, 7, 0, 15, 64, 21, 12, 6, 30, 13, 20, 4, 5, 14, 1, 2, 3])) (.leaf [26, 59, 7, 0, 15, 64,
  21, 12, 6, 30, 13, 20, 4, 5, 14, 1, 2, 3])) (.leaf [26, 59, 7, 0, 15, 64, 21, 12, 6, 30, 13, 20,
  4, 5, 14, 1, 2, 3])) (.leaf [26, 59, 7, 0, 15, 64, 21, 12, 6, 30, 13, 20, 4, 5, 14, 1, 2, 3]))
  (.leaf [26, 59, 7, 0, 15, 64, 21, 12, 6, 30, 13, 20, 4, 5, 14, 1, 2, 3])) (.leaf [26, 59, 7, 0,
  15, 64, 21, 12, 6, 30, 13, 20, 4, 5, 14, 1, 2, 3])) (.leaf [26, 59, 7, 0, 15, 64, 21, 12, 6, 30,
  13, 20, 4, 5, 14, 1, 2, 3])) (.leaf [26, 59, 7, 0, 15, 64, 21, 12, 6, 30, 13, 20, 4, 5, 14, 1, 2,
  3])) (.leaf [26, 59, 7, 0, 15, 64, 21, 12, 6, 30, 13, 20, 4, 5, 14, 1, 2, 3])) (.leaf [26, 59, 7,
  0, 15, 64, 21, 12, 6, 30, 13, 20, 4, 5, 14, 1, 2, 3]))

/-- some of the cases -/
def real6OneCase117 : LooseTree :=
  .cases [] 10 (.cases [] 44 (.cases [] 15 (.breaks 20013237 (.breaks 9474193 (.breaks 16842881
  (.breaks 23158913 (.breaks 16883861 (.breaks 23158801 (.breaks 27295877 (.breaks 27369601
  (.breaks 8421521 (.breaks 27369489 (.breaks 27369505 (.breaks 27369473 (.leaf
  [7, 69, 44, 0, 21, 45, 30, 16, 20, 4, 5, 1, 2, 3]) (.leaf
  [7, 69, 44, 0, 21, 45, 30, 16, 20, 5, 122, 10, 8])) (.leaf
  [7, 69, 44, 0, 21, 45, 30, 16, 20, 5, 122, 10, 8])) (.leaf
  [7, 69, 44, 0, 21, 45, 30, 16, 20, 5, 122, 10, 8])) (.leaf
  [7, 69, 44, 0, 21, 45, 30, 16, 20, 4, 5, 1, 2, 3])) (.leaf
  [7, 69, 44, 0, 21, 45, 30, 16, 20, 5, 122, 10, 8])) (.leaf
  [7, 69, 44, 0, 21, 45, 30, 16, 20, 4, 5, 1, 2, 3])) (.leaf
  [7, 69, 44, 0, 21, 45, 30, 16, 20, 4, 5, 1, 2, 3])) (.leaf
  [7, 69, 44, 0, 21, 45, 30, 16, 20, 4, 5, 1, 2, 3])) (.leaf
  [7, 69, 44, 0, 21, 45, 30, 16, 20, 4, 5, 1, 2, 3])) (.leaf
  [7, 69, 44, 0, 21, 45, 30, 16, 20, 4, 5, 1, 2, 3])) (.leaf
  [7, 69, 44, 0, 21, 45, 30, 16, 20, 4, 5, 1, 2, 3])) (.leaf
  [7, 69, 44, 0, 21, 45, 30, 16, 20, 4, 5, 1, 2, 3])) (.breaks 11599893 (.breaks 16842881 (.breaks
  16883861 (.breaks 27295877 (.breaks 27369601 (.breaks 8421521 (.breaks 27369489 (.breaks 22106241
  (.breaks 27369505 (.breaks 22106257 (.breaks 27369473 (.leaf
  [7, 69, 0, 21, 30, 20, 4, 5, 122, 1, 10, 2, 8, 3]) (.leaf
  [7, 69, 0, 21, 30, 20, 4, 5, 122, 1, 10, 2, 8, 3])) (.leaf
  [7, 69, 0, 21, 30, 20, 4, 5, 122, 1, 10, 2, 8, 3])) (.leaf
  [7, 69, 0, 21, 30, 20, 4, 5, 122, 1, 10, 2, 8, 3])) (.leaf
  [7, 69, 0, 21, 30, 20, 4, 5, 179, 1, 8, 2, 3])) (.leaf
  [7, 69, 0, 21, 30, 20, 4, 5, 122, 1, 10, 2, 8, 3])) (.leaf
  [7, 69, 0, 21, 30, 20, 4, 5, 122, 1, 10, 2, 8, 3])) (.leaf
  [7, 69, 0, 21, 30, 20, 4, 5, 122, 1, 10, 2, 8, 3])) (.leaf
  [7, 69, 0, 21, 30, 20, 4, 5, 122, 1, 10, 2, 8, 3])) (.leaf
  [7, 69, 56, 0, 21, 23, 30, 24, 20, 4, 5, 122, 1, 10, 2, 8, 3])) (.leaf
  [7, 69, 56, 0, 21, 23, 30, 24, 20, 4, 5, 122, 1, 10, 2, 8, 3])) (.leaf
  [7, 69, 56, 0, 21, 23, 30, 24, 20, 4, 5, 122, 1, 10, 2, 8, 3]))) (.breaks 11599893 (.breaks
  16842881 (.breaks 16883861 (.breaks 27349125 (.breaks 27369601 (.breaks 22052994 (.breaks
  27369489 (.breaks 8421521 (.breaks 27369505 (.breaks 27369473 (.leaf
  [7, 69, 0, 21, 30, 34, 4, 129, 1, 5, 2, 3]) (.leaf [7, 69, 0, 21, 30, 34, 4, 129, 1, 5, 2, 3]))
  (.leaf [7, 69, 0, 21, 30, 34, 4, 129, 1, 5, 2, 3])) (.leaf
  [7, 69, 0, 21, 30, 34, 4, 129, 1, 5, 2, 3])) (.leaf [7, 69, 0, 21, 30, 34, 4, 129, 1, 5, 2, 3]))
  (.leaf [7, 69, 0, 21, 30, 34, 4, 129, 1, 5, 2, 3])) (.leaf
  [7, 69, 0, 21, 30, 34, 4, 129, 1, 5, 2, 3])) (.leaf [7, 69, 0, 21, 30, 34, 4, 129, 1, 5, 2, 3]))
  (.leaf [7, 69, 0, 21, 30, 34, 4, 129, 8, 1, 5, 2, 3])) (.leaf
  [7, 69, 0, 21, 30, 34, 4, 129, 8, 1, 5, 2, 3])) (.leaf
  [7, 69, 0, 21, 30, 34, 4, 129, 8, 1, 5, 2, 3]))) (.leaf [74, 20, 4, 5, 1, 2, 3])

/-- some of the cases -/
def real6OneCase118 : LooseTree :=
  .cases [] 5 (.breaks 27295877 (.breaks 8421521 (.breaks 8454275 (.breaks 9474193 (.breaks
  23158913 (.breaks 16842881 (.breaks 23154709 (.breaks 23158801 (.breaks 16842897 (.breaks
  22106241 (.breaks 22106257 (.leaf [27, 44, 20, 5, 55, 0, 45, 21, 17, 16, 19, 10, 8]) (.leaf
  [27, 44, 20, 5, 55, 0, 45, 21, 17, 16, 19, 10, 8])) (.leaf
  [27, 44, 20, 5, 55, 0, 45, 21, 17, 16, 19, 10, 8])) (.leaf
  [27, 44, 20, 5, 55, 0, 45, 21, 17, 16, 19, 10, 8])) (.leaf
  [27, 44, 20, 5, 55, 0, 45, 21, 17, 16, 19, 10, 8])) (.leaf
  [27, 44, 20, 5, 55, 0, 45, 21, 17, 16, 19, 10, 8])) (.leaf
  [27, 44, 20, 5, 115, 0, 45, 19, 17, 16, 10, 8])) (.leaf
  [27, 44, 20, 5, 55, 0, 45, 21, 17, 16, 19, 10, 8])) (.leaf
  [27, 44, 20, 5, 55, 0, 45, 21, 17, 16, 19, 10, 8])) (.leaf
  [27, 44, 20, 5, 115, 0, 45, 19, 17, 16, 10, 8])) (.leaf
  [27, 44, 20, 5, 55, 0, 45, 21, 17, 16, 19, 10, 8])) (.leaf
  [27, 44, 20, 5, 55, 0, 45, 21, 17, 16, 19, 10, 8])) (.breaks 11571333 (.breaks 20013237 (.breaks
  27295877 (.breaks 8421521 (.breaks 9474193 (.breaks 9486467 (.breaks 23158913 (.breaks 12583045
  (.breaks 16842881 (.breaks 23154709 (.breaks 23158801 (.breaks 17 (.breaks 16842897 (.breaks
  22106241 (.breaks 22106257 (.leaf [7, 44, 20, 5, 55, 0, 73, 45, 28, 21, 17, 16, 9, 19, 10, 8])
  (.leaf [7, 44, 20, 5, 55, 0, 73, 45, 28, 21, 17, 16, 9, 19, 10, 8])) (.leaf
  [7, 44, 20, 5, 55, 0, 73, 45, 28, 21, 17, 16, 9, 19, 10, 8])) (.leaf
  [7, 44, 20, 5, 55, 0, 73, 45, 28, 21, 17, 16, 9, 19, 10, 8])) (.leaf
  [7, 44, 20, 5, 55, 0, 73, 45, 28, 21, 17, 16, 9, 19, 10, 8])) (.leaf
  [7, 44, 20, 5, 55, 0, 73, 45, 28, 21, 17, 16, 9, 19, 10, 8])) (.leaf
  [7, 44, 20, 5, 55, 0, 73, 45, 28, 21, 17, 16, 9, 19, 10, 8])) (.leaf
  [7, 44, 20, 5, 115, 0, 73, 45, 28, 19, 17, 16, 9, 10, 8])) (.leaf
  [7, 44, 20, 5, 55, 0, 73, 45, 28, 21, 17, 16, 9, 19, 10, 8])) (.leaf [7, 44, 20, 5, 55, 0, 73,
  92, 45, 28, 6, 21, 17, 16, 9, 19, 10, 8])) (.leaf
  [7, 28, 44, 20, 9, 5, 55, 0, 45, 21, 17, 16, 19, 10, 8])) (.leaf
  [7, 44, 20, 5, 55, 0, 73, 45, 28, 21, 17, 16, 9, 19, 10, 8])) (.leaf [7, 44, 20, 5, 55, 0, 73,
  92, 45, 28, 6, 21, 17, 16, 9, 19, 10, 8])) (.leaf [7, 44, 20, 5, 55, 0, 73, 92, 45, 28, 6, 21,
  17, 16, 9, 19, 10, 8])) (.leaf [7, 44, 20, 5, 55, 0, 73, 92, 45, 28, 6, 21, 17, 16, 9, 19, 10,
  8])) (.leaf [7, 28, 44, 20, 9, 5, 55, 0, 92, 45, 6, 21, 17, 16, 19, 10, 8]))

/-- some of the cases -/
def real6OneCase119 : LooseTree :=
  .breaks 27295877 (.breaks 8421521 (.breaks 9474193 (.breaks 12632193 (.breaks 23158913 (.breaks
  12632209 (.breaks 16842881 (.breaks 23154709 (.breaks 23158801 (.breaks 16842897 (.breaks
  22106241 (.breaks 22106257 (.leaf [26, 7, 44, 20, 5, 55, 0, 15, 45, 6, 21, 17, 16, 19, 10, 8])
  (.leaf [26, 7, 44, 20, 5, 55, 0, 15, 45, 6, 21, 17, 16, 19, 10, 8])) (.leaf
  [26, 7, 44, 20, 5, 55, 0, 15, 45, 6, 21, 17, 16, 19, 10, 8])) (.leaf
  [26, 7, 44, 20, 5, 55, 0, 15, 45, 6, 21, 17, 16, 19, 10, 8])) (.leaf
  [26, 7, 44, 20, 5, 55, 0, 15, 45, 6, 21, 17, 16, 19, 10, 8])) (.leaf
  [26, 7, 44, 20, 5, 55, 0, 15, 45, 6, 21, 17, 16, 19, 10, 8])) (.leaf
  [26, 7, 44, 20, 5, 115, 0, 15, 45, 6, 19, 17, 16, 10, 8])) (.leaf
  [26, 7, 44, 20, 5, 55, 0, 15, 45, 6, 21, 17, 16, 19, 10, 8])) (.leaf
  [26, 7, 44, 20, 5, 55, 0, 15, 45, 6, 21, 17, 16, 19, 10, 8])) (.leaf
  [26, 7, 44, 20, 5, 55, 0, 15, 45, 6, 21, 17, 16, 19, 10, 8])) (.leaf
  [26, 7, 44, 20, 5, 55, 0, 15, 45, 6, 21, 17, 16, 19, 10, 8])) (.leaf
  [26, 7, 44, 20, 5, 55, 0, 15, 45, 6, 21, 17, 16, 19, 10, 8])) (.leaf
  [26, 7, 44, 20, 5, 55, 0, 15, 45, 6, 21, 17, 16, 19, 10, 8])

/-- some of the cases -/
def real6OneCase120 : LooseTree :=
  .cases [] 4 (.cases [] 42 (.breaks 27295877 (.breaks 27340821 (.breaks 27353218 (.breaks 8421521
  (.breaks 8454275 (.breaks 9474193 (.breaks 20000897 (.breaks 23154709 (.breaks 16842881 (.breaks
  20000945 (.breaks 22106241 (.breaks 16842897 (.breaks 20000929 (.breaks 22106257 (.leaf
  [7, 20, 113, 42, 5, 55, 0, 46, 17, 21, 23, 10, 19, 24, 8]) (.leaf
  [7, 20, 113, 42, 5, 55, 0, 46, 17, 21, 23, 10, 19, 24, 8])) (.leaf
  [7, 20, 113, 42, 5, 55, 0, 46, 17, 21, 23, 10, 19, 24, 8])) (.leaf
  [7, 20, 113, 42, 5, 55, 0, 46, 17, 21, 23, 10, 19, 24, 8])) (.leaf
  [7, 20, 113, 42, 5, 55, 0, 46, 17, 21, 23, 10, 19, 24, 8])) (.leaf
  [7, 20, 113, 42, 5, 55, 0, 46, 17, 21, 23, 10, 19, 24, 8])) (.leaf
  [7, 20, 113, 42, 5, 115, 0, 46, 17, 19, 23, 10, 24, 8])) (.leaf
  [7, 20, 113, 5, 55, 0, 46, 169, 21, 23, 135, 19, 24, 10, 8])) (.leaf
  [7, 20, 113, 42, 5, 55, 0, 46, 17, 21, 23, 10, 19, 24, 8])) (.leaf
  [7, 20, 113, 42, 5, 55, 0, 46, 17, 21, 23, 10, 19, 24, 8])) (.leaf
  [7, 20, 113, 42, 5, 115, 0, 46, 17, 19, 23, 10, 24, 8])) (.leaf
  [7, 20, 113, 42, 5, 55, 0, 46, 17, 16, 21, 23, 10, 19, 24, 8])) (.leaf
  [7, 20, 113, 5, 55, 0, 46, 169, 21, 23, 135, 19, 24, 10, 8])) (.leaf
  [7, 20, 113, 42, 5, 55, 0, 46, 17, 21, 23, 10, 19, 24, 8])) (.leaf
  [7, 20, 113, 42, 5, 55, 0, 46, 17, 16, 21, 23, 10, 19, 24, 8])) (.cases [] 58 (.breaks 27340931
  (.breaks 20029573 (.cycle 3 [128, 151]) (.cycle 29 [168, 56])) (.cycle 34 [56, 168])) (.breaks
  27340931 (.breaks 20029573 (.cycle 3 [128, 151]) (.cycle 3 [42, 167, 151])) (.cycle 3
  [42, 167, 151])))) (.breaks 49173 (.breaks 11571333 (.breaks 27295877 (.breaks 27340931 (.breaks
  27353218 (.breaks 8421521 (.breaks 8454275 (.breaks 9474193 (.breaks 12632193 (.breaks 20000897
  (.breaks 23154709 (.breaks 12632209 (.breaks 16842881 (.breaks 20000945 (.breaks 22106241
  (.breaks 16842897 (.breaks 20000929 (.breaks 22106257 (.leaf [26, 7, 20, 128, 42, 5, 55, 0, 15,
  46, 17, 6, 21, 23, 10, 19, 24, 8]) (.leaf [26, 7, 20, 128, 42, 5, 55, 0, 15, 46, 17, 16, 6, 21,
  23, 10, 19, 24, 8])) (.leaf [26, 7, 20, 128, 42, 5, 55, 0, 15, 46, 17, 16, 6, 21, 23, 10, 19, 24,
  8])) (.leaf [26, 7, 20, 128, 42, 5, 55, 0, 15, 46, 17, 16, 6, 21, 23, 10, 19, 24, 8])) (.leaf
  [26, 7, 20, 128, 42, 5, 55, 0, 15, 46, 17, 16, 6, 21, 23, 10, 19, 24, 8])) (.leaf [26, 7, 20,
  128, 42, 5, 55, 0, 15, 46, 17, 16, 6, 21, 23, 10, 19, 24, 8])) (.leaf [26, 7, 20, 128, 42, 5,
  115, 0, 15, 46, 17, 16, 6, 19, 23, 10, 24, 8])) (.leaf [26, 7, 20, 128, 42, 5, 55, 0, 15, 46, 17,
  16, 6, 21, 23, 10, 19, 24, 8])) (.leaf [26, 7, 20, 128, 42, 5, 55, 0, 15, 46, 17, 16, 6, 21, 23,
  10, 19, 24, 8])) (.leaf [26, 7, 20, 148, 42, 5, 55, 0, 15, 56, 17, 16, 6, 21, 23, 10, 19, 24,
  8])) (.leaf [26, 7, 20, 128, 42, 5, 55, 0, 15, 46, 17, 16, 6, 21, 23, 10, 19, 24, 8])) (.leaf
  [26, 7, 20, 128, 42, 5, 55, 0, 15, 46, 17, 16, 6, 21, 23, 10, 19, 24, 8])) (.leaf [26, 7, 20,
  128, 42, 5, 115, 0, 15, 46, 17, 16, 6, 19, 23, 10, 24, 8])) (.leaf [26, 7, 20, 128, 42, 5, 55, 0,
  15, 46, 17, 16, 6, 21, 23, 10, 19, 24, 8])) (.leaf [26, 7, 20, 128, 42, 5, 55, 0, 15, 46, 17, 16,
  6, 21, 23, 10, 19, 24, 8])) (.leaf [26, 7, 20, 148, 42, 5, 55, 0, 15, 56, 17, 16, 6, 21, 23, 10,
  19, 24, 8])) (.leaf [26, 7, 20, 128, 42, 5, 55, 0, 15, 46, 17, 16, 6, 21, 23, 10, 19, 24, 8]))
  (.leaf [26, 7, 20, 128, 42, 5, 55, 0, 15, 46, 17, 16, 6, 21, 23, 10, 19, 24, 8])) (.leaf [26, 7,
  20, 128, 42, 5, 55, 0, 15, 46, 17, 16, 6, 21, 23, 10, 19, 24, 8]))

/-- some of the cases -/
def real6OneCase121 : LooseTree :=
  .breaks 11571333 (.breaks 27295877 (.breaks 27353218 (.breaks 8421521 (.breaks 9474193 (.breaks
  23154709 (.breaks 22097939 (.breaks 22106241 (.breaks 20000785 (.breaks 22106257 (.breaks
  20000897 (.breaks 20000945 (.breaks 20000929 (.leaf
  [7, 20, 42, 5, 0, 17, 67, 10, 63, 8, 46, 23, 24]) (.leaf
  [7, 20, 42, 5, 0, 17, 16, 67, 10, 63, 8, 46, 23, 24])) (.leaf
  [7, 20, 42, 5, 0, 17, 16, 67, 10, 63, 8, 46, 23, 24])) (.leaf
  [7, 20, 42, 5, 0, 17, 16, 67, 10, 63, 8, 46, 23, 24])) (.leaf
  [7, 20, 42, 5, 0, 17, 16, 67, 10, 63, 8, 46, 23, 24])) (.leaf
  [7, 20, 42, 5, 0, 17, 16, 123, 10, 46, 8, 23, 24])) (.leaf
  [7, 20, 42, 5, 0, 17, 16, 67, 10, 63, 8, 46, 23, 24])) (.leaf
  [7, 20, 42, 5, 0, 17, 16, 123, 10, 46, 8, 23, 24])) (.leaf
  [7, 20, 42, 5, 0, 17, 16, 67, 10, 63, 8, 46, 23, 24])) (.leaf
  [7, 20, 42, 5, 0, 17, 16, 67, 10, 63, 8, 46, 23, 24])) (.leaf
  [7, 20, 42, 5, 0, 17, 16, 67, 10, 63, 8, 46, 23, 24])) (.leaf
  [7, 20, 42, 5, 0, 17, 16, 67, 10, 63, 8, 46, 23, 24])) (.leaf
  [7, 20, 42, 5, 0, 17, 16, 67, 10, 63, 8, 46, 23, 24])) (.leaf
  [7, 20, 42, 5, 0, 17, 16, 67, 10, 63, 8, 46, 23, 24])

/-- some of the cases -/
def real6OneCase122 : LooseTree :=
  .breaks 20029571 (.breaks 27369601 (.cycle 3 [148, 56, 155, 4]) (.cycle 3 [148, 56, 155, 4]))
  (.cycle 3 [148, 56, 155, 4])

/-- some of the cases -/
def real6OneCase123 : LooseTree :=
  .breaks 8454275 (.breaks 16867461 (.breaks 23175299 (.cycle 7 [20, 55, 170, 124]) (.cycle 7
  [20, 55, 170, 124])) (.cycle 7 [20, 55, 170, 124])) (.cycle 7 [20, 55, 170, 124])

/-- some of the cases -/
def real6OneCase124 : LooseTree :=
  .breaks 27295877 (.breaks 27353218 (.breaks 8421521 (.breaks 23134229 (.breaks 23154709 (.breaks
  23158801 (.breaks 16842881 (.breaks 22106241 (.breaks 16842897 (.breaks 22106257 (.leaf
  [7, 20, 42, 5, 0, 107, 17, 16, 21, 10, 19, 8]) (.leaf
  [7, 20, 42, 5, 0, 107, 17, 16, 21, 10, 19, 8])) (.leaf
  [7, 20, 42, 5, 0, 107, 17, 16, 21, 10, 19, 8])) (.leaf
  [7, 20, 42, 5, 0, 107, 17, 16, 21, 10, 19, 8])) (.leaf
  [7, 20, 42, 5, 0, 107, 17, 16, 21, 10, 19, 8])) (.leaf
  [7, 20, 42, 5, 0, 107, 17, 16, 21, 10, 19, 8])) (.leaf
  [7, 20, 42, 5, 0, 107, 17, 16, 21, 10, 19, 8])) (.leaf
  [7, 20, 42, 5, 0, 107, 17, 16, 21, 10, 19, 8])) (.leaf
  [7, 20, 42, 5, 0, 107, 17, 16, 21, 10, 19, 8])) (.leaf
  [7, 20, 148, 42, 5, 0, 56, 107, 17, 21, 23, 10, 19, 24, 8])) (.leaf
  [7, 20, 42, 5, 0, 107, 17, 16, 21, 10, 19, 8])

/-- some of the cases -/
def real6OneCase125 : LooseTree :=
  .cases [] 51 (.breaks 23134229 (.breaks 27295877 (.breaks 8421521 (.breaks 9474193 (.breaks
  16842881 (.breaks 16883845 (.breaks 16842897 (.breaks 16863362 (.breaks 27369489 (.breaks
  22106257 (.breaks 27369505 (.breaks 27369473 (.leaf
  [7, 107, 20, 5, 0, 21, 139, 19, 117, 1, 8, 2, 3]) (.leaf
  [7, 107, 20, 5, 0, 21, 139, 19, 117, 1, 8, 2, 3])) (.leaf
  [7, 107, 20, 5, 0, 21, 139, 19, 117, 1, 8, 2, 3])) (.leaf
  [7, 107, 20, 5, 0, 21, 139, 19, 117, 1, 8, 2, 3])) (.leaf
  [7, 107, 20, 5, 0, 21, 139, 19, 117, 1, 8, 2, 3])) (.leaf
  [7, 107, 20, 5, 0, 21, 139, 19, 117, 1, 8, 2, 3])) (.leaf
  [7, 107, 20, 5, 0, 21, 139, 19, 117, 1, 8, 2, 3])) (.leaf
  [7, 107, 20, 5, 0, 21, 139, 19, 117, 1, 8, 2, 3])) (.leaf
  [7, 56, 107, 20, 5, 0, 21, 139, 23, 19, 117, 24, 1, 8, 2, 3])) (.leaf
  [7, 107, 20, 5, 0, 21, 139, 19, 117, 1, 8, 2, 3])) (.leaf
  [7, 107, 20, 5, 0, 21, 139, 19, 117, 1, 8, 2, 3])) (.leaf
  [7, 107, 20, 5, 0, 21, 139, 19, 117, 1, 8, 2, 3])) (.leaf
  [7, 56, 107, 20, 5, 0, 21, 139, 23, 19, 117, 24, 1, 8, 2, 3])) (.breaks 23146629 (.breaks
  23175298 (.breaks 27295877 (.breaks 8421521 (.breaks 9474193 (.breaks 20000945 (.breaks 27328533
  (.breaks 16842881 (.breaks 20000929 (.breaks 16842897 (.breaks 16863362 (.breaks 22106257 (.leaf
  [7, 56, 66, 20, 5, 0, 23, 138, 21, 24, 19, 117, 8]) (.leaf
  [7, 56, 66, 20, 5, 0, 23, 138, 21, 24, 19, 117, 8])) (.leaf
  [7, 56, 66, 20, 5, 0, 23, 138, 21, 24, 19, 117, 8])) (.leaf
  [7, 56, 66, 20, 5, 0, 23, 138, 21, 24, 19, 117, 8])) (.leaf
  [7, 66, 20, 5, 0, 138, 21, 125, 19, 117, 126, 8, 127])) (.leaf [7, 56, 66, 20, 5, 0, 23, 138, 21,
  125, 24, 19, 117, 126, 8, 127])) (.leaf [7, 56, 66, 20, 5, 0, 23, 138, 21, 125, 24, 19, 117, 126,
  8, 127])) (.leaf [7, 66, 20, 5, 0, 138, 21, 125, 19, 117, 126, 8, 127])) (.leaf
  [7, 56, 66, 20, 5, 0, 23, 138, 21, 24, 19, 117, 8])) (.leaf [7, 56, 66, 20, 5, 0, 23, 138, 21,
  125, 24, 19, 117, 126, 8, 127])) (.leaf [7, 56, 66, 20, 5, 0, 23, 138, 21, 125, 24, 19, 117, 126,
  8, 127])) (.leaf [7, 56, 20, 138, 5, 0, 21, 125, 23, 19, 117, 24, 126, 8, 127])) (.leaf
  [7, 66, 20, 5, 0, 138, 21, 125, 19, 117, 126, 8, 127]))

/-- some of the cases -/
def real6OneCase126 : LooseTree :=
  .cases [] 4 (.breaks 11571333 (.breaks 12583045 (.breaks 23146629 (.breaks 23154709 (.breaks
  27295877 (.breaks 17 (.breaks 8421521 (.breaks 9474193 (.breaks 20000945 (.breaks 22106241
  (.breaks 20000929 (.breaks 22085762 (.breaks 22106257 (.breaks 16842897 (.leaf
  [7, 28, 56, 17, 20, 9, 5, 0, 23, 10, 24, 105, 8, 19]) (.leaf [7, 28, 56, 17, 20, 9, 5, 0, 23, 10,
  24, 136, 105, 8, 125, 19, 126, 127])) (.leaf [7, 28, 56, 17, 20, 9, 5, 0, 23, 10, 24, 136, 105,
  8, 125, 19, 126, 127])) (.leaf [7, 28, 56, 17, 20, 9, 5, 0, 23, 10, 24, 136, 105, 8, 125, 19,
  126, 127])) (.leaf [7, 28, 17, 20, 9, 5, 0, 10, 136, 105, 8, 125, 19, 126, 127])) (.leaf [7, 28,
  56, 17, 20, 9, 5, 0, 23, 10, 24, 136, 105, 8, 125, 19, 126, 127])) (.leaf
  [7, 28, 17, 20, 9, 5, 0, 10, 136, 105, 8, 125, 19, 126, 127])) (.leaf [7, 28, 56, 17, 20, 9, 5,
  0, 23, 10, 24, 136, 105, 8, 125, 19, 126, 127])) (.leaf [7, 28, 56, 17, 20, 9, 5, 0, 23, 10, 24,
  136, 105, 8, 125, 19, 126, 127])) (.leaf [7, 56, 17, 20, 5, 0, 23, 10, 24, 136, 105, 8, 125, 19,
  126, 127])) (.leaf [7, 28, 56, 17, 20, 9, 5, 0, 23, 10, 24, 136, 105, 8, 125, 19, 126, 127]))
  (.leaf [7, 28, 56, 17, 20, 9, 5, 0, 23, 10, 24, 136, 105, 8, 125, 19, 126, 127])) (.leaf
  [7, 28, 17, 20, 9, 5, 0, 10, 136, 105, 8, 125, 19, 126, 127])) (.leaf [7, 56, 17, 20, 5, 0, 23,
  10, 24, 136, 105, 8, 125, 19, 126, 127])) (.leaf [7, 28, 56, 17, 20, 9, 5, 0, 23, 10, 24, 136,
  105, 8, 125, 19, 126, 127])) (.breaks 23154709 (.breaks 27295877 (.breaks 8421521 (.breaks
  9474193 (.breaks 12632193 (.breaks 22106241 (.breaks 12632209 (.breaks 22085762 (.breaks 22106257
  (.breaks 16842897 (.leaf [26, 7, 17, 20, 5, 0, 15, 10, 6, 105, 8, 19]) (.leaf
  [26, 7, 17, 20, 5, 0, 15, 10, 6, 105, 8, 19])) (.leaf
  [26, 7, 17, 20, 5, 0, 15, 10, 6, 105, 8, 19])) (.leaf
  [26, 7, 17, 20, 5, 0, 15, 10, 6, 105, 8, 19])) (.leaf
  [26, 7, 17, 20, 5, 0, 15, 10, 6, 105, 8, 19])) (.leaf
  [26, 7, 17, 20, 5, 0, 15, 10, 6, 105, 8, 19])) (.leaf
  [26, 7, 17, 20, 5, 0, 15, 10, 6, 105, 8, 19])) (.leaf
  [26, 7, 17, 20, 5, 0, 15, 10, 6, 105, 8, 19])) (.leaf
  [26, 7, 17, 20, 5, 0, 15, 10, 6, 105, 8, 19])) (.leaf
  [26, 7, 17, 20, 5, 0, 15, 10, 6, 105, 8, 19])) (.leaf
  [26, 7, 17, 20, 5, 0, 15, 10, 6, 105, 8, 19]))

/-- some of the cases -/
def real6OneCase127 : LooseTree :=
  .breaks 27295877 (.breaks 8421521 (.breaks 9474193 (.breaks 16842881 (.breaks 22097939 (.breaks
  16842897 (.breaks 20000785 (.breaks 20000897 (.breaks 20000945 (.breaks 20000929 (.leaf
  [7, 107, 17, 20, 5, 0, 21, 67, 19, 63, 46, 23, 24]) (.leaf
  [7, 107, 17, 20, 5, 0, 21, 67, 19, 63, 46, 23, 24])) (.leaf
  [7, 107, 17, 20, 5, 0, 21, 67, 19, 63, 46, 23, 24])) (.leaf
  [7, 107, 17, 20, 5, 0, 21, 67, 19, 63, 46, 23, 24])) (.leaf
  [7, 107, 17, 20, 5, 0, 21, 123, 19, 46, 23, 24])) (.leaf
  [7, 107, 17, 20, 5, 0, 21, 67, 19, 63, 46, 23, 24])) (.leaf
  [7, 107, 17, 20, 5, 0, 21, 123, 19, 46, 23, 24])) (.leaf
  [7, 107, 17, 20, 5, 0, 21, 67, 19, 63, 46, 23, 24])) (.leaf
  [7, 107, 17, 20, 5, 0, 21, 67, 19, 63, 46, 23, 24])) (.leaf
  [7, 107, 17, 20, 5, 0, 21, 67, 19, 63, 46, 23, 24])) (.leaf
  [7, 107, 17, 20, 5, 0, 21, 67, 19, 63, 46, 23, 24])

/-- some of the cases -/
def real6OneCase128 : LooseTree :=
  .cases [] 34 (.cases [] 20 (.breaks 22110341 (.breaks 27295877 (.breaks 27299973 (.breaks 8421521
  (.breaks 8454275 (.breaks 9474193 (.breaks 23158801 (.breaks 16842881 (.breaks 16842897 (.leaf
  [25, 20, 86, 5, 55, 0, 16, 21, 19]) (.leaf [28, 25, 20, 86, 9, 5, 55, 0, 16, 21, 19])) (.leaf
  [28, 25, 20, 86, 9, 5, 115, 0, 16, 19])) (.leaf [28, 25, 20, 86, 9, 5, 55, 0, 16, 21, 19]))
  (.leaf [28, 25, 20, 86, 9, 5, 55, 0, 16, 21, 19])) (.leaf
  [28, 25, 20, 86, 9, 5, 115, 0, 16, 19])) (.leaf [28, 25, 20, 86, 9, 5, 55, 0, 16, 21, 19]))
  (.leaf [28, 25, 20, 86, 9, 5, 55, 0, 16, 21, 19])) (.leaf
  [28, 25, 20, 86, 9, 5, 55, 0, 16, 21, 19])) (.leaf [28, 25, 20, 86, 9, 5, 55, 0, 16, 21, 19]))
  (.cases [] 12 (.cases [] 39 (.breaks 12619906 (.breaks 9543829 (.breaks 17 (.breaks 27295877
  (.breaks 8421521 (.breaks 8454275 (.breaks 16842881 (.breaks 16842897 (.breaks 16863363 (.breaks
  22110341 (.breaks 23158801 (.leaf [47, 27, 39, 0, 57, 9, 20, 5, 55, 21, 19, 141, 25, 16]) (.leaf
  [47, 27, 39, 0, 57, 9, 20, 5, 55, 21, 19, 141, 25, 16])) (.leaf
  [47, 27, 39, 0, 57, 9, 20, 5, 55, 21, 19, 141, 25, 16])) (.leaf
  [47, 27, 39, 0, 57, 9, 20, 5, 55, 21, 19, 141, 25, 16])) (.leaf
  [47, 27, 39, 0, 57, 9, 20, 5, 55, 21, 19, 141, 25, 16])) (.leaf
  [47, 27, 39, 0, 57, 9, 20, 5, 115, 19, 141, 25, 16])) (.leaf
  [47, 27, 39, 0, 57, 9, 20, 5, 115, 19, 141, 25, 16])) (.leaf
  [47, 27, 39, 0, 57, 9, 20, 5, 55, 21, 19, 141, 25, 16])) (.leaf
  [47, 27, 39, 0, 57, 9, 20, 5, 55, 21, 19, 141, 25, 16])) (.leaf
  [47, 27, 39, 0, 57, 9, 20, 5, 55, 21, 19, 141, 25, 16])) (.leaf
  [47, 27, 39, 0, 57, 9, 20, 5, 55, 21, 19, 141, 25, 16])) (.leaf
  [47, 27, 39, 0, 57, 9, 20, 5, 55, 21, 19, 141, 117, 25, 8, 16])) (.breaks 22085762 (.breaks
  9437317 (.breaks 9474193 (.breaks 9543829 (.breaks 16842897 (.breaks 23158801 (.breaks 17
  (.breaks 27295877 (.breaks 8421521 (.leaf [47, 27, 25, 105, 39, 0, 57, 19, 16, 9, 20, 5]) (.leaf
  [47, 27, 25, 105, 39, 0, 57, 19, 16, 9, 20, 5])) (.leaf
  [47, 27, 25, 105, 39, 0, 57, 19, 16, 9, 20, 5])) (.leaf
  [47, 27, 25, 105, 39, 0, 57, 19, 16, 9, 20, 5])) (.leaf
  [47, 27, 25, 105, 39, 0, 57, 19, 16, 9, 20, 5])) (.leaf
  [47, 27, 25, 105, 39, 0, 57, 19, 16, 9, 20, 5])) (.leaf
  [47, 27, 25, 105, 39, 0, 57, 19, 16, 9, 20, 5])) (.leaf
  [47, 27, 25, 105, 39, 0, 57, 19, 16, 9, 20, 5])) (.leaf
  [47, 27, 25, 105, 39, 0, 57, 19, 16, 9, 20, 5])) (.leaf
  [47, 27, 25, 105, 39, 0, 57, 19, 16, 9, 20, 5]))) (.breaks 27295877 (.breaks 8421521 (.breaks
  8454275 (.breaks 16842881 (.breaks 16842897 (.leaf [28, 62, 35, 0, 57, 20, 5, 55, 21, 19]) (.leaf
  [28, 62, 35, 0, 57, 20, 5, 55, 21, 19])) (.leaf [28, 62, 35, 0, 57, 20, 5, 115, 19])) (.leaf
  [28, 62, 35, 0, 57, 20, 5, 115, 19])) (.leaf [28, 62, 35, 0, 57, 20, 5, 55, 21, 19])) (.leaf
  [28, 62, 35, 0, 57, 20, 5, 55, 21, 19])))) (.cycle 10 [47, 160, 15])

/-- some of the cases -/
def real6OneCase129 : LooseTree :=
  .cases [] 17 (.cases [] 34 (.cycle 1 [73, 153, 35]) (.cases [] 9 (.breaks 22110341 (.breaks
  27295877 (.breaks 8421521 (.breaks 8454275 (.breaks 9437333 (.breaks 9474193 (.breaks 23158801
  (.breaks 129 (.breaks 16842881 (.breaks 17 (.breaks 16842897 (.leaf
  [7, 25, 20, 5, 55, 54, 0, 16, 36, 21, 9, 19]) (.leaf
  [7, 25, 20, 5, 55, 54, 0, 16, 36, 21, 9, 19])) (.leaf
  [7, 25, 20, 5, 55, 54, 0, 16, 36, 21, 9, 19])) (.leaf [7, 25, 20, 5, 115, 54, 0, 16, 36, 19, 9]))
  (.leaf [7, 25, 20, 5, 55, 54, 0, 16, 36, 21, 9, 19])) (.leaf
  [7, 25, 20, 5, 55, 54, 0, 16, 36, 21, 9, 19])) (.leaf
  [7, 25, 20, 5, 55, 54, 0, 16, 36, 21, 9, 19])) (.leaf
  [7, 25, 20, 5, 55, 54, 0, 16, 36, 21, 9, 19])) (.leaf [7, 25, 20, 5, 115, 54, 0, 16, 36, 19, 9]))
  (.leaf [7, 25, 20, 5, 55, 54, 0, 16, 36, 21, 9, 19])) (.leaf
  [7, 25, 20, 5, 55, 54, 0, 92, 16, 36, 6, 21, 9, 19])) (.leaf
  [7, 25, 20, 5, 55, 54, 0, 16, 36, 21, 9, 19])) (.cases [] 6 (.breaks 27295877 (.breaks 27312261
  (.breaks 36997 (.breaks 8421521 (.breaks 12632209 (.breaks 23158801 (.breaks 9474193 (.breaks
  9486467 (.breaks 12583045 (.breaks 17 (.leaf [52, 25, 20, 40, 33, 5, 6, 16, 0, 73, 28, 9]) (.leaf
  [52, 25, 20, 40, 33, 5, 55, 6, 16, 0, 21, 19])) (.leaf
  [52, 25, 20, 40, 33, 5, 55, 6, 16, 0, 21, 19])) (.leaf [52, 25, 20, 40, 36, 33, 5, 6, 16, 9, 0]))
  (.leaf [52, 25, 20, 40, 33, 5, 6, 16, 0, 73, 28, 9])) (.leaf
  [52, 20, 40, 33, 5, 55, 6, 0, 73, 21, 28, 19, 9])) (.leaf
  [52, 25, 20, 40, 33, 5, 6, 16, 0, 73, 28, 9])) (.leaf
  [52, 25, 20, 40, 33, 5, 6, 16, 0, 73, 28, 9])) (.leaf
  [52, 25, 20, 40, 33, 5, 55, 6, 16, 0, 21, 19])) (.leaf
  [52, 25, 20, 40, 33, 5, 6, 16, 0, 73, 28, 9])) (.leaf
  [52, 25, 20, 40, 33, 5, 6, 16, 0, 73, 28, 9])) (.breaks 11534482 (.breaks 36997 (.breaks 9474193
  (.breaks 9486467 (.breaks 9486466 (.breaks 12583045 (.breaks 12689557 (.breaks 17 (.breaks
  27295877 (.breaks 8421521 (.breaks 8454275 (.breaks 16842881 (.breaks 16842897 (.leaf
  [52, 33, 0, 73, 92, 28, 29, 9, 20, 5, 55, 21, 19]) (.leaf
  [52, 33, 0, 73, 92, 28, 6, 29, 9, 20, 5, 55, 21, 19])) (.leaf
  [52, 33, 0, 73, 92, 28, 6, 29, 9, 20, 5, 115, 19])) (.leaf
  [52, 33, 0, 73, 92, 28, 6, 29, 9, 20, 5, 115, 19])) (.leaf
  [52, 33, 0, 73, 92, 28, 6, 29, 9, 20, 5, 55, 21, 19])) (.leaf
  [52, 33, 0, 73, 92, 28, 6, 29, 9, 20, 5, 55, 21, 19])) (.leaf
  [52, 25, 33, 16, 0, 92, 6, 29, 20, 5, 55, 21, 19])) (.leaf
  [52, 33, 0, 73, 92, 28, 6, 29, 9, 20, 5, 55, 21, 19])) (.leaf
  [52, 25, 33, 16, 0, 92, 6, 29, 20, 5, 55, 21, 19])) (.leaf
  [52, 33, 0, 73, 92, 28, 6, 29, 9, 20, 5, 55, 21, 19])) (.leaf
  [52, 36, 33, 9, 0, 92, 6, 29, 20, 5, 55, 21, 19])) (.leaf
  [52, 33, 0, 73, 92, 28, 6, 29, 9, 20, 5, 55, 21, 19])) (.leaf
  [52, 33, 0, 73, 92, 28, 6, 29, 9, 20, 5, 55, 21, 19])) (.leaf
  [52, 33, 0, 73, 92, 28, 6, 29, 9, 20, 5, 55, 21, 19]))))) (.cycle 18 [71, 98, 31])

/-- some of the cases -/
def real6OneCase130 : LooseTree :=
  .breaks 9486467 (.breaks 12583045 (.breaks 45187 (.cycle 12 [7, 73, 28, 76]) (.cycle 12
  [7, 73, 28, 76])) (.cycle 12 [7, 73, 28, 76])) (.cycle 22 [28, 76, 7, 73])

/-- some of the cases -/
def real6OneCase131 : LooseTree :=
  .cases [] 47 (.cases [] 24 (.breaks 11571333 (.breaks 27295877 (.breaks 8421521 (.breaks 8454275
  (.breaks 9474193 (.breaks 16842881 (.breaks 16826498 (.breaks 16842897 (.breaks 12632209 (.leaf
  [7, 20, 5, 55, 0, 21, 72, 19, 6]) (.leaf [7, 20, 5, 55, 0, 21, 149, 72, 150, 6, 135, 25, 16]))
  (.leaf [7, 20, 5, 55, 0, 21, 149, 72, 150, 6, 135, 25, 16])) (.leaf
  [7, 20, 5, 55, 0, 21, 149, 72, 150, 6, 135, 25, 16])) (.leaf
  [7, 20, 5, 115, 0, 149, 72, 19, 150, 6, 135, 25, 16])) (.leaf
  [7, 20, 5, 55, 0, 21, 149, 72, 150, 6, 135, 25, 16])) (.leaf
  [7, 20, 5, 115, 0, 149, 72, 19, 150, 6, 135, 25, 16])) (.leaf
  [7, 20, 5, 55, 0, 21, 149, 72, 19, 150, 6, 135, 25, 16])) (.leaf
  [7, 20, 5, 55, 0, 21, 149, 72, 19, 150, 6, 135, 25, 16])) (.leaf
  [7, 20, 5, 55, 0, 21, 149, 72, 150, 6, 135, 25, 16])) (.breaks 11571333 (.breaks 27295877
  (.breaks 8421521 (.breaks 8437891 (.breaks 9474193 (.breaks 12632193 (.breaks 12632209 (.breaks
  12648578 (.breaks 16842897 (.leaf [7, 20, 5, 49, 0, 15, 6, 68, 19]) (.leaf
  [7, 25, 20, 5, 49, 0, 16, 15, 6, 68, 19])) (.leaf [7, 25, 20, 5, 49, 0, 16, 15, 6, 68, 19]))
  (.leaf [7, 25, 20, 5, 49, 0, 16, 15, 6, 68, 19])) (.leaf [7, 25, 20, 5, 109, 0, 16, 6, 68, 19]))
  (.leaf [7, 25, 20, 5, 49, 0, 16, 15, 6, 68, 19])) (.leaf [7, 25, 20, 5, 109, 0, 16, 6, 68, 19]))
  (.leaf [7, 25, 20, 5, 49, 0, 16, 15, 6, 68, 19])) (.leaf
  [7, 25, 20, 5, 49, 0, 16, 15, 6, 68, 19])) (.leaf [7, 25, 20, 5, 49, 0, 16, 15, 6, 68, 19])))
  (.breaks 11571333 (.breaks 22069267 (.breaks 22110341 (.breaks 27295877 (.breaks 8421521 (.breaks
  9474193 (.breaks 12632081 (.breaks 23158801 (.breaks 12632193 (.breaks 12632209 (.leaf
  [7, 130, 25, 20, 5, 0, 84, 16, 15, 6]) (.leaf [7, 130, 20, 5, 55, 0, 84, 15, 21, 6, 19])) (.leaf
  [7, 130, 20, 5, 55, 0, 84, 15, 21, 6, 19])) (.leaf [7, 130, 20, 5, 55, 0, 84, 15, 21, 6, 19]))
  (.leaf [7, 177, 20, 5, 55, 0, 15, 6, 21, 19])) (.leaf [7, 130, 20, 5, 55, 0, 84, 15, 21, 6, 19]))
  (.leaf [7, 130, 20, 5, 55, 0, 84, 15, 21, 6, 19])) (.leaf
  [7, 130, 25, 20, 5, 55, 0, 84, 16, 15, 21, 6, 19])) (.leaf
  [7, 130, 20, 5, 55, 0, 84, 15, 21, 6, 19])) (.leaf [7, 177, 20, 5, 55, 0, 15, 6, 21, 19])) (.leaf
  [7, 130, 20, 5, 55, 0, 84, 15, 21, 6, 19]))

/-- some of the cases -/
def real6OneCase132 : LooseTree :=
  .breaks 22110341 (.breaks 27295877 (.breaks 8421521 (.breaks 8437891 (.breaks 8454275 (.breaks
  9474193 (.breaks 23158801 (.breaks 12632193 (.breaks 16842881 (.breaks 12632209 (.breaks 16842897
  (.leaf [7, 25, 20, 5, 49, 55, 0, 16, 15, 21, 6, 19]) (.leaf
  [7, 25, 20, 5, 49, 55, 0, 16, 15, 21, 6, 19])) (.leaf
  [7, 25, 20, 5, 49, 55, 0, 16, 15, 21, 6, 19])) (.leaf [7, 25, 20, 5, 49, 115, 0, 16, 15, 19, 6]))
  (.leaf [7, 25, 20, 5, 109, 55, 0, 16, 6, 21, 19])) (.leaf
  [7, 25, 20, 5, 49, 55, 0, 16, 15, 21, 6, 19])) (.leaf
  [7, 25, 20, 5, 49, 55, 0, 16, 15, 21, 6, 19])) (.leaf [7, 25, 20, 5, 49, 115, 0, 16, 15, 19, 6]))
  (.leaf [7, 25, 20, 5, 109, 55, 0, 16, 6, 21, 19])) (.leaf
  [7, 25, 20, 5, 49, 0, 16, 15, 176, 6, 63, 46, 23, 24])) (.leaf
  [7, 20, 5, 49, 55, 0, 15, 176, 21, 6, 19, 63, 46, 23, 24])) (.leaf
  [7, 25, 20, 5, 49, 55, 0, 16, 15, 21, 6, 19])

/-- some of the cases -/
def real6OneCase133 : LooseTree :=
  .breaks 49173 (.breaks 9474193 (.breaks 12632193 (.breaks 12632209 (.breaks 12689557 (.breaks
  27295877 (.breaks 8421521 (.breaks 8454275 (.breaks 16842881 (.breaks 16842897 (.leaf
  [26, 7, 0, 15, 6, 29, 20, 5, 55, 21, 19]) (.leaf [26, 7, 0, 15, 6, 29, 20, 5, 55, 21, 19]))
  (.leaf [26, 7, 0, 15, 6, 29, 20, 5, 115, 19])) (.leaf [26, 7, 0, 15, 6, 29, 20, 5, 115, 19]))
  (.leaf [26, 7, 0, 15, 6, 29, 20, 5, 55, 21, 19])) (.leaf
  [26, 7, 25, 0, 15, 16, 6, 29, 20, 5, 55, 21, 19])) (.leaf
  [26, 7, 25, 0, 15, 16, 6, 29, 20, 5, 55, 21, 19])) (.leaf
  [26, 7, 0, 15, 6, 29, 20, 5, 55, 21, 19])) (.leaf
  [26, 7, 25, 0, 15, 16, 6, 29, 20, 5, 55, 21, 19])) (.leaf
  [26, 7, 0, 15, 6, 29, 20, 5, 55, 21, 19])) (.leaf
  [26, 7, 25, 0, 15, 16, 6, 29, 20, 5, 55, 21, 19])

/-- some of the cases -/
def real6OneCase134 : LooseTree :=
  .cases [] 4 (.breaks 11571333 (.breaks 20013237 (.breaks 27328645 (.breaks 9474193 (.breaks
  16810114 (.breaks 16842897 (.breaks 23158913 (.breaks 8421521 (.breaks 23154709 (.breaks 23158801
  (.breaks 22106241 (.breaks 22106257 (.leaf [7, 44, 37, 0, 58, 19, 45, 5, 17, 16, 10, 8]) (.leaf
  [7, 28, 44, 37, 9, 0, 58, 19, 45, 5, 17, 16, 10, 8])) (.leaf
  [7, 28, 44, 37, 9, 0, 58, 19, 45, 5, 17, 16, 10, 8])) (.leaf
  [7, 28, 44, 37, 9, 0, 58, 19, 45, 5, 17, 16, 10, 8])) (.leaf
  [7, 28, 44, 37, 9, 0, 58, 19, 45, 5, 17, 16, 10, 8])) (.leaf
  [7, 28, 44, 37, 9, 0, 58, 19, 45, 5, 17, 16, 10, 8])) (.leaf
  [7, 28, 44, 37, 9, 0, 58, 19, 45, 5, 17, 16, 10, 8])) (.leaf
  [7, 28, 44, 37, 9, 0, 58, 19, 45, 5, 17, 16, 10, 8])) (.leaf
  [7, 28, 44, 37, 9, 0, 58, 19, 45, 5, 17, 16, 10, 8])) (.leaf
  [7, 28, 44, 37, 9, 0, 58, 19, 45, 5, 17, 16, 10, 8])) (.leaf
  [7, 28, 44, 37, 9, 0, 58, 19, 45, 5, 17, 16, 10, 8])) (.leaf
  [7, 28, 44, 37, 9, 0, 58, 19, 45, 5, 17, 16, 10, 8])) (.leaf
  [7, 28, 44, 37, 9, 0, 58, 19, 45, 5, 17, 16, 10, 8])) (.breaks 11571333 (.breaks 20013237
  (.breaks 27328645 (.breaks 9474193 (.breaks 16810114 (.breaks 16842897 (.breaks 23158913 (.breaks
  8421521 (.breaks 23154709 (.breaks 23158801 (.breaks 22106241 (.breaks 22106257 (.leaf
  [7, 44, 37, 0, 58, 19, 45, 5, 17, 16, 10, 8]) (.leaf
  [26, 7, 44, 37, 0, 15, 58, 45, 5, 6, 17, 16, 10, 8])) (.leaf
  [26, 7, 44, 37, 0, 15, 58, 45, 5, 6, 17, 16, 10, 8])) (.leaf
  [26, 7, 44, 37, 0, 15, 58, 45, 5, 6, 17, 16, 10, 8])) (.leaf
  [26, 7, 44, 37, 0, 15, 58, 45, 5, 6, 17, 16, 10, 8])) (.leaf
  [26, 7, 44, 37, 0, 15, 58, 45, 5, 6, 17, 16, 10, 8])) (.leaf
  [26, 7, 44, 37, 0, 15, 58, 45, 5, 6, 17, 16, 10, 8])) (.leaf
  [26, 7, 44, 37, 0, 15, 58, 45, 5, 6, 17, 16, 10, 8])) (.leaf
  [26, 7, 44, 37, 0, 15, 58, 45, 5, 6, 17, 16, 10, 8])) (.leaf
  [26, 7, 44, 37, 0, 15, 58, 45, 5, 6, 17, 16, 10, 8])) (.leaf
  [26, 7, 44, 37, 0, 15, 58, 45, 5, 6, 17, 16, 10, 8])) (.leaf
  [26, 7, 44, 37, 0, 15, 58, 45, 5, 6, 17, 16, 10, 8])) (.leaf
  [26, 7, 44, 37, 0, 15, 58, 45, 5, 6, 17, 16, 10, 8]))

/-- some of the cases -/
def real6OneCase135 : LooseTree :=
  .cases [] 14 (.cases [] 46 (.cases [] 23 (.cases [] 42 (.breaks 11571333 (.breaks 27328645
  (.breaks 27340821 (.breaks 27353218 (.breaks 9474193 (.breaks 16810114 (.breaks 20000897 (.breaks
  23154709 (.breaks 8421521 (.breaks 20000945 (.breaks 22106241 (.breaks 20000929 (.breaks 22106257
  (.leaf [7, 37, 113, 42, 0, 58, 46, 17, 5, 23, 10, 24, 8]) (.leaf
  [7, 37, 113, 42, 0, 58, 19, 46, 17, 5, 23, 10, 24, 8])) (.leaf
  [7, 37, 113, 42, 0, 58, 19, 46, 17, 5, 23, 10, 24, 8])) (.leaf
  [7, 37, 113, 42, 0, 58, 19, 46, 17, 5, 23, 10, 24, 8])) (.leaf
  [7, 37, 113, 42, 0, 58, 19, 46, 17, 5, 23, 10, 24, 8])) (.leaf
  [7, 37, 113, 42, 0, 58, 19, 46, 17, 5, 23, 10, 24, 8])) (.leaf
  [7, 37, 113, 0, 58, 46, 169, 5, 23, 135, 24, 10, 8])) (.leaf
  [7, 37, 113, 42, 0, 58, 19, 46, 17, 5, 23, 10, 24, 8])) (.leaf
  [7, 37, 113, 42, 0, 58, 19, 46, 17, 5, 23, 10, 24, 8])) (.leaf
  [7, 37, 113, 42, 0, 58, 19, 46, 17, 5, 23, 10, 24, 8])) (.leaf
  [7, 37, 113, 0, 58, 46, 169, 5, 23, 135, 24, 10, 8])) (.leaf
  [7, 37, 113, 42, 0, 58, 19, 46, 17, 5, 23, 10, 24, 8])) (.leaf
  [7, 37, 113, 42, 0, 58, 46, 17, 16, 5, 23, 10, 24, 8])) (.leaf
  [7, 37, 113, 42, 0, 58, 19, 46, 17, 5, 23, 10, 24, 8])) (.cases [] 58 (.breaks 27340931 (.breaks
  20029573 (.cycle 3 [128, 151]) (.cycle 29 [168, 56])) (.cycle 34 [56, 168])) (.breaks 27340931
  (.breaks 20029573 (.cycle 3 [128, 151]) (.cycle 3 [42, 167, 151])) (.cycle 3 [42, 167, 151]))))
  (.breaks 16810114 (.breaks 23154709 (.breaks 8421521 (.breaks 22097939 (.breaks 22106241 (.breaks
  20000785 (.breaks 22106257 (.breaks 20000897 (.breaks 20000945 (.breaks 20000929 (.leaf
  [7, 37, 42, 0, 58, 17, 5, 67, 10, 63, 8, 46, 23, 24]) (.leaf
  [7, 37, 42, 0, 58, 17, 5, 67, 10, 63, 8, 46, 23, 24])) (.leaf
  [7, 37, 42, 0, 58, 17, 5, 67, 10, 63, 8, 46, 23, 24])) (.leaf
  [7, 37, 42, 0, 58, 17, 5, 67, 10, 63, 8, 46, 23, 24])) (.leaf
  [7, 37, 42, 0, 58, 19, 17, 5, 67, 63, 46, 23, 24])) (.leaf
  [7, 37, 42, 0, 58, 17, 5, 123, 10, 46, 8, 23, 24])) (.leaf
  [7, 37, 42, 0, 58, 19, 17, 5, 67, 63, 46, 23, 24])) (.leaf
  [7, 37, 42, 0, 58, 17, 5, 123, 10, 46, 8, 23, 24])) (.leaf
  [7, 37, 42, 0, 58, 17, 5, 67, 10, 63, 8, 46, 23, 24])) (.leaf
  [7, 37, 42, 0, 58, 19, 17, 5, 67, 63, 46, 23, 24])) (.leaf
  [7, 37, 42, 0, 58, 17, 5, 67, 10, 63, 8, 46, 23, 24]))) (.breaks 20029571 (.breaks 27369601
  (.cycle 3 [148, 56, 155, 4]) (.cycle 3 [148, 56, 155, 4])) (.cycle 3 [148, 56, 155, 4])))
  (.breaks 16810115 (.breaks 8478853 (.breaks 23175299 (.cycle 7 [37, 166, 111, 124]) (.cycle 7
  [37, 166, 111, 124])) (.cycle 7 [37, 166, 111, 124])) (.cycle 7 [37, 166, 111, 124]))

/-- some of the cases -/
def real6OneCase136 : LooseTree :=
  .breaks 11571333 (.breaks 27353218 (.breaks 9474193 (.breaks 23101461 (.breaks 23154709 (.breaks
  8421505 (.breaks 22106241 (.breaks 8421521 (.breaks 22106257 (.leaf
  [7, 42, 0, 85, 17, 18, 10, 5, 8]) (.leaf [7, 42, 0, 85, 17, 16, 18, 10, 5, 8])) (.leaf
  [7, 42, 0, 85, 17, 16, 18, 10, 5, 8])) (.leaf [7, 42, 0, 85, 17, 16, 18, 10, 5, 8])) (.leaf
  [7, 42, 0, 85, 17, 16, 18, 10, 5, 8])) (.leaf [7, 42, 0, 85, 17, 16, 18, 10, 5, 8])) (.leaf
  [7, 42, 0, 85, 17, 16, 18, 10, 5, 8])) (.leaf [7, 42, 0, 85, 17, 16, 18, 10, 5, 8])) (.leaf
  [7, 42, 0, 85, 17, 16, 18, 10, 5, 8])) (.leaf [7, 42, 0, 85, 17, 16, 18, 10, 5, 8])

/-- some of the cases -/
def real6OneCase137 : LooseTree :=
  .cases [] 43 (.breaks 23101461 (.breaks 27328645 (.breaks 8421505 (.breaks 8495237 (.breaks
  9474193 (.breaks 16842897 (.breaks 22106241 (.breaks 8421521 (.breaks 22106257 (.breaks 27369489
  (.breaks 27369505 (.breaks 27369473 (.leaf [7, 85, 17, 37, 18, 137, 0, 19, 10, 5, 8, 1, 2, 3])
  (.leaf [7, 85, 17, 37, 18, 137, 0, 19, 10, 5, 8, 1, 2, 3])) (.leaf
  [7, 85, 17, 37, 18, 137, 0, 19, 10, 5, 8, 1, 2, 3])) (.leaf
  [7, 85, 17, 37, 18, 137, 0, 19, 10, 5, 8, 1, 2, 3])) (.leaf
  [7, 85, 17, 37, 18, 137, 0, 19, 10, 5, 8, 1, 2, 3])) (.leaf
  [7, 85, 17, 37, 18, 137, 0, 19, 10, 5, 8, 1, 2, 3])) (.leaf
  [7, 85, 17, 37, 18, 137, 0, 19, 10, 5, 8, 1, 2, 3])) (.leaf
  [7, 85, 17, 37, 18, 137, 0, 19, 10, 5, 8, 1, 2, 3])) (.leaf
  [7, 85, 17, 37, 18, 137, 0, 19, 10, 5, 8, 1, 2, 3])) (.leaf
  [7, 85, 17, 37, 18, 137, 0, 19, 10, 5, 8, 1, 2, 3])) (.leaf
  [7, 85, 17, 37, 18, 137, 0, 19, 10, 5, 8, 1, 2, 3])) (.leaf
  [7, 85, 17, 37, 18, 137, 0, 19, 10, 5, 8, 1, 2, 3])) (.leaf
  [7, 56, 85, 17, 37, 18, 137, 0, 19, 23, 10, 5, 24, 8, 1, 2, 3])) (.cases [] 4 (.breaks 11571333
  (.breaks 12583045 (.breaks 23154709 (.breaks 23175298 (.breaks 27328645 (.breaks 17 (.breaks
  9474193 (.breaks 16842897 (.breaks 22106241 (.breaks 27295765 (.breaks 8421505 (.breaks 22106257
  (.breaks 8421521 (.leaf [7, 28, 17, 66, 37, 9, 0, 19, 10, 120, 18, 8, 5]) (.leaf
  [7, 28, 56, 17, 66, 37, 9, 0, 19, 23, 10, 120, 18, 24, 8, 5])) (.leaf
  [7, 28, 56, 17, 66, 37, 9, 0, 19, 23, 10, 120, 18, 24, 8, 5])) (.leaf
  [7, 28, 56, 17, 66, 37, 9, 0, 19, 23, 10, 120, 18, 24, 8, 5])) (.leaf
  [7, 28, 56, 17, 66, 37, 9, 0, 19, 23, 10, 120, 18, 24, 8, 5])) (.leaf
  [7, 28, 56, 17, 66, 37, 9, 0, 19, 23, 10, 120, 18, 24, 8, 5])) (.leaf
  [7, 28, 56, 17, 66, 37, 9, 0, 19, 23, 10, 120, 18, 24, 8, 5])) (.leaf
  [7, 28, 56, 17, 66, 37, 9, 0, 19, 23, 10, 120, 18, 24, 8, 5])) (.leaf
  [7, 56, 17, 66, 37, 0, 19, 23, 10, 120, 18, 24, 8, 5])) (.leaf
  [7, 28, 56, 17, 66, 37, 9, 0, 19, 23, 10, 120, 18, 24, 8, 5])) (.leaf
  [7, 28, 56, 17, 37, 120, 9, 18, 0, 19, 23, 10, 5, 24, 8])) (.leaf
  [7, 28, 56, 17, 66, 37, 9, 0, 19, 23, 10, 120, 18, 24, 8, 5])) (.leaf
  [7, 56, 17, 66, 37, 0, 19, 23, 10, 120, 18, 24, 8, 5])) (.leaf
  [7, 28, 56, 17, 66, 37, 9, 0, 19, 23, 10, 120, 18, 24, 8, 5])) (.breaks 49173 (.breaks 11571333
  (.breaks 23175298 (.breaks 27328645 (.breaks 9474193 (.breaks 12632193 (.breaks 16842897 (.breaks
  27295765 (.breaks 8421505 (.breaks 12632209 (.breaks 8421521 (.leaf
  [26, 7, 66, 37, 0, 15, 19, 120, 18, 6, 5]) (.leaf [26, 7, 17, 66, 0, 15, 10, 120, 18, 6, 8, 5]))
  (.leaf [26, 7, 17, 66, 0, 15, 10, 120, 18, 6, 8, 5])) (.leaf
  [26, 7, 17, 66, 0, 15, 10, 120, 18, 6, 8, 5])) (.leaf
  [26, 7, 17, 66, 0, 15, 10, 120, 18, 6, 8, 5])) (.leaf
  [26, 7, 17, 66, 0, 15, 10, 120, 18, 6, 8, 5])) (.leaf
  [26, 7, 17, 66, 0, 15, 10, 120, 18, 6, 8, 5])) (.leaf
  [26, 7, 17, 66, 0, 15, 10, 120, 18, 6, 8, 5])) (.leaf
  [26, 7, 17, 66, 0, 15, 10, 120, 18, 6, 8, 5])) (.leaf [26, 7, 17, 120, 18, 0, 15, 10, 5, 6, 8]))
  (.leaf [26, 7, 17, 66, 0, 15, 10, 120, 18, 6, 8, 5])) (.leaf
  [26, 7, 17, 66, 0, 15, 10, 120, 18, 6, 8, 5])))

/-- some of the cases -/
def real6OneCase138 : LooseTree :=
  .breaks 8421505 (.breaks 9474193 (.breaks 22097939 (.breaks 8421521 (.breaks 20000785 (.breaks
  20000897 (.breaks 20000945 (.breaks 20000929 (.leaf [7, 85, 17, 18, 0, 67, 5, 63, 46, 23, 24])
  (.leaf [7, 85, 17, 18, 0, 67, 5, 63, 46, 23, 24])) (.leaf
  [7, 85, 17, 18, 0, 67, 5, 63, 46, 23, 24])) (.leaf [7, 85, 17, 18, 0, 67, 5, 63, 46, 23, 24]))
  (.leaf [7, 85, 17, 18, 0, 123, 5, 46, 23, 24])) (.leaf
  [7, 85, 17, 18, 0, 67, 5, 63, 46, 23, 24])) (.leaf [7, 85, 17, 18, 0, 123, 5, 46, 23, 24]))
  (.leaf [7, 85, 17, 18, 0, 67, 5, 63, 46, 23, 24])) (.leaf
  [7, 85, 17, 18, 0, 67, 5, 63, 46, 23, 24])

/-- some of the cases -/
def real6OneCase139 : LooseTree :=
  .cases [] 20 (.breaks 27328645 (.breaks 16810114 (.breaks 16842897 (.breaks 23158801 (.breaks
  8421521 (.leaf [25, 86, 37, 0, 58, 19, 16, 5]) (.leaf [25, 86, 37, 0, 58, 19, 16, 5])) (.leaf
  [25, 86, 37, 0, 58, 19, 16, 5])) (.leaf [25, 86, 37, 0, 58, 19, 16, 5])) (.leaf
  [25, 86, 37, 0, 58, 19, 16, 5])) (.leaf [25, 86, 37, 0, 58, 19, 16, 5])) (.cases [] 44 (.breaks
  12619906 (.breaks 9543829 (.breaks 27328645 (.breaks 16810114 (.breaks 16842897 (.breaks 8421521
  (.breaks 8474755 (.breaks 22110341 (.breaks 23158801 (.leaf
  [27, 0, 57, 37, 58, 19, 5, 122, 25, 16]) (.leaf [27, 0, 57, 37, 58, 19, 5, 122, 25, 16])) (.leaf
  [27, 0, 57, 37, 58, 19, 5, 122, 25, 16])) (.leaf [27, 0, 57, 37, 58, 19, 5, 122, 25, 16])) (.leaf
  [27, 0, 57, 37, 58, 19, 5, 122, 25, 16])) (.leaf [27, 0, 57, 37, 58, 19, 5, 122, 25, 16])) (.leaf
  [28, 27, 9, 0, 57, 37, 58, 19, 5, 122, 25, 16])) (.leaf
  [28, 27, 9, 0, 57, 37, 58, 19, 5, 122, 25, 16])) (.leaf
  [28, 27, 9, 0, 57, 37, 58, 19, 5, 122, 25, 16])) (.leaf
  [28, 27, 9, 0, 57, 37, 58, 19, 5, 122, 25, 16])) (.breaks 22110341 (.breaks 22052994 (.breaks
  8421521 (.breaks 9474193 (.breaks 9543829 (.breaks 23158801 (.breaks 27328645 (.breaks 16842897
  (.leaf [27, 25, 129, 5, 0, 57, 16, 37, 19]) (.leaf [27, 25, 129, 5, 0, 57, 16, 37, 19])) (.leaf
  [27, 25, 129, 5, 0, 57, 16, 37, 19])) (.leaf [27, 25, 129, 5, 0, 57, 16, 37, 19])) (.leaf
  [27, 25, 129, 5, 0, 57, 16, 37, 19])) (.leaf [27, 25, 129, 5, 0, 57, 16, 37, 19])) (.leaf
  [27, 25, 129, 5, 0, 57, 16, 37, 19])) (.leaf [27, 25, 129, 5, 0, 57, 16, 37, 19])) (.leaf
  [27, 25, 129, 5, 0, 57, 16, 37, 19])))

/-- some of the cases -/
def real6OneCase140 : LooseTree :=
  .cases [] 25 (.cases [] 9 (.breaks 11571333 (.breaks 27328645 (.breaks 9437333 (.breaks 9474193
  (.breaks 16810114 (.breaks 16842897 (.breaks 129 (.breaks 8421521 (.breaks 17 (.leaf
  [7, 37, 54, 0, 58, 19, 36, 5, 9]) (.leaf [7, 25, 37, 54, 0, 58, 16, 36, 5, 9])) (.leaf
  [7, 25, 37, 54, 0, 58, 19, 16, 36, 5, 9])) (.leaf [7, 25, 37, 54, 0, 58, 16, 36, 5, 9])) (.leaf
  [7, 25, 37, 54, 0, 58, 16, 36, 5, 9])) (.leaf [7, 25, 37, 54, 0, 58, 19, 16, 36, 5, 9])) (.leaf
  [7, 25, 37, 54, 0, 58, 16, 36, 5, 9])) (.leaf [7, 25, 37, 54, 0, 58, 16, 36, 5, 9])) (.leaf
  [7, 25, 37, 54, 0, 58, 19, 16, 36, 5, 9])) (.leaf [7, 25, 37, 54, 0, 58, 19, 16, 36, 5, 9]))
  (.cases [] 16 (.breaks 11583509 (.breaks 27328645 (.breaks 12583045 (.breaks 12632193 (.breaks
  16810114 (.breaks 17 (.breaks 8421521 (.breaks 9474193 (.breaks 12632209 (.leaf
  [71, 50, 37, 33, 28, 15, 58, 9, 5, 0, 6]) (.leaf [71, 50, 37, 33, 28, 15, 58, 9, 5, 0, 6]))
  (.leaf [71, 50, 37, 33, 28, 15, 58, 9, 5, 0, 6])) (.leaf
  [71, 50, 37, 33, 28, 15, 58, 9, 5, 0, 6])) (.leaf [71, 50, 37, 33, 28, 15, 58, 9, 5, 0, 6]))
  (.leaf [71, 50, 37, 33, 28, 15, 58, 9, 5, 0, 6])) (.leaf
  [71, 50, 37, 33, 28, 15, 58, 9, 5, 0, 6])) (.leaf [71, 50, 37, 33, 28, 15, 58, 9, 5, 0, 6]))
  (.leaf [71, 50, 37, 33, 28, 15, 58, 9, 5, 0, 6])) (.leaf
  [71, 50, 37, 33, 28, 15, 58, 9, 5, 0, 6])) (.breaks 36997 (.breaks 9486467 (.breaks 12628101
  (.cycle 18 [71, 33, 73, 60]) (.cycle 18 [71, 33, 73, 60])) (.cycle 18 [71, 33, 73, 60])) (.cycle
  18 [71, 33, 73, 60])))) (.breaks 9486467 (.breaks 12583045 (.breaks 45187 (.cycle 12
  [7, 73, 28, 76]) (.cycle 12 [7, 73, 28, 76])) (.cycle 12 [7, 73, 28, 76])) (.cycle 22
  [28, 76, 7, 73]))

/-- some of the cases -/
def real6OneCase141 : LooseTree :=
  .cases [] 6 (.cases [] 24 (.breaks 11571333 (.breaks 27328645 (.breaks 9474193 (.breaks 16810114
  (.breaks 16826498 (.breaks 16842897 (.breaks 8421521 (.breaks 12632209 (.leaf
  [7, 37, 0, 58, 72, 19, 5, 6]) (.leaf [7, 25, 37, 0, 58, 72, 16, 5, 6])) (.leaf
  [7, 25, 37, 0, 58, 72, 19, 16, 5, 6])) (.leaf [7, 25, 37, 0, 58, 72, 16, 5, 6])) (.leaf
  [7, 25, 37, 0, 58, 72, 16, 5, 6])) (.leaf [7, 25, 37, 0, 58, 72, 19, 16, 5, 6])) (.leaf
  [7, 25, 37, 0, 58, 72, 16, 5, 6])) (.leaf [7, 25, 37, 0, 58, 72, 19, 16, 5, 6])) (.leaf
  [7, 25, 37, 0, 58, 72, 16, 5, 6])) (.breaks 12632209 (.breaks 12648578 (.breaks 16810114 (.breaks
  16842897 (.breaks 8421521 (.leaf [7, 40, 0, 6, 68, 58, 19, 5]) (.leaf
  [7, 40, 0, 6, 68, 58, 19, 5])) (.leaf [7, 40, 0, 6, 68, 58, 19, 5])) (.leaf
  [7, 40, 0, 6, 68, 58, 19, 5])) (.leaf [7, 40, 0, 6, 68, 58, 19, 5])) (.leaf
  [7, 40, 0, 6, 68, 58, 19, 5]))) (.breaks 9474193 (.breaks 12632193 (.breaks 12632209 (.breaks
  12689557 (.breaks 27328645 (.breaks 16810114 (.breaks 16842897 (.breaks 8421521 (.leaf
  [26, 7, 0, 15, 6, 29, 37, 58, 19, 5]) (.leaf [26, 7, 0, 15, 6, 29, 37, 58, 19, 5])) (.leaf
  [26, 7, 0, 15, 6, 29, 37, 58, 19, 5])) (.leaf [26, 7, 0, 15, 6, 29, 37, 58, 19, 5])) (.leaf
  [26, 7, 0, 15, 6, 29, 37, 58, 19, 5])) (.leaf [26, 7, 0, 15, 6, 29, 37, 58, 19, 5])) (.leaf
  [26, 7, 0, 15, 6, 29, 37, 58, 19, 5])) (.leaf [26, 7, 0, 15, 6, 29, 37, 58, 19, 5])) (.leaf
  [26, 7, 0, 15, 6, 29, 37, 58, 19, 5]))

/-- some of the cases -/
def real6OneCase142 : LooseTree :=
  .breaks 9474177 (.breaks 9482389 (.breaks 129 (.breaks 11579521 (.breaks 17 (.breaks 11579409
  (.breaks 11579425 (.breaks 11579393 (.leaf [90, 96, 35, 54, 51, 36, 31, 9, 12, 13, 14]) (.leaf
  [90, 96, 35, 54, 51, 36, 31, 9, 12, 13, 14])) (.leaf
  [90, 96, 35, 54, 51, 36, 31, 9, 12, 13, 14])) (.leaf
  [90, 96, 35, 54, 51, 36, 31, 9, 12, 13, 14])) (.leaf
  [90, 96, 35, 54, 51, 36, 31, 9, 12, 13, 14])) (.leaf
  [90, 96, 35, 54, 51, 36, 31, 9, 12, 13, 14])) (.leaf
  [90, 96, 35, 54, 51, 36, 31, 9, 12, 13, 14])) (.leaf
  [90, 96, 35, 54, 51, 36, 31, 9, 12, 13, 14])) (.leaf [90, 96, 35, 54, 51, 36, 31, 9, 12, 13, 14])

/-- some of the cases -/
def real6OneCase143 : LooseTree :=
  .cases [] 56 (.leaf [175]) (.cases [] 26 (.breaks 12583061 (.breaks 106643 (.leaf
  [51, 75, 104, 159]) (.leaf [51, 75, 104, 159])) (.leaf [51, 75, 104, 159])) (.cases [] 37 (.leaf
  [112, 159]) (.breaks 11579409 (.breaks 11579425 (.breaks 11579393 (.leaf
  [104, 83, 36, 97, 31, 9, 5, 12, 13, 14]) (.leaf [104, 83, 36, 97, 31, 9, 5, 12, 13, 14])) (.leaf
  [104, 83, 36, 97, 31, 9, 5, 12, 13, 14])) (.leaf [104, 83, 36, 97, 31, 9, 5, 12, 13, 14]))))

/-- some of the cases -/
def real6OneCase144 : LooseTree :=
  .breaks 16777365 (.breaks 49285 (.breaks 17 (.breaks 12632209 (.leaf [158, 36, 53, 9, 6]) (.leaf
  [158, 36, 53, 9, 6])) (.leaf [158, 36, 53, 9, 6])) (.leaf [158, 36, 53, 9, 6])) (.leaf
  [51, 158, 36, 53, 31, 9, 12, 6, 13, 14])

/-- some of the cases -/
def real6OneCase145 : LooseTree :=
  .cases [] 6 (.breaks 11534466 (.breaks 11579409 (.breaks 27312261 (.breaks 17 (.breaks 11579425
  (.breaks 12632209 (.breaks 11579393 (.leaf [32, 11, 70, 12, 40, 9, 13, 6, 14]) (.leaf
  [32, 11, 70, 12, 40, 9, 13, 6, 14])) (.leaf [32, 11, 70, 12, 40, 9, 13, 6, 14])) (.leaf
  [32, 11, 70, 12, 40, 9, 13, 6, 14])) (.leaf [32, 11, 70, 12, 40, 9, 13, 6, 14])) (.leaf
  [32, 11, 70, 12, 40, 9, 13, 6, 14])) (.leaf [32, 11, 70, 12, 40, 9, 13, 6, 14])) (.leaf
  [32, 11, 70, 12, 40, 9, 13, 6, 14])) (.cases [] 11 (.breaks 8437891 (.breaks 11579409 (.breaks
  12632193 (.breaks 11579425 (.breaks 12632209 (.breaks 12689557 (.breaks 11579393 (.breaks
  27369601 (.breaks 27369489 (.breaks 27369505 (.breaks 27369473 (.leaf
  [32, 49, 70, 12, 15, 9, 13, 6, 29, 14, 4, 1, 2, 3]) (.leaf
  [32, 49, 70, 12, 15, 9, 13, 6, 29, 14, 4, 1, 2, 3])) (.leaf
  [32, 49, 70, 12, 15, 9, 13, 6, 29, 14, 4, 1, 2, 3])) (.leaf
  [32, 49, 70, 12, 15, 9, 13, 6, 29, 14, 4, 1, 2, 3])) (.leaf
  [32, 49, 70, 12, 15, 9, 13, 6, 29, 14, 4, 1, 2, 3])) (.leaf
  [32, 49, 70, 12, 15, 9, 13, 6, 29, 14, 4, 1, 2, 3])) (.leaf
  [32, 49, 70, 12, 15, 9, 13, 6, 29, 14, 4, 1, 2, 3])) (.leaf
  [32, 49, 70, 12, 15, 9, 13, 6, 29, 14, 4, 1, 2, 3])) (.leaf
  [32, 49, 70, 12, 15, 9, 13, 6, 29, 14, 4, 1, 2, 3])) (.leaf
  [32, 109, 70, 12, 6, 29, 9, 13, 4, 14, 1, 2, 3])) (.leaf
  [32, 49, 70, 12, 15, 9, 13, 6, 29, 14, 4, 1, 2, 3])) (.leaf
  [32, 109, 70, 12, 6, 29, 9, 13, 4, 14, 1, 2, 3])) (.breaks 11534467 (.breaks 49285 (.breaks
  12615811 (.cycle 25 [32, 71, 53, 95]) (.cycle 25 [32, 71, 53, 95])) (.cycle 25 [32, 71, 53, 95]))
  (.cycle 25 [32, 71, 53, 95])))

/-- some of the cases -/
def real6OneCase146 : LooseTree :=
  .cases [] 26 (.cases [] 6 (.breaks 27312261 (.breaks 11579409 (.breaks 12632209 (.breaks 11579425
  (.breaks 11579393 (.leaf [43, 11, 9, 77, 40, 12, 6, 13, 14]) (.leaf
  [43, 11, 9, 77, 40, 12, 6, 13, 14])) (.leaf [43, 11, 9, 77, 40, 12, 6, 13, 14])) (.leaf
  [43, 11, 9, 77, 40, 12, 6, 13, 14])) (.leaf [43, 11, 9, 77, 40, 12, 6, 13, 14])) (.leaf
  [43, 11, 9, 77, 40, 12, 6, 13, 14])) (.cases [] 11 (.breaks 45186 (.breaks 12632193 (.breaks
  11579409 (.breaks 12689557 (.breaks 11579425 (.breaks 27369601 (.breaks 11579393 (.breaks
  27369489 (.breaks 27369505 (.breaks 27369473 (.leaf
  [43, 49, 9, 77, 15, 12, 6, 29, 13, 4, 14, 1, 2, 3]) (.leaf
  [43, 49, 9, 77, 15, 12, 6, 29, 13, 4, 14, 1, 2, 3])) (.leaf
  [43, 49, 9, 77, 15, 12, 6, 29, 13, 4, 14, 1, 2, 3])) (.leaf
  [43, 49, 9, 77, 15, 12, 6, 29, 13, 4, 14, 1, 2, 3])) (.leaf
  [43, 49, 9, 77, 15, 12, 6, 29, 13, 4, 14, 1, 2, 3])) (.leaf
  [43, 49, 9, 77, 15, 12, 6, 29, 13, 4, 14, 1, 2, 3])) (.leaf
  [43, 49, 9, 77, 15, 12, 6, 29, 13, 4, 14, 1, 2, 3])) (.leaf
  [43, 49, 9, 77, 15, 12, 6, 29, 13, 4, 14, 1, 2, 3])) (.leaf
  [43, 49, 9, 77, 15, 12, 6, 29, 13, 4, 14, 1, 2, 3])) (.leaf
  [43, 109, 9, 77, 6, 29, 12, 4, 13, 1, 14, 2, 3])) (.leaf
  [43, 49, 9, 77, 15, 12, 6, 29, 13, 4, 14, 1, 2, 3])) (.breaks 45187 (.breaks 11583621 (.breaks
  12615811 (.cycle 25 [43, 76, 75, 95]) (.cycle 25 [43, 76, 75, 95])) (.cycle 25 [43, 76, 75, 95]))
  (.cycle 25 [43, 76, 75, 95])))) (.breaks 49285 (.breaks 12628117 (.breaks 12632209 (.breaks
  11579521 (.breaks 11579409 (.breaks 11579425 (.breaks 11579393 (.leaf
  [43, 54, 53, 9, 83, 6, 31, 12, 13, 14]) (.leaf [43, 54, 53, 9, 83, 6, 31, 12, 13, 14])) (.leaf
  [43, 54, 53, 9, 83, 6, 31, 12, 13, 14])) (.leaf [43, 54, 53, 9, 83, 6, 31, 12, 13, 14])) (.leaf
  [43, 54, 53, 9, 83, 6, 31, 12, 13, 14])) (.leaf [43, 54, 53, 9, 83, 6, 31, 12, 13, 14])) (.leaf
  [43, 54, 53, 9, 83, 6, 31, 12, 13, 14])) (.leaf [43, 54, 53, 9, 83, 6, 31, 12, 13, 14]))

/-- some of the cases -/
def real6OneCase147 : LooseTree :=
  .breaks 9437333 (.breaks 19955730 (.breaks 49285 (.breaks 8388741 (.breaks 8421505 (.breaks
  8433797 (.breaks 17 (.breaks 8495253 (.breaks 11579409 (.breaks 12632209 (.breaks 11579425
  (.breaks 27369601 (.breaks 11579393 (.breaks 27369489 (.breaks 27369505 (.breaks 27369473 (.leaf
  [54, 78, 53, 43, 18, 32, 9, 11, 12, 6, 13, 4, 14, 1, 2, 3]) (.leaf
  [54, 78, 53, 43, 18, 32, 9, 5, 11, 12, 6, 13, 4, 14, 1, 2, 3])) (.leaf
  [54, 78, 53, 43, 18, 32, 9, 5, 11, 12, 6, 13, 4, 14, 1, 2, 3])) (.leaf
  [54, 78, 53, 43, 18, 32, 9, 5, 11, 12, 6, 13, 4, 14, 1, 2, 3])) (.leaf
  [54, 78, 53, 43, 18, 32, 9, 5, 11, 12, 6, 13, 4, 14, 1, 2, 3])) (.leaf
  [54, 78, 53, 43, 18, 32, 9, 5, 11, 12, 6, 13, 4, 14, 1, 2, 3])) (.leaf
  [54, 78, 53, 43, 18, 32, 9, 5, 11, 12, 6, 13, 4, 14, 1, 2, 3])) (.leaf
  [54, 78, 53, 43, 18, 32, 9, 5, 11, 12, 6, 13, 4, 14, 1, 2, 3])) (.leaf
  [54, 78, 53, 43, 18, 32, 9, 5, 11, 12, 6, 13, 4, 14, 1, 2, 3])) (.leaf
  [54, 78, 53, 43, 18, 32, 9, 5, 11, 12, 6, 13, 4, 14, 1, 2, 3])) (.leaf
  [54, 78, 53, 43, 18, 32, 9, 5, 11, 12, 6, 13, 4, 14, 1, 2, 3])) (.leaf
  [54, 78, 53, 43, 18, 32, 9, 5, 11, 12, 6, 13, 4, 14, 1, 2, 3])) (.leaf
  [54, 78, 53, 43, 18, 32, 9, 5, 11, 12, 6, 13, 4, 14, 1, 2, 3])) (.leaf
  [54, 78, 53, 43, 18, 32, 9, 5, 11, 12, 6, 13, 4, 14, 1, 2, 3])) (.leaf
  [54, 78, 53, 43, 18, 32, 9, 5, 11, 12, 6, 13, 4, 14, 1, 2, 3])) (.leaf [54, 78, 53, 43, 18, 32,
  9, 5, 11, 12, 6, 13, 34, 4, 14, 8, 1, 2, 3])) (.leaf
  [54, 78, 53, 43, 18, 32, 9, 5, 11, 12, 6, 13, 4, 14, 1, 2, 3])

/-- some of the cases -/
def real6OneCase148 : LooseTree :=
  .breaks 11579409 (.breaks 27369601 (.breaks 11579425 (.breaks 27369489 (.breaks 11579393 (.breaks
  27369505 (.breaks 27369473 (.leaf [43, 32, 74, 9, 12, 4, 13, 1, 14, 2, 3]) (.leaf
  [43, 32, 74, 9, 12, 4, 13, 1, 14, 2, 3])) (.leaf [43, 32, 74, 9, 12, 4, 13, 1, 14, 2, 3])) (.leaf
  [43, 32, 74, 9, 12, 4, 13, 1, 14, 2, 3])) (.leaf [43, 32, 74, 9, 12, 4, 13, 1, 14, 2, 3])) (.leaf
  [43, 32, 74, 9, 12, 4, 13, 1, 14, 2, 3])) (.leaf [43, 32, 74, 9, 12, 4, 13, 1, 14, 2, 3])) (.leaf
  [43, 32, 74, 9, 12, 4, 13, 1, 14, 2, 3])

/-- some of the cases -/
def real6OneCase149 : LooseTree :=
  .cases [] 6 (.breaks 17 (.breaks 8421521 (.breaks 11579409 (.breaks 12632209 (.breaks 11579425
  (.breaks 11579393 (.leaf [43, 32, 20, 40, 9, 5, 12, 6, 13, 14]) (.leaf
  [43, 32, 20, 40, 9, 5, 12, 6, 13, 14])) (.leaf [43, 32, 20, 40, 9, 5, 12, 6, 13, 14])) (.leaf
  [43, 32, 20, 40, 9, 5, 12, 6, 13, 14])) (.leaf [43, 32, 20, 40, 9, 5, 12, 6, 13, 14])) (.leaf
  [43, 32, 20, 40, 9, 5, 12, 6, 13, 14])) (.leaf [43, 32, 20, 40, 9, 5, 12, 6, 13, 14])) (.cases []
  2 (.breaks 8433797 (.breaks 9437333 (.breaks 49285 (.breaks 17 (.breaks 11579409 (.breaks
  11579425 (.breaks 12632209 (.breaks 12689557 (.breaks 11579393 (.breaks 27295877 (.breaks 8421521
  (.leaf [43, 32, 54, 53, 9, 12, 13, 6, 29, 14, 20, 5]) (.leaf
  [43, 32, 54, 53, 9, 12, 13, 6, 29, 14, 20, 5])) (.leaf
  [43, 32, 54, 53, 9, 12, 13, 6, 29, 14, 20, 5])) (.leaf
  [43, 32, 54, 53, 9, 12, 13, 6, 29, 14, 20, 5])) (.leaf
  [43, 32, 54, 53, 9, 12, 13, 6, 29, 14, 20, 5])) (.leaf
  [43, 32, 54, 53, 9, 12, 13, 6, 29, 14, 20, 5])) (.leaf
  [43, 32, 54, 53, 9, 12, 13, 6, 29, 14, 20, 5])) (.leaf
  [43, 32, 54, 53, 9, 12, 13, 6, 29, 14, 20, 5])) (.leaf
  [43, 32, 54, 53, 9, 12, 13, 6, 29, 14, 20, 5])) (.leaf
  [43, 32, 54, 17, 53, 9, 12, 10, 13, 6, 29, 8, 14, 20, 5])) (.leaf
  [43, 32, 54, 17, 53, 9, 12, 10, 13, 6, 29, 8, 14, 20, 5])) (.leaf
  [43, 32, 54, 53, 9, 12, 13, 6, 29, 14, 20, 5])) (.breaks 8433797 (.breaks 9437333 (.breaks 49285
  (.breaks 17 (.breaks 11579409 (.breaks 11579425 (.breaks 12632209 (.breaks 12689557 (.breaks
  11579393 (.breaks 27295877 (.breaks 8421521 (.leaf [43, 32, 54, 53, 9, 12, 13, 6, 29, 14, 20, 5])
  (.leaf [43, 32, 54, 53, 9, 12, 13, 6, 29, 14, 20, 5])) (.leaf
  [43, 32, 54, 53, 9, 12, 13, 6, 29, 14, 20, 5])) (.leaf
  [43, 32, 54, 53, 9, 12, 13, 6, 29, 14, 20, 5])) (.leaf
  [43, 32, 54, 53, 9, 12, 13, 6, 29, 14, 20, 5])) (.leaf
  [43, 32, 54, 53, 9, 12, 13, 6, 29, 14, 20, 5])) (.leaf
  [43, 32, 54, 53, 9, 12, 13, 6, 29, 14, 20, 5])) (.leaf
  [43, 32, 54, 53, 9, 12, 13, 6, 29, 14, 20, 5])) (.leaf
  [43, 32, 54, 53, 9, 12, 13, 6, 29, 14, 20, 5])) (.leaf
  [43, 32, 54, 25, 53, 9, 12, 16, 13, 6, 29, 14, 20, 5])) (.leaf
  [43, 32, 54, 25, 53, 9, 12, 16, 13, 6, 29, 14, 20, 5])) (.leaf
  [43, 32, 54, 53, 9, 12, 13, 6, 29, 14, 20, 5])))

/-- some of the cases -/
def real6OneCase150 : LooseTree :=
  .cases [] 7 (.breaks 9437333 (.breaks 49285 (.breaks 17 (.breaks 32789 (.breaks 12632209 (.breaks
  8421505 (.breaks 8433797 (.breaks 8421521 (.breaks 11579409 (.breaks 11579425 (.breaks 11579393
  (.leaf [54, 36, 53, 9, 41, 6, 18, 32, 5, 12, 13, 14]) (.leaf
  [54, 36, 53, 9, 41, 6, 18, 32, 5, 12, 13, 14])) (.leaf
  [54, 36, 53, 9, 41, 6, 18, 32, 5, 12, 13, 14])) (.leaf
  [54, 36, 53, 9, 41, 6, 18, 32, 5, 12, 13, 14])) (.leaf
  [54, 36, 53, 9, 41, 6, 18, 32, 5, 12, 13, 14])) (.leaf
  [54, 36, 53, 9, 41, 6, 18, 32, 5, 12, 13, 14])) (.leaf
  [54, 36, 53, 9, 41, 6, 18, 32, 5, 12, 13, 14])) (.leaf
  [54, 36, 53, 9, 41, 6, 18, 32, 5, 12, 13, 14])) (.leaf
  [54, 36, 53, 9, 41, 6, 18, 32, 5, 12, 13, 14])) (.leaf
  [54, 36, 53, 9, 41, 6, 18, 32, 5, 12, 13, 14])) (.leaf
  [54, 36, 53, 9, 41, 6, 18, 32, 5, 12, 13, 14])) (.leaf
  [54, 30, 36, 53, 4, 9, 41, 6, 1, 18, 32, 2, 5, 12, 3, 13, 14])) (.breaks 9437333 (.breaks 49285
  (.breaks 17 (.breaks 32789 (.breaks 12632209 (.breaks 8421505 (.breaks 8433797 (.breaks 8421521
  (.breaks 11579409 (.breaks 11579425 (.breaks 11579393 (.leaf
  [54, 36, 53, 9, 41, 6, 18, 32, 5, 12, 13, 14]) (.leaf
  [54, 36, 53, 9, 41, 6, 18, 32, 5, 12, 13, 14])) (.leaf
  [54, 36, 53, 9, 41, 6, 18, 32, 5, 12, 13, 14])) (.leaf
  [54, 36, 53, 9, 41, 6, 18, 32, 5, 12, 13, 14])) (.leaf
  [54, 36, 53, 9, 41, 6, 18, 32, 5, 12, 13, 14])) (.leaf
  [54, 36, 53, 9, 41, 6, 18, 32, 5, 12, 13, 14])) (.leaf
  [54, 36, 53, 9, 41, 6, 18, 32, 5, 12, 13, 14])) (.leaf
  [54, 36, 53, 9, 41, 6, 18, 32, 5, 12, 13, 14])) (.leaf
  [54, 36, 53, 9, 41, 6, 18, 32, 5, 12, 13, 14])) (.leaf
  [54, 36, 53, 9, 41, 6, 18, 32, 5, 12, 13, 14])) (.leaf
  [54, 36, 53, 9, 41, 6, 18, 32, 5, 12, 13, 14])) (.leaf
  [54, 37, 36, 53, 19, 9, 41, 6, 18, 32, 5, 12, 13, 14]))

/-- some of the cases -/
def real6OneCase151 : LooseTree :=
  .cases [] 6 (.breaks 9482389 (.breaks 11579521 (.breaks 11567125 (.breaks 8388741 (.breaks
  8421505 (.breaks 11579425 (.breaks 17 (.breaks 8421521 (.breaks 11579393 (.leaf
  [51, 40, 31, 6, 61, 12, 43, 18, 13, 9, 5, 14]) (.leaf
  [51, 40, 31, 6, 61, 12, 43, 18, 13, 9, 5, 14])) (.leaf
  [51, 40, 31, 6, 61, 12, 43, 18, 13, 9, 5, 14])) (.leaf
  [51, 40, 31, 6, 61, 12, 43, 18, 13, 9, 5, 14])) (.leaf
  [51, 40, 31, 6, 61, 12, 43, 18, 13, 9, 5, 14])) (.leaf
  [51, 40, 31, 6, 61, 12, 43, 18, 13, 9, 5, 14])) (.leaf
  [51, 40, 31, 6, 61, 12, 43, 18, 13, 9, 5, 14])) (.leaf
  [51, 40, 31, 6, 61, 12, 43, 18, 13, 9, 5, 14])) (.leaf
  [51, 40, 31, 6, 61, 12, 103, 43, 18, 13, 46, 9, 5, 14, 23, 24])) (.leaf
  [51, 40, 31, 6, 61, 12, 103, 43, 18, 13, 46, 9, 5, 14, 23, 24])) (.cases [] 1 (.breaks 9482389
  (.breaks 11579521 (.breaks 11567125 (.breaks 11579409 (.breaks 8388741 (.breaks 8421505 (.breaks
  11579425 (.breaks 17 (.breaks 8421521 (.breaks 8495253 (.breaks 11579393 (.breaks 27369601
  (.breaks 27369489 (.breaks 27369505 (.breaks 27369473 (.leaf
  [51, 31, 61, 12, 43, 18, 13, 9, 5, 11, 14, 4, 1, 2, 3]) (.leaf [51, 52, 31, 53, 61, 12, 43, 18,
  13, 6, 9, 5, 11, 14, 4, 1, 2, 3])) (.leaf [51, 52, 31, 53, 61, 12, 43, 18, 13, 6, 9, 5, 11, 14,
  4, 1, 2, 3])) (.leaf [51, 52, 31, 53, 61, 12, 43, 18, 13, 6, 9, 5, 11, 14, 4, 1, 2, 3])) (.leaf
  [51, 52, 31, 53, 61, 12, 43, 18, 13, 6, 9, 5, 11, 14, 4, 1, 2, 3])) (.leaf [51, 52, 31, 53, 61,
  12, 43, 18, 13, 6, 9, 5, 11, 14, 4, 1, 2, 3])) (.leaf [51, 52, 31, 53, 61, 12, 43, 18, 13, 6, 9,
  5, 11, 14, 4, 1, 2, 3])) (.leaf [51, 52, 31, 53, 61, 12, 43, 18, 13, 6, 9, 5, 11, 14, 4, 1, 2,
  3])) (.leaf [51, 52, 31, 53, 61, 12, 43, 18, 13, 6, 9, 5, 11, 14, 4, 1, 2, 3])) (.leaf [51, 52,
  31, 53, 61, 12, 43, 18, 13, 6, 9, 5, 11, 14, 4, 1, 2, 3])) (.leaf [51, 52, 31, 53, 61, 12, 43,
  18, 13, 6, 9, 5, 11, 14, 4, 1, 2, 3])) (.leaf [51, 52, 31, 53, 61, 12, 43, 18, 13, 6, 9, 5, 11,
  14, 4, 1, 2, 3])) (.leaf [51, 52, 31, 53, 61, 12, 43, 18, 13, 6, 9, 5, 11, 14, 4, 1, 2, 3]))
  (.leaf [51, 52, 31, 53, 61, 12, 43, 18, 13, 6, 9, 5, 11, 14, 4, 1, 2, 3])) (.leaf [51, 52, 31,
  53, 61, 12, 43, 18, 13, 6, 9, 5, 11, 14, 4, 1, 2, 3])) (.leaf [51, 52, 31, 53, 61, 12, 43, 18,
  13, 6, 9, 5, 11, 14, 4, 1, 2, 3])) (.breaks 11534482 (.breaks 11579521 (.breaks 49285 (.breaks
  11579409 (.breaks 8388741 (.breaks 11579425 (.breaks 12632209 (.breaks 12689557 (.breaks 17
  (.breaks 11579393 (.breaks 27295877 (.breaks 8421521 (.leaf
  [51, 52, 31, 53, 61, 12, 43, 13, 6, 29, 9, 14, 20, 5]) (.leaf
  [51, 52, 31, 53, 61, 12, 43, 13, 6, 29, 9, 14, 20, 5])) (.leaf
  [51, 52, 31, 53, 61, 12, 43, 13, 6, 29, 9, 14, 20, 5])) (.leaf
  [51, 52, 31, 53, 61, 12, 43, 13, 6, 29, 9, 14, 20, 5])) (.leaf
  [51, 52, 31, 53, 61, 12, 43, 13, 6, 29, 9, 14, 20, 5])) (.leaf
  [51, 52, 31, 53, 61, 12, 43, 13, 6, 29, 9, 14, 20, 5])) (.leaf
  [51, 52, 31, 53, 61, 12, 43, 13, 6, 29, 9, 14, 20, 5])) (.leaf
  [51, 52, 31, 53, 61, 12, 43, 13, 6, 29, 9, 14, 20, 5])) (.leaf
  [51, 52, 31, 53, 61, 12, 43, 13, 6, 29, 9, 14, 20, 5])) (.leaf
  [51, 52, 31, 53, 61, 12, 43, 13, 6, 29, 9, 14, 20, 5])) (.leaf
  [51, 52, 31, 53, 61, 12, 43, 13, 6, 29, 9, 14, 20, 5])) (.leaf
  [51, 52, 31, 53, 61, 12, 43, 13, 6, 29, 9, 14, 20, 5])) (.leaf
  [51, 52, 31, 53, 61, 12, 43, 13, 6, 29, 9, 14, 20, 5])))

/-- some of the cases -/
def real6OneCase152 : LooseTree :=
  .breaks 11579409 (.breaks 8388741 (.breaks 8421505 (.breaks 11579425 (.breaks 17 (.breaks 8421521
  (.breaks 11579393 (.leaf [91, 61, 12, 43, 18, 13, 9, 5, 14]) (.leaf
  [91, 61, 12, 43, 18, 13, 9, 5, 14])) (.leaf [91, 61, 12, 43, 18, 13, 9, 5, 14])) (.leaf
  [91, 61, 12, 43, 18, 13, 9, 5, 14])) (.leaf [91, 61, 12, 43, 18, 13, 9, 5, 14])) (.leaf
  [91, 61, 12, 43, 18, 13, 9, 5, 14])) (.leaf [91, 61, 12, 43, 18, 13, 9, 5, 14])) (.leaf
  [91, 61, 12, 43, 18, 13, 9, 5, 14])

/-- some of the cases -/
def real6OneCase153 : LooseTree :=
  .breaks 11579521 (.breaks 11612181 (.breaks 19923077 (.breaks 17 (.breaks 32789 (.breaks 8421505
  (.breaks 8478853 (.breaks 8421521 (.breaks 23158801 (.leaf
  [51, 31, 103, 146, 9, 41, 18, 111, 5, 16]) (.leaf [51, 31, 103, 146, 9, 41, 18, 111, 5, 16]))
  (.leaf [51, 31, 103, 146, 9, 41, 18, 111, 5, 16])) (.leaf
  [51, 31, 103, 146, 9, 41, 18, 111, 5, 16])) (.leaf [51, 31, 103, 146, 9, 41, 18, 111, 5, 16]))
  (.leaf [51, 31, 103, 146, 9, 41, 18, 111, 5, 16])) (.leaf
  [51, 31, 103, 146, 9, 41, 18, 111, 5, 16])) (.leaf [51, 31, 103, 146, 9, 41, 18, 111, 5, 16]))
  (.leaf [51, 31, 103, 146, 9, 41, 18, 111, 5, 16])) (.leaf
  [51, 31, 103, 146, 9, 41, 18, 111, 5, 16])

/-- some of the cases -/
def real6OneCase154 : LooseTree :=
  .breaks 9482389 (.breaks 11534482 (.breaks 12632209 (.breaks 129 (.breaks 11579409 (.breaks 17
  (.breaks 32789 (.breaks 11579425 (.breaks 8421505 (.breaks 11579393 (.breaks 8421521 (.leaf
  [51, 40, 52, 31, 6, 36, 12, 9, 41, 13, 18, 14, 5]) (.leaf
  [51, 40, 52, 31, 6, 36, 12, 9, 41, 13, 18, 14, 5])) (.leaf
  [51, 40, 52, 31, 6, 36, 12, 9, 41, 13, 18, 14, 5])) (.leaf
  [51, 40, 52, 31, 6, 36, 12, 9, 41, 13, 18, 14, 5])) (.leaf
  [51, 40, 52, 31, 6, 36, 12, 9, 41, 13, 18, 14, 5])) (.leaf
  [51, 40, 52, 31, 6, 36, 12, 9, 41, 13, 18, 14, 5])) (.leaf
  [51, 40, 52, 31, 6, 36, 12, 9, 41, 13, 18, 14, 5])) (.leaf
  [51, 40, 52, 31, 6, 36, 12, 9, 41, 13, 18, 14, 5])) (.leaf
  [51, 40, 52, 31, 6, 36, 12, 9, 41, 13, 18, 14, 5])) (.leaf
  [51, 40, 52, 31, 6, 36, 12, 9, 41, 13, 18, 14, 5])) (.leaf
  [51, 40, 52, 31, 6, 36, 12, 9, 41, 13, 18, 14, 5])) (.leaf [51, 40, 52, 31, 6, 36, 12, 9, 41,
  133, 13, 18, 14, 46, 5, 23, 24])

/-- some of the cases -/
def real6OneCase155 : LooseTree :=
  .cases [] 1 (.breaks 9482389 (.breaks 11534482 (.breaks 49285 (.breaks 17 (.breaks 32789 (.breaks
  12632209 (.breaks 8421505 (.breaks 8421521 (.breaks 8495253 (.breaks 27369601 (.breaks 27369489
  (.breaks 27369505 (.breaks 27369473 (.leaf [51, 52, 36, 53, 9, 41, 6, 18, 5, 11, 4, 1, 2, 3])
  (.leaf [51, 52, 36, 53, 9, 41, 6, 18, 5, 11, 4, 1, 2, 3])) (.leaf
  [51, 52, 36, 53, 9, 41, 6, 18, 5, 11, 4, 1, 2, 3])) (.leaf
  [51, 52, 36, 53, 9, 41, 6, 18, 5, 11, 4, 1, 2, 3])) (.leaf
  [51, 52, 36, 53, 9, 41, 6, 18, 5, 11, 4, 1, 2, 3])) (.leaf
  [51, 52, 36, 53, 9, 41, 6, 18, 5, 11, 4, 1, 2, 3])) (.leaf
  [51, 52, 36, 53, 9, 41, 6, 18, 5, 11, 4, 1, 2, 3])) (.leaf
  [51, 52, 36, 53, 9, 41, 6, 18, 5, 11, 4, 1, 2, 3])) (.leaf
  [51, 52, 36, 53, 9, 41, 6, 18, 5, 11, 4, 1, 2, 3])) (.leaf
  [51, 52, 36, 53, 9, 41, 6, 18, 5, 11, 4, 1, 2, 3])) (.leaf
  [51, 52, 36, 53, 9, 41, 6, 18, 5, 11, 4, 1, 2, 3])) (.leaf
  [51, 52, 36, 53, 9, 41, 6, 18, 5, 11, 4, 1, 2, 3])) (.leaf
  [51, 52, 31, 36, 12, 9, 41, 13, 18, 14, 5, 11, 4, 1, 2, 3])) (.leaf [51, 52, 31, 36, 53, 12, 9,
  41, 13, 6, 18, 14, 5, 11, 4, 1, 2, 3])) (.breaks 11534482 (.breaks 11579521 (.breaks 129 (.breaks
  49285 (.breaks 11579409 (.breaks 17 (.breaks 77845 (.breaks 11579425 (.breaks 12632209 (.breaks
  12689557 (.breaks 11579393 (.breaks 20000897 (.breaks 27295877 (.breaks 8421521 (.breaks 20000945
  (.breaks 20000929 (.leaf [51, 52, 31, 36, 53, 12, 9, 133, 13, 6, 29, 14, 46, 20, 5, 23, 24])
  (.leaf [51, 52, 31, 36, 53, 12, 9, 133, 13, 6, 29, 14, 46, 20, 5, 23, 24])) (.leaf [51, 52, 31,
  36, 53, 12, 9, 133, 13, 6, 29, 14, 46, 20, 5, 23, 24])) (.leaf [51, 52, 31, 36, 53, 12, 9, 133,
  13, 6, 29, 14, 46, 20, 5, 23, 24])) (.leaf [51, 52, 31, 36, 53, 12, 9, 133, 13, 6, 29, 14, 46,
  20, 5, 23, 24])) (.leaf [51, 52, 31, 36, 53, 12, 9, 133, 13, 6, 29, 14, 46, 20, 5, 23, 24]))
  (.leaf [51, 52, 31, 36, 53, 12, 9, 133, 13, 6, 29, 14, 46, 20, 5, 23, 24])) (.leaf [51, 52, 31,
  36, 53, 12, 9, 133, 13, 6, 29, 14, 46, 20, 5, 23, 24])) (.leaf [51, 52, 31, 36, 53, 12, 9, 133,
  13, 6, 29, 14, 46, 20, 5, 23, 24])) (.leaf [51, 52, 31, 36, 53, 12, 9, 133, 13, 6, 29, 14, 46,
  20, 5, 23, 24])) (.leaf [51, 52, 31, 36, 53, 12, 9, 133, 13, 6, 29, 14, 46, 20, 5, 23, 24]))
  (.leaf [51, 52, 31, 36, 53, 12, 9, 133, 13, 6, 29, 14, 46, 20, 5, 23, 24])) (.leaf [51, 52, 31,
  36, 53, 12, 9, 133, 13, 6, 29, 14, 46, 20, 5, 23, 24])) (.leaf [51, 52, 31, 36, 53, 12, 9, 133,
  13, 6, 29, 14, 46, 20, 5, 23, 24])) (.leaf [51, 52, 31, 36, 53, 12, 9, 133, 13, 6, 29, 14, 46,
  20, 5, 23, 24])) (.leaf [51, 52, 31, 36, 53, 12, 9, 133, 13, 6, 29, 14, 46, 20, 5, 23, 24]))
  (.leaf [51, 52, 31, 36, 53, 12, 9, 133, 13, 6, 29, 14, 46, 20, 5, 23, 24]))

/-- some of the cases -/
def real6OneCase156 : LooseTree :=
  .breaks 19968133 (.breaks 11534482 (.breaks 11567125 (.breaks 11579409 (.breaks 129 (.breaks
  49285 (.breaks 8421505 (.breaks 11579425 (.breaks 17 (.breaks 8421521 (.breaks 11579393 (.breaks
  12632209 (.leaf [51, 91, 52, 61, 12, 36, 53, 18, 13, 9, 5, 14, 6]) (.leaf
  [51, 91, 52, 61, 12, 36, 53, 18, 13, 9, 5, 14, 6])) (.leaf
  [51, 91, 52, 61, 12, 36, 53, 18, 13, 9, 5, 14, 6])) (.leaf
  [51, 91, 52, 61, 12, 36, 53, 18, 13, 9, 5, 14, 6])) (.leaf
  [51, 91, 52, 61, 12, 36, 53, 18, 13, 9, 5, 14, 6])) (.leaf
  [51, 91, 52, 61, 12, 36, 53, 18, 13, 9, 5, 14, 6])) (.leaf
  [51, 91, 52, 61, 12, 36, 53, 18, 13, 9, 5, 14, 6])) (.leaf
  [51, 91, 52, 61, 12, 36, 53, 18, 13, 9, 5, 14, 6])) (.leaf
  [51, 91, 52, 61, 12, 36, 53, 18, 13, 9, 5, 14, 6])) (.leaf
  [51, 91, 52, 61, 12, 36, 53, 18, 13, 9, 5, 14, 6])) (.leaf
  [51, 91, 52, 61, 12, 36, 53, 18, 13, 9, 5, 14, 6])) (.leaf
  [51, 91, 52, 61, 12, 36, 53, 18, 13, 9, 5, 14, 6])) (.leaf
  [51, 91, 52, 61, 12, 36, 53, 18, 111, 13, 9, 5, 14, 6, 16])

/-- some of the cases -/
def real6OneCase157 : LooseTree :=
  .breaks 8421505 (.breaks 11534482 (.breaks 11579521 (.breaks 129 (.breaks 49285 (.breaks 8421521
  (.breaks 11579409 (.breaks 17 (.breaks 11579425 (.breaks 12632209 (.breaks 11579393 (.leaf
  [51, 85, 18, 52, 31, 36, 53, 5, 12, 9, 13, 6, 14]) (.leaf
  [51, 85, 18, 52, 31, 36, 53, 5, 12, 9, 13, 6, 14])) (.leaf
  [51, 85, 18, 52, 31, 36, 53, 5, 12, 9, 13, 6, 14])) (.leaf
  [51, 85, 18, 52, 31, 36, 53, 5, 12, 9, 13, 6, 14])) (.leaf
  [51, 85, 18, 52, 31, 36, 53, 5, 12, 9, 13, 6, 14])) (.leaf
  [51, 85, 18, 52, 31, 36, 53, 5, 12, 9, 13, 6, 14])) (.leaf
  [51, 85, 18, 52, 31, 36, 53, 5, 12, 9, 13, 6, 14])) (.leaf
  [51, 85, 18, 52, 31, 36, 53, 5, 12, 9, 13, 6, 14])) (.leaf
  [51, 85, 18, 52, 31, 36, 53, 5, 12, 9, 13, 6, 14])) (.leaf
  [51, 85, 18, 52, 31, 36, 53, 5, 12, 9, 13, 6, 14])) (.leaf
  [51, 85, 18, 52, 31, 36, 53, 5, 12, 9, 13, 6, 14])) (.leaf
  [51, 85, 18, 52, 31, 36, 53, 5, 12, 9, 13, 6, 14])

/-- some of the cases -/
def real6OneCase158 : LooseTree :=
  .cases [] 26 (.cases [] 35 (.breaks 9437333 (.breaks 45202 (.breaks 11579521 (.breaks 11579409
  (.breaks 11612181 (.breaks 12632209 (.breaks 8421505 (.breaks 11579425 (.breaks 20000897 (.breaks
  8421521 (.breaks 11579393 (.breaks 20000945 (.breaks 20000929 (.leaf [54, 36, 98, 9, 31, 75, 61,
  12, 103, 6, 18, 13, 46, 5, 14, 23, 24]) (.leaf [54, 36, 98, 9, 31, 75, 61, 12, 103, 6, 18, 13,
  46, 5, 14, 23, 24])) (.leaf [54, 36, 98, 9, 31, 75, 61, 12, 103, 6, 18, 13, 46, 5, 14, 23, 24]))
  (.leaf [54, 36, 98, 9, 31, 75, 61, 12, 103, 6, 18, 13, 46, 5, 14, 23, 24])) (.leaf [54, 36, 98,
  9, 31, 75, 61, 12, 103, 6, 18, 13, 46, 5, 14, 23, 24])) (.leaf [54, 36, 98, 9, 31, 75, 61, 12,
  103, 6, 18, 13, 46, 5, 14, 23, 24])) (.leaf [54, 36, 98, 9, 31, 75, 61, 12, 103, 6, 18, 13, 46,
  5, 14, 23, 24])) (.leaf [54, 36, 98, 9, 31, 75, 61, 12, 103, 6, 18, 13, 46, 5, 14, 23, 24]))
  (.leaf [54, 36, 98, 9, 31, 75, 61, 12, 103, 6, 18, 13, 46, 5, 14, 23, 24])) (.leaf [54, 36, 98,
  9, 31, 75, 61, 12, 103, 6, 18, 13, 46, 5, 14, 23, 24])) (.leaf [54, 36, 98, 9, 31, 75, 61, 12,
  103, 6, 18, 13, 46, 5, 14, 23, 24])) (.leaf [54, 36, 98, 9, 31, 75, 61, 12, 103, 6, 18, 13, 46,
  5, 14, 23, 24])) (.leaf [54, 36, 98, 9, 31, 75, 61, 12, 103, 6, 18, 111, 13, 46, 5, 14, 23, 16,
  24])) (.leaf [54, 36, 98, 9, 31, 75, 61, 12, 103, 6, 18, 111, 13, 46, 5, 14, 23, 16, 24]))
  (.breaks 9437333 (.breaks 19968133 (.breaks 129 (.breaks 45202 (.breaks 11567125 (.breaks
  11579409 (.breaks 17 (.breaks 8421505 (.breaks 11583621 (.breaks 11579425 (.breaks 8421521
  (.breaks 11579393 (.breaks 12632209 (.leaf [54, 91, 36, 98, 61, 12, 9, 18, 75, 13, 5, 14, 6])
  (.leaf [54, 91, 36, 98, 61, 12, 9, 18, 111, 75, 13, 5, 14, 6, 16])) (.leaf
  [54, 91, 36, 98, 61, 12, 9, 18, 111, 75, 13, 5, 14, 6, 16])) (.leaf
  [54, 91, 36, 98, 61, 12, 9, 18, 111, 75, 13, 5, 14, 6, 16])) (.leaf
  [54, 91, 36, 98, 61, 12, 9, 18, 111, 75, 13, 5, 14, 6, 16])) (.leaf
  [54, 91, 36, 98, 61, 12, 9, 18, 111, 75, 13, 5, 14, 6, 16])) (.leaf
  [54, 91, 36, 98, 61, 12, 9, 18, 111, 75, 13, 5, 14, 6, 16])) (.leaf
  [54, 91, 36, 98, 61, 12, 9, 18, 111, 75, 13, 5, 14, 6, 16])) (.leaf
  [54, 91, 36, 98, 61, 12, 9, 18, 111, 75, 13, 5, 14, 6, 16])) (.leaf
  [54, 91, 36, 98, 61, 12, 9, 18, 111, 75, 13, 5, 14, 6, 16])) (.leaf
  [54, 91, 36, 98, 61, 12, 9, 18, 111, 75, 13, 5, 14, 6, 16])) (.leaf
  [54, 91, 36, 98, 61, 12, 9, 18, 111, 75, 13, 5, 14, 6, 16])) (.leaf
  [54, 91, 36, 98, 61, 12, 9, 18, 111, 75, 13, 5, 14, 6, 16])) (.leaf
  [54, 91, 36, 98, 61, 12, 9, 18, 111, 75, 13, 5, 14, 6, 16]))) (.breaks 11579393 (.leaf
  [54, 53, 83, 31, 61, 12, 18, 13, 5, 14]) (.leaf [54, 53, 83, 31, 61, 12, 18, 13, 5, 14]))

/-- some of the cases -/
def real6OneCase159 : LooseTree :=
  .breaks 9437333 (.breaks 129 (.breaks 45202 (.breaks 8421505 (.breaks 17 (.breaks 8421521
  (.breaks 11579521 (.breaks 11579409 (.breaks 11579425 (.breaks 11579393 (.leaf
  [54, 85, 36, 98, 18, 9, 5, 31, 12, 13, 14]) (.leaf [54, 85, 36, 98, 18, 9, 5, 31, 12, 13, 14]))
  (.leaf [54, 85, 36, 98, 18, 9, 5, 31, 12, 13, 14])) (.leaf
  [54, 85, 36, 98, 18, 9, 5, 31, 12, 13, 14])) (.leaf [54, 85, 36, 98, 18, 9, 5, 31, 12, 13, 14]))
  (.leaf [54, 85, 36, 98, 18, 9, 5, 31, 12, 13, 14])) (.leaf
  [54, 85, 36, 98, 18, 9, 5, 31, 12, 13, 14])) (.leaf [54, 85, 36, 98, 18, 9, 5, 31, 12, 13, 14]))
  (.leaf [54, 85, 36, 98, 18, 9, 5, 31, 12, 13, 14])) (.leaf
  [54, 85, 36, 98, 18, 9, 5, 31, 12, 13, 14])) (.leaf
  [54, 85, 36, 98, 53, 18, 9, 5, 31, 6, 12, 13, 14])

/-- some of the cases -/
def real6OneCase160 : LooseTree :=
  .breaks 12632209 (.breaks 11579425 (.breaks 11579393 (.leaf [143, 31, 75, 12, 6, 13, 14]) (.leaf
  [143, 31, 75, 12, 6, 13, 14])) (.leaf [143, 31, 75, 12, 6, 13, 14])) (.leaf
  [143, 31, 75, 12, 6, 13, 14])

/-- some of the cases -/
def real6OneCase161 : LooseTree :=
  .breaks 11579521 (.breaks 11583621 (.breaks 11579409 (.breaks 12632209 (.breaks 11579425 (.breaks
  11579393 (.leaf [90, 96, 35, 0, 51, 31, 75, 12, 6, 13, 14]) (.leaf
  [90, 96, 35, 0, 51, 31, 75, 12, 6, 13, 14])) (.leaf [90, 96, 35, 0, 51, 31, 75, 12, 6, 13, 14]))
  (.leaf [90, 96, 35, 0, 51, 31, 75, 12, 6, 13, 14])) (.leaf
  [90, 96, 35, 0, 51, 31, 75, 12, 6, 13, 14])) (.leaf [90, 96, 35, 0, 51, 31, 75, 12, 6, 13, 14]))
  (.leaf [90, 96, 35, 0, 51, 31, 75, 12, 6, 13, 14])

/-- some of the cases -/
def real6OneCase162 : LooseTree :=
  .cases [] 1 (.breaks 36997 (.breaks 9474193 (.breaks 9482389 (.breaks 11567237 (.breaks 11579521
  (.breaks 8495253 (.breaks 11579409 (.breaks 11579425 (.breaks 27312261 (.breaks 11579393 (.breaks
  12632209 (.leaf [33, 0, 51, 89, 31, 11, 12, 13, 40, 14, 6]) (.leaf
  [33, 0, 51, 89, 31, 5, 11, 12, 13, 40, 14, 6])) (.leaf
  [33, 0, 51, 89, 31, 5, 11, 12, 13, 40, 14, 6])) (.leaf
  [33, 0, 51, 89, 31, 5, 11, 12, 13, 40, 14, 6])) (.leaf
  [33, 0, 51, 89, 31, 5, 11, 12, 13, 40, 14, 6])) (.leaf
  [33, 0, 51, 89, 31, 5, 11, 12, 13, 40, 14, 6])) (.leaf
  [33, 0, 51, 89, 31, 5, 11, 12, 13, 40, 14, 6])) (.leaf
  [33, 0, 51, 89, 31, 5, 11, 12, 13, 40, 14, 6])) (.leaf
  [33, 11, 0, 51, 40, 4, 31, 6, 1, 12, 2, 13, 3, 14])) (.leaf
  [33, 11, 0, 51, 40, 4, 31, 6, 1, 12, 2, 13, 3, 14])) (.leaf
  [33, 0, 51, 89, 31, 5, 11, 12, 13, 40, 14, 6])) (.leaf
  [33, 11, 0, 51, 40, 4, 31, 6, 1, 12, 2, 13, 3, 14])) (.breaks 27295877 (.breaks 27312261 (.breaks
  8421521 (.breaks 9474193 (.breaks 9482389 (.breaks 12632209 (.breaks 11579521 (.breaks 11579409
  (.breaks 11579425 (.breaks 11579393 (.leaf [33, 20, 40, 5, 0, 51, 6, 31, 12, 13, 14]) (.leaf
  [33, 20, 40, 5, 0, 51, 6, 31, 12, 13, 14])) (.leaf [33, 20, 40, 5, 0, 51, 6, 31, 12, 13, 14]))
  (.leaf [33, 20, 40, 5, 0, 51, 6, 31, 12, 13, 14])) (.leaf
  [33, 20, 40, 5, 0, 51, 6, 31, 12, 13, 14])) (.leaf [33, 20, 40, 5, 0, 51, 6, 31, 12, 13, 14]))
  (.leaf [33, 20, 40, 5, 0, 51, 6, 31, 12, 13, 14])) (.leaf
  [33, 20, 40, 5, 0, 51, 6, 31, 12, 13, 14])) (.leaf [33, 20, 40, 5, 0, 51, 6, 31, 12, 13, 14]))
  (.leaf [33, 20, 40, 5, 0, 51, 6, 31, 12, 13, 14])) (.leaf
  [33, 20, 40, 5, 0, 51, 6, 31, 12, 13, 14]))

/-- some of the cases -/
def real6OneCase163 : LooseTree :=
  .breaks 36997 (.breaks 9482389 (.breaks 11567237 (.breaks 8437891 (.breaks 11579409 (.breaks
  11579425 (.breaks 12632193 (.breaks 11579393 (.breaks 12632209 (.breaks 12689557 (.breaks
  27369601 (.breaks 27369489 (.breaks 27369505 (.breaks 27369473 (.leaf
  [33, 0, 51, 89, 31, 49, 12, 13, 15, 14, 6, 29, 4, 1, 2, 3]) (.leaf
  [33, 0, 51, 89, 31, 49, 12, 13, 15, 14, 6, 29, 4, 1, 2, 3])) (.leaf
  [33, 0, 51, 89, 31, 49, 12, 13, 15, 14, 6, 29, 4, 1, 2, 3])) (.leaf
  [33, 0, 51, 89, 31, 49, 12, 13, 15, 14, 6, 29, 4, 1, 2, 3])) (.leaf
  [33, 0, 51, 89, 31, 49, 12, 13, 15, 14, 6, 29, 4, 1, 2, 3])) (.leaf
  [33, 0, 51, 89, 31, 49, 12, 13, 15, 14, 6, 29, 4, 1, 2, 3])) (.leaf
  [33, 0, 51, 89, 31, 49, 12, 13, 15, 14, 6, 29, 4, 1, 2, 3])) (.leaf
  [33, 0, 51, 89, 31, 49, 12, 13, 15, 14, 6, 29, 4, 1, 2, 3])) (.leaf
  [33, 0, 51, 89, 31, 109, 12, 13, 6, 29, 14, 4, 1, 2, 3])) (.leaf
  [33, 0, 51, 89, 31, 49, 12, 13, 15, 14, 6, 29, 4, 1, 2, 3])) (.leaf
  [33, 0, 51, 89, 31, 49, 12, 13, 15, 14, 6, 29, 4, 1, 2, 3])) (.leaf
  [33, 0, 51, 89, 31, 109, 12, 13, 6, 29, 14, 4, 1, 2, 3])) (.leaf
  [33, 49, 0, 51, 15, 31, 6, 29, 12, 4, 13, 1, 14, 2, 3])) (.leaf
  [33, 49, 0, 51, 15, 31, 6, 29, 12, 34, 4, 13, 8, 1, 14, 2, 3])) (.leaf
  [33, 49, 0, 51, 15, 31, 6, 29, 12, 34, 4, 13, 8, 1, 14, 2, 3])

/-- some of the cases -/
def real6OneCase164 : LooseTree :=
  .cases [] 2 (.breaks 36997 (.breaks 9482389 (.breaks 11583621 (.breaks 11579409 (.breaks 12615810
  (.breaks 12632209 (.breaks 12689557 (.breaks 8421521 (.breaks 11579425 (.breaks 27369601 (.breaks
  11579393 (.breaks 27369489 (.breaks 27369505 (.breaks 27369473 (.leaf
  [33, 0, 51, 31, 75, 12, 38, 6, 29, 5, 13, 4, 14, 1, 2, 3]) (.leaf
  [33, 0, 51, 31, 75, 12, 38, 6, 29, 5, 13, 4, 14, 1, 2, 3])) (.leaf
  [33, 0, 51, 31, 75, 12, 38, 6, 29, 5, 13, 4, 14, 1, 2, 3])) (.leaf
  [33, 0, 51, 31, 75, 12, 38, 6, 29, 5, 13, 4, 14, 1, 2, 3])) (.leaf
  [33, 0, 51, 31, 75, 12, 38, 6, 29, 5, 13, 4, 14, 1, 2, 3])) (.leaf
  [33, 0, 51, 31, 75, 12, 38, 6, 29, 5, 13, 4, 14, 1, 2, 3])) (.leaf
  [33, 0, 51, 31, 75, 12, 38, 6, 29, 5, 13, 4, 14, 1, 2, 3])) (.leaf
  [33, 0, 51, 31, 75, 12, 38, 6, 29, 5, 13, 4, 14, 1, 2, 3])) (.leaf
  [33, 0, 51, 31, 75, 12, 38, 6, 29, 5, 13, 4, 14, 1, 2, 3])) (.leaf
  [33, 0, 51, 31, 75, 12, 38, 6, 29, 5, 13, 4, 14, 1, 2, 3])) (.leaf
  [33, 0, 51, 31, 75, 12, 38, 6, 29, 5, 13, 4, 14, 1, 2, 3])) (.leaf
  [33, 0, 51, 31, 75, 12, 38, 6, 29, 5, 13, 4, 14, 1, 2, 3])) (.leaf [33, 17, 0, 51, 10, 31, 75, 8,
  12, 38, 6, 29, 5, 13, 4, 14, 1, 2, 3])) (.leaf [33, 17, 0, 51, 10, 31, 75, 8, 12, 38, 6, 29, 5,
  13, 4, 14, 1, 2, 3])) (.leaf [33, 17, 0, 51, 10, 31, 75, 8, 12, 38, 6, 29, 5, 13, 4, 14, 1, 2,
  3])) (.breaks 36997 (.breaks 9482389 (.breaks 11583621 (.breaks 11579409 (.breaks 12615810
  (.breaks 12632209 (.breaks 12689557 (.breaks 8421521 (.breaks 11579425 (.breaks 27369601 (.breaks
  11579393 (.breaks 27369489 (.breaks 27369505 (.breaks 27369473 (.leaf
  [33, 0, 51, 31, 75, 12, 38, 6, 29, 5, 13, 4, 14, 1, 2, 3]) (.leaf
  [33, 0, 51, 31, 75, 12, 38, 6, 29, 5, 13, 4, 14, 1, 2, 3])) (.leaf
  [33, 0, 51, 31, 75, 12, 38, 6, 29, 5, 13, 4, 14, 1, 2, 3])) (.leaf
  [33, 0, 51, 31, 75, 12, 38, 6, 29, 5, 13, 4, 14, 1, 2, 3])) (.leaf
  [33, 0, 51, 31, 75, 12, 38, 6, 29, 5, 13, 4, 14, 1, 2, 3])) (.leaf
  [33, 0, 51, 31, 75, 12, 38, 6, 29, 5, 13, 4, 14, 1, 2, 3])) (.leaf
  [33, 0, 51, 31, 75, 12, 38, 6, 29, 5, 13, 4, 14, 1, 2, 3])) (.leaf
  [33, 0, 51, 31, 75, 12, 38, 6, 29, 5, 13, 4, 14, 1, 2, 3])) (.leaf
  [33, 0, 51, 31, 75, 12, 38, 6, 29, 5, 13, 4, 14, 1, 2, 3])) (.leaf
  [33, 0, 51, 31, 75, 12, 38, 6, 29, 5, 13, 4, 14, 1, 2, 3])) (.leaf
  [33, 0, 51, 31, 75, 12, 38, 6, 29, 5, 13, 4, 14, 1, 2, 3])) (.leaf
  [33, 0, 51, 31, 75, 12, 38, 6, 29, 5, 13, 4, 14, 1, 2, 3])) (.leaf [33, 25, 0, 51, 16, 31, 75,
  12, 38, 6, 29, 5, 13, 4, 14, 1, 2, 3])) (.leaf [33, 25, 0, 51, 16, 31, 75, 12, 38, 6, 29, 5, 13,
  4, 14, 1, 2, 3])) (.leaf [33, 25, 0, 51, 16, 31, 75, 12, 38, 6, 29, 5, 13, 4, 14, 1, 2, 3]))

/-- some of the cases -/
def real6OneCase165 : LooseTree :=
  .breaks 22126741 (.breaks 9482389 (.breaks 27369601 (.breaks 11579521 (.breaks 27369489 (.breaks
  11579409 (.breaks 27369505 (.breaks 11579425 (.breaks 27369473 (.breaks 11579393 (.leaf
  [33, 74, 0, 51, 4, 31, 1, 12, 2, 13, 3, 14]) (.leaf [33, 74, 0, 51, 4, 31, 1, 12, 2, 13, 3, 14]))
  (.leaf [33, 74, 0, 51, 4, 31, 1, 12, 2, 13, 3, 14])) (.leaf
  [33, 74, 0, 51, 4, 31, 1, 12, 2, 13, 3, 14])) (.leaf
  [33, 74, 0, 51, 4, 31, 1, 12, 2, 13, 3, 14])) (.leaf
  [33, 74, 0, 51, 4, 31, 1, 12, 2, 13, 3, 14])) (.leaf
  [33, 74, 0, 51, 4, 31, 1, 12, 2, 13, 3, 14])) (.leaf
  [33, 74, 0, 51, 4, 31, 1, 12, 2, 13, 3, 14])) (.leaf
  [33, 74, 0, 51, 4, 31, 1, 12, 2, 13, 3, 14])) (.leaf
  [33, 74, 0, 51, 4, 31, 1, 12, 2, 13, 3, 14])) (.leaf [33, 74, 0, 51, 4, 31, 1, 12, 2, 13, 3, 14])

/-- some of the cases -/
def real6OneCase166 : LooseTree :=
  .cases [] 1 (.cases [] 15 (.breaks 20013237 (.breaks 9474193 (.breaks 11579521 (.breaks 23158913
  (.breaks 11579409 (.breaks 23158801 (.breaks 11579425 (.breaks 11579393 (.leaf
  [33, 114, 44, 0, 31, 45, 12, 16, 13, 14]) (.leaf [33, 114, 44, 0, 31, 45, 12, 16, 13, 14]))
  (.leaf [33, 114, 44, 0, 31, 45, 12, 16, 13, 14])) (.leaf
  [33, 114, 44, 0, 31, 45, 12, 16, 13, 14])) (.leaf [33, 114, 44, 0, 31, 45, 12, 16, 13, 14]))
  (.leaf [33, 114, 44, 0, 31, 45, 12, 16, 13, 14])) (.leaf
  [33, 114, 44, 0, 31, 45, 12, 16, 13, 14])) (.leaf [33, 114, 44, 0, 31, 45, 12, 16, 13, 14]))
  (.leaf [33, 114, 44, 0, 31, 45, 12, 16, 13, 14])) (.breaks 8433813 (.breaks 8495253 (.breaks
  9474193 (.breaks 11579521 (.breaks 20000945 (.breaks 27369601 (.breaks 11579409 (.breaks 20000929
  (.breaks 27369489 (.breaks 11579425 (.breaks 27369505 (.breaks 11579393 (.breaks 27369473 (.leaf
  [33, 114, 11, 56, 0, 31, 23, 4, 12, 24, 1, 13, 2, 14, 3]) (.leaf
  [33, 114, 11, 56, 0, 31, 23, 4, 12, 24, 1, 13, 2, 14, 3])) (.leaf
  [33, 114, 11, 56, 0, 31, 23, 4, 12, 24, 1, 13, 2, 14, 3])) (.leaf
  [33, 114, 11, 56, 0, 31, 23, 4, 12, 24, 1, 13, 2, 14, 3])) (.leaf
  [33, 114, 11, 56, 0, 31, 23, 4, 12, 24, 1, 13, 2, 14, 3])) (.leaf
  [33, 114, 11, 56, 0, 31, 23, 4, 12, 24, 1, 13, 2, 14, 3])) (.leaf
  [33, 114, 11, 56, 0, 31, 23, 4, 12, 24, 1, 13, 2, 14, 3])) (.leaf
  [33, 114, 11, 56, 0, 31, 23, 4, 12, 24, 1, 13, 2, 14, 3])) (.leaf
  [33, 114, 11, 56, 0, 31, 23, 4, 12, 24, 1, 13, 2, 14, 3])) (.leaf
  [33, 114, 11, 56, 0, 31, 23, 4, 12, 24, 1, 13, 2, 14, 3])) (.leaf
  [33, 114, 11, 56, 0, 31, 23, 4, 12, 24, 1, 13, 2, 14, 3])) (.leaf
  [33, 114, 11, 56, 0, 31, 23, 4, 12, 24, 1, 13, 2, 14, 3])) (.leaf
  [33, 114, 11, 56, 0, 31, 23, 4, 12, 24, 1, 13, 2, 14, 3])) (.leaf
  [33, 114, 11, 56, 0, 31, 23, 4, 12, 24, 1, 13, 2, 14, 3]))) (.breaks 11579409 (.breaks 11579425
  (.breaks 11579393 (.leaf [20, 5, 114, 31, 12, 13, 14]) (.leaf [20, 5, 114, 31, 12, 13, 14]))
  (.leaf [20, 5, 114, 31, 12, 13, 14])) (.leaf [20, 5, 114, 31, 12, 13, 14]))

/-- some of the cases -/
def real6OneCase167 : LooseTree :=
  .breaks 16822421 (.breaks 11579521 (.breaks 8421521 (.breaks 11579409 (.breaks 11579425 (.breaks
  11579393 (.leaf [143, 89, 31, 5, 12, 13, 14]) (.leaf [143, 89, 31, 5, 12, 13, 14])) (.leaf
  [143, 89, 31, 5, 12, 13, 14])) (.leaf [143, 89, 31, 5, 12, 13, 14])) (.leaf
  [143, 89, 31, 5, 12, 13, 14])) (.leaf [143, 89, 31, 5, 12, 13, 14])) (.leaf
  [33, 143, 0, 89, 31, 5, 12, 13, 14])

/-- some of the cases -/
def real6OneCase168 : LooseTree :=
  .breaks 12628117 (.breaks 11579521 (.breaks 8421521 (.breaks 8495253 (.breaks 11579409 (.breaks
  11579425 (.breaks 27369601 (.breaks 11579393 (.breaks 27369489 (.breaks 27369505 (.breaks
  27369473 (.leaf [33, 83, 0, 89, 31, 5, 11, 12, 13, 4, 14, 1, 2, 3]) (.leaf
  [33, 83, 0, 89, 31, 5, 11, 12, 13, 4, 14, 1, 2, 3])) (.leaf
  [33, 83, 0, 89, 31, 5, 11, 12, 13, 4, 14, 1, 2, 3])) (.leaf
  [33, 83, 0, 89, 31, 5, 11, 12, 13, 4, 14, 1, 2, 3])) (.leaf
  [33, 83, 0, 89, 31, 5, 11, 12, 13, 4, 14, 1, 2, 3])) (.leaf
  [33, 83, 0, 89, 31, 5, 11, 12, 13, 4, 14, 1, 2, 3])) (.leaf
  [33, 83, 0, 89, 31, 5, 11, 12, 13, 4, 14, 1, 2, 3])) (.leaf
  [33, 83, 0, 89, 31, 5, 11, 12, 13, 4, 14, 1, 2, 3])) (.leaf
  [33, 83, 0, 89, 31, 5, 11, 12, 13, 4, 14, 1, 2, 3])) (.leaf
  [33, 83, 0, 89, 31, 5, 11, 12, 13, 4, 14, 1, 2, 3])) (.leaf
  [33, 83, 0, 89, 31, 5, 11, 12, 13, 4, 14, 1, 2, 3])) (.leaf
  [33, 83, 0, 89, 31, 5, 11, 12, 13, 4, 14, 1, 2, 3])

/-- some of the cases -/
def real6OneCase169 : LooseTree :=
  .cases [] 15 (.breaks 12628117 (.breaks 20013237 (.breaks 27295877 (.breaks 8421521 (.breaks
  9474193 (.breaks 11579521 (.breaks 23158913 (.breaks 11579409 (.breaks 23158801 (.breaks 11579425
  (.breaks 11579393 (.leaf [33, 83, 44, 20, 5, 0, 31, 45, 12, 16, 13, 14]) (.leaf
  [33, 83, 44, 20, 5, 0, 31, 132, 45, 12, 19, 16, 13, 14])) (.leaf
  [33, 83, 44, 20, 5, 0, 31, 132, 45, 12, 19, 16, 13, 14])) (.leaf
  [33, 83, 44, 20, 5, 0, 31, 45, 12, 16, 13, 14])) (.leaf
  [33, 83, 44, 20, 5, 0, 31, 132, 45, 12, 19, 16, 13, 14])) (.leaf
  [33, 83, 44, 20, 5, 0, 31, 45, 12, 16, 13, 14])) (.leaf
  [33, 83, 44, 20, 5, 0, 31, 132, 45, 12, 19, 16, 13, 14])) (.leaf
  [33, 83, 44, 20, 5, 0, 31, 45, 12, 16, 13, 14])) (.leaf
  [33, 83, 44, 20, 5, 0, 31, 132, 45, 12, 19, 16, 13, 14])) (.leaf
  [33, 83, 44, 0, 89, 31, 132, 45, 5, 12, 19, 16, 13, 14])) (.leaf
  [33, 83, 44, 20, 5, 0, 31, 45, 12, 16, 13, 14])) (.leaf
  [33, 28, 83, 44, 20, 9, 5, 0, 31, 45, 12, 16, 13, 14])) (.cases [] 50 (.breaks 12628117 (.breaks
  27295877 (.breaks 8421521 (.breaks 9474193 (.breaks 11579521 (.breaks 11600005 (.breaks 11579409
  (.breaks 11620373 (.breaks 16842897 (.breaks 11579425 (.breaks 22106241 (.breaks 11579393
  (.breaks 22106257 (.leaf [33, 83, 20, 5, 0, 31, 132, 12, 134, 19, 13, 10, 14, 8]) (.leaf
  [33, 83, 20, 5, 0, 31, 132, 12, 134, 19, 13, 10, 14, 8])) (.leaf
  [33, 28, 83, 20, 9, 5, 0, 31, 132, 12, 134, 19, 13, 10, 14, 8])) (.leaf
  [33, 83, 20, 5, 0, 31, 132, 12, 134, 19, 13, 10, 14, 8])) (.leaf
  [33, 28, 83, 20, 9, 5, 0, 31, 132, 12, 134, 19, 13, 10, 14, 8])) (.leaf
  [33, 28, 83, 20, 9, 5, 0, 31, 12, 134, 13, 10, 14, 8])) (.leaf
  [33, 83, 20, 5, 0, 31, 132, 12, 134, 19, 13, 10, 14, 8])) (.leaf
  [33, 28, 83, 20, 9, 5, 0, 31, 132, 12, 134, 19, 13, 10, 14, 8])) (.leaf
  [33, 28, 83, 20, 9, 5, 0, 31, 12, 134, 13, 10, 14, 8])) (.leaf
  [33, 28, 83, 20, 9, 5, 0, 31, 132, 12, 134, 19, 13, 10, 14, 8])) (.leaf
  [33, 83, 20, 5, 0, 31, 132, 12, 134, 19, 13, 10, 14, 8])) (.leaf
  [33, 28, 83, 20, 9, 5, 0, 31, 132, 12, 134, 19, 13, 10, 14, 8])) (.leaf
  [33, 28, 83, 9, 0, 89, 31, 132, 5, 12, 134, 19, 13, 10, 14, 8])) (.leaf [33, 28, 83, 56, 20, 9,
  5, 0, 31, 23, 12, 134, 24, 13, 10, 14, 8])) (.breaks 22065285 (.breaks 27295877 (.breaks 17
  (.breaks 8421521 (.breaks 9474193 (.breaks 11579409 (.breaks 11579425 (.breaks 11579393 (.leaf
  [33, 28, 147, 20, 9, 5, 0, 12, 13, 14]) (.leaf [33, 28, 147, 20, 9, 5, 0, 12, 13, 14])) (.leaf
  [33, 28, 147, 20, 9, 5, 0, 12, 13, 14])) (.leaf [33, 28, 147, 20, 9, 5, 0, 12, 13, 14])) (.leaf
  [33, 28, 147, 20, 9, 5, 0, 12, 13, 14])) (.leaf [33, 28, 147, 20, 9, 5, 0, 12, 13, 14])) (.leaf
  [33, 147, 56, 20, 5, 0, 12, 23, 13, 24, 14])) (.leaf
  [33, 83, 147, 0, 89, 132, 12, 5, 13, 19, 14])) (.leaf [33, 28, 147, 20, 9, 5, 0, 12, 13, 14])))

/-- some of the cases -/
def real6OneCase170 : LooseTree :=
  .breaks 12628117 (.breaks 11579521 (.breaks 8421521 (.breaks 11579409 (.breaks 11579425 (.breaks
  11579393 (.leaf [26, 15, 83, 89, 31, 5, 12, 13, 14]) (.leaf [26, 15, 83, 89, 31, 5, 12, 13, 14]))
  (.leaf [26, 15, 83, 89, 31, 5, 12, 13, 14])) (.leaf [26, 15, 83, 89, 31, 5, 12, 13, 14])) (.leaf
  [26, 15, 83, 89, 31, 5, 12, 13, 14])) (.leaf [26, 15, 83, 89, 31, 5, 12, 13, 14])) (.leaf
  [26, 15, 83, 89, 31, 5, 12, 13, 14])

/-- all cases -/
def real6OneCases : LooseTree :=
  .cases [] 0 (.cases [] 1 (.cases [] 2 (.cases [] 15 (.cases [] 23 (.cases [] 14 (.cases [] 4
  (.cases [] 27 (.cases [] 5 real6OneCase0 real6OneCase1) real6OneCase2) real6OneCase3) (.cases []
  3 (.cases [] 4 (.cases [] 5 (.cases [] 34 (.cases [] 52 real6OneCase4 (.cases [] 12 real6OneCase5
  real6OneCase6)) (.cycle 10 [47, 160, 15])) (.cases [] 25 real6OneCase7 real6OneCase8)) (.cases []
  16 real6OneCase9 real6OneCase10)) real6OneCase11)) (.cycle 29 [44, 45, 17, 123, 46])) (.cases []
  3 (.cases [] 4 (.cases [] 5 (.cases [] 34 (.cases [] 23 (.cases [] 12 (.cases [] 29
  real6OneCase12 (.cases [] 30 real6OneCase13 (.cases [] 52 real6OneCase14 (.cases [] 35 (.cases []
  8 real6OneCase15 real6OneCase16) real6OneCase17)))) real6OneCase18) real6OneCase19) (.cycle 10
  [47, 160, 15])) (.cases [] 25 (.cases [] 17 (.cases [] 23 real6OneCase20 real6OneCase21) (.cycle
  18 [71, 98, 31])) real6OneCase22)) (.cases [] 23 (.cases [] 11 (.cases [] 34 real6OneCase23
  (.cases [] 27 real6OneCase24 real6OneCase25)) (.cases [] 16 real6OneCase26 real6OneCase27))
  real6OneCase28)) (.cases [] 4 (.cases [] 5 (.cases [] 34 (.cases [] 12 (.cases [] 52
  real6OneCase29 (.cases [] 13 (.cases [] 23 (.cases [] 25 real6OneCase30 real6OneCase31)
  real6OneCase32) (.cases [] 29 real6OneCase33 (.cases [] 23 (.cases [] 30 real6OneCase34 (.cases
  [] 21 real6OneCase35 (.cases [] 19 real6OneCase36 real6OneCase37))) real6OneCase38)))) (.cases []
  59 (.cases [] 32 (.cases [] 20 real6OneCase39 (.cases [] 21 real6OneCase40 (.cases [] 28
  real6OneCase41 real6OneCase42))) real6OneCase43) (.leaf [17, 184]))) (.cycle 10 [47, 160, 15]))
  (.cases [] 25 (.cases [] 17 (.cases [] 34 (.cycle 1 [73, 153, 35]) (.cases [] 9 real6OneCase44
  real6OneCase45)) (.cycle 18 [71, 98, 31])) real6OneCase46)) (.cases [] 47 (.cases [] 16 (.cases
  [] 11 (.cases [] 34 real6OneCase47 (.cases [] 6 (.cases [] 27 (.cases [] 36 real6OneCase48
  (.cases [] 21 real6OneCase49 (.cases [] 7 real6OneCase50 real6OneCase51))) real6OneCase52)
  (.cases [] 21 real6OneCase53 (.cases [] 22 real6OneCase54 (.cases [] 19 (.cases [] 7
  real6OneCase55 real6OneCase56) real6OneCase57))))) (.cases [] 38 real6OneCase58 (.cases [] 22
  real6OneCase59 (.cases [] 24 real6OneCase60 real6OneCase61)))) (.cases [] 8 (.cases [] 38
  real6OneCase62 (.cases [] 21 real6OneCase63 (.cases [] 34 real6OneCase64 (.cases [] 23 (.cases []
  7 (.cases [] 24 real6OneCase65 real6OneCase66) real6OneCase67) real6OneCase68))))
  real6OneCase69)) (.leaf [17, 130]))))) (.cases [] 4 (.cases [] 5 (.cases [] 34 (.cases [] 12
  (.cases [] 13 (.cases [] 25 (.cases [] 17 (.cases [] 10 (.cases [] 18 real6OneCase70
  real6OneCase71) real6OneCase72) (.cycle 18 [71, 98, 31])) real6OneCase73) (.cases [] 10 (.cases
  [] 29 real6OneCase74 (.cases [] 30 real6OneCase75 (.cases [] 21 real6OneCase76 (.cases [] 19
  real6OneCase77 real6OneCase78)))) real6OneCase79)) (.cases [] 59 (.cases [] 10 (.cases [] 20
  real6OneCase80 (.cases [] 52 real6OneCase81 (.cases [] 25 real6OneCase82 (.cases [] 21
  real6OneCase83 (.cases [] 7 real6OneCase84 real6OneCase85))))) real6OneCase86) (.leaf [181])))
  (.cycle 10 [47, 160, 15])) (.cases [] 25 (.cases [] 17 (.cases [] 34 (.cycle 1 [73, 153, 35])
  (.cases [] 9 real6OneCase87 real6OneCase88)) (.cycle 18 [71, 98, 31])) real6OneCase89)) (.cases
  [] 16 (.cases [] 6 (.cases [] 34 real6OneCase90 (.cases [] 11 (.cases [] 10 (.cases [] 27 (.cases
  [] 40 real6OneCase91 (.cases [] 47 (.cycle 13 [161, 180, 10]) (.cases [] 23 real6OneCase92
  real6OneCase93))) real6OneCase94) (.leaf [74, 40, 4, 6, 1, 2, 3])) (.cycle 8 [11, 40, 38])))
  (.cases [] 47 (.cases [] 11 (.cases [] 10 (.cases [] 21 real6OneCase95 (.cases [] 22
  real6OneCase96 (.cases [] 28 real6OneCase97 real6OneCase98))) real6OneCase99) (.cases [] 10
  (.cases [] 38 real6OneCase100 (.cases [] 22 real6OneCase101 real6OneCase102)) real6OneCase103))
  real6OneCase104)) (.cases [] 8 (.cases [] 21 real6OneCase105 (.cases [] 47 (.cases [] 10 (.cases
  [] 11 real6OneCase106 (.cases [] 38 real6OneCase107 (.cases [] 24 real6OneCase108
  real6OneCase109))) real6OneCase110) real6OneCase111)) real6OneCase112)))) (.cases [] 7 (.cases []
  22 (.cases [] 21 (.cases [] 25 (.cases [] 18 real6OneCase113 real6OneCase114) real6OneCase115)
  real6OneCase116) real6OneCase117) (.cases [] 19 (.cases [] 28 (.cases [] 2 (.cases [] 15 (.cases
  [] 23 (.cases [] 4 real6OneCase118 real6OneCase119) (.cycle 29 [44, 45, 17, 123, 46])) (.cases []
  41 (.cases [] 14 (.cases [] 46 (.cases [] 23 real6OneCase120 real6OneCase121) real6OneCase122)
  real6OneCase123) (.cases [] 45 (.cases [] 23 (.cases [] 14 real6OneCase124 (.cases [] 39
  real6OneCase125 real6OneCase126)) real6OneCase127) (.leaf [178])))) (.cases [] 4 (.cases [] 5
  real6OneCase128 (.cases [] 25 real6OneCase129 real6OneCase130)) (.cases [] 6 (.cases [] 11
  (.cases [] 38 real6OneCase131 real6OneCase132) (.leaf [40, 95, 79])) real6OneCase133))) (.cycle 8
  [55, 152, 18])) (.cases [] 2 (.cases [] 15 real6OneCase134 (.cases [] 31 real6OneCase135 (.cases
  [] 23 (.cases [] 14 real6OneCase136 real6OneCase137) real6OneCase138))) (.cases [] 4 (.cases [] 5
  real6OneCase139 real6OneCase140) real6OneCase141))))) (.cases [] 9 (.cases [] 34 real6OneCase142
  (.cases [] 18 real6OneCase143 (.cases [] 55 real6OneCase144 (.cases [] 8 (.cases [] 13 (.cases []
  1 (.cases [] 10 (.cases [] 27 (.cases [] 25 real6OneCase145 real6OneCase146) real6OneCase147)
  real6OneCase148) real6OneCase149) real6OneCase150) (.cases [] 17 (.cases [] 13 (.cases [] 35
  real6OneCase151 real6OneCase152) (.cases [] 31 (.cases [] 35 (.cases [] 49 real6OneCase153
  (.cases [] 6 real6OneCase154 real6OneCase155)) real6OneCase156) real6OneCase157)) (.cases [] 31
  real6OneCase158 real6OneCase159)))))) (.cases [] 26 (.cases [] 33 (.leaf
  [114, 31, 75, 12, 6, 13, 14]) (.cases [] 48 real6OneCase160 (.cases [] 34 real6OneCase161 (.cases
  [] 6 real6OneCase162 (.cases [] 10 (.cases [] 11 real6OneCase163 real6OneCase164)
  real6OneCase165))))) (.cases [] 33 real6OneCase166 (.cases [] 48 real6OneCase167 (.cases [] 4
  (.cases [] 1 real6OneCase168 real6OneCase169) real6OneCase170)))))

theorem real6One_part0 : real6OneCases.checkAt real6OneArcs 206 real6OneChoices.length
    [true, true, true, true, true, true]
    (.not []) [] real6OneTimes 0 = true := by decide +kernel

theorem real6One_part1 : real6OneCases.checkAt real6OneArcs 206 real6OneChoices.length
    [true, true, true, true, true, false, true]
    (.not []) [] real6OneTimes 0 = true := by decide +kernel

theorem real6One_part2 : real6OneCases.checkAt real6OneArcs 206 real6OneChoices.length
    [true, true, true, true, true, false, false]
    (.not []) [] real6OneTimes 0 = true := by decide +kernel

theorem real6One_part3 : real6OneCases.checkAt real6OneArcs 206 real6OneChoices.length
    [true, true, true, true, false]
    (.not []) [] real6OneTimes 0 = true := by decide +kernel

theorem real6One_part4 : real6OneCases.checkAt real6OneArcs 206 real6OneChoices.length
    [true, true, true, false, true, true, true]
    (.not []) [] real6OneTimes 0 = true := by decide +kernel

theorem real6One_part5 : real6OneCases.checkAt real6OneArcs 206 real6OneChoices.length
    [true, true, true, false, true, true, false]
    (.not []) [] real6OneTimes 0 = true := by decide +kernel

theorem real6One_part6 : real6OneCases.checkAt real6OneArcs 206 real6OneChoices.length
    [true, true, true, false, true, false]
    (.not []) [] real6OneTimes 0 = true := by decide +kernel

theorem real6One_part7 : real6OneCases.checkAt real6OneArcs 206 real6OneChoices.length
    [true, true, true, false, false, true, true, true, true, true]
    (.not []) [] real6OneTimes 0 = true := by decide +kernel

theorem real6One_part8 : real6OneCases.checkAt real6OneArcs 206 real6OneChoices.length
    [true, true, true, false, false, true, true, true, true, false, true]
    (.not []) [] real6OneTimes 0 = true := by decide +kernel

theorem real6One_part9 : real6OneCases.checkAt real6OneArcs 206 real6OneChoices.length
    [true, true, true, false, false, true, true, true, true, false, false]
    (.not []) [] real6OneTimes 0 = true := by decide +kernel

theorem real6One_part10 : real6OneCases.checkAt real6OneArcs 206 real6OneChoices.length
    [true, true, true, false, false, true, true, true, false]
    (.not []) [] real6OneTimes 0 = true := by decide +kernel

theorem real6One_part11 : real6OneCases.checkAt real6OneArcs 206 real6OneChoices.length
    [true, true, true, false, false, true, true, false]
    (.not []) [] real6OneTimes 0 = true := by decide +kernel

theorem real6One_part12 : real6OneCases.checkAt real6OneArcs 206 real6OneChoices.length
    [true, true, true, false, false, true, false]
    (.not []) [] real6OneTimes 0 = true := by decide +kernel

theorem real6One_part13 : real6OneCases.checkAt real6OneArcs 206 real6OneChoices.length
    [true, true, true, false, false, false, true, true, true, true]
    (.not []) [] real6OneTimes 0 = true := by decide +kernel

theorem real6One_part14 : real6OneCases.checkAt real6OneArcs 206 real6OneChoices.length
    [true, true, true, false, false, false, true, true, true, false, true]
    (.not []) [] real6OneTimes 0 = true := by decide +kernel

theorem real6One_part15 : real6OneCases.checkAt real6OneArcs 206 real6OneChoices.length
    [true, true, true, false, false, false, true, true, true, false, false]
    (.not []) [] real6OneTimes 0 = true := by decide +kernel

theorem real6One_part16 : real6OneCases.checkAt real6OneArcs 206 real6OneChoices.length
    [true, true, true, false, false, false, true, true, false]
    (.not []) [] real6OneTimes 0 = true := by decide +kernel

theorem real6One_part17 : real6OneCases.checkAt real6OneArcs 206 real6OneChoices.length
    [true, true, true, false, false, false, true, false, true]
    (.not []) [] real6OneTimes 0 = true := by decide +kernel

theorem real6One_part18 : real6OneCases.checkAt real6OneArcs 206 real6OneChoices.length
    [true, true, true, false, false, false, true, false, false]
    (.not []) [] real6OneTimes 0 = true := by decide +kernel

theorem real6One_part19 : real6OneCases.checkAt real6OneArcs 206 real6OneChoices.length
    [true, true, true, false, false, false, false]
    (.not []) [] real6OneTimes 0 = true := by decide +kernel

theorem real6One_part20 : real6OneCases.checkAt real6OneArcs 206 real6OneChoices.length
    [true, true, false, true, true, true, true]
    (.not []) [] real6OneTimes 0 = true := by decide +kernel

theorem real6One_part21 : real6OneCases.checkAt real6OneArcs 206 real6OneChoices.length
    [true, true, false, true, true, true, false]
    (.not []) [] real6OneTimes 0 = true := by decide +kernel

theorem real6One_part22 : real6OneCases.checkAt real6OneArcs 206 real6OneChoices.length
    [true, true, false, true, true, false]
    (.not []) [] real6OneTimes 0 = true := by decide +kernel

theorem real6One_part23 : real6OneCases.checkAt real6OneArcs 206 real6OneChoices.length
    [true, true, false, true, false]
    (.not []) [] real6OneTimes 0 = true := by decide +kernel

theorem real6One_part24 : real6OneCases.checkAt real6OneArcs 206 real6OneChoices.length
    [true, true, false, false, true, true]
    (.not []) [] real6OneTimes 0 = true := by decide +kernel

theorem real6One_part25 : real6OneCases.checkAt real6OneArcs 206 real6OneChoices.length
    [true, true, false, false, true, false, true, true]
    (.not []) [] real6OneTimes 0 = true := by decide +kernel

theorem real6One_part26 : real6OneCases.checkAt real6OneArcs 206 real6OneChoices.length
    [true, true, false, false, true, false, true, false]
    (.not []) [] real6OneTimes 0 = true := by decide +kernel

theorem real6One_part27 : real6OneCases.checkAt real6OneArcs 206 real6OneChoices.length
    [true, true, false, false, true, false, false]
    (.not []) [] real6OneTimes 0 = true := by decide +kernel

theorem real6One_part28 : real6OneCases.checkAt real6OneArcs 206 real6OneChoices.length
    [true, true, false, false, false]
    (.not []) [] real6OneTimes 0 = true := by decide +kernel

theorem real6One_part29 : real6OneCases.checkAt real6OneArcs 206 real6OneChoices.length
    [true, false, true]
    (.not []) [] real6OneTimes 0 = true := by decide +kernel

theorem real6One_part30 : real6OneCases.checkAt real6OneArcs 206 real6OneChoices.length
    [true, false, false, true, true, true, true]
    (.not []) [] real6OneTimes 0 = true := by decide +kernel

theorem real6One_part31 : real6OneCases.checkAt real6OneArcs 206 real6OneChoices.length
    [true, false, false, true, true, true, false]
    (.not []) [] real6OneTimes 0 = true := by decide +kernel

theorem real6One_part32 : real6OneCases.checkAt real6OneArcs 206 real6OneChoices.length
    [true, false, false, true, true, false]
    (.not []) [] real6OneTimes 0 = true := by decide +kernel

theorem real6One_part33 : real6OneCases.checkAt real6OneArcs 206 real6OneChoices.length
    [true, false, false, true, false]
    (.not []) [] real6OneTimes 0 = true := by decide +kernel

theorem real6One_part34 : real6OneCases.checkAt real6OneArcs 206 real6OneChoices.length
    [true, false, false, false, true]
    (.not []) [] real6OneTimes 0 = true := by decide +kernel

theorem real6One_part35 : real6OneCases.checkAt real6OneArcs 206 real6OneChoices.length
    [true, false, false, false, false]
    (.not []) [] real6OneTimes 0 = true := by decide +kernel

theorem real6One_part36 : real6OneCases.checkAt real6OneArcs 206 real6OneChoices.length
    [false, true, true]
    (.not []) [] real6OneTimes 0 = true := by decide +kernel

theorem real6One_part37 : real6OneCases.checkAt real6OneArcs 206 real6OneChoices.length
    [false, true, false, true]
    (.not []) [] real6OneTimes 0 = true := by decide +kernel

theorem real6One_part38 : real6OneCases.checkAt real6OneArcs 206 real6OneChoices.length
    [false, true, false, false, true]
    (.not []) [] real6OneTimes 0 = true := by decide +kernel

theorem real6One_part39 : real6OneCases.checkAt real6OneArcs 206 real6OneChoices.length
    [false, true, false, false, false, true]
    (.not []) [] real6OneTimes 0 = true := by decide +kernel

theorem real6One_part40 : real6OneCases.checkAt real6OneArcs 206 real6OneChoices.length
    [false, true, false, false, false, false, true]
    (.not []) [] real6OneTimes 0 = true := by decide +kernel

theorem real6One_part41 : real6OneCases.checkAt real6OneArcs 206 real6OneChoices.length
    [false, true, false, false, false, false, false]
    (.not []) [] real6OneTimes 0 = true := by decide +kernel

theorem real6One_part42 : real6OneCases.checkAt real6OneArcs 206 real6OneChoices.length
    [false, false, true]
    (.not []) [] real6OneTimes 0 = true := by decide +kernel

theorem real6One_part43 : real6OneCases.checkAt real6OneArcs 206 real6OneChoices.length
    [false, false, false]
    (.not []) [] real6OneTimes 0 = true := by decide +kernel

theorem real6One_cases : real6OneCases.check real6OneArcs 206 real6OneChoices.length (.not []) [] real6OneTimes 0 = true :=
  LooseTree.join (path := []) (LooseTree.join (LooseTree.join (LooseTree.join (LooseTree.join
  (LooseTree.join real6One_part0 (LooseTree.join real6One_part1 real6One_part2)) real6One_part3)
  (LooseTree.join (LooseTree.join (LooseTree.join real6One_part4 real6One_part5) real6One_part6)
  (LooseTree.join (LooseTree.join (LooseTree.join (LooseTree.join (LooseTree.join real6One_part7
  (LooseTree.join real6One_part8 real6One_part9)) real6One_part10) real6One_part11)
  real6One_part12) (LooseTree.join (LooseTree.join (LooseTree.join (LooseTree.join real6One_part13
  (LooseTree.join real6One_part14 real6One_part15)) real6One_part16) (LooseTree.join
  real6One_part17 real6One_part18)) real6One_part19)))) (LooseTree.join (LooseTree.join
  (LooseTree.join (LooseTree.join real6One_part20 real6One_part21) real6One_part22)
  real6One_part23) (LooseTree.join (LooseTree.join real6One_part24 (LooseTree.join (LooseTree.join
  real6One_part25 real6One_part26) real6One_part27)) real6One_part28))) (LooseTree.join
  real6One_part29 (LooseTree.join (LooseTree.join (LooseTree.join (LooseTree.join real6One_part30
  real6One_part31) real6One_part32) real6One_part33) (LooseTree.join real6One_part34
  real6One_part35)))) (LooseTree.join (LooseTree.join real6One_part36 (LooseTree.join
  real6One_part37 (LooseTree.join real6One_part38 (LooseTree.join real6One_part39 (LooseTree.join
  real6One_part40 real6One_part41))))) (LooseTree.join real6One_part42 real6One_part43))

theorem real6One_choices : real6OneChoices.all (CodedNet.Choice.ok net netSpecial real6Plan) = true := by
  decide +kernel

theorem real6One_arcs : (real6OneArcs.toList.all fun x =>
    net.arcOK netSpecial real6Plan real6OneNodes real6OneChoices x.1 &&
      net.keyOK real6Plan real6OneNodes real6OneChoices x.1 x.2) = true := by decide +kernel

theorem real6One_times : net.startOK real6Plan real6OneNodes 10 40 real6OneTimes = true := by decide +kernel

end Verif.Real
