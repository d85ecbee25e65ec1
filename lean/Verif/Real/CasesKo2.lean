import Verif.Proofs.PlanArcs
import Verif.Real.PlanKo2

/-!
# The sheet of `Verif.Real.Ko2` has no solution with `d_max` less than 18

Generated: a proof by cases, see `Verif/Proofs/PlanTree.lean`. It goes through the orders of the trains
on the single track between `RCB` and `ZZ` and at its ends.
-/

namespace Verif.Real

set_option maxRecDepth 100000

/-- the departures: train and station -/
def ko2Nodes : List (Nat × Nat) := [
  (4, 0), (5, 0), (8, 0), (19, 0), (21, 0), (23, 0), (4, 1), (2, 0), (5, 1), (8, 1), (7, 0),
  (19, 1), (20, 1), (21, 1), (14, 1), (12, 1), (13, 3), (11, 3), (33, 3), (31, 3), (14, 4),
  (16, 4), (29, 4), (31, 4), (33, 4), (34, 4), (36, 4), (0, 2), (14, 3), (1, 2), (16, 3), (2, 2),
  (17, 3), (4, 2), (5, 2), (32, 3), (8, 2), (19, 2), (18, 3), (20, 2), (29, 3), (13, 4), (18, 4),
  (34, 3), (2, 1), (12, 3), (1, 0), (0, 0), (0, 1), (1, 1), (12, 2), (13, 2), (6, 2), (17, 2),
  (17, 1), (18, 2), (6, 1), (7, 1), (7, 2), (29, 2), (18, 1), (8, 3), (21, 2), (32, 2), (32, 1),
  (33, 2), (33, 1), (6, 3), (7, 3), (6, 0), (16, 2), (16, 1), (5, 3), (34, 2), (11, 2), (14, 2),
  (34, 1), (29, 1)]

/-- the choices -/
def ko2Choices : List CodedNet.Choice := [
  .first 2 4 0, .first 4 5 0, .first 7 5 0, .first 7 8 0, .first 8 19 0, .first 19 21 0,
  .first 21 23 0, .first 2 4 1, .first 4 5 1, .first 6 4 1, .first 7 5 1, .first 7 8 1,
  .first 8 19 1, .first 8 20 1, .first 19 21 1, .first 12 14 1, .first 18 16 1, .first 29 17 1,
  .first 34 32 1, .first 8 6 2, .first 11 13 3, .first 18 16 3, .first 31 33 3, .first 13 14 4,
  .first 14 16 4, .first 18 16 4, .first 18 29 4, .first 29 31 4, .first 31 33 4, .first 33 34 4,
  .first 34 36 4, .against 0 13 2 3, .against 1 14 2 3, .against 2 16 2 3, .against 4 17 2 3,
  .against 13 5 3 2, .against 18 5 3 2, .against 6 14 2 3, .against 29 6 3 2, .against 7 14 2 3,
  .against 8 32 2 3, .against 18 19 3 2, .against 19 33 2 3, .against 29 20 3 2, .first 13 14 3,
  .first 14 16 3, .first 18 29 3, .first 29 31 3, .first 33 34 3, .against 2 13 2 3, .first 2 1 2,
  .first 2 4 2, .against 4 12 2 3, .against 2 14 2 3, .against 0 12 2 3, .against 1 13 2 3,
  .against 2 12 2 3, .first 12 14 3, .against 1 12 2 3, .against 4 16 2 3, .first 13 12 2,
  .first 11 12 3, .first 13 12 3, .against 11 1 3 2, .first 0 1 0, .first 0 1 1, .first 0 1 2,
  .against 0 11 2 3, .first 4 5 2, .against 7 16 2 3, .against 5 16 2 3, .first 17 16 3,
  .against 18 6 3 2, .against 6 16 2 3, .first 6 5 2, .first 18 17 1, .first 29 17 2,
  .first 29 17 3, .first 7 6 1, .against 17 5 3 2, .against 6 17 2 3, .first 18 17 3,
  .first 18 17 2, .first 7 5 2, .first 7 6 2, .against 7 18 2 3, .against 7 29 2 3,
  .against 7 17 2 3, .first 7 6 3, .against 18 8 3 2, .first 7 8 3, .first 7 8 2,
  .against 8 29 2 3, .against 8 31 2 3, .first 8 19 2, .first 8 20 2, .first 19 20 1,
  .against 31 21 3 2, .first 19 21 2, .first 31 32 3, .against 19 31 2 3, .against 19 32 2 3,
  .against 21 33 2 3, .against 33 20 3 2, .against 31 20 3 2, .first 19 20 2, .first 33 32 1,
  .first 33 32 2, .first 33 32 3, .against 20 32 2 3, .against 21 32 2 3, .against 29 19 3 2,
  .first 21 20 2, .first 21 20 1, .first 6 5 1, .first 6 5 0, .first 6 5 3, .first 34 32 2,
  .first 34 32 3, .against 4 14 2 3, .first 6 4 2, .first 17 16 2, .against 8 17 2 3,
  .against 14 5 3 2, .first 0 2 2, .against 11 2 3 2, .against 13 4 3 2, .first 11 12 2,
  .first 12 14 2]

/-- the inequalities -/
def ko2Arcs : ArcTree :=
  .node ⟨.low, 0, 0, 1, 20, 0, false⟩ (.node ⟨.track, 2, 1, 0, 0, 10, false⟩ (.node
  ⟨.track, 4, 2, 0, 0, 20, false⟩ (.node ⟨.track, 10, 4, 0, 0, 50, false⟩ (.node
  ⟨.low, 0, 0, 9, 36, 0, false⟩ (.node ⟨.follow, 32, 15, 16, 4, 0, false⟩ (.node
  ⟨.late, 0, 34, 0, 0, 33, true⟩ (.node ⟨.come, 117, 30, 46, 5, 0, false⟩ (.node
  ⟨.follow, 215, 66, 64, 3, 0, false⟩ .none .none) (.node ⟨.run, 0, 51, 16, 3, 0, false⟩ .none
  .none)) (.node ⟨.follow, 144, 31, 33, 4, 0, false⟩ (.node ⟨.track, 169, 59, 57, 0, 3, false⟩
  .none .none) .none)) (.node ⟨.come, 110, 46, 28, 6, 0, false⟩ (.node
  ⟨.track, 150, 35, 57, 0, 3, false⟩ (.node ⟨.track, 226, 40, 14, 0, 4, false⟩ .none .none) .none)
  (.node ⟨.follow, 29, 12, 14, 3, 0, false⟩ (.node ⟨.come, 76, 29, 53, 7, 0, false⟩ .none .none)
  .none))) (.node ⟨.low, 0, 0, 25, 78, 0, false⟩ (.node ⟨.track, 47, 42, 0, 0, 23, false⟩ (.node
  ⟨.follow, 103, 32, 34, 3, 0, false⟩ (.node ⟨.come, 224, 38, 41, 5, 0, false⟩ .none .none) (.node
  ⟨.low, 0, 0, 78, 75, 0, false⟩ .none .none)) (.node ⟨.track, 182, 62, 59, 0, 4, false⟩ (.node
  ⟨.come, 107, 32, 29, 5, 0, false⟩ .none .none) .none)) (.node ⟨.follow, 123, 18, 46, 4, 0, false⟩
  (.node ⟨.follow, 153, 60, 54, 3, 0, false⟩ (.node ⟨.follow, 230, 9, 57, 3, 0, false⟩ .none .none)
  .none) (.node ⟨.late, 0, 63, 0, 0, 83, true⟩ (.node ⟨.follow, 249, 28, 32, 3, 0, false⟩ .none
  .none) .none)))) (.node ⟨.track, 9, 3, 0, 0, 60, false⟩ (.node ⟨.low, 0, 0, 21, 23, 0, false⟩
  (.node ⟨.come, 84, 38, 39, 5, 0, false⟩ (.node ⟨.low, 0, 0, 52, 34, 0, false⟩ (.node
  ⟨.come, 185, 37, 41, 5, 0, false⟩ .none .none) (.node ⟨.come, 75, 53, 29, 5, 0, false⟩ .none
  .none)) (.node ⟨.come, 174, 41, 59, 7, 0, false⟩ (.node ⟨.late, 0, 64, 0, 0, 88, true⟩ .none
  .none) .none)) (.node ⟨.come, 118, 46, 30, 6, 0, false⟩ (.node ⟨.track, 156, 33, 23, 0, 5, false⟩
  (.node ⟨.follow, 44, 31, 39, 4, 0, false⟩ .none .none) .none) (.node
  ⟨.come, 201, 38, 20, 5, 0, false⟩ (.node ⟨.come, 99, 32, 17, 5, 0, false⟩ .none .none) .none)))
  (.node ⟨.low, 0, 0, 29, 31, 0, false⟩ (.node ⟨.track, 55, 23, 0, 0, 63, false⟩ (.node
  ⟨.track, 164, 33, 43, 0, 5, false⟩ (.node ⟨.follow, 212, 40, 38, 2, 0, false⟩ .none .none) (.node
  ⟨.low, 0, 0, 11, 40, 0, false⟩ .none .none)) (.node ⟨.run, 0, 12, 38, 5, 0, false⟩ (.node
  ⟨.come, 245, 37, 33, 5, 0, false⟩ .none .none) .none)) (.node ⟨.follow, 129, 48, 47, 3, 0, false⟩
  (.node ⟨.follow, 149, 53, 35, 2, 0, false⟩ (.node ⟨.follow, 231, 70, 2, 2, 0, false⟩ .none .none)
  .none) (.node ⟨.come, 207, 19, 40, 7, 0, false⟩ (.node ⟨.low, 0, 0, 51, 28, 0, false⟩ .none
  .none) .none))))) (.node ⟨.track, 14, 6, 0, 0, 70, false⟩ (.node
  ⟨.track, 24, 10, 11, 0, 4, false⟩ (.node ⟨.late, 0, 18, 0, 0, 11, true⟩ (.node
  ⟨.low, 0, 0, 36, 82, 0, false⟩ (.node ⟨.track, 126, 46, 42, 0, 5, false⟩ (.node
  ⟨.run, 0, 66, 67, 6, 0, false⟩ .none .none) (.node ⟨.track, 225, 63, 13, 0, 3, false⟩ .none
  .none)) (.node ⟨.come, 145, 39, 53, 7, 0, false⟩ (.node ⟨.run, 0, 35, 73, 6, 0, false⟩ .none
  .none) .none)) (.node ⟨.come, 112, 17, 30, 7, 0, false⟩ (.node
  ⟨.follow, 157, 58, 57, 3, 0, false⟩ (.node ⟨.track, 177, 69, 53, 0, 4, false⟩ .none .none) .none)
  (.node ⟨.come, 196, 63, 20, 5, 0, false⟩ (.node ⟨.come, 106, 46, 34, 6, 0, false⟩ .none .none)
  .none))) (.node ⟨.low, 0, 0, 27, 93, 0, false⟩ (.node ⟨.track, 94, 41, 43, 0, 5, false⟩ (.node
  ⟨.come, 162, 33, 53, 6, 0, false⟩ (.node ⟨.track, 181, 69, 37, 0, 4, false⟩ .none .none) (.node
  ⟨.late, 0, 72, 0, 0, 55, true⟩ .none .none)) (.node ⟨.follow, 95, 41, 20, 4, 0, false⟩ (.node
  ⟨.follow, 242, 34, 53, 3, 0, false⟩ .none .none) .none)) (.node ⟨.run, 0, 48, 49, 6, 0, false⟩
  (.node ⟨.late, 0, 55, 0, 0, 61, true⟩ (.node ⟨.track, 229, 57, 2, 0, 4, false⟩ .none .none)
  .none) (.node ⟨.come, 210, 40, 20, 5, 0, false⟩ (.node ⟨.track, 242, 34, 57, 0, 3, false⟩ .none
  .none) .none)))) (.node ⟨.low, 0, 0, 14, 76, 0, false⟩ (.node ⟨.low, 0, 0, 23, 53, 0, false⟩
  (.node ⟨.low, 0, 0, 40, 77, 0, false⟩ (.node ⟨.follow, 17, 7, 9, 3, 0, false⟩ (.node
  ⟨.come, 219, 40, 36, 5, 0, false⟩ .none .none) (.node ⟨.follow, 43, 39, 31, 4, 0, false⟩ .none
  .none)) (.node ⟨.follow, 23, 58, 10, 3, 0, false⟩ (.node ⟨.track, 38, 65, 74, 0, 4, false⟩ .none
  .none) .none)) (.node ⟨.come, 67, 32, 31, 5, 0, false⟩ (.node ⟨.run, 0, 58, 59, 5, 0, false⟩
  (.node ⟨.low, 0, 0, 59, 53, 0, false⟩ .none .none) .none) (.node
  ⟨.come, 187, 37, 20, 5, 0, false⟩ (.node ⟨.come, 71, 17, 35, 7, 0, false⟩ .none .none) .none)))
  (.node ⟨.come, 68, 31, 32, 7, 0, false⟩ (.node ⟨.track, 104, 34, 45, 0, 4, false⟩ (.node
  ⟨.run, 0, 54, 55, 3, 0, false⟩ (.node ⟨.track, 61, 26, 0, 0, 93, false⟩ .none .none) .none)
  (.node ⟨.come, 186, 41, 37, 7, 0, false⟩ (.node ⟨.follow, 20, 7, 57, 3, 0, false⟩ .none .none)
  .none)) (.node ⟨.run, 0, 50, 30, 4, 0, false⟩ (.node ⟨.come, 172, 39, 59, 7, 0, false⟩ (.node
  ⟨.come, 139, 59, 31, 5, 0, false⟩ .none .none) .none) (.node ⟨.track, 216, 64, 19, 0, 6, false⟩
  (.node ⟨.track, 89, 17, 21, 0, 5, false⟩ .none .none) .none)))))) (.node
  ⟨.track, 8, 3, 0, 0, 40, false⟩ (.node ⟨.track, 12, 5, 0, 0, 60, false⟩ (.node
  ⟨.track, 3, 1, 0, 0, 30, false⟩ (.node ⟨.low, 0, 0, 17, 26, 0, false⟩ (.node
  ⟨.come, 72, 35, 17, 5, 0, false⟩ (.node ⟨.come, 135, 28, 18, 5, 0, false⟩ (.node
  ⟨.come, 205, 63, 19, 5, 0, false⟩ .none .none) (.node ⟨.follow, 258, 76, 51, 3, 0, false⟩ .none
  .none)) (.node ⟨.come, 140, 31, 59, 7, 0, false⟩ (.node ⟨.low, 0, 0, 37, 63, 0, false⟩ .none
  .none) .none)) (.node ⟨.follow, 89, 17, 29, 4, 0, false⟩ (.node ⟨.run, 0, 57, 53, 4, 0, false⟩
  (.node ⟨.follow, 225, 63, 40, 3, 0, false⟩ .none .none) .none) (.node
  ⟨.follow, 189, 37, 38, 3, 0, false⟩ (.node ⟨.come, 247, 29, 35, 7, 0, false⟩ .none .none)
  .none))) (.node ⟨.low, 0, 0, 26, 83, 0, false⟩ (.node ⟨.track, 49, 21, 0, 0, 33, false⟩ (.node
  ⟨.come, 142, 31, 35, 7, 0, false⟩ (.node ⟨.run, 0, 53, 68, 6, 0, false⟩ .none .none) (.node
  ⟨.low, 0, 0, 61, 70, 0, false⟩ .none .none)) (.node ⟨.run, 0, 37, 62, 6, 0, false⟩ (.node
  ⟨.follow, 91, 29, 31, 4, 0, false⟩ .none .none) .none)) (.node ⟨.low, 0, 0, 47, 7, 0, false⟩
  (.node ⟨.run, 0, 56, 61, 6, 0, false⟩ (.node ⟨.follow, 229, 57, 9, 2, 0, false⟩ .none .none)
  .none) (.node ⟨.follow, 193, 12, 13, 3, 0, false⟩ (.node ⟨.track, 137, 34, 9, 0, 4, false⟩ .none
  .none) .none)))) (.node ⟨.follow, 28, 13, 10, 2, 0, false⟩ (.node ⟨.low, 0, 0, 22, 33, 0, false⟩
  (.node ⟨.come, 86, 19, 38, 7, 0, false⟩ (.node ⟨.follow, 115, 46, 29, 3, 0, false⟩ (.node
  ⟨.follow, 164, 33, 39, 3, 0, false⟩ .none .none) (.node ⟨.low, 0, 0, 43, 48, 0, false⟩ .none
  .none)) (.node ⟨.come, 78, 53, 41, 5, 0, false⟩ (.node ⟨.track, 236, 64, 44, 0, 6, false⟩ .none
  .none) .none)) (.node ⟨.follow, 124, 46, 18, 3, 0, false⟩ (.node
  ⟨.track, 167, 59, 9, 0, 4, false⟩ (.node ⟨.follow, 190, 38, 37, 3, 0, false⟩ .none .none) .none)
  (.node ⟨.track, 200, 36, 24, 0, 5, false⟩ (.node ⟨.come, 252, 32, 18, 5, 0, false⟩ .none .none)
  .none))) (.node ⟨.late, 0, 30, 0, 0, 17, true⟩ (.node ⟨.track, 98, 44, 25, 0, 5, false⟩ (.node
  ⟨.track, 166, 54, 39, 0, 6, false⟩ (.node ⟨.follow, 226, 40, 63, 2, 0, false⟩ .none .none) .none)
  (.node ⟨.follow, 27, 10, 13, 3, 0, false⟩ (.node ⟨.late, 0, 54, 0, 0, 58, true⟩ .none .none)
  .none)) (.node ⟨.track, 134, 30, 49, 0, 4, false⟩ (.node ⟨.low, 0, 0, 53, 47, 0, false⟩ (.node
  ⟨.track, 143, 33, 22, 0, 5, false⟩ .none .none) .none) (.node ⟨.track, 218, 36, 25, 0, 5, false⟩
  (.node ⟨.run, 0, 18, 75, 8, 0, false⟩ .none .none) .none))))) (.node
  ⟨.track, 16, 7, 8, 0, 4, false⟩ (.node ⟨.low, 0, 0, 12, 66, 0, false⟩ (.node
  ⟨.follow, 46, 19, 20, 4, 0, false⟩ (.node ⟨.late, 0, 37, 0, 0, 63, true⟩ (.node
  ⟨.track, 122, 51, 17, 0, 6, false⟩ (.node ⟨.late, 0, 65, 0, 0, 91, true⟩ .none .none) (.node
  ⟨.come, 79, 59, 29, 5, 0, false⟩ .none .none)) (.node ⟨.come, 141, 35, 31, 5, 0, false⟩ (.node
  ⟨.low, 0, 0, 68, 53, 0, false⟩ .none .none) .none)) (.node ⟨.follow, 116, 29, 46, 4, 0, false⟩
  (.node ⟨.follow, 169, 59, 53, 3, 0, false⟩ (.node ⟨.come, 176, 33, 59, 6, 0, false⟩ .none .none)
  .none) (.node ⟨.come, 202, 20, 38, 7, 0, false⟩ (.node ⟨.follow, 101, 32, 30, 3, 0, false⟩ .none
  .none) .none))) (.node ⟨.come, 64, 17, 28, 7, 0, false⟩ (.node ⟨.low, 0, 0, 20, 71, 0, false⟩
  (.node ⟨.follow, 150, 35, 53, 3, 0, false⟩ (.node ⟨.follow, 198, 63, 38, 3, 0, false⟩ .none
  .none) (.node ⟨.track, 21, 58, 2, 0, 4, false⟩ .none .none)) (.node
  ⟨.track, 190, 38, 10, 0, 4, false⟩ (.node ⟨.track, 243, 54, 31, 0, 6, false⟩ .none .none) .none))
  (.node ⟨.come, 109, 28, 46, 5, 0, false⟩ (.node ⟨.late, 0, 9, 0, 0, 36, true⟩ (.node
  ⟨.run, 0, 70, 57, 5, 0, false⟩ .none .none) .none) (.node ⟨.come, 208, 40, 19, 5, 0, false⟩
  (.node ⟨.late, 0, 7, 0, 0, 26, true⟩ .none .none) .none)))) (.node
  ⟨.track, 11, 4, 0, 0, 70, false⟩ (.node ⟨.low, 0, 0, 24, 63, 0, false⟩ (.node
  ⟨.late, 0, 41, 0, 0, 61, true⟩ (.node ⟨.come, 100, 17, 32, 7, 0, false⟩ (.node
  ⟨.come, 221, 63, 36, 5, 0, false⟩ .none .none) (.node ⟨.low, 0, 0, 77, 105, 0, false⟩ .none
  .none)) (.node ⟨.come, 180, 37, 39, 5, 0, false⟩ (.node ⟨.come, 113, 32, 46, 5, 0, false⟩ .none
  .none) .none)) (.node ⟨.low, 0, 0, 30, 17, 0, false⟩ (.node ⟨.follow, 155, 41, 33, 4, 0, false⟩
  (.node ⟨.come, 81, 37, 36, 5, 0, false⟩ .none .none) .none) (.node
  ⟨.come, 85, 38, 19, 5, 0, false⟩ (.node ⟨.come, 253, 17, 34, 7, 0, false⟩ .none .none) .none)))
  (.node ⟨.low, 0, 0, 33, 52, 0, false⟩ (.node ⟨.run, 0, 7, 34, 5, 0, false⟩ (.node
  ⟨.follow, 165, 56, 54, 3, 0, false⟩ (.node ⟨.track, 228, 13, 5, 0, 4, false⟩ .none .none) .none)
  (.node ⟨.track, 194, 13, 4, 0, 4, false⟩ (.node ⟨.late, 0, 29, 0, 0, 31, true⟩ .none .none)
  .none)) (.node ⟨.come, 136, 18, 28, 7, 0, false⟩ (.node ⟨.come, 171, 59, 39, 5, 0, false⟩ (.node
  ⟨.run, 0, 71, 72, 6, 0, false⟩ .none .none) .none) (.node ⟨.run, 0, 64, 65, 3, 0, false⟩ (.node
  ⟨.low, 0, 0, 69, 60, 0, false⟩ .none .none) .none))))))) (.node ⟨.low, 0, 0, 2, 30, 0, false⟩
  (.node ⟨.low, 0, 0, 3, 50, 0, false⟩ (.node ⟨.low, 0, 0, 5, 70, 0, false⟩ (.node
  ⟨.track, 18, 9, 1, 0, 4, false⟩ (.node ⟨.late, 0, 16, 0, 0, 31, true⟩ (.node
  ⟨.low, 0, 0, 35, 43, 0, false⟩ (.node ⟨.low, 0, 0, 28, 13, 0, false⟩ (.node
  ⟨.come, 195, 20, 63, 7, 0, false⟩ .none .none) (.node ⟨.track, 31, 16, 76, 0, 4, false⟩ .none
  .none)) (.node ⟨.late, 0, 35, 0, 0, 43, true⟩ (.node ⟨.follow, 158, 57, 58, 2, 0, false⟩ .none
  .none) .none)) (.node ⟨.come, 63, 28, 17, 5, 0, false⟩ (.node ⟨.track, 158, 57, 11, 0, 4, false⟩
  (.node ⟨.follow, 227, 14, 13, 3, 0, false⟩ .none .none) .none) (.node
  ⟨.run, 0, 14, 63, 5, 0, false⟩ (.node ⟨.come, 239, 34, 29, 5, 0, false⟩ .none .none) .none)))
  (.node ⟨.track, 58, 25, 0, 0, 63, false⟩ (.node ⟨.track, 92, 31, 21, 0, 5, false⟩ (.node
  ⟨.come, 119, 34, 31, 5, 0, false⟩ (.node ⟨.come, 87, 41, 40, 7, 0, false⟩ .none .none) (.node
  ⟨.follow, 35, 78, 55, 4, 0, false⟩ .none .none)) (.node ⟨.follow, 183, 59, 37, 3, 0, false⟩
  (.node ⟨.come, 240, 29, 34, 7, 0, false⟩ .none .none) .none)) (.node
  ⟨.follow, 126, 46, 17, 3, 0, false⟩ (.node ⟨.run, 0, 39, 56, 8, 0, false⟩ (.node
  ⟨.low, 0, 0, 57, 43, 0, false⟩ .none .none) .none) (.node ⟨.track, 212, 40, 12, 0, 4, false⟩
  (.node ⟨.follow, 138, 35, 34, 3, 0, false⟩ .none .none) .none)))) (.node
  ⟨.low, 0, 0, 13, 73, 0, false⟩ (.node ⟨.track, 48, 21, 0, 0, 18, false⟩ (.node
  ⟨.late, 0, 39, 0, 0, 56, true⟩ (.node ⟨.track, 121, 52, 46, 0, 5, false⟩ (.node
  ⟨.come, 173, 59, 41, 5, 0, false⟩ .none .none) (.node ⟨.come, 73, 39, 35, 7, 0, false⟩ .none
  .none)) (.node ⟨.low, 0, 0, 39, 56, 0, false⟩ (.node ⟨.track, 238, 36, 26, 0, 5, false⟩ .none
  .none) .none)) (.node ⟨.come, 111, 30, 17, 5, 0, false⟩ (.node ⟨.track, 93, 39, 23, 0, 5, false⟩
  (.node ⟨.follow, 40, 53, 37, 2, 0, false⟩ .none .none) .none) (.node
  ⟨.come, 203, 38, 36, 5, 0, false⟩ (.node ⟨.follow, 250, 32, 28, 3, 0, false⟩ .none .none)
  .none))) (.node ⟨.come, 66, 29, 30, 7, 0, false⟩ (.node ⟨.low, 0, 0, 44, 91, 0, false⟩ (.node
  ⟨.run, 0, 33, 54, 6, 0, false⟩ (.node ⟨.late, 0, 12, 0, 0, 66, true⟩ .none .none) (.node
  ⟨.track, 5, 11, 0, 0, 30, false⟩ .none .none)) (.node ⟨.track, 192, 40, 10, 0, 4, false⟩ (.node
  ⟨.track, 183, 59, 10, 0, 4, false⟩ .none .none) .none)) (.node ⟨.run, 0, 47, 50, 5, 0, false⟩
  (.node ⟨.come, 74, 35, 39, 5, 0, false⟩ (.node ⟨.run, 0, 2, 9, 6, 0, false⟩ .none .none) .none)
  (.node ⟨.late, 0, 40, 0, 0, 77, true⟩ (.node ⟨.track, 256, 51, 18, 0, 6, false⟩ .none .none)
  .none))))) (.node ⟨.low, 0, 0, 7, 26, 0, false⟩ (.node ⟨.track, 7, 11, 0, 0, 50, false⟩ (.node
  ⟨.low, 0, 0, 19, 86, 0, false⟩ (.node ⟨.come, 82, 36, 37, 6, 0, false⟩ (.node
  ⟨.run, 0, 46, 51, 6, 0, false⟩ (.node ⟨.follow, 213, 67, 65, 4, 0, false⟩ .none .none) (.node
  ⟨.follow, 228, 13, 14, 2, 0, false⟩ .none .none)) (.node ⟨.follow, 143, 33, 31, 3, 0, false⟩
  (.node ⟨.track, 234, 73, 53, 0, 4, false⟩ .none .none) .none)) (.node
  ⟨.come, 65, 30, 29, 5, 0, false⟩ (.node ⟨.follow, 168, 35, 59, 3, 0, false⟩ (.node
  ⟨.run, 0, 59, 69, 6, 0, false⟩ .none .none) .none) (.node ⟨.follow, 200, 36, 20, 3, 0, false⟩
  (.node ⟨.come, 105, 34, 46, 5, 0, false⟩ .none .none) .none))) (.node
  ⟨.track, 62, 27, 0, 0, 83, false⟩ (.node ⟨.track, 53, 43, 0, 0, 53, false⟩ (.node
  ⟨.late, 0, 53, 0, 0, 47, true⟩ (.node ⟨.low, 0, 0, 63, 83, 0, false⟩ .none .none) (.node
  ⟨.low, 0, 0, 58, 46, 0, false⟩ .none .none)) (.node ⟨.come, 188, 20, 37, 7, 0, false⟩ (.node
  ⟨.follow, 244, 71, 54, 3, 0, false⟩ .none .none) .none)) (.node ⟨.run, 0, 49, 28, 5, 0, false⟩
  (.node ⟨.track, 149, 53, 9, 0, 4, false⟩ (.node ⟨.follow, 232, 2, 70, 3, 0, false⟩ .none .none)
  .none) (.node ⟨.come, 209, 20, 40, 7, 0, false⟩ (.node ⟨.track, 6, 2, 0, 0, 40, false⟩ .none
  .none) .none)))) (.node ⟨.track, 30, 14, 4, 0, 4, false⟩ (.node ⟨.track, 54, 23, 0, 0, 48, false⟩
  (.node ⟨.come, 88, 40, 41, 5, 0, false⟩ (.node ⟨.run, 0, 9, 35, 5, 0, false⟩ (.node
  ⟨.come, 222, 36, 63, 6, 0, false⟩ .none .none) (.node ⟨.follow, 39, 37, 53, 3, 0, false⟩ .none
  .none)) (.node ⟨.run, 0, 10, 37, 5, 0, false⟩ (.node ⟨.follow, 235, 74, 64, 3, 0, false⟩ .none
  .none) .none)) (.node ⟨.come, 120, 31, 34, 7, 0, false⟩ (.node ⟨.track, 154, 54, 41, 0, 6, false⟩
  (.node ⟨.late, 0, 31, 0, 0, 41, true⟩ .none .none) .none) (.node
  ⟨.follow, 199, 20, 36, 4, 0, false⟩ (.node ⟨.come, 254, 34, 17, 5, 0, false⟩ .none .none)
  .none))) (.node ⟨.late, 0, 32, 0, 0, 23, true⟩ (.node ⟨.follow, 15, 45, 7, 3, 0, false⟩ (.node
  ⟨.track, 152, 55, 56, 0, 4, false⟩ (.node ⟨.track, 211, 38, 13, 0, 3, false⟩ .none .none) .none)
  (.node ⟨.track, 191, 37, 13, 0, 3, false⟩ (.node ⟨.come, 248, 35, 29, 5, 0, false⟩ .none .none)
  .none)) (.node ⟨.low, 0, 0, 18, 11, 0, false⟩ (.node ⟨.late, 0, 59, 0, 0, 53, true⟩ (.node
  ⟨.run, 0, 31, 71, 8, 0, false⟩ .none .none) .none) (.node ⟨.follow, 217, 19, 36, 4, 0, false⟩
  (.node ⟨.track, 178, 68, 59, 0, 4, false⟩ .none .none) .none)))))) (.node
  ⟨.low, 0, 0, 4, 60, 0, false⟩ (.node ⟨.low, 0, 0, 6, 80, 0, false⟩ (.node
  ⟨.low, 0, 0, 10, 56, 0, false⟩ (.node ⟨.follow, 42, 17, 18, 4, 0, false⟩ (.node
  ⟨.late, 0, 17, 0, 0, 26, true⟩ (.node ⟨.come, 127, 18, 30, 7, 0, false⟩ (.node
  ⟨.run, 0, 19, 66, 8, 0, false⟩ .none .none) (.node ⟨.track, 257, 51, 29, 0, 6, false⟩ .none
  .none)) (.node ⟨.follow, 167, 59, 35, 3, 0, false⟩ (.node ⟨.track, 189, 37, 12, 0, 4, false⟩
  .none .none) .none)) (.node ⟨.come, 108, 29, 32, 7, 0, false⟩ (.node
  ⟨.track, 170, 53, 58, 0, 4, false⟩ (.node ⟨.follow, 218, 36, 19, 3, 0, false⟩ .none .none) .none)
  (.node ⟨.follow, 197, 38, 63, 3, 0, false⟩ (.node ⟨.low, 0, 0, 34, 33, 0, false⟩ .none .none)
  .none))) (.node ⟨.track, 60, 26, 0, 0, 78, false⟩ (.node ⟨.low, 0, 0, 41, 61, 0, false⟩ (.node
  ⟨.come, 160, 35, 33, 5, 0, false⟩ (.node ⟨.follow, 178, 68, 69, 3, 0, false⟩ .none .none) (.node
  ⟨.follow, 33, 61, 72, 3, 0, false⟩ .none .none)) (.node ⟨.follow, 170, 53, 59, 2, 0, false⟩
  (.node ⟨.follow, 102, 30, 32, 2, 0, false⟩ .none .none) .none)) (.node
  ⟨.follow, 130, 47, 48, 2, 0, false⟩ (.node ⟨.follow, 151, 61, 55, 4, 0, false⟩ (.node
  ⟨.follow, 156, 33, 41, 3, 0, false⟩ .none .none) .none) (.node
  ⟨.follow, 211, 38, 40, 3, 0, false⟩ (.node ⟨.come, 69, 34, 33, 5, 0, false⟩ .none .none)
  .none)))) (.node ⟨.late, 0, 10, 0, 0, 56, true⟩ (.node ⟨.track, 50, 22, 0, 0, 23, false⟩ (.node
  ⟨.late, 0, 38, 0, 0, 73, true⟩ (.node ⟨.track, 138, 35, 7, 0, 4, false⟩ (.node
  ⟨.come, 220, 36, 40, 6, 0, false⟩ .none .none) (.node ⟨.track, 51, 43, 0, 0, 33, false⟩ .none
  .none)) (.node ⟨.follow, 137, 34, 35, 3, 0, false⟩ (.node ⟨.follow, 237, 44, 36, 4, 0, false⟩
  .none .none) .none)) (.node ⟨.follow, 41, 18, 17, 4, 0, false⟩ (.node
  ⟨.follow, 22, 9, 58, 3, 0, false⟩ (.node ⟨.follow, 191, 37, 40, 3, 0, false⟩ .none .none) .none)
  (.node ⟨.track, 57, 24, 0, 0, 78, false⟩ (.node ⟨.come, 251, 18, 32, 7, 0, false⟩ .none .none)
  .none))) (.node ⟨.low, 0, 0, 31, 41, 0, false⟩ (.node ⟨.track, 59, 25, 0, 0, 83, false⟩ (.node
  ⟨.follow, 163, 39, 33, 4, 0, false⟩ (.node ⟨.track, 97, 19, 26, 0, 5, false⟩ .none .none) .none)
  (.node ⟨.run, 0, 13, 40, 4, 0, false⟩ (.node ⟨.track, 241, 53, 7, 0, 4, false⟩ .none .none)
  .none)) (.node ⟨.follow, 131, 49, 50, 3, 0, false⟩ (.node ⟨.come, 147, 53, 31, 5, 0, false⟩
  (.node ⟨.track, 52, 22, 0, 0, 48, false⟩ .none .none) .none) (.node
  ⟨.run, 0, 36, 64, 6, 0, false⟩ (.node ⟨.track, 255, 75, 46, 0, 5, false⟩ .none .none) .none)))))
  (.node ⟨.track, 1, 8, 0, 0, 20, false⟩ (.node ⟨.track, 26, 12, 3, 0, 4, false⟩ (.node
  ⟨.late, 0, 20, 0, 0, 71, true⟩ (.node ⟨.low, 0, 0, 38, 73, 0, false⟩ (.node
  ⟨.follow, 125, 17, 46, 4, 0, false⟩ (.node ⟨.come, 179, 39, 37, 7, 0, false⟩ .none .none) (.node
  ⟨.come, 77, 41, 53, 7, 0, false⟩ .none .none)) (.node ⟨.follow, 93, 39, 41, 4, 0, false⟩ (.node
  ⟨.track, 233, 68, 35, 0, 4, false⟩ .none .none) .none)) (.node ⟨.come, 114, 46, 32, 6, 0, false⟩
  (.node ⟨.come, 146, 53, 39, 5, 0, false⟩ (.node ⟨.come, 175, 59, 33, 5, 0, false⟩ .none .none)
  .none) (.node ⟨.come, 204, 36, 38, 6, 0, false⟩ (.node ⟨.low, 0, 0, 32, 23, 0, false⟩ .none
  .none) .none))) (.node ⟨.late, 0, 28, 0, 0, 13, true⟩ (.node ⟨.track, 96, 20, 23, 0, 5, false⟩
  (.node ⟨.come, 161, 53, 33, 5, 0, false⟩ (.node ⟨.come, 223, 41, 38, 7, 0, false⟩ .none .none)
  (.node ⟨.follow, 19, 57, 7, 2, 0, false⟩ .none .none)) (.node ⟨.follow, 25, 10, 12, 3, 0, false⟩
  (.node ⟨.come, 246, 33, 37, 6, 0, false⟩ .none .none) .none)) (.node
  ⟨.track, 132, 50, 48, 0, 4, false⟩ (.node ⟨.come, 148, 31, 53, 7, 0, false⟩ (.node
  ⟨.low, 0, 0, 70, 37, 0, false⟩ .none .none) .none) (.node ⟨.follow, 45, 20, 19, 4, 0, false⟩
  (.node ⟨.follow, 241, 53, 34, 2, 0, false⟩ .none .none) .none)))) (.node
  ⟨.low, 0, 0, 15, 45, 0, false⟩ (.node ⟨.track, 56, 24, 0, 0, 53, false⟩ (.node
  ⟨.track, 90, 29, 42, 0, 5, false⟩ (.node ⟨.follow, 134, 30, 28, 2, 0, false⟩ (.node
  ⟨.late, 0, 36, 0, 0, 82, true⟩ .none .none) (.node ⟨.follow, 37, 77, 65, 4, 0, false⟩ .none
  .none)) (.node ⟨.track, 184, 37, 58, 0, 4, false⟩ (.node ⟨.late, 0, 46, 0, 0, 22, true⟩ .none
  .none) .none)) (.node ⟨.come, 128, 30, 18, 5, 0, false⟩ (.node ⟨.track, 36, 55, 60, 0, 4, false⟩
  (.node ⟨.come, 83, 39, 38, 7, 0, false⟩ .none .none) .none) (.node
  ⟨.come, 206, 19, 63, 7, 0, false⟩ (.node ⟨.follow, 184, 37, 59, 3, 0, false⟩ .none .none)
  .none))) (.node ⟨.come, 70, 33, 34, 6, 0, false⟩ (.node ⟨.low, 0, 0, 46, 22, 0, false⟩ (.node
  ⟨.come, 159, 33, 35, 6, 0, false⟩ (.node ⟨.track, 13, 5, 0, 0, 80, false⟩ .none .none) .none)
  (.node ⟨.track, 198, 63, 12, 0, 4, false⟩ (.node ⟨.come, 80, 29, 59, 7, 0, false⟩ .none .none)
  .none)) (.node ⟨.follow, 133, 28, 30, 3, 0, false⟩ (.node ⟨.late, 0, 33, 0, 0, 52, true⟩ (.node
  ⟨.follow, 34, 72, 61, 3, 0, false⟩ .none .none) .none) (.node ⟨.track, 214, 65, 66, 0, 4, false⟩
  (.node ⟨.track, 244, 71, 33, 0, 5, false⟩ .none .none) .none)))))))

/-- some of the cases -/
def ko2Case0 : CaseTree :=
  .cases 69 (.cases 74 (.cycle [358, 359, 134, 355, 352, 351, 180, 170, 171, 315, 300]) (.cases 123
  (.cases 73 (.cases 78 (.cases 84 (.cycle [299, 165, 186, 300]) (.cycle [161, 162, 163])) (.cycle
  [358, 359, 134, 355, 352, 353, 159, 320, 171, 315, 300])) (.cycle [299, 315, 182, 148])) (.cycle
  [64, 348, 350, 315, 300]))) (.cases 73 (.cases 123 (.cases 70 (.cases 79 (.cycle
  [61, 158, 197, 300]) (.cases 71 (.cycle [358, 359, 134, 355, 352, 353, 146, 313, 314]) (.cases 81
  (.cases 85 (.cycle [358, 359, 134, 355, 352, 353, 197, 193, 189, 154, 190]) (.cases 87 (.cycle
  [358, 359, 134, 355, 352, 353, 197, 295, 187, 294, 190]) (.cases 74 (.cycle
  [358, 359, 134, 355, 352, 351, 183, 197, 295, 154, 293, 188]) (.cycle
  [358, 359, 134, 355, 352, 353, 149, 186, 295, 154, 293, 188])))) (.cycle
  [358, 359, 134, 355, 352, 353, 197, 191, 151, 84])))) (.cycle
  [358, 359, 134, 355, 352, 351, 186, 145, 192])) (.cycle [64, 348, 351, 186, 300])) (.cases 72
  (.cases 71 (.cycle [61, 196, 295, 195, 148]) (.cases 70 (.cases 85 (.cycle [299, 189, 195, 148])
  (.cases 84 (.cycle [200, 187, 165, 148]) (.cases 123 (.cycle
  [358, 359, 134, 355, 352, 353, 197, 295, 195, 148]) (.cases 87 (.cycle [200, 195, 210, 294, 190])
  (.cases 81 (.cases 80 (.cycle [200, 195, 150, 293, 188]) (.cycle [200, 154, 147, 148])) (.cycle
  [64, 348, 337, 191, 265, 195, 148])))))) (.cycle
  [358, 359, 134, 355, 352, 337, 145, 184, 195, 148]))) (.cases 80 (.cases 81 (.cases 123
  (.cases 70 (.cycle [358, 359, 134, 355, 352, 353, 197, 182, 166, 154, 190]) (.cases 74 (.cases 75
  (.cycle [358, 359, 134, 355, 352, 337, 182, 183, 184, 176, 177, 178, 179]) (.cases 82 (.cycle
  [155, 156, 157]) (.cycle [152, 153, 154]))) (.cases 75 (.cycle
  [358, 359, 134, 355, 352, 337, 145, 149, 166, 176, 177, 178, 179]) (.cases 82 (.cycle
  [155, 156, 157]) (.cycle [152, 153, 154]))))) (.cases 75 (.cycle
  [64, 348, 337, 182, 166, 176, 177, 178, 179]) (.cases 82 (.cycle [155, 156, 157]) (.cycle
  [152, 153, 154])))) (.cycle [358, 359, 134, 355, 352, 337, 182, 150, 151, 84])) (.cases 74
  (.cycle [61, 147, 180, 181]) (.cases 87 (.cycle
  [358, 359, 134, 355, 352, 337, 193, 294, 147, 148]) (.cases 83 (.cycle [61, 293, 194, 192])
  (.cases 84 (.cases 71 (.cycle [61, 196, 193, 165, 148]) (.cases 123 (.cases 70 (.cycle
  [358, 359, 134, 355, 352, 353, 197, 193, 165, 148]) (.cases 79 (.cycle
  [61, 158, 164, 165, 166, 168, 87]) (.cycle [33, 134, 355, 352, 337, 145, 146, 293, 165, 148])))
  (.cycle [64, 348, 337, 191, 293, 165, 148]))) (.cases 123 (.cases 70 (.cases 121 (.cases 71
  (.cases 79 (.cycle [61, 158, 197, 300]) (.cycle [358, 359, 134, 355, 352, 353, 146, 313, 314]))
  (.cycle [341, 191, 152])) (.cycle
  [358, 359, 134, 355, 352, 353, 197, 316, 382, 147, 166, 168, 87])) (.cases 79 (.cases 78 (.cycle
  [161, 162, 163]) (.cycle [61, 158, 159, 160, 20])) (.cycle
  [358, 359, 134, 355, 352, 337, 145, 146, 147, 148]))) (.cases 85 (.cases 71 (.cycle
  [61, 196, 182, 210, 189, 168, 87]) (.cycle [64, 348, 337, 191, 147, 210, 189, 168, 87])) (.cycle
  [64, 348, 337, 182, 166, 187, 188]))))))))))

/-- some of the cases -/
def ko2Case1 : CaseTree :=
  .cases 75 (.cycle [299, 315, 316, 317, 318, 178, 179]) (.cases 87 (.cases 71 (.cycle
  [299, 294, 196, 300]) (.cases 81 (.cases 82 (.cycle [155, 156, 157]) (.cycle [152, 153, 154]))
  (.cycle [299, 315, 191, 151, 84]))) (.cycle [61, 293, 315, 300]))

/-- some of the cases -/
def ko2Case2 : CaseTree :=
  .cases 91 (.cases 95 (.cases 89 (.cases 92 (.cycle [61, 196, 193, 189, 262, 263, 77]) (.cases 93
  (.cases 111 (.cases 100 (.cases 101 (.cases 103 (.cycle
  [358, 359, 134, 137, 336, 202, 149, 150, 196, 193, 189, 198, 219, 235, 246, 247, 248]) (.cases 96
  (.cases 94 (.cases 105 (.cases 99 (.cases 108 (.cases 104 (.cycle
  [61, 196, 193, 189, 198, 219, 225, 231, 244, 245, 252, 270]) (.cycle
  [61, 196, 193, 189, 198, 219, 225, 242, 243, 38])) (.cycle
  [61, 196, 193, 189, 198, 219, 225, 231, 236, 249, 90])) (.cycle
  [61, 196, 193, 189, 198, 219, 225, 232, 228, 38])) (.cycle [240, 241, 218])) (.cycle
  [61, 196, 193, 189, 198, 278, 297, 69])) (.cycle [61, 196, 193, 189, 198, 219, 220, 221, 29])))
  (.cycle [67, 230, 231, 38])) (.cycle
  [358, 359, 134, 137, 336, 202, 149, 150, 196, 193, 189, 198, 219, 235, 229, 74])) (.cycle
  [70, 271, 219, 69])) (.cycle [61, 196, 193, 189, 198, 211, 212, 69]))) (.cycle
  [61, 196, 193, 208, 205, 168, 87])) (.cycle [216, 217, 218])) (.cycle [206, 203, 204])

/-- some of the cases -/
def ko2Case3 : CaseTree :=
  .cases 95 (.cases 93 (.cases 91 (.cases 92 (.cases 104 (.cases 97 (.cases 103 (.cases 99
  (.cases 100 (.cases 102 (.cycle [276, 257, 247, 248]) (.cases 112 (.cycle [36, 238, 289, 248])
  (.cases 111 (.cycle [61, 196, 295, 187, 208, 263, 278, 231, 246, 247, 248]) (.cases 110 (.cycle
  [36, 247, 281, 269, 270]) (.cases 108 (.cases 109 (.cycle [36, 247, 267, 268, 239]) (.cycle
  [36, 252, 266, 248])) (.cycle [70, 271, 211, 236, 290, 247, 248])))))) (.cycle
  [61, 196, 295, 187, 208, 263, 211, 229, 237, 247, 248])) (.cycle [67, 228, 246, 247, 248]))
  (.cases 106 (.cycle
  [358, 359, 134, 137, 336, 202, 149, 150, 196, 295, 187, 208, 263, 211, 244, 245, 258, 259, 260, 261])
  (.cases 99 (.cases 109 (.cases 108 (.cases 107 (.cycle [253, 254, 255]) (.cycle [250, 251, 252]))
  (.cycle [61, 196, 295, 187, 208, 263, 211, 244, 267, 249, 90])) (.cases 105 (.cases 110 (.cycle
  [61, 196, 295, 187, 208, 263, 211, 256, 269, 266, 248]) (.cases 102 (.cases 98 (.cases 112
  (.cases 111 (.cases 100 (.cycle [200, 187, 208, 263, 278, 231, 236, 268, 289, 248]) (.cases 101
  (.cycle [200, 187, 208, 263, 211, 229, 232, 268, 289, 248]) (.cycle
  [67, 230, 226, 289, 245, 282, 283]))) (.cycle [70, 271, 211, 236, 268, 289, 248])) (.cases 113
  (.cycle [218, 287, 288]) (.cases 111 (.cases 100 (.cycle
  [61, 196, 295, 187, 208, 263, 278, 231, 236, 266, 248]) (.cases 101 (.cycle
  [61, 196, 295, 187, 208, 263, 211, 229, 232, 266, 248]) (.cycle [67, 230, 284, 285, 286])))
  (.cycle [70, 271, 211, 236, 266, 281, 257, 282, 283])))) (.cycle [67, 268, 277, 74])) (.cycle
  [358, 359, 134, 137, 336, 202, 149, 150, 196, 295, 187, 208, 263, 211, 236, 266, 245, 238, 239])))
  (.cycle [67, 266, 240, 280]))) (.cases 112 (.cycle [67, 228, 256, 289, 248]) (.cases 102 (.cycle
  [67, 228, 244, 281, 257, 282, 283]) (.cycle [67, 228, 244, 245, 238, 239])))))) (.cycle
  [276, 227, 244, 248])) (.cases 111 (.cases 100 (.cases 105 (.cycle
  [61, 196, 295, 187, 208, 263, 278, 242, 243, 38]) (.cycle
  [358, 359, 134, 137, 336, 202, 149, 150, 196, 295, 187, 208, 263, 272, 279, 231, 38])) (.cycle
  [61, 196, 295, 187, 208, 263, 272, 243, 229, 74])) (.cycle [70, 271, 272, 243, 38]))) (.cases 96
  (.cases 99 (.cases 111 (.cases 100 (.cases 103 (.cycle
  [358, 359, 134, 137, 336, 202, 149, 150, 196, 295, 187, 264, 278, 231, 246, 247, 248]) (.cases 94
  (.cases 105 (.cases 108 (.cases 104 (.cycle
  [61, 196, 295, 187, 264, 219, 225, 231, 244, 245, 252, 270]) (.cycle
  [61, 196, 295, 187, 264, 219, 225, 242, 243, 38])) (.cycle
  [61, 196, 295, 187, 264, 219, 225, 231, 236, 249, 90])) (.cycle [240, 241, 218])) (.cycle
  [61, 196, 295, 187, 264, 278, 297, 69]))) (.cycle
  [358, 359, 134, 137, 336, 202, 149, 150, 196, 295, 187, 264, 219, 235, 229, 74])) (.cycle
  [70, 271, 219, 69])) (.cycle
  [358, 359, 134, 137, 336, 202, 149, 150, 196, 295, 187, 264, 219, 301, 233, 234])) (.cycle
  [61, 196, 295, 187, 264, 219, 220, 221, 29]))) (.cycle [206, 203, 204])) (.cycle
  [61, 196, 295, 187, 264, 211, 212, 69])) (.cycle [216, 217, 218])

/-- some of the cases -/
def ko2Case4 : CaseTree :=
  .cases 75 (.cycle [185, 186, 193, 189, 176, 177, 178, 179]) (.cases 82 (.cycle [155, 156, 157])
  (.cycle [152, 153, 154]))

/-- some of the cases -/
def ko2Case5 : CaseTree :=
  .cases 115 (.cycle [310, 311, 312, 140, 197, 295, 187, 294, 190]) (.cases 114 (.cycle
  [307, 308, 309]) (.cases 74 (.cycle [180, 303, 161]) (.cycle
  [358, 359, 134, 137, 336, 202, 149, 186, 295, 187, 294, 167, 87])))

/-- some of the cases -/
def ko2Case6 : CaseTree :=
  .cases 94 (.cases 104 (.cases 97 (.cases 103 (.cases 99 (.cases 100 (.cases 102 (.cycle
  [276, 257, 247, 248]) (.cases 112 (.cycle [36, 238, 289, 248]) (.cases 111 (.cycle
  [200, 154, 293, 208, 263, 278, 231, 246, 247, 248]) (.cases 110 (.cycle [36, 247, 281, 269, 270])
  (.cases 108 (.cases 109 (.cycle [36, 247, 267, 268, 239]) (.cycle [36, 252, 266, 248])) (.cycle
  [70, 271, 211, 236, 290, 247, 248])))))) (.cycle
  [200, 154, 293, 208, 263, 211, 229, 237, 247, 248])) (.cycle [67, 228, 246, 247, 248]))
  (.cases 74 (.cases 114 (.cases 105 (.cases 98 (.cases 111 (.cases 100 (.cycle
  [304, 305, 140, 197, 295, 154, 293, 208, 263, 278, 231, 38]) (.cases 113 (.cases 112 (.cycle
  [304, 305, 140, 197, 295, 154, 293, 208, 263, 211, 229, 226, 289, 245, 282, 283]) (.cycle
  [218, 287, 288])) (.cycle
  [304, 305, 140, 197, 295, 154, 293, 208, 263, 211, 229, 284, 285, 286]))) (.cycle
  [304, 305, 140, 197, 295, 154, 293, 208, 225, 271, 77])) (.cycle [222, 223, 224])) (.cycle
  [304, 305, 140, 197, 295, 154, 293, 208, 263, 211, 244, 240, 280])) (.cycle [180, 303, 161]))
  (.cases 99 (.cases 111 (.cases 100 (.cycle
  [358, 359, 134, 137, 336, 202, 149, 186, 295, 154, 293, 208, 263, 278, 231, 244, 245, 282, 283])
  (.cases 105 (.cases 102 (.cases 98 (.cases 113 (.cases 101 (.cases 108 (.cases 112 (.cycle
  [200, 154, 293, 208, 263, 211, 229, 226, 289, 245, 252, 270]) (.cycle [218, 287, 288])) (.cycle
  [200, 154, 293, 208, 263, 211, 229, 232, 249, 90])) (.cases 112 (.cycle
  [67, 230, 226, 289, 245, 282, 283]) (.cycle [218, 287, 288]))) (.cases 112 (.cycle
  [387, 388, 224]) (.cases 107 (.cycle
  [200, 154, 293, 208, 263, 211, 229, 242, 281, 257, 258, 255, 327]) (.cases 108 (.cycle
  [250, 251, 252]) (.cases 101 (.cycle [200, 154, 293, 208, 263, 211, 229, 232, 249, 90]) (.cycle
  [67, 230, 284, 285, 286])))))) (.cycle [222, 223, 224])) (.cycle
  [358, 359, 134, 137, 336, 202, 149, 186, 295, 154, 293, 208, 263, 211, 229, 242, 245, 238, 239]))
  (.cases 98 (.cases 109 (.cases 108 (.cases 110 (.cases 102 (.cycle
  [358, 359, 134, 137, 336, 202, 149, 186, 295, 154, 293, 208, 263, 211, 244, 279, 226, 257, 252, 270])
  (.cycle [200, 154, 293, 208, 263, 211, 244, 279, 237, 238, 269, 270])) (.cycle
  [200, 154, 293, 208, 263, 211, 244, 279, 237, 252, 268, 239])) (.cycle
  [200, 154, 293, 208, 263, 211, 244, 267, 249, 90])) (.cycle [67, 266, 240, 280])) (.cycle
  [222, 223, 224])))) (.cases 102 (.cases 112 (.cases 107 (.cycle
  [70, 271, 211, 256, 289, 245, 258, 255, 327]) (.cases 108 (.cycle [250, 251, 252]) (.cases 110
  (.cycle [70, 271, 211, 256, 269, 249, 90]) (.cycle [70, 271, 211, 236, 268, 289, 248]))))
  (.cases 107 (.cycle [70, 271, 211, 244, 281, 257, 258, 255, 327]) (.cases 108 (.cycle
  [250, 251, 252]) (.cases 109 (.cycle [70, 271, 211, 244, 267, 249, 90]) (.cycle
  [70, 271, 211, 236, 266, 281, 257, 282, 283]))))) (.cycle [70, 271, 211, 244, 245, 238, 239])))
  (.cases 112 (.cycle [67, 228, 256, 289, 248]) (.cases 102 (.cycle
  [67, 228, 244, 281, 257, 282, 283]) (.cycle [67, 228, 244, 245, 238, 239])))))) (.cycle
  [276, 227, 244, 248])) (.cases 115 (.cycle
  [310, 311, 312, 140, 197, 295, 154, 293, 208, 263, 272, 243, 38]) (.cases 114 (.cycle
  [307, 308, 309]) (.cases 74 (.cycle [180, 303, 161]) (.cases 111 (.cases 100 (.cases 105 (.cycle
  [200, 154, 293, 208, 263, 278, 242, 243, 38]) (.cycle
  [358, 359, 134, 137, 336, 202, 149, 186, 295, 154, 293, 208, 263, 272, 279, 231, 38])) (.cycle
  [200, 154, 293, 208, 263, 272, 243, 229, 74])) (.cycle [70, 271, 272, 243, 38])))))) (.cycle
  [70, 297, 263, 77])

/-- some of the cases -/
def ko2Case7 : CaseTree :=
  .cases 115 (.cycle [310, 311, 312, 140, 197, 295, 154, 293, 264, 219, 69]) (.cases 114 (.cycle
  [307, 308, 309]) (.cases 96 (.cases 74 (.cycle [180, 303, 161]) (.cases 99 (.cases 111
  (.cases 100 (.cases 103 (.cycle
  [358, 359, 134, 137, 336, 202, 149, 186, 295, 154, 293, 264, 278, 231, 246, 247, 248]) (.cases 94
  (.cases 105 (.cases 108 (.cases 104 (.cycle
  [200, 154, 293, 264, 219, 225, 231, 244, 245, 252, 270]) (.cycle
  [200, 154, 293, 264, 219, 225, 242, 243, 38])) (.cycle
  [200, 154, 293, 264, 219, 225, 231, 236, 249, 90])) (.cycle [240, 241, 218])) (.cycle
  [200, 154, 293, 264, 278, 297, 69]))) (.cycle
  [358, 359, 134, 137, 336, 202, 149, 186, 295, 154, 293, 264, 219, 235, 229, 74])) (.cycle
  [70, 271, 219, 69])) (.cycle
  [358, 359, 134, 137, 336, 202, 149, 186, 295, 154, 293, 264, 219, 301, 233, 234]))) (.cycle
  [200, 154, 293, 264, 219, 220, 221, 29])))

/-- some of the cases -/
def ko2Case8 : CaseTree :=
  .cases 87 (.cycle [82, 199, 294, 190]) (.cases 77 (.cycle [82, 173, 293, 188]) (.cases 115
  (.cycle [310, 311, 312, 140, 197, 295, 154, 306, 199, 188]) (.cases 114 (.cycle [307, 308, 309])
  (.cases 74 (.cycle [180, 303, 161]) (.cycle
  [358, 359, 134, 137, 336, 202, 149, 186, 295, 154, 306, 199, 188])))))

/-- some of the cases -/
def ko2Case9 : CaseTree :=
  .cases 91 (.cases 95 (.cases 89 (.cases 92 (.cycle [185, 186, 191, 293, 189, 262, 263, 77])
  (.cases 93 (.cases 111 (.cases 100 (.cases 101 (.cases 103 (.cycle
  [358, 359, 134, 137, 336, 202, 149, 186, 191, 293, 189, 198, 219, 235, 246, 247, 248]) (.cases 96
  (.cases 94 (.cases 105 (.cases 99 (.cases 108 (.cases 104 (.cycle
  [185, 186, 191, 293, 189, 198, 219, 225, 231, 244, 245, 252, 270]) (.cycle
  [185, 186, 191, 293, 189, 198, 219, 225, 242, 243, 38])) (.cycle
  [185, 186, 191, 293, 189, 198, 219, 225, 231, 236, 249, 90])) (.cycle
  [185, 186, 191, 293, 189, 198, 219, 225, 232, 228, 38])) (.cycle [240, 241, 218])) (.cycle
  [185, 186, 191, 293, 189, 198, 278, 297, 69])) (.cycle
  [185, 186, 191, 293, 189, 198, 219, 220, 221, 29]))) (.cycle [67, 230, 231, 38])) (.cycle
  [358, 359, 134, 137, 336, 202, 149, 186, 191, 293, 189, 198, 219, 235, 229, 74])) (.cycle
  [185, 186, 191, 293, 189, 302, 271, 77])) (.cycle [185, 186, 191, 293, 189, 198, 211, 212, 69])))
  (.cycle [185, 186, 191, 293, 208, 205, 168, 87])) (.cycle [216, 217, 218])) (.cycle
  [206, 203, 204])

/-- some of the cases -/
def ko2Case10 : CaseTree :=
  .cases 95 (.cases 93 (.cases 91 (.cases 92 (.cases 104 (.cases 97 (.cases 103 (.cases 99
  (.cases 100 (.cases 102 (.cycle [276, 257, 247, 248]) (.cases 112 (.cycle [36, 238, 289, 248])
  (.cases 111 (.cycle [185, 186, 191, 265, 187, 208, 263, 278, 231, 246, 247, 248]) (.cases 110
  (.cycle [36, 247, 281, 269, 270]) (.cases 108 (.cases 109 (.cycle [36, 247, 267, 268, 239])
  (.cycle [36, 252, 266, 248])) (.cycle [70, 271, 211, 236, 290, 247, 248])))))) (.cycle
  [185, 186, 191, 265, 187, 208, 263, 211, 229, 237, 247, 248])) (.cycle [67, 228, 246, 247, 248]))
  (.cases 106 (.cycle
  [358, 359, 134, 137, 336, 202, 149, 186, 191, 265, 187, 208, 263, 211, 244, 245, 258, 259, 260, 261])
  (.cases 99 (.cases 109 (.cases 108 (.cases 107 (.cycle [253, 254, 255]) (.cycle [250, 251, 252]))
  (.cycle [185, 186, 191, 265, 187, 208, 263, 211, 244, 267, 249, 90])) (.cases 105 (.cases 110
  (.cycle [185, 186, 191, 265, 187, 208, 263, 211, 256, 269, 266, 248]) (.cases 102 (.cases 98
  (.cases 112 (.cases 111 (.cases 101 (.cycle
  [185, 186, 191, 265, 187, 208, 263, 278, 232, 268, 289, 248]) (.cycle
  [67, 230, 226, 289, 245, 282, 283])) (.cycle [70, 271, 211, 236, 268, 289, 248])) (.cases 113
  (.cycle [218, 287, 288]) (.cases 111 (.cases 100 (.cycle
  [185, 186, 191, 265, 187, 208, 263, 278, 231, 236, 266, 248]) (.cases 101 (.cycle
  [185, 186, 191, 265, 187, 208, 263, 211, 229, 232, 266, 248]) (.cycle [67, 230, 284, 285, 286])))
  (.cycle [70, 271, 211, 236, 266, 281, 257, 282, 283])))) (.cycle [67, 268, 277, 74])) (.cycle
  [358, 359, 134, 137, 336, 202, 149, 186, 191, 265, 187, 208, 263, 211, 236, 266, 245, 238, 239])))
  (.cycle [67, 266, 240, 280]))) (.cases 112 (.cycle [67, 228, 256, 289, 248]) (.cases 102 (.cycle
  [67, 228, 244, 281, 257, 282, 283]) (.cycle [67, 228, 244, 245, 238, 239])))))) (.cycle
  [276, 227, 244, 248])) (.cases 111 (.cases 100 (.cases 105 (.cycle
  [185, 186, 191, 265, 187, 208, 263, 278, 242, 243, 38]) (.cycle
  [358, 359, 134, 137, 336, 202, 149, 186, 191, 265, 187, 208, 263, 272, 279, 231, 38])) (.cycle
  [185, 186, 191, 265, 187, 208, 263, 272, 243, 229, 74])) (.cycle [70, 271, 272, 243, 38])))
  (.cases 96 (.cases 99 (.cases 111 (.cases 100 (.cases 103 (.cycle
  [358, 359, 134, 137, 336, 202, 149, 186, 191, 265, 187, 264, 278, 231, 246, 247, 248]) (.cases 94
  (.cases 105 (.cases 108 (.cases 104 (.cycle
  [185, 186, 191, 265, 187, 264, 219, 225, 231, 244, 245, 252, 270]) (.cycle
  [185, 186, 191, 265, 187, 264, 219, 225, 242, 243, 38])) (.cycle
  [185, 186, 191, 265, 187, 264, 219, 225, 231, 236, 249, 90])) (.cycle [240, 241, 218])) (.cycle
  [185, 186, 191, 265, 187, 264, 278, 297, 69]))) (.cycle
  [358, 359, 134, 137, 336, 202, 149, 186, 191, 265, 187, 264, 219, 235, 229, 74])) (.cycle
  [70, 271, 219, 69])) (.cycle
  [358, 359, 134, 137, 336, 202, 149, 186, 191, 265, 187, 264, 219, 301, 233, 234])) (.cycle
  [185, 186, 191, 265, 187, 264, 219, 220, 221, 29]))) (.cycle [206, 203, 204])) (.cycle
  [185, 186, 191, 265, 187, 264, 211, 212, 69])) (.cycle [216, 217, 218])

/-- some of the cases -/
def ko2Case11 : CaseTree :=
  .cases 71 (.cycle [61, 196, 193, 165, 148]) (.cases 85 (.cases 72 (.cycle [299, 189, 195, 148])
  (.cases 82 (.cycle [358, 359, 134, 137, 336, 202, 197, 193, 165, 166, 176, 157, 345]) (.cases 81
  (.cycle [152, 153, 154]) (.cases 87 (.cycle [64, 197, 193, 294, 151, 84]) (.cases 89 (.cases 92
  (.cycle [358, 359, 134, 137, 336, 202, 197, 191, 293, 165, 166, 262, 263, 77]) (.cases 93
  (.cases 111 (.cases 100 (.cases 101 (.cases 103 (.cycle
  [358, 359, 134, 137, 336, 202, 197, 191, 293, 165, 166, 198, 219, 235, 246, 247, 248]) (.cases 94
  (.cases 95 (.cases 105 (.cases 99 (.cases 108 (.cases 104 (.cycle
  [61, 293, 165, 166, 198, 219, 225, 231, 244, 245, 252, 270]) (.cycle
  [358, 359, 134, 137, 336, 202, 197, 191, 293, 165, 166, 198, 219, 225, 242, 243, 38])) (.cycle
  [61, 293, 165, 166, 198, 219, 225, 231, 236, 249, 90])) (.cycle
  [61, 293, 165, 166, 198, 219, 225, 232, 233, 234])) (.cycle
  [358, 359, 134, 137, 336, 202, 197, 191, 293, 165, 166, 198, 219, 298, 279, 231, 38])) (.cycle
  [216, 217, 218])) (.cycle
  [358, 359, 134, 137, 336, 202, 197, 191, 293, 165, 166, 198, 278, 297, 69]))) (.cycle
  [67, 230, 231, 38])) (.cycle
  [358, 359, 134, 137, 336, 202, 197, 191, 293, 165, 166, 198, 219, 235, 229, 74])) (.cycle
  [70, 271, 219, 69])) (.cycle [61, 293, 165, 166, 198, 211, 212, 69]))) (.cycle
  [358, 359, 134, 137, 336, 202, 197, 191, 293, 165, 296, 205, 168, 87])))))) (.cycle
  [200, 187, 165, 148]))

/-- some of the cases -/
def ko2Case12 : CaseTree :=
  .cases 72 (.cycle [61, 196, 295, 195, 148]) (.cases 85 (.cycle [61, 196, 182, 210, 189, 168, 87])
  (.cycle [61, 196, 182, 166, 187, 188]))

/-- some of the cases -/
def ko2Case13 : CaseTree :=
  .cases 81 (.cases 72 (.cycle [200, 195, 210, 294, 190]) (.cases 85 (.cases 75 (.cycle
  [64, 197, 182, 210, 189, 176, 177, 178, 179]) (.cases 82 (.cycle [155, 156, 157]) (.cycle
  [152, 153, 154]))) (.cycle [64, 197, 182, 166, 187, 294, 190]))) (.cycle
  [64, 197, 182, 210, 294, 151, 84])

/-- some of the cases -/
def ko2Case14 : CaseTree :=
  .cases 81 (.cases 72 (.cycle [200, 195, 150, 293, 188]) (.cycle
  [358, 359, 134, 137, 336, 202, 197, 182, 166, 154, 293, 188])) (.cycle
  [64, 197, 182, 150, 151, 84])

/-- some of the cases -/
def ko2Case15 : CaseTree :=
  .cases 104 (.cases 97 (.cases 103 (.cases 99 (.cases 100 (.cases 102 (.cycle
  [276, 257, 247, 248]) (.cases 112 (.cycle [36, 238, 289, 248]) (.cases 111 (.cycle
  [200, 195, 273, 274, 275, 263, 278, 231, 246, 247, 248]) (.cases 110 (.cycle
  [36, 247, 281, 269, 270]) (.cases 108 (.cases 109 (.cycle [36, 247, 267, 268, 239]) (.cycle
  [36, 252, 266, 248])) (.cycle [70, 271, 211, 236, 290, 247, 248])))))) (.cycle
  [200, 195, 273, 274, 275, 263, 211, 229, 237, 247, 248])) (.cycle [67, 228, 246, 247, 248]))
  (.cases 109 (.cases 108 (.cases 111 (.cases 100 (.cycle
  [200, 195, 273, 274, 275, 263, 278, 231, 244, 245, 252, 270]) (.cases 105 (.cases 106 (.cycle
  [200, 195, 273, 274, 275, 263, 211, 229, 242, 245, 258, 259, 260, 261]) (.cases 107 (.cycle
  [253, 254, 255]) (.cycle [250, 251, 252]))) (.cases 106 (.cycle
  [200, 195, 273, 274, 275, 263, 211, 244, 279, 237, 258, 259, 260, 261]) (.cases 107 (.cycle
  [253, 254, 255]) (.cycle [250, 251, 252]))))) (.cases 106 (.cycle
  [70, 271, 211, 244, 245, 258, 259, 260, 261]) (.cases 107 (.cycle [253, 254, 255]) (.cycle
  [250, 251, 252])))) (.cycle [200, 195, 273, 274, 275, 263, 211, 244, 267, 249, 90])) (.cases 105
  (.cases 110 (.cycle [200, 195, 273, 274, 275, 263, 211, 256, 269, 266, 248]) (.cases 98
  (.cases 112 (.cases 99 (.cases 111 (.cases 101 (.cycle
  [358, 359, 134, 137, 336, 202, 197, 191, 265, 195, 273, 274, 275, 263, 278, 232, 268, 289, 248])
  (.cycle [67, 230, 226, 289, 245, 282, 283])) (.cycle [70, 271, 211, 236, 268, 289, 248])) (.cycle
  [67, 228, 256, 289, 248])) (.cases 111 (.cases 113 (.cycle [218, 287, 288]) (.cases 101
  (.cases 102 (.cycle
  [358, 359, 134, 137, 336, 202, 197, 191, 265, 195, 273, 274, 275, 263, 278, 232, 266, 281, 257, 282, 283])
  (.cycle [200, 195, 273, 274, 275, 263, 278, 232, 266, 245, 238, 239])) (.cycle
  [67, 230, 284, 285, 286]))) (.cases 102 (.cases 99 (.cycle
  [70, 271, 211, 236, 266, 281, 257, 282, 283]) (.cycle [67, 228, 244, 281, 257, 282, 283]))
  (.cycle [70, 271, 211, 244, 245, 238, 239])))) (.cycle [67, 268, 277, 74]))) (.cycle
  [67, 266, 240, 280])))) (.cycle [276, 227, 244, 248])) (.cases 111 (.cases 100 (.cases 101
  (.cases 105 (.cycle
  [358, 359, 134, 137, 336, 202, 197, 191, 265, 195, 273, 274, 275, 263, 278, 242, 243, 38])
  (.cases 98 (.cases 99 (.cases 108 (.cases 97 (.cases 110 (.cycle
  [358, 359, 134, 137, 336, 202, 197, 191, 265, 195, 273, 274, 275, 263, 272, 279, 231, 256, 269, 270])
  (.cycle [200, 195, 273, 274, 275, 263, 272, 279, 231, 246, 252, 268, 239])) (.cycle
  [358, 359, 134, 137, 336, 202, 197, 191, 265, 195, 273, 274, 275, 263, 278, 226, 227, 38]))
  (.cycle [200, 195, 273, 274, 275, 263, 278, 231, 236, 249, 90])) (.cycle
  [358, 359, 134, 137, 336, 202, 197, 191, 265, 195, 273, 274, 275, 263, 278, 232, 228, 38]))
  (.cycle [276, 277, 231, 38]))) (.cycle [67, 230, 231, 38])) (.cycle
  [200, 195, 273, 274, 275, 263, 272, 243, 229, 74])) (.cycle [70, 271, 272, 243, 38]))

/-- some of the cases -/
def ko2Case16 : CaseTree :=
  .cases 96 (.cases 111 (.cases 94 (.cases 97 (.cases 99 (.cases 101 (.cases 102 (.cases 107
  (.cycle
  [358, 359, 134, 137, 336, 202, 197, 191, 265, 195, 210, 264, 219, 235, 256, 257, 258, 255, 327])
  (.cases 108 (.cycle [250, 251, 252]) (.cases 100 (.cycle
  [200, 195, 210, 264, 219, 225, 231, 236, 249, 90]) (.cycle
  [200, 195, 210, 264, 219, 235, 229, 232, 249, 90])))) (.cases 100 (.cases 109 (.cases 110 (.cycle
  [200, 195, 210, 264, 219, 225, 231, 246, 238, 269, 270]) (.cases 104 (.cycle
  [200, 195, 210, 264, 219, 225, 231, 244, 267, 268, 239]) (.cases 105 (.cycle
  [358, 359, 134, 137, 336, 202, 197, 191, 265, 195, 210, 264, 219, 225, 242, 243, 38]) (.cycle
  [240, 241, 218])))) (.cycle [200, 195, 210, 264, 219, 225, 231, 236, 266, 248])) (.cycle
  [200, 195, 210, 264, 219, 235, 229, 237, 238, 239]))) (.cycle
  [200, 195, 210, 264, 219, 235, 236, 230, 74])) (.cases 100 (.cases 101 (.cycle
  [358, 359, 134, 137, 336, 202, 197, 191, 265, 195, 210, 264, 219, 225, 232, 228, 38]) (.cycle
  [67, 230, 231, 38])) (.cycle [67, 228, 229, 74]))) (.cases 98 (.cycle
  [358, 359, 134, 137, 336, 202, 197, 191, 265, 195, 210, 264, 219, 225, 226, 227, 38]) (.cycle
  [222, 223, 224]))) (.cycle
  [358, 359, 134, 137, 336, 202, 197, 191, 265, 195, 210, 264, 278, 297, 69])) (.cycle
  [70, 271, 219, 69])) (.cycle
  [358, 359, 134, 137, 336, 202, 197, 191, 265, 195, 210, 264, 219, 220, 221, 29])

/-- some of the cases -/
def ko2Case17 : CaseTree :=
  .cases 85 (.cases 92 (.cycle
  [358, 359, 134, 137, 336, 202, 197, 191, 147, 210, 189, 262, 263, 77]) (.cases 93 (.cases 111
  (.cases 94 (.cases 95 (.cases 96 (.cases 97 (.cases 99 (.cases 101 (.cases 102 (.cases 107
  (.cycle
  [358, 359, 134, 137, 336, 202, 197, 191, 147, 210, 189, 198, 219, 235, 256, 257, 258, 255, 327])
  (.cases 108 (.cycle [250, 251, 252]) (.cases 100 (.cycle
  [358, 359, 134, 137, 336, 202, 197, 191, 147, 210, 189, 198, 219, 225, 231, 236, 249, 90])
  (.cycle [61, 147, 210, 189, 198, 219, 235, 229, 232, 249, 90])))) (.cases 100 (.cases 109
  (.cases 110 (.cycle [61, 147, 210, 189, 198, 219, 225, 231, 246, 238, 269, 270]) (.cases 104
  (.cycle [61, 147, 210, 189, 198, 219, 225, 231, 244, 267, 268, 239]) (.cases 105 (.cycle
  [358, 359, 134, 137, 336, 202, 197, 191, 147, 210, 189, 198, 219, 225, 242, 243, 38]) (.cycle
  [240, 241, 218])))) (.cycle
  [358, 359, 134, 137, 336, 202, 197, 191, 147, 210, 189, 198, 219, 225, 231, 236, 266, 248]))
  (.cycle
  [358, 359, 134, 137, 336, 202, 197, 191, 147, 210, 189, 198, 219, 235, 229, 237, 238, 239])))
  (.cycle [61, 147, 210, 189, 198, 219, 235, 236, 230, 74])) (.cases 100 (.cases 101 (.cycle
  [61, 147, 210, 189, 198, 219, 225, 232, 233, 234]) (.cycle [67, 230, 231, 38])) (.cycle
  [67, 228, 229, 74]))) (.cases 98 (.cycle
  [358, 359, 134, 137, 336, 202, 197, 191, 147, 210, 189, 198, 219, 225, 226, 227, 38]) (.cycle
  [222, 223, 224]))) (.cycle
  [358, 359, 134, 137, 336, 202, 197, 191, 147, 210, 189, 198, 219, 220, 221, 29])) (.cycle
  [216, 217, 218])) (.cycle
  [358, 359, 134, 137, 336, 202, 197, 191, 147, 210, 189, 198, 278, 297, 69])) (.cycle
  [70, 271, 219, 69])) (.cycle
  [358, 359, 134, 137, 336, 202, 197, 191, 147, 210, 189, 198, 211, 212, 69]))) (.cycle
  [358, 359, 134, 137, 336, 202, 197, 191, 147, 166, 187, 188])

/-- some of the cases -/
def ko2Case18 : CaseTree :=
  .cases 91 (.cycle [207, 208, 209]) (.cycle [206, 203, 204])

/-- some of the cases -/
def ko2Case19 : CaseTree :=
  .cases 72 (.cycle [200, 195, 201, 199, 188]) (.cycle [64, 197, 182, 166, 198, 199, 188])

/-- some of the cases -/
def ko2Case20 : CaseTree :=
  .cases 71 (.cycle [61, 196, 145, 192]) (.cases 72 (.cycle
  [358, 359, 134, 137, 336, 144, 145, 184, 195, 148]) (.cases 73 (.cases 83 (.cycle
  [185, 186, 193, 194, 192]) (.cases 79 (.cycle [185, 186, 191, 158, 192]) (.cases 85 (.cases 81
  (.cycle [185, 186, 145, 164, 189, 154, 190]) (.cycle [185, 186, 145, 146, 151, 84])) (.cycle
  [185, 186, 145, 184, 187, 188])))) (.cases 74 (.cases 75 (.cycle
  [358, 359, 134, 137, 336, 144, 182, 183, 184, 176, 177, 178, 179]) (.cases 80 (.cases 81
  (.cases 82 (.cycle [155, 156, 157]) (.cycle [152, 153, 154])) (.cycle
  [358, 359, 134, 137, 336, 144, 182, 150, 151, 84])) (.cycle [61, 147, 180, 181]))) (.cases 75
  (.cycle [358, 359, 134, 137, 336, 144, 145, 149, 166, 176, 177, 178, 179]) (.cases 76 (.cycle
  [155, 174, 175]) (.cases 77 (.cycle [152, 172, 173]) (.cases 78 (.cases 83 (.cycle
  [169, 170, 171]) (.cases 79 (.cases 84 (.cycle [61, 158, 164, 165, 166, 168, 87]) (.cycle
  [161, 162, 163])) (.cases 81 (.cases 84 (.cycle
  [358, 359, 134, 137, 336, 144, 145, 164, 165, 166, 154, 167, 87]) (.cycle [161, 162, 163]))
  (.cycle [358, 359, 134, 137, 336, 144, 145, 146, 151, 84])))) (.cases 79 (.cycle
  [61, 158, 159, 160, 20]) (.cases 80 (.cases 81 (.cases 82 (.cycle [155, 156, 157]) (.cycle
  [152, 153, 154])) (.cycle [33, 134, 137, 336, 144, 145, 149, 150, 151, 84])) (.cycle
  [358, 359, 134, 137, 336, 144, 145, 146, 147, 148]))))))))))

/-- some of the cases -/
def ko2Case21 : CaseTree :=
  .cases 80 (.cycle [58, 108, 339, 150, 158, 192]) (.cases 72 (.cycle [61, 158, 184, 195, 148])
  (.cases 87 (.cycle [299, 294, 158, 192]) (.cases 85 (.cases 74 (.cycle [61, 147, 180, 181])
  (.cases 83 (.cycle [61, 293, 194, 192]) (.cases 84 (.cycle [58, 108, 370, 158, 164, 165, 148])
  (.cycle [58, 108, 370, 158, 149, 210, 189, 168, 87])))) (.cycle
  [58, 108, 370, 147, 166, 187, 188]))))

/-- some of the cases -/
def ko2Case22 : CaseTree :=
  .cases 74 (.cycle [180, 303, 161]) (.cases 72 (.cases 81 (.cases 80 (.cases 87 (.cases 85 (.cycle
  [299, 189, 195, 148]) (.cases 84 (.cycle [200, 187, 165, 148]) (.cycle
  [200, 195, 210, 294, 190]))) (.cycle [200, 195, 150, 293, 188])) (.cycle [200, 154, 147, 148]))
  (.cycle [58, 108, 202, 146, 265, 195, 148])) (.cases 81 (.cases 89 (.cases 122 (.cycle
  [58, 108, 202, 149, 166, 262, 343, 190]) (.cases 91 (.cases 77 (.cases 76 (.cycle
  [155, 174, 175]) (.cycle [152, 172, 173])) (.cases 86 (.cases 88 (.cases 75 (.cycle
  [381, 291, 166, 176, 177, 178, 179]) (.cases 82 (.cycle [155, 156, 157]) (.cycle
  [152, 153, 154]))) (.cases 92 (.cases 84 (.cycle [273, 380, 165]) (.cases 94 (.cases 111
  (.cases 100 (.cases 82 (.cases 87 (.cases 85 (.cases 75 (.cycle
  [58, 108, 202, 149, 210, 189, 176, 177, 178, 179]) (.cycle [155, 156, 157])) (.cycle
  [58, 108, 202, 149, 166, 187, 294, 190])) (.cycle
  [58, 108, 202, 149, 166, 154, 293, 208, 263, 278, 231, 38])) (.cycle [152, 153, 154]))
  (.cases 104 (.cases 103 (.cycle [58, 108, 202, 149, 166, 154, 342, 263, 211, 229, 237, 247, 248])
  (.cases 105 (.cases 117 (.cycle [253, 331, 332]) (.cases 118 (.cycle [250, 329, 330]) (.cases 113
  (.cases 98 (.cases 101 (.cases 108 (.cases 87 (.cases 85 (.cycle
  [58, 108, 202, 149, 210, 189, 154, 342, 263, 211, 229, 242, 245, 252, 328, 283]) (.cycle
  [58, 108, 202, 149, 166, 187, 294, 190])) (.cycle
  [58, 108, 202, 149, 166, 154, 293, 208, 263, 211, 229, 242, 245, 252, 270])) (.cycle
  [58, 108, 202, 149, 166, 154, 342, 263, 211, 229, 232, 249, 90])) (.cases 112 (.cycle
  [67, 230, 226, 289, 245, 282, 283]) (.cycle [218, 287, 288]))) (.cycle [222, 223, 224]))
  (.cases 82 (.cases 87 (.cases 85 (.cases 75 (.cycle
  [58, 108, 202, 149, 210, 189, 176, 177, 178, 179]) (.cycle [155, 156, 157])) (.cycle
  [58, 108, 202, 149, 166, 187, 294, 190])) (.cycle
  [58, 108, 202, 149, 166, 154, 293, 208, 263, 211, 229, 284, 285, 286])) (.cycle
  [152, 153, 154]))))) (.cases 82 (.cases 87 (.cases 85 (.cases 75 (.cycle
  [58, 108, 202, 149, 210, 189, 176, 177, 178, 179]) (.cycle [155, 156, 157])) (.cycle
  [58, 108, 202, 149, 166, 187, 294, 190])) (.cycle
  [58, 108, 202, 149, 166, 154, 293, 208, 263, 211, 244, 240, 280])) (.cycle [152, 153, 154]))))
  (.cycle [58, 108, 202, 149, 166, 154, 342, 263, 272, 243, 229, 74]))) (.cases 87 (.cases 85
  (.cycle [58, 108, 202, 149, 210, 189, 154, 342, 225, 271, 77]) (.cycle
  [58, 108, 202, 149, 166, 187, 294, 190])) (.cycle
  [58, 108, 202, 149, 166, 154, 293, 208, 225, 271, 77]))) (.cycle [70, 297, 263, 77]))) (.cases 87
  (.cases 85 (.cases 75 (.cycle [58, 108, 202, 149, 273, 380, 189, 176, 177, 178, 179]) (.cases 82
  (.cycle [155, 156, 157]) (.cycle [152, 153, 154]))) (.cycle
  [58, 108, 202, 149, 166, 187, 294, 190])) (.cycle
  [58, 108, 202, 149, 166, 154, 293, 264, 219, 69])))) (.cycle
  [58, 108, 202, 149, 166, 154, 306, 199, 188]))) (.cycle
  [58, 108, 202, 149, 166, 154, 342, 366, 188]))) (.cycle [321, 205, 154, 190])) (.cases 83 (.cycle
  [299, 194, 146, 151, 84]) (.cases 80 (.cycle [58, 108, 202, 149, 150, 151, 84]) (.cases 87
  (.cycle [58, 108, 202, 164, 294, 151, 84]) (.cases 85 (.cases 84 (.cycle
  [58, 108, 202, 146, 293, 165, 148]) (.cycle [58, 108, 202, 146, 147, 210, 189, 168, 87])) (.cycle
  [58, 108, 202, 146, 147, 166, 187, 188])))))))

/-- some of the cases -/
def ko2Case23 : CaseTree :=
  .cases 128 (.cycle [132, 386, 101]) (.cycle [383, 384, 385])

/-- some of the cases -/
def ko2Case24 : CaseTree :=
  .cases 69 (.cases 74 (.cycle [358, 333, 112, 365, 352, 351, 180, 170, 171, 315, 300]) (.cases 123
  (.cases 73 (.cases 78 (.cases 84 (.cycle [299, 165, 186, 300]) (.cycle [161, 162, 163])) (.cycle
  [358, 333, 112, 365, 352, 353, 159, 320, 171, 315, 300])) (.cycle [299, 315, 182, 148])) (.cycle
  [64, 348, 350, 315, 300]))) (.cases 73 (.cases 123 (.cases 70 (.cases 79 (.cycle
  [61, 158, 197, 300]) (.cases 71 (.cycle [358, 333, 112, 365, 352, 353, 146, 313, 314]) (.cases 81
  (.cases 85 (.cycle [358, 333, 112, 365, 352, 353, 197, 193, 189, 154, 190]) (.cases 87 (.cycle
  [358, 333, 112, 365, 352, 353, 197, 295, 187, 294, 190]) (.cases 74 (.cycle
  [358, 333, 112, 365, 352, 351, 183, 197, 295, 154, 293, 188]) (.cycle
  [358, 333, 112, 365, 352, 353, 149, 186, 295, 154, 293, 188])))) (.cycle
  [358, 333, 112, 365, 352, 353, 197, 191, 151, 84])))) (.cycle
  [358, 333, 112, 365, 352, 351, 186, 145, 192])) (.cycle [64, 348, 351, 186, 300])) (.cases 72
  (.cases 71 (.cycle [61, 196, 295, 195, 148]) (.cases 70 (.cases 85 (.cycle [299, 189, 195, 148])
  (.cases 84 (.cycle [200, 187, 165, 148]) (.cases 123 (.cycle
  [358, 333, 112, 365, 352, 353, 197, 295, 195, 148]) (.cases 87 (.cycle [200, 195, 210, 294, 190])
  (.cases 81 (.cases 80 (.cycle [200, 195, 150, 293, 188]) (.cycle [200, 154, 147, 148])) (.cycle
  [64, 348, 337, 191, 265, 195, 148])))))) (.cycle
  [358, 333, 112, 365, 352, 337, 145, 184, 195, 148]))) (.cases 80 (.cases 81 (.cases 123
  (.cases 70 (.cycle [358, 333, 112, 365, 352, 353, 197, 182, 166, 154, 190]) (.cases 74 (.cases 75
  (.cycle [358, 333, 112, 365, 352, 337, 182, 183, 184, 176, 177, 178, 179]) (.cases 82 (.cycle
  [155, 156, 157]) (.cycle [152, 153, 154]))) (.cases 75 (.cycle
  [358, 333, 112, 365, 352, 337, 145, 149, 166, 176, 177, 178, 179]) (.cases 82 (.cycle
  [155, 156, 157]) (.cycle [152, 153, 154]))))) (.cases 75 (.cycle
  [64, 348, 337, 182, 166, 176, 177, 178, 179]) (.cases 82 (.cycle [155, 156, 157]) (.cycle
  [152, 153, 154])))) (.cycle [358, 333, 112, 365, 352, 337, 182, 150, 151, 84])) (.cases 74
  (.cycle [61, 147, 180, 181]) (.cases 87 (.cycle
  [358, 333, 112, 365, 352, 337, 193, 294, 147, 148]) (.cases 83 (.cycle [61, 293, 194, 192])
  (.cases 84 (.cases 71 (.cycle [61, 196, 193, 165, 148]) (.cases 123 (.cases 70 (.cycle
  [358, 333, 112, 365, 352, 353, 197, 193, 165, 148]) (.cases 79 (.cycle
  [61, 158, 164, 165, 166, 168, 87]) (.cycle
  [358, 333, 112, 365, 352, 337, 145, 146, 293, 165, 148]))) (.cycle
  [64, 348, 337, 191, 293, 165, 148]))) (.cases 123 (.cases 70 (.cases 121 (.cases 71 (.cases 79
  (.cycle [61, 158, 197, 300]) (.cycle [358, 333, 112, 365, 352, 353, 146, 313, 314])) (.cycle
  [341, 191, 152])) (.cycle [358, 333, 112, 365, 352, 353, 197, 316, 382, 147, 166, 168, 87]))
  (.cases 79 (.cases 78 (.cycle [161, 162, 163]) (.cycle [61, 158, 159, 160, 20])) (.cycle
  [358, 333, 112, 365, 352, 337, 145, 146, 147, 148]))) (.cases 85 (.cases 71 (.cycle
  [61, 196, 182, 210, 189, 168, 87]) (.cycle [64, 348, 337, 191, 147, 210, 189, 168, 87])) (.cycle
  [64, 348, 337, 182, 166, 187, 188]))))))))))

/-- some of the cases -/
def ko2Case25 : CaseTree :=
  .cases 75 (.cycle [299, 315, 316, 317, 318, 178, 179]) (.cases 87 (.cases 71 (.cycle
  [299, 294, 196, 300]) (.cases 81 (.cases 82 (.cycle [155, 156, 157]) (.cycle [152, 153, 154]))
  (.cycle [299, 315, 191, 151, 84]))) (.cycle [61, 293, 315, 300]))

/-- some of the cases -/
def ko2Case26 : CaseTree :=
  .cases 91 (.cases 95 (.cases 89 (.cases 92 (.cycle [61, 196, 193, 189, 262, 263, 77]) (.cases 93
  (.cases 111 (.cases 100 (.cases 101 (.cases 103 (.cycle
  [358, 333, 112, 97, 336, 202, 149, 150, 196, 193, 189, 198, 219, 235, 246, 247, 248]) (.cases 96
  (.cases 94 (.cases 105 (.cases 99 (.cases 108 (.cases 104 (.cycle
  [61, 196, 193, 189, 198, 219, 225, 231, 244, 245, 252, 270]) (.cycle
  [61, 196, 193, 189, 198, 219, 225, 242, 243, 38])) (.cycle
  [61, 196, 193, 189, 198, 219, 225, 231, 236, 249, 90])) (.cycle
  [61, 196, 193, 189, 198, 219, 225, 232, 228, 38])) (.cycle [240, 241, 218])) (.cycle
  [61, 196, 193, 189, 198, 278, 297, 69])) (.cycle [61, 196, 193, 189, 198, 219, 220, 221, 29])))
  (.cycle [67, 230, 231, 38])) (.cycle
  [358, 333, 112, 97, 336, 202, 149, 150, 196, 193, 189, 198, 219, 235, 229, 74])) (.cycle
  [70, 271, 219, 69])) (.cycle [61, 196, 193, 189, 198, 211, 212, 69]))) (.cycle
  [61, 196, 193, 208, 205, 168, 87])) (.cycle [216, 217, 218])) (.cycle [206, 203, 204])

/-- some of the cases -/
def ko2Case27 : CaseTree :=
  .cases 95 (.cases 93 (.cases 91 (.cases 92 (.cases 104 (.cases 97 (.cases 103 (.cases 99
  (.cases 100 (.cases 102 (.cycle [276, 257, 247, 248]) (.cases 112 (.cycle [36, 238, 289, 248])
  (.cases 111 (.cycle [61, 196, 295, 187, 208, 263, 278, 231, 246, 247, 248]) (.cases 110 (.cycle
  [36, 247, 281, 269, 270]) (.cases 108 (.cases 109 (.cycle [36, 247, 267, 268, 239]) (.cycle
  [36, 252, 266, 248])) (.cycle [70, 271, 211, 236, 290, 247, 248])))))) (.cycle
  [61, 196, 295, 187, 208, 263, 211, 229, 237, 247, 248])) (.cycle [67, 228, 246, 247, 248]))
  (.cases 106 (.cycle
  [358, 333, 112, 97, 336, 202, 149, 150, 196, 295, 187, 208, 263, 211, 244, 245, 258, 259, 260, 261])
  (.cases 99 (.cases 109 (.cases 108 (.cases 107 (.cycle [253, 254, 255]) (.cycle [250, 251, 252]))
  (.cycle [61, 196, 295, 187, 208, 263, 211, 244, 267, 249, 90])) (.cases 105 (.cases 110 (.cycle
  [61, 196, 295, 187, 208, 263, 211, 256, 269, 266, 248]) (.cases 102 (.cases 98 (.cases 112
  (.cases 111 (.cases 100 (.cycle [200, 187, 208, 263, 278, 231, 236, 268, 289, 248]) (.cases 101
  (.cycle [200, 187, 208, 263, 211, 229, 232, 268, 289, 248]) (.cycle
  [67, 230, 226, 289, 245, 282, 283]))) (.cycle [70, 271, 211, 236, 268, 289, 248])) (.cases 113
  (.cycle [218, 287, 288]) (.cases 111 (.cases 100 (.cycle
  [61, 196, 295, 187, 208, 263, 278, 231, 236, 266, 248]) (.cases 101 (.cycle
  [61, 196, 295, 187, 208, 263, 211, 229, 232, 266, 248]) (.cycle [67, 230, 284, 285, 286])))
  (.cycle [70, 271, 211, 236, 266, 281, 257, 282, 283])))) (.cycle [67, 268, 277, 74])) (.cycle
  [358, 333, 112, 97, 336, 202, 149, 150, 196, 295, 187, 208, 263, 211, 236, 266, 245, 238, 239])))
  (.cycle [67, 266, 240, 280]))) (.cases 112 (.cycle [67, 228, 256, 289, 248]) (.cases 102 (.cycle
  [67, 228, 244, 281, 257, 282, 283]) (.cycle [67, 228, 244, 245, 238, 239])))))) (.cycle
  [276, 227, 244, 248])) (.cases 111 (.cases 100 (.cases 105 (.cycle
  [61, 196, 295, 187, 208, 263, 278, 242, 243, 38]) (.cycle
  [358, 333, 112, 97, 336, 202, 149, 150, 196, 295, 187, 208, 263, 272, 279, 231, 38])) (.cycle
  [61, 196, 295, 187, 208, 263, 272, 243, 229, 74])) (.cycle [70, 271, 272, 243, 38]))) (.cases 96
  (.cases 99 (.cases 111 (.cases 100 (.cases 103 (.cycle
  [358, 333, 112, 97, 336, 202, 149, 150, 196, 295, 187, 264, 278, 231, 246, 247, 248]) (.cases 94
  (.cases 105 (.cases 108 (.cases 104 (.cycle
  [61, 196, 295, 187, 264, 219, 225, 231, 244, 245, 252, 270]) (.cycle
  [61, 196, 295, 187, 264, 219, 225, 242, 243, 38])) (.cycle
  [61, 196, 295, 187, 264, 219, 225, 231, 236, 249, 90])) (.cycle [240, 241, 218])) (.cycle
  [61, 196, 295, 187, 264, 278, 297, 69]))) (.cycle
  [358, 333, 112, 97, 336, 202, 149, 150, 196, 295, 187, 264, 219, 235, 229, 74])) (.cycle
  [70, 271, 219, 69])) (.cycle
  [358, 333, 112, 97, 336, 202, 149, 150, 196, 295, 187, 264, 219, 301, 233, 234])) (.cycle
  [61, 196, 295, 187, 264, 219, 220, 221, 29]))) (.cycle [206, 203, 204])) (.cycle
  [61, 196, 295, 187, 264, 211, 212, 69])) (.cycle [216, 217, 218])

/-- some of the cases -/
def ko2Case28 : CaseTree :=
  .cases 75 (.cycle [185, 186, 193, 189, 176, 177, 178, 179]) (.cases 82 (.cycle [155, 156, 157])
  (.cycle [152, 153, 154]))

/-- some of the cases -/
def ko2Case29 : CaseTree :=
  .cases 115 (.cycle [310, 311, 312, 140, 197, 295, 187, 294, 190]) (.cases 114 (.cycle
  [307, 308, 309]) (.cases 74 (.cycle [180, 303, 161]) (.cycle
  [358, 333, 112, 97, 336, 202, 149, 186, 295, 187, 294, 167, 87])))

/-- some of the cases -/
def ko2Case30 : CaseTree :=
  .cases 93 (.cases 92 (.cases 94 (.cases 104 (.cases 97 (.cases 103 (.cases 99 (.cases 100
  (.cases 102 (.cycle [276, 257, 247, 248]) (.cases 112 (.cycle [36, 238, 289, 248]) (.cases 111
  (.cycle [200, 154, 293, 208, 263, 278, 231, 246, 247, 248]) (.cases 110 (.cycle
  [36, 247, 281, 269, 270]) (.cases 108 (.cases 109 (.cycle [36, 247, 267, 268, 239]) (.cycle
  [36, 252, 266, 248])) (.cycle [70, 271, 211, 236, 290, 247, 248])))))) (.cycle
  [200, 154, 293, 208, 263, 211, 229, 237, 247, 248])) (.cycle [67, 228, 246, 247, 248]))
  (.cases 74 (.cases 114 (.cases 105 (.cases 98 (.cases 111 (.cases 100 (.cycle
  [304, 305, 140, 197, 295, 154, 293, 208, 263, 278, 231, 38]) (.cases 113 (.cases 112 (.cycle
  [304, 305, 140, 197, 295, 154, 293, 208, 263, 211, 229, 226, 289, 245, 282, 283]) (.cycle
  [218, 287, 288])) (.cycle
  [304, 305, 140, 197, 295, 154, 293, 208, 263, 211, 229, 284, 285, 286]))) (.cycle
  [304, 305, 140, 197, 295, 154, 293, 208, 225, 271, 77])) (.cycle [222, 223, 224])) (.cycle
  [304, 305, 140, 197, 295, 154, 293, 208, 263, 211, 244, 240, 280])) (.cycle [180, 303, 161]))
  (.cases 106 (.cycle
  [358, 333, 112, 97, 336, 202, 149, 186, 295, 154, 293, 208, 263, 211, 244, 245, 258, 259, 260, 261])
  (.cases 99 (.cases 109 (.cases 108 (.cases 107 (.cycle [253, 254, 255]) (.cycle [250, 251, 252]))
  (.cycle [200, 154, 293, 208, 263, 211, 244, 267, 249, 90])) (.cases 105 (.cases 110 (.cycle
  [200, 154, 293, 208, 263, 211, 256, 269, 266, 248]) (.cases 102 (.cases 98 (.cases 112
  (.cases 111 (.cases 100 (.cycle [200, 154, 293, 208, 263, 278, 231, 236, 268, 289, 248])
  (.cases 101 (.cycle [200, 154, 293, 208, 263, 211, 229, 232, 268, 289, 248]) (.cycle
  [67, 230, 226, 289, 245, 282, 283]))) (.cycle [70, 271, 211, 236, 268, 289, 248])) (.cases 113
  (.cycle [218, 287, 288]) (.cases 111 (.cases 100 (.cycle
  [200, 154, 293, 208, 263, 278, 231, 236, 266, 248]) (.cases 101 (.cycle
  [200, 154, 293, 208, 263, 211, 229, 232, 266, 248]) (.cycle [67, 230, 284, 285, 286]))) (.cycle
  [70, 271, 211, 236, 266, 281, 257, 282, 283])))) (.cycle [67, 268, 277, 74])) (.cycle
  [358, 333, 112, 97, 336, 202, 149, 186, 295, 154, 293, 208, 263, 211, 236, 266, 245, 238, 239])))
  (.cycle [67, 266, 240, 280]))) (.cases 112 (.cycle [67, 228, 256, 289, 248]) (.cases 102 (.cycle
  [67, 228, 244, 281, 257, 282, 283]) (.cycle [67, 228, 244, 245, 238, 239]))))))) (.cycle
  [276, 227, 244, 248])) (.cases 115 (.cycle
  [310, 311, 312, 140, 197, 295, 154, 293, 208, 263, 272, 243, 38]) (.cases 114 (.cycle
  [307, 308, 309]) (.cases 74 (.cycle [180, 303, 161]) (.cases 111 (.cases 100 (.cases 105 (.cycle
  [200, 154, 293, 208, 263, 278, 242, 243, 38]) (.cycle
  [358, 333, 112, 97, 336, 202, 149, 186, 295, 154, 293, 208, 263, 272, 279, 231, 38])) (.cycle
  [200, 154, 293, 208, 263, 272, 243, 229, 74])) (.cycle [70, 271, 272, 243, 38])))))) (.cycle
  [70, 297, 263, 77])) (.cases 115 (.cycle [310, 311, 312, 140, 197, 295, 154, 293, 264, 219, 69])
  (.cases 114 (.cycle [307, 308, 309]) (.cases 96 (.cases 74 (.cycle [180, 303, 161]) (.cases 99
  (.cases 111 (.cases 100 (.cases 103 (.cycle
  [358, 333, 112, 97, 336, 202, 149, 186, 295, 154, 293, 264, 278, 231, 246, 247, 248]) (.cases 94
  (.cases 105 (.cases 108 (.cases 104 (.cycle
  [200, 154, 293, 264, 219, 225, 231, 244, 245, 252, 270]) (.cycle
  [200, 154, 293, 264, 219, 225, 242, 243, 38])) (.cycle
  [200, 154, 293, 264, 219, 225, 231, 236, 249, 90])) (.cycle [240, 241, 218])) (.cycle
  [200, 154, 293, 264, 278, 297, 69]))) (.cycle
  [358, 333, 112, 97, 336, 202, 149, 186, 295, 154, 293, 264, 219, 235, 229, 74])) (.cycle
  [70, 271, 219, 69])) (.cycle
  [358, 333, 112, 97, 336, 202, 149, 186, 295, 154, 293, 264, 219, 301, 233, 234]))) (.cycle
  [200, 154, 293, 264, 219, 220, 221, 29]))))) (.cycle [200, 154, 293, 264, 211, 212, 69])

/-- some of the cases -/
def ko2Case31 : CaseTree :=
  .cases 87 (.cycle [82, 199, 294, 190]) (.cases 77 (.cycle [82, 173, 293, 188]) (.cases 115
  (.cycle [310, 311, 312, 140, 197, 295, 154, 306, 199, 188]) (.cases 114 (.cycle [307, 308, 309])
  (.cases 74 (.cycle [180, 303, 161]) (.cycle
  [358, 333, 112, 97, 336, 202, 149, 186, 295, 154, 306, 199, 188])))))

/-- some of the cases -/
def ko2Case32 : CaseTree :=
  .cases 91 (.cases 95 (.cases 89 (.cases 92 (.cycle [185, 186, 191, 293, 189, 262, 263, 77])
  (.cases 93 (.cases 111 (.cases 100 (.cases 101 (.cases 103 (.cycle
  [358, 333, 112, 97, 336, 202, 149, 186, 191, 293, 189, 198, 219, 235, 246, 247, 248]) (.cases 96
  (.cases 94 (.cases 105 (.cases 99 (.cases 108 (.cases 104 (.cycle
  [185, 186, 191, 293, 189, 198, 219, 225, 231, 244, 245, 252, 270]) (.cycle
  [185, 186, 191, 293, 189, 198, 219, 225, 242, 243, 38])) (.cycle
  [185, 186, 191, 293, 189, 198, 219, 225, 231, 236, 249, 90])) (.cycle
  [185, 186, 191, 293, 189, 198, 219, 225, 232, 228, 38])) (.cycle [240, 241, 218])) (.cycle
  [185, 186, 191, 293, 189, 198, 278, 297, 69])) (.cycle
  [185, 186, 191, 293, 189, 198, 219, 220, 221, 29]))) (.cycle [67, 230, 231, 38])) (.cycle
  [358, 333, 112, 97, 336, 202, 149, 186, 191, 293, 189, 198, 219, 235, 229, 74])) (.cycle
  [185, 186, 191, 293, 189, 302, 271, 77])) (.cycle [185, 186, 191, 293, 189, 198, 211, 212, 69])))
  (.cycle [185, 186, 191, 293, 208, 205, 168, 87])) (.cycle [216, 217, 218])) (.cycle
  [206, 203, 204])

/-- some of the cases -/
def ko2Case33 : CaseTree :=
  .cases 95 (.cases 93 (.cases 91 (.cases 92 (.cases 104 (.cases 97 (.cases 103 (.cases 99
  (.cases 100 (.cases 102 (.cycle [276, 257, 247, 248]) (.cases 112 (.cycle [36, 238, 289, 248])
  (.cases 111 (.cycle [185, 186, 191, 265, 187, 208, 263, 278, 231, 246, 247, 248]) (.cases 110
  (.cycle [36, 247, 281, 269, 270]) (.cases 108 (.cases 109 (.cycle [36, 247, 267, 268, 239])
  (.cycle [36, 252, 266, 248])) (.cycle [70, 271, 211, 236, 290, 247, 248])))))) (.cycle
  [185, 186, 191, 265, 187, 208, 263, 211, 229, 237, 247, 248])) (.cycle [67, 228, 246, 247, 248]))
  (.cases 106 (.cycle
  [358, 333, 112, 97, 336, 202, 149, 186, 191, 265, 187, 208, 263, 211, 244, 245, 258, 259, 260, 261])
  (.cases 99 (.cases 109 (.cases 108 (.cases 107 (.cycle [253, 254, 255]) (.cycle [250, 251, 252]))
  (.cycle [185, 186, 191, 265, 187, 208, 263, 211, 244, 267, 249, 90])) (.cases 105 (.cases 110
  (.cycle [185, 186, 191, 265, 187, 208, 263, 211, 256, 269, 266, 248]) (.cases 102 (.cases 98
  (.cases 112 (.cases 111 (.cases 101 (.cycle
  [185, 186, 191, 265, 187, 208, 263, 278, 232, 268, 289, 248]) (.cycle
  [67, 230, 226, 289, 245, 282, 283])) (.cycle [70, 271, 211, 236, 268, 289, 248])) (.cases 113
  (.cycle [218, 287, 288]) (.cases 111 (.cases 100 (.cycle
  [185, 186, 191, 265, 187, 208, 263, 278, 231, 236, 266, 248]) (.cases 101 (.cycle
  [185, 186, 191, 265, 187, 208, 263, 211, 229, 232, 266, 248]) (.cycle [67, 230, 284, 285, 286])))
  (.cycle [70, 271, 211, 236, 266, 281, 257, 282, 283])))) (.cycle [67, 268, 277, 74])) (.cycle
  [358, 333, 112, 97, 336, 202, 149, 186, 191, 265, 187, 208, 263, 211, 236, 266, 245, 238, 239])))
  (.cycle [67, 266, 240, 280]))) (.cases 112 (.cycle [67, 228, 256, 289, 248]) (.cases 102 (.cycle
  [67, 228, 244, 281, 257, 282, 283]) (.cycle [67, 228, 244, 245, 238, 239])))))) (.cycle
  [276, 227, 244, 248])) (.cases 111 (.cases 100 (.cases 105 (.cycle
  [185, 186, 191, 265, 187, 208, 263, 278, 242, 243, 38]) (.cycle
  [358, 333, 112, 97, 336, 202, 149, 186, 191, 265, 187, 208, 263, 272, 279, 231, 38])) (.cycle
  [185, 186, 191, 265, 187, 208, 263, 272, 243, 229, 74])) (.cycle [70, 271, 272, 243, 38])))
  (.cases 96 (.cases 99 (.cases 111 (.cases 100 (.cases 103 (.cycle
  [358, 333, 112, 97, 336, 202, 149, 186, 191, 265, 187, 264, 278, 231, 246, 247, 248]) (.cases 94
  (.cases 105 (.cases 108 (.cases 104 (.cycle
  [185, 186, 191, 265, 187, 264, 219, 225, 231, 244, 245, 252, 270]) (.cycle
  [185, 186, 191, 265, 187, 264, 219, 225, 242, 243, 38])) (.cycle
  [185, 186, 191, 265, 187, 264, 219, 225, 231, 236, 249, 90])) (.cycle [240, 241, 218])) (.cycle
  [185, 186, 191, 265, 187, 264, 278, 297, 69]))) (.cycle
  [358, 333, 112, 97, 336, 202, 149, 186, 191, 265, 187, 264, 219, 235, 229, 74])) (.cycle
  [70, 271, 219, 69])) (.cycle
  [358, 333, 112, 97, 336, 202, 149, 186, 191, 265, 187, 264, 219, 301, 233, 234])) (.cycle
  [185, 186, 191, 265, 187, 264, 219, 220, 221, 29]))) (.cycle [206, 203, 204])) (.cycle
  [185, 186, 191, 265, 187, 264, 211, 212, 69])) (.cycle [216, 217, 218])

/-- some of the cases -/
def ko2Case34 : CaseTree :=
  .cases 71 (.cycle [61, 196, 193, 165, 148]) (.cases 85 (.cases 72 (.cycle [299, 189, 195, 148])
  (.cases 82 (.cycle [358, 333, 112, 97, 336, 202, 197, 193, 165, 166, 176, 157, 345]) (.cases 81
  (.cycle [152, 153, 154]) (.cases 87 (.cycle [64, 197, 193, 294, 151, 84]) (.cases 89 (.cases 92
  (.cycle [358, 333, 112, 97, 336, 202, 197, 191, 293, 165, 166, 262, 263, 77]) (.cases 93
  (.cases 111 (.cases 100 (.cases 101 (.cases 103 (.cycle
  [358, 333, 112, 97, 336, 202, 197, 191, 293, 165, 166, 198, 219, 235, 246, 247, 248]) (.cases 94
  (.cases 95 (.cases 105 (.cases 99 (.cases 108 (.cases 104 (.cycle
  [61, 293, 165, 166, 198, 219, 225, 231, 244, 245, 252, 270]) (.cycle
  [358, 333, 112, 97, 336, 202, 197, 191, 293, 165, 166, 198, 219, 225, 242, 243, 38])) (.cycle
  [61, 293, 165, 166, 198, 219, 225, 231, 236, 249, 90])) (.cycle
  [61, 293, 165, 166, 198, 219, 225, 232, 233, 234])) (.cycle
  [358, 333, 112, 97, 336, 202, 197, 191, 293, 165, 166, 198, 219, 298, 279, 231, 38])) (.cycle
  [216, 217, 218])) (.cycle
  [358, 333, 112, 97, 336, 202, 197, 191, 293, 165, 166, 198, 278, 297, 69]))) (.cycle
  [67, 230, 231, 38])) (.cycle
  [358, 333, 112, 97, 336, 202, 197, 191, 293, 165, 166, 198, 219, 235, 229, 74])) (.cycle
  [70, 271, 219, 69])) (.cycle [61, 293, 165, 166, 198, 211, 212, 69]))) (.cycle
  [358, 333, 112, 97, 336, 202, 197, 191, 293, 165, 296, 205, 168, 87])))))) (.cycle
  [200, 187, 165, 148]))

/-- some of the cases -/
def ko2Case35 : CaseTree :=
  .cases 72 (.cycle [61, 196, 295, 195, 148]) (.cases 85 (.cycle [61, 196, 182, 210, 189, 168, 87])
  (.cycle [61, 196, 182, 166, 187, 188]))

/-- some of the cases -/
def ko2Case36 : CaseTree :=
  .cases 81 (.cases 72 (.cycle [200, 195, 210, 294, 190]) (.cases 85 (.cases 75 (.cycle
  [64, 197, 182, 210, 189, 176, 177, 178, 179]) (.cases 82 (.cycle [155, 156, 157]) (.cycle
  [152, 153, 154]))) (.cycle [64, 197, 182, 166, 187, 294, 190]))) (.cycle
  [64, 197, 182, 210, 294, 151, 84])

/-- some of the cases -/
def ko2Case37 : CaseTree :=
  .cases 81 (.cases 72 (.cycle [200, 195, 150, 293, 188]) (.cycle
  [358, 333, 112, 97, 336, 202, 197, 182, 166, 154, 293, 188])) (.cycle
  [64, 197, 182, 150, 151, 84])

/-- some of the cases -/
def ko2Case38 : CaseTree :=
  .cases 104 (.cases 97 (.cases 103 (.cases 99 (.cases 100 (.cases 102 (.cycle
  [276, 257, 247, 248]) (.cases 112 (.cycle [36, 238, 289, 248]) (.cases 111 (.cycle
  [200, 195, 273, 274, 275, 263, 278, 231, 246, 247, 248]) (.cases 110 (.cycle
  [36, 247, 281, 269, 270]) (.cases 108 (.cases 109 (.cycle [36, 247, 267, 268, 239]) (.cycle
  [36, 252, 266, 248])) (.cycle [70, 271, 211, 236, 290, 247, 248])))))) (.cycle
  [200, 195, 273, 274, 275, 263, 211, 229, 237, 247, 248])) (.cycle [67, 228, 246, 247, 248]))
  (.cases 109 (.cases 108 (.cases 111 (.cases 100 (.cycle
  [200, 195, 273, 274, 275, 263, 278, 231, 244, 245, 252, 270]) (.cases 105 (.cases 106 (.cycle
  [200, 195, 273, 274, 275, 263, 211, 229, 242, 245, 258, 259, 260, 261]) (.cases 107 (.cycle
  [253, 254, 255]) (.cycle [250, 251, 252]))) (.cases 106 (.cycle
  [200, 195, 273, 274, 275, 263, 211, 244, 279, 237, 258, 259, 260, 261]) (.cases 107 (.cycle
  [253, 254, 255]) (.cycle [250, 251, 252]))))) (.cases 106 (.cycle
  [70, 271, 211, 244, 245, 258, 259, 260, 261]) (.cases 107 (.cycle [253, 254, 255]) (.cycle
  [250, 251, 252])))) (.cycle [200, 195, 273, 274, 275, 263, 211, 244, 267, 249, 90])) (.cases 105
  (.cases 110 (.cycle [200, 195, 273, 274, 275, 263, 211, 256, 269, 266, 248]) (.cases 98
  (.cases 112 (.cases 99 (.cases 111 (.cases 100 (.cycle
  [200, 195, 273, 274, 275, 263, 278, 231, 256, 289, 248]) (.cases 101 (.cycle
  [200, 195, 273, 274, 275, 263, 211, 229, 232, 266, 248]) (.cycle
  [67, 230, 226, 289, 245, 282, 283]))) (.cycle [70, 271, 211, 236, 268, 289, 248])) (.cycle
  [67, 228, 256, 289, 248])) (.cases 111 (.cases 113 (.cycle [218, 287, 288]) (.cases 101
  (.cases 102 (.cycle
  [358, 333, 112, 97, 336, 202, 197, 191, 265, 195, 273, 274, 275, 263, 278, 232, 266, 281, 257, 282, 283])
  (.cycle [200, 195, 273, 274, 275, 263, 278, 232, 266, 245, 238, 239])) (.cycle
  [67, 230, 284, 285, 286]))) (.cases 102 (.cases 99 (.cycle
  [70, 271, 211, 236, 266, 281, 257, 282, 283]) (.cycle [67, 228, 244, 281, 257, 282, 283]))
  (.cycle [70, 271, 211, 244, 245, 238, 239])))) (.cycle [67, 268, 277, 74]))) (.cycle
  [67, 266, 240, 280])))) (.cycle [276, 227, 244, 248])) (.cases 111 (.cases 100 (.cases 101
  (.cases 105 (.cycle
  [358, 333, 112, 97, 336, 202, 197, 191, 265, 195, 273, 274, 275, 263, 278, 242, 243, 38])
  (.cases 98 (.cases 99 (.cases 108 (.cases 97 (.cases 110 (.cycle
  [358, 333, 112, 97, 336, 202, 197, 191, 265, 195, 273, 274, 275, 263, 272, 279, 231, 256, 269, 270])
  (.cycle [200, 195, 273, 274, 275, 263, 272, 279, 231, 246, 252, 268, 239])) (.cycle
  [200, 195, 273, 274, 275, 263, 272, 279, 226, 227, 38])) (.cycle
  [200, 195, 273, 274, 275, 263, 278, 231, 236, 249, 90])) (.cycle
  [200, 195, 273, 274, 275, 263, 278, 232, 233, 234])) (.cycle [276, 277, 231, 38]))) (.cycle
  [67, 230, 231, 38])) (.cycle [200, 195, 273, 274, 275, 263, 272, 243, 229, 74])) (.cycle
  [70, 271, 272, 243, 38]))

/-- some of the cases -/
def ko2Case39 : CaseTree :=
  .cases 96 (.cases 111 (.cases 94 (.cases 97 (.cases 99 (.cases 101 (.cases 102 (.cases 106
  (.cycle [200, 195, 210, 264, 219, 235, 256, 257, 258, 259, 260, 261]) (.cases 107 (.cycle
  [253, 254, 255]) (.cases 108 (.cycle [250, 251, 252]) (.cases 100 (.cycle
  [200, 195, 210, 264, 219, 225, 231, 236, 249, 90]) (.cycle
  [200, 195, 210, 264, 219, 235, 229, 232, 249, 90]))))) (.cases 100 (.cases 109 (.cases 110
  (.cycle [200, 195, 210, 264, 219, 225, 231, 246, 238, 269, 270]) (.cases 104 (.cycle
  [200, 195, 210, 264, 219, 225, 231, 244, 267, 268, 239]) (.cases 105 (.cycle
  [358, 333, 112, 97, 336, 202, 197, 191, 265, 195, 210, 264, 219, 225, 242, 243, 38]) (.cycle
  [240, 241, 218])))) (.cycle [200, 195, 210, 264, 219, 225, 231, 236, 266, 248])) (.cycle
  [200, 195, 210, 264, 219, 235, 229, 237, 238, 239]))) (.cycle
  [200, 195, 210, 264, 219, 235, 236, 230, 74])) (.cases 100 (.cases 101 (.cycle
  [200, 195, 210, 264, 219, 225, 232, 233, 234]) (.cycle [67, 230, 231, 38])) (.cycle
  [67, 228, 229, 74]))) (.cases 98 (.cycle
  [358, 333, 112, 97, 336, 202, 197, 191, 265, 195, 210, 264, 219, 225, 226, 227, 38]) (.cycle
  [222, 223, 224]))) (.cycle
  [358, 333, 112, 97, 336, 202, 197, 191, 265, 195, 210, 264, 278, 297, 69])) (.cycle
  [70, 271, 219, 69])) (.cycle
  [358, 333, 112, 97, 336, 202, 197, 191, 265, 195, 210, 264, 219, 220, 221, 29])

/-- some of the cases -/
def ko2Case40 : CaseTree :=
  .cases 85 (.cases 92 (.cycle
  [358, 333, 112, 97, 336, 202, 197, 191, 147, 210, 189, 262, 263, 77]) (.cases 93 (.cases 94
  (.cases 95 (.cases 96 (.cases 97 (.cases 99 (.cases 101 (.cases 102 (.cases 107 (.cycle
  [358, 333, 112, 97, 336, 202, 197, 191, 147, 210, 189, 198, 219, 235, 256, 257, 258, 255, 327])
  (.cases 108 (.cycle [250, 251, 252]) (.cases 100 (.cycle
  [358, 333, 112, 97, 336, 202, 197, 191, 147, 210, 189, 198, 219, 225, 231, 236, 249, 90]) (.cycle
  [61, 147, 210, 189, 198, 219, 235, 229, 232, 249, 90])))) (.cases 100 (.cases 103 (.cycle
  [61, 147, 210, 189, 198, 219, 225, 231, 246, 247, 248]) (.cases 104 (.cycle
  [61, 147, 210, 189, 198, 219, 225, 231, 244, 245, 238, 239]) (.cases 105 (.cycle
  [358, 333, 112, 97, 336, 202, 197, 191, 147, 210, 189, 198, 219, 225, 242, 243, 38]) (.cycle
  [240, 241, 218])))) (.cycle
  [358, 333, 112, 97, 336, 202, 197, 191, 147, 210, 189, 198, 219, 235, 229, 237, 238, 239])))
  (.cycle [61, 147, 210, 189, 198, 219, 235, 236, 230, 74])) (.cases 100 (.cases 101 (.cycle
  [61, 147, 210, 189, 198, 219, 225, 232, 233, 234]) (.cycle [67, 230, 231, 38])) (.cycle
  [67, 228, 229, 74]))) (.cases 98 (.cycle
  [358, 333, 112, 97, 336, 202, 197, 191, 147, 210, 189, 198, 219, 225, 226, 227, 38]) (.cycle
  [222, 223, 224]))) (.cycle
  [358, 333, 112, 97, 336, 202, 197, 191, 147, 210, 189, 198, 219, 220, 221, 29])) (.cycle
  [216, 217, 218])) (.cycle [213, 214, 215])) (.cycle
  [358, 333, 112, 97, 336, 202, 197, 191, 147, 210, 189, 198, 211, 212, 69]))) (.cycle
  [358, 333, 112, 97, 336, 202, 197, 191, 147, 166, 187, 188])

/-- some of the cases -/
def ko2Case41 : CaseTree :=
  .cases 91 (.cycle [207, 208, 209]) (.cycle [206, 203, 204])

/-- some of the cases -/
def ko2Case42 : CaseTree :=
  .cases 72 (.cycle [200, 195, 201, 199, 188]) (.cycle [64, 197, 182, 166, 198, 199, 188])

/-- some of the cases -/
def ko2Case43 : CaseTree :=
  .cases 71 (.cycle [61, 196, 145, 192]) (.cases 72 (.cycle
  [358, 333, 112, 97, 336, 144, 145, 184, 195, 148]) (.cases 73 (.cases 83 (.cycle
  [185, 186, 193, 194, 192]) (.cases 79 (.cycle [185, 186, 191, 158, 192]) (.cases 85 (.cases 81
  (.cycle [185, 186, 145, 164, 189, 154, 190]) (.cycle [185, 186, 145, 146, 151, 84])) (.cycle
  [185, 186, 145, 184, 187, 188])))) (.cases 74 (.cases 75 (.cycle
  [358, 333, 112, 97, 336, 144, 182, 183, 184, 176, 177, 178, 179]) (.cases 80 (.cases 81
  (.cases 82 (.cycle [155, 156, 157]) (.cycle [152, 153, 154])) (.cycle
  [358, 333, 112, 97, 336, 144, 182, 150, 151, 84])) (.cycle [61, 147, 180, 181]))) (.cases 75
  (.cycle [358, 333, 112, 97, 336, 144, 145, 149, 166, 176, 177, 178, 179]) (.cases 76 (.cycle
  [155, 174, 175]) (.cases 77 (.cycle [152, 172, 173]) (.cases 78 (.cases 83 (.cycle
  [169, 170, 171]) (.cases 79 (.cases 84 (.cycle [61, 158, 164, 165, 166, 168, 87]) (.cycle
  [161, 162, 163])) (.cases 81 (.cases 84 (.cycle
  [358, 333, 112, 97, 336, 144, 145, 164, 165, 166, 154, 167, 87]) (.cycle [161, 162, 163]))
  (.cycle [358, 333, 112, 97, 336, 144, 145, 146, 151, 84])))) (.cases 79 (.cycle
  [61, 158, 159, 160, 20]) (.cases 80 (.cases 81 (.cases 82 (.cycle [155, 156, 157]) (.cycle
  [152, 153, 154])) (.cycle [358, 333, 112, 97, 336, 144, 145, 149, 150, 151, 84])) (.cycle
  [358, 333, 112, 97, 336, 144, 145, 146, 147, 148]))))))))))

/-- some of the cases -/
def ko2Case44 : CaseTree :=
  .cases 80 (.cycle [58, 108, 339, 150, 158, 192]) (.cases 72 (.cycle [61, 158, 184, 195, 148])
  (.cases 87 (.cycle [299, 294, 158, 192]) (.cases 85 (.cases 74 (.cycle [61, 147, 180, 181])
  (.cases 83 (.cycle [61, 293, 194, 192]) (.cases 84 (.cycle [58, 108, 370, 158, 164, 165, 148])
  (.cycle [58, 108, 370, 158, 149, 210, 189, 168, 87])))) (.cycle
  [58, 108, 370, 147, 166, 187, 188]))))

/-- some of the cases -/
def ko2Case45 : CaseTree :=
  .cases 74 (.cycle [180, 303, 161]) (.cases 72 (.cases 81 (.cases 80 (.cases 87 (.cases 85 (.cycle
  [299, 189, 195, 148]) (.cases 84 (.cycle [200, 187, 165, 148]) (.cycle
  [200, 195, 210, 294, 190]))) (.cycle [200, 195, 150, 293, 188])) (.cycle [200, 154, 147, 148]))
  (.cycle [58, 108, 202, 146, 265, 195, 148])) (.cases 81 (.cases 89 (.cases 122 (.cycle
  [58, 108, 202, 149, 166, 262, 343, 190]) (.cases 91 (.cases 77 (.cases 76 (.cycle
  [155, 174, 175]) (.cycle [152, 172, 173])) (.cases 86 (.cases 88 (.cases 75 (.cycle
  [381, 291, 166, 176, 177, 178, 179]) (.cases 82 (.cycle [155, 156, 157]) (.cycle
  [152, 153, 154]))) (.cases 92 (.cases 84 (.cycle [273, 380, 165]) (.cases 94 (.cases 111
  (.cases 100 (.cases 82 (.cases 87 (.cases 85 (.cases 75 (.cycle
  [58, 108, 202, 149, 210, 189, 176, 177, 178, 179]) (.cycle [155, 156, 157])) (.cycle
  [58, 108, 202, 149, 166, 187, 294, 190])) (.cycle
  [58, 108, 202, 149, 166, 154, 293, 208, 263, 278, 231, 38])) (.cycle [152, 153, 154]))
  (.cases 104 (.cases 103 (.cycle [58, 108, 202, 149, 166, 154, 342, 263, 211, 229, 237, 247, 248])
  (.cases 105 (.cases 117 (.cycle [253, 331, 332]) (.cases 118 (.cycle [250, 329, 330]) (.cases 113
  (.cases 98 (.cases 101 (.cases 108 (.cases 87 (.cases 85 (.cycle
  [58, 108, 202, 149, 210, 189, 154, 342, 263, 211, 229, 242, 245, 252, 328, 283]) (.cycle
  [58, 108, 202, 149, 166, 187, 294, 190])) (.cycle
  [58, 108, 202, 149, 166, 154, 293, 208, 263, 211, 229, 242, 245, 252, 270])) (.cycle
  [58, 108, 202, 149, 166, 154, 342, 263, 211, 229, 232, 249, 90])) (.cases 112 (.cycle
  [67, 230, 226, 289, 245, 282, 283]) (.cycle [218, 287, 288]))) (.cycle [222, 223, 224]))
  (.cases 82 (.cases 87 (.cases 85 (.cases 75 (.cycle
  [58, 108, 202, 149, 210, 189, 176, 177, 178, 179]) (.cycle [155, 156, 157])) (.cycle
  [58, 108, 202, 149, 166, 187, 294, 190])) (.cycle
  [58, 108, 202, 149, 166, 154, 293, 208, 263, 211, 229, 284, 285, 286])) (.cycle
  [152, 153, 154]))))) (.cases 82 (.cases 87 (.cases 85 (.cases 75 (.cycle
  [58, 108, 202, 149, 210, 189, 176, 177, 178, 179]) (.cycle [155, 156, 157])) (.cycle
  [58, 108, 202, 149, 166, 187, 294, 190])) (.cycle
  [58, 108, 202, 149, 166, 154, 293, 208, 263, 211, 244, 240, 280])) (.cycle [152, 153, 154]))))
  (.cycle [58, 108, 202, 149, 166, 154, 342, 263, 272, 243, 229, 74]))) (.cases 87 (.cases 85
  (.cycle [58, 108, 202, 149, 210, 189, 154, 342, 225, 271, 77]) (.cycle
  [58, 108, 202, 149, 166, 187, 294, 190])) (.cycle
  [58, 108, 202, 149, 166, 154, 293, 208, 225, 271, 77]))) (.cycle [70, 297, 263, 77]))) (.cases 87
  (.cases 85 (.cases 75 (.cycle [58, 108, 202, 149, 273, 380, 189, 176, 177, 178, 179]) (.cases 82
  (.cycle [155, 156, 157]) (.cycle [152, 153, 154]))) (.cycle
  [58, 108, 202, 149, 166, 187, 294, 190])) (.cycle
  [58, 108, 202, 149, 166, 154, 293, 264, 219, 69])))) (.cycle
  [58, 108, 202, 149, 166, 154, 306, 199, 188]))) (.cycle
  [58, 108, 202, 149, 166, 154, 342, 366, 188]))) (.cycle [321, 205, 154, 190])) (.cases 83 (.cycle
  [299, 194, 146, 151, 84]) (.cases 80 (.cycle [58, 108, 202, 149, 150, 151, 84]) (.cases 87
  (.cycle [58, 108, 202, 164, 294, 151, 84]) (.cases 85 (.cases 84 (.cycle
  [58, 108, 202, 146, 293, 165, 148]) (.cycle [58, 108, 202, 146, 147, 210, 189, 168, 87])) (.cycle
  [58, 108, 202, 146, 147, 166, 187, 188])))))))

/-- some of the cases -/
def ko2Case46 : CaseTree :=
  .cases 62 (.cycle [354, 364, 134, 334]) (.cases 52 (.cycle [354, 356, 131, 79]) (.cycle
  [358, 333, 355, 364, 379, 81]))

/-- some of the cases -/
def ko2Case47 : CaseTree :=
  .cases 74 (.cases 84 (.cycle [180, 170, 171, 165]) (.cases 70 (.cycle
  [94, 102, 359, 365, 352, 351, 183, 197, 300]) (.cases 73 (.cycle
  [94, 102, 359, 365, 352, 351, 186, 145, 192]) (.cases 80 (.cases 72 (.cycle [200, 195, 183, 192])
  (.cases 83 (.cycle [94, 102, 359, 365, 352, 337, 182, 210, 194, 192]) (.cases 81 (.cases 87
  (.cases 85 (.cycle [94, 102, 359, 365, 352, 337, 182, 183, 164, 189, 154, 190]) (.cycle
  [94, 102, 359, 365, 352, 337, 182, 166, 187, 294, 190])) (.cycle
  [94, 102, 359, 365, 352, 337, 182, 166, 154, 293, 188])) (.cycle
  [94, 102, 359, 365, 352, 337, 182, 150, 151, 84])))) (.cycle [61, 147, 180, 181]))))) (.cases 73
  (.cycle [94, 102, 359, 365, 352, 353, 149, 186, 300]) (.cases 79 (.cases 78 (.cases 72 (.cycle
  [61, 158, 184, 195, 148]) (.cases 87 (.cycle [299, 294, 158, 192]) (.cases 83 (.cycle
  [61, 293, 194, 192]) (.cases 84 (.cycle [61, 158, 164, 165, 166, 168, 87]) (.cycle
  [161, 162, 163]))))) (.cycle [61, 158, 159, 160, 20])) (.cases 71 (.cycle
  [94, 102, 359, 365, 352, 353, 146, 196, 300]) (.cases 81 (.cases 80 (.cases 70 (.cases 75 (.cycle
  [94, 102, 359, 365, 352, 353, 197, 295, 176, 177, 178, 179]) (.cases 82 (.cycle [155, 156, 157])
  (.cycle [94, 102, 359, 365, 352, 353, 197, 182, 150, 152, 153, 168, 87]))) (.cases 72 (.cycle
  [94, 102, 359, 365, 352, 337, 145, 184, 195, 148]) (.cases 85 (.cases 83 (.cycle [169, 170, 171])
  (.cases 84 (.cycle [94, 102, 359, 365, 352, 337, 145, 164, 165, 166, 154, 190]) (.cycle
  [94, 102, 359, 365, 352, 337, 145, 149, 210, 189, 154, 190]))) (.cycle
  [94, 102, 359, 365, 352, 337, 145, 149, 166, 187, 188])))) (.cycle [200, 154, 147, 148]))
  (.cases 70 (.cycle [94, 102, 359, 365, 352, 353, 197, 191, 151, 84]) (.cycle
  [94, 102, 359, 365, 352, 337, 145, 146, 151, 84]))))))

/-- some of the cases -/
def ko2Case48 : CaseTree :=
  .cases 75 (.cycle [299, 315, 316, 317, 318, 178, 179]) (.cases 87 (.cases 71 (.cycle
  [299, 294, 196, 300]) (.cases 81 (.cases 82 (.cycle [155, 156, 157]) (.cycle [152, 153, 154]))
  (.cycle [299, 315, 191, 151, 84]))) (.cycle [61, 293, 315, 300]))

/-- some of the cases -/
def ko2Case49 : CaseTree :=
  .cases 70 (.cases 79 (.cycle [61, 158, 197, 300]) (.cases 50 (.cycle
  [94, 102, 357, 104, 97, 336, 202, 146, 313, 314]) (.cases 61 (.cases 54 (.cases 63 (.cases 58
  (.cases 64 (.cases 65 (.cases 66 (.cases 67 (.cycle [128, 129, 130, 127, 131, 79]) (.cycle
  [124, 125, 126, 127, 102, 359, 97, 336, 202, 146, 196, 300])) (.cycle [121, 122, 123])) (.cycle
  [118, 119, 120])) (.cycle [113, 114, 115, 116, 117, 102, 359, 97, 336, 202, 146, 313, 314]))
  (.cycle [94, 103, 338, 359, 97, 336, 202, 146, 313, 314])) (.cycle
  [109, 110, 111, 102, 359, 97, 336, 202, 146, 196, 300])) (.cycle
  [94, 95, 367, 359, 97, 336, 202, 146, 313, 314])) (.cycle
  [94, 105, 362, 359, 97, 336, 202, 146, 196, 300])))) (.cycle [61, 196, 145, 192])

/-- some of the cases -/
def ko2Case50 : CaseTree :=
  .cases 80 (.cases 85 (.cases 75 (.cycle
  [94, 102, 359, 97, 336, 202, 197, 193, 189, 176, 177, 178, 179]) (.cases 82 (.cycle
  [155, 156, 157]) (.cycle [152, 153, 154]))) (.cases 86 (.cases 77 (.cycle
  [200, 187, 264, 173, 190]) (.cases 91 (.cases 87 (.cases 50 (.cycle
  [94, 102, 357, 104, 97, 336, 202, 197, 295, 187, 294, 190]) (.cases 127 (.cases 61 (.cases 63
  (.cases 58 (.cycle [124, 130, 127, 102, 359, 97, 336, 202, 197, 295, 187, 294, 167, 87]) (.cycle
  [94, 103, 338, 359, 97, 336, 202, 197, 295, 187, 294, 190])) (.cycle
  [109, 110, 111, 102, 359, 97, 336, 202, 197, 295, 187, 294, 190])) (.cycle [377, 378, 105]))
  (.cycle [375, 376, 362, 359, 97, 336, 202, 197, 295, 187, 294, 167, 87]))) (.cases 72 (.cycle
  [200, 195, 150, 293, 188]) (.cases 73 (.cases 111 (.cases 92 (.cases 100 (.cases 115 (.cycle
  [310, 311, 312, 140, 197, 295, 154, 293, 208, 263, 278, 231, 38]) (.cases 114 (.cycle
  [307, 308, 309]) (.cases 74 (.cycle [180, 303, 161]) (.cycle
  [94, 102, 359, 97, 336, 202, 149, 186, 295, 154, 293, 208, 263, 278, 231, 38])))) (.cases 99
  (.cases 104 (.cases 103 (.cycle [200, 154, 293, 208, 263, 211, 229, 237, 247, 248]) (.cases 105
  (.cases 98 (.cases 101 (.cases 108 (.cases 110 (.cases 102 (.cases 115 (.cycle
  [310, 311, 312, 140, 197, 295, 154, 293, 208, 263, 211, 229, 226, 257, 252, 270]) (.cases 114
  (.cycle [307, 308, 309]) (.cases 74 (.cycle [180, 303, 161]) (.cycle
  [94, 102, 359, 97, 336, 202, 149, 186, 295, 154, 293, 208, 263, 211, 229, 226, 257, 252, 270]))))
  (.cycle [200, 154, 293, 208, 263, 211, 229, 242, 245, 238, 269, 270])) (.cycle
  [200, 154, 293, 208, 263, 211, 229, 242, 245, 252, 268, 239])) (.cycle
  [200, 154, 293, 208, 263, 211, 229, 232, 249, 90])) (.cases 115 (.cycle
  [310, 311, 312, 140, 197, 295, 154, 293, 208, 263, 211, 236, 230, 74]) (.cases 114 (.cycle
  [307, 308, 309]) (.cases 74 (.cycle [180, 303, 161]) (.cycle
  [94, 102, 359, 97, 336, 202, 149, 186, 295, 154, 293, 208, 263, 211, 236, 230, 74]))))) (.cycle
  [222, 223, 224])) (.cases 115 (.cycle
  [310, 311, 312, 140, 197, 295, 154, 293, 208, 263, 211, 244, 240, 280]) (.cases 114 (.cycle
  [307, 308, 309]) (.cases 74 (.cycle [180, 303, 161]) (.cycle
  [94, 102, 359, 97, 336, 202, 149, 186, 295, 154, 293, 208, 263, 211, 244, 240, 280])))))) (.cycle
  [200, 154, 293, 208, 263, 272, 243, 229, 74])) (.cycle [67, 228, 229, 74]))) (.cases 115 (.cycle
  [310, 311, 312, 140, 197, 295, 154, 293, 264, 219, 69]) (.cases 114 (.cycle [307, 308, 309])
  (.cases 74 (.cycle [180, 303, 161]) (.cycle
  [94, 102, 359, 97, 336, 202, 149, 186, 295, 154, 293, 264, 219, 69]))))) (.cases 94 (.cases 116
  (.cycle [325, 326, 197, 295, 154, 293, 208, 225, 271, 77]) (.cycle
  [94, 102, 359, 97, 336, 202, 323, 324, 186, 295, 154, 293, 208, 225, 271, 77])) (.cycle
  [213, 214, 215]))) (.cycle [94, 102, 359, 97, 336, 202, 197, 182, 166, 187, 188])))) (.cycle
  [206, 203, 204]))) (.cases 61 (.cases 63 (.cases 87 (.cycle [82, 199, 294, 190]) (.cases 77
  (.cycle [82, 173, 293, 188]) (.cases 58 (.cycle
  [124, 130, 127, 102, 359, 97, 336, 202, 197, 295, 154, 306, 199, 188]) (.cases 50 (.cycle
  [94, 102, 357, 104, 97, 336, 202, 197, 295, 154, 306, 199, 188]) (.cycle
  [94, 103, 338, 359, 97, 336, 202, 197, 295, 154, 306, 199, 188]))))) (.cycle
  [109, 110, 111, 102, 359, 97, 336, 202, 197, 295, 198, 199, 188])) (.cycle
  [94, 105, 362, 359, 97, 336, 202, 197, 295, 198, 199, 188])))) (.cycle [200, 154, 147, 148])

/-- some of the cases -/
def ko2Case51 : CaseTree :=
  .cases 115 (.cycle [310, 311, 312, 140, 197, 191, 151, 84]) (.cases 114 (.cycle [307, 308, 309])
  (.cases 50 (.cycle [94, 102, 357, 104, 97, 336, 202, 197, 191, 151, 84]) (.cases 61 (.cases 54
  (.cases 63 (.cases 72 (.cycle [94, 102, 359, 97, 336, 202, 197, 191, 265, 195, 148]) (.cases 64
  (.cases 65 (.cases 66 (.cases 67 (.cases 58 (.cycle [128, 129, 130, 127, 131, 79]) (.cases 80
  (.cases 74 (.cycle [180, 303, 161]) (.cases 73 (.cycle
  [94, 103, 338, 359, 97, 336, 202, 149, 186, 191, 151, 84]) (.cycle
  [64, 197, 182, 150, 151, 84]))) (.cycle
  [94, 103, 338, 359, 97, 336, 202, 197, 191, 147, 166, 168, 87]))) (.cases 58 (.cycle
  [124, 125, 126, 127, 102, 359, 97, 336, 202, 197, 191, 151, 84]) (.cycle
  [124, 125, 117, 103, 338, 359, 97, 336, 202, 197, 191, 151, 84]))) (.cycle [121, 122, 123]))
  (.cycle [118, 119, 120])) (.cycle
  [113, 114, 115, 116, 117, 102, 359, 97, 336, 202, 197, 191, 151, 84]))) (.cycle
  [109, 110, 111, 102, 359, 97, 336, 202, 197, 191, 151, 84])) (.cycle
  [94, 95, 367, 359, 97, 336, 202, 197, 191, 151, 84])) (.cycle
  [94, 105, 362, 359, 97, 336, 202, 197, 191, 151, 84]))))

/-- some of the cases -/
def ko2Case52 : CaseTree :=
  .cases 120 (.cycle [185, 374, 144, 145, 192]) (.cases 76 (.cycle [155, 174, 175]) (.cases 72
  (.cycle [94, 102, 359, 97, 336, 144, 145, 184, 195, 148]) (.cases 83 (.cycle [169, 170, 171])
  (.cases 73 (.cases 50 (.cycle [94, 102, 357, 104, 97, 336, 339, 186, 145, 192]) (.cases 61
  (.cases 63 (.cases 58 (.cases 79 (.cycle [185, 186, 191, 158, 192]) (.cases 87 (.cases 85
  (.cases 81 (.cycle [185, 186, 145, 164, 189, 154, 190]) (.cycle
  [185, 186, 145, 164, 294, 151, 84])) (.cycle [185, 186, 145, 184, 187, 188])) (.cycle
  [124, 130, 127, 102, 359, 97, 336, 339, 186, 145, 146, 293, 188]))) (.cycle
  [94, 103, 338, 359, 97, 336, 339, 186, 145, 192])) (.cycle
  [109, 110, 111, 102, 359, 97, 336, 339, 186, 145, 192])) (.cycle
  [94, 105, 362, 359, 97, 336, 339, 186, 145, 192]))) (.cases 74 (.cases 114 (.cases 50 (.cycle
  [94, 102, 357, 104, 97, 336, 144, 182, 183, 192]) (.cases 61 (.cases 63 (.cases 58 (.cases 80
  (.cases 85 (.cases 82 (.cycle [94, 102, 359, 97, 336, 144, 182, 183, 164, 189, 176, 157, 345])
  (.cases 81 (.cycle [152, 153, 154]) (.cycle [94, 102, 359, 97, 336, 144, 182, 150, 151, 84])))
  (.cycle [124, 130, 127, 102, 359, 97, 336, 144, 182, 183, 184, 187, 188])) (.cycle
  [61, 147, 180, 181])) (.cycle [94, 103, 338, 359, 97, 336, 144, 182, 180, 181])) (.cycle
  [109, 110, 111, 102, 359, 97, 336, 371, 307, 372])) (.cycle
  [94, 105, 362, 359, 97, 336, 371, 307, 372]))) (.cycle [180, 303, 161])) (.cases 77 (.cycle
  [152, 172, 173]) (.cases 85 (.cases 78 (.cases 79 (.cases 84 (.cycle
  [61, 158, 164, 165, 166, 168, 87]) (.cycle [161, 162, 163])) (.cases 81 (.cases 63 (.cases 58
  (.cycle [124, 130, 127, 102, 359, 97, 336, 144, 145, 164, 189, 154, 167, 87]) (.cases 50 (.cycle
  [94, 102, 357, 104, 97, 336, 144, 145, 164, 189, 154, 190]) (.cycle
  [94, 103, 338, 359, 97, 336, 144, 145, 164, 189, 154, 190]))) (.cycle
  [109, 110, 362, 359, 97, 336, 144, 145, 164, 189, 154, 167, 87])) (.cycle
  [94, 102, 359, 97, 336, 144, 145, 146, 151, 84]))) (.cases 84 (.cycle [319, 320, 171]) (.cases 82
  (.cycle [94, 102, 359, 97, 336, 144, 145, 149, 210, 189, 176, 157, 345]) (.cases 81 (.cycle
  [152, 153, 154]) (.cases 79 (.cycle [61, 158, 159, 160, 20]) (.cycle
  [94, 102, 359, 97, 336, 144, 145, 146, 151, 84])))))) (.cycle
  [94, 102, 359, 97, 336, 144, 145, 149, 166, 187, 188]))))))))

/-- some of the cases -/
def ko2Case53 : CaseTree :=
  .cases 50 (.cycle [94, 102, 357, 104, 97, 337, 108, 63]) (.cases 61 (.cases 54 (.cases 63
  (.cases 70 (.cycle [64, 197, 108, 63]) (.cases 73 (.cycle [185, 186, 108, 63]) (.cases 64
  (.cases 65 (.cases 66 (.cases 68 (.cases 120 (.cycle [58, 182, 346, 373]) (.cases 114 (.cycle
  [58, 108, 371, 307, 372]) (.cases 67 (.cases 58 (.cycle [128, 129, 130, 127, 131, 79]) (.cases 79
  (.cycle [94, 103, 338, 359, 97, 337, 108, 370, 158, 192]) (.cases 72 (.cycle
  [94, 103, 338, 359, 97, 337, 108, 202, 184, 195, 148]) (.cases 80 (.cases 81 (.cases 78
  (.cases 75 (.cycle
  [94, 103, 338, 359, 97, 337, 108, 369, 170, 163, 161, 166, 176, 177, 178, 179]) (.cases 82
  (.cycle [155, 156, 157]) (.cycle [152, 153, 154]))) (.cases 83 (.cycle [169, 303, 320, 171])
  (.cases 85 (.cases 75 (.cycle
  [94, 103, 338, 359, 97, 337, 108, 202, 164, 189, 176, 177, 178, 179]) (.cases 82 (.cycle
  [155, 156, 157]) (.cycle [152, 153, 154]))) (.cases 87 (.cycle
  [94, 103, 338, 359, 97, 337, 108, 339, 166, 187, 294, 190]) (.cases 74 (.cycle [180, 303, 161])
  (.cycle [94, 103, 338, 359, 97, 337, 108, 202, 149, 166, 154, 293, 188])))))) (.cases 74 (.cycle
  [180, 303, 161]) (.cycle [58, 108, 202, 149, 150, 151, 84]))) (.cycle
  [94, 103, 338, 359, 97, 337, 108, 202, 146, 147, 166, 168, 87]))))) (.cases 58 (.cycle
  [124, 125, 126, 127, 102, 359, 97, 337, 108, 63]) (.cycle
  [124, 125, 117, 103, 338, 359, 97, 337, 108, 63]))))) (.cycle [58, 145, 368, 63])) (.cycle
  [121, 122, 123])) (.cycle [118, 119, 120])) (.cycle
  [113, 114, 115, 116, 117, 102, 359, 97, 337, 108, 63])))) (.cycle
  [109, 110, 111, 102, 359, 97, 337, 108, 63])) (.cycle [94, 95, 367, 359, 97, 337, 108, 63]))
  (.cycle [94, 105, 362, 359, 97, 337, 108, 63]))

/-- some of the cases -/
def ko2Case54 : CaseTree :=
  .cases 70 (.cycle [61, 158, 197, 300]) (.cases 73 (.cycle [354, 364, 97, 351, 186, 145, 192])
  (.cases 80 (.cycle [354, 364, 97, 337, 182, 150, 158, 192]) (.cases 72 (.cycle
  [61, 158, 184, 195, 148]) (.cases 87 (.cycle [299, 294, 158, 192]) (.cases 74 (.cycle
  [61, 147, 180, 181]) (.cases 83 (.cycle [61, 293, 194, 192]) (.cases 84 (.cycle
  [61, 158, 164, 165, 166, 168, 87]) (.cases 78 (.cycle [161, 162, 163]) (.cycle
  [61, 158, 159, 160, 20])))))))))

/-- some of the cases -/
def ko2Case55 : CaseTree :=
  .cases 83 (.cycle [299, 194, 197, 300]) (.cases 72 (.cycle
  [354, 364, 97, 353, 197, 295, 195, 148]) (.cases 69 (.cases 74 (.cycle
  [354, 364, 97, 351, 183, 164, 315, 300]) (.cases 84 (.cases 73 (.cycle [299, 165, 186, 300])
  (.cycle [299, 315, 182, 148])) (.cycle [354, 364, 97, 353, 149, 210, 315, 300]))) (.cases 85
  (.cases 81 (.cycle [354, 364, 97, 353, 197, 193, 189, 154, 190]) (.cases 87 (.cycle
  [64, 197, 193, 294, 151, 84]) (.cycle [354, 364, 97, 353, 197, 191, 293, 189, 168, 87])))
  (.cases 73 (.cases 87 (.cycle [354, 364, 97, 353, 197, 295, 187, 294, 190]) (.cases 91 (.cases 86
  (.cases 111 (.cases 81 (.cases 74 (.cases 92 (.cases 100 (.cycle
  [354, 364, 97, 351, 183, 197, 295, 154, 293, 208, 263, 278, 231, 38]) (.cases 104 (.cases 103
  (.cycle [200, 154, 293, 208, 263, 211, 229, 237, 247, 248]) (.cases 102 (.cases 105 (.cases 98
  (.cases 112 (.cycle
  [354, 364, 97, 351, 183, 197, 295, 154, 293, 208, 263, 211, 229, 226, 289, 248]) (.cycle
  [354, 364, 97, 351, 183, 197, 295, 154, 293, 208, 263, 211, 229, 242, 281, 257, 282, 283]))
  (.cycle [222, 223, 224])) (.cycle
  [354, 364, 97, 351, 183, 197, 295, 154, 293, 208, 263, 211, 244, 279, 74])) (.cycle
  [354, 364, 97, 351, 183, 197, 295, 154, 293, 208, 263, 211, 244, 245, 238, 239]))) (.cycle
  [354, 364, 97, 351, 183, 197, 295, 154, 293, 208, 263, 272, 243, 38]))) (.cycle
  [354, 364, 97, 351, 183, 197, 295, 154, 293, 264, 219, 69])) (.cycle
  [354, 364, 97, 353, 149, 186, 295, 154, 293, 188])) (.cases 115 (.cycle
  [310, 311, 312, 140, 197, 191, 151, 84]) (.cases 114 (.cycle [307, 308, 309]) (.cases 74 (.cycle
  [180, 303, 161]) (.cycle [354, 364, 97, 353, 149, 186, 191, 151, 84]))))) (.cases 94 (.cases 81
  (.cycle [354, 364, 97, 353, 197, 295, 154, 293, 208, 225, 271, 77]) (.cycle
  [354, 364, 97, 353, 197, 191, 265, 187, 208, 225, 271, 77])) (.cycle [213, 214, 215])))
  (.cases 74 (.cycle [354, 364, 97, 351, 183, 197, 295, 198, 199, 188]) (.cycle
  [354, 364, 97, 353, 149, 186, 295, 198, 199, 188]))) (.cycle [206, 203, 204]))) (.cycle
  [354, 364, 97, 353, 197, 182, 166, 187, 188])))))

/-- some of the cases -/
def ko2Case56 : CaseTree :=
  .cases 73 (.cycle [354, 364, 97, 351, 186, 145, 192]) (.cases 72 (.cycle
  [354, 364, 97, 337, 145, 184, 195, 148]) (.cases 80 (.cases 81 (.cases 89 (.cases 122 (.cycle
  [354, 364, 97, 337, 182, 166, 262, 343, 190]) (.cases 91 (.cases 77 (.cases 76 (.cycle
  [155, 174, 175]) (.cycle [152, 172, 173])) (.cases 86 (.cases 74 (.cases 83 (.cycle
  [169, 170, 171]) (.cases 92 (.cases 94 (.cases 82 (.cases 104 (.cases 103 (.cases 100 (.cases 111
  (.cycle [354, 364, 97, 337, 182, 183, 184, 154, 342, 263, 278, 231, 246, 247, 248]) (.cases 87
  (.cases 85 (.cycle [354, 364, 97, 337, 182, 183, 164, 189, 154, 342, 225, 271, 77]) (.cycle
  [354, 364, 97, 337, 182, 183, 184, 187, 294, 190])) (.cycle
  [354, 364, 97, 337, 182, 183, 184, 154, 293, 208, 225, 271, 77]))) (.cycle
  [354, 364, 97, 337, 182, 183, 184, 154, 342, 263, 211, 229, 237, 247, 248])) (.cases 85
  (.cases 75 (.cycle [354, 364, 97, 337, 182, 183, 164, 189, 176, 177, 178, 179]) (.cycle
  [155, 156, 157])) (.cases 87 (.cycle [354, 364, 97, 337, 182, 166, 187, 294, 190]) (.cases 111
  (.cases 100 (.cycle [354, 364, 97, 337, 182, 183, 184, 154, 293, 208, 263, 278, 231, 38])
  (.cases 102 (.cases 105 (.cases 98 (.cases 112 (.cycle
  [354, 364, 97, 337, 182, 183, 184, 154, 293, 208, 263, 211, 229, 226, 289, 248]) (.cycle
  [354, 364, 97, 337, 182, 183, 184, 154, 293, 208, 263, 211, 229, 242, 281, 257, 282, 283]))
  (.cycle [222, 223, 224])) (.cycle
  [354, 364, 97, 337, 182, 183, 184, 154, 293, 208, 263, 211, 244, 279, 74])) (.cycle
  [354, 364, 97, 337, 182, 183, 184, 154, 293, 208, 263, 211, 244, 245, 238, 239]))) (.cycle
  [354, 364, 97, 337, 182, 183, 184, 154, 293, 208, 225, 271, 77]))))) (.cases 87 (.cases 85
  (.cycle [354, 364, 97, 337, 182, 183, 164, 189, 154, 342, 263, 272, 243, 38]) (.cycle
  [354, 364, 97, 337, 182, 183, 184, 187, 294, 190])) (.cycle
  [354, 364, 97, 337, 182, 183, 184, 154, 293, 208, 263, 272, 243, 38]))) (.cycle [152, 153, 154]))
  (.cycle [70, 297, 263, 77])) (.cases 87 (.cases 85 (.cases 75 (.cycle
  [354, 364, 97, 337, 182, 183, 164, 189, 176, 177, 178, 179]) (.cases 82 (.cycle [155, 156, 157])
  (.cycle [152, 153, 154]))) (.cycle [354, 364, 97, 337, 182, 183, 184, 187, 294, 190])) (.cycle
  [354, 364, 97, 337, 182, 183, 184, 154, 293, 264, 219, 69])))) (.cases 75 (.cycle
  [354, 364, 97, 337, 145, 149, 166, 176, 177, 178, 179]) (.cases 82 (.cycle [155, 156, 157])
  (.cycle [152, 153, 154])))) (.cycle [354, 364, 97, 337, 182, 166, 154, 306, 199, 188]))) (.cycle
  [354, 364, 97, 337, 182, 166, 154, 342, 366, 188]))) (.cycle [321, 205, 154, 190])) (.cases 74
  (.cycle [354, 364, 97, 337, 182, 183, 146, 151, 84]) (.cycle
  [354, 364, 97, 337, 145, 149, 150, 151, 84]))) (.cycle
  [354, 364, 97, 337, 145, 146, 147, 166, 168, 87])))

/-- some of the cases -/
def ko2Case57 : CaseTree :=
  .cases 68 (.cases 61 (.cases 63 (.cases 126 (.cases 50 (.cycle
  [94, 102, 357, 104, 365, 202, 348, 349]) (.cases 58 (.cycle
  [124, 130, 127, 102, 359, 365, 202, 348, 349]) (.cycle [94, 103, 338, 359, 365, 202, 348, 349])))
  (.cycle [354, 364, 363, 348, 349])) (.cycle [109, 110, 111, 102, 359, 363, 348, 349])) (.cycle
  [94, 105, 362, 359, 363, 348, 349])) (.cycle [138, 139, 140])

/-- some of the cases -/
def ko2Case58 : CaseTree :=
  .cases 70 (.cycle [61, 158, 197, 300]) (.cases 72 (.cycle [61, 158, 184, 195, 148]) (.cases 87
  (.cycle [299, 294, 158, 192]) (.cases 83 (.cycle [61, 293, 194, 192]) (.cases 84 (.cycle
  [61, 158, 164, 165, 166, 168, 87]) (.cases 71 (.cycle [61, 196, 145, 192]) (.cases 73 (.cycle
  [185, 186, 191, 158, 192]) (.cases 80 (.cycle [33, 141, 143, 352, 337, 182, 150, 158, 192])
  (.cases 74 (.cycle [61, 147, 180, 181]) (.cases 78 (.cycle [161, 162, 163]) (.cycle
  [61, 158, 159, 160, 20]))))))))))

/-- some of the cases -/
def ko2Case59 : CaseTree :=
  .cases 75 (.cycle [299, 315, 316, 317, 318, 178, 179]) (.cases 87 (.cases 71 (.cycle
  [299, 294, 196, 300]) (.cases 81 (.cases 82 (.cycle [155, 156, 157]) (.cycle [152, 153, 154]))
  (.cycle [299, 315, 191, 151, 84]))) (.cycle [61, 293, 315, 300]))

/-- some of the cases -/
def ko2Case60 : CaseTree :=
  .cases 60 (.cycle [135, 136, 102, 143, 352, 353, 146, 313, 314]) (.cases 61 (.cases 62 (.cycle
  [132, 133, 134]) (.cases 63 (.cases 55 (.cases 64 (.cases 65 (.cases 66 (.cases 67 (.cycle
  [128, 129, 130, 104, 141, 143, 352, 353, 146, 196, 300]) (.cases 58 (.cycle
  [124, 125, 126, 127, 112, 141, 143, 352, 353, 146, 196, 300]) (.cycle
  [94, 103, 104, 141, 143, 352, 353, 197, 300]))) (.cycle [121, 122, 123])) (.cycle
  [118, 119, 120])) (.cycle [113, 114, 115, 116, 117, 112, 141, 143, 352, 353, 146, 313, 314]))
  (.cycle [33, 99, 338, 143, 352, 353, 146, 313, 314])) (.cycle
  [109, 110, 111, 112, 141, 143, 352, 353, 146, 196, 300]))) (.cycle
  [94, 105, 106, 141, 143, 352, 353, 146, 196, 300]))

/-- some of the cases -/
def ko2Case61 : CaseTree :=
  .cases 85 (.cases 82 (.cycle [33, 141, 143, 352, 353, 197, 193, 189, 176, 157, 345]) (.cases 81
  (.cycle [152, 153, 154]) (.cases 87 (.cycle [64, 197, 193, 294, 151, 84]) (.cases 114 (.cycle
  [304, 305, 140, 197, 191, 151, 84]) (.cases 74 (.cycle [180, 303, 161]) (.cases 84 (.cycle
  [33, 141, 143, 352, 353, 197, 191, 293, 165, 148]) (.cases 73 (.cycle
  [33, 141, 143, 352, 353, 149, 186, 191, 151, 84]) (.cases 80 (.cycle
  [64, 197, 182, 150, 151, 84]) (.cycle
  [33, 141, 143, 352, 353, 197, 191, 147, 210, 189, 168, 87]))))))))) (.cases 91 (.cases 86
  (.cases 77 (.cycle [200, 187, 264, 173, 190]) (.cases 87 (.cycle
  [33, 141, 143, 352, 353, 197, 295, 187, 294, 167, 87]) (.cases 81 (.cases 80 (.cases 72 (.cycle
  [200, 195, 150, 293, 188]) (.cases 73 (.cases 111 (.cases 92 (.cases 105 (.cases 101 (.cases 108
  (.cases 100 (.cases 115 (.cycle [310, 311, 312, 140, 197, 295, 154, 293, 208, 263, 278, 231, 38])
  (.cases 114 (.cycle [307, 308, 309]) (.cases 74 (.cycle [180, 303, 161]) (.cycle
  [33, 141, 143, 352, 353, 149, 186, 295, 154, 293, 208, 263, 278, 231, 38])))) (.cases 103 (.cycle
  [200, 154, 293, 208, 263, 211, 229, 237, 247, 248]) (.cases 115 (.cycle
  [310, 311, 312, 140, 197, 295, 154, 293, 208, 263, 211, 229, 242, 245, 252, 270]) (.cases 114
  (.cycle [307, 308, 309]) (.cases 74 (.cycle [180, 303, 161]) (.cycle
  [33, 141, 143, 352, 353, 149, 186, 295, 154, 293, 208, 263, 211, 229, 242, 245, 252, 270]))))))
  (.cases 115 (.cycle [310, 311, 312, 140, 197, 295, 154, 293, 208, 263, 278, 232, 249, 90])
  (.cases 114 (.cycle [307, 308, 309]) (.cases 74 (.cycle [180, 303, 161]) (.cycle
  [33, 141, 143, 352, 353, 149, 186, 295, 154, 293, 208, 263, 278, 232, 249, 90]))))) (.cases 113
  (.cases 103 (.cycle [67, 230, 237, 247, 248]) (.cases 110 (.cycle [276, 269, 230, 74]) (.cases 98
  (.cases 112 (.cycle [67, 230, 226, 289, 245, 282, 283]) (.cycle [218, 287, 288])) (.cycle
  [67, 268, 277, 74])))) (.cycle [67, 230, 284, 285, 286]))) (.cases 100 (.cycle
  [33, 141, 143, 352, 353, 197, 295, 154, 293, 208, 263, 272, 279, 231, 38]) (.cases 104
  (.cases 115 (.cycle [310, 311, 312, 140, 197, 295, 154, 293, 208, 263, 211, 244, 240, 280])
  (.cases 114 (.cycle [307, 308, 309]) (.cases 74 (.cycle [180, 303, 161]) (.cycle
  [33, 141, 143, 352, 353, 149, 186, 295, 154, 293, 208, 263, 211, 244, 279, 74])))) (.cycle
  [200, 154, 293, 208, 263, 272, 243, 229, 74])))) (.cases 115 (.cycle
  [310, 311, 312, 140, 197, 295, 154, 293, 264, 219, 69]) (.cases 114 (.cycle [307, 308, 309])
  (.cases 74 (.cycle [180, 303, 161]) (.cycle
  [33, 141, 143, 352, 353, 149, 186, 295, 154, 293, 264, 219, 69]))))) (.cases 74 (.cases 94
  (.cycle [185, 183, 197, 295, 154, 293, 208, 225, 271, 77]) (.cycle [213, 214, 215])) (.cycle
  [33, 141, 143, 352, 353, 149, 186, 295, 154, 293, 344, 214, 215, 271, 77]))) (.cycle
  [33, 141, 143, 352, 353, 197, 182, 166, 187, 188]))) (.cycle [200, 154, 147, 148])) (.cases 114
  (.cycle [304, 305, 140, 197, 191, 151, 84]) (.cases 74 (.cycle [180, 303, 161]) (.cases 73
  (.cycle [33, 141, 143, 352, 353, 149, 186, 191, 151, 84]) (.cases 80 (.cycle
  [33, 141, 143, 352, 353, 197, 182, 150, 293, 188]) (.cases 72 (.cycle
  [33, 141, 143, 352, 353, 197, 191, 265, 195, 148]) (.cycle
  [354, 352, 353, 197, 191, 147, 166, 187, 188]))))))))) (.cases 81 (.cases 77 (.cases 87 (.cycle
  [82, 199, 294, 190]) (.cycle [82, 173, 293, 188])) (.cycle
  [33, 141, 143, 352, 353, 197, 295, 154, 306, 199, 188])) (.cycle
  [33, 141, 143, 352, 353, 197, 191, 265, 198, 199, 188]))) (.cycle [206, 203, 204]))

/-- some of the cases -/
def ko2Case62 : CaseTree :=
  .cases 81 (.cases 80 (.cases 73 (.cases 75 (.cycle [185, 186, 145, 184, 176, 177, 178, 179])
  (.cases 82 (.cycle [155, 156, 157]) (.cycle [152, 153, 154]))) (.cases 77 (.cases 76 (.cycle
  [155, 174, 175]) (.cycle [152, 172, 173])) (.cases 72 (.cycle
  [33, 141, 143, 352, 337, 145, 184, 195, 150, 167, 87]) (.cases 82 (.cases 75 (.cases 54
  (.cases 74 (.cases 60 (.cycle [135, 136, 102, 143, 352, 337, 182, 183, 184, 176, 177, 178, 179])
  (.cases 61 (.cases 62 (.cycle [132, 133, 134]) (.cases 63 (.cases 55 (.cases 64 (.cases 65
  (.cases 66 (.cases 67 (.cycle
  [128, 129, 130, 104, 141, 143, 352, 337, 182, 183, 184, 176, 177, 178, 179]) (.cases 58 (.cycle
  [124, 125, 126, 127, 112, 141, 143, 352, 337, 182, 183, 184, 176, 177, 178, 179]) (.cycle
  [124, 125, 117, 103, 104, 141, 60]))) (.cycle [121, 122, 123])) (.cycle [118, 119, 120])) (.cycle
  [113, 114, 115, 116, 117, 112, 141, 143, 352, 337, 182, 183, 184, 176, 177, 178, 179])) (.cycle
  [33, 99, 338, 143, 352, 337, 182, 183, 184, 176, 177, 178, 179])) (.cycle
  [109, 110, 111, 112, 141, 143, 352, 337, 182, 183, 184, 176, 177, 178, 179]))) (.cycle
  [94, 105, 106, 141, 143, 352, 337, 182, 183, 184, 176, 177, 178, 179]))) (.cases 60 (.cycle
  [135, 136, 102, 143, 352, 337, 145, 149, 166, 176, 177, 178, 179]) (.cases 61 (.cases 62 (.cycle
  [132, 133, 134]) (.cases 63 (.cases 55 (.cases 64 (.cases 65 (.cases 66 (.cases 67 (.cycle
  [128, 129, 130, 104, 141, 143, 352, 337, 145, 149, 166, 176, 177, 178, 179]) (.cases 58 (.cycle
  [124, 125, 126, 127, 112, 141, 143, 352, 337, 145, 149, 166, 176, 177, 178, 179]) (.cycle
  [124, 125, 117, 103, 104, 141, 60]))) (.cycle [121, 122, 123])) (.cycle [118, 119, 120])) (.cycle
  [113, 114, 115, 116, 117, 112, 141, 143, 352, 337, 145, 149, 166, 176, 177, 178, 179])) (.cycle
  [33, 99, 338, 143, 352, 337, 145, 149, 166, 176, 177, 178, 179])) (.cycle
  [109, 110, 111, 112, 141, 143, 352, 337, 145, 149, 166, 176, 177, 178, 179]))) (.cycle
  [94, 105, 106, 141, 143, 352, 337, 145, 149, 166, 176, 177, 178, 179])))) (.cycle
  [94, 95, 96, 141, 143, 352, 337, 182, 166, 176, 177, 178, 179])) (.cycle [155, 156, 157]))
  (.cycle [152, 153, 154]))))) (.cycle [200, 154, 147, 148])) (.cases 60 (.cycle
  [135, 136, 102, 143, 352, 337, 145, 146, 151, 84]) (.cases 61 (.cases 62 (.cycle [132, 133, 134])
  (.cases 54 (.cases 63 (.cases 55 (.cases 64 (.cases 65 (.cases 66 (.cases 67 (.cycle
  [128, 129, 130, 104, 141, 143, 352, 337, 145, 146, 151, 84]) (.cases 58 (.cycle
  [124, 125, 126, 127, 112, 141, 143, 352, 337, 145, 146, 151, 84]) (.cycle
  [94, 103, 104, 141, 143, 352, 353, 146, 151, 84]))) (.cycle [121, 122, 123])) (.cycle
  [118, 119, 120])) (.cycle [113, 114, 115, 116, 117, 112, 141, 143, 352, 337, 145, 146, 151, 84]))
  (.cycle [33, 99, 338, 143, 352, 337, 145, 146, 151, 84])) (.cycle
  [109, 110, 111, 112, 141, 143, 352, 337, 145, 146, 151, 84])) (.cycle
  [94, 95, 96, 141, 143, 352, 353, 146, 151, 84]))) (.cycle
  [94, 105, 106, 141, 143, 352, 337, 145, 146, 151, 84])))

/-- some of the cases -/
def ko2Case63 : CaseTree :=
  .cases 70 (.cases 73 (.cycle [64, 348, 351, 186, 300]) (.cases 69 (.cycle
  [64, 348, 350, 315, 300]) (.cases 84 (.cases 71 (.cycle [61, 196, 193, 165, 148]) (.cases 87
  (.cases 85 (.cases 81 (.cases 72 (.cycle [299, 189, 195, 148]) (.cycle
  [64, 348, 337, 193, 165, 166, 154, 190])) (.cycle [64, 197, 193, 294, 151, 84])) (.cycle
  [200, 187, 165, 148])) (.cycle [64, 348, 337, 191, 293, 165, 148]))) (.cases 72 (.cases 71
  (.cycle [61, 196, 295, 195, 148]) (.cases 81 (.cases 80 (.cases 87 (.cycle
  [200, 195, 210, 294, 190]) (.cycle [200, 195, 150, 293, 188])) (.cycle [200, 154, 147, 148]))
  (.cycle [64, 348, 337, 191, 265, 195, 148]))) (.cases 85 (.cases 71 (.cycle
  [61, 196, 182, 210, 189, 168, 87]) (.cases 81 (.cycle [64, 348, 337, 182, 210, 189, 154, 190])
  (.cases 80 (.cycle [64, 348, 337, 182, 150, 151, 84]) (.cycle
  [64, 348, 337, 191, 147, 210, 189, 168, 87])))) (.cycle [64, 348, 337, 182, 166, 187, 188]))))))
  (.cycle [58, 145, 348, 349])

/-- some of the cases -/
def ko2Case64 : CaseTree :=
  .cases 75 (.cycle [299, 315, 316, 317, 318, 178, 179]) (.cases 87 (.cases 71 (.cycle
  [299, 294, 196, 300]) (.cases 81 (.cases 82 (.cycle [155, 156, 157]) (.cycle [152, 153, 154]))
  (.cycle [299, 315, 191, 151, 84]))) (.cycle [61, 293, 315, 300]))

/-- some of the cases -/
def ko2Case65 : CaseTree :=
  .cases 84 (.cycle [61, 196, 193, 165, 148]) (.cases 70 (.cases 79 (.cycle [61, 158, 197, 300])
  (.cases 72 (.cycle [61, 196, 295, 195, 148]) (.cases 115 (.cycle
  [310, 311, 312, 140, 146, 313, 314]) (.cases 114 (.cycle [307, 308, 309]) (.cases 74 (.cycle
  [180, 303, 161]) (.cases 80 (.cycle [33, 141, 335, 336, 202, 149, 150, 196, 300]) (.cases 85
  (.cases 73 (.cycle [61, 147, 186, 300]) (.cycle [61, 196, 182, 210, 189, 168, 87])) (.cycle
  [33, 141, 335, 336, 202, 146, 147, 166, 187, 188])))))))) (.cycle [61, 196, 145, 192]))

/-- some of the cases -/
def ko2Case66 : CaseTree :=
  .cases 85 (.cases 82 (.cycle [33, 141, 335, 336, 202, 197, 193, 189, 176, 157, 345]) (.cases 81
  (.cycle [152, 153, 154]) (.cases 87 (.cycle [64, 197, 193, 294, 151, 84]) (.cases 115 (.cycle
  [310, 311, 312, 140, 197, 191, 151, 84]) (.cases 114 (.cycle [307, 308, 309]) (.cases 74 (.cycle
  [180, 303, 161]) (.cases 84 (.cycle [33, 141, 335, 336, 202, 197, 191, 293, 165, 148]) (.cases 73
  (.cycle [33, 141, 335, 336, 202, 149, 186, 191, 151, 84]) (.cases 80 (.cycle
  [64, 197, 182, 150, 151, 84]) (.cycle
  [33, 141, 335, 336, 202, 197, 191, 147, 210, 189, 168, 87])))))))))) (.cases 77 (.cycle
  [200, 187, 264, 173, 190]) (.cases 87 (.cycle
  [33, 141, 335, 336, 202, 197, 295, 187, 294, 167, 87]) (.cases 91 (.cases 81 (.cases 80
  (.cases 72 (.cycle [200, 195, 150, 293, 188]) (.cases 73 (.cases 111 (.cases 92 (.cases 105
  (.cases 101 (.cases 108 (.cases 100 (.cases 115 (.cycle
  [310, 311, 312, 140, 197, 295, 154, 293, 208, 263, 278, 231, 38]) (.cases 114 (.cycle
  [307, 308, 309]) (.cases 74 (.cycle [180, 303, 161]) (.cycle
  [33, 141, 335, 336, 202, 149, 186, 295, 154, 293, 208, 263, 278, 231, 38])))) (.cases 103 (.cycle
  [200, 154, 293, 208, 263, 211, 229, 237, 247, 248]) (.cases 115 (.cycle
  [310, 311, 312, 140, 197, 295, 154, 293, 208, 263, 211, 229, 242, 245, 252, 270]) (.cases 114
  (.cycle [307, 308, 309]) (.cases 74 (.cycle [180, 303, 161]) (.cycle
  [33, 141, 335, 336, 202, 149, 186, 295, 154, 293, 208, 263, 211, 229, 242, 245, 252, 270]))))))
  (.cases 115 (.cycle [310, 311, 312, 140, 197, 295, 154, 293, 208, 263, 278, 232, 249, 90])
  (.cases 114 (.cycle [307, 308, 309]) (.cases 74 (.cycle [180, 303, 161]) (.cycle
  [33, 141, 335, 336, 202, 149, 186, 295, 154, 293, 208, 263, 278, 232, 249, 90]))))) (.cases 113
  (.cases 103 (.cycle [67, 230, 237, 247, 248]) (.cases 110 (.cycle [276, 269, 230, 74]) (.cases 98
  (.cases 112 (.cycle [67, 230, 226, 289, 245, 282, 283]) (.cycle [218, 287, 288])) (.cycle
  [67, 268, 277, 74])))) (.cycle [67, 230, 284, 285, 286]))) (.cases 100 (.cycle
  [33, 141, 335, 336, 202, 197, 295, 154, 293, 208, 263, 272, 279, 231, 38]) (.cases 104
  (.cases 115 (.cycle [310, 311, 312, 140, 197, 295, 154, 293, 208, 263, 211, 244, 240, 280])
  (.cases 114 (.cycle [307, 308, 309]) (.cases 74 (.cycle [180, 303, 161]) (.cycle
  [33, 141, 335, 336, 202, 149, 186, 295, 154, 293, 208, 263, 211, 244, 279, 74])))) (.cycle
  [200, 154, 293, 208, 263, 272, 243, 229, 74])))) (.cases 115 (.cycle
  [310, 311, 312, 140, 197, 295, 154, 293, 264, 219, 69]) (.cases 114 (.cycle [307, 308, 309])
  (.cases 74 (.cycle [180, 303, 161]) (.cycle
  [33, 141, 335, 336, 202, 149, 186, 295, 154, 293, 264, 219, 69]))))) (.cases 74 (.cases 94
  (.cycle [185, 183, 197, 295, 154, 293, 208, 225, 271, 77]) (.cycle [213, 214, 215])) (.cycle
  [33, 141, 335, 336, 202, 149, 186, 295, 154, 293, 344, 214, 215, 271, 77]))) (.cycle
  [33, 141, 335, 336, 202, 197, 182, 166, 187, 188]))) (.cycle [200, 154, 147, 148])) (.cases 115
  (.cycle [310, 311, 312, 140, 197, 191, 151, 84]) (.cases 114 (.cycle [307, 308, 309]) (.cases 74
  (.cycle [180, 303, 161]) (.cases 73 (.cycle [33, 141, 335, 336, 202, 149, 186, 191, 151, 84])
  (.cases 72 (.cycle [33, 141, 335, 336, 202, 197, 191, 265, 195, 148]) (.cycle
  [33, 141, 335, 336, 202, 197, 182, 166, 187, 188]))))))) (.cycle [206, 203, 204]))))

/-- some of the cases -/
def ko2Case67 : CaseTree :=
  .cases 77 (.cycle [33, 141, 335, 336, 144, 145, 184, 198, 173, 190]) (.cases 72 (.cycle
  [33, 141, 335, 336, 144, 145, 184, 195, 148]) (.cases 83 (.cycle [169, 170, 171]) (.cases 89
  (.cases 122 (.cycle [33, 141, 335, 336, 144, 145, 184, 262, 343, 190]) (.cases 92 (.cases 94
  (.cases 111 (.cases 100 (.cases 81 (.cycle
  [33, 141, 335, 336, 144, 145, 184, 154, 342, 263, 278, 231, 38]) (.cases 79 (.cycle
  [33, 141, 335, 336, 144, 191, 158, 184, 262, 263, 278, 231, 38]) (.cycle
  [33, 141, 335, 336, 144, 145, 146, 151, 84]))) (.cases 104 (.cases 103 (.cycle
  [33, 141, 335, 336, 144, 145, 184, 262, 263, 211, 229, 237, 247, 248]) (.cases 105 (.cases 113
  (.cases 98 (.cases 74 (.cases 80 (.cases 73 (.cases 112 (.cycle
  [33, 141, 335, 336, 339, 186, 145, 184, 262, 263, 211, 229, 226, 289, 245, 282, 283]) (.cycle
  [218, 287, 288])) (.cases 81 (.cycle [33, 141, 335, 336, 144, 182, 183, 184, 154, 342, 263, 77])
  (.cycle [33, 141, 335, 336, 144, 182, 150, 151, 84]))) (.cycle [61, 147, 180, 181])) (.cases 112
  (.cycle [33, 141, 335, 336, 144, 145, 149, 166, 262, 263, 211, 229, 226, 289, 245, 282, 283])
  (.cycle [218, 287, 288]))) (.cycle [222, 223, 224])) (.cases 81 (.cycle
  [33, 141, 335, 336, 144, 145, 184, 154, 342, 263, 211, 229, 284, 285, 286]) (.cases 79 (.cycle
  [33, 141, 335, 336, 144, 191, 158, 184, 262, 263, 211, 229, 284, 285, 286]) (.cycle
  [33, 141, 335, 336, 144, 145, 146, 151, 84])))) (.cases 81 (.cycle
  [33, 141, 335, 336, 144, 145, 184, 154, 342, 263, 211, 244, 240, 280]) (.cases 79 (.cycle
  [33, 141, 335, 336, 144, 191, 158, 184, 262, 263, 211, 244, 240, 280]) (.cycle
  [33, 141, 335, 336, 144, 145, 146, 151, 84]))))) (.cycle
  [33, 141, 335, 336, 144, 145, 184, 262, 263, 272, 243, 229, 74]))) (.cases 81 (.cycle
  [33, 141, 335, 336, 144, 145, 184, 154, 342, 225, 271, 77]) (.cases 79 (.cycle
  [33, 141, 335, 336, 144, 191, 158, 184, 262, 225, 271, 77]) (.cycle
  [33, 141, 335, 336, 144, 145, 146, 151, 84])))) (.cycle [70, 297, 263, 77])) (.cases 85
  (.cases 81 (.cycle [33, 141, 335, 336, 144, 145, 164, 189, 154, 167, 87]) (.cases 79 (.cases 73
  (.cycle [185, 186, 191, 158, 192]) (.cases 80 (.cycle
  [33, 141, 335, 336, 144, 182, 150, 151, 84]) (.cases 74 (.cycle [61, 147, 180, 181]) (.cases 84
  (.cycle [33, 141, 335, 336, 144, 191, 158, 164, 165, 148]) (.cycle
  [33, 141, 335, 336, 144, 191, 158, 149, 210, 189, 168, 87]))))) (.cycle
  [33, 141, 335, 336, 144, 145, 146, 151, 84]))) (.cycle
  [33, 141, 335, 336, 144, 145, 184, 187, 264, 219, 69])))) (.cases 91 (.cases 81 (.cycle
  [321, 205, 154, 190]) (.cases 79 (.cycle [61, 158, 164, 208, 205, 168, 87]) (.cycle
  [33, 141, 335, 336, 144, 145, 146, 151, 84]))) (.cycle [206, 203, 204])))))

/-- some of the cases -/
def ko2Case68 : CaseTree :=
  .cases 70 (.cases 73 (.cases 74 (.cases 121 (.cycle [341, 191, 152]) (.cases 82 (.cases 76
  (.cycle [155, 174, 175]) (.cycle
  [33, 141, 335, 336, 339, 183, 197, 295, 176, 157, 172, 199, 188])) (.cycle
  [33, 141, 335, 336, 339, 183, 197, 316, 340, 153, 198, 199, 188]))) (.cycle
  [33, 141, 335, 336, 202, 149, 186, 295, 198, 199, 188])) (.cycle
  [33, 141, 335, 336, 202, 197, 182, 201, 199, 188])) (.cycle
  [33, 141, 335, 336, 144, 145, 184, 198, 199, 188])

/-- some of the cases -/
def ko2Case69 : CaseTree :=
  .cases 61 (.cases 55 (.cases 56 (.cycle [33, 141, 333, 137, 337, 108, 63]) (.cases 60 (.cycle
  [135, 136, 102, 335, 337, 108, 63]) (.cases 62 (.cycle [132, 133, 134]) (.cases 63 (.cases 58
  (.cases 64 (.cases 65 (.cases 66 (.cases 67 (.cycle [128, 129, 130, 127, 131, 79]) (.cycle
  [124, 125, 126, 127, 112, 141, 335, 337, 108, 63])) (.cycle [121, 122, 123])) (.cycle
  [118, 119, 120])) (.cycle [113, 114, 115, 116, 117, 112, 141, 335, 337, 108, 63])) (.cycle
  [94, 103, 104, 141, 335, 336, 63])) (.cycle [109, 110, 111, 112, 141, 335, 337, 108, 63])))))
  (.cycle [33, 99, 338, 335, 337, 108, 63])) (.cycle [94, 105, 106, 141, 335, 337, 108, 63])

/-- some of the cases -/
def ko2Case70 : CaseTree :=
  .cases 75 (.cycle [299, 315, 316, 317, 318, 178, 179]) (.cases 87 (.cases 71 (.cycle
  [299, 294, 196, 300]) (.cases 81 (.cases 82 (.cycle [155, 156, 157]) (.cycle [152, 153, 154]))
  (.cycle [299, 315, 191, 151, 84]))) (.cycle [61, 293, 315, 300]))

/-- some of the cases -/
def ko2Case71 : CaseTree :=
  .cases 74 (.cycle [185, 183, 146, 313, 314]) (.cases 84 (.cycle [61, 196, 193, 165, 148])
  (.cases 80 (.cycle [33, 134, 137, 98, 143, 202, 149, 150, 313, 314]) (.cases 72 (.cycle
  [61, 196, 295, 195, 148]) (.cases 73 (.cycle [61, 147, 186, 300]) (.cases 85 (.cycle
  [61, 196, 182, 210, 189, 168, 87]) (.cycle [61, 196, 182, 166, 187, 188]))))))

/-- some of the cases -/
def ko2Case72 : CaseTree :=
  .cases 115 (.cycle [310, 311, 312, 140, 197, 193, 189, 154, 190]) (.cases 114 (.cycle
  [307, 308, 309]) (.cases 74 (.cycle [180, 303, 161]) (.cycle
  [33, 134, 137, 98, 143, 202, 149, 186, 193, 189, 154, 190])))

/-- some of the cases -/
def ko2Case73 : CaseTree :=
  .cases 86 (.cases 91 (.cases 87 (.cases 115 (.cycle
  [310, 311, 312, 140, 197, 295, 187, 294, 190]) (.cases 114 (.cycle [307, 308, 309]) (.cases 74
  (.cycle [180, 303, 161]) (.cycle [33, 134, 137, 98, 143, 202, 149, 186, 295, 187, 294, 190]))))
  (.cases 93 (.cases 111 (.cases 94 (.cases 92 (.cases 100 (.cases 115 (.cycle
  [310, 311, 312, 140, 197, 295, 154, 293, 208, 263, 278, 231, 38]) (.cases 114 (.cycle
  [307, 308, 309]) (.cases 74 (.cycle [180, 303, 161]) (.cases 105 (.cases 104 (.cycle
  [33, 134, 137, 98, 143, 202, 149, 186, 295, 154, 293, 208, 263, 278, 231, 244, 248]) (.cycle
  [200, 154, 293, 208, 263, 278, 242, 243, 38])) (.cycle
  [33, 134, 137, 98, 143, 202, 149, 186, 295, 154, 293, 208, 263, 272, 279, 231, 38])))))
  (.cases 104 (.cases 103 (.cycle [200, 154, 293, 208, 263, 211, 229, 237, 247, 248]) (.cases 105
  (.cases 106 (.cycle [200, 154, 293, 208, 263, 211, 229, 242, 245, 258, 259, 260, 261])
  (.cases 117 (.cycle [253, 331, 332]) (.cases 118 (.cycle [250, 329, 330]) (.cases 113 (.cases 98
  (.cases 101 (.cases 108 (.cases 110 (.cases 102 (.cases 115 (.cycle
  [310, 311, 312, 140, 197, 295, 154, 293, 208, 263, 211, 229, 226, 257, 252, 270]) (.cases 114
  (.cycle [307, 308, 309]) (.cases 74 (.cycle [180, 303, 161]) (.cycle
  [33, 134, 137, 98, 143, 202, 149, 186, 295, 154, 293, 208, 263, 211, 229, 226, 257, 252, 328, 283]))))
  (.cycle [200, 154, 293, 208, 263, 211, 229, 242, 245, 238, 269, 270])) (.cycle
  [200, 154, 293, 208, 263, 211, 229, 242, 245, 252, 268, 239])) (.cycle
  [200, 154, 293, 208, 263, 211, 229, 232, 249, 90])) (.cases 112 (.cycle
  [67, 230, 226, 289, 245, 282, 283]) (.cycle [218, 287, 288]))) (.cycle [222, 223, 224]))
  (.cases 107 (.cycle [253, 254, 255]) (.cases 108 (.cycle [250, 251, 252]) (.cases 101 (.cycle
  [200, 154, 293, 208, 263, 211, 229, 232, 249, 90]) (.cycle [67, 230, 284, 285, 286]))))))))
  (.cases 115 (.cycle [310, 311, 312, 140, 197, 295, 154, 293, 208, 263, 211, 244, 240, 280])
  (.cases 114 (.cycle [307, 308, 309]) (.cases 74 (.cycle [180, 303, 161]) (.cases 98 (.cases 109
  (.cases 102 (.cases 107 (.cycle
  [200, 154, 293, 208, 263, 211, 244, 279, 226, 257, 258, 255, 327]) (.cases 108 (.cycle
  [250, 251, 252]) (.cycle [200, 154, 293, 208, 263, 211, 244, 267, 249, 90]))) (.cycle
  [33, 134, 137, 98, 143, 202, 149, 186, 295, 154, 293, 208, 263, 211, 244, 279, 237, 238, 239]))
  (.cycle [67, 266, 240, 280])) (.cycle [222, 223, 224]))))))) (.cycle
  [200, 154, 293, 208, 263, 272, 243, 229, 74]))) (.cases 115 (.cycle
  [310, 311, 312, 140, 197, 295, 154, 293, 264, 219, 69]) (.cases 114 (.cycle [307, 308, 309])
  (.cases 74 (.cycle [180, 303, 161]) (.cases 99 (.cases 108 (.cases 100 (.cases 97 (.cases 110
  (.cycle [33, 134, 137, 98, 143, 202, 149, 186, 295, 154, 293, 264, 219, 225, 231, 256, 269, 270])
  (.cycle
  [33, 134, 137, 98, 143, 202, 149, 186, 295, 154, 293, 264, 219, 225, 231, 246, 252, 268, 239]))
  (.cycle [33, 134, 137, 98, 143, 202, 149, 186, 295, 154, 293, 264, 219, 322, 223, 224, 227, 38]))
  (.cycle [33, 134, 137, 98, 143, 202, 149, 186, 295, 154, 293, 264, 219, 235, 229, 74])) (.cycle
  [33, 134, 137, 98, 143, 202, 149, 186, 295, 154, 293, 264, 219, 235, 236, 249, 90])) (.cycle
  [33, 134, 137, 98, 143, 202, 149, 186, 295, 154, 293, 264, 219, 301, 233, 234])))))) (.cycle
  [200, 154, 293, 264, 278, 297, 69])) (.cases 94 (.cases 116 (.cycle
  [325, 326, 197, 295, 154, 293, 208, 225, 271, 77]) (.cases 74 (.cycle [323, 324, 183]) (.cycle
  [33, 134, 137, 98, 143, 202, 149, 186, 295, 154, 293, 208, 225, 271, 77]))) (.cycle
  [213, 214, 215]))) (.cycle [200, 154, 293, 264, 211, 212, 69]))) (.cycle [206, 203, 204]))
  (.cases 87 (.cycle [82, 199, 294, 190]) (.cases 77 (.cycle [82, 173, 293, 188]) (.cases 115
  (.cycle [310, 311, 312, 140, 197, 295, 154, 306, 199, 188]) (.cases 114 (.cycle [307, 308, 309])
  (.cases 74 (.cycle [180, 303, 161]) (.cycle
  [33, 134, 137, 98, 143, 202, 149, 186, 295, 154, 306, 199, 188]))))))

/-- some of the cases -/
def ko2Case74 : CaseTree :=
  .cases 114 (.cycle [304, 305, 140, 197, 191, 151, 84]) (.cases 74 (.cycle [180, 303, 161])
  (.cases 87 (.cycle [185, 186, 193, 294, 151, 84]) (.cases 85 (.cycle
  [33, 134, 137, 98, 143, 202, 149, 186, 191, 293, 189, 168, 87]) (.cases 86 (.cases 93 (.cases 91
  (.cases 111 (.cases 94 (.cases 92 (.cases 103 (.cycle
  [33, 134, 137, 98, 143, 202, 149, 186, 191, 265, 187, 208, 263, 278, 237, 247, 248]) (.cases 105
  (.cases 106 (.cycle
  [33, 134, 137, 98, 143, 202, 149, 186, 191, 265, 187, 208, 263, 278, 242, 245, 258, 259, 260, 261])
  (.cases 104 (.cases 100 (.cycle
  [33, 134, 137, 98, 143, 202, 149, 186, 191, 265, 187, 208, 263, 278, 231, 244, 248]) (.cases 107
  (.cycle [253, 254, 255]) (.cases 108 (.cycle [250, 251, 252]) (.cases 101 (.cycle
  [185, 186, 191, 265, 187, 208, 263, 211, 229, 232, 249, 90]) (.cases 110 (.cycle
  [276, 269, 230, 74]) (.cases 113 (.cases 98 (.cases 112 (.cycle
  [67, 230, 226, 289, 245, 282, 283]) (.cycle [218, 287, 288])) (.cycle [67, 268, 277, 74]))
  (.cycle [67, 230, 284, 285, 286]))))))) (.cycle
  [185, 186, 191, 265, 187, 208, 263, 278, 242, 243, 38]))) (.cases 112 (.cycle
  [240, 223, 224, 289]) (.cases 100 (.cycle
  [33, 134, 137, 98, 143, 202, 149, 186, 191, 265, 187, 208, 263, 272, 279, 231, 38]) (.cases 104
  (.cases 109 (.cases 102 (.cases 106 (.cycle
  [185, 186, 191, 265, 187, 208, 263, 211, 244, 281, 257, 258, 259, 260, 261]) (.cases 107 (.cycle
  [253, 254, 255]) (.cases 108 (.cycle [250, 251, 252]) (.cycle
  [185, 186, 191, 265, 187, 208, 263, 211, 244, 267, 249, 90])))) (.cycle
  [33, 134, 137, 98, 143, 202, 149, 186, 191, 265, 187, 208, 263, 211, 244, 279, 237, 238, 239]))
  (.cycle [67, 266, 240, 280])) (.cycle
  [185, 186, 191, 265, 187, 208, 263, 272, 243, 229, 74])))))) (.cases 99 (.cases 108 (.cases 100
  (.cases 97 (.cases 110 (.cycle
  [33, 134, 137, 98, 143, 202, 149, 186, 191, 265, 187, 264, 219, 225, 231, 256, 269, 270]) (.cycle
  [33, 134, 137, 98, 143, 202, 149, 186, 191, 265, 187, 264, 219, 225, 231, 246, 252, 268, 239]))
  (.cycle [33, 134, 137, 98, 143, 202, 149, 186, 191, 265, 187, 264, 219, 322, 223, 224, 227, 38]))
  (.cycle [33, 134, 137, 98, 143, 202, 149, 186, 191, 265, 187, 264, 219, 235, 229, 74])) (.cycle
  [33, 134, 137, 98, 143, 202, 149, 186, 191, 265, 187, 264, 219, 235, 236, 249, 90])) (.cycle
  [33, 134, 137, 98, 143, 202, 149, 186, 191, 265, 187, 264, 219, 301, 233, 234]))) (.cycle
  [185, 186, 191, 265, 187, 264, 278, 297, 69])) (.cases 94 (.cycle
  [33, 134, 137, 98, 143, 202, 149, 186, 191, 265, 187, 208, 225, 271, 77]) (.cycle
  [213, 214, 215]))) (.cycle [206, 203, 204])) (.cycle
  [185, 186, 191, 265, 187, 264, 211, 212, 69])) (.cycle
  [33, 134, 137, 98, 143, 202, 149, 186, 191, 265, 198, 199, 188])))))

/-- some of the cases -/
def ko2Case75 : CaseTree :=
  .cases 85 (.cases 75 (.cycle [55, 98, 143, 202, 197, 193, 189, 176, 177, 178, 179]) (.cases 72
  (.cycle [299, 189, 195, 148]) (.cases 87 (.cases 82 (.cycle [155, 156, 157]) (.cases 81 (.cycle
  [152, 153, 154]) (.cycle [64, 197, 193, 294, 151, 84]))) (.cycle
  [33, 134, 137, 98, 143, 202, 197, 191, 293, 165, 166, 168, 87])))) (.cycle [200, 187, 165, 148])

/-- some of the cases -/
def ko2Case76 : CaseTree :=
  .cases 72 (.cases 81 (.cases 80 (.cases 87 (.cycle [200, 195, 210, 294, 190]) (.cycle
  [200, 195, 150, 293, 188])) (.cycle [200, 154, 147, 148])) (.cycle
  [33, 134, 137, 98, 143, 202, 197, 191, 265, 195, 148])) (.cases 75 (.cycle
  [55, 98, 143, 202, 197, 182, 166, 176, 177, 178, 179]) (.cases 76 (.cycle [155, 174, 175])
  (.cases 77 (.cycle [152, 172, 173]) (.cases 86 (.cases 89 (.cases 92 (.cases 94 (.cases 104
  (.cases 103 (.cases 100 (.cases 111 (.cycle
  [64, 197, 182, 166, 262, 263, 278, 231, 246, 247, 248]) (.cases 82 (.cycle [155, 156, 157])
  (.cases 81 (.cycle [152, 153, 154]) (.cases 80 (.cycle [64, 197, 182, 150, 151, 84]) (.cycle
  [55, 98, 143, 202, 197, 191, 147, 166, 262, 225, 271, 77]))))) (.cycle
  [64, 197, 182, 166, 262, 263, 211, 229, 237, 247, 248])) (.cases 111 (.cases 100 (.cycle
  [33, 134, 137, 98, 143, 202, 197, 182, 166, 262, 263, 278, 231, 244, 245, 282, 283]) (.cases 105
  (.cases 98 (.cases 113 (.cases 80 (.cases 81 (.cases 87 (.cases 85 (.cycle
  [33, 134, 137, 98, 143, 202, 197, 182, 210, 189, 154, 167, 87]) (.cycle
  [64, 197, 182, 166, 187, 294, 190])) (.cycle [55, 98, 143, 202, 197, 182, 166, 154, 293, 188]))
  (.cycle [64, 197, 182, 150, 151, 84])) (.cases 112 (.cycle
  [33, 134, 137, 98, 143, 202, 197, 191, 147, 166, 262, 263, 211, 229, 226, 289, 248]) (.cycle
  [218, 287, 288]))) (.cases 82 (.cycle [155, 156, 157]) (.cases 81 (.cycle [152, 153, 154])
  (.cases 80 (.cycle [64, 197, 182, 150, 151, 84]) (.cycle
  [33, 134, 137, 98, 143, 202, 197, 191, 147, 166, 262, 263, 211, 229, 284, 285, 286]))))) (.cycle
  [222, 223, 224])) (.cases 82 (.cycle [155, 156, 157]) (.cases 81 (.cycle [152, 153, 154])
  (.cases 80 (.cycle [64, 197, 182, 150, 151, 84]) (.cycle
  [33, 134, 137, 98, 143, 202, 197, 191, 147, 166, 262, 263, 211, 244, 279, 74])))))) (.cases 82
  (.cycle [155, 156, 157]) (.cases 81 (.cycle [152, 153, 154]) (.cases 80 (.cycle
  [64, 197, 182, 150, 151, 84]) (.cycle
  [55, 98, 143, 202, 197, 191, 147, 166, 262, 225, 271, 77])))))) (.cases 82 (.cycle
  [155, 156, 157]) (.cases 81 (.cycle [152, 153, 154]) (.cases 80 (.cycle
  [64, 197, 182, 150, 151, 84]) (.cycle
  [33, 134, 137, 98, 143, 202, 197, 191, 147, 166, 262, 263, 272, 243, 38]))))) (.cycle
  [70, 297, 263, 77])) (.cases 85 (.cases 82 (.cycle [155, 156, 157]) (.cases 81 (.cycle
  [152, 153, 154]) (.cases 80 (.cycle [64, 197, 182, 150, 151, 84]) (.cases 93 (.cases 100
  (.cases 101 (.cases 103 (.cycle
  [33, 134, 137, 98, 143, 202, 197, 191, 147, 210, 189, 198, 219, 235, 246, 247, 248]) (.cases 94
  (.cases 95 (.cases 105 (.cases 99 (.cases 108 (.cases 104 (.cycle
  [61, 147, 210, 189, 198, 219, 225, 231, 244, 245, 252, 270]) (.cycle
  [33, 134, 137, 98, 143, 202, 197, 191, 147, 210, 189, 198, 219, 225, 242, 243, 38])) (.cycle
  [55, 98, 143, 202, 197, 191, 147, 210, 189, 198, 219, 225, 231, 236, 249, 90])) (.cycle
  [61, 147, 210, 189, 198, 219, 225, 232, 233, 234])) (.cycle
  [33, 134, 137, 98, 143, 202, 197, 191, 147, 210, 189, 198, 219, 298, 279, 231, 38])) (.cycle
  [216, 217, 218])) (.cycle [213, 214, 215]))) (.cycle [67, 230, 231, 38])) (.cycle
  [33, 134, 137, 98, 143, 202, 197, 191, 147, 210, 189, 198, 219, 235, 229, 74])) (.cycle
  [55, 98, 143, 202, 197, 191, 147, 210, 189, 198, 211, 212, 69]))))) (.cycle
  [33, 134, 137, 98, 143, 202, 197, 182, 166, 187, 264, 219, 69]))) (.cases 91 (.cases 81 (.cycle
  [321, 205, 154, 190]) (.cases 80 (.cycle [64, 197, 182, 150, 151, 84]) (.cycle
  [55, 98, 143, 202, 197, 191, 147, 210, 208, 205, 168, 87]))) (.cycle [206, 203, 204]))) (.cycle
  [64, 197, 182, 166, 198, 199, 188])))))

/-- some of the cases -/
def ko2Case77 : CaseTree :=
  .cases 71 (.cycle [61, 196, 145, 192]) (.cases 72 (.cycle [55, 98, 143, 144, 145, 184, 195, 148])
  (.cases 83 (.cycle [169, 170, 171]) (.cases 73 (.cases 79 (.cycle [185, 186, 191, 158, 192])
  (.cases 85 (.cases 81 (.cycle [185, 186, 145, 164, 189, 154, 190]) (.cycle
  [185, 186, 145, 146, 151, 84])) (.cycle [185, 186, 145, 184, 187, 188]))) (.cases 74 (.cases 76
  (.cycle [155, 174, 175]) (.cases 77 (.cycle [152, 172, 173]) (.cases 80 (.cases 81 (.cases 87
  (.cases 85 (.cycle [33, 134, 137, 98, 143, 144, 182, 183, 164, 189, 154, 167, 87]) (.cycle
  [55, 98, 143, 144, 182, 183, 184, 187, 294, 190])) (.cycle
  [33, 134, 137, 98, 143, 144, 182, 183, 184, 154, 293, 188])) (.cycle
  [33, 134, 137, 98, 143, 144, 182, 150, 151, 84])) (.cycle [61, 147, 180, 181])))) (.cases 76
  (.cycle [155, 174, 175]) (.cases 77 (.cycle [152, 172, 173]) (.cases 78 (.cases 79 (.cases 84
  (.cycle [61, 158, 164, 165, 166, 168, 87]) (.cycle [161, 162, 163])) (.cases 81 (.cases 84
  (.cycle [33, 134, 137, 98, 143, 144, 145, 164, 165, 166, 154, 190]) (.cycle [161, 162, 163]))
  (.cycle [33, 134, 137, 98, 143, 144, 145, 146, 151, 84]))) (.cases 84 (.cycle [319, 320, 171])
  (.cases 79 (.cycle [61, 158, 159, 160, 20]) (.cases 80 (.cases 81 (.cases 87 (.cases 85 (.cycle
  [33, 134, 137, 98, 143, 144, 145, 149, 210, 189, 154, 167, 87]) (.cycle
  [55, 98, 143, 144, 145, 149, 166, 187, 294, 190])) (.cycle
  [55, 98, 143, 144, 145, 149, 166, 154, 293, 188])) (.cycle
  [55, 98, 143, 144, 145, 149, 150, 151, 84])) (.cycle
  [33, 134, 137, 98, 143, 144, 145, 146, 147, 148])))))))))))

/-- some of the cases -/
def ko2Case78 : CaseTree :=
  .cases 75 (.cycle [299, 315, 316, 317, 318, 178, 179]) (.cases 87 (.cases 71 (.cycle
  [299, 294, 196, 300]) (.cases 81 (.cases 82 (.cycle [155, 156, 157]) (.cycle [152, 153, 154]))
  (.cycle [299, 315, 191, 151, 84]))) (.cycle [61, 293, 315, 300]))

/-- some of the cases -/
def ko2Case79 : CaseTree :=
  .cases 74 (.cycle [185, 183, 146, 313, 314]) (.cases 84 (.cycle [61, 196, 193, 165, 148])
  (.cases 80 (.cycle [109, 110, 111, 112, 97, 98, 143, 202, 149, 150, 313, 314]) (.cases 72 (.cycle
  [61, 196, 295, 195, 148]) (.cases 73 (.cycle [61, 147, 186, 300]) (.cases 85 (.cycle
  [61, 196, 182, 210, 189, 168, 87]) (.cycle [61, 196, 182, 166, 187, 188]))))))

/-- some of the cases -/
def ko2Case80 : CaseTree :=
  .cases 115 (.cycle [310, 311, 312, 140, 197, 193, 189, 154, 190]) (.cases 114 (.cycle
  [307, 308, 309]) (.cases 74 (.cycle [180, 303, 161]) (.cycle
  [109, 110, 111, 112, 97, 98, 143, 202, 149, 186, 193, 189, 154, 190])))

/-- some of the cases -/
def ko2Case81 : CaseTree :=
  .cases 86 (.cases 91 (.cases 87 (.cases 115 (.cycle
  [310, 311, 312, 140, 197, 295, 187, 294, 190]) (.cases 114 (.cycle [307, 308, 309]) (.cases 74
  (.cycle [180, 303, 161]) (.cycle
  [109, 110, 111, 112, 97, 98, 143, 202, 149, 186, 295, 187, 294, 190])))) (.cases 93 (.cases 111
  (.cases 94 (.cases 92 (.cases 100 (.cases 115 (.cycle
  [310, 311, 312, 140, 197, 295, 154, 293, 208, 263, 278, 231, 38]) (.cases 114 (.cycle
  [307, 308, 309]) (.cases 74 (.cycle [180, 303, 161]) (.cases 105 (.cases 104 (.cycle
  [109, 110, 111, 112, 97, 98, 143, 202, 149, 186, 295, 154, 293, 208, 263, 278, 231, 244, 248])
  (.cycle [200, 154, 293, 208, 263, 278, 242, 243, 38])) (.cycle
  [109, 110, 111, 112, 97, 98, 143, 202, 149, 186, 295, 154, 293, 208, 263, 272, 279, 231, 38])))))
  (.cases 104 (.cases 103 (.cycle [200, 154, 293, 208, 263, 211, 229, 237, 247, 248]) (.cases 105
  (.cases 106 (.cycle [200, 154, 293, 208, 263, 211, 229, 242, 245, 258, 259, 260, 261])
  (.cases 117 (.cycle [253, 331, 332]) (.cases 118 (.cycle [250, 329, 330]) (.cases 113 (.cases 98
  (.cases 101 (.cases 108 (.cases 110 (.cases 102 (.cases 115 (.cycle
  [310, 311, 312, 140, 197, 295, 154, 293, 208, 263, 211, 229, 226, 257, 252, 270]) (.cases 114
  (.cycle [307, 308, 309]) (.cases 74 (.cycle [180, 303, 161]) (.cycle
  [109, 110, 111, 112, 97, 98, 143, 202, 149, 186, 295, 154, 293, 208, 263, 211, 229, 226, 257, 252, 328, 283]))))
  (.cycle [200, 154, 293, 208, 263, 211, 229, 242, 245, 238, 269, 270])) (.cycle
  [200, 154, 293, 208, 263, 211, 229, 242, 245, 252, 268, 239])) (.cycle
  [200, 154, 293, 208, 263, 211, 229, 232, 249, 90])) (.cases 112 (.cycle
  [67, 230, 226, 289, 245, 282, 283]) (.cycle [218, 287, 288]))) (.cycle [222, 223, 224]))
  (.cases 107 (.cycle [253, 254, 255]) (.cases 108 (.cycle [250, 251, 252]) (.cases 101 (.cycle
  [200, 154, 293, 208, 263, 211, 229, 232, 249, 90]) (.cycle [67, 230, 284, 285, 286]))))))))
  (.cases 115 (.cycle [310, 311, 312, 140, 197, 295, 154, 293, 208, 263, 211, 244, 240, 280])
  (.cases 114 (.cycle [307, 308, 309]) (.cases 74 (.cycle [180, 303, 161]) (.cases 98 (.cases 109
  (.cases 102 (.cases 107 (.cycle
  [200, 154, 293, 208, 263, 211, 244, 279, 226, 257, 258, 255, 327]) (.cases 108 (.cycle
  [250, 251, 252]) (.cycle [200, 154, 293, 208, 263, 211, 244, 267, 249, 90]))) (.cycle
  [109, 110, 111, 112, 97, 98, 143, 202, 149, 186, 295, 154, 293, 208, 263, 211, 244, 279, 237, 238, 239]))
  (.cycle [67, 266, 240, 280])) (.cycle [222, 223, 224]))))))) (.cycle
  [200, 154, 293, 208, 263, 272, 243, 229, 74]))) (.cases 115 (.cycle
  [310, 311, 312, 140, 197, 295, 154, 293, 264, 219, 69]) (.cases 114 (.cycle [307, 308, 309])
  (.cases 74 (.cycle [180, 303, 161]) (.cases 99 (.cases 108 (.cases 100 (.cases 97 (.cases 110
  (.cycle
  [109, 110, 111, 112, 97, 98, 143, 202, 149, 186, 295, 154, 293, 264, 219, 225, 231, 256, 269, 270])
  (.cycle
  [109, 110, 111, 112, 97, 98, 143, 202, 149, 186, 295, 154, 293, 264, 219, 225, 231, 246, 252, 268, 239]))
  (.cycle
  [109, 110, 111, 112, 97, 98, 143, 202, 149, 186, 295, 154, 293, 264, 219, 322, 223, 224, 227, 38]))
  (.cycle [109, 110, 111, 112, 97, 98, 143, 202, 149, 186, 295, 154, 293, 264, 219, 235, 229, 74]))
  (.cycle
  [109, 110, 111, 112, 97, 98, 143, 202, 149, 186, 295, 154, 293, 264, 219, 235, 236, 249, 90]))
  (.cycle
  [109, 110, 111, 112, 97, 98, 143, 202, 149, 186, 295, 154, 293, 264, 219, 301, 233, 234]))))))
  (.cycle [200, 154, 293, 264, 278, 297, 69])) (.cases 94 (.cases 116 (.cycle
  [325, 326, 197, 295, 154, 293, 208, 225, 271, 77]) (.cases 74 (.cycle [323, 324, 183]) (.cycle
  [109, 110, 111, 112, 97, 98, 143, 202, 149, 186, 295, 154, 293, 208, 225, 271, 77]))) (.cycle
  [213, 214, 215]))) (.cycle [200, 154, 293, 264, 211, 212, 69]))) (.cycle [206, 203, 204]))
  (.cases 87 (.cycle [82, 199, 294, 190]) (.cases 77 (.cycle [82, 173, 293, 188]) (.cases 115
  (.cycle [310, 311, 312, 140, 197, 295, 154, 306, 199, 188]) (.cases 114 (.cycle [307, 308, 309])
  (.cases 74 (.cycle [180, 303, 161]) (.cycle
  [109, 110, 111, 112, 97, 98, 143, 202, 149, 186, 295, 154, 306, 199, 188]))))))

/-- some of the cases -/
def ko2Case82 : CaseTree :=
  .cases 114 (.cycle [304, 305, 140, 197, 191, 151, 84]) (.cases 74 (.cycle [180, 303, 161])
  (.cases 87 (.cycle [185, 186, 193, 294, 151, 84]) (.cases 85 (.cycle
  [109, 110, 111, 112, 97, 98, 143, 202, 149, 186, 191, 293, 189, 168, 87]) (.cases 86 (.cases 93
  (.cases 91 (.cases 111 (.cases 94 (.cases 92 (.cases 103 (.cycle
  [109, 110, 111, 112, 97, 98, 143, 202, 149, 186, 191, 265, 187, 208, 263, 278, 237, 247, 248])
  (.cases 105 (.cases 106 (.cycle
  [109, 110, 111, 112, 97, 98, 143, 202, 149, 186, 191, 265, 187, 208, 263, 278, 242, 245, 258, 259, 260, 261])
  (.cases 104 (.cases 100 (.cycle
  [109, 110, 111, 112, 97, 98, 143, 202, 149, 186, 191, 265, 187, 208, 263, 278, 231, 244, 248])
  (.cases 107 (.cycle [253, 254, 255]) (.cases 108 (.cycle [250, 251, 252]) (.cases 101 (.cycle
  [185, 186, 191, 265, 187, 208, 263, 211, 229, 232, 249, 90]) (.cases 110 (.cycle
  [276, 269, 230, 74]) (.cases 113 (.cases 98 (.cases 112 (.cycle
  [67, 230, 226, 289, 245, 282, 283]) (.cycle [218, 287, 288])) (.cycle [67, 268, 277, 74]))
  (.cycle [67, 230, 284, 285, 286]))))))) (.cycle
  [185, 186, 191, 265, 187, 208, 263, 278, 242, 243, 38]))) (.cases 112 (.cycle
  [240, 223, 224, 289]) (.cases 100 (.cycle
  [109, 110, 111, 112, 97, 98, 143, 202, 149, 186, 191, 265, 187, 208, 263, 272, 279, 231, 38])
  (.cases 104 (.cases 109 (.cases 102 (.cases 106 (.cycle
  [185, 186, 191, 265, 187, 208, 263, 211, 244, 281, 257, 258, 259, 260, 261]) (.cases 107 (.cycle
  [253, 254, 255]) (.cases 108 (.cycle [250, 251, 252]) (.cycle
  [185, 186, 191, 265, 187, 208, 263, 211, 244, 267, 249, 90])))) (.cycle
  [109, 110, 111, 112, 97, 98, 143, 202, 149, 186, 191, 265, 187, 208, 263, 211, 244, 279, 237, 238, 239]))
  (.cycle [67, 266, 240, 280])) (.cycle
  [185, 186, 191, 265, 187, 208, 263, 272, 243, 229, 74])))))) (.cases 99 (.cases 108 (.cases 100
  (.cases 97 (.cases 110 (.cycle
  [109, 110, 111, 112, 97, 98, 143, 202, 149, 186, 191, 265, 187, 264, 219, 225, 231, 256, 269, 270])
  (.cycle
  [109, 110, 111, 112, 97, 98, 143, 202, 149, 186, 191, 265, 187, 264, 219, 225, 231, 246, 252, 268, 239]))
  (.cycle
  [109, 110, 111, 112, 97, 98, 143, 202, 149, 186, 191, 265, 187, 264, 219, 322, 223, 224, 227, 38]))
  (.cycle [109, 110, 111, 112, 97, 98, 143, 202, 149, 186, 191, 265, 187, 264, 219, 235, 229, 74]))
  (.cycle
  [109, 110, 111, 112, 97, 98, 143, 202, 149, 186, 191, 265, 187, 264, 219, 235, 236, 249, 90]))
  (.cycle
  [109, 110, 111, 112, 97, 98, 143, 202, 149, 186, 191, 265, 187, 264, 219, 301, 233, 234])))
  (.cycle [185, 186, 191, 265, 187, 264, 278, 297, 69])) (.cases 94 (.cycle
  [109, 110, 111, 112, 97, 98, 143, 202, 149, 186, 191, 265, 187, 208, 225, 271, 77]) (.cycle
  [213, 214, 215]))) (.cycle [206, 203, 204])) (.cycle
  [185, 186, 191, 265, 187, 264, 211, 212, 69])) (.cycle
  [109, 110, 111, 112, 97, 98, 143, 202, 149, 186, 191, 265, 198, 199, 188])))))

/-- some of the cases -/
def ko2Case83 : CaseTree :=
  .cases 85 (.cases 75 (.cycle [55, 98, 143, 202, 197, 193, 189, 176, 177, 178, 179]) (.cases 72
  (.cycle [299, 189, 195, 148]) (.cases 87 (.cases 82 (.cycle [155, 156, 157]) (.cases 81 (.cycle
  [152, 153, 154]) (.cycle [64, 197, 193, 294, 151, 84]))) (.cycle
  [109, 110, 111, 112, 97, 98, 143, 202, 197, 191, 293, 165, 166, 168, 87])))) (.cycle
  [200, 187, 165, 148])

/-- some of the cases -/
def ko2Case84 : CaseTree :=
  .cases 72 (.cases 81 (.cases 80 (.cases 87 (.cycle [200, 195, 210, 294, 190]) (.cycle
  [200, 195, 150, 293, 188])) (.cycle [200, 154, 147, 148])) (.cycle
  [109, 110, 111, 112, 97, 98, 143, 202, 197, 191, 265, 195, 148])) (.cases 75 (.cycle
  [55, 98, 143, 202, 197, 182, 166, 176, 177, 178, 179]) (.cases 76 (.cycle [155, 174, 175])
  (.cases 77 (.cycle [152, 172, 173]) (.cases 86 (.cases 89 (.cases 92 (.cases 94 (.cases 104
  (.cases 103 (.cases 100 (.cases 111 (.cycle
  [64, 197, 182, 166, 262, 263, 278, 231, 246, 247, 248]) (.cases 82 (.cycle [155, 156, 157])
  (.cases 81 (.cycle [152, 153, 154]) (.cases 80 (.cycle [64, 197, 182, 150, 151, 84]) (.cycle
  [55, 98, 143, 202, 197, 191, 147, 166, 262, 225, 271, 77]))))) (.cycle
  [64, 197, 182, 166, 262, 263, 211, 229, 237, 247, 248])) (.cases 111 (.cases 100 (.cycle
  [109, 110, 111, 112, 97, 98, 143, 202, 197, 182, 166, 262, 263, 278, 231, 244, 245, 282, 283])
  (.cases 105 (.cases 98 (.cases 113 (.cases 80 (.cases 81 (.cases 87 (.cases 85 (.cycle
  [109, 110, 111, 112, 97, 98, 143, 202, 197, 182, 210, 189, 154, 167, 87]) (.cycle
  [64, 197, 182, 166, 187, 294, 190])) (.cycle [55, 98, 143, 202, 197, 182, 166, 154, 293, 188]))
  (.cycle [64, 197, 182, 150, 151, 84])) (.cases 112 (.cycle
  [109, 110, 111, 112, 97, 98, 143, 202, 197, 191, 147, 166, 262, 263, 211, 229, 226, 289, 248])
  (.cycle [218, 287, 288]))) (.cases 82 (.cycle [155, 156, 157]) (.cases 81 (.cycle
  [152, 153, 154]) (.cases 80 (.cycle [64, 197, 182, 150, 151, 84]) (.cycle
  [109, 110, 111, 112, 97, 98, 143, 202, 197, 191, 147, 166, 262, 263, 211, 229, 284, 285, 286])))))
  (.cycle [222, 223, 224])) (.cases 82 (.cycle [155, 156, 157]) (.cases 81 (.cycle [152, 153, 154])
  (.cases 80 (.cycle [64, 197, 182, 150, 151, 84]) (.cycle
  [109, 110, 111, 112, 97, 98, 143, 202, 197, 191, 147, 166, 262, 263, 211, 244, 279, 74]))))))
  (.cases 82 (.cycle [155, 156, 157]) (.cases 81 (.cycle [152, 153, 154]) (.cases 80 (.cycle
  [64, 197, 182, 150, 151, 84]) (.cycle
  [55, 98, 143, 202, 197, 191, 147, 166, 262, 225, 271, 77])))))) (.cases 82 (.cycle
  [155, 156, 157]) (.cases 81 (.cycle [152, 153, 154]) (.cases 80 (.cycle
  [64, 197, 182, 150, 151, 84]) (.cycle
  [109, 110, 111, 112, 97, 98, 143, 202, 197, 191, 147, 166, 262, 263, 272, 243, 38]))))) (.cycle
  [70, 297, 263, 77])) (.cases 85 (.cases 82 (.cycle [155, 156, 157]) (.cases 81 (.cycle
  [152, 153, 154]) (.cases 80 (.cycle [64, 197, 182, 150, 151, 84]) (.cases 93 (.cases 100
  (.cases 101 (.cases 103 (.cycle
  [109, 110, 111, 112, 97, 98, 143, 202, 197, 191, 147, 210, 189, 198, 219, 235, 246, 247, 248])
  (.cases 94 (.cases 95 (.cases 105 (.cases 99 (.cases 108 (.cases 104 (.cycle
  [61, 147, 210, 189, 198, 219, 225, 231, 244, 245, 252, 270]) (.cycle
  [109, 110, 111, 112, 97, 98, 143, 202, 197, 191, 147, 210, 189, 198, 219, 225, 242, 243, 38]))
  (.cycle [55, 98, 143, 202, 197, 191, 147, 210, 189, 198, 219, 225, 231, 236, 249, 90])) (.cycle
  [61, 147, 210, 189, 198, 219, 225, 232, 233, 234])) (.cycle
  [109, 110, 111, 112, 97, 98, 143, 202, 197, 191, 147, 210, 189, 198, 219, 298, 279, 231, 38]))
  (.cycle [216, 217, 218])) (.cycle [213, 214, 215]))) (.cycle [67, 230, 231, 38])) (.cycle
  [109, 110, 111, 112, 97, 98, 143, 202, 197, 191, 147, 210, 189, 198, 219, 235, 229, 74])) (.cycle
  [55, 98, 143, 202, 197, 191, 147, 210, 189, 198, 211, 212, 69]))))) (.cycle
  [109, 110, 111, 112, 97, 98, 143, 202, 197, 182, 166, 187, 264, 219, 69]))) (.cases 91 (.cases 81
  (.cycle [321, 205, 154, 190]) (.cases 80 (.cycle [64, 197, 182, 150, 151, 84]) (.cycle
  [55, 98, 143, 202, 197, 191, 147, 210, 208, 205, 168, 87]))) (.cycle [206, 203, 204]))) (.cycle
  [64, 197, 182, 166, 198, 199, 188])))))

/-- some of the cases -/
def ko2Case85 : CaseTree :=
  .cases 71 (.cycle [61, 196, 145, 192]) (.cases 72 (.cycle [55, 98, 143, 144, 145, 184, 195, 148])
  (.cases 83 (.cycle [169, 170, 171]) (.cases 73 (.cases 79 (.cycle [185, 186, 191, 158, 192])
  (.cases 85 (.cases 81 (.cycle [185, 186, 145, 164, 189, 154, 190]) (.cycle
  [185, 186, 145, 146, 151, 84])) (.cycle [185, 186, 145, 184, 187, 188]))) (.cases 74 (.cases 76
  (.cycle [155, 174, 175]) (.cases 77 (.cycle [152, 172, 173]) (.cases 80 (.cases 81 (.cases 87
  (.cases 85 (.cycle [109, 110, 111, 112, 97, 98, 143, 144, 182, 183, 164, 189, 154, 167, 87])
  (.cycle [55, 98, 143, 144, 182, 183, 184, 187, 294, 190])) (.cycle
  [109, 110, 111, 112, 97, 98, 143, 144, 182, 183, 184, 154, 293, 188])) (.cycle
  [109, 110, 111, 112, 97, 98, 143, 144, 182, 150, 151, 84])) (.cycle [61, 147, 180, 181]))))
  (.cases 76 (.cycle [155, 174, 175]) (.cases 77 (.cycle [152, 172, 173]) (.cases 78 (.cases 79
  (.cases 84 (.cycle [61, 158, 164, 165, 166, 168, 87]) (.cycle [161, 162, 163])) (.cases 81
  (.cases 84 (.cycle [109, 110, 111, 112, 97, 98, 143, 144, 145, 164, 165, 166, 154, 190]) (.cycle
  [161, 162, 163])) (.cycle [109, 110, 111, 112, 97, 98, 143, 144, 145, 146, 151, 84]))) (.cases 84
  (.cycle [319, 320, 171]) (.cases 79 (.cycle [61, 158, 159, 160, 20]) (.cases 80 (.cases 81
  (.cases 87 (.cases 85 (.cycle
  [109, 110, 111, 112, 97, 98, 143, 144, 145, 149, 210, 189, 154, 167, 87]) (.cycle
  [55, 98, 143, 144, 145, 149, 166, 187, 294, 190])) (.cycle
  [55, 98, 143, 144, 145, 149, 166, 154, 293, 188])) (.cycle
  [55, 98, 143, 144, 145, 149, 150, 151, 84])) (.cycle
  [109, 110, 111, 112, 97, 98, 143, 144, 145, 146, 147, 148])))))))))))

/-- some of the cases -/
def ko2Case86 : CaseTree :=
  .cases 75 (.cycle [299, 315, 316, 317, 318, 178, 179]) (.cases 87 (.cases 71 (.cycle
  [299, 294, 196, 300]) (.cases 81 (.cases 82 (.cycle [155, 156, 157]) (.cycle [152, 153, 154]))
  (.cycle [299, 315, 191, 151, 84]))) (.cycle [61, 293, 315, 300]))

/-- some of the cases -/
def ko2Case87 : CaseTree :=
  .cases 74 (.cycle [185, 183, 146, 313, 314]) (.cases 84 (.cycle [61, 196, 193, 165, 148])
  (.cases 80 (.cycle [94, 105, 106, 97, 98, 143, 202, 149, 150, 313, 314]) (.cases 72 (.cycle
  [61, 196, 295, 195, 148]) (.cases 73 (.cycle [61, 147, 186, 300]) (.cases 85 (.cycle
  [61, 196, 182, 210, 189, 168, 87]) (.cycle [61, 196, 182, 166, 187, 188]))))))

/-- some of the cases -/
def ko2Case88 : CaseTree :=
  .cases 115 (.cycle [310, 311, 312, 140, 197, 193, 189, 154, 190]) (.cases 114 (.cycle
  [307, 308, 309]) (.cases 74 (.cycle [180, 303, 161]) (.cycle
  [94, 105, 106, 97, 98, 143, 202, 149, 186, 193, 189, 154, 190])))

/-- some of the cases -/
def ko2Case89 : CaseTree :=
  .cases 86 (.cases 91 (.cases 87 (.cases 115 (.cycle
  [310, 311, 312, 140, 197, 295, 187, 294, 190]) (.cases 114 (.cycle [307, 308, 309]) (.cases 74
  (.cycle [180, 303, 161]) (.cycle
  [94, 105, 106, 97, 98, 143, 202, 149, 186, 295, 187, 294, 190])))) (.cases 93 (.cases 111
  (.cases 94 (.cases 92 (.cases 100 (.cases 115 (.cycle
  [310, 311, 312, 140, 197, 295, 154, 293, 208, 263, 278, 231, 38]) (.cases 114 (.cycle
  [307, 308, 309]) (.cases 74 (.cycle [180, 303, 161]) (.cases 105 (.cases 104 (.cycle
  [94, 105, 106, 97, 98, 143, 202, 149, 186, 295, 154, 293, 208, 263, 278, 231, 244, 248]) (.cycle
  [200, 154, 293, 208, 263, 278, 242, 243, 38])) (.cycle
  [94, 105, 106, 97, 98, 143, 202, 149, 186, 295, 154, 293, 208, 263, 272, 279, 231, 38])))))
  (.cases 104 (.cases 103 (.cycle [200, 154, 293, 208, 263, 211, 229, 237, 247, 248]) (.cases 105
  (.cases 106 (.cycle [200, 154, 293, 208, 263, 211, 229, 242, 245, 258, 259, 260, 261])
  (.cases 117 (.cycle [253, 331, 332]) (.cases 118 (.cycle [250, 329, 330]) (.cases 113 (.cases 98
  (.cases 101 (.cases 108 (.cases 110 (.cases 102 (.cases 115 (.cycle
  [310, 311, 312, 140, 197, 295, 154, 293, 208, 263, 211, 229, 226, 257, 252, 270]) (.cases 114
  (.cycle [307, 308, 309]) (.cases 74 (.cycle [180, 303, 161]) (.cycle
  [94, 105, 106, 97, 98, 143, 202, 149, 186, 295, 154, 293, 208, 263, 211, 229, 226, 257, 252, 328, 283]))))
  (.cycle [200, 154, 293, 208, 263, 211, 229, 242, 245, 238, 269, 270])) (.cycle
  [200, 154, 293, 208, 263, 211, 229, 242, 245, 252, 268, 239])) (.cycle
  [200, 154, 293, 208, 263, 211, 229, 232, 249, 90])) (.cases 112 (.cycle
  [67, 230, 226, 289, 245, 282, 283]) (.cycle [218, 287, 288]))) (.cycle [222, 223, 224]))
  (.cases 107 (.cycle [253, 254, 255]) (.cases 108 (.cycle [250, 251, 252]) (.cases 101 (.cycle
  [200, 154, 293, 208, 263, 211, 229, 232, 249, 90]) (.cycle [67, 230, 284, 285, 286]))))))))
  (.cases 115 (.cycle [310, 311, 312, 140, 197, 295, 154, 293, 208, 263, 211, 244, 240, 280])
  (.cases 114 (.cycle [307, 308, 309]) (.cases 74 (.cycle [180, 303, 161]) (.cases 98 (.cases 109
  (.cases 102 (.cases 107 (.cycle
  [200, 154, 293, 208, 263, 211, 244, 279, 226, 257, 258, 255, 327]) (.cases 108 (.cycle
  [250, 251, 252]) (.cycle [200, 154, 293, 208, 263, 211, 244, 267, 249, 90]))) (.cycle
  [94, 105, 106, 97, 98, 143, 202, 149, 186, 295, 154, 293, 208, 263, 211, 244, 279, 237, 238, 239]))
  (.cycle [67, 266, 240, 280])) (.cycle [222, 223, 224]))))))) (.cycle
  [200, 154, 293, 208, 263, 272, 243, 229, 74]))) (.cases 115 (.cycle
  [310, 311, 312, 140, 197, 295, 154, 293, 264, 219, 69]) (.cases 114 (.cycle [307, 308, 309])
  (.cases 74 (.cycle [180, 303, 161]) (.cases 99 (.cases 108 (.cases 100 (.cases 97 (.cases 110
  (.cycle
  [94, 105, 106, 97, 98, 143, 202, 149, 186, 295, 154, 293, 264, 219, 225, 231, 256, 269, 270])
  (.cycle
  [94, 105, 106, 97, 98, 143, 202, 149, 186, 295, 154, 293, 264, 219, 225, 231, 246, 252, 268, 239]))
  (.cycle
  [94, 105, 106, 97, 98, 143, 202, 149, 186, 295, 154, 293, 264, 219, 322, 223, 224, 227, 38]))
  (.cycle [94, 105, 106, 97, 98, 143, 202, 149, 186, 295, 154, 293, 264, 219, 235, 229, 74]))
  (.cycle [94, 105, 106, 97, 98, 143, 202, 149, 186, 295, 154, 293, 264, 219, 235, 236, 249, 90]))
  (.cycle [94, 105, 106, 97, 98, 143, 202, 149, 186, 295, 154, 293, 264, 219, 301, 233, 234]))))))
  (.cycle [200, 154, 293, 264, 278, 297, 69])) (.cases 94 (.cases 116 (.cycle
  [325, 326, 197, 295, 154, 293, 208, 225, 271, 77]) (.cases 74 (.cycle [323, 324, 183]) (.cycle
  [94, 105, 106, 97, 98, 143, 202, 149, 186, 295, 154, 293, 208, 225, 271, 77]))) (.cycle
  [213, 214, 215]))) (.cycle [200, 154, 293, 264, 211, 212, 69]))) (.cycle [206, 203, 204]))
  (.cases 87 (.cycle [82, 199, 294, 190]) (.cases 77 (.cycle [82, 173, 293, 188]) (.cases 115
  (.cycle [310, 311, 312, 140, 197, 295, 154, 306, 199, 188]) (.cases 114 (.cycle [307, 308, 309])
  (.cases 74 (.cycle [180, 303, 161]) (.cycle
  [94, 105, 106, 97, 98, 143, 202, 149, 186, 295, 154, 306, 199, 188]))))))

/-- some of the cases -/
def ko2Case90 : CaseTree :=
  .cases 114 (.cycle [304, 305, 140, 197, 191, 151, 84]) (.cases 74 (.cycle [180, 303, 161])
  (.cases 87 (.cycle [185, 186, 193, 294, 151, 84]) (.cases 85 (.cycle
  [94, 105, 106, 97, 98, 143, 202, 149, 186, 191, 293, 189, 168, 87]) (.cases 86 (.cases 93
  (.cases 91 (.cases 111 (.cases 94 (.cases 92 (.cases 103 (.cycle
  [94, 105, 106, 97, 98, 143, 202, 149, 186, 191, 265, 187, 208, 263, 278, 237, 247, 248])
  (.cases 105 (.cases 106 (.cycle
  [94, 105, 106, 97, 98, 143, 202, 149, 186, 191, 265, 187, 208, 263, 278, 242, 245, 258, 259, 260, 261])
  (.cases 104 (.cases 100 (.cycle
  [94, 105, 106, 97, 98, 143, 202, 149, 186, 191, 265, 187, 208, 263, 278, 231, 244, 248])
  (.cases 107 (.cycle [253, 254, 255]) (.cases 108 (.cycle [250, 251, 252]) (.cases 101 (.cycle
  [185, 186, 191, 265, 187, 208, 263, 211, 229, 232, 249, 90]) (.cases 110 (.cycle
  [276, 269, 230, 74]) (.cases 113 (.cases 98 (.cases 112 (.cycle
  [67, 230, 226, 289, 245, 282, 283]) (.cycle [218, 287, 288])) (.cycle [67, 268, 277, 74]))
  (.cycle [67, 230, 284, 285, 286]))))))) (.cycle
  [185, 186, 191, 265, 187, 208, 263, 278, 242, 243, 38]))) (.cases 112 (.cycle
  [240, 223, 224, 289]) (.cases 100 (.cycle
  [94, 105, 106, 97, 98, 143, 202, 149, 186, 191, 265, 187, 208, 263, 272, 279, 231, 38])
  (.cases 104 (.cases 109 (.cases 102 (.cases 106 (.cycle
  [185, 186, 191, 265, 187, 208, 263, 211, 244, 281, 257, 258, 259, 260, 261]) (.cases 107 (.cycle
  [253, 254, 255]) (.cases 108 (.cycle [250, 251, 252]) (.cycle
  [185, 186, 191, 265, 187, 208, 263, 211, 244, 267, 249, 90])))) (.cycle
  [94, 105, 106, 97, 98, 143, 202, 149, 186, 191, 265, 187, 208, 263, 211, 244, 279, 237, 238, 239]))
  (.cycle [67, 266, 240, 280])) (.cycle
  [185, 186, 191, 265, 187, 208, 263, 272, 243, 229, 74])))))) (.cases 99 (.cases 108 (.cases 100
  (.cases 97 (.cases 110 (.cycle
  [94, 105, 106, 97, 98, 143, 202, 149, 186, 191, 265, 187, 264, 219, 225, 231, 256, 269, 270])
  (.cycle
  [94, 105, 106, 97, 98, 143, 202, 149, 186, 191, 265, 187, 264, 219, 225, 231, 246, 252, 268, 239]))
  (.cycle
  [94, 105, 106, 97, 98, 143, 202, 149, 186, 191, 265, 187, 264, 219, 322, 223, 224, 227, 38]))
  (.cycle [94, 105, 106, 97, 98, 143, 202, 149, 186, 191, 265, 187, 264, 219, 235, 229, 74]))
  (.cycle [94, 105, 106, 97, 98, 143, 202, 149, 186, 191, 265, 187, 264, 219, 235, 236, 249, 90]))
  (.cycle [94, 105, 106, 97, 98, 143, 202, 149, 186, 191, 265, 187, 264, 219, 301, 233, 234])))
  (.cycle [185, 186, 191, 265, 187, 264, 278, 297, 69])) (.cases 94 (.cycle
  [94, 105, 106, 97, 98, 143, 202, 149, 186, 191, 265, 187, 208, 225, 271, 77]) (.cycle
  [213, 214, 215]))) (.cycle [206, 203, 204])) (.cycle
  [185, 186, 191, 265, 187, 264, 211, 212, 69])) (.cycle
  [94, 105, 106, 97, 98, 143, 202, 149, 186, 191, 265, 198, 199, 188])))))

/-- some of the cases -/
def ko2Case91 : CaseTree :=
  .cases 85 (.cases 75 (.cycle [55, 98, 143, 202, 197, 193, 189, 176, 177, 178, 179]) (.cases 72
  (.cycle [299, 189, 195, 148]) (.cases 87 (.cases 82 (.cycle [155, 156, 157]) (.cases 81 (.cycle
  [152, 153, 154]) (.cycle [64, 197, 193, 294, 151, 84]))) (.cycle
  [94, 105, 106, 97, 98, 143, 202, 197, 191, 293, 165, 166, 168, 87])))) (.cycle
  [200, 187, 165, 148])

/-- some of the cases -/
def ko2Case92 : CaseTree :=
  .cases 72 (.cases 81 (.cases 80 (.cases 87 (.cycle [200, 195, 210, 294, 190]) (.cycle
  [200, 195, 150, 293, 188])) (.cycle [200, 154, 147, 148])) (.cycle
  [94, 105, 106, 97, 98, 143, 202, 197, 191, 265, 195, 148])) (.cases 75 (.cycle
  [55, 98, 143, 202, 197, 182, 166, 176, 177, 178, 179]) (.cases 76 (.cycle [155, 174, 175])
  (.cases 77 (.cycle [152, 172, 173]) (.cases 86 (.cases 89 (.cases 92 (.cases 94 (.cases 104
  (.cases 103 (.cases 100 (.cases 111 (.cycle
  [64, 197, 182, 166, 262, 263, 278, 231, 246, 247, 248]) (.cases 82 (.cycle [155, 156, 157])
  (.cases 81 (.cycle [152, 153, 154]) (.cases 80 (.cycle [64, 197, 182, 150, 151, 84]) (.cycle
  [55, 98, 143, 202, 197, 191, 147, 166, 262, 225, 271, 77]))))) (.cycle
  [64, 197, 182, 166, 262, 263, 211, 229, 237, 247, 248])) (.cases 111 (.cases 100 (.cycle
  [94, 105, 106, 97, 98, 143, 202, 197, 182, 166, 262, 263, 278, 231, 244, 245, 282, 283])
  (.cases 105 (.cases 98 (.cases 113 (.cases 80 (.cases 81 (.cases 87 (.cases 85 (.cycle
  [94, 105, 106, 97, 98, 143, 202, 197, 182, 210, 189, 154, 167, 87]) (.cycle
  [64, 197, 182, 166, 187, 294, 190])) (.cycle [55, 98, 143, 202, 197, 182, 166, 154, 293, 188]))
  (.cycle [64, 197, 182, 150, 151, 84])) (.cases 112 (.cycle
  [94, 105, 106, 97, 98, 143, 202, 197, 191, 147, 166, 262, 263, 211, 229, 226, 289, 248]) (.cycle
  [218, 287, 288]))) (.cases 82 (.cycle [155, 156, 157]) (.cases 81 (.cycle [152, 153, 154])
  (.cases 80 (.cycle [64, 197, 182, 150, 151, 84]) (.cycle
  [94, 105, 106, 97, 98, 143, 202, 197, 191, 147, 166, 262, 263, 211, 229, 284, 285, 286])))))
  (.cycle [222, 223, 224])) (.cases 82 (.cycle [155, 156, 157]) (.cases 81 (.cycle [152, 153, 154])
  (.cases 80 (.cycle [64, 197, 182, 150, 151, 84]) (.cycle
  [94, 105, 106, 97, 98, 143, 202, 197, 191, 147, 166, 262, 263, 211, 244, 279, 74]))))))
  (.cases 82 (.cycle [155, 156, 157]) (.cases 81 (.cycle [152, 153, 154]) (.cases 80 (.cycle
  [64, 197, 182, 150, 151, 84]) (.cycle
  [55, 98, 143, 202, 197, 191, 147, 166, 262, 225, 271, 77])))))) (.cases 82 (.cycle
  [155, 156, 157]) (.cases 81 (.cycle [152, 153, 154]) (.cases 80 (.cycle
  [64, 197, 182, 150, 151, 84]) (.cycle
  [94, 105, 106, 97, 98, 143, 202, 197, 191, 147, 166, 262, 263, 272, 243, 38]))))) (.cycle
  [70, 297, 263, 77])) (.cases 85 (.cases 82 (.cycle [155, 156, 157]) (.cases 81 (.cycle
  [152, 153, 154]) (.cases 80 (.cycle [64, 197, 182, 150, 151, 84]) (.cases 93 (.cases 100
  (.cases 101 (.cases 103 (.cycle
  [94, 105, 106, 97, 98, 143, 202, 197, 191, 147, 210, 189, 198, 219, 235, 246, 247, 248])
  (.cases 94 (.cases 95 (.cases 105 (.cases 99 (.cases 108 (.cases 104 (.cycle
  [61, 147, 210, 189, 198, 219, 225, 231, 244, 245, 252, 270]) (.cycle
  [94, 105, 106, 97, 98, 143, 202, 197, 191, 147, 210, 189, 198, 219, 225, 242, 243, 38])) (.cycle
  [55, 98, 143, 202, 197, 191, 147, 210, 189, 198, 219, 225, 231, 236, 249, 90])) (.cycle
  [61, 147, 210, 189, 198, 219, 225, 232, 233, 234])) (.cycle
  [94, 105, 106, 97, 98, 143, 202, 197, 191, 147, 210, 189, 198, 219, 298, 279, 231, 38])) (.cycle
  [216, 217, 218])) (.cycle [213, 214, 215]))) (.cycle [67, 230, 231, 38])) (.cycle
  [94, 105, 106, 97, 98, 143, 202, 197, 191, 147, 210, 189, 198, 219, 235, 229, 74])) (.cycle
  [55, 98, 143, 202, 197, 191, 147, 210, 189, 198, 211, 212, 69]))))) (.cycle
  [94, 105, 106, 97, 98, 143, 202, 197, 182, 166, 187, 264, 219, 69]))) (.cases 91 (.cases 81
  (.cycle [321, 205, 154, 190]) (.cases 80 (.cycle [64, 197, 182, 150, 151, 84]) (.cycle
  [55, 98, 143, 202, 197, 191, 147, 210, 208, 205, 168, 87]))) (.cycle [206, 203, 204]))) (.cycle
  [64, 197, 182, 166, 198, 199, 188])))))

/-- some of the cases -/
def ko2Case93 : CaseTree :=
  .cases 71 (.cycle [61, 196, 145, 192]) (.cases 72 (.cycle [55, 98, 143, 144, 145, 184, 195, 148])
  (.cases 83 (.cycle [169, 170, 171]) (.cases 73 (.cases 79 (.cycle [185, 186, 191, 158, 192])
  (.cases 85 (.cases 81 (.cycle [185, 186, 145, 164, 189, 154, 190]) (.cycle
  [185, 186, 145, 146, 151, 84])) (.cycle [185, 186, 145, 184, 187, 188]))) (.cases 74 (.cases 76
  (.cycle [155, 174, 175]) (.cases 77 (.cycle [152, 172, 173]) (.cases 80 (.cases 81 (.cases 87
  (.cases 85 (.cycle [94, 105, 106, 97, 98, 143, 144, 182, 183, 164, 189, 154, 167, 87]) (.cycle
  [55, 98, 143, 144, 182, 183, 184, 187, 294, 190])) (.cycle
  [94, 105, 106, 97, 98, 143, 144, 182, 183, 184, 154, 293, 188])) (.cycle
  [94, 105, 106, 97, 98, 143, 144, 182, 150, 151, 84])) (.cycle [61, 147, 180, 181])))) (.cases 76
  (.cycle [155, 174, 175]) (.cases 77 (.cycle [152, 172, 173]) (.cases 78 (.cases 79 (.cases 84
  (.cycle [61, 158, 164, 165, 166, 168, 87]) (.cycle [161, 162, 163])) (.cases 81 (.cases 84
  (.cycle [94, 105, 106, 97, 98, 143, 144, 145, 164, 165, 166, 154, 190]) (.cycle [161, 162, 163]))
  (.cycle [94, 105, 106, 97, 98, 143, 144, 145, 146, 151, 84]))) (.cases 84 (.cycle
  [319, 320, 171]) (.cases 79 (.cycle [61, 158, 159, 160, 20]) (.cases 80 (.cases 81 (.cases 87
  (.cases 85 (.cycle [94, 105, 106, 97, 98, 143, 144, 145, 149, 210, 189, 154, 167, 87]) (.cycle
  [55, 98, 143, 144, 145, 149, 166, 187, 294, 190])) (.cycle
  [55, 98, 143, 144, 145, 149, 166, 154, 293, 188])) (.cycle
  [55, 98, 143, 144, 145, 149, 150, 151, 84])) (.cycle
  [94, 105, 106, 97, 98, 143, 144, 145, 146, 147, 148])))))))))))

/-- some of the cases -/
def ko2Case94 : CaseTree :=
  .cases 75 (.cycle [299, 315, 316, 317, 318, 178, 179]) (.cases 87 (.cases 71 (.cycle
  [299, 294, 196, 300]) (.cases 81 (.cases 82 (.cycle [155, 156, 157]) (.cycle [152, 153, 154]))
  (.cycle [299, 315, 191, 151, 84]))) (.cycle [61, 293, 315, 300]))

/-- some of the cases -/
def ko2Case95 : CaseTree :=
  .cases 74 (.cycle [185, 183, 146, 313, 314]) (.cases 84 (.cycle [61, 196, 193, 165, 148])
  (.cases 80 (.cycle [33, 134, 137, 98, 143, 202, 149, 150, 313, 314]) (.cases 72 (.cycle
  [61, 196, 295, 195, 148]) (.cases 73 (.cycle [61, 147, 186, 300]) (.cases 85 (.cycle
  [61, 196, 182, 210, 189, 168, 87]) (.cycle [61, 196, 182, 166, 187, 188]))))))

/-- some of the cases -/
def ko2Case96 : CaseTree :=
  .cases 115 (.cycle [310, 311, 312, 140, 197, 193, 189, 154, 190]) (.cases 114 (.cycle
  [307, 308, 309]) (.cases 74 (.cycle [180, 303, 161]) (.cycle
  [33, 134, 137, 98, 143, 202, 149, 186, 193, 189, 154, 190])))

/-- some of the cases -/
def ko2Case97 : CaseTree :=
  .cases 86 (.cases 91 (.cases 87 (.cases 115 (.cycle
  [310, 311, 312, 140, 197, 295, 187, 294, 190]) (.cases 114 (.cycle [307, 308, 309]) (.cases 74
  (.cycle [180, 303, 161]) (.cycle [33, 134, 137, 98, 143, 202, 149, 186, 295, 187, 294, 190]))))
  (.cases 93 (.cases 111 (.cases 94 (.cases 92 (.cases 100 (.cases 115 (.cycle
  [310, 311, 312, 140, 197, 295, 154, 293, 208, 263, 278, 231, 38]) (.cases 114 (.cycle
  [307, 308, 309]) (.cases 74 (.cycle [180, 303, 161]) (.cases 105 (.cases 104 (.cycle
  [33, 134, 137, 98, 143, 202, 149, 186, 295, 154, 293, 208, 263, 278, 231, 244, 248]) (.cycle
  [200, 154, 293, 208, 263, 278, 242, 243, 38])) (.cycle
  [33, 134, 137, 98, 143, 202, 149, 186, 295, 154, 293, 208, 263, 272, 279, 231, 38])))))
  (.cases 104 (.cases 103 (.cycle [200, 154, 293, 208, 263, 211, 229, 237, 247, 248]) (.cases 105
  (.cases 106 (.cycle [200, 154, 293, 208, 263, 211, 229, 242, 245, 258, 259, 260, 261])
  (.cases 117 (.cycle [253, 331, 332]) (.cases 118 (.cycle [250, 329, 330]) (.cases 113 (.cases 98
  (.cases 101 (.cases 108 (.cases 110 (.cases 102 (.cases 115 (.cycle
  [310, 311, 312, 140, 197, 295, 154, 293, 208, 263, 211, 229, 226, 257, 252, 270]) (.cases 114
  (.cycle [307, 308, 309]) (.cases 74 (.cycle [180, 303, 161]) (.cycle
  [33, 134, 137, 98, 143, 202, 149, 186, 295, 154, 293, 208, 263, 211, 229, 226, 257, 252, 328, 283]))))
  (.cycle [200, 154, 293, 208, 263, 211, 229, 242, 245, 238, 269, 270])) (.cycle
  [200, 154, 293, 208, 263, 211, 229, 242, 245, 252, 268, 239])) (.cycle
  [200, 154, 293, 208, 263, 211, 229, 232, 249, 90])) (.cases 112 (.cycle
  [67, 230, 226, 289, 245, 282, 283]) (.cycle [218, 287, 288]))) (.cycle [222, 223, 224]))
  (.cases 107 (.cycle [253, 254, 255]) (.cases 108 (.cycle [250, 251, 252]) (.cases 101 (.cycle
  [200, 154, 293, 208, 263, 211, 229, 232, 249, 90]) (.cycle [67, 230, 284, 285, 286]))))))))
  (.cases 115 (.cycle [310, 311, 312, 140, 197, 295, 154, 293, 208, 263, 211, 244, 240, 280])
  (.cases 114 (.cycle [307, 308, 309]) (.cases 74 (.cycle [180, 303, 161]) (.cases 98 (.cases 109
  (.cases 102 (.cases 107 (.cycle
  [200, 154, 293, 208, 263, 211, 244, 279, 226, 257, 258, 255, 327]) (.cases 108 (.cycle
  [250, 251, 252]) (.cycle [200, 154, 293, 208, 263, 211, 244, 267, 249, 90]))) (.cycle
  [33, 134, 137, 98, 143, 202, 149, 186, 295, 154, 293, 208, 263, 211, 244, 279, 237, 238, 239]))
  (.cycle [67, 266, 240, 280])) (.cycle [222, 223, 224]))))))) (.cycle
  [200, 154, 293, 208, 263, 272, 243, 229, 74]))) (.cases 115 (.cycle
  [310, 311, 312, 140, 197, 295, 154, 293, 264, 219, 69]) (.cases 114 (.cycle [307, 308, 309])
  (.cases 74 (.cycle [180, 303, 161]) (.cases 99 (.cases 108 (.cases 100 (.cases 97 (.cases 110
  (.cycle [33, 134, 137, 98, 143, 202, 149, 186, 295, 154, 293, 264, 219, 225, 231, 256, 269, 270])
  (.cycle
  [33, 134, 137, 98, 143, 202, 149, 186, 295, 154, 293, 264, 219, 225, 231, 246, 252, 268, 239]))
  (.cycle [33, 134, 137, 98, 143, 202, 149, 186, 295, 154, 293, 264, 219, 322, 223, 224, 227, 38]))
  (.cycle [33, 134, 137, 98, 143, 202, 149, 186, 295, 154, 293, 264, 219, 235, 229, 74])) (.cycle
  [33, 134, 137, 98, 143, 202, 149, 186, 295, 154, 293, 264, 219, 235, 236, 249, 90])) (.cycle
  [33, 134, 137, 98, 143, 202, 149, 186, 295, 154, 293, 264, 219, 301, 233, 234])))))) (.cycle
  [200, 154, 293, 264, 278, 297, 69])) (.cases 94 (.cases 116 (.cycle
  [325, 326, 197, 295, 154, 293, 208, 225, 271, 77]) (.cases 74 (.cycle [323, 324, 183]) (.cycle
  [33, 134, 137, 98, 143, 202, 149, 186, 295, 154, 293, 208, 225, 271, 77]))) (.cycle
  [213, 214, 215]))) (.cycle [200, 154, 293, 264, 211, 212, 69]))) (.cycle [206, 203, 204]))
  (.cases 87 (.cycle [82, 199, 294, 190]) (.cases 77 (.cycle [82, 173, 293, 188]) (.cases 115
  (.cycle [310, 311, 312, 140, 197, 295, 154, 306, 199, 188]) (.cases 114 (.cycle [307, 308, 309])
  (.cases 74 (.cycle [180, 303, 161]) (.cycle
  [33, 134, 137, 98, 143, 202, 149, 186, 295, 154, 306, 199, 188]))))))

/-- some of the cases -/
def ko2Case98 : CaseTree :=
  .cases 114 (.cycle [304, 305, 140, 197, 191, 151, 84]) (.cases 74 (.cycle [180, 303, 161])
  (.cases 87 (.cycle [185, 186, 193, 294, 151, 84]) (.cases 85 (.cycle
  [33, 134, 137, 98, 143, 202, 149, 186, 191, 293, 189, 168, 87]) (.cases 86 (.cases 93 (.cases 91
  (.cases 111 (.cases 94 (.cases 92 (.cases 103 (.cycle
  [33, 134, 137, 98, 143, 202, 149, 186, 191, 265, 187, 208, 263, 278, 237, 247, 248]) (.cases 105
  (.cases 106 (.cycle
  [33, 134, 137, 98, 143, 202, 149, 186, 191, 265, 187, 208, 263, 278, 242, 245, 258, 259, 260, 261])
  (.cases 104 (.cases 100 (.cycle
  [33, 134, 137, 98, 143, 202, 149, 186, 191, 265, 187, 208, 263, 278, 231, 244, 248]) (.cases 107
  (.cycle [253, 254, 255]) (.cases 108 (.cycle [250, 251, 252]) (.cases 101 (.cycle
  [185, 186, 191, 265, 187, 208, 263, 211, 229, 232, 249, 90]) (.cases 110 (.cycle
  [276, 269, 230, 74]) (.cases 113 (.cases 98 (.cases 112 (.cycle
  [67, 230, 226, 289, 245, 282, 283]) (.cycle [218, 287, 288])) (.cycle [67, 268, 277, 74]))
  (.cycle [67, 230, 284, 285, 286]))))))) (.cycle
  [185, 186, 191, 265, 187, 208, 263, 278, 242, 243, 38]))) (.cases 112 (.cycle
  [240, 223, 224, 289]) (.cases 100 (.cycle
  [33, 134, 137, 98, 143, 202, 149, 186, 191, 265, 187, 208, 263, 272, 279, 231, 38]) (.cases 104
  (.cases 109 (.cases 102 (.cases 106 (.cycle
  [185, 186, 191, 265, 187, 208, 263, 211, 244, 281, 257, 258, 259, 260, 261]) (.cases 107 (.cycle
  [253, 254, 255]) (.cases 108 (.cycle [250, 251, 252]) (.cycle
  [185, 186, 191, 265, 187, 208, 263, 211, 244, 267, 249, 90])))) (.cycle
  [33, 134, 137, 98, 143, 202, 149, 186, 191, 265, 187, 208, 263, 211, 244, 279, 237, 238, 239]))
  (.cycle [67, 266, 240, 280])) (.cycle
  [185, 186, 191, 265, 187, 208, 263, 272, 243, 229, 74])))))) (.cases 99 (.cases 108 (.cases 100
  (.cases 97 (.cases 110 (.cycle
  [33, 134, 137, 98, 143, 202, 149, 186, 191, 265, 187, 264, 219, 225, 231, 256, 269, 270]) (.cycle
  [33, 134, 137, 98, 143, 202, 149, 186, 191, 265, 187, 264, 219, 225, 231, 246, 252, 268, 239]))
  (.cycle [33, 134, 137, 98, 143, 202, 149, 186, 191, 265, 187, 264, 219, 322, 223, 224, 227, 38]))
  (.cycle [33, 134, 137, 98, 143, 202, 149, 186, 191, 265, 187, 264, 219, 235, 229, 74])) (.cycle
  [33, 134, 137, 98, 143, 202, 149, 186, 191, 265, 187, 264, 219, 235, 236, 249, 90])) (.cycle
  [33, 134, 137, 98, 143, 202, 149, 186, 191, 265, 187, 264, 219, 301, 233, 234]))) (.cycle
  [185, 186, 191, 265, 187, 264, 278, 297, 69])) (.cases 94 (.cycle
  [33, 134, 137, 98, 143, 202, 149, 186, 191, 265, 187, 208, 225, 271, 77]) (.cycle
  [213, 214, 215]))) (.cycle [206, 203, 204])) (.cycle
  [185, 186, 191, 265, 187, 264, 211, 212, 69])) (.cycle
  [33, 134, 137, 98, 143, 202, 149, 186, 191, 265, 198, 199, 188])))))

/-- some of the cases -/
def ko2Case99 : CaseTree :=
  .cases 85 (.cases 75 (.cycle [55, 98, 143, 202, 197, 193, 189, 176, 177, 178, 179]) (.cases 72
  (.cycle [299, 189, 195, 148]) (.cases 87 (.cases 82 (.cycle [155, 156, 157]) (.cases 81 (.cycle
  [152, 153, 154]) (.cycle [64, 197, 193, 294, 151, 84]))) (.cycle
  [33, 134, 137, 98, 143, 202, 197, 191, 293, 165, 166, 168, 87])))) (.cycle [200, 187, 165, 148])

/-- some of the cases -/
def ko2Case100 : CaseTree :=
  .cases 72 (.cases 81 (.cases 80 (.cases 87 (.cycle [200, 195, 210, 294, 190]) (.cycle
  [200, 195, 150, 293, 188])) (.cycle [200, 154, 147, 148])) (.cycle
  [33, 134, 137, 98, 143, 202, 197, 191, 265, 195, 148])) (.cases 75 (.cycle
  [55, 98, 143, 202, 197, 182, 166, 176, 177, 178, 179]) (.cases 76 (.cycle [155, 174, 175])
  (.cases 77 (.cycle [152, 172, 173]) (.cases 86 (.cases 89 (.cases 92 (.cases 94 (.cases 104
  (.cases 103 (.cases 100 (.cases 111 (.cycle
  [64, 197, 182, 166, 262, 263, 278, 231, 246, 247, 248]) (.cases 82 (.cycle [155, 156, 157])
  (.cases 81 (.cycle [152, 153, 154]) (.cases 80 (.cycle [64, 197, 182, 150, 151, 84]) (.cycle
  [55, 98, 143, 202, 197, 191, 147, 166, 262, 225, 271, 77]))))) (.cycle
  [64, 197, 182, 166, 262, 263, 211, 229, 237, 247, 248])) (.cases 111 (.cases 100 (.cycle
  [33, 134, 137, 98, 143, 202, 197, 182, 166, 262, 263, 278, 231, 244, 245, 282, 283]) (.cases 105
  (.cases 98 (.cases 113 (.cases 80 (.cases 81 (.cases 87 (.cases 85 (.cycle
  [33, 134, 137, 98, 143, 202, 197, 182, 210, 189, 154, 167, 87]) (.cycle
  [64, 197, 182, 166, 187, 294, 190])) (.cycle [55, 98, 143, 202, 197, 182, 166, 154, 293, 188]))
  (.cycle [64, 197, 182, 150, 151, 84])) (.cases 112 (.cycle
  [33, 134, 137, 98, 143, 202, 197, 191, 147, 166, 262, 263, 211, 229, 226, 289, 248]) (.cycle
  [218, 287, 288]))) (.cases 82 (.cycle [155, 156, 157]) (.cases 81 (.cycle [152, 153, 154])
  (.cases 80 (.cycle [64, 197, 182, 150, 151, 84]) (.cycle
  [33, 134, 137, 98, 143, 202, 197, 191, 147, 166, 262, 263, 211, 229, 284, 285, 286]))))) (.cycle
  [222, 223, 224])) (.cases 82 (.cycle [155, 156, 157]) (.cases 81 (.cycle [152, 153, 154])
  (.cases 80 (.cycle [64, 197, 182, 150, 151, 84]) (.cycle
  [33, 134, 137, 98, 143, 202, 197, 191, 147, 166, 262, 263, 211, 244, 279, 74])))))) (.cases 82
  (.cycle [155, 156, 157]) (.cases 81 (.cycle [152, 153, 154]) (.cases 80 (.cycle
  [64, 197, 182, 150, 151, 84]) (.cycle
  [55, 98, 143, 202, 197, 191, 147, 166, 262, 225, 271, 77])))))) (.cases 82 (.cycle
  [155, 156, 157]) (.cases 81 (.cycle [152, 153, 154]) (.cases 80 (.cycle
  [64, 197, 182, 150, 151, 84]) (.cycle
  [33, 134, 137, 98, 143, 202, 197, 191, 147, 166, 262, 263, 272, 243, 38]))))) (.cycle
  [70, 297, 263, 77])) (.cases 85 (.cases 82 (.cycle [155, 156, 157]) (.cases 81 (.cycle
  [152, 153, 154]) (.cases 80 (.cycle [64, 197, 182, 150, 151, 84]) (.cases 93 (.cases 100
  (.cases 101 (.cases 103 (.cycle
  [33, 134, 137, 98, 143, 202, 197, 191, 147, 210, 189, 198, 219, 235, 246, 247, 248]) (.cases 94
  (.cases 95 (.cases 105 (.cases 99 (.cases 108 (.cases 104 (.cycle
  [61, 147, 210, 189, 198, 219, 225, 231, 244, 245, 252, 270]) (.cycle
  [33, 134, 137, 98, 143, 202, 197, 191, 147, 210, 189, 198, 219, 225, 242, 243, 38])) (.cycle
  [55, 98, 143, 202, 197, 191, 147, 210, 189, 198, 219, 225, 231, 236, 249, 90])) (.cycle
  [61, 147, 210, 189, 198, 219, 225, 232, 233, 234])) (.cycle
  [33, 134, 137, 98, 143, 202, 197, 191, 147, 210, 189, 198, 219, 298, 279, 231, 38])) (.cycle
  [216, 217, 218])) (.cycle [213, 214, 215]))) (.cycle [67, 230, 231, 38])) (.cycle
  [33, 134, 137, 98, 143, 202, 197, 191, 147, 210, 189, 198, 219, 235, 229, 74])) (.cycle
  [55, 98, 143, 202, 197, 191, 147, 210, 189, 198, 211, 212, 69]))))) (.cycle
  [33, 134, 137, 98, 143, 202, 197, 182, 166, 187, 264, 219, 69]))) (.cases 91 (.cases 81 (.cycle
  [321, 205, 154, 190]) (.cases 80 (.cycle [64, 197, 182, 150, 151, 84]) (.cycle
  [55, 98, 143, 202, 197, 191, 147, 210, 208, 205, 168, 87]))) (.cycle [206, 203, 204]))) (.cycle
  [64, 197, 182, 166, 198, 199, 188])))))

/-- some of the cases -/
def ko2Case101 : CaseTree :=
  .cases 71 (.cycle [61, 196, 145, 192]) (.cases 72 (.cycle [55, 98, 143, 144, 145, 184, 195, 148])
  (.cases 83 (.cycle [169, 170, 171]) (.cases 73 (.cases 79 (.cycle [185, 186, 191, 158, 192])
  (.cases 85 (.cases 81 (.cycle [185, 186, 145, 164, 189, 154, 190]) (.cycle
  [185, 186, 145, 146, 151, 84])) (.cycle [185, 186, 145, 184, 187, 188]))) (.cases 74 (.cases 76
  (.cycle [155, 174, 175]) (.cases 77 (.cycle [152, 172, 173]) (.cases 80 (.cases 81 (.cases 87
  (.cases 85 (.cycle [33, 134, 137, 98, 143, 144, 182, 183, 164, 189, 154, 167, 87]) (.cycle
  [55, 98, 143, 144, 182, 183, 184, 187, 294, 190])) (.cycle
  [33, 134, 137, 98, 143, 144, 182, 183, 184, 154, 293, 188])) (.cycle
  [33, 134, 137, 98, 143, 144, 182, 150, 151, 84])) (.cycle [61, 147, 180, 181])))) (.cases 76
  (.cycle [155, 174, 175]) (.cases 77 (.cycle [152, 172, 173]) (.cases 78 (.cases 79 (.cases 84
  (.cycle [61, 158, 164, 165, 166, 168, 87]) (.cycle [161, 162, 163])) (.cases 81 (.cases 84
  (.cycle [33, 134, 137, 98, 143, 144, 145, 164, 165, 166, 154, 190]) (.cycle [161, 162, 163]))
  (.cycle [33, 134, 137, 98, 143, 144, 145, 146, 151, 84]))) (.cases 84 (.cycle [319, 320, 171])
  (.cases 79 (.cycle [61, 158, 159, 160, 20]) (.cases 80 (.cases 81 (.cases 87 (.cases 85 (.cycle
  [33, 134, 137, 98, 143, 144, 145, 149, 210, 189, 154, 167, 87]) (.cycle
  [55, 98, 143, 144, 145, 149, 166, 187, 294, 190])) (.cycle
  [55, 98, 143, 144, 145, 149, 166, 154, 293, 188])) (.cycle
  [55, 98, 143, 144, 145, 149, 150, 151, 84])) (.cycle
  [33, 134, 137, 98, 143, 144, 145, 146, 147, 148])))))))))))

/-- some of the cases -/
def ko2Case102 : CaseTree :=
  .cases 75 (.cycle [299, 315, 316, 317, 318, 178, 179]) (.cases 87 (.cases 71 (.cycle
  [299, 294, 196, 300]) (.cases 81 (.cases 82 (.cycle [155, 156, 157]) (.cycle [152, 153, 154]))
  (.cycle [299, 315, 191, 151, 84]))) (.cycle [61, 293, 315, 300]))

/-- some of the cases -/
def ko2Case103 : CaseTree :=
  .cases 74 (.cycle [185, 183, 146, 313, 314]) (.cases 84 (.cycle [61, 196, 193, 165, 148])
  (.cases 80 (.cycle [124, 125, 126, 127, 112, 97, 98, 143, 202, 149, 150, 313, 314]) (.cases 72
  (.cycle [61, 196, 295, 195, 148]) (.cases 73 (.cycle [61, 147, 186, 300]) (.cases 85 (.cycle
  [61, 196, 182, 210, 189, 168, 87]) (.cycle [61, 196, 182, 166, 187, 188]))))))

/-- some of the cases -/
def ko2Case104 : CaseTree :=
  .cases 115 (.cycle [310, 311, 312, 140, 197, 193, 189, 154, 190]) (.cases 114 (.cycle
  [307, 308, 309]) (.cases 74 (.cycle [180, 303, 161]) (.cycle
  [124, 125, 126, 127, 112, 97, 98, 143, 202, 149, 186, 193, 189, 154, 190])))

/-- some of the cases -/
def ko2Case105 : CaseTree :=
  .cases 86 (.cases 91 (.cases 87 (.cases 115 (.cycle
  [310, 311, 312, 140, 197, 295, 187, 294, 190]) (.cases 114 (.cycle [307, 308, 309]) (.cases 74
  (.cycle [180, 303, 161]) (.cycle
  [124, 125, 126, 127, 112, 97, 98, 143, 202, 149, 186, 295, 187, 294, 190])))) (.cases 93
  (.cases 111 (.cases 94 (.cases 92 (.cases 100 (.cases 115 (.cycle
  [310, 311, 312, 140, 197, 295, 154, 293, 208, 263, 278, 231, 38]) (.cases 114 (.cycle
  [307, 308, 309]) (.cases 74 (.cycle [180, 303, 161]) (.cases 105 (.cases 104 (.cycle
  [124, 125, 126, 127, 112, 97, 98, 143, 202, 149, 186, 295, 154, 293, 208, 263, 278, 231, 244, 248])
  (.cycle [200, 154, 293, 208, 263, 278, 242, 243, 38])) (.cycle
  [124, 125, 126, 127, 112, 97, 98, 143, 202, 149, 186, 295, 154, 293, 208, 263, 272, 279, 231, 38])))))
  (.cases 104 (.cases 103 (.cycle [200, 154, 293, 208, 263, 211, 229, 237, 247, 248]) (.cases 105
  (.cases 106 (.cycle [200, 154, 293, 208, 263, 211, 229, 242, 245, 258, 259, 260, 261])
  (.cases 117 (.cycle [253, 331, 332]) (.cases 118 (.cycle [250, 329, 330]) (.cases 113 (.cases 98
  (.cases 101 (.cases 108 (.cases 110 (.cases 102 (.cases 115 (.cycle
  [310, 311, 312, 140, 197, 295, 154, 293, 208, 263, 211, 229, 226, 257, 252, 270]) (.cases 114
  (.cycle [307, 308, 309]) (.cases 74 (.cycle [180, 303, 161]) (.cycle
  [124, 125, 126, 127, 112, 97, 98, 143, 202, 149, 186, 295, 154, 293, 208, 263, 211, 229, 226, 257, 252, 328, 283]))))
  (.cycle [200, 154, 293, 208, 263, 211, 229, 242, 245, 238, 269, 270])) (.cycle
  [200, 154, 293, 208, 263, 211, 229, 242, 245, 252, 268, 239])) (.cycle
  [200, 154, 293, 208, 263, 211, 229, 232, 249, 90])) (.cases 112 (.cycle
  [67, 230, 226, 289, 245, 282, 283]) (.cycle [218, 287, 288]))) (.cycle [222, 223, 224]))
  (.cases 107 (.cycle [253, 254, 255]) (.cases 108 (.cycle [250, 251, 252]) (.cases 101 (.cycle
  [200, 154, 293, 208, 263, 211, 229, 232, 249, 90]) (.cycle [67, 230, 284, 285, 286]))))))))
  (.cases 115 (.cycle [310, 311, 312, 140, 197, 295, 154, 293, 208, 263, 211, 244, 240, 280])
  (.cases 114 (.cycle [307, 308, 309]) (.cases 74 (.cycle [180, 303, 161]) (.cases 98 (.cases 109
  (.cases 102 (.cases 107 (.cycle
  [200, 154, 293, 208, 263, 211, 244, 279, 226, 257, 258, 255, 327]) (.cases 108 (.cycle
  [250, 251, 252]) (.cycle [200, 154, 293, 208, 263, 211, 244, 267, 249, 90]))) (.cycle
  [124, 125, 126, 127, 112, 97, 98, 143, 202, 149, 186, 295, 154, 293, 208, 263, 211, 244, 279, 237, 238, 239]))
  (.cycle [67, 266, 240, 280])) (.cycle [222, 223, 224]))))))) (.cycle
  [200, 154, 293, 208, 263, 272, 243, 229, 74]))) (.cases 115 (.cycle
  [310, 311, 312, 140, 197, 295, 154, 293, 264, 219, 69]) (.cases 114 (.cycle [307, 308, 309])
  (.cases 74 (.cycle [180, 303, 161]) (.cases 99 (.cases 108 (.cases 100 (.cases 97 (.cases 110
  (.cycle
  [124, 125, 126, 127, 112, 97, 98, 143, 202, 149, 186, 295, 154, 293, 264, 219, 225, 231, 256, 269, 270])
  (.cycle
  [124, 125, 126, 127, 112, 97, 98, 143, 202, 149, 186, 295, 154, 293, 264, 219, 225, 231, 246, 252, 268, 239]))
  (.cycle
  [124, 125, 126, 127, 112, 97, 98, 143, 202, 149, 186, 295, 154, 293, 264, 219, 322, 223, 224, 227, 38]))
  (.cycle
  [124, 125, 126, 127, 112, 97, 98, 143, 202, 149, 186, 295, 154, 293, 264, 219, 235, 229, 74]))
  (.cycle
  [124, 125, 126, 127, 112, 97, 98, 143, 202, 149, 186, 295, 154, 293, 264, 219, 235, 236, 249, 90]))
  (.cycle
  [124, 125, 126, 127, 112, 97, 98, 143, 202, 149, 186, 295, 154, 293, 264, 219, 301, 233, 234]))))))
  (.cycle [200, 154, 293, 264, 278, 297, 69])) (.cases 94 (.cases 116 (.cycle
  [325, 326, 197, 295, 154, 293, 208, 225, 271, 77]) (.cases 74 (.cycle [323, 324, 183]) (.cycle
  [124, 125, 126, 127, 112, 97, 98, 143, 202, 149, 186, 295, 154, 293, 208, 225, 271, 77])))
  (.cycle [213, 214, 215]))) (.cycle [200, 154, 293, 264, 211, 212, 69]))) (.cycle
  [206, 203, 204])) (.cases 87 (.cycle [82, 199, 294, 190]) (.cases 77 (.cycle [82, 173, 293, 188])
  (.cases 115 (.cycle [310, 311, 312, 140, 197, 295, 154, 306, 199, 188]) (.cases 114 (.cycle
  [307, 308, 309]) (.cases 74 (.cycle [180, 303, 161]) (.cycle
  [124, 125, 126, 127, 112, 97, 98, 143, 202, 149, 186, 295, 154, 306, 199, 188]))))))

/-- some of the cases -/
def ko2Case106 : CaseTree :=
  .cases 114 (.cycle [304, 305, 140, 197, 191, 151, 84]) (.cases 74 (.cycle [180, 303, 161])
  (.cases 87 (.cycle [185, 186, 193, 294, 151, 84]) (.cases 85 (.cycle
  [124, 125, 126, 127, 112, 97, 98, 143, 202, 149, 186, 191, 293, 189, 168, 87]) (.cases 86
  (.cases 93 (.cases 91 (.cases 111 (.cases 94 (.cases 92 (.cases 103 (.cycle
  [124, 125, 126, 127, 112, 97, 98, 143, 202, 149, 186, 191, 265, 187, 208, 263, 278, 237, 247, 248])
  (.cases 105 (.cases 106 (.cycle
  [124, 125, 126, 127, 112, 97, 98, 143, 202, 149, 186, 191, 265, 187, 208, 263, 278, 242, 245, 258, 259, 260, 261])
  (.cases 104 (.cases 100 (.cycle
  [124, 125, 126, 127, 112, 97, 98, 143, 202, 149, 186, 191, 265, 187, 208, 263, 278, 231, 244, 248])
  (.cases 107 (.cycle [253, 254, 255]) (.cases 108 (.cycle [250, 251, 252]) (.cases 101 (.cycle
  [185, 186, 191, 265, 187, 208, 263, 211, 229, 232, 249, 90]) (.cases 110 (.cycle
  [276, 269, 230, 74]) (.cases 113 (.cases 98 (.cases 112 (.cycle
  [67, 230, 226, 289, 245, 282, 283]) (.cycle [218, 287, 288])) (.cycle [67, 268, 277, 74]))
  (.cycle [67, 230, 284, 285, 286]))))))) (.cycle
  [185, 186, 191, 265, 187, 208, 263, 278, 242, 243, 38]))) (.cases 112 (.cycle
  [240, 223, 224, 289]) (.cases 100 (.cycle
  [124, 125, 126, 127, 112, 97, 98, 143, 202, 149, 186, 191, 265, 187, 208, 263, 272, 279, 231, 38])
  (.cases 104 (.cases 109 (.cases 102 (.cases 106 (.cycle
  [185, 186, 191, 265, 187, 208, 263, 211, 244, 281, 257, 258, 259, 260, 261]) (.cases 107 (.cycle
  [253, 254, 255]) (.cases 108 (.cycle [250, 251, 252]) (.cycle
  [185, 186, 191, 265, 187, 208, 263, 211, 244, 267, 249, 90])))) (.cycle
  [124, 125, 126, 127, 112, 97, 98, 143, 202, 149, 186, 191, 265, 187, 208, 263, 211, 244, 279, 237, 238, 239]))
  (.cycle [67, 266, 240, 280])) (.cycle
  [185, 186, 191, 265, 187, 208, 263, 272, 243, 229, 74])))))) (.cases 99 (.cases 108 (.cases 100
  (.cases 97 (.cases 110 (.cycle
  [124, 125, 126, 127, 112, 97, 98, 143, 202, 149, 186, 191, 265, 187, 264, 219, 225, 231, 256, 269, 270])
  (.cycle
  [124, 125, 126, 127, 112, 97, 98, 143, 202, 149, 186, 191, 265, 187, 264, 219, 225, 231, 246, 252, 268, 239]))
  (.cycle
  [124, 125, 126, 127, 112, 97, 98, 143, 202, 149, 186, 191, 265, 187, 264, 219, 322, 223, 224, 227, 38]))
  (.cycle
  [124, 125, 126, 127, 112, 97, 98, 143, 202, 149, 186, 191, 265, 187, 264, 219, 235, 229, 74]))
  (.cycle
  [124, 125, 126, 127, 112, 97, 98, 143, 202, 149, 186, 191, 265, 187, 264, 219, 235, 236, 249, 90]))
  (.cycle
  [124, 125, 126, 127, 112, 97, 98, 143, 202, 149, 186, 191, 265, 187, 264, 219, 301, 233, 234])))
  (.cycle [185, 186, 191, 265, 187, 264, 278, 297, 69])) (.cases 94 (.cycle
  [124, 125, 126, 127, 112, 97, 98, 143, 202, 149, 186, 191, 265, 187, 208, 225, 271, 77]) (.cycle
  [213, 214, 215]))) (.cycle [206, 203, 204])) (.cycle
  [185, 186, 191, 265, 187, 264, 211, 212, 69])) (.cycle
  [124, 125, 126, 127, 112, 97, 98, 143, 202, 149, 186, 191, 265, 198, 199, 188])))))

/-- some of the cases -/
def ko2Case107 : CaseTree :=
  .cases 85 (.cases 75 (.cycle [55, 98, 143, 202, 197, 193, 189, 176, 177, 178, 179]) (.cases 72
  (.cycle [299, 189, 195, 148]) (.cases 87 (.cases 82 (.cycle [155, 156, 157]) (.cases 81 (.cycle
  [152, 153, 154]) (.cycle [64, 197, 193, 294, 151, 84]))) (.cycle
  [124, 125, 126, 127, 112, 97, 98, 143, 202, 197, 191, 293, 165, 166, 168, 87])))) (.cycle
  [200, 187, 165, 148])

/-- some of the cases -/
def ko2Case108 : CaseTree :=
  .cases 72 (.cases 81 (.cases 80 (.cases 87 (.cycle [200, 195, 210, 294, 190]) (.cycle
  [200, 195, 150, 293, 188])) (.cycle [200, 154, 147, 148])) (.cycle
  [124, 125, 126, 127, 112, 97, 98, 143, 202, 197, 191, 265, 195, 148])) (.cases 75 (.cycle
  [55, 98, 143, 202, 197, 182, 166, 176, 177, 178, 179]) (.cases 76 (.cycle [155, 174, 175])
  (.cases 77 (.cycle [152, 172, 173]) (.cases 86 (.cases 89 (.cases 92 (.cases 94 (.cases 104
  (.cases 103 (.cases 100 (.cases 111 (.cycle
  [64, 197, 182, 166, 262, 263, 278, 231, 246, 247, 248]) (.cases 82 (.cycle [155, 156, 157])
  (.cases 81 (.cycle [152, 153, 154]) (.cases 80 (.cycle [64, 197, 182, 150, 151, 84]) (.cycle
  [55, 98, 143, 202, 197, 191, 147, 166, 262, 225, 271, 77]))))) (.cycle
  [64, 197, 182, 166, 262, 263, 211, 229, 237, 247, 248])) (.cases 111 (.cases 100 (.cycle
  [124, 125, 126, 127, 112, 97, 98, 143, 202, 197, 182, 166, 262, 263, 278, 231, 244, 245, 282, 283])
  (.cases 105 (.cases 98 (.cases 113 (.cases 80 (.cases 81 (.cases 87 (.cases 85 (.cycle
  [124, 125, 126, 127, 112, 97, 98, 143, 202, 197, 182, 210, 189, 154, 167, 87]) (.cycle
  [64, 197, 182, 166, 187, 294, 190])) (.cycle [55, 98, 143, 202, 197, 182, 166, 154, 293, 188]))
  (.cycle [64, 197, 182, 150, 151, 84])) (.cases 112 (.cycle
  [124, 125, 126, 127, 112, 97, 98, 143, 202, 197, 191, 147, 166, 262, 263, 211, 229, 226, 289, 248])
  (.cycle [218, 287, 288]))) (.cases 82 (.cycle [155, 156, 157]) (.cases 81 (.cycle
  [152, 153, 154]) (.cases 80 (.cycle [64, 197, 182, 150, 151, 84]) (.cycle
  [124, 125, 126, 127, 112, 97, 98, 143, 202, 197, 191, 147, 166, 262, 263, 211, 229, 284, 285, 286])))))
  (.cycle [222, 223, 224])) (.cases 82 (.cycle [155, 156, 157]) (.cases 81 (.cycle [152, 153, 154])
  (.cases 80 (.cycle [64, 197, 182, 150, 151, 84]) (.cycle
  [124, 125, 126, 127, 112, 97, 98, 143, 202, 197, 191, 147, 166, 262, 263, 211, 244, 279, 74]))))))
  (.cases 82 (.cycle [155, 156, 157]) (.cases 81 (.cycle [152, 153, 154]) (.cases 80 (.cycle
  [64, 197, 182, 150, 151, 84]) (.cycle
  [55, 98, 143, 202, 197, 191, 147, 166, 262, 225, 271, 77])))))) (.cases 82 (.cycle
  [155, 156, 157]) (.cases 81 (.cycle [152, 153, 154]) (.cases 80 (.cycle
  [64, 197, 182, 150, 151, 84]) (.cycle
  [124, 125, 126, 127, 112, 97, 98, 143, 202, 197, 191, 147, 166, 262, 263, 272, 243, 38])))))
  (.cycle [70, 297, 263, 77])) (.cases 85 (.cases 82 (.cycle [155, 156, 157]) (.cases 81 (.cycle
  [152, 153, 154]) (.cases 80 (.cycle [64, 197, 182, 150, 151, 84]) (.cases 93 (.cases 100
  (.cases 101 (.cases 103 (.cycle
  [124, 125, 126, 127, 112, 97, 98, 143, 202, 197, 191, 147, 210, 189, 198, 219, 235, 246, 247, 248])
  (.cases 94 (.cases 95 (.cases 105 (.cases 99 (.cases 108 (.cases 104 (.cycle
  [61, 147, 210, 189, 198, 219, 225, 231, 244, 245, 252, 270]) (.cycle
  [124, 125, 126, 127, 112, 97, 98, 143, 202, 197, 191, 147, 210, 189, 198, 219, 225, 242, 243, 38]))
  (.cycle [55, 98, 143, 202, 197, 191, 147, 210, 189, 198, 219, 225, 231, 236, 249, 90])) (.cycle
  [61, 147, 210, 189, 198, 219, 225, 232, 233, 234])) (.cycle
  [124, 125, 126, 127, 112, 97, 98, 143, 202, 197, 191, 147, 210, 189, 198, 219, 298, 279, 231, 38]))
  (.cycle [216, 217, 218])) (.cycle [213, 214, 215]))) (.cycle [67, 230, 231, 38])) (.cycle
  [124, 125, 126, 127, 112, 97, 98, 143, 202, 197, 191, 147, 210, 189, 198, 219, 235, 229, 74]))
  (.cycle [55, 98, 143, 202, 197, 191, 147, 210, 189, 198, 211, 212, 69]))))) (.cycle
  [124, 125, 126, 127, 112, 97, 98, 143, 202, 197, 182, 166, 187, 264, 219, 69]))) (.cases 91
  (.cases 81 (.cycle [321, 205, 154, 190]) (.cases 80 (.cycle [64, 197, 182, 150, 151, 84]) (.cycle
  [55, 98, 143, 202, 197, 191, 147, 210, 208, 205, 168, 87]))) (.cycle [206, 203, 204]))) (.cycle
  [64, 197, 182, 166, 198, 199, 188])))))

/-- some of the cases -/
def ko2Case109 : CaseTree :=
  .cases 71 (.cycle [61, 196, 145, 192]) (.cases 72 (.cycle [55, 98, 143, 144, 145, 184, 195, 148])
  (.cases 83 (.cycle [169, 170, 171]) (.cases 73 (.cases 79 (.cycle [185, 186, 191, 158, 192])
  (.cases 85 (.cases 81 (.cycle [185, 186, 145, 164, 189, 154, 190]) (.cycle
  [185, 186, 145, 146, 151, 84])) (.cycle [185, 186, 145, 184, 187, 188]))) (.cases 74 (.cases 76
  (.cycle [155, 174, 175]) (.cases 77 (.cycle [152, 172, 173]) (.cases 80 (.cases 81 (.cases 87
  (.cases 85 (.cycle [124, 125, 126, 127, 112, 97, 98, 143, 144, 182, 183, 164, 189, 154, 167, 87])
  (.cycle [55, 98, 143, 144, 182, 183, 184, 187, 294, 190])) (.cycle
  [124, 125, 126, 127, 112, 97, 98, 143, 144, 182, 183, 184, 154, 293, 188])) (.cycle
  [124, 125, 126, 127, 112, 97, 98, 143, 144, 182, 150, 151, 84])) (.cycle [61, 147, 180, 181]))))
  (.cases 76 (.cycle [155, 174, 175]) (.cases 77 (.cycle [152, 172, 173]) (.cases 78 (.cases 79
  (.cases 84 (.cycle [61, 158, 164, 165, 166, 168, 87]) (.cycle [161, 162, 163])) (.cases 81
  (.cases 84 (.cycle [124, 125, 126, 127, 112, 97, 98, 143, 144, 145, 164, 165, 166, 154, 190])
  (.cycle [161, 162, 163])) (.cycle
  [124, 125, 126, 127, 112, 97, 98, 143, 144, 145, 146, 151, 84]))) (.cases 84 (.cycle
  [319, 320, 171]) (.cases 79 (.cycle [61, 158, 159, 160, 20]) (.cases 80 (.cases 81 (.cases 87
  (.cases 85 (.cycle [124, 125, 126, 127, 112, 97, 98, 143, 144, 145, 149, 210, 189, 154, 167, 87])
  (.cycle [55, 98, 143, 144, 145, 149, 166, 187, 294, 190])) (.cycle
  [55, 98, 143, 144, 145, 149, 166, 154, 293, 188])) (.cycle
  [55, 98, 143, 144, 145, 149, 150, 151, 84])) (.cycle
  [124, 125, 126, 127, 112, 97, 98, 143, 144, 145, 146, 147, 148])))))))))))

/-- some of the cases -/
def ko2Case110 : CaseTree :=
  .cases 75 (.cycle [299, 315, 316, 317, 318, 178, 179]) (.cases 87 (.cases 71 (.cycle
  [299, 294, 196, 300]) (.cases 81 (.cases 82 (.cycle [155, 156, 157]) (.cycle [152, 153, 154]))
  (.cycle [299, 315, 191, 151, 84]))) (.cycle [61, 293, 315, 300]))

/-- some of the cases -/
def ko2Case111 : CaseTree :=
  .cases 74 (.cycle [185, 183, 146, 313, 314]) (.cases 84 (.cycle [61, 196, 193, 165, 148])
  (.cases 80 (.cycle [33, 134, 137, 98, 143, 202, 149, 150, 313, 314]) (.cases 72 (.cycle
  [61, 196, 295, 195, 148]) (.cases 73 (.cycle [61, 147, 186, 300]) (.cases 85 (.cycle
  [61, 196, 182, 210, 189, 168, 87]) (.cycle [61, 196, 182, 166, 187, 188]))))))

/-- some of the cases -/
def ko2Case112 : CaseTree :=
  .cases 115 (.cycle [310, 311, 312, 140, 197, 193, 189, 154, 190]) (.cases 114 (.cycle
  [307, 308, 309]) (.cases 74 (.cycle [180, 303, 161]) (.cycle
  [33, 134, 137, 98, 143, 202, 149, 186, 193, 189, 154, 190])))

/-- some of the cases -/
def ko2Case113 : CaseTree :=
  .cases 86 (.cases 91 (.cases 87 (.cases 115 (.cycle
  [310, 311, 312, 140, 197, 295, 187, 294, 190]) (.cases 114 (.cycle [307, 308, 309]) (.cases 74
  (.cycle [180, 303, 161]) (.cycle [33, 134, 137, 98, 143, 202, 149, 186, 295, 187, 294, 190]))))
  (.cases 93 (.cases 111 (.cases 94 (.cases 92 (.cases 100 (.cases 115 (.cycle
  [310, 311, 312, 140, 197, 295, 154, 293, 208, 263, 278, 231, 38]) (.cases 114 (.cycle
  [307, 308, 309]) (.cases 74 (.cycle [180, 303, 161]) (.cases 105 (.cases 104 (.cycle
  [33, 134, 137, 98, 143, 202, 149, 186, 295, 154, 293, 208, 263, 278, 231, 244, 248]) (.cycle
  [200, 154, 293, 208, 263, 278, 242, 243, 38])) (.cycle
  [33, 134, 137, 98, 143, 202, 149, 186, 295, 154, 293, 208, 263, 272, 279, 231, 38])))))
  (.cases 104 (.cases 103 (.cycle [200, 154, 293, 208, 263, 211, 229, 237, 247, 248]) (.cases 105
  (.cases 106 (.cycle [200, 154, 293, 208, 263, 211, 229, 242, 245, 258, 259, 260, 261])
  (.cases 117 (.cycle [253, 331, 332]) (.cases 118 (.cycle [250, 329, 330]) (.cases 113 (.cases 98
  (.cases 101 (.cases 108 (.cases 110 (.cases 102 (.cases 115 (.cycle
  [310, 311, 312, 140, 197, 295, 154, 293, 208, 263, 211, 229, 226, 257, 252, 270]) (.cases 114
  (.cycle [307, 308, 309]) (.cases 74 (.cycle [180, 303, 161]) (.cycle
  [33, 134, 137, 98, 143, 202, 149, 186, 295, 154, 293, 208, 263, 211, 229, 226, 257, 252, 328, 283]))))
  (.cycle [200, 154, 293, 208, 263, 211, 229, 242, 245, 238, 269, 270])) (.cycle
  [200, 154, 293, 208, 263, 211, 229, 242, 245, 252, 268, 239])) (.cycle
  [200, 154, 293, 208, 263, 211, 229, 232, 249, 90])) (.cases 112 (.cycle
  [67, 230, 226, 289, 245, 282, 283]) (.cycle [218, 287, 288]))) (.cycle [222, 223, 224]))
  (.cases 107 (.cycle [253, 254, 255]) (.cases 108 (.cycle [250, 251, 252]) (.cases 101 (.cycle
  [200, 154, 293, 208, 263, 211, 229, 232, 249, 90]) (.cycle [67, 230, 284, 285, 286]))))))))
  (.cases 115 (.cycle [310, 311, 312, 140, 197, 295, 154, 293, 208, 263, 211, 244, 240, 280])
  (.cases 114 (.cycle [307, 308, 309]) (.cases 74 (.cycle [180, 303, 161]) (.cases 98 (.cases 109
  (.cases 102 (.cases 107 (.cycle
  [200, 154, 293, 208, 263, 211, 244, 279, 226, 257, 258, 255, 327]) (.cases 108 (.cycle
  [250, 251, 252]) (.cycle [200, 154, 293, 208, 263, 211, 244, 267, 249, 90]))) (.cycle
  [33, 134, 137, 98, 143, 202, 149, 186, 295, 154, 293, 208, 263, 211, 244, 279, 237, 238, 239]))
  (.cycle [67, 266, 240, 280])) (.cycle [222, 223, 224]))))))) (.cycle
  [200, 154, 293, 208, 263, 272, 243, 229, 74]))) (.cases 115 (.cycle
  [310, 311, 312, 140, 197, 295, 154, 293, 264, 219, 69]) (.cases 114 (.cycle [307, 308, 309])
  (.cases 74 (.cycle [180, 303, 161]) (.cases 99 (.cases 108 (.cases 100 (.cases 97 (.cases 110
  (.cycle [33, 134, 137, 98, 143, 202, 149, 186, 295, 154, 293, 264, 219, 225, 231, 256, 269, 270])
  (.cycle
  [33, 134, 137, 98, 143, 202, 149, 186, 295, 154, 293, 264, 219, 225, 231, 246, 252, 268, 239]))
  (.cycle [33, 134, 137, 98, 143, 202, 149, 186, 295, 154, 293, 264, 219, 322, 223, 224, 227, 38]))
  (.cycle [33, 134, 137, 98, 143, 202, 149, 186, 295, 154, 293, 264, 219, 235, 229, 74])) (.cycle
  [33, 134, 137, 98, 143, 202, 149, 186, 295, 154, 293, 264, 219, 235, 236, 249, 90])) (.cycle
  [33, 134, 137, 98, 143, 202, 149, 186, 295, 154, 293, 264, 219, 301, 233, 234])))))) (.cycle
  [200, 154, 293, 264, 278, 297, 69])) (.cases 94 (.cases 116 (.cycle
  [325, 326, 197, 295, 154, 293, 208, 225, 271, 77]) (.cases 74 (.cycle [323, 324, 183]) (.cycle
  [33, 134, 137, 98, 143, 202, 149, 186, 295, 154, 293, 208, 225, 271, 77]))) (.cycle
  [213, 214, 215]))) (.cycle [200, 154, 293, 264, 211, 212, 69]))) (.cycle [206, 203, 204]))
  (.cases 87 (.cycle [82, 199, 294, 190]) (.cases 77 (.cycle [82, 173, 293, 188]) (.cases 115
  (.cycle [310, 311, 312, 140, 197, 295, 154, 306, 199, 188]) (.cases 114 (.cycle [307, 308, 309])
  (.cases 74 (.cycle [180, 303, 161]) (.cycle
  [33, 134, 137, 98, 143, 202, 149, 186, 295, 154, 306, 199, 188]))))))

/-- some of the cases -/
def ko2Case114 : CaseTree :=
  .cases 114 (.cycle [304, 305, 140, 197, 191, 151, 84]) (.cases 74 (.cycle [180, 303, 161])
  (.cases 87 (.cycle [185, 186, 193, 294, 151, 84]) (.cases 85 (.cycle
  [33, 134, 137, 98, 143, 202, 149, 186, 191, 293, 189, 168, 87]) (.cases 86 (.cases 93 (.cases 91
  (.cases 111 (.cases 94 (.cases 92 (.cases 103 (.cycle
  [33, 134, 137, 98, 143, 202, 149, 186, 191, 265, 187, 208, 263, 278, 237, 247, 248]) (.cases 105
  (.cases 106 (.cycle
  [33, 134, 137, 98, 143, 202, 149, 186, 191, 265, 187, 208, 263, 278, 242, 245, 258, 259, 260, 261])
  (.cases 104 (.cases 100 (.cycle
  [33, 134, 137, 98, 143, 202, 149, 186, 191, 265, 187, 208, 263, 278, 231, 244, 248]) (.cases 107
  (.cycle [253, 254, 255]) (.cases 108 (.cycle [250, 251, 252]) (.cases 101 (.cycle
  [185, 186, 191, 265, 187, 208, 263, 211, 229, 232, 249, 90]) (.cases 110 (.cycle
  [276, 269, 230, 74]) (.cases 113 (.cases 98 (.cases 112 (.cycle
  [67, 230, 226, 289, 245, 282, 283]) (.cycle [218, 287, 288])) (.cycle [67, 268, 277, 74]))
  (.cycle [67, 230, 284, 285, 286]))))))) (.cycle
  [185, 186, 191, 265, 187, 208, 263, 278, 242, 243, 38]))) (.cases 112 (.cycle
  [240, 223, 224, 289]) (.cases 100 (.cycle
  [33, 134, 137, 98, 143, 202, 149, 186, 191, 265, 187, 208, 263, 272, 279, 231, 38]) (.cases 104
  (.cases 109 (.cases 102 (.cases 106 (.cycle
  [185, 186, 191, 265, 187, 208, 263, 211, 244, 281, 257, 258, 259, 260, 261]) (.cases 107 (.cycle
  [253, 254, 255]) (.cases 108 (.cycle [250, 251, 252]) (.cycle
  [185, 186, 191, 265, 187, 208, 263, 211, 244, 267, 249, 90])))) (.cycle
  [33, 134, 137, 98, 143, 202, 149, 186, 191, 265, 187, 208, 263, 211, 244, 279, 237, 238, 239]))
  (.cycle [67, 266, 240, 280])) (.cycle
  [185, 186, 191, 265, 187, 208, 263, 272, 243, 229, 74])))))) (.cases 99 (.cases 108 (.cases 100
  (.cases 97 (.cases 110 (.cycle
  [33, 134, 137, 98, 143, 202, 149, 186, 191, 265, 187, 264, 219, 225, 231, 256, 269, 270]) (.cycle
  [33, 134, 137, 98, 143, 202, 149, 186, 191, 265, 187, 264, 219, 225, 231, 246, 252, 268, 239]))
  (.cycle [33, 134, 137, 98, 143, 202, 149, 186, 191, 265, 187, 264, 219, 322, 223, 224, 227, 38]))
  (.cycle [33, 134, 137, 98, 143, 202, 149, 186, 191, 265, 187, 264, 219, 235, 229, 74])) (.cycle
  [33, 134, 137, 98, 143, 202, 149, 186, 191, 265, 187, 264, 219, 235, 236, 249, 90])) (.cycle
  [33, 134, 137, 98, 143, 202, 149, 186, 191, 265, 187, 264, 219, 301, 233, 234]))) (.cycle
  [185, 186, 191, 265, 187, 264, 278, 297, 69])) (.cases 94 (.cycle
  [33, 134, 137, 98, 143, 202, 149, 186, 191, 265, 187, 208, 225, 271, 77]) (.cycle
  [213, 214, 215]))) (.cycle [206, 203, 204])) (.cycle
  [185, 186, 191, 265, 187, 264, 211, 212, 69])) (.cycle
  [33, 134, 137, 98, 143, 202, 149, 186, 191, 265, 198, 199, 188])))))

/-- some of the cases -/
def ko2Case115 : CaseTree :=
  .cases 85 (.cases 75 (.cycle [55, 98, 143, 202, 197, 193, 189, 176, 177, 178, 179]) (.cases 72
  (.cycle [299, 189, 195, 148]) (.cases 87 (.cases 82 (.cycle [155, 156, 157]) (.cases 81 (.cycle
  [152, 153, 154]) (.cycle [64, 197, 193, 294, 151, 84]))) (.cycle
  [33, 134, 137, 98, 143, 202, 197, 191, 293, 165, 166, 168, 87])))) (.cycle [200, 187, 165, 148])

/-- some of the cases -/
def ko2Case116 : CaseTree :=
  .cases 72 (.cases 81 (.cases 80 (.cases 87 (.cycle [200, 195, 210, 294, 190]) (.cycle
  [200, 195, 150, 293, 188])) (.cycle [200, 154, 147, 148])) (.cycle
  [33, 134, 137, 98, 143, 202, 197, 191, 265, 195, 148])) (.cases 75 (.cycle
  [55, 98, 143, 202, 197, 182, 166, 176, 177, 178, 179]) (.cases 76 (.cycle [155, 174, 175])
  (.cases 77 (.cycle [152, 172, 173]) (.cases 86 (.cases 89 (.cases 92 (.cases 94 (.cases 104
  (.cases 103 (.cases 100 (.cases 111 (.cycle
  [64, 197, 182, 166, 262, 263, 278, 231, 246, 247, 248]) (.cases 82 (.cycle [155, 156, 157])
  (.cases 81 (.cycle [152, 153, 154]) (.cases 80 (.cycle [64, 197, 182, 150, 151, 84]) (.cycle
  [55, 98, 143, 202, 197, 191, 147, 166, 262, 225, 271, 77]))))) (.cycle
  [64, 197, 182, 166, 262, 263, 211, 229, 237, 247, 248])) (.cases 111 (.cases 100 (.cycle
  [33, 134, 137, 98, 143, 202, 197, 182, 166, 262, 263, 278, 231, 244, 245, 282, 283]) (.cases 105
  (.cases 98 (.cases 113 (.cases 80 (.cases 81 (.cases 87 (.cases 85 (.cycle
  [33, 134, 137, 98, 143, 202, 197, 182, 210, 189, 154, 167, 87]) (.cycle
  [64, 197, 182, 166, 187, 294, 190])) (.cycle [55, 98, 143, 202, 197, 182, 166, 154, 293, 188]))
  (.cycle [64, 197, 182, 150, 151, 84])) (.cases 112 (.cycle
  [33, 134, 137, 98, 143, 202, 197, 191, 147, 166, 262, 263, 211, 229, 226, 289, 248]) (.cycle
  [218, 287, 288]))) (.cases 82 (.cycle [155, 156, 157]) (.cases 81 (.cycle [152, 153, 154])
  (.cases 80 (.cycle [64, 197, 182, 150, 151, 84]) (.cycle
  [33, 134, 137, 98, 143, 202, 197, 191, 147, 166, 262, 263, 211, 229, 284, 285, 286]))))) (.cycle
  [222, 223, 224])) (.cases 82 (.cycle [155, 156, 157]) (.cases 81 (.cycle [152, 153, 154])
  (.cases 80 (.cycle [64, 197, 182, 150, 151, 84]) (.cycle
  [33, 134, 137, 98, 143, 202, 197, 191, 147, 166, 262, 263, 211, 244, 279, 74])))))) (.cases 82
  (.cycle [155, 156, 157]) (.cases 81 (.cycle [152, 153, 154]) (.cases 80 (.cycle
  [64, 197, 182, 150, 151, 84]) (.cycle
  [55, 98, 143, 202, 197, 191, 147, 166, 262, 225, 271, 77])))))) (.cases 82 (.cycle
  [155, 156, 157]) (.cases 81 (.cycle [152, 153, 154]) (.cases 80 (.cycle
  [64, 197, 182, 150, 151, 84]) (.cycle
  [33, 134, 137, 98, 143, 202, 197, 191, 147, 166, 262, 263, 272, 243, 38]))))) (.cycle
  [70, 297, 263, 77])) (.cases 85 (.cases 82 (.cycle [155, 156, 157]) (.cases 81 (.cycle
  [152, 153, 154]) (.cases 80 (.cycle [64, 197, 182, 150, 151, 84]) (.cases 93 (.cases 100
  (.cases 101 (.cases 103 (.cycle
  [33, 134, 137, 98, 143, 202, 197, 191, 147, 210, 189, 198, 219, 235, 246, 247, 248]) (.cases 94
  (.cases 95 (.cases 105 (.cases 99 (.cases 108 (.cases 104 (.cycle
  [61, 147, 210, 189, 198, 219, 225, 231, 244, 245, 252, 270]) (.cycle
  [33, 134, 137, 98, 143, 202, 197, 191, 147, 210, 189, 198, 219, 225, 242, 243, 38])) (.cycle
  [55, 98, 143, 202, 197, 191, 147, 210, 189, 198, 219, 225, 231, 236, 249, 90])) (.cycle
  [61, 147, 210, 189, 198, 219, 225, 232, 233, 234])) (.cycle
  [33, 134, 137, 98, 143, 202, 197, 191, 147, 210, 189, 198, 219, 298, 279, 231, 38])) (.cycle
  [216, 217, 218])) (.cycle [213, 214, 215]))) (.cycle [67, 230, 231, 38])) (.cycle
  [33, 134, 137, 98, 143, 202, 197, 191, 147, 210, 189, 198, 219, 235, 229, 74])) (.cycle
  [55, 98, 143, 202, 197, 191, 147, 210, 189, 198, 211, 212, 69]))))) (.cycle
  [33, 134, 137, 98, 143, 202, 197, 182, 166, 187, 264, 219, 69]))) (.cases 91 (.cases 81 (.cycle
  [321, 205, 154, 190]) (.cases 80 (.cycle [64, 197, 182, 150, 151, 84]) (.cycle
  [55, 98, 143, 202, 197, 191, 147, 210, 208, 205, 168, 87]))) (.cycle [206, 203, 204]))) (.cycle
  [64, 197, 182, 166, 198, 199, 188])))))

/-- some of the cases -/
def ko2Case117 : CaseTree :=
  .cases 71 (.cycle [61, 196, 145, 192]) (.cases 72 (.cycle [55, 98, 143, 144, 145, 184, 195, 148])
  (.cases 83 (.cycle [169, 170, 171]) (.cases 73 (.cases 79 (.cycle [185, 186, 191, 158, 192])
  (.cases 85 (.cases 81 (.cycle [185, 186, 145, 164, 189, 154, 190]) (.cycle
  [185, 186, 145, 146, 151, 84])) (.cycle [185, 186, 145, 184, 187, 188]))) (.cases 74 (.cases 76
  (.cycle [155, 174, 175]) (.cases 77 (.cycle [152, 172, 173]) (.cases 80 (.cases 81 (.cases 87
  (.cases 85 (.cycle [33, 134, 137, 98, 143, 144, 182, 183, 164, 189, 154, 167, 87]) (.cycle
  [55, 98, 143, 144, 182, 183, 184, 187, 294, 190])) (.cycle
  [33, 134, 137, 98, 143, 144, 182, 183, 184, 154, 293, 188])) (.cycle
  [33, 134, 137, 98, 143, 144, 182, 150, 151, 84])) (.cycle [61, 147, 180, 181])))) (.cases 76
  (.cycle [155, 174, 175]) (.cases 77 (.cycle [152, 172, 173]) (.cases 78 (.cases 79 (.cases 84
  (.cycle [61, 158, 164, 165, 166, 168, 87]) (.cycle [161, 162, 163])) (.cases 81 (.cases 84
  (.cycle [33, 134, 137, 98, 143, 144, 145, 164, 165, 166, 154, 190]) (.cycle [161, 162, 163]))
  (.cycle [33, 134, 137, 98, 143, 144, 145, 146, 151, 84]))) (.cases 84 (.cycle [319, 320, 171])
  (.cases 79 (.cycle [61, 158, 159, 160, 20]) (.cases 80 (.cases 81 (.cases 87 (.cases 85 (.cycle
  [33, 134, 137, 98, 143, 144, 145, 149, 210, 189, 154, 167, 87]) (.cycle
  [55, 98, 143, 144, 145, 149, 166, 187, 294, 190])) (.cycle
  [55, 98, 143, 144, 145, 149, 166, 154, 293, 188])) (.cycle
  [55, 98, 143, 144, 145, 149, 150, 151, 84])) (.cycle
  [33, 134, 137, 98, 143, 144, 145, 146, 147, 148])))))))))))

/-- some of the cases -/
def ko2Case118 : CaseTree :=
  .cases 75 (.cycle [299, 315, 316, 317, 318, 178, 179]) (.cases 87 (.cases 71 (.cycle
  [299, 294, 196, 300]) (.cases 81 (.cases 82 (.cycle [155, 156, 157]) (.cycle [152, 153, 154]))
  (.cycle [299, 315, 191, 151, 84]))) (.cycle [61, 293, 315, 300]))

/-- some of the cases -/
def ko2Case119 : CaseTree :=
  .cases 91 (.cases 95 (.cases 89 (.cases 92 (.cycle [61, 196, 193, 189, 262, 263, 77]) (.cases 93
  (.cases 111 (.cases 100 (.cases 101 (.cases 103 (.cycle
  [124, 130, 142, 117, 112, 97, 98, 143, 202, 149, 150, 196, 193, 189, 198, 219, 235, 246, 247, 248])
  (.cases 96 (.cases 94 (.cases 105 (.cases 99 (.cases 108 (.cases 104 (.cycle
  [61, 196, 193, 189, 198, 219, 225, 231, 244, 245, 252, 270]) (.cycle
  [61, 196, 193, 189, 198, 219, 225, 242, 243, 38])) (.cycle
  [61, 196, 193, 189, 198, 219, 225, 231, 236, 249, 90])) (.cycle
  [61, 196, 193, 189, 198, 219, 225, 232, 228, 38])) (.cycle [240, 241, 218])) (.cycle
  [61, 196, 193, 189, 198, 278, 297, 69])) (.cycle [61, 196, 193, 189, 198, 219, 220, 221, 29])))
  (.cycle [67, 230, 231, 38])) (.cycle
  [124, 130, 142, 117, 112, 97, 98, 143, 202, 149, 150, 196, 193, 189, 198, 219, 235, 229, 74]))
  (.cycle [70, 271, 219, 69])) (.cycle [61, 196, 193, 189, 198, 211, 212, 69]))) (.cycle
  [61, 196, 193, 208, 205, 168, 87])) (.cycle [216, 217, 218])) (.cycle [206, 203, 204])

/-- some of the cases -/
def ko2Case120 : CaseTree :=
  .cases 95 (.cases 93 (.cases 91 (.cases 92 (.cases 104 (.cases 97 (.cases 103 (.cases 99
  (.cases 100 (.cases 102 (.cycle [276, 257, 247, 248]) (.cases 112 (.cycle [36, 238, 289, 248])
  (.cases 111 (.cycle [61, 196, 295, 187, 208, 263, 278, 231, 246, 247, 248]) (.cases 110 (.cycle
  [36, 247, 281, 269, 270]) (.cases 108 (.cases 109 (.cycle [36, 247, 267, 268, 239]) (.cycle
  [36, 252, 266, 248])) (.cycle [70, 271, 211, 236, 290, 247, 248])))))) (.cycle
  [61, 196, 295, 187, 208, 263, 211, 229, 237, 247, 248])) (.cycle [67, 228, 246, 247, 248]))
  (.cases 106 (.cycle
  [124, 130, 142, 117, 112, 97, 98, 143, 202, 149, 150, 196, 295, 187, 208, 263, 211, 244, 245, 258, 259, 260, 261])
  (.cases 99 (.cases 109 (.cases 108 (.cases 107 (.cycle [253, 254, 255]) (.cycle [250, 251, 252]))
  (.cycle [61, 196, 295, 187, 208, 263, 211, 244, 267, 249, 90])) (.cases 105 (.cases 110 (.cycle
  [61, 196, 295, 187, 208, 263, 211, 256, 269, 266, 248]) (.cases 102 (.cases 98 (.cases 112
  (.cases 111 (.cases 100 (.cycle [200, 187, 208, 263, 278, 231, 236, 268, 289, 248]) (.cases 101
  (.cycle [200, 187, 208, 263, 211, 229, 232, 268, 289, 248]) (.cycle
  [67, 230, 226, 289, 245, 282, 283]))) (.cycle [70, 271, 211, 236, 268, 289, 248])) (.cases 113
  (.cycle [218, 287, 288]) (.cases 111 (.cases 100 (.cycle
  [61, 196, 295, 187, 208, 263, 278, 231, 236, 266, 248]) (.cases 101 (.cycle
  [61, 196, 295, 187, 208, 263, 211, 229, 232, 266, 248]) (.cycle [67, 230, 284, 285, 286])))
  (.cycle [70, 271, 211, 236, 266, 281, 257, 282, 283])))) (.cycle [67, 268, 277, 74])) (.cycle
  [124, 130, 142, 117, 112, 97, 98, 143, 202, 149, 150, 196, 295, 187, 208, 263, 211, 236, 266, 245, 238, 239])))
  (.cycle [67, 266, 240, 280]))) (.cases 112 (.cycle [67, 228, 256, 289, 248]) (.cases 102 (.cycle
  [67, 228, 244, 281, 257, 282, 283]) (.cycle [67, 228, 244, 245, 238, 239])))))) (.cycle
  [276, 227, 244, 248])) (.cases 111 (.cases 100 (.cases 105 (.cycle
  [61, 196, 295, 187, 208, 263, 278, 242, 243, 38]) (.cycle
  [124, 130, 142, 117, 112, 97, 98, 143, 202, 149, 150, 196, 295, 187, 208, 263, 272, 279, 231, 38]))
  (.cycle [61, 196, 295, 187, 208, 263, 272, 243, 229, 74])) (.cycle [70, 271, 272, 243, 38])))
  (.cases 96 (.cases 99 (.cases 111 (.cases 100 (.cases 103 (.cycle
  [124, 130, 142, 117, 112, 97, 98, 143, 202, 149, 150, 196, 295, 187, 264, 278, 231, 246, 247, 248])
  (.cases 94 (.cases 105 (.cases 108 (.cases 104 (.cycle
  [61, 196, 295, 187, 264, 219, 225, 231, 244, 245, 252, 270]) (.cycle
  [61, 196, 295, 187, 264, 219, 225, 242, 243, 38])) (.cycle
  [61, 196, 295, 187, 264, 219, 225, 231, 236, 249, 90])) (.cycle [240, 241, 218])) (.cycle
  [61, 196, 295, 187, 264, 278, 297, 69]))) (.cycle
  [124, 130, 142, 117, 112, 97, 98, 143, 202, 149, 150, 196, 295, 187, 264, 219, 235, 229, 74]))
  (.cycle [70, 271, 219, 69])) (.cycle
  [124, 130, 142, 117, 112, 97, 98, 143, 202, 149, 150, 196, 295, 187, 264, 219, 301, 233, 234]))
  (.cycle [61, 196, 295, 187, 264, 219, 220, 221, 29]))) (.cycle [206, 203, 204])) (.cycle
  [61, 196, 295, 187, 264, 211, 212, 69])) (.cycle [216, 217, 218])

/-- some of the cases -/
def ko2Case121 : CaseTree :=
  .cases 75 (.cycle [185, 186, 193, 189, 176, 177, 178, 179]) (.cases 82 (.cycle [155, 156, 157])
  (.cycle [152, 153, 154]))

/-- some of the cases -/
def ko2Case122 : CaseTree :=
  .cases 115 (.cycle [310, 311, 312, 140, 197, 295, 187, 294, 190]) (.cases 114 (.cycle
  [307, 308, 309]) (.cases 74 (.cycle [180, 303, 161]) (.cycle
  [124, 130, 142, 117, 112, 97, 98, 143, 202, 149, 186, 295, 187, 294, 167, 87])))

/-- some of the cases -/
def ko2Case123 : CaseTree :=
  .cases 93 (.cases 92 (.cases 94 (.cases 104 (.cases 97 (.cases 103 (.cases 99 (.cases 100
  (.cases 102 (.cycle [276, 257, 247, 248]) (.cases 112 (.cycle [36, 238, 289, 248]) (.cases 111
  (.cycle [200, 154, 293, 208, 263, 278, 231, 246, 247, 248]) (.cases 110 (.cycle
  [36, 247, 281, 269, 270]) (.cases 108 (.cases 109 (.cycle [36, 247, 267, 268, 239]) (.cycle
  [36, 252, 266, 248])) (.cycle [70, 271, 211, 236, 290, 247, 248])))))) (.cycle
  [200, 154, 293, 208, 263, 211, 229, 237, 247, 248])) (.cycle [67, 228, 246, 247, 248]))
  (.cases 74 (.cases 114 (.cases 105 (.cases 98 (.cases 111 (.cases 100 (.cycle
  [304, 305, 140, 197, 295, 154, 293, 208, 263, 278, 231, 38]) (.cases 113 (.cases 112 (.cycle
  [304, 305, 140, 197, 295, 154, 293, 208, 263, 211, 229, 226, 289, 245, 282, 283]) (.cycle
  [218, 287, 288])) (.cycle
  [304, 305, 140, 197, 295, 154, 293, 208, 263, 211, 229, 284, 285, 286]))) (.cycle
  [304, 305, 140, 197, 295, 154, 293, 208, 225, 271, 77])) (.cycle [222, 223, 224])) (.cycle
  [304, 305, 140, 197, 295, 154, 293, 208, 263, 211, 244, 240, 280])) (.cycle [180, 303, 161]))
  (.cases 106 (.cycle
  [124, 130, 142, 117, 112, 97, 98, 143, 202, 149, 186, 295, 154, 293, 208, 263, 211, 244, 245, 258, 259, 260, 261])
  (.cases 99 (.cases 109 (.cases 108 (.cases 107 (.cycle [253, 254, 255]) (.cycle [250, 251, 252]))
  (.cycle [200, 154, 293, 208, 263, 211, 244, 267, 249, 90])) (.cases 105 (.cases 110 (.cycle
  [200, 154, 293, 208, 263, 211, 256, 269, 266, 248]) (.cases 102 (.cases 98 (.cases 112
  (.cases 111 (.cases 100 (.cycle [200, 154, 293, 208, 263, 278, 231, 236, 268, 289, 248])
  (.cases 101 (.cycle [200, 154, 293, 208, 263, 211, 229, 232, 268, 289, 248]) (.cycle
  [67, 230, 226, 289, 245, 282, 283]))) (.cycle [70, 271, 211, 236, 268, 289, 248])) (.cases 113
  (.cycle [218, 287, 288]) (.cases 111 (.cases 100 (.cycle
  [200, 154, 293, 208, 263, 278, 231, 236, 266, 248]) (.cases 101 (.cycle
  [200, 154, 293, 208, 263, 211, 229, 232, 266, 248]) (.cycle [67, 230, 284, 285, 286]))) (.cycle
  [70, 271, 211, 236, 266, 281, 257, 282, 283])))) (.cycle [67, 268, 277, 74])) (.cycle
  [124, 130, 142, 117, 112, 97, 98, 143, 202, 149, 186, 295, 154, 293, 208, 263, 211, 236, 266, 245, 238, 239])))
  (.cycle [67, 266, 240, 280]))) (.cases 112 (.cycle [67, 228, 256, 289, 248]) (.cases 102 (.cycle
  [67, 228, 244, 281, 257, 282, 283]) (.cycle [67, 228, 244, 245, 238, 239]))))))) (.cycle
  [276, 227, 244, 248])) (.cases 115 (.cycle
  [310, 311, 312, 140, 197, 295, 154, 293, 208, 263, 272, 243, 38]) (.cases 114 (.cycle
  [307, 308, 309]) (.cases 74 (.cycle [180, 303, 161]) (.cases 111 (.cases 100 (.cases 105 (.cycle
  [200, 154, 293, 208, 263, 278, 242, 243, 38]) (.cycle
  [124, 130, 142, 117, 112, 97, 98, 143, 202, 149, 186, 295, 154, 293, 208, 263, 272, 279, 231, 38]))
  (.cycle [200, 154, 293, 208, 263, 272, 243, 229, 74])) (.cycle [70, 271, 272, 243, 38]))))))
  (.cycle [70, 297, 263, 77])) (.cases 115 (.cycle
  [310, 311, 312, 140, 197, 295, 154, 293, 264, 219, 69]) (.cases 114 (.cycle [307, 308, 309])
  (.cases 96 (.cases 74 (.cycle [180, 303, 161]) (.cases 99 (.cases 111 (.cases 100 (.cases 103
  (.cycle
  [124, 130, 142, 117, 112, 97, 98, 143, 202, 149, 186, 295, 154, 293, 264, 278, 231, 246, 247, 248])
  (.cases 94 (.cases 105 (.cases 108 (.cases 104 (.cycle
  [200, 154, 293, 264, 219, 225, 231, 244, 245, 252, 270]) (.cycle
  [200, 154, 293, 264, 219, 225, 242, 243, 38])) (.cycle
  [200, 154, 293, 264, 219, 225, 231, 236, 249, 90])) (.cycle [240, 241, 218])) (.cycle
  [200, 154, 293, 264, 278, 297, 69]))) (.cycle
  [124, 130, 142, 117, 112, 97, 98, 143, 202, 149, 186, 295, 154, 293, 264, 219, 235, 229, 74]))
  (.cycle [70, 271, 219, 69])) (.cycle
  [124, 130, 142, 117, 112, 97, 98, 143, 202, 149, 186, 295, 154, 293, 264, 219, 301, 233, 234])))
  (.cycle [200, 154, 293, 264, 219, 220, 221, 29]))))) (.cycle [200, 154, 293, 264, 211, 212, 69])

/-- some of the cases -/
def ko2Case124 : CaseTree :=
  .cases 87 (.cycle [82, 199, 294, 190]) (.cases 77 (.cycle [82, 173, 293, 188]) (.cases 115
  (.cycle [310, 311, 312, 140, 197, 295, 154, 306, 199, 188]) (.cases 114 (.cycle [307, 308, 309])
  (.cases 74 (.cycle [180, 303, 161]) (.cycle
  [124, 130, 142, 117, 112, 97, 98, 143, 202, 149, 186, 295, 154, 306, 199, 188])))))

/-- some of the cases -/
def ko2Case125 : CaseTree :=
  .cases 91 (.cases 95 (.cases 89 (.cases 92 (.cycle [185, 186, 191, 293, 189, 262, 263, 77])
  (.cases 93 (.cases 111 (.cases 100 (.cases 101 (.cases 103 (.cycle
  [124, 130, 142, 117, 112, 97, 98, 143, 202, 149, 186, 191, 293, 189, 198, 219, 235, 246, 247, 248])
  (.cases 96 (.cases 94 (.cases 105 (.cases 99 (.cases 108 (.cases 104 (.cycle
  [185, 186, 191, 293, 189, 198, 219, 225, 231, 244, 245, 252, 270]) (.cycle
  [185, 186, 191, 293, 189, 198, 219, 225, 242, 243, 38])) (.cycle
  [185, 186, 191, 293, 189, 198, 219, 225, 231, 236, 249, 90])) (.cycle
  [185, 186, 191, 293, 189, 198, 219, 225, 232, 228, 38])) (.cycle [240, 241, 218])) (.cycle
  [185, 186, 191, 293, 189, 198, 278, 297, 69])) (.cycle
  [185, 186, 191, 293, 189, 198, 219, 220, 221, 29]))) (.cycle [67, 230, 231, 38])) (.cycle
  [124, 130, 142, 117, 112, 97, 98, 143, 202, 149, 186, 191, 293, 189, 198, 219, 235, 229, 74]))
  (.cycle [185, 186, 191, 293, 189, 302, 271, 77])) (.cycle
  [185, 186, 191, 293, 189, 198, 211, 212, 69]))) (.cycle [185, 186, 191, 293, 208, 205, 168, 87]))
  (.cycle [216, 217, 218])) (.cycle [206, 203, 204])

/-- some of the cases -/
def ko2Case126 : CaseTree :=
  .cases 95 (.cases 93 (.cases 91 (.cases 92 (.cases 104 (.cases 97 (.cases 103 (.cases 99
  (.cases 100 (.cases 102 (.cycle [276, 257, 247, 248]) (.cases 112 (.cycle [36, 238, 289, 248])
  (.cases 111 (.cycle [185, 186, 191, 265, 187, 208, 263, 278, 231, 246, 247, 248]) (.cases 110
  (.cycle [36, 247, 281, 269, 270]) (.cases 108 (.cases 109 (.cycle [36, 247, 267, 268, 239])
  (.cycle [36, 252, 266, 248])) (.cycle [70, 271, 211, 236, 290, 247, 248])))))) (.cycle
  [185, 186, 191, 265, 187, 208, 263, 211, 229, 237, 247, 248])) (.cycle [67, 228, 246, 247, 248]))
  (.cases 106 (.cycle
  [124, 130, 142, 117, 112, 97, 98, 143, 202, 149, 186, 191, 265, 187, 208, 263, 211, 244, 245, 258, 259, 260, 261])
  (.cases 99 (.cases 109 (.cases 108 (.cases 107 (.cycle [253, 254, 255]) (.cycle [250, 251, 252]))
  (.cycle [185, 186, 191, 265, 187, 208, 263, 211, 244, 267, 249, 90])) (.cases 105 (.cases 110
  (.cycle [185, 186, 191, 265, 187, 208, 263, 211, 256, 269, 266, 248]) (.cases 102 (.cases 98
  (.cases 112 (.cases 111 (.cases 101 (.cycle
  [185, 186, 191, 265, 187, 208, 263, 278, 232, 268, 289, 248]) (.cycle
  [67, 230, 226, 289, 245, 282, 283])) (.cycle [70, 271, 211, 236, 268, 289, 248])) (.cases 113
  (.cycle [218, 287, 288]) (.cases 111 (.cases 100 (.cycle
  [185, 186, 191, 265, 187, 208, 263, 278, 231, 236, 266, 248]) (.cases 101 (.cycle
  [185, 186, 191, 265, 187, 208, 263, 211, 229, 232, 266, 248]) (.cycle [67, 230, 284, 285, 286])))
  (.cycle [70, 271, 211, 236, 266, 281, 257, 282, 283])))) (.cycle [67, 268, 277, 74])) (.cycle
  [124, 130, 142, 117, 112, 97, 98, 143, 202, 149, 186, 191, 265, 187, 208, 263, 211, 236, 266, 245, 238, 239])))
  (.cycle [67, 266, 240, 280]))) (.cases 112 (.cycle [67, 228, 256, 289, 248]) (.cases 102 (.cycle
  [67, 228, 244, 281, 257, 282, 283]) (.cycle [67, 228, 244, 245, 238, 239])))))) (.cycle
  [276, 227, 244, 248])) (.cases 111 (.cases 100 (.cases 105 (.cycle
  [185, 186, 191, 265, 187, 208, 263, 278, 242, 243, 38]) (.cycle
  [124, 130, 142, 117, 112, 97, 98, 143, 202, 149, 186, 191, 265, 187, 208, 263, 272, 279, 231, 38]))
  (.cycle [185, 186, 191, 265, 187, 208, 263, 272, 243, 229, 74])) (.cycle
  [70, 271, 272, 243, 38]))) (.cases 96 (.cases 99 (.cases 111 (.cases 100 (.cases 103 (.cycle
  [124, 130, 142, 117, 112, 97, 98, 143, 202, 149, 186, 191, 265, 187, 264, 278, 231, 246, 247, 248])
  (.cases 94 (.cases 105 (.cases 108 (.cases 104 (.cycle
  [185, 186, 191, 265, 187, 264, 219, 225, 231, 244, 245, 252, 270]) (.cycle
  [185, 186, 191, 265, 187, 264, 219, 225, 242, 243, 38])) (.cycle
  [185, 186, 191, 265, 187, 264, 219, 225, 231, 236, 249, 90])) (.cycle [240, 241, 218])) (.cycle
  [185, 186, 191, 265, 187, 264, 278, 297, 69]))) (.cycle
  [124, 130, 142, 117, 112, 97, 98, 143, 202, 149, 186, 191, 265, 187, 264, 219, 235, 229, 74]))
  (.cycle [70, 271, 219, 69])) (.cycle
  [124, 130, 142, 117, 112, 97, 98, 143, 202, 149, 186, 191, 265, 187, 264, 219, 301, 233, 234]))
  (.cycle [185, 186, 191, 265, 187, 264, 219, 220, 221, 29]))) (.cycle [206, 203, 204])) (.cycle
  [185, 186, 191, 265, 187, 264, 211, 212, 69])) (.cycle [216, 217, 218])

/-- some of the cases -/
def ko2Case127 : CaseTree :=
  .cases 71 (.cycle [61, 196, 193, 165, 148]) (.cases 85 (.cases 75 (.cycle
  [55, 98, 143, 202, 197, 193, 189, 176, 177, 178, 179]) (.cases 72 (.cycle [299, 189, 195, 148])
  (.cases 82 (.cycle [155, 156, 157]) (.cases 81 (.cycle [152, 153, 154]) (.cases 87 (.cycle
  [64, 197, 193, 294, 151, 84]) (.cases 89 (.cases 92 (.cycle
  [55, 98, 143, 202, 197, 191, 293, 165, 166, 262, 263, 77]) (.cases 93 (.cases 111 (.cases 100
  (.cases 101 (.cases 103 (.cycle
  [124, 130, 142, 117, 112, 97, 98, 143, 202, 197, 191, 293, 165, 166, 198, 219, 235, 246, 247, 248])
  (.cases 94 (.cases 95 (.cases 105 (.cases 99 (.cases 108 (.cases 104 (.cycle
  [61, 293, 165, 166, 198, 219, 225, 231, 244, 245, 252, 270]) (.cycle
  [55, 98, 143, 202, 197, 191, 293, 165, 166, 198, 219, 225, 242, 243, 38])) (.cycle
  [61, 293, 165, 166, 198, 219, 225, 231, 236, 249, 90])) (.cycle
  [61, 293, 165, 166, 198, 219, 225, 232, 233, 234])) (.cycle
  [124, 130, 142, 117, 112, 97, 98, 143, 202, 197, 191, 293, 165, 166, 198, 219, 298, 279, 231, 38]))
  (.cycle [216, 217, 218])) (.cycle
  [55, 98, 143, 202, 197, 191, 293, 165, 166, 198, 278, 297, 69]))) (.cycle [67, 230, 231, 38]))
  (.cycle
  [124, 130, 142, 117, 112, 97, 98, 143, 202, 197, 191, 293, 165, 166, 198, 219, 235, 229, 74]))
  (.cycle [70, 271, 219, 69])) (.cycle [61, 293, 165, 166, 198, 211, 212, 69]))) (.cycle
  [55, 98, 143, 202, 197, 191, 293, 165, 296, 205, 168, 87]))))))) (.cycle [200, 187, 165, 148]))

/-- some of the cases -/
def ko2Case128 : CaseTree :=
  .cases 72 (.cycle [61, 196, 295, 195, 148]) (.cases 85 (.cycle [61, 196, 182, 210, 189, 168, 87])
  (.cycle [61, 196, 182, 166, 187, 188]))

/-- some of the cases -/
def ko2Case129 : CaseTree :=
  .cases 81 (.cases 72 (.cycle [200, 195, 210, 294, 190]) (.cases 85 (.cases 75 (.cycle
  [64, 197, 182, 210, 189, 176, 177, 178, 179]) (.cases 82 (.cycle [155, 156, 157]) (.cycle
  [152, 153, 154]))) (.cycle [64, 197, 182, 166, 187, 294, 190]))) (.cycle
  [64, 197, 182, 210, 294, 151, 84])

/-- some of the cases -/
def ko2Case130 : CaseTree :=
  .cases 81 (.cases 72 (.cycle [200, 195, 150, 293, 188]) (.cycle
  [55, 98, 143, 202, 197, 182, 166, 154, 293, 188])) (.cycle [64, 197, 182, 150, 151, 84])

/-- some of the cases -/
def ko2Case131 : CaseTree :=
  .cases 104 (.cases 97 (.cases 103 (.cases 99 (.cases 100 (.cases 102 (.cycle
  [276, 257, 247, 248]) (.cases 112 (.cycle [36, 238, 289, 248]) (.cases 111 (.cycle
  [200, 195, 273, 274, 275, 263, 278, 231, 246, 247, 248]) (.cases 110 (.cycle
  [36, 247, 281, 269, 270]) (.cases 108 (.cases 109 (.cycle [36, 247, 267, 268, 239]) (.cycle
  [36, 252, 266, 248])) (.cycle [70, 271, 211, 236, 290, 247, 248])))))) (.cycle
  [200, 195, 273, 274, 275, 263, 211, 229, 237, 247, 248])) (.cycle [67, 228, 246, 247, 248]))
  (.cases 109 (.cases 108 (.cases 111 (.cases 100 (.cycle
  [200, 195, 273, 274, 275, 263, 278, 231, 244, 245, 252, 270]) (.cases 105 (.cases 106 (.cycle
  [200, 195, 273, 274, 275, 263, 211, 229, 242, 245, 258, 259, 260, 261]) (.cases 107 (.cycle
  [253, 254, 255]) (.cycle [250, 251, 252]))) (.cases 106 (.cycle
  [200, 195, 273, 274, 275, 263, 211, 244, 279, 237, 258, 259, 260, 261]) (.cases 107 (.cycle
  [253, 254, 255]) (.cycle [250, 251, 252]))))) (.cases 106 (.cycle
  [70, 271, 211, 244, 245, 258, 259, 260, 261]) (.cases 107 (.cycle [253, 254, 255]) (.cycle
  [250, 251, 252])))) (.cycle [200, 195, 273, 274, 275, 263, 211, 244, 267, 249, 90])) (.cases 105
  (.cases 110 (.cycle [200, 195, 273, 274, 275, 263, 211, 256, 269, 266, 248]) (.cases 98
  (.cases 112 (.cases 99 (.cases 111 (.cases 100 (.cycle
  [200, 195, 273, 274, 275, 263, 278, 231, 256, 289, 248]) (.cases 101 (.cycle
  [200, 195, 273, 274, 275, 263, 211, 229, 232, 266, 248]) (.cycle
  [67, 230, 226, 289, 245, 282, 283]))) (.cycle [70, 271, 211, 236, 268, 289, 248])) (.cycle
  [67, 228, 256, 289, 248])) (.cases 111 (.cases 113 (.cycle [218, 287, 288]) (.cases 101
  (.cases 102 (.cycle
  [124, 130, 142, 117, 112, 97, 98, 143, 202, 197, 191, 265, 195, 273, 274, 275, 263, 278, 232, 266, 281, 257, 282, 283])
  (.cycle [200, 195, 273, 274, 275, 263, 278, 232, 266, 245, 238, 239])) (.cycle
  [67, 230, 284, 285, 286]))) (.cases 102 (.cases 99 (.cycle
  [70, 271, 211, 236, 266, 281, 257, 282, 283]) (.cycle [67, 228, 244, 281, 257, 282, 283]))
  (.cycle [70, 271, 211, 244, 245, 238, 239])))) (.cycle [67, 268, 277, 74]))) (.cycle
  [67, 266, 240, 280])))) (.cycle [276, 227, 244, 248])) (.cases 111 (.cases 100 (.cases 101
  (.cases 105 (.cycle
  [124, 130, 142, 117, 112, 97, 98, 143, 202, 197, 191, 265, 195, 273, 274, 275, 263, 278, 242, 243, 38])
  (.cases 98 (.cases 99 (.cases 108 (.cases 97 (.cases 110 (.cycle
  [124, 130, 142, 117, 112, 97, 98, 143, 202, 197, 191, 265, 195, 273, 274, 275, 263, 272, 279, 231, 256, 269, 270])
  (.cycle [200, 195, 273, 274, 275, 263, 272, 279, 231, 246, 252, 268, 239])) (.cycle
  [200, 195, 273, 274, 275, 263, 272, 279, 226, 227, 38])) (.cycle
  [200, 195, 273, 274, 275, 263, 278, 231, 236, 249, 90])) (.cycle
  [200, 195, 273, 274, 275, 263, 278, 232, 233, 234])) (.cycle [276, 277, 231, 38]))) (.cycle
  [67, 230, 231, 38])) (.cycle [200, 195, 273, 274, 275, 263, 272, 243, 229, 74])) (.cycle
  [70, 271, 272, 243, 38]))

/-- some of the cases -/
def ko2Case132 : CaseTree :=
  .cases 96 (.cases 94 (.cases 97 (.cases 99 (.cases 101 (.cases 102 (.cases 106 (.cycle
  [200, 195, 210, 264, 219, 235, 256, 257, 258, 259, 260, 261]) (.cases 107 (.cycle
  [253, 254, 255]) (.cases 108 (.cycle [250, 251, 252]) (.cases 100 (.cycle
  [200, 195, 210, 264, 219, 225, 231, 236, 249, 90]) (.cycle
  [200, 195, 210, 264, 219, 235, 229, 232, 249, 90]))))) (.cases 100 (.cases 109 (.cases 110
  (.cycle [200, 195, 210, 264, 219, 225, 231, 246, 238, 269, 270]) (.cases 104 (.cycle
  [200, 195, 210, 264, 219, 225, 231, 244, 267, 268, 239]) (.cases 105 (.cycle
  [124, 130, 142, 117, 112, 97, 98, 143, 202, 197, 191, 265, 195, 210, 264, 219, 225, 242, 243, 38])
  (.cycle [240, 241, 218])))) (.cycle [200, 195, 210, 264, 219, 225, 231, 236, 266, 248])) (.cycle
  [200, 195, 210, 264, 219, 235, 229, 237, 238, 239]))) (.cycle
  [200, 195, 210, 264, 219, 235, 236, 230, 74])) (.cases 100 (.cases 101 (.cycle
  [200, 195, 210, 264, 219, 225, 232, 233, 234]) (.cycle [67, 230, 231, 38])) (.cycle
  [67, 228, 229, 74]))) (.cases 98 (.cycle
  [124, 130, 142, 117, 112, 97, 98, 143, 202, 197, 191, 265, 195, 210, 264, 219, 225, 226, 227, 38])
  (.cycle [222, 223, 224]))) (.cycle [213, 214, 215])) (.cycle
  [124, 130, 142, 117, 112, 97, 98, 143, 202, 197, 191, 265, 195, 210, 264, 219, 220, 221, 29])

/-- some of the cases -/
def ko2Case133 : CaseTree :=
  .cases 85 (.cases 92 (.cycle
  [124, 130, 142, 117, 112, 97, 98, 143, 202, 197, 191, 147, 210, 189, 262, 263, 77]) (.cases 93
  (.cases 94 (.cases 95 (.cases 96 (.cases 97 (.cases 99 (.cases 101 (.cases 102 (.cases 106
  (.cycle [61, 147, 210, 189, 198, 219, 235, 256, 257, 258, 259, 260, 261]) (.cases 107 (.cycle
  [253, 254, 255]) (.cases 108 (.cycle [250, 251, 252]) (.cases 100 (.cycle
  [55, 98, 143, 202, 197, 191, 147, 210, 189, 198, 219, 225, 231, 236, 249, 90]) (.cycle
  [61, 147, 210, 189, 198, 219, 235, 229, 232, 249, 90]))))) (.cases 100 (.cases 103 (.cycle
  [61, 147, 210, 189, 198, 219, 225, 231, 246, 247, 248]) (.cases 104 (.cycle
  [61, 147, 210, 189, 198, 219, 225, 231, 244, 245, 238, 239]) (.cases 105 (.cycle
  [124, 130, 142, 117, 112, 97, 98, 143, 202, 197, 191, 147, 210, 189, 198, 219, 225, 242, 243, 38])
  (.cycle [240, 241, 218])))) (.cycle
  [55, 98, 143, 202, 197, 191, 147, 210, 189, 198, 219, 235, 229, 237, 238, 239]))) (.cycle
  [61, 147, 210, 189, 198, 219, 235, 236, 230, 74])) (.cases 100 (.cases 101 (.cycle
  [61, 147, 210, 189, 198, 219, 225, 232, 233, 234]) (.cycle [67, 230, 231, 38])) (.cycle
  [67, 228, 229, 74]))) (.cases 98 (.cycle
  [124, 130, 142, 117, 112, 97, 98, 143, 202, 197, 191, 147, 210, 189, 198, 219, 225, 226, 227, 38])
  (.cycle [222, 223, 224]))) (.cycle
  [124, 130, 142, 117, 112, 97, 98, 143, 202, 197, 191, 147, 210, 189, 198, 219, 220, 221, 29]))
  (.cycle [216, 217, 218])) (.cycle [213, 214, 215])) (.cycle
  [55, 98, 143, 202, 197, 191, 147, 210, 189, 198, 211, 212, 69]))) (.cycle
  [55, 98, 143, 202, 197, 191, 147, 166, 187, 188])

/-- some of the cases -/
def ko2Case134 : CaseTree :=
  .cases 91 (.cycle [207, 208, 209]) (.cycle [206, 203, 204])

/-- some of the cases -/
def ko2Case135 : CaseTree :=
  .cases 72 (.cycle [200, 195, 201, 199, 188]) (.cycle [64, 197, 182, 166, 198, 199, 188])

/-- some of the cases -/
def ko2Case136 : CaseTree :=
  .cases 71 (.cycle [61, 196, 145, 192]) (.cases 72 (.cycle [55, 98, 143, 144, 145, 184, 195, 148])
  (.cases 73 (.cases 83 (.cycle [185, 186, 193, 194, 192]) (.cases 79 (.cycle
  [185, 186, 191, 158, 192]) (.cases 85 (.cases 81 (.cycle [185, 186, 145, 164, 189, 154, 190])
  (.cycle [185, 186, 145, 146, 151, 84])) (.cycle [185, 186, 145, 184, 187, 188])))) (.cases 74
  (.cases 75 (.cycle
  [124, 130, 142, 117, 112, 97, 98, 143, 144, 182, 183, 184, 176, 177, 178, 179]) (.cases 80
  (.cases 81 (.cases 82 (.cycle [155, 156, 157]) (.cycle [152, 153, 154])) (.cycle
  [124, 130, 142, 117, 112, 97, 98, 143, 144, 182, 150, 151, 84])) (.cycle [61, 147, 180, 181])))
  (.cases 75 (.cycle [55, 98, 143, 144, 145, 149, 166, 176, 177, 178, 179]) (.cases 76 (.cycle
  [155, 174, 175]) (.cases 77 (.cycle [152, 172, 173]) (.cases 78 (.cases 83 (.cycle
  [169, 170, 171]) (.cases 79 (.cases 84 (.cycle [61, 158, 164, 165, 166, 168, 87]) (.cycle
  [161, 162, 163])) (.cases 81 (.cases 84 (.cycle
  [124, 130, 142, 117, 112, 97, 98, 143, 144, 145, 164, 165, 166, 154, 167, 87]) (.cycle
  [161, 162, 163])) (.cycle [124, 130, 142, 117, 112, 97, 98, 143, 144, 145, 146, 151, 84]))))
  (.cases 79 (.cycle [61, 158, 159, 160, 20]) (.cases 80 (.cases 81 (.cases 82 (.cycle
  [155, 156, 157]) (.cycle [152, 153, 154])) (.cycle [55, 98, 143, 144, 145, 149, 150, 151, 84]))
  (.cycle [124, 130, 142, 117, 112, 97, 98, 143, 144, 145, 146, 147, 148]))))))))))

/-- some of the cases -/
def ko2Case137 : CaseTree :=
  .cases 60 (.cycle [135, 136, 137, 98, 107, 108, 63]) (.cases 61 (.cases 62 (.cycle
  [132, 133, 134]) (.cases 63 (.cases 64 (.cases 65 (.cases 66 (.cases 67 (.cycle
  [128, 129, 130, 127, 131, 79]) (.cycle [124, 125, 126, 127, 112, 97, 98, 107, 108, 63])) (.cycle
  [121, 122, 123])) (.cycle [118, 119, 120])) (.cycle
  [113, 114, 115, 116, 117, 112, 97, 98, 107, 108, 63])) (.cycle
  [109, 110, 111, 112, 97, 98, 107, 108, 63]))) (.cycle [94, 105, 106, 97, 98, 107, 108, 63]))

/-- all cases -/
def ko2Cases : CaseTree :=
  .cases 0 (.cases 1 (.cases 2 (.cycle [407, 408]) (.cases 3 (.cases 4 (.cases 5 (.cases 6
  (.cases 7 (.cases 8 (.cases 9 (.cycle [304, 406, 373]) (.cases 10 (.cycle [404, 405, 372])
  (.cases 11 (.cases 12 (.cases 13 (.cases 14 (.cases 15 (.cases 16 (.cycle [401, 402, 403])
  (.cases 17 (.cycle [399, 400, 179]) (.cases 18 (.cycle [397, 398, 261]) (.cases 19 (.cycle
  [321, 396, 148]) (.cases 20 (.cases 21 (.cycle [200, 395, 300]) (.cases 22 (.cases 23 (.cases 24
  (.cases 25 (.cycle [393, 394]) (.cases 26 (.cases 27 (.cases 28 (.cases 29 (.cases 30 (.cases 31
  (.cases 32 (.cases 33 (.cases 34 (.cases 35 (.cases 36 (.cycle [200, 392, 192]) (.cases 37
  (.cycle [185, 391, 349]) (.cases 38 (.cycle [82, 390, 148]) (.cases 39 (.cycle [299, 389, 349])
  (.cases 40 (.cases 41 (.cases 42 (.cases 43 (.cases 44 (.cases 45 (.cases 46 (.cases 47
  (.cases 48 (.cases 49 (.cases 55 (.cases 56 (.cases 126 (.cases 52 (.cycle
  [358, 359, 365, 356, 334]) (.cases 62 (.cases 57 (.cases 119 ko2Case0 (.cases 68 (.cases 59
  (.cases 69 ko2Case1 (.cases 70 (.cases 79 (.cycle [61, 158, 197, 300]) (.cases 73 (.cases 80
  (.cases 71 (.cases 74 (.cycle [185, 183, 146, 313, 314]) (.cases 86 (.cases 85 ko2Case2 ko2Case3)
  (.cycle [358, 359, 134, 137, 336, 202, 149, 150, 196, 295, 198, 199, 188]))) (.cases 81
  (.cases 85 ko2Case4 (.cases 86 (.cases 77 (.cycle [200, 187, 264, 173, 190]) (.cases 91
  (.cases 87 ko2Case5 (.cases 95 (.cases 93 (.cases 92 ko2Case6 ko2Case7) (.cycle
  [200, 154, 293, 264, 211, 212, 69])) (.cycle [216, 217, 218]))) (.cycle [206, 203, 204])))
  ko2Case8)) (.cases 114 (.cycle [304, 305, 140, 197, 191, 151, 84]) (.cases 74 (.cycle
  [180, 303, 161]) (.cases 87 (.cycle [185, 186, 193, 294, 151, 84]) (.cases 86 (.cases 85 ko2Case9
  ko2Case10) (.cycle [358, 359, 134, 137, 336, 202, 149, 186, 191, 265, 198, 199, 188])))))))
  (.cycle [61, 147, 186, 300])) (.cases 84 ko2Case11 (.cases 71 ko2Case12 (.cases 86 (.cases 87
  ko2Case13 (.cases 80 ko2Case14 (.cases 88 (.cycle [291, 210, 292]) (.cases 81 (.cycle
  [200, 154, 147, 148]) (.cases 89 (.cases 90 (.cases 72 (.cases 95 (.cases 93 (.cases 92 ko2Case15
  ko2Case16) (.cycle [200, 195, 210, 264, 211, 212, 69])) (.cycle [216, 217, 218])) ko2Case17)
  ko2Case18) (.cycle
  [358, 359, 134, 137, 336, 202, 197, 191, 147, 162, 203, 204, 205, 168, 87])))))) ko2Case19)))))
  ko2Case20)) (.cases 73 (.cycle [185, 186, 108, 63]) (.cases 120 (.cycle [58, 182, 346, 373])
  (.cases 114 (.cycle [58, 108, 371, 307, 372]) (.cases 79 ko2Case21 ko2Case22))))) (.cycle
  [138, 139, 140]))) ko2Case23) (.cases 119 ko2Case24 (.cases 68 (.cases 59 (.cases 69 ko2Case25
  (.cases 70 (.cases 79 (.cycle [61, 158, 197, 300]) (.cases 73 (.cases 80 (.cases 71 (.cases 74
  (.cycle [185, 183, 146, 313, 314]) (.cases 86 (.cases 85 ko2Case26 ko2Case27) (.cycle
  [358, 333, 112, 97, 336, 202, 149, 150, 196, 295, 198, 199, 188]))) (.cases 81 (.cases 85
  ko2Case28 (.cases 86 (.cases 77 (.cycle [200, 187, 264, 173, 190]) (.cases 91 (.cases 87
  ko2Case29 (.cases 95 ko2Case30 (.cycle [216, 217, 218]))) (.cycle [206, 203, 204]))) ko2Case31))
  (.cases 114 (.cycle [304, 305, 140, 197, 191, 151, 84]) (.cases 74 (.cycle [180, 303, 161])
  (.cases 87 (.cycle [185, 186, 193, 294, 151, 84]) (.cases 86 (.cases 85 ko2Case32 ko2Case33)
  (.cycle [358, 333, 112, 97, 336, 202, 149, 186, 191, 265, 198, 199, 188]))))))) (.cycle
  [61, 147, 186, 300])) (.cases 84 ko2Case34 (.cases 71 ko2Case35 (.cases 86 (.cases 87 ko2Case36
  (.cases 80 ko2Case37 (.cases 88 (.cycle [291, 210, 292]) (.cases 81 (.cycle [200, 154, 147, 148])
  (.cases 89 (.cases 90 (.cases 72 (.cases 95 (.cases 93 (.cases 92 ko2Case38 ko2Case39) (.cycle
  [200, 195, 210, 264, 211, 212, 69])) (.cycle [216, 217, 218])) ko2Case40) ko2Case41) (.cycle
  [358, 333, 112, 97, 336, 202, 197, 191, 147, 162, 203, 204, 205, 168, 87])))))) ko2Case42)))))
  ko2Case43)) (.cases 73 (.cycle [185, 186, 108, 63]) (.cases 120 (.cycle [58, 182, 346, 373])
  (.cases 114 (.cycle [58, 108, 371, 307, 372]) (.cases 79 ko2Case44 ko2Case45))))) (.cycle
  [138, 139, 140]))))) ko2Case46) (.cases 124 (.cases 62 (.cycle [359, 134, 102]) (.cases 125
  (.cases 123 (.cases 126 (.cases 59 (.cases 119 ko2Case47 (.cases 68 (.cases 69 ko2Case48
  (.cases 71 ko2Case49 (.cases 70 (.cases 81 ko2Case50 ko2Case51) ko2Case52))) (.cycle
  [138, 139, 140]))) ko2Case53) (.cases 79 ko2Case54 (.cases 71 (.cycle
  [354, 364, 97, 353, 146, 313, 314]) (.cases 70 ko2Case55 ko2Case56)))) ko2Case57) (.cycle
  [94, 102, 361, 35]))) (.cycle [94, 102, 360, 54]))) (.cycle [358, 359, 99, 57])) (.cases 50
  (.cycle [33, 141, 357, 57]) (.cases 51 (.cases 52 (.cycle [33, 141, 143, 356, 334]) (.cases 53
  (.cases 57 (.cases 119 (.cases 56 (.cycle [33, 141, 333, 355, 352, 349]) (.cases 123 (.cases 79
  ko2Case58 (.cases 70 (.cases 54 (.cases 69 ko2Case59 (.cases 71 ko2Case60 ko2Case61)) (.cycle
  [94, 95, 96, 141, 143, 352, 353, 197, 300])) ko2Case62)) ko2Case63)) (.cases 54 (.cases 68
  (.cases 59 (.cases 69 ko2Case64 (.cases 71 ko2Case65 (.cases 120 (.cycle [346, 347, 161])
  (.cases 86 (.cases 70 ko2Case66 ko2Case67) ko2Case68)))) ko2Case69) (.cycle [138, 139, 140]))
  (.cycle [94, 95, 96, 141, 335, 336, 63]))) (.cycle [33, 141, 335, 101, 334])) (.cases 54
  (.cases 55 (.cases 56 (.cycle [55, 98, 333, 334]) (.cases 57 (.cases 58 (.cases 59 (.cases 68
  (.cases 67 (.cases 63 (.cycle [128, 129, 130, 104, 97, 98, 60]) (.cases 61 (.cases 62 (.cases 69
  ko2Case70 (.cases 70 (.cases 79 (.cycle [61, 158, 197, 300]) (.cases 71 ko2Case71 (.cases 73
  (.cases 81 (.cases 85 ko2Case72 ko2Case73) ko2Case74) (.cases 84 ko2Case75 ko2Case76))))
  ko2Case77)) (.cases 69 ko2Case78 (.cases 70 (.cases 79 (.cycle [61, 158, 197, 300]) (.cases 71
  ko2Case79 (.cases 73 (.cases 81 (.cases 85 ko2Case80 ko2Case81) ko2Case82) (.cases 84 ko2Case83
  ko2Case84)))) ko2Case85))) (.cases 69 ko2Case86 (.cases 70 (.cases 79 (.cycle
  [61, 158, 197, 300]) (.cases 71 ko2Case87 (.cases 73 (.cases 81 (.cases 85 ko2Case88 ko2Case89)
  ko2Case90) (.cases 84 ko2Case91 ko2Case92)))) ko2Case93)))) (.cases 63 (.cases 66 (.cases 62
  (.cases 69 ko2Case94 (.cases 70 (.cases 79 (.cycle [61, 158, 197, 300]) (.cases 71 ko2Case95
  (.cases 73 (.cases 81 (.cases 85 ko2Case96 ko2Case97) ko2Case98) (.cases 84 ko2Case99
  ko2Case100)))) ko2Case101)) (.cases 69 ko2Case102 (.cases 70 (.cases 79 (.cycle
  [61, 158, 197, 300]) (.cases 71 ko2Case103 (.cases 73 (.cases 81 (.cases 85 ko2Case104
  ko2Case105) ko2Case106) (.cases 84 ko2Case107 ko2Case108)))) ko2Case109))) (.cases 62 (.cases 69
  ko2Case110 (.cases 70 (.cases 79 (.cycle [61, 158, 197, 300]) (.cases 71 ko2Case111 (.cases 73
  (.cases 81 (.cases 85 ko2Case112 ko2Case113) ko2Case114) (.cases 84 ko2Case115 ko2Case116))))
  ko2Case117)) (.cases 69 ko2Case118 (.cases 70 (.cases 79 (.cycle [61, 158, 197, 300]) (.cases 73
  (.cases 80 (.cases 71 (.cases 74 (.cycle [185, 183, 146, 313, 314]) (.cases 86 (.cases 85
  ko2Case119 ko2Case120) (.cycle
  [124, 130, 142, 117, 112, 97, 98, 143, 202, 149, 150, 196, 295, 198, 199, 188]))) (.cases 81
  (.cases 85 ko2Case121 (.cases 86 (.cases 77 (.cycle [200, 187, 264, 173, 190]) (.cases 91
  (.cases 87 ko2Case122 (.cases 95 ko2Case123 (.cycle [216, 217, 218]))) (.cycle [206, 203, 204])))
  ko2Case124)) (.cases 114 (.cycle [304, 305, 140, 197, 191, 151, 84]) (.cases 74 (.cycle
  [180, 303, 161]) (.cases 87 (.cycle [185, 186, 193, 294, 151, 84]) (.cases 86 (.cases 85
  ko2Case125 ko2Case126) (.cycle
  [124, 130, 142, 117, 112, 97, 98, 143, 202, 149, 186, 191, 265, 198, 199, 188]))))))) (.cycle
  [61, 147, 186, 300])) (.cases 84 ko2Case127 (.cases 71 ko2Case128 (.cases 86 (.cases 87
  ko2Case129 (.cases 80 ko2Case130 (.cases 88 (.cycle [291, 210, 292]) (.cases 81 (.cycle
  [200, 154, 147, 148]) (.cases 89 (.cases 90 (.cases 72 (.cases 95 (.cases 93 (.cases 92
  ko2Case131 ko2Case132) (.cycle [200, 195, 210, 264, 211, 212, 69])) (.cycle [216, 217, 218]))
  ko2Case133) ko2Case134) (.cycle
  [124, 130, 142, 117, 112, 97, 98, 143, 202, 197, 191, 147, 162, 203, 204, 205, 168, 87]))))))
  ko2Case135))))) ko2Case136)))) (.cycle [109, 110, 125, 96, 141, 60]))) (.cycle [138, 139, 140]))
  ko2Case137) (.cycle [94, 103, 104, 97, 98, 60])) (.cycle [55, 101, 102, 60]))) (.cycle
  [33, 99, 100, 98, 60])) (.cycle [94, 95, 96, 97, 98, 60])))) (.cycle [91, 92, 93])))) (.cycle
  [88, 89, 90])) (.cycle [85, 86, 87])) (.cycle [82, 83, 84])) (.cycle [58, 80, 81])) (.cycle
  [55, 78, 79])) (.cycle [75, 76, 77])) (.cycle [36, 73, 74])) (.cycle [70, 71, 72])) (.cycle
  [67, 68, 69])))))) (.cycle [64, 65, 66])) (.cycle [61, 62, 63])) (.cycle [58, 59, 60])) (.cycle
  [55, 56, 57])) (.cycle [33, 53, 54])) (.cycle [51, 52])) (.cycle [49, 50])) (.cycle [47, 48]))
  (.cycle [45, 46])) (.cycle [43, 44]))) (.cycle [41, 42])) (.cycle [39, 40])) (.cycle
  [36, 37, 38]))) (.cycle [33, 34, 35])))))) (.cycle [30, 31, 32])) (.cycle [27, 28, 29])) (.cycle
  [24, 25, 26])) (.cycle [21, 22, 23])) (.cycle [18, 19, 20])))) (.cycle [15, 16, 17])) (.cycle
  [12, 13, 14])) (.cycle [10, 11])) (.cycle [8, 9])) (.cycle [6, 7])) (.cycle [4, 5]))) (.cycle
  [2, 3])) (.cycle [0, 1])

theorem ko2_cases : ko2Cases.check ko2Arcs 18 ko2Choices.length [] = true := by decide +kernel

theorem ko2_choices : ko2Choices.all (CodedNet.Choice.ok netKoR netKoRSpecial ko2Plan) = true := by decide +kernel

theorem ko2_arcs : ko2Arcs.toList.all (netKoR.arcOK netKoRSpecial ko2Plan ko2Nodes ko2Choices) = true := by
  decide +kernel

end Verif.Real
