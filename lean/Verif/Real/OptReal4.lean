import Verif.Proofs.PlanSum
import Verif.Proofs.PlanAgain
import Verif.Real.PlanGt

/-!
# The sheet of `Verif.Real.Gt` with given delays: a plan, and that no plan is better

Generated; see `CodedNet.Item` and `Verif/Proofs/SumTree.lean`. Case 4 of
`/repo/solve_real_problem.py`, lines 103-106;
`d_max` is 40. The sum of the delays that count is 313/4.
-/

namespace Verif.Real

set_option maxRecDepth 100000

/-- the given delays -/
def real4Delays : List (Int × ℚ) := []

/-- the plan, items by sections -/
def real4Plan : CodedNet.Plan := [
  (train_gt_94766, [
   ⟨0, 94766, 9, (some 26), true, false, -13, -13, -130,
    none,
    (some ⟨8, [58, 108, 55, 72, 135, 73, 74, 116], [10, 7, 6, 6, 16, 8, 6, 19], 8, [55, 56, 78, 79, 83]⟩), [], [112, 1, 114, 15], [-13]⟩,
   ⟨0, 94766, 8, (some 8), true, false, -3, -3, -30,
    (some ⟨9, -5, -130, [58, 108, 55, 72, 135, 73, 74, 116]⟩),
    (some ⟨1, [82, 131, 65, 112], [14, 15, 9, 10], 5, [82, 84, 86, 93]⟩), [55, 56, 78, 79, 83], [15, 8], [-5]⟩,
   ⟨0, 94766, 1, (some 15), true, true, 5, 5, 50,
    (some ⟨8, 2, -30, [82, 131, 65, 112]⟩),
    (some ⟨2, [], [], 0, []⟩), [82, 84, 86, 93], [31, 34, 35, 40, 41, 42, 49], [2]⟩,
   ⟨0, 94766, 2, none, false, true, 5, 5, 50,
    (some ⟨1, 5, 50, []⟩),
    none, [], [], [5]⟩]),
  (train_gt_26103, [
   ⟨1, 26103, 0, (some 17), true, false, 0, 0, 0,
    none,
    (some ⟨2, [104], [12], 1, [5, 18]⟩), [], [47, 53], [0]⟩,
   ⟨1, 26103, 2, (some 52), true, false, 3, 3, 30,
    (some ⟨0, 1, 0, [104]⟩),
    (some ⟨1, [], [], 0, [39, 54, 55]⟩), [5, 18], [], [1]⟩,
   ⟨1, 26103, 1, (some 14), true, false, 11, 11, 110,
    (some ⟨2, 3, 30, []⟩),
    (some ⟨12, [83], [9], 1, [100]⟩), [39, 54, 55], [61, 64, 69, 71, 87, 92], [3]⟩,
   ⟨1, 26103, 12, (some 101), true, false, 14, 14, 140,
    (some ⟨1, 12, 110, [83]⟩),
    (some ⟨5, [139, 132, 42], [25, 25, 15], 6, [25, 26]⟩), [100], [415, 416, 417], [12]⟩,
   ⟨1, 26103, 5, (some 47), true, false, 23, 23, 230,
    (some ⟨12, 20, 140, [139, 132, 42]⟩),
    (some ⟨6, [77, 144, 119, 40, 86, 142, 87, 126, 30, 90, 91, 92, 93, 127], [11, 9, 8, 7, 13, 7, 7, 9, 15, 13, 9, 5, 7, 20], 14, [31, 34, 43]⟩), [25, 26], [10, 11, 14, 17, 20], [20]⟩,
   ⟨1, 26103, 6, (some 38), true, false, 38, 38, 380,
    (some ⟨5, 37, 230, [77, 144, 119, 40, 86, 142, 87, 126, 30, 90, 91, 92, 93, 127]⟩),
    none, [31, 34, 43], [], [37]⟩]),
  (train_gt_421009, [
   ⟨2, 421009, 4, none, true, false, -10, -10, -100,
    none,
    (some ⟨2, [], [], 0, [1, 9, 15, 21, 23]⟩), [], [], [-10]⟩,
   ⟨2, 421009, 2, (some 49), true, false, -8, -8, -80,
    (some ⟨4, -10, -100, []⟩),
    (some ⟨1, [], [], 0, [35, 51]⟩), [1, 9, 15, 21, 23], [], [-10]⟩,
   ⟨2, 421009, 1, (some 11), false, true, -8, -8, -80,
    (some ⟨2, -8, -80, []⟩),
    none, [35, 51], [], [-8]⟩]),
  (train_gt_42100, [
   ⟨3, 42100, 1, (some 11), true, false, 8, 8, 80,
    none,
    (some ⟨2, [], [], 0, []⟩), [], [35, 51], [-8]⟩,
   ⟨3, 42100, 2, (some 49), true, false, 9, 9, 90,
    (some ⟨1, 8, 80, []⟩),
    (some ⟨0, [102], [13], 1, [48, 52]⟩), [], [6, 7, 11, 17, 20, 23], [8]⟩,
   ⟨3, 42100, 0, (some 18), true, false, 11, 11, 110,
    (some ⟨2, 10, 90, [102]⟩),
    none, [48, 52], [], [10]⟩]),
  (train_gt_5312, [
   ⟨4, 5312, 6, (some 33), true, false, -18, -18, -180,
    none,
    (some ⟨5, [78, 79, 80, 81, 120, 31, 94, 95, 143, 128, 41, 85, 145, 125], [18, 7, 6, 8, 12, 20, 23, 5, 9, 11, 6, 11, 7, 14], 16, [10, 11, 14, 17, 19]⟩), [], [36, 30, 22], [-18]⟩,
   ⟨4, 5312, 5, (some 47), true, false, 0, 0, 0,
    (some ⟨6, -2, -180, [78, 79, 80, 81, 120, 31, 94, 95, 143, 128, 41, 85, 145, 125]⟩),
    (some ⟨12, [42, 132, 139], [25, 25, 25], 8, [416, 417]⟩), [10, 11, 14, 17, 19], [25, 26], [-2]⟩,
   ⟨4, 5312, 12, (some 133), true, false, 9, 9, 90,
    (some ⟨5, 8, 0, [42, 132, 139]⟩),
    (some ⟨1, [122], [10], 1, [81, 85, 88, 91]⟩), [416, 417], [200], [8]⟩,
   ⟨4, 5312, 1, (some 13), true, false, 13, 14, 140,
    (some ⟨12, 10, 90, [122]⟩),
    (some ⟨2, [], [], 0, []⟩), [81, 85, 88, 91], [35, 51, 56], [10]⟩,
   ⟨4, 5312, 2, (some 49), true, false, 14, 15, 150,
    (some ⟨1, 14, 140, []⟩),
    (some ⟨0, [103], [13], 1, [41, 50]⟩), [], [8, 14, 21, 23], [14]⟩,
   ⟨4, 5312, 0, (some 20), true, false, 16, 17, 170,
    (some ⟨2, 16, 150, [103]⟩),
    none, [41, 50], [], [16]⟩]),
  (train_gt_40518, [
   ⟨5, 40518, 9, (some 26), true, false, -9, -9, -90,
    none,
    (some ⟨8, [58, 108, 55, 72, 135, 73, 74, 116], [10, 7, 6, 6, 16, 8, 6, 19], 8, [55, 56, 78, 79, 83]⟩), [], [112, 1, 114, 15], [-9]⟩,
   ⟨5, 40518, 8, (some 8), true, false, 3, 3, 30,
    (some ⟨9, -1, -90, [58, 108, 55, 72, 135, 73, 74, 116]⟩),
    (some ⟨1, [82, 131, 65, 112], [14, 15, 9, 10], 5, [82, 84, 86, 93]⟩), [55, 56, 78, 79, 83], [15, 8], [-1]⟩,
   ⟨5, 40518, 1, (some 15), true, true, 11, 11, 110,
    (some ⟨8, 8, 30, [82, 131, 65, 112]⟩),
    (some ⟨2, [], [], 0, []⟩), [82, 84, 86, 93], [32, 34, 35, 40, 41, 42, 49], [8]⟩,
   ⟨5, 40518, 2, none, false, true, 11, 11, 110,
    (some ⟨1, 11, 110, []⟩),
    none, [], [], [11]⟩]),
  (train_gt_34319, [
   ⟨6, 34319, 0, (some 19), true, false, 10, 10, 100,
    none,
    (some ⟨2, [105], [14], 1, [7, 11, 20, 23]⟩), [], [42, 49, 51], [10]⟩,
   ⟨6, 34319, 2, (some 49), true, false, 13, 13, 130,
    (some ⟨0, 11, 100, [105]⟩),
    (some ⟨1, [], [], 0, [35, 40, 41, 42, 49]⟩), [7, 11, 20, 23], [], [11]⟩,
   ⟨6, 34319, 1, (some 15), false, true, 13, 13, 130,
    (some ⟨2, 13, 130, []⟩),
    none, [35, 40, 41, 42, 49], [], [13]⟩]),
  (train_gt_343199, [
   ⟨7, 343199, 1, (some 15), true, true, 14, 18, 180,
    none,
    (some ⟨2, [], [], 0, []⟩), [], [43, 42, 49], [13]⟩,
   ⟨7, 343199, 2, none, false, true, 14, 18, 180,
    (some ⟨1, 18, 180, []⟩),
    none, [], [], [18]⟩]),
  (train_gt_14006, [
   ⟨8, 14006, 0, (some 17), true, false, 6, 6, 60,
    none,
    (some ⟨2, [104], [12], 1, [5, 18]⟩), [], [47, 53], [6]⟩,
   ⟨8, 14006, 2, (some 52), true, false, 9, 9, 90,
    (some ⟨0, 7, 60, [104]⟩),
    (some ⟨1, [], [], 0, [39, 54]⟩), [5, 18], [], [7]⟩,
   ⟨8, 14006, 1, (some 16), true, false, 19, 19, 190,
    (some ⟨2, 9, 90, []⟩),
    (some ⟨8, [138, 141, 96, 118], [10, 9, 16, 9], 4, [9, 16]⟩), [39, 54], [62, 64, 69, 70, 72, 74], [9]⟩,
   ⟨8, 14006, 8, (some 7), true, false, 24, 24, 240,
    (some ⟨1, 23, 190, [138, 141, 96, 118]⟩),
    (some ⟨9, [137, 69, 70, 134, 71, 129, 54, 136, 57], [19, 6, 5, 6, 4, 5, 7, 6, 11], 7, [2, 3, 4, 7, 11, 20, 21]⟩), [9, 16], [54, 57, 84], [23]⟩,
   ⟨8, 14006, 9, (some 29), true, false, 34, 34, 340,
    (some ⟨8, 31, 240, [137, 69, 70, 134, 71, 129, 54, 136, 57]⟩),
    none, [2, 3, 4, 7, 11, 20, 21], [], [31]⟩]),
  (train_gt_94611, [
   ⟨9, 94611, 3, none, true, false, -5, -5, -50,
    none,
    (some ⟨1, [], [], 0, [66, 67, 85, 88, 90, 95]⟩), [], [], [-5]⟩,
   ⟨9, 94611, 1, (some 10), true, false, 12, 12, 120,
    (some ⟨3, -5, -50, []⟩),
    (some ⟨8, [138, 141, 96, 118], [10, 9, 16, 9], 4, [9, 16]⟩), [66, 67, 85, 88, 90, 95], [66, 68, 70, 72, 74], [-5]⟩,
   ⟨9, 94611, 8, (some 7), true, false, 18, 18, 180,
    (some ⟨1, 16, 120, [138, 141, 96, 118]⟩),
    (some ⟨9, [137, 69, 70, 134, 71, 129, 54, 136, 57], [29, 6, 5, 6, 7, 5, 7, 6, 9], 8, [2, 3, 14, 16]⟩), [9, 16], [54, 57, 84], [16]⟩,
   ⟨9, 94611, 9, (some 25), true, false, 28, 28, 280,
    (some ⟨8, 26, 180, [137, 69, 70, 134, 71, 129, 54, 136, 57]⟩),
    none, [2, 3, 14, 16], [], [26]⟩]),
  (train_gt_40150, [
   ⟨10, 40150, 6, (some 35), true, false, -11, 12, 120,
    none,
    (some ⟨5, [78, 79, 80, 81, 120, 31, 94, 95, 143, 128, 41, 85, 145, 125], [18, 7, 6, 8, 12, 20, 23, 5, 19, 11, 16, 11, 17, 14], 19, [10, 11, 14, 17, 19]⟩), [], [29, 24, 22], [-11]⟩,
   ⟨10, 40150, 5, (some 47), true, false, 10, 36, 360,
    (some ⟨6, 31, 120, [78, 79, 80, 81, 120, 31, 94, 95, 143, 128, 41, 85, 145, 125]⟩),
    (some ⟨12, [42, 132, 139], [25, 25, 25], 8, [416, 417]⟩), [10, 11, 14, 17, 19], [25, 26], [31]⟩,
   ⟨10, 40150, 12, (some 133), true, false, 20, 46, 460,
    (some ⟨5, 44, 360, [42, 132, 139]⟩),
    (some ⟨1, [122], [10], 1, [81, 85, 88, 91]⟩), [416, 417], [200], [44]⟩,
   ⟨10, 40150, 1, (some 13), true, false, 24, 50, 500,
    (some ⟨12, 47, 460, [122]⟩),
    (some ⟨2, [], [], 0, []⟩), [81, 85, 88, 91], [35, 51, 56], [47]⟩,
   ⟨10, 40150, 2, (some 49), true, false, 25, 51, 510,
    (some ⟨1, 50, 500, []⟩),
    (some ⟨0, [102], [18], 2, [48, 52]⟩), [], [6, 7, 11, 17, 20, 23], [50]⟩,
   ⟨10, 40150, 0, (some 18), true, false, 29, 55, 550,
    (some ⟨2, 53, 510, [102]⟩),
    none, [48, 52], [], [53]⟩]),
  (train_gt_41004, [
   ⟨11, 41004, 9, (some 27), true, false, 1, 1, 10,
    none,
    (some ⟨8, [58, 108, 55, 72, 135, 73, 74, 116], [10, 7, 6, 6, 6, 5, 6, 9], 6, [55, 56, 78, 79, 83]⟩), [], [112, 1, 2, 3, 4, 7, 11, 20, 21, 22], [1]⟩,
   ⟨11, 41004, 8, (some 8), true, false, 9, 9, 90,
    (some ⟨9, 7, 10, [58, 108, 55, 72, 135, 73, 74, 116]⟩),
    (some ⟨1, [82, 131, 65, 112], [16, 9, 8, 10], 4, [82, 84, 86, 93]⟩), [55, 56, 78, 79, 83], [15, 8], [7]⟩,
   ⟨11, 41004, 1, (some 39), true, false, 25, 25, 250,
    (some ⟨8, 13, 90, [82, 131, 65, 112]⟩),
    (some ⟨2, [], [], 0, []⟩), [82, 84, 86, 93], [38, 41, 42, 47], [13]⟩,
   ⟨11, 41004, 2, (some 53), true, false, 26, 26, 260,
    (some ⟨1, 25, 250, []⟩),
    (some ⟨0, [102], [13], 1, [48, 52]⟩), [], [6, 7, 8, 14, 21], [25]⟩,
   ⟨11, 41004, 0, (some 18), true, false, 28, 28, 280,
    (some ⟨2, 27, 260, [102]⟩),
    none, [48, 52], [], [27]⟩]),
  (train_gt_94113, [
   ⟨12, 94113, 3, none, true, false, 7, 13, 130,
    none,
    (some ⟨1, [], [], 0, [66, 67, 85, 88, 90, 95]⟩), [], [], [7]⟩,
   ⟨12, 94113, 1, (some 10), true, false, 24, 24, 240,
    (some ⟨3, 13, 130, []⟩),
    (some ⟨8, [138, 141, 96, 118], [10, 9, 16, 9], 4, [9, 16]⟩), [66, 67, 85, 88, 90, 95], [66, 68, 70, 72, 74], [13]⟩,
   ⟨12, 94113, 8, (some 7), true, false, 30, 30, 300,
    (some ⟨1, 28, 240, [138, 141, 96, 118]⟩),
    (some ⟨9, [137, 69, 70, 134, 71, 129, 54, 136, 57], [29, 6, 5, 6, 7, 5, 7, 6, 9], 8, [2, 3, 14, 16]⟩), [9, 16], [54, 57, 84], [28]⟩,
   ⟨12, 94113, 9, (some 25), true, false, 41, 41, 410,
    (some ⟨8, 38, 300, [137, 69, 70, 134, 71, 129, 54, 136, 57]⟩),
    none, [2, 3, 14, 16], [], [38]⟩]),
  (train_gt_40673, [
   ⟨13, 40673, 0, (some 17), true, false, 14, 14, 140,
    none,
    (some ⟨2, [104], [14], 1, [5, 18]⟩), [], [47, 53], [14]⟩,
   ⟨13, 40673, 2, (some 52), true, false, 17, 50, 500,
    (some ⟨0, 15, 140, [104]⟩),
    (some ⟨1, [], [], 0, [39, 54, 55]⟩), [5, 18], [], [15]⟩,
   ⟨13, 40673, 1, (some 14), true, false, 30, 62, 620,
    (some ⟨2, 50, 500, []⟩),
    (some ⟨12, [83], [9], 1, [100]⟩), [39, 54, 55], [61, 64, 69, 71, 87, 92], [50]⟩,
   ⟨13, 40673, 12, (some 101), true, false, 33, 68, 680,
    (some ⟨1, 63, 620, [83]⟩),
    (some ⟨5, [139, 132, 42], [25, 25, 15], 6, [25, 26]⟩), [100], [415, 416, 417], [63]⟩,
   ⟨13, 40673, 5, (some 47), true, false, 42, 77, 770,
    (some ⟨12, 74, 680, [139, 132, 42]⟩),
    (some ⟨6, [77, 144, 119, 40, 86, 142, 87, 126, 30, 90, 91, 92, 93, 127], [15, 14, 8, 14, 13, 13, 7, 9, 15, 13, 9, 5, 7, 20], 16, [31, 33, 41]⟩), [25, 26], [10, 11, 14, 17, 20], [74]⟩,
   ⟨13, 40673, 6, (some 35), false, true, 58, 93, 930,
    (some ⟨5, 93, 770, [77, 144, 119, 40, 86, 142, 87, 126, 30, 90, 91, 92, 93, 127]⟩),
    none, [31, 33, 41], [], [93]⟩]),
  (train_gt_54101, [
   ⟨14, 54101, 0, (some 17), true, false, 24, 24, 240,
    none,
    (some ⟨2, [104], [12], 1, [5, 6, 7, 11, 17, 20, 23]⟩), [], [47, 53], [24]⟩,
   ⟨14, 54101, 2, (some 49), true, false, 27, 27, 270,
    (some ⟨0, 25, 240, [104]⟩),
    (some ⟨1, [], [], 0, [35, 51]⟩), [5, 6, 7, 11, 17, 20, 23], [], [25]⟩,
   ⟨14, 54101, 1, (some 11), false, true, 27, 27, 270,
    (some ⟨2, 27, 270, []⟩),
    none, [35, 51], [], [27]⟩]),
  (train_gt_541019, [
   ⟨15, 541019, 1, (some 11), true, true, 28, 32, 320,
    none,
    (some ⟨2, [], [], 0, []⟩), [], [35, 51], [27]⟩,
   ⟨15, 541019, 2, (some 49), true, false, 30, 34, 340,
    (some ⟨1, 32, 320, []⟩),
    (some ⟨4, [], [], 0, []⟩), [], [1, 9, 15, 21, 23], [32]⟩,
   ⟨15, 541019, 4, none, false, true, 30, 34, 340,
    (some ⟨2, 34, 340, []⟩),
    none, [], [], [34]⟩]),
  (train_gt_40477, [
   ⟨16, 40477, 2, none, true, false, 0, 19, 190,
    none,
    (some ⟨1, [], [], 0, [32, 33, 36, 67, 39, 54]⟩), [], [], [0]⟩,
   ⟨16, 40477, 1, (some 16), true, false, 29, 29, 290,
    (some ⟨2, 19, 190, []⟩),
    (some ⟨8, [138, 141, 96, 118], [10, 9, 26, 9], 5, [9, 16]⟩), [32, 33, 36, 67, 39, 54], [62, 64, 69, 70, 72, 74], [19]⟩,
   ⟨16, 40477, 8, (some 7), true, false, 36, 36, 360,
    (some ⟨1, 34, 290, [138, 141, 96, 118]⟩),
    (some ⟨9, [137, 69, 70, 134, 71, 129, 54, 136, 57], [29, 6, 5, 16, 7, 5, 7, 6, 9], 9, [2, 3, 14, 16]⟩), [9, 16], [54, 57, 84], [34]⟩,
   ⟨16, 40477, 9, (some 25), true, false, 55, 55, 550,
    (some ⟨8, 45, 360, [137, 69, 70, 134, 71, 129, 54, 136, 57]⟩),
    none, [2, 3, 14, 16], [], [45]⟩]),
  (train_gt_4500, [
   ⟨17, 4500, 6, (some 32), true, false, 7, 8, 80,
    none,
    (some ⟨5, [78, 79, 80, 81, 120, 31, 94, 95, 143, 128, 41, 85, 145, 125], [18, 7, 6, 8, 12, 20, 23, 5, 9, 11, 6, 11, 7, 14], 16, [10, 11, 14, 17, 19]⟩), [], [37, 36, 30, 22], [7]⟩,
   ⟨17, 4500, 5, (some 47), true, false, 25, 26, 260,
    (some ⟨6, 24, 80, [78, 79, 80, 81, 120, 31, 94, 95, 143, 128, 41, 85, 145, 125]⟩),
    (some ⟨12, [42, 132, 139], [25, 25, 25], 8, [416, 417]⟩), [10, 11, 14, 17, 19], [25, 26], [24]⟩,
   ⟨17, 4500, 12, (some 133), true, false, 34, 35, 350,
    (some ⟨5, 34, 260, [42, 132, 139]⟩),
    (some ⟨1, [122], [10], 1, [81, 85, 88, 91]⟩), [416, 417], [200], [34]⟩,
   ⟨17, 4500, 1, (some 11), true, false, 38, 39, 390,
    (some ⟨12, 36, 350, [122]⟩),
    (some ⟨2, [], [], 0, []⟩), [81, 85, 88, 91], [35, 51], [36]⟩,
   ⟨17, 4500, 2, (some 49), true, false, 39, 40, 400,
    (some ⟨1, 39, 390, []⟩),
    (some ⟨0, [102], [13], 1, [48, 52]⟩), [], [6, 7, 11, 17, 20, 23], [39]⟩,
   ⟨17, 4500, 0, (some 18), true, false, 41, 42, 420,
    (some ⟨2, 41, 400, [102]⟩),
    none, [48, 52], [], [41]⟩]),
  (train_gt_94317, [
   ⟨18, 94317, 0, (some 19), true, false, 39, 40, 400,
    none,
    (some ⟨2, [105], [14], 1, [7, 11, 13, 24]⟩), [], [42, 49, 51], [39]⟩,
   ⟨18, 94317, 2, (some 48), true, false, 42, 43, 430,
    (some ⟨0, 41, 400, [105]⟩),
    (some ⟨1, [], [], 0, [36, 67, 53, 55]⟩), [7, 11, 13, 24], [], [41]⟩,
   ⟨18, 94317, 1, (some 14), true, false, 50, 50, 500,
    (some ⟨2, 43, 430, []⟩),
    (some ⟨12, [83], [9], 1, [100]⟩), [36, 67, 53, 55], [61, 64, 69, 71, 87, 92], [43]⟩,
   ⟨18, 94317, 12, (some 101), true, false, 53, 58, 580,
    (some ⟨1, 51, 500, [83]⟩),
    (some ⟨5, [139, 132, 42], [25, 25, 15], 6, [25, 26]⟩), [100], [415, 416, 417], [51]⟩,
   ⟨18, 94317, 5, (some 47), true, false, 62, 67, 670,
    (some ⟨12, 64, 580, [139, 132, 42]⟩),
    (some ⟨7, [97], [24], 2, [1, 9]⟩), [25, 26], [10, 11, 14], [64]⟩,
   ⟨18, 94317, 7, (some 5), true, false, 66, 71, 710,
    (some ⟨5, 69, 670, [97]⟩),
    none, [1, 9], [], [69]⟩]),
  (train_gt_44717, [
   ⟨19, 44717, 2, none, true, false, 25, 25, 250,
    none,
    (some ⟨1, [], [], 0, [31, 33, 36, 52]⟩), [], [], [25]⟩,
   ⟨19, 44717, 1, (some 10), true, false, 36, 36, 360,
    (some ⟨2, 25, 250, []⟩),
    (some ⟨8, [138, 141, 96, 118], [10, 9, 26, 9], 5, [9, 16, 17]⟩), [31, 33, 36, 52], [66, 68, 70, 72, 74], [25]⟩,
   ⟨19, 44717, 8, (some 9), true, false, 43, 43, 430,
    (some ⟨1, 41, 360, [138, 141, 96, 118]⟩),
    (some ⟨11, [146, 114], [35, 15], 5, [1]⟩), [9, 16, 17], [42, 43, 53, 58, 85], [41]⟩,
   ⟨19, 44717, 11, (some 21), true, false, 51, 51, 510,
    (some ⟨8, 48, 430, [146, 114]⟩),
    (some ⟨10, [107], [19], 2, [1, 2]⟩), [1], [2], [48]⟩,
   ⟨19, 44717, 10, (some 23), true, false, 55, 55, 550,
    (some ⟨11, 53, 510, [107]⟩),
    none, [1, 2], [], [53]⟩]),
  (train_gt_64350, [
   ⟨20, 64350, 7, (some 6), true, false, 25, 25, 250,
    none,
    (some ⟨5, [98], [30], 3, [10, 11, 15]⟩), [], [2, 16], [25]⟩,
   ⟨20, 64350, 5, (some 47), true, false, 31, 31, 310,
    (some ⟨7, 28, 250, [98]⟩),
    (some ⟨12, [42, 132, 139], [25, 25, 25], 8, [416, 417]⟩), [10, 11, 15], [25, 26], [28]⟩,
   ⟨20, 64350, 12, (some 133), true, false, 41, 41, 410,
    (some ⟨5, 39, 310, [42, 132, 139]⟩),
    (some ⟨1, [122], [10], 1, [82, 84, 86, 89, 91]⟩), [416, 417], [200], [39]⟩,
   ⟨20, 64350, 1, (some 15), true, false, 45, 45, 450,
    (some ⟨12, 42, 410, [122]⟩),
    (some ⟨2, [], [], 0, []⟩), [82, 84, 86, 89, 91], [38, 41, 42], [42]⟩,
   ⟨20, 64350, 2, (some 53), true, false, 46, 46, 460,
    (some ⟨1, 45, 450, []⟩),
    (some ⟨0, [103], [18], 2, [41, 50]⟩), [], [8, 14, 21], [45]⟩,
   ⟨20, 64350, 0, (some 20), true, false, 50, 50, 500,
    (some ⟨2, 48, 460, [103]⟩),
    none, [41, 50], [], [48]⟩]),
  (train_gt_94717, [
   ⟨21, 94717, 2, none, true, false, 30, 36, 360,
    none,
    (some ⟨1, [], [], 0, [32, 33, 36, 52]⟩), [], [], [30]⟩,
   ⟨21, 94717, 1, (some 10), true, false, 47, 47, 470,
    (some ⟨2, 36, 360, []⟩),
    (some ⟨8, [138, 141, 96, 118], [10, 9, 26, 9], 5, [9, 16]⟩), [32, 33, 36, 52], [66, 68, 70, 72, 74], [36]⟩,
   ⟨21, 94717, 8, (some 7), true, false, 54, 54, 540,
    (some ⟨1, 52, 470, [138, 141, 96, 118]⟩),
    (some ⟨9, [137, 69, 70, 134, 71, 129, 54, 136, 57], [29, 6, 5, 16, 7, 5, 7, 6, 9], 9, [2, 3, 14, 16]⟩), [9, 16], [54, 57, 84], [52]⟩,
   ⟨21, 94717, 9, (some 25), true, false, 66, 66, 660,
    (some ⟨8, 63, 540, [137, 69, 70, 134, 71, 129, 54, 136, 57]⟩),
    none, [2, 3, 14, 16], [], [63]⟩]),
  (train_gt_44862, [
   ⟨22, 44862, 10, (some 24), true, false, 32, 32, 320,
    none,
    (some ⟨11, [107], [17], 2, [2]⟩), [], [1, 11], [32]⟩,
   ⟨22, 44862, 11, (some 22), true, false, 36, 36, 360,
    (some ⟨10, 34, 320, [107]⟩),
    (some ⟨8, [114, 146], [22, 24], 5, [55, 56, 78, 79, 83, 84, 85]⟩), [2], [1], [34]⟩,
   ⟨22, 44862, 8, (some 8), true, false, 42, 42, 420,
    (some ⟨11, 41, 360, [114, 146]⟩),
    (some ⟨1, [82, 131, 65, 112], [14, 15, 9, 10], 5, [82, 84, 86, 93]⟩), [55, 56, 78, 79, 83, 84, 85], [15, 8], [41]⟩,
   ⟨22, 44862, 1, (some 15), true, true, 50, 50, 500,
    (some ⟨8, 47, 420, [82, 131, 65, 112]⟩),
    (some ⟨2, [], [], 0, []⟩), [82, 84, 86, 93], [43, 42, 49], [47]⟩,
   ⟨22, 44862, 2, none, false, true, 50, 50, 500,
    (some ⟨1, 50, 500, []⟩),
    none, [], [], [50]⟩]),
  (train_gt_40628, [
   ⟨23, 40628, 6, (some 35), true, false, 16, 17, 170,
    none,
    (some ⟨5, [78, 79, 80, 81, 120, 31, 94, 95, 143, 128, 41, 85, 145, 125], [18, 7, 6, 8, 12, 20, 23, 5, 19, 11, 16, 11, 17, 14], 19, [10, 11, 14, 17, 19]⟩), [], [29, 24, 22], [16]⟩,
   ⟨23, 40628, 5, (some 47), true, false, 37, 41, 410,
    (some ⟨6, 36, 170, [78, 79, 80, 81, 120, 31, 94, 95, 143, 128, 41, 85, 145, 125]⟩),
    (some ⟨12, [42, 132, 139], [25, 25, 25], 8, [416, 417]⟩), [10, 11, 14, 17, 19], [25, 26], [36]⟩,
   ⟨23, 40628, 12, (some 133), true, false, 47, 51, 510,
    (some ⟨5, 49, 410, [42, 132, 139]⟩),
    (some ⟨1, [122], [10], 1, [81, 85, 88, 91]⟩), [416, 417], [200], [49]⟩,
   ⟨23, 40628, 1, (some 11), true, false, 51, 55, 550,
    (some ⟨12, 52, 510, [122]⟩),
    (some ⟨2, [], [], 0, []⟩), [81, 85, 88, 91], [35, 51], [52]⟩,
   ⟨23, 40628, 2, (some 49), true, false, 52, 56, 560,
    (some ⟨1, 55, 550, []⟩),
    (some ⟨0, [102], [18], 2, [48, 52]⟩), [], [6, 7, 11, 17, 20, 23], [55]⟩,
   ⟨23, 40628, 0, (some 18), true, false, 56, 60, 600,
    (some ⟨2, 58, 560, [102]⟩),
    none, [48, 52], [], [58]⟩]),
  (train_gt_40675, [
   ⟨24, 40675, 0, (some 17), true, false, 44, 49, 490,
    none,
    (some ⟨2, [104], [14], 1, [5, 18]⟩), [], [47, 53], [44]⟩,
   ⟨24, 40675, 2, (some 52), true, false, 47, 52, 520,
    (some ⟨0, 50, 490, [104]⟩),
    (some ⟨1, [], [], 0, [39, 54]⟩), [5, 18], [], [50]⟩,
   ⟨24, 40675, 1, (some 16), true, false, 55, 57, 570,
    (some ⟨2, 52, 520, []⟩),
    (some ⟨12, [83], [9], 1, [100]⟩), [39, 54], [62, 64, 69, 71, 87, 92], [52]⟩,
   ⟨24, 40675, 12, (some 101), true, false, 58, 63, 630,
    (some ⟨1, 58, 570, [83]⟩),
    (some ⟨5, [139, 132, 42], [25, 25, 15], 6, [25, 26]⟩), [100], [415, 416, 417], [58]⟩,
   ⟨24, 40675, 5, (some 47), true, false, 67, 72, 720,
    (some ⟨12, 69, 630, [139, 132, 42]⟩),
    (some ⟨6, [77, 144, 119, 40, 86, 142, 87, 126, 30, 90, 91, 92, 93, 127], [15, 14, 8, 14, 13, 13, 7, 9, 15, 13, 9, 5, 7, 20], 16, [31, 33, 41]⟩), [25, 26], [10, 11, 14, 17, 20], [69]⟩,
   ⟨24, 40675, 6, (some 35), false, true, 83, 88, 880,
    (some ⟨5, 88, 720, [77, 144, 119, 40, 86, 142, 87, 126, 30, 90, 91, 92, 93, 127]⟩),
    none, [31, 33, 41], [], [88]⟩]),
  (train_gt_73000, [
   ⟨25, 73000, 6, (some 34), true, false, 31, 31, 310,
    none,
    (some ⟨5, [78, 79, 80, 81, 120, 31, 94, 95, 143, 128, 41, 85, 145, 125], [18, 7, 6, 8, 12, 20, 23, 5, 9, 11, 6, 11, 7, 14], 16, [10, 11, 14, 17, 19]⟩), [], [30, 22], [31]⟩,
   ⟨25, 73000, 5, (some 47), true, false, 49, 49, 490,
    (some ⟨6, 47, 310, [78, 79, 80, 81, 120, 31, 94, 95, 143, 128, 41, 85, 145, 125]⟩),
    (some ⟨12, [42, 132, 139], [25, 25, 25], 8, [416, 417]⟩), [10, 11, 14, 17, 19], [25, 26], [47]⟩,
   ⟨25, 73000, 12, (some 133), true, false, 58, 58, 580,
    (some ⟨5, 57, 490, [42, 132, 139]⟩),
    (some ⟨1, [122], [10], 1, [81, 85, 88, 91]⟩), [416, 417], [200], [57]⟩,
   ⟨25, 73000, 1, (some 13), true, false, 62, 62, 620,
    (some ⟨12, 59, 580, [122]⟩),
    (some ⟨2, [], [], 0, []⟩), [81, 85, 88, 91], [35, 51, 56], [59]⟩,
   ⟨25, 73000, 2, (some 49), true, false, 63, 63, 630,
    (some ⟨1, 62, 620, []⟩),
    (some ⟨0, [103], [13], 1, [41, 50]⟩), [], [8, 14, 21, 23], [62]⟩,
   ⟨25, 73000, 0, (some 20), true, false, 65, 65, 650,
    (some ⟨2, 64, 630, [103]⟩),
    none, [41, 50], [], [64]⟩]),
  (train_gt_4120, [
   ⟨26, 4120, 9, (some 26), true, false, 41, 41, 410,
    none,
    (some ⟨8, [58, 108, 55, 72, 135, 73, 74, 116], [10, 7, 6, 6, 6, 5, 6, 9], 6, [55, 56, 78, 79, 83]⟩), [], [112, 1, 114, 15], [41]⟩,
   ⟨26, 4120, 8, (some 8), true, false, 49, 49, 490,
    (some ⟨9, 47, 410, [58, 108, 55, 72, 135, 73, 74, 116]⟩),
    (some ⟨1, [82, 131, 65, 112], [16, 9, 8, 10], 4, [82, 84, 86, 93]⟩), [55, 56, 78, 79, 83], [15, 8], [47]⟩,
   ⟨26, 4120, 1, (some 39), true, false, 60, 60, 600,
    (some ⟨8, 53, 490, [82, 131, 65, 112]⟩),
    (some ⟨2, [], [], 0, []⟩), [82, 84, 86, 93], [35, 40, 41, 42, 47], [53]⟩,
   ⟨26, 4120, 2, (some 49), true, false, 61, 61, 610,
    (some ⟨1, 60, 600, []⟩),
    (some ⟨0, [102], [13], 1, [48, 52]⟩), [], [6, 7, 11, 17, 20, 23], [60]⟩,
   ⟨26, 4120, 0, (some 18), true, false, 63, 63, 630,
    (some ⟨2, 62, 610, [102]⟩),
    none, [48, 52], [], [62]⟩])]

theorem real4Plan_sections : real4Plan.map Prod.fst = gt := rfl

theorem real4Plan_ok : netGt.PlanOK "16:00" real4Delays 40 netGtSpecial real4Plan :=
  gtPlan_ok.again rfl (by decide +kernel) (by decide +kernel) (by decide +kernel) (by decide +kernel)

theorem real4_cost : netGt.costOK real4Plan 313 = true := by decide +kernel

/-- the departures: train and station -/
def real4Nodes : List (Nat × Nat) := [
  (13, 0), (14, 0), (24, 2), (23, 6), (13, 5), (10, 6), (25, 5), (1, 12), (13, 1), (1, 2), (8, 0),
  (23, 5), (18, 12), (25, 12), (25, 1), (25, 2), (25, 0), (17, 5), (17, 12), (17, 1), (17, 2),
  (17, 0), (18, 5), (17, 6), (25, 6), (13, 12), (10, 5), (1, 5), (1, 6), (20, 5), (23, 12),
  (23, 1), (23, 2), (23, 0), (20, 12), (20, 1), (20, 2), (20, 0), (24, 12), (24, 5), (11, 0),
  (10, 2), (10, 0), (14, 2), (10, 1), (11, 2), (18, 7), (18, 1), (13, 2), (24, 1), (20, 7),
  (10, 12), (22, 8), (22, 1), (4, 2), (6, 0), (6, 2), (4, 1), (4, 0), (1, 1), (26, 1), (26, 2),
  (26, 0), (8, 2), (1, 0)]

/-- the choices -/
def real4Choices : List CodedNet.Choice := [
  .first 8 1 0, .first 8 13 0, .first 13 14 0, .first 8 1 2, .first 13 24 2, .first 10 23 6,
  .first 10 13 5, .against 1 25 12 5, .first 1 13 1, .first 10 23 5, .against 25 18 5 12,
  .first 17 25 5, .first 17 18 5, .first 25 18 5, .against 17 18 5 12, .against 25 18 6 5,
  .against 13 25 12 5, .against 1 10 12 5, .against 13 20 12 5, .first 13 17 5, .against 1 23 12 5,
  .against 23 13 5 12, .first 1 13 5, .first 1 13 12, .against 1 20 12 5, .against 1 17 12 5,
  .first 23 13 5, .against 23 18 5 12, .against 24 25 12 5, .against 23 24 5 12, .first 23 25 5,
  .first 23 25 6, .first 1 17 5, .first 10 11 0, .first 10 14 2, .first 24 18 12,
  .against 13 17 12 5, .first 13 18 1, .first 13 18 12, .against 1 17 5 6, .first 23 17 6,
  .first 17 20 5, .first 24 18 1, .first 23 17 5, .first 23 20 5, .first 13 24 5, .first 13 24 12,
  .first 24 25 5, .first 13 20 5, .first 20 25 5, .first 24 20 5, .against 23 18 6 5,
  .against 20 18 5 12, .against 24 20 12 5, .first 23 18 5, .first 20 25 2, .first 1 10 5,
  .against 10 13 5 12, .against 1 10 5 6, .first 10 17 5, .first 20 18 5, .first 10 17 6,
  .first 10 20 5, .first 22 20 1, .first 23 25 1, .against 13 20 5 7, .against 23 13 6 5,
  .first 1 23 5, .against 1 23 5 6, .first 1 20 5, .first 13 25 5, .first 1 25 5, .first 10 11 2,
  .against 10 14 2 0, .against 6 4 0 2, .first 6 4 2, .against 6 4 2 1, .against 10 14 1 2,
  .first 23 17 1, .against 24 25 5 6, .first 23 24 5, .first 23 26 1, .first 23 26 2]

/-- the inequalities -/
def real4Arcs : ArcTree :=
  .node ⟨.track, 4, 1, 0, 0, 6, false⟩ (.node ⟨.track, 6, 2, 0, 0, 14, false⟩ (.node
  ⟨.track, 5, 1, 0, 0, 24, false⟩ (.node ⟨.come, 16, 7, 8, 9, 0, false⟩ (.node
  ⟨.run, 0, 15, 16, 1, 0, false⟩ (.node ⟨.run, 0, 8, 28, 9, 0, false⟩ (.node
  ⟨.track, 65, 28, 24, 0, 16, false⟩ (.node ⟨.follow, 100, 7, 30, 5, 0, false⟩ .none .none) (.node
  ⟨.run, 0, 56, 57, 3, 0, false⟩ .none .none)) (.node ⟨.track, 84, 30, 24, 0, 16, false⟩ (.node
  ⟨.track, 128, 36, 53, 0, 5, false⟩ .none .none) .none)) (.node ⟨.come, 44, 26, 12, 7, 0, false⟩
  (.node ⟨.run, 0, 23, 47, 4, 0, false⟩ (.node ⟨.track, 113, 28, 6, 0, 19, false⟩ .none .none)
  (.node ⟨.track, 48, 26, 60, 0, 1, false⟩ .none .none)) (.node ⟨.track, 96, 7, 39, 0, 6, false⟩
  (.node ⟨.track, 135, 28, 4, 0, 19, false⟩ .none .none) .none))) (.node
  ⟨.run, 0, 24, 18, 18, 0, false⟩ (.node ⟨.run, 0, 12, 31, 10, 0, false⟩ (.node
  ⟨.track, 69, 42, 2, 0, 1, false⟩ (.node ⟨.come, 103, 4, 23, 20, 0, false⟩ .none .none) (.node
  ⟨.depart, 127, 54, 36, 1, 0, false⟩ .none .none)) (.node ⟨.follow, 83, 18, 30, 5, 0, false⟩
  (.node ⟨.leave, 131, 5, 51, 0, 2, false⟩ .none .none) .none)) (.node
  ⟨.track, 54, 5, 4, 0, 19, false⟩ (.node ⟨.track, 78, 13, 9, 0, 1, false⟩ (.node
  ⟨.leave, 117, 28, 6, 0, 18, false⟩ .none .none) (.node ⟨.depart, 163, 32, 61, 1, 0, false⟩ .none
  .none)) (.node ⟨.track, 40, 18, 26, 0, 6, false⟩ (.node ⟨.come, 133, 4, 5, 20, 0, false⟩ .none
  .none) .none)))) (.node ⟨.track, 20, 12, 6, 0, 19, false⟩ (.node ⟨.run, 0, 19, 20, 4, 0, false⟩
  (.node ⟨.come, 42, 12, 8, 9, 0, false⟩ (.node ⟨.track, 68, 41, 42, 0, 2, false⟩ (.node
  ⟨.come, 107, 39, 30, 7, 0, false⟩ .none .none) (.node ⟨.track, 151, 57, 58, 0, 0, false⟩ .none
  .none)) (.node ⟨.follow, 86, 48, 50, 1, 0, false⟩ (.node ⟨.follow, 119, 27, 18, 5, 0, false⟩
  .none .none) .none)) (.node ⟨.run, 0, 35, 36, 4, 0, false⟩ (.node
  ⟨.come, 43, 12, 26, 9, 0, false⟩ (.node ⟨.come, 116, 26, 27, 7, 0, false⟩ .none .none) (.node
  ⟨.come, 160, 25, 40, 17, 0, false⟩ .none .none)) (.node ⟨.come, 74, 18, 26, 9, 0, false⟩ (.node
  ⟨.track, 139, 28, 51, 0, 3, false⟩ .none .none) .none))) (.node
  ⟨.leave, 32, 23, 25, 0, 15, false⟩ (.node ⟨.follow, 48, 26, 8, 5, 0, false⟩ (.node
  ⟨.come, 59, 12, 39, 9, 0, false⟩ (.node ⟨.follow, 112, 16, 37, 1, 0, false⟩ .none .none) (.node
  ⟨.leave, 147, 42, 2, 0, 0, false⟩ .none .none)) (.node ⟨.come, 33, 26, 7, 7, 0, false⟩ (.node
  ⟨.come, 21, 7, 13, 9, 0, false⟩ .none .none) .none)) (.node ⟨.run, 0, 39, 40, 9, 0, false⟩ (.node
  ⟨.come, 80, 24, 28, 17, 0, false⟩ (.node ⟨.follow, 124, 24, 6, 4, 0, false⟩ .none .none) (.node
  ⟨.track, 2, 65, 0, 0, 6, false⟩ .none .none)) (.node ⟨.track, 98, 30, 26, 0, 6, false⟩ (.node
  ⟨.run, 0, 3, 50, 3, 0, false⟩ .none .none) .none))))) (.node ⟨.track, 14, 5, 6, 0, 19, false⟩
  (.node ⟨.track, 8, 10, 11, 0, 1, false⟩ (.node ⟨.follow, 24, 7, 18, 5, 0, false⟩ (.node
  ⟨.come, 38, 30, 26, 9, 0, false⟩ (.node ⟨.follow, 63, 4, 25, 5, 0, false⟩ (.node
  ⟨.come, 106, 13, 30, 7, 0, false⟩ .none .none) (.node ⟨.come, 149, 56, 55, 2, 0, false⟩ .none
  .none)) (.node ⟨.follow, 78, 13, 26, 5, 0, false⟩ (.node ⟨.track, 120, 18, 6, 0, 19, false⟩ .none
  .none) .none)) (.node ⟨.come, 49, 8, 30, 7, 0, false⟩ (.node ⟨.follow, 71, 39, 13, 5, 0, false⟩
  (.node ⟨.run, 0, 27, 52, 10, 0, false⟩ .none .none) (.node ⟨.track, 162, 40, 4, 0, 19, false⟩
  .none .none)) (.node ⟨.follow, 89, 12, 30, 5, 0, false⟩ (.node ⟨.leave, 137, 28, 4, 0, 18, false⟩
  .none .none) .none))) (.node ⟨.come, 30, 13, 18, 7, 0, false⟩ (.node
  ⟨.run, 0, 32, 33, 1, 0, false⟩ (.node ⟨.track, 67, 43, 46, 0, 1, false⟩ (.node
  ⟨.track, 101, 40, 51, 0, 3, false⟩ .none .none) (.node ⟨.leave, 155, 45, 44, 1, 0, false⟩ .none
  .none)) (.node ⟨.follow, 92, 40, 5, 3, 0, false⟩ (.node ⟨.come, 31, 25, 23, 17, 0, false⟩ .none
  .none) .none)) (.node ⟨.come, 56, 13, 12, 7, 0, false⟩ (.node ⟨.run, 0, 48, 13, 3, 0, false⟩
  (.node ⟨.track, 122, 23, 51, 0, 3, false⟩ .none .none) (.node ⟨.run, 0, 62, 63, 2, 0, false⟩
  .none .none)) (.node ⟨.come, 29, 18, 13, 9, 0, false⟩ (.node ⟨.track, 143, 28, 25, 0, 16, false⟩
  .none .none) .none)))) (.node ⟨.run, 0, 7, 14, 9, 0, false⟩ (.node ⟨.run, 0, 21, 22, 2, 0, false⟩
  (.node ⟨.track, 46, 5, 8, 0, 6, false⟩ (.node ⟨.track, 70, 44, 45, 0, 0, false⟩ (.node
  ⟨.come, 105, 30, 13, 9, 0, false⟩ .none .none) (.node ⟨.run, 0, 58, 55, 1, 0, false⟩ .none
  .none)) (.node ⟨.track, 87, 12, 24, 0, 16, false⟩ (.node ⟨.depart, 129, 32, 15, 1, 0, false⟩
  .none .none) .none)) (.node ⟨.run, 0, 37, 38, 4, 0, false⟩ (.node ⟨.run, 0, 49, 9, 3, 0, false⟩
  (.node ⟨.come, 115, 27, 26, 9, 0, false⟩ .none .none) (.node ⟨.track, 165, 33, 61, 0, 0, false⟩
  .none .none)) (.node ⟨.follow, 87, 12, 18, 5, 0, false⟩ (.node ⟨.track, 141, 5, 25, 0, 16, false⟩
  .none .none) .none))) (.node ⟨.come, 34, 7, 26, 9, 0, false⟩ (.node
  ⟨.come, 50, 30, 8, 9, 0, false⟩ (.node ⟨.come, 55, 12, 13, 9, 0, false⟩ (.node
  ⟨.come, 35, 8, 27, 7, 0, false⟩ .none .none) (.node ⟨.track, 158, 20, 31, 0, 1, false⟩ .none
  .none)) (.node ⟨.track, 91, 5, 39, 0, 6, false⟩ (.node ⟨.track, 136, 12, 8, 0, 6, false⟩ .none
  .none) .none)) (.node ⟨.follow, 64, 25, 4, 4, 0, false⟩ (.node ⟨.follow, 82, 24, 4, 4, 0, false⟩
  (.node ⟨.follow, 19, 27, 12, 5, 0, false⟩ .none .none) .none) (.node
  ⟨.run, 0, 51, 30, 5, 0, false⟩ (.node ⟨.follow, 146, 46, 42, 1, 0, false⟩ .none .none)
  .none)))))) (.node ⟨.track, 10, 3, 1, 0, 1, false⟩ (.node ⟨.track, 12, 4, 0, 11, 0, false⟩ (.node
  ⟨.track, 18, 9, 10, 0, 0, false⟩ (.node ⟨.run, 0, 16, 17, 2, 0, false⟩ (.node
  ⟨.run, 0, 28, 29, 15, 0, false⟩ (.node ⟨.track, 62, 7, 4, 0, 19, false⟩ (.node
  ⟨.leave, 104, 23, 4, 0, 18, false⟩ .none .none) (.node ⟨.track, 152, 55, 56, 0, 1, false⟩ .none
  .none)) (.node ⟨.follow, 88, 18, 12, 5, 0, false⟩ (.node ⟨.run, 0, 53, 54, 8, 0, false⟩ .none
  .none) .none)) (.node ⟨.come, 52, 18, 8, 9, 0, false⟩ (.node ⟨.follow, 72, 13, 39, 5, 0, false⟩
  (.node ⟨.run, 0, 6, 27, 21, 0, false⟩ .none .none) (.node ⟨.follow, 17, 60, 9, 1, 0, false⟩ .none
  .none)) (.node ⟨.track, 95, 40, 25, 0, 16, false⟩ (.node ⟨.come, 15, 8, 7, 7, 0, false⟩ .none
  .none) .none))) (.node ⟨.follow, 23, 18, 7, 5, 0, false⟩ (.node ⟨.run, 0, 31, 32, 4, 0, false⟩
  (.node ⟨.run, 0, 2, 44, 3, 0, false⟩ (.node ⟨.track, 109, 12, 13, 0, 6, false⟩ .none .none)
  (.node ⟨.come, 156, 44, 45, 1, 0, false⟩ .none .none)) (.node ⟨.follow, 90, 30, 12, 5, 0, false⟩
  (.node ⟨.track, 28, 23, 25, 0, 16, false⟩ .none .none) .none)) (.node
  ⟨.run, 0, 4, 12, 21, 0, false⟩ (.node ⟨.follow, 75, 9, 48, 1, 0, false⟩ (.node
  ⟨.follow, 120, 18, 27, 5, 0, false⟩ .none .none) (.node ⟨.run, 0, 61, 62, 1, 0, false⟩ .none
  .none)) (.node ⟨.track, 39, 5, 24, 0, 16, false⟩ (.node ⟨.track, 144, 7, 8, 0, 6, false⟩ .none
  .none) .none)))) (.node ⟨.come, 22, 13, 7, 7, 0, false⟩ (.node ⟨.run, 0, 20, 21, 1, 0, false⟩
  (.node ⟨.follow, 46, 5, 28, 5, 0, false⟩ (.node ⟨.run, 0, 42, 43, 4, 0, false⟩ (.node
  ⟨.track, 102, 30, 39, 0, 6, false⟩ .none .none) (.node ⟨.come, 153, 57, 58, 1, 0, false⟩ .none
  .none)) (.node ⟨.run, 0, 50, 39, 3, 0, false⟩ (.node ⟨.depart, 130, 15, 32, 1, 0, false⟩ .none
  .none) .none)) (.node ⟨.run, 0, 36, 37, 1, 0, false⟩ (.node ⟨.track, 76, 48, 49, 0, 0, false⟩
  (.node ⟨.track, 13, 27, 26, 0, 6, false⟩ .none .none) (.node ⟨.leave, 159, 40, 25, 0, 15, false⟩
  .none .none)) (.node ⟨.track, 88, 18, 4, 0, 19, false⟩ (.node ⟨.track, 142, 7, 26, 0, 6, false⟩
  .none .none) .none))) (.node ⟨.run, 0, 25, 7, 18, 0, false⟩ (.node
  ⟨.track, 45, 28, 26, 0, 6, false⟩ (.node ⟨.come, 57, 39, 7, 7, 0, false⟩ (.node
  ⟨.follow, 111, 37, 16, 2, 0, false⟩ .none .none) (.node ⟨.follow, 145, 42, 46, 2, 0, false⟩ .none
  .none)) (.node ⟨.follow, 94, 39, 26, 5, 0, false⟩ (.node ⟨.leave, 134, 5, 4, 0, 18, false⟩ .none
  .none) .none)) (.node ⟨.come, 60, 39, 12, 7, 0, false⟩ (.node ⟨.leave, 79, 28, 24, 0, 15, false⟩
  (.node ⟨.follow, 126, 30, 27, 5, 0, false⟩ .none .none) (.node ⟨.track, 1, 11, 0, 0, 0, false⟩
  .none .none)) (.node ⟨.track, 97, 5, 51, 0, 3, false⟩ (.node ⟨.follow, 91, 5, 40, 3, 0, false⟩
  .none .none) .none))))) (.node ⟨.track, 11, 6, 0, 0, 16, false⟩ (.node
  ⟨.track, 3, 11, 0, 0, 14, false⟩ (.node ⟨.run, 0, 18, 19, 9, 0, false⟩ (.node
  ⟨.run, 0, 26, 5, 9, 0, false⟩ (.node ⟨.follow, 61, 12, 7, 5, 0, false⟩ (.node
  ⟨.come, 108, 30, 39, 9, 0, false⟩ .none .none) (.node ⟨.leave, 154, 58, 57, 1, 0, false⟩ .none
  .none)) (.node ⟨.track, 71, 39, 48, 0, 1, false⟩ (.node ⟨.follow, 123, 6, 24, 5, 0, false⟩ .none
  .none) .none)) (.node ⟨.run, 0, 30, 35, 10, 0, false⟩ (.node ⟨.track, 53, 12, 26, 0, 6, false⟩
  (.node ⟨.run, 0, 52, 45, 4, 0, false⟩ .none .none) (.node ⟨.track, 161, 12, 39, 0, 6, false⟩
  .none .none)) (.node ⟨.follow, 81, 4, 24, 5, 0, false⟩ (.node ⟨.track, 140, 30, 8, 0, 6, false⟩
  .none .none) .none))) (.node ⟨.track, 25, 18, 13, 0, 6, false⟩ (.node
  ⟨.run, 0, 33, 34, 4, 0, false⟩ (.node ⟨.run, 0, 46, 41, 2, 0, false⟩ (.node
  ⟨.follow, 99, 30, 7, 5, 0, false⟩ .none .none) (.node ⟨.come, 148, 2, 42, 2, 0, false⟩ .none
  .none)) (.node ⟨.track, 92, 40, 26, 0, 6, false⟩ (.node ⟨.track, 27, 7, 13, 0, 6, false⟩ .none
  .none) .none)) (.node ⟨.come, 58, 7, 39, 9, 0, false⟩ (.node ⟨.follow, 77, 26, 13, 5, 0, false⟩
  (.node ⟨.track, 121, 30, 13, 0, 6, false⟩ .none .none) (.node ⟨.track, 7, 64, 65, 0, 1, false⟩
  .none .none)) (.node ⟨.come, 37, 26, 30, 7, 0, false⟩ (.node ⟨.follow, 9, 49, 3, 0, 0, false⟩
  .none .none) .none)))) (.node ⟨.run, 0, 14, 15, 4, 0, false⟩ (.node
  ⟨.track, 26, 23, 24, 0, 16, false⟩ (.node ⟨.come, 41, 8, 12, 7, 0, false⟩ (.node
  ⟨.run, 0, 45, 42, 1, 0, false⟩ (.node ⟨.track, 110, 23, 4, 0, 19, false⟩ .none .none) (.node
  ⟨.run, 0, 55, 59, 2, 0, false⟩ .none .none)) (.node ⟨.follow, 85, 50, 48, 1, 0, false⟩ (.node
  ⟨.come, 132, 51, 5, 4, 0, false⟩ .none .none) .none)) (.node ⟨.come, 51, 8, 18, 7, 0, false⟩
  (.node ⟨.run, 0, 9, 26, 3, 0, false⟩ (.node ⟨.come, 118, 6, 28, 20, 0, false⟩ .none .none) (.node
  ⟨.depart, 164, 61, 32, 1, 0, false⟩ .none .none)) (.node ⟨.come, 73, 26, 18, 7, 0, false⟩ (.node
  ⟨.track, 61, 12, 25, 0, 16, false⟩ .none .none) .none))) (.node ⟨.come, 36, 27, 8, 9, 0, false⟩
  (.node ⟨.follow, 47, 8, 26, 5, 0, false⟩ (.node ⟨.run, 0, 13, 23, 9, 0, false⟩ (.node
  ⟨.track, 114, 27, 8, 0, 6, false⟩ .none .none) (.node ⟨.track, 157, 32, 19, 0, 1, false⟩ .none
  .none)) (.node ⟨.follow, 93, 26, 39, 5, 0, false⟩ (.node ⟨.come, 138, 4, 28, 20, 0, false⟩ .none
  .none) .none)) (.node ⟨.track, 66, 18, 8, 0, 6, false⟩ (.node ⟨.follow, 84, 30, 18, 5, 0, false⟩
  (.node ⟨.follow, 125, 27, 30, 5, 0, false⟩ .none .none) .none) (.node
  ⟨.follow, 62, 7, 12, 5, 0, false⟩ (.node ⟨.leave, 150, 55, 56, 0, 0, false⟩ .none .none)
  .none))))))

/-- the bounds of the departures -/
def real4Times : TimeTree :=
  .node 18 0 18 (.node 32 0 72 (.node 65 0 105 (.node 67 0 107 (.node 80 0 120 (.node 65 0 105
  (.node 81 6 121 .none .none) .none) (.node 84 4 124 .none .none)) (.node 80 0 120 (.node 76 0 116
  .none .none) (.node 32 0 72 .none .none))) (.node 24 0 64 (.node 52 0 92 (.node 59 0 99 .none
  .none) (.node 43 0 83 .none .none)) (.node 28 0 68 (.node 47 4 87 .none .none) (.node 34 6 74
  .none .none)))) (.node 60 4 100 (.node 48 0 88 (.node 83 6 123 (.node 70 0 110 (.node 18 0 58
  .none .none) .none) (.node 35 0 75 .none .none)) (.node 49 0 89 (.node 46 6 86 .none .none)
  (.node 31 4 71 .none .none))) (.node 71 0 111 (.node 57 0 97 (.node 64 0 104 .none .none) (.node
  60 0 100 .none .none)) (.node 56 6 96 (.node 42 0 82 .none .none) (.node 78 0 118 .none
  .none))))) (.node 42 0 82 (.node 34 0 74 (.node 32 0 72 (.node 81 0 121 (.node 69 0 109 (.node 27
  0 67 .none .none) .none) (.node 68 0 108 .none .none)) (.node 25 0 65 (.node 85 4 125 .none
  .none) (.node 28 0 68 .none .none))) (.node 55 0 95 (.node 56 0 96 (.node 63 0 103 .none .none)
  (.node 38 0 78 .none .none)) (.node 41 0 81 (.node 45 6 85 .none .none) (.node 29 0 69 .none
  .none)))) (.node 7 0 47 (.node 21 0 61 (.node 43 0 83 (.node 74 4 114 .none .none) (.node 73 0
  113 .none .none)) (.node 51 0 91 (.node 43 0 83 .none .none) (.node 31 0 71 .none .none))) (.node
  76 0 116 (.node 59 7 99 (.node 68 4 108 .none .none) (.node 68 4 108 .none .none)) (.node 49 0 89
  (.node 44 0 84 .none .none) (.node 79 0 119 .none .none)))))

/-- some of the cases -/
def real4Case0 : SumTree :=
  .cases [118, 18, 19, 20, 21] 41 (.cases [103, 50, 51, 52, 53] 43 (.cases [] 26 (.cases [] 21
  (.leaf [83, 34, 118, 18, 121, 19, 78, 20, 79, 21]) (.cycle 26 [47, 82])) (.leaf
  [55, 56, 39, 117, 40, 18, 121, 41, 19, 78, 42, 20, 79, 21])) (.leaf [96, 39, 40, 41, 42]))
  (.cases [] 18 (.cases [122, 50, 94, 51, 18, 52, 19, 53, 20, 21] 11 (.leaf
  [24, 13, 171, 14, 78, 15, 79, 16]) (.leaf [17, 18, 121, 19, 78, 20, 79, 21])) (.cases [33, 34] 11
  (.cases [] 19 (.leaf [120, 23, 18, 24, 19, 171, 20, 78, 21, 79]) (.cycle 26 [118, 119])) (.leaf
  [17, 18, 121, 19, 78, 20, 79, 21])))

/-- some of the cases -/
def real4Case1 : SumTree :=
  .cases [115, 34] 41 (.cases [103, 50, 51, 52, 53] 21 (.cases [83, 34] 60 (.cases [] 47 (.leaf
  [112, 28, 13, 171, 14, 78, 15, 79, 16]) (.cases [] 52 (.cases [] 16 (.cases [107] 49 (.cases []
  48 (.leaf [124, 125, 50, 138, 51, 171, 52, 78, 53, 79]) (.cases [] 28 (.cycle 39 [76, 111])
  (.cases [] 18 (.cycle 26 [122, 123]) (.cases [] 44 (.leaf
  [113, 50, 33, 51, 34, 107, 52, 171, 58, 53, 78, 59, 79]) (.leaf
  [104, 83, 34, 107, 13, 171, 58, 14, 78, 59, 15, 79, 16]))))) (.leaf
  [127, 50, 133, 51, 78, 52, 79, 53])) (.cases [29, 34] 38 (.cases [90, 78, 79] 46 (.cases
  [110, 59] 35 (.cases [81, 78, 79] 44 (.leaf [113, 50, 51, 52, 53]) (.leaf [104, 39, 40, 41, 42]))
  (.cases [80, 59] 44 (.leaf [113, 50, 51, 52, 53]) (.leaf [104, 39, 40, 41, 42]))) (.cases
  [108, 34, 90, 78, 79] 44 (.leaf [113, 50, 51, 52, 53]) (.leaf [104, 39, 40, 41, 42]))) (.cases
  [97, 34] 37 (.cycle 13 [87, 88, 89]) (.cases [] 35 (.cycle 39 [98, 84, 186, 187, 100]) (.cases
  [80, 59] 46 (.cases [110, 59] 44 (.leaf [113, 50, 51, 52, 53]) (.leaf [104, 39, 40, 41, 42]))
  (.cases [108, 34] 44 (.leaf [113, 50, 51, 52, 53]) (.leaf [104, 39, 40, 41, 42]))))))) (.cycle 13
  [129, 154]))) (.leaf [153, 125, 50, 51, 52, 53])) (.cases [47, 39, 40, 41, 42] 60 (.cases [] 50
  (.leaf [137, 125, 50, 51, 52, 53]) (.cases [] 47 (.leaf [112, 28, 13, 14, 15, 16]) (.cases [] 52
  (.cases [] 53 (.cycle 39 [131, 132]) (.cases [] 44 (.cases
  [113, 50, 133, 130, 51, 78, 59, 52, 79, 53] 81 (.leaf [215, 216, 217]) (.cases [] 82 (.cycle 32
  [41, 213, 214]) (.cases [] 49 (.leaf [138, 171, 78, 79]) (.leaf
  [127, 50, 133, 130, 51, 78, 59, 52, 79, 53])))) (.cases [] 18 (.cases
  [122, 50, 104, 51, 39, 52, 40, 53, 41, 42] 30 (.leaf [66, 13, 171, 14, 78, 15, 79, 16]) (.cases
  [126, 39, 40, 41, 42] 54 (.cases [] 80 (.cases [] 27 (.cases [77, 78, 79] 29 (.leaf [75, 59])
  (.cycle 39 [60, 210])) (.cycle 13 [57, 136])) (.leaf [209, 56, 39, 136, 40, 78, 41, 79, 42]))
  (.leaf [134, 56, 39, 40, 41, 42]))) (.cases [33, 34, 47, 39, 40, 41, 42] 28 (.cycle 39 [76, 111])
  (.cases [] 30 (.leaf [66, 171, 58, 78, 59, 79]) (.cases [] 16 (.leaf [107, 13, 171, 58, 126, 14,
  78, 59, 39, 15, 79, 40, 16, 41, 42]) (.leaf [29, 34, 47, 39, 40, 41, 42]))))))) (.cycle 13
  [129, 154])))) (.leaf [153, 125, 50, 51, 52, 53]))) (.cases [94, 18, 115, 19, 34, 20, 21] 54
  (.cases [] 80 (.cases [] 27 (.cases [] 29 (.cases [] 43 (.cases [117, 18, 115, 19, 34, 20, 21] 38
  (.cases [] 70 (.leaf [181, 28, 171, 78, 79]) (.cases [] 16 (.cycle 26 [107, 180]) (.leaf
  [29, 34, 90, 78, 79]))) (.leaf [97, 34])) (.cases [96, 39, 40, 41, 42] 21 (.cases [83, 34] 70
  (.leaf [181, 28, 13, 171, 14, 78, 15, 79, 16]) (.cases [] 16 (.cycle 26 [107, 180]) (.cases
  [29, 34] 38 (.cases [90, 78, 79] 46 (.leaf [110, 59]) (.leaf [108, 34, 90, 78, 79])) (.cases
  [97, 34] 37 (.cycle 13 [87, 88, 89]) (.cases [] 45 (.leaf [188]) (.cases [] 46 (.cycle 26
  [110, 59, 106]) (.cases [] 35 (.cycle 39 [98, 84, 186, 187, 100]) (.leaf
  [80, 59, 108, 34])))))))) (.cases [47, 39, 75, 40, 59, 41, 42] 30 (.leaf [66, 171, 78, 79])
  (.leaf [126, 39, 77, 75, 40, 78, 59, 41, 79, 42])))) (.cycle 39 [60, 210])) (.cycle 13
  [57, 136])) (.leaf [209, 56, 39, 40, 41, 42])) (.leaf [134, 56, 39, 40, 41, 42]))

/-- some of the cases -/
def real4Case2 : SumTree :=
  .cases [158, 50, 51, 52, 53] 18 (.cases [122, 50, 51, 52, 53] 54 (.cases [] 80 (.cases [] 27
  (.cases [] 29 (.cases [] 44 (.cases [] 21 (.cases [83, 34, 122, 50, 51, 52, 53] 49 (.leaf
  [138, 13, 171, 14, 78, 15, 79, 16]) (.cases [] 52 (.cases [] 70 (.leaf
  [181, 28, 127, 50, 133, 51, 78, 52, 79, 53]) (.cases [] 16 (.cycle 26 [107, 180]) (.leaf
  [29, 34, 122, 50, 51, 52, 53]))) (.cases [129, 50, 51, 52, 53] 35 (.leaf
  [81, 78, 129, 79, 50, 51, 52, 53]) (.leaf [80, 59])))) (.cases
  [47, 39, 113, 40, 50, 41, 51, 42, 52, 53] 49 (.leaf [138, 13, 171, 14, 78, 15, 79, 16]) (.cases
  [127, 50, 51, 52, 53] 60 (.cases [] 50 (.leaf [137, 125, 50, 51, 52, 53]) (.cases [] 52 (.cases
  [133, 78, 79] 53 (.cycle 39 [131, 132]) (.leaf [130, 59])) (.cycle 13 [129, 154]))) (.leaf
  [153, 125, 50, 51, 52, 53])))) (.cases [104, 39, 77, 75, 40, 78, 59, 41, 79, 42] 55 (.leaf
  [140, 16]) (.cases [] 49 (.leaf [138, 13, 14, 15, 139, 53]) (.leaf
  [127, 50, 104, 51, 39, 75, 52, 40, 59, 53, 41, 42])))) (.cycle 39 [60, 210])) (.cycle 13
  [57, 136])) (.leaf [209, 56, 39, 40, 41, 42])) (.leaf [134, 56, 39, 40, 41, 42])) (.cases
  [33, 34] 51 (.cases [] 16 (.cases [107, 13, 14, 15, 16] 54 (.cases [] 27 (.cases [] 44 (.leaf
  [113, 50, 33, 51, 34, 107, 52, 13, 171, 53, 14, 78, 15, 79, 16]) (.cases [104, 39, 40, 41, 42] 30
  (.cases [] 26 (.cases [] 21 (.leaf [83, 34, 107, 13, 171, 14, 78, 15, 79, 16]) (.cycle 26
  [47, 82])) (.leaf [55, 56, 39, 66, 40, 171, 41, 78, 42, 79])) (.leaf
  [126, 39, 77, 40, 78, 41, 79, 42]))) (.cycle 13 [57, 136])) (.cycle 23 [134, 135])) (.cases
  [29, 34] 38 (.cases [90, 78, 79] 46 (.cases [110, 59] 44 (.cases [113, 50, 51, 52, 53] 35 (.cases
  [81, 78, 79] 75 (.cases [] 76 (.leaf [196, 197, 198]) (.cycle 58 [194, 195])) (.leaf [192, 191]))
  (.cases [80, 59] 75 (.cases [] 76 (.leaf [196, 197, 198]) (.cycle 58 [194, 195])) (.leaf
  [192, 191]))) (.cases [104, 39, 40, 41, 42] 35 (.cases [81, 78, 79] 75 (.cases [] 76 (.leaf
  [196, 197, 198]) (.cycle 58 [194, 195])) (.leaf [192, 191])) (.cases [80, 59] 75 (.cases [] 76
  (.leaf [196, 197, 198]) (.cycle 58 [194, 195])) (.leaf [192, 191])))) (.cases
  [108, 34, 90, 78, 79] 44 (.cases [113, 50, 51, 52, 53] 75 (.cases [] 76 (.leaf [196, 197, 198])
  (.cycle 58 [194, 195])) (.leaf [192, 191])) (.cases [104, 39, 40, 41, 42] 75 (.cases [] 76 (.leaf
  [196, 197, 198]) (.cycle 58 [194, 195])) (.leaf [192, 191])))) (.cases [97, 34] 37 (.cycle 13
  [87, 88, 89]) (.cases [] 35 (.cycle 39 [98, 84, 186, 187, 100]) (.cases [80, 59] 44 (.cases
  [113, 50, 51, 52, 53] 46 (.cases [110, 59] 75 (.cases [] 76 (.leaf [196, 197, 198]) (.cycle 58
  [194, 195])) (.leaf [192, 191])) (.cases [108, 34] 75 (.cases [] 76 (.leaf [196, 197, 198])
  (.cycle 58 [194, 195])) (.leaf [192, 191]))) (.cases [104, 39, 40, 41, 42] 46 (.cases [110, 59]
  75 (.cases [] 76 (.leaf [196, 197, 198]) (.cycle 58 [194, 195])) (.leaf [192, 191])) (.cases
  [108, 34] 75 (.cases [] 76 (.leaf [196, 197, 198]) (.cycle 58 [194, 195])) (.leaf
  [192, 191])))))))) (.leaf [128, 56, 39, 40, 41, 42]))

/-- some of the cases -/
def real4Case3 : SumTree :=
  .cases [156, 145, 157, 149, 146, 39, 34, 70, 40, 68, 41, 42] 79 (.leaf
  [212, 28, 13, 171, 14, 78, 15, 79, 16]) (.cases [] 16 (.cases [107, 171, 78, 79] 54 (.cases [] 80
  (.cases [] 47 (.cycle 40 [112, 211]) (.cases [] 27 (.cases [] 29 (.cases [] 21 (.cases
  [83, 34, 107, 13, 171, 14, 78, 15, 79, 16] 35 (.cases [] 28 (.cycle 39 [76, 111]) (.leaf
  [58, 59, 81, 78, 79])) (.leaf [80, 59])) (.cases [47, 39, 40, 41, 42] 28 (.cycle 39 [76, 111])
  (.cases [] 30 (.leaf [66, 13, 171, 58, 14, 78, 59, 15, 79, 16]) (.leaf
  [126, 39, 77, 75, 40, 78, 59, 41, 79, 42])))) (.cycle 39 [60, 210])) (.cycle 13 [57, 136])))
  (.leaf [209, 56, 39, 136, 40, 78, 41, 79, 42])) (.leaf [134, 56, 39, 40, 41, 42])) (.cases
  [29, 34] 38 (.cases [90, 78, 79] 46 (.cases [110, 59] 35 (.cases [81, 78, 79] 32 (.cases [] 74
  (.cases [] 76 (.cases [196, 197, 198] 39 (.leaf [92, 23, 18, 19, 20, 21]) (.cycle 24 [91, 63]))
  (.cases [] 75 (.cycle 58 [194, 195]) (.cycle 55 [192, 193]))) (.leaf [190, 191])) (.cycle 18
  [62, 54])) (.cases [80, 59] 32 (.cases [] 74 (.cases [] 76 (.cases [196, 197, 198] 39 (.leaf
  [92, 23, 18, 19, 20, 21]) (.cycle 24 [91, 63])) (.cases [] 75 (.cycle 58 [194, 195]) (.cycle 55
  [192, 193]))) (.leaf [190, 191])) (.cycle 18 [62, 54]))) (.cases [108, 34, 90, 78, 79] 32 (.cases
  [] 74 (.cases [] 76 (.cases [196, 197, 198] 39 (.leaf [92, 23, 18, 19, 20, 21]) (.cycle 24
  [91, 63])) (.cases [] 75 (.cycle 58 [194, 195]) (.cycle 55 [192, 193]))) (.leaf [190, 191]))
  (.cycle 18 [62, 54]))) (.cases [97, 34] 37 (.cycle 13 [87, 88, 89]) (.cases [] 35 (.cycle 39
  [98, 84, 186, 187, 100]) (.cases [80, 59] 46 (.cases [110, 59] 32 (.cases [] 74 (.cases [] 76
  (.cases [196, 197, 198] 39 (.leaf [92, 23, 18, 19, 20, 21]) (.cycle 24 [91, 63])) (.cases [] 75
  (.cycle 58 [194, 195]) (.cycle 55 [192, 193]))) (.leaf [190, 191])) (.cycle 18 [62, 54])) (.cases
  [108, 34] 32 (.cases [] 74 (.cases [] 76 (.cases [196, 197, 198] 39 (.leaf
  [92, 23, 18, 19, 20, 21]) (.cycle 24 [91, 63])) (.cases [] 75 (.cycle 58 [194, 195]) (.cycle 55
  [192, 193]))) (.leaf [190, 191])) (.cycle 18 [62, 54])))))))

/-- some of the cases -/
def real4Case4 : SumTree :=
  .cases [] 48 (.cases [] 38 (.cases [] 65 (.cases [167, 125, 50, 51, 52, 53] 21 (.cases
  [83, 34, 167, 125, 50, 51, 52, 53] 22 (.cases [] 23 (.cases [] 47 (.leaf
  [112, 28, 13, 171, 14, 78, 15, 79, 16]) (.cases [] 20 (.cases [] 16 (.cases
  [107, 13, 171, 14, 78, 15, 16] 67 (.cases [] 60 (.cases [] 25 (.cases [54, 18, 19, 20, 21] 28
  (.cycle 39 [76, 111]) (.cases [58, 59] 49 (.leaf [138, 171, 58, 78, 59, 79]) (.cases [] 50 (.leaf
  [137]) (.cases [] 52 (.cases [133, 78, 79] 53 (.cycle 39 [131, 132]) (.leaf [130, 59])) (.cycle
  13 [129, 154]))))) (.leaf [48, 31, 32, 175, 56, 83, 34, 107, 13, 171, 14, 78, 15, 79, 16]))
  (.leaf [153])) (.cycle 12 [173, 38])) (.leaf [29, 34, 90, 167, 78, 125, 79, 50, 51, 52, 53]))
  (.leaf [35, 31, 176, 46, 32, 13, 171, 34, 14, 78, 15, 79, 16]))) (.cycle 26 [43, 31, 44])) (.leaf
  [36, 37, 32, 176, 171, 78, 79])) (.cases [] 11 (.cases [] 26 (.cycle 26 [47, 82]) (.cases [] 66
  (.cycle 5 [55, 183]) (.cases [172, 56, 39, 40, 41, 42] 41 (.cases [] 43 (.leaf
  [117, 18, 103, 19, 50, 20, 51, 21, 52, 53]) (.cases [] 36 (.cases [118, 18, 19, 20, 21] 60
  (.cases [] 54 (.cases [] 52 (.cases [] 27 (.cases [] 19 (.cases [120, 23, 18, 103, 96, 19, 50,
  39, 20, 51, 40, 21, 52, 41, 53, 42] 44 (.leaf [113, 50, 133, 51, 78, 52, 79, 53]) (.leaf
  [104, 39, 77, 40, 78, 41, 79, 42])) (.cycle 26 [118, 119])) (.cycle 13 [57, 136])) (.cycle 13
  [129, 154])) (.leaf [134, 56, 39, 40, 41, 42])) (.leaf [153, 125, 50, 51, 52, 53])) (.cases
  [115, 34, 172, 56, 39, 40, 41, 42] 25 (.cases [] 32 (.cases [63, 23, 18, 115, 19, 34, 20, 167,
  172, 21, 125, 56, 50, 39, 51, 40, 52, 41, 53, 42] 60 (.cases [] 50 (.leaf
  [137, 125, 50, 154, 51, 78, 52, 79, 53]) (.cases [] 47 (.leaf [112, 28, 171, 78, 79]) (.cases []
  28 (.cycle 39 [76, 111]) (.cases [] 35 (.cases [] 53 (.cycle 39 [131, 132]) (.cases [] 49 (.leaf
  [138, 58, 59, 81, 78, 79]) (.leaf [127, 50, 130, 51, 59, 81, 52, 78, 53, 79]))) (.cases [] 52
  (.cases [] 49 (.leaf [138, 171, 78, 80, 79, 59]) (.leaf
  [127, 50, 133, 51, 78, 80, 52, 79, 59, 53])) (.cycle 13 [129, 154])))))) (.leaf
  [153, 125, 50, 51, 52, 53])) (.cycle 8 [54, 62])) (.cases [48, 31, 32] 60 (.cases [] 50 (.leaf
  [137, 125, 50, 154, 51, 78, 52, 79, 53]) (.cases [] 52 (.cases [] 53 (.cycle 39 [131, 132])
  (.cases [] 23 (.leaf [46, 34, 167, 172, 125, 56, 50, 133, 130, 39, 51, 78, 59, 40, 52, 79, 41,
  53, 42]) (.cycle 26 [207, 208, 86]))) (.cycle 13 [129, 154]))) (.leaf
  [153, 125, 50, 51, 52, 53]))))) (.leaf [94, 18, 24, 19, 171, 20, 78, 21, 79])))) (.leaf
  [17, 18, 121, 19, 78, 20, 79, 21]))) (.cycle 5 [124, 166])) (.leaf [97, 34, 124])) (.cycle 26
  [122, 123])

/-- some of the cases -/
def real4Case5 : SumTree :=
  .cases [] 22 (.cases [] 23 (.cases [] 36 (.cycle 26 [118, 119]) (.cases [] 70 (.cases [] 20
  (.cases [] 25 (.cases [] 32 (.cases [63, 23, 18, 19, 20, 21] 28 (.cases
  [76, 13, 171, 14, 78, 15, 79, 16] 41 (.leaf [103, 50, 51, 52, 53]) (.leaf [94, 18, 19, 20, 21]))
  (.cases [] 43 (.leaf [117, 18, 115, 19, 34, 20, 181, 21, 28, 171, 58, 78, 59, 79]) (.cases [] 41
  (.cases [103] 35 (.cases [] 44 (.leaf [113, 50, 33, 51, 34, 52, 181, 53, 28, 58, 59, 81, 78, 79])
  (.leaf [104, 83, 34, 181, 28, 13, 58, 14, 59, 81, 15, 78, 16, 79])) (.cases [] 44 (.leaf
  [113, 50, 33, 51, 34, 52, 181, 53, 28, 171, 78, 80, 79, 59]) (.leaf
  [104, 83, 34, 181, 28, 13, 171, 14, 78, 80, 15, 79, 59, 16]))) (.leaf [94, 18, 96, 19, 83, 20,
  34, 21, 181, 28, 13, 171, 14, 78, 15, 79, 16])))) (.cycle 8 [54, 62])) (.leaf
  [48, 31, 38, 32, 83, 34, 181, 28, 13, 171, 14, 78, 15, 79, 16])) (.leaf
  [35, 31, 46, 32, 34, 181, 28, 171, 78, 79])) (.cycle 26 [107, 180]))) (.cycle 26 [43, 31, 44]))
  (.leaf [36, 37, 32, 176, 171, 78, 79])

/-- some of the cases -/
def real4Case6 : SumTree :=
  .cases [114, 23, 18, 103, 19, 50, 20, 51, 21, 52, 53] 78 (.leaf [206, 19, 20, 21]) (.leaf
  [205, 40, 41, 42])

/-- some of the cases -/
def real4Case7 : SumTree :=
  .cases [110, 59] 35 (.cases [81, 78, 79] 44 (.cases [113, 50, 51, 52, 53] 33 (.leaf [73, 74])
  (.cases [67, 68] 34 (.leaf [71, 72]) (.leaf [69, 70, 68]))) (.cases [104, 39, 40, 41, 42] 72
  (.cases [204, 74] 77 (.cases [] 63 (.cases [199, 52, 53] 34 (.cases [] 74 (.cases [] 33 (.cases
  [73, 74] 75 (.cases [] 76 (.cases [196, 197, 198] 73 (.leaf [203, 72]) (.cycle 2 [202, 71]))
  (.cycle 58 [194, 195])) (.cycle 55 [192, 193])) (.cycle 42 [204, 74, 67])) (.leaf [190, 191]))
  (.cycle 44 [69, 201])) (.cases [159, 160] 33 (.cases [73, 74] 75 (.cases [] 76 (.leaf
  [196, 197, 198]) (.cycle 58 [194, 195])) (.leaf [192, 191])) (.cycle 42 [204, 74, 67]))) (.leaf
  [200, 70, 204, 74])) (.cases [189, 68] 73 (.leaf [203, 72]) (.cases [] 34 (.cycle 42 [71, 202])
  (.cases [69, 70, 68] 74 (.cases [] 63 (.cases [199, 52, 53] 75 (.cases [] 76 (.cases
  [196, 197, 198] 77 (.cycle 44 [69, 201]) (.leaf [200, 70, 68])) (.cycle 58 [194, 195])) (.cycle
  55 [192, 193])) (.cases [159, 160] 75 (.cases [] 76 (.leaf [196, 197, 198]) (.cycle 58
  [194, 195])) (.cycle 55 [192, 193]))) (.leaf [190, 191])))))) (.cases [80, 59] 44 (.cases
  [113, 50, 51, 52, 53] 33 (.leaf [73, 74]) (.cases [67, 68] 34 (.leaf [71, 72]) (.leaf
  [69, 70, 68]))) (.cases [104, 39, 40, 41, 42] 72 (.cases [204, 74] 77 (.cases [] 63 (.cases
  [199, 52, 53] 34 (.cases [] 74 (.cases [] 33 (.cases [73, 74] 75 (.cases [] 76 (.cases
  [196, 197, 198] 73 (.leaf [203, 72]) (.cycle 2 [202, 71])) (.cycle 58 [194, 195])) (.cycle 55
  [192, 193])) (.cycle 42 [204, 74, 67])) (.leaf [190, 191])) (.cycle 44 [69, 201])) (.cases
  [159, 160] 33 (.cases [73, 74] 75 (.cases [] 76 (.leaf [196, 197, 198]) (.cycle 58 [194, 195]))
  (.leaf [192, 191])) (.cycle 42 [204, 74, 67]))) (.leaf [200, 70, 204, 74])) (.cases [189, 68] 73
  (.leaf [203, 72]) (.cases [] 34 (.cycle 42 [71, 202]) (.cases [69, 70, 68] 74 (.cases [] 63
  (.cases [199, 52, 53] 75 (.cases [] 76 (.cases [196, 197, 198] 77 (.cycle 44 [69, 201]) (.leaf
  [200, 70, 68])) (.cycle 58 [194, 195])) (.cycle 55 [192, 193])) (.cases [159, 160] 75 (.cases []
  76 (.leaf [196, 197, 198]) (.cycle 58 [194, 195])) (.cycle 55 [192, 193]))) (.leaf
  [190, 191]))))))

/-- some of the cases -/
def real4Case8 : SumTree :=
  .cases [108, 34, 90, 78, 79] 44 (.cases [113, 50, 51, 52, 53] 33 (.leaf [73, 74]) (.cases
  [67, 68] 34 (.leaf [71, 72]) (.leaf [69, 70, 68]))) (.cases [104, 39, 40, 41, 42] 72 (.cases
  [204, 74] 77 (.cases [] 63 (.cases [199, 52, 53] 34 (.cases [] 74 (.cases [] 33 (.cases [73, 74]
  75 (.cases [] 76 (.cases [196, 197, 198] 73 (.leaf [203, 72]) (.cycle 2 [202, 71])) (.cycle 58
  [194, 195])) (.cycle 55 [192, 193])) (.cycle 42 [204, 74, 67])) (.leaf [190, 191])) (.cycle 44
  [69, 201])) (.cases [159, 160] 33 (.cases [73, 74] 75 (.cases [] 76 (.leaf [196, 197, 198])
  (.cycle 58 [194, 195])) (.leaf [192, 191])) (.cycle 42 [204, 74, 67]))) (.leaf
  [200, 70, 204, 74])) (.cases [189, 68] 73 (.leaf [203, 72]) (.cases [] 34 (.cycle 42 [71, 202])
  (.cases [69, 70, 68] 74 (.cases [] 63 (.cases [199, 52, 53] 75 (.cases [] 76 (.cases
  [196, 197, 198] 77 (.cycle 44 [69, 201]) (.leaf [200, 70, 68])) (.cycle 58 [194, 195])) (.cycle
  55 [192, 193])) (.cases [159, 160] 75 (.cases [] 76 (.leaf [196, 197, 198]) (.cycle 58
  [194, 195])) (.cycle 55 [192, 193]))) (.leaf [190, 191])))))

/-- some of the cases -/
def real4Case9 : SumTree :=
  .cases [97, 34] 37 (.cycle 13 [87, 88, 89]) (.cases [] 35 (.cycle 39 [98, 84, 186, 187, 100])
  (.cases [80, 59] 46 (.cases [110, 59] 44 (.cases [113, 50, 51, 52, 53] 33 (.leaf [73, 74])
  (.cases [67, 68] 34 (.leaf [71, 72]) (.leaf [69, 70, 68]))) (.cases [104, 39, 40, 41, 42] 72
  (.cases [204, 74] 77 (.cases [] 63 (.cases [199, 52, 53] 34 (.cases [] 74 (.cases [] 33 (.cases
  [73, 74] 75 (.cases [] 76 (.cases [196, 197, 198] 73 (.leaf [203, 72]) (.cycle 2 [202, 71]))
  (.cycle 58 [194, 195])) (.cycle 55 [192, 193])) (.cycle 42 [204, 74, 67])) (.leaf [190, 191]))
  (.cycle 44 [69, 201])) (.cases [159, 160] 33 (.cases [73, 74] 75 (.cases [] 76 (.leaf
  [196, 197, 198]) (.cycle 58 [194, 195])) (.leaf [192, 191])) (.cycle 42 [204, 74, 67]))) (.leaf
  [200, 70, 204, 74])) (.cases [189, 68] 73 (.leaf [203, 72]) (.cases [] 34 (.cycle 42 [71, 202])
  (.cases [69, 70, 68] 74 (.cases [] 63 (.cases [199, 52, 53] 75 (.cases [] 76 (.cases
  [196, 197, 198] 77 (.cycle 44 [69, 201]) (.leaf [200, 70, 68])) (.cycle 58 [194, 195])) (.cycle
  55 [192, 193])) (.cases [159, 160] 75 (.cases [] 76 (.leaf [196, 197, 198]) (.cycle 58
  [194, 195])) (.cycle 55 [192, 193]))) (.leaf [190, 191])))))) (.cases [108, 34] 44 (.cases
  [113, 50, 51, 52, 53] 33 (.leaf [73, 74]) (.cases [67, 68] 34 (.leaf [71, 72]) (.leaf
  [69, 70, 68]))) (.cases [104, 39, 40, 41, 42] 72 (.cases [204, 74] 77 (.cases [] 63 (.cases
  [199, 52, 53] 34 (.cases [] 74 (.cases [] 33 (.cases [73, 74] 75 (.cases [] 76 (.cases
  [196, 197, 198] 73 (.leaf [203, 72]) (.cycle 2 [202, 71])) (.cycle 58 [194, 195])) (.cycle 55
  [192, 193])) (.cycle 42 [204, 74, 67])) (.leaf [190, 191])) (.cycle 44 [69, 201])) (.cases
  [159, 160] 33 (.cases [73, 74] 75 (.cases [] 76 (.leaf [196, 197, 198]) (.cycle 58 [194, 195]))
  (.leaf [192, 191])) (.cycle 42 [204, 74, 67]))) (.leaf [200, 70, 204, 74])) (.cases [189, 68] 73
  (.leaf [203, 72]) (.cases [] 34 (.cycle 42 [71, 202]) (.cases [69, 70, 68] 74 (.cases [] 63
  (.cases [199, 52, 53] 75 (.cases [] 76 (.cases [196, 197, 198] 77 (.cycle 44 [69, 201]) (.leaf
  [200, 70, 68])) (.cycle 58 [194, 195])) (.cycle 55 [192, 193])) (.cases [159, 160] 75 (.cases []
  76 (.leaf [196, 197, 198]) (.cycle 58 [194, 195])) (.cycle 55 [192, 193]))) (.leaf
  [190, 191]))))))))

/-- some of the cases -/
def real4Case10 : SumTree :=
  .cases [94, 18, 19, 20, 21] 43 (.cases [117, 18, 19, 20, 21] 38 (.cases [90, 78, 79] 35 (.cases
  [] 46 (.leaf [110, 59, 81, 78, 79]) (.leaf [108, 34, 90, 78, 79])) (.leaf [80, 59])) (.cases
  [97, 34] 45 (.leaf [188]) (.cases [] 46 (.cycle 26 [110, 59, 106]) (.cases [] 37 (.cycle 13
  [87, 88, 89]) (.cases [] 35 (.cycle 39 [98, 84, 186, 187, 100]) (.leaf [80, 59, 108, 34]))))))
  (.cases [96, 39, 40, 41, 42] 38 (.cases [90, 78, 79] 46 (.cases [110, 59] 35 (.cases [81, 78, 79]
  33 (.leaf [73, 74]) (.cases [67, 68] 34 (.leaf [71, 72]) (.leaf [69, 70, 68]))) (.cases [80, 59]
  33 (.leaf [73, 74]) (.cases [67, 68] 34 (.leaf [71, 72]) (.leaf [69, 70, 68])))) (.cases
  [108, 34, 90, 78, 79] 33 (.leaf [73, 74]) (.cases [67, 68] 34 (.leaf [71, 72]) (.leaf
  [69, 70, 68])))) (.cases [97, 34] 37 (.cycle 13 [87, 88, 89]) (.cases [] 35 (.cycle 39
  [98, 84, 186, 187, 100]) (.cases [80, 59] 46 (.cases [110, 59] 33 (.leaf [73, 74]) (.cases
  [67, 68] 34 (.leaf [71, 72]) (.leaf [69, 70, 68]))) (.cases [108, 34] 33 (.leaf [73, 74]) (.cases
  [67, 68] 34 (.leaf [71, 72]) (.leaf [69, 70, 68])))))))

/-- some of the cases -/
def real4Case11 : SumTree :=
  .cases [48, 31, 32] 38 (.cases [90, 78, 79] 69 (.leaf [179, 125, 50, 51, 52, 53]) (.cases [] 71
  (.cases [] 20 (.cases [] 24 (.cycle 8 [49, 178]) (.leaf
  [45, 31, 38, 32, 185, 39, 28, 40, 29, 41, 34, 90, 42, 78, 79])) (.leaf
  [35, 31, 32, 185, 28, 29, 34])) (.cycle 7 [184, 176]))) (.cases [97, 34] 69 (.leaf
  [179, 125, 50, 51, 52, 53]) (.cases [] 20 (.cases [] 24 (.cycle 8 [49, 178]) (.leaf
  [45, 31, 38, 32, 39, 40, 41, 42])) (.leaf [35, 31, 176, 32, 171, 97, 34])))

/-- some of the cases -/
def real4Case12 : SumTree :=
  .cases [47, 39, 40, 41, 42] 11 (.cases [] 20 (.cases [] 26 (.cycle 26 [47, 82]) (.cases
  [55, 56, 39, 40, 41, 42] 43 (.leaf [117, 18, 19, 20, 21]) (.cases [] 40 (.cycle 4 [114, 23, 116])
  (.cases [] 19 (.leaf [120, 23, 93, 18, 56, 19, 39, 20, 40, 21, 41, 42]) (.cases [] 66 (.cycle 5
  [55, 183]) (.cases [172, 56, 39, 40, 41, 42] 31 (.cases [65, 28, 171, 78, 79] 22 (.cases [] 23
  (.cases [] 24 (.cases [] 36 (.cycle 26 [118, 119]) (.cases [] 30 (.cases [] 41 (.cases [] 25
  (.cases [] 32 (.leaf [63, 23, 18, 103, 19, 33, 20, 34, 21, 172, 56, 39, 66, 40, 13, 171, 41, 14,
  78, 42, 15, 79, 16]) (.cycle 8 [54, 62])) (.leaf [48, 31, 49, 32, 50, 33, 51, 34, 52, 172, 53,
  56, 39, 40, 41, 42])) (.leaf [94, 18, 115, 19, 34, 20, 172, 21, 56, 39, 66, 40, 13, 41, 14, 42,
  15, 16])) (.cycle 4 [65, 28, 64]))) (.leaf [45, 31, 46, 32, 34, 172, 56, 65, 39, 28, 40, 171, 41,
  78, 42, 79])) (.cycle 26 [43, 31, 44])) (.leaf [36, 32])) (.cases [] 67 (.cases [] 68 (.cases []
  27 (.cases [] 22 (.cases [] 23 (.cases [] 36 (.cycle 26 [118, 119]) (.cases [] 25 (.cases [] 32
  (.cases [63, 23, 18, 19, 20, 21] 29 (.cases [] 30 (.cycle 25 [61, 56, 182]) (.cases [] 16 (.cases
  [] 41 (.cases [103, 33, 34] 70 (.leaf [181, 61, 56, 39, 77, 75, 40, 78, 59, 41, 79, 42]) (.cycle
  26 [107, 180])) (.leaf [94, 18, 115, 19, 34, 107, 20, 126, 21, 39, 77, 75, 40, 78, 59, 41, 79,
  42])) (.leaf [29, 34, 172, 56, 77, 75, 78, 59, 79]))) (.cases [60, 39, 77, 40, 78, 41, 79, 42] 41
  (.leaf [103, 50, 33, 51, 34, 52, 53]) (.leaf [94, 18, 115, 19, 34, 20, 21]))) (.cycle 8
  [54, 62])) (.cases [48, 31, 32] 69 (.leaf
  [179, 125, 50, 33, 51, 34, 52, 172, 53, 56, 77, 78, 79]) (.cases [] 24 (.cycle 8 [49, 178])
  (.leaf [45, 31, 46, 32, 34, 172, 56, 39, 77, 40, 78, 41, 79, 42]))))) (.cycle 26 [43, 31, 44]))
  (.leaf [36, 32, 177, 56, 39, 77, 40, 78, 41, 79, 42])) (.cases [57, 39, 40, 41, 42] 22 (.cases []
  23 (.cases [] 24 (.cases [] 36 (.cycle 26 [118, 119]) (.cases [] 25 (.cases [] 54 (.cycle 13
  [57, 136]) (.cases [134, 56, 39, 40, 41, 42] 32 (.cases [63, 23, 18, 19, 20, 21] 38 (.cases [] 16
  (.cases [] 29 (.leaf [75, 59]) (.cases [] 35 (.cases [81, 78, 79, 134, 56, 39, 40, 41, 42] 41
  (.leaf [103, 50, 33, 51, 34, 52, 53]) (.leaf [94, 18, 115, 19, 34, 20, 21])) (.cases [] 41 (.leaf
  [103, 50, 33, 51, 34, 107, 52, 171, 53, 78, 80, 79, 59, 60, 39, 40, 41, 42]) (.leaf [94, 18, 115,
  19, 34, 107, 20, 171, 21, 80, 59, 60, 39, 40, 41, 42])))) (.leaf
  [29, 34, 90, 78, 79, 134, 56, 39, 40, 41, 42])) (.leaf [97, 34, 172, 56, 39, 40, 41, 42]))
  (.cycle 8 [54, 62]))) (.leaf [48, 31, 49, 32, 33, 34]))) (.leaf [45, 31, 46, 32, 34])) (.cycle 26
  [43, 31, 44])) (.leaf [36, 37, 32, 176, 171, 57, 39, 40, 41, 42]))) (.cycle 4 [174, 175]))
  (.cycle 12 [173, 38])))))))) (.leaf [35])) (.leaf [17, 18, 121, 19, 78, 20, 79, 21])

/-- some of the cases -/
def real4Case13 : SumTree :=
  .cases [] 56 (.cases [143, 144, 145, 146, 70, 68] 57 (.cases [149, 34] 49 (.cases [] 58 (.cases
  [151, 144, 145, 149, 146, 34, 70, 68] 19 (.leaf
  [120, 23, 18, 121, 19, 78, 20, 27, 21, 28, 13, 14, 15, 16]) (.cases [] 59 (.cases
  [163, 18, 19, 20, 21] 64 (.cases [] 45 (.cases [] 30 (.cases [] 46 (.cases [] 54 (.cases [] 36
  (.cycle 26 [118, 119]) (.cases [115, 34] 65 (.leaf [167, 125, 50, 51, 52, 53]) (.cases [] 27
  (.cases [] 21 (.cases [83, 34] 43 (.leaf [117, 18, 115, 19, 34, 20, 21]) (.cases [] 48 (.cycle 5
  [124, 166]) (.cases [] 18 (.cycle 26 [122, 123]) (.cases [] 28 (.cases [] 41 (.cases
  [103, 50, 51, 52, 53] 37 (.cases [] 38 (.cases [] 44 (.leaf
  [113, 50, 33, 51, 34, 90, 52, 78, 53, 27, 28, 13, 14, 15, 16]) (.leaf
  [104, 39, 83, 40, 34, 90, 41, 78, 42, 27, 28, 13, 14, 15, 16])) (.cycle 13 [87, 88, 89])) (.leaf
  [84, 85, 86, 34, 110, 59, 76, 13, 14, 15, 16])) (.leaf
  [94, 18, 96, 19, 39, 83, 20, 40, 34, 21, 41, 42])) (.leaf [58, 59]))))) (.cases
  [47, 39, 77, 40, 78, 41, 79, 27, 42, 28, 13, 14, 15, 16] 41 (.leaf [103, 50, 51, 52, 53]) (.leaf
  [94, 18, 115, 19, 34, 47, 20, 77, 21, 78, 27, 28, 13, 14, 15, 16]))) (.cycle 13 [57, 136]))))
  (.leaf [134, 56, 39, 66, 40, 13, 41, 14, 42, 15, 16])) (.cycle 39 [108, 34, 109])) (.leaf
  [126, 39, 40, 41, 165, 42, 15, 16])) (.leaf [105, 106, 107, 13, 14, 15, 16])) (.leaf
  [164, 41, 42])) (.cases [152, 145, 149, 146, 34, 70, 68] 30 (.cases [] 60 (.cases [] 52 (.cases
  [] 61 (.cycle 18 [161, 162, 23]) (.cases [155, 144, 145, 149, 146, 34, 70, 68] 54 (.cases [] 21
  (.cases [83, 34] 48 (.leaf [124, 125, 133, 78, 27, 28, 13, 14, 15, 16]) (.cases [] 18 (.cycle 26
  [122, 123]) (.cases [] 62 (.cases [158, 50, 51, 52, 53] 45 (.cases [] 46 (.cases [] 35 (.leaf
  [81, 78, 27, 28, 13, 14, 15, 16]) (.cases [] 28 (.cases [] 44 (.cases
  [113, 50, 33, 51, 34, 52, 53] 37 (.cases [] 38 (.leaf [90, 80, 76, 13, 14, 15, 16]) (.cycle 13
  [87, 88, 89])) (.leaf [84, 85, 86, 34, 110, 76, 13, 14, 15, 16])) (.cases
  [104, 39, 83, 40, 34, 41, 42] 63 (.cases [] 37 (.cases [] 38 (.leaf [90, 80, 76, 13, 14, 15, 16])
  (.cycle 13 [87, 88, 89])) (.leaf [84, 85, 86, 34, 110, 76, 13, 14, 15, 16])) (.leaf [159, 160])))
  (.leaf [58, 59]))) (.cycle 39 [108, 34, 109])) (.leaf [105, 106, 107, 13, 14, 15, 16])) (.cases
  [156, 145, 157, 146, 39, 83, 70, 40, 34, 68, 41, 42] 38 (.cases
  [90, 78, 79, 27, 28, 13, 14, 15, 16] 47 (.leaf [112, 28, 13, 14, 15, 16]) (.leaf [111, 59]))
  (.leaf [97, 34]))))) (.cases [47, 39, 40, 41, 42] 35 (.leaf [81, 78, 27, 28, 13, 14, 15, 16])
  (.cases [] 28 (.cases [] 27 (.leaf [77, 78, 80, 79, 59, 76, 13, 14, 15, 16]) (.cycle 13
  [57, 136])) (.leaf [58, 59])))) (.leaf [134, 56, 39, 66, 40, 13, 41, 14, 42, 15, 16]))) (.cycle
  13 [129, 154])) (.leaf [153, 125, 50, 138, 51, 13, 52, 14, 53, 15, 16])) (.leaf
  [126, 39, 40, 41, 42])))) (.cycle 28 [143, 150])) (.leaf [127, 50, 51, 52, 53])) (.cycle 26
  [147, 148])) (.cycle 8 [141, 142])

/-- some of the cases -/
def real4Case14 : SumTree :=
  .cases [122, 50, 51, 52, 53] 24 (.cases [] 20 (.cases [] 21 (.cases [83, 34, 122, 50, 51, 52, 53]
  55 (.cases [] 49 (.cases [] 50 (.leaf [137, 125, 50, 138, 51, 13, 52, 14, 53, 15, 16]) (.cases []
  52 (.leaf [133, 78, 27, 28, 13, 14, 15, 16]) (.cases [129, 50, 51, 52, 53] 53 (.cycle 39
  [131, 132]) (.leaf [130, 59])))) (.leaf [127, 50, 51, 52, 53, 140, 16])) (.leaf [139, 53]))
  (.cases [47, 39, 40, 41, 42] 41 (.cases [] 43 (.leaf [117, 18, 121, 103, 19, 78, 50, 20, 27, 51,
  21, 28, 52, 13, 53, 14, 15, 16]) (.cases [] 36 (.leaf
  [118, 18, 103, 96, 19, 50, 39, 20, 51, 40, 21, 52, 41, 53, 42]) (.cases [115, 34] 48 (.cases
  [124, 125, 50, 51, 52, 53] 22 (.cases [] 30 (.cases [] 23 (.cases [] 25 (.cases [54, 18, 115, 19,
  34, 47, 20, 124, 39, 21, 125, 40, 50, 41, 51, 42, 52, 53] 49 (.cases [] 50 (.leaf
  [137, 125, 50, 138, 51, 13, 52, 14, 53, 15, 16]) (.cases [] 51 (.cases [] 52 (.cases
  [133, 78, 79, 27, 28, 13, 14, 15, 16] 54 (.cases [] 27 (.cases [] 28 (.cases [] 35 (.leaf
  [81, 78, 79, 27, 28, 13, 14, 15, 16]) (.cases [] 44 (.cases [] 26 (.cycle 26 [47, 82]) (.leaf
  [55, 56, 39, 113, 40, 50, 133, 41, 51, 80, 42, 52, 59, 76, 53, 13, 14, 15, 16])) (.leaf
  [104, 39, 77, 40, 80, 41, 59, 76, 42, 13, 14, 15, 16]))) (.leaf [58, 59])) (.cycle 13 [57, 136]))
  (.cycle 23 [134, 135])) (.cases [129, 50, 51, 52, 53] 53 (.cycle 39 [131, 132]) (.leaf
  [130, 59]))) (.leaf [128, 56, 39, 66, 40, 13, 41, 14, 42, 15, 16]))) (.leaf
  [127, 50, 51, 52, 53])) (.leaf [48, 31, 46, 32, 34, 124, 125, 50, 51, 52, 53])) (.cycle 26
  [43, 31, 44])) (.leaf [126, 39, 40, 41, 42])) (.leaf [36, 37, 32, 38, 39, 40, 41, 42])) (.cycle
  26 [122, 123])))) (.leaf [94, 18, 121, 19, 78, 20, 27, 21, 28, 13, 14, 15, 16]))) (.leaf
  [35, 31, 49, 32, 50, 51, 52, 53])) (.leaf [45, 31, 32])

/-- some of the cases -/
def real4Case15 : SumTree :=
  .cases [33, 34] 19 (.leaf [120, 23, 18, 121, 19, 78, 20, 27, 21, 28, 13, 14, 15, 16]) (.cases []
  20 (.cases [] 21 (.cases [] 36 (.cycle 26 [118, 119]) (.cases [] 25 (.cases [] 32 (.cases [] 39
  (.cases [92, 23, 18, 19, 20, 21] 40 (.cases [114, 23, 18, 115, 19, 34, 20, 21] 28 (.cases [] 43
  (.leaf [117, 18, 115, 19, 34, 20, 21]) (.cycle 4 [114, 23, 116])) (.leaf [58, 59])) (.cases
  [93, 56] 41 (.cases [103, 50, 51, 52, 53] 44 (.cases [113, 50, 33, 51, 34, 52, 53] 38 (.leaf
  [90, 78, 27, 28, 13, 14, 15, 16]) (.leaf [97, 34])) (.cases [104, 39, 83, 40, 34, 41, 42] 45
  (.cases [] 46 (.cases [] 35 (.leaf [81, 78, 27, 28, 13, 14, 15, 16]) (.cases [] 28 (.cases [] 38
  (.cases [90, 80, 59] 47 (.leaf [112, 28, 13, 14, 15, 16]) (.cycle 39 [76, 111])) (.leaf
  [97, 34, 110, 76, 13, 14, 15, 16])) (.leaf [58, 59]))) (.cycle 39 [108, 34, 109])) (.leaf
  [105, 106, 107, 13, 14, 15, 16]))) (.cases [94, 95, 18, 93, 19, 56, 20, 83, 21, 34] 42 (.leaf
  [102, 89, 78, 79, 27, 28, 13, 14, 15, 16]) (.cases [] 43 (.cycle 24 [93, 56, 101]) (.cases
  [96, 39, 83, 40, 34, 41, 42] 38 (.cases [90, 78, 79, 27, 28, 13, 14, 15, 16] 35 (.cycle 39
  [98, 99, 100]) (.leaf [80, 59])) (.leaf [97, 34])))))) (.cycle 28 [63, 91])) (.cycle 8 [54, 62]))
  (.cases [48, 31, 38, 32, 39, 83, 40, 34, 41, 42] 37 (.cases [] 38 (.leaf
  [90, 78, 79, 27, 28, 13, 14, 15, 16]) (.cycle 13 [87, 88, 89])) (.leaf [84, 85, 86, 34]))))
  (.cases [] 22 (.cases [] 23 (.cases [] 24 (.cases [] 25 (.cases [54, 18, 19, 20, 21] 26 (.cycle
  26 [47, 82]) (.cases [55, 56, 39, 40, 41, 42] 27 (.cases [77, 78, 79, 27, 28, 13, 14, 15, 16] 35
  (.leaf [81, 78, 79, 27, 28, 13, 14, 15, 16]) (.leaf [80, 59])) (.cases [57, 39, 40, 41, 42] 28
  (.cases [] 29 (.leaf [75, 76, 13, 14, 15, 16]) (.cases [60, 39, 40, 41, 42] 30 (.cases
  [66, 13, 14, 15, 16] 33 (.leaf [73, 74]) (.cases [67, 68] 34 (.leaf [71, 72]) (.leaf
  [69, 70, 68]))) (.cases [] 31 (.cycle 25 [28, 64, 65]) (.cases [61, 56, 39, 40, 41, 42] 32 (.leaf
  [63, 23, 18, 19, 20, 21]) (.cycle 8 [54, 62]))))) (.leaf [58, 59])))) (.leaf
  [48, 31, 49, 32, 50, 33, 51, 34, 52, 53])) (.leaf [45, 31, 46, 32, 34, 47, 39, 40, 41, 42]))
  (.cycle 26 [43, 31, 44])) (.leaf [36, 37, 32, 38, 39, 40, 41, 42]))) (.leaf [35, 31, 32]))

/-- all cases -/
def real4Cases : SumTree :=
  .cases [] 0 (.leaf [220]) (.cases [] 1 (.cases [] 2 (.cases [] 3 (.leaf [218, 219]) (.cases [] 4
  (.cases [] 5 (.cases [] 6 (.cases [] 7 (.cases [] 8 (.cases [] 9 (.cases [] 10 (.cases
  [171, 78, 79] 12 (.cases [] 17 (.cases [] 14 (.cases [] 56 (.cases [] 25 (.cases [] 57 (.cases []
  58 (.cases [151, 144, 145, 149, 146, 34, 70, 68] 59 (.cases [163, 18, 19, 20, 21] 36 real4Case0
  real4Case1) (.cases [] 61 (.cycle 18 [161, 162, 23]) (.cases
  [155, 144, 145, 149, 146, 34, 70, 68] 62 real4Case2 real4Case3))) (.cycle 28 [143, 150])) (.cycle
  26 [147, 148])) (.leaf [48, 31, 143, 6])) (.cycle 8 [141, 142])) (.cycle 13 [25, 26])) (.cases
  [30, 31, 32] 14 (.cases [] 18 real4Case4 (.cases [33, 34] 21 (.cases [83, 34] 19 (.leaf
  [120, 23, 18, 121, 19, 78, 20, 79, 21]) (.cases [] 16 real4Case5 (.cases [29, 34] 25 (.cases []
  32 (.cases [] 39 (.cases [92, 23, 18, 19, 20, 21] 41 (.cases [103, 50, 51, 52, 53] 40 real4Case6
  (.cases [93, 56, 39, 40, 41, 42] 38 (.cases [90, 78, 79] 46 real4Case7 real4Case8) real4Case9))
  real4Case10) (.cycle 28 [63, 91])) (.cycle 8 [54, 62])) real4Case11))) real4Case12)) (.cycle 13
  [25, 26]))) (.leaf [22])) (.cases [12, 13, 14, 15, 16] 11 (.cases [] 12 (.cases [] 13 (.cycle 13
  [12, 170]) (.cases [] 14 (.cases [] 15 (.cycle 23 [168, 169]) (.cases [27, 28, 13, 14, 15, 16] 16
  (.cases [] 17 real4Case13 (.cases [30, 31, 32] 18 real4Case14 real4Case15)) (.leaf [29])))
  (.cycle 13 [25, 26]))) (.leaf [22, 23, 18, 24, 19, 13, 20, 14, 21, 15, 16])) (.leaf
  [17, 18, 19, 20, 21]))) (.leaf [11, 6])) (.leaf [8, 9, 10])) (.leaf [7])) (.leaf [5, 6])) (.leaf
  [4])) (.leaf [2, 3]))) (.leaf [1])) (.leaf [0]))

theorem real4_cases : real4Cases.check real4Arcs 313 real4Choices.length [] real4Times 0 = true := by
  decide +kernel

theorem real4_choices : real4Choices.all (CodedNet.Choice.ok netGt netGtSpecial real4Plan) = true := by
  decide +kernel

theorem real4_arcs : real4Arcs.toList.all
    (netGt.arcOK netGtSpecial real4Plan real4Nodes real4Choices) = true := by decide +kernel

theorem real4_times : netGt.startOK real4Plan real4Nodes 18 40 real4Times = true := by decide +kernel

end Verif.Real
