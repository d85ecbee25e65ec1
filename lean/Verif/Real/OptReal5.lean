import Verif.Proofs.PlanSum
import Verif.Proofs.PlanAgain
import Verif.Real.PlanGt

/-!
# The sheet of `Verif.Real.Gt` with given delays: a plan, and that no plan is better

Generated; see `CodedNet.Item` and `Verif/Proofs/SumTree.lean`. Case 5 of
`/repo/solve_real_problem.py`, lines 152-175;
`d_max` is 40. The sum of the delays that count is 459/4.
-/

namespace Verif.Real

set_option maxRecDepth 100000

/-- the given delays -/
def real5Delays : List (Int × ℚ) := [
  (94766, 30), (26013, 12), (5312, 18), (40518, 5), (34319, 30), (14006, 23), (40150, 3),
  (41004, 21), (45101, 35), (4500, 10), (49317, 25), (64359, 7), (44862, 5), (73000, 16)]

/-- the plan, items by sections -/
def real5Plan : CodedNet.Plan := [
  (train_gt_94766, [
   ⟨0, 94766, 9, (some 26), true, false, 17, 17, 170,
    none,
    (some ⟨8, [58, 108, 55, 72, 135, 73, 74, 116], [10, 7, 6, 6, 16, 8, 6, 19], 8, [55, 56, 78, 79, 83]⟩), [], [112, 1, 114, 15], [17]⟩,
   ⟨0, 94766, 8, (some 8), true, false, 26, 26, 260,
    (some ⟨9, 25, 170, [58, 108, 55, 72, 135, 73, 74, 116]⟩),
    (some ⟨1, [82, 131, 65, 112], [14, 15, 9, 10], 5, [82, 84, 86, 93]⟩), [55, 56, 78, 79, 83], [15, 8], [25]⟩,
   ⟨0, 94766, 1, (some 15), true, true, 34, 34, 340,
    (some ⟨8, 31, 260, [82, 131, 65, 112]⟩),
    (some ⟨2, [], [], 0, []⟩), [82, 84, 86, 93], [31, 34, 35, 40, 41, 42, 49], [31]⟩,
   ⟨0, 94766, 2, none, false, true, 34, 34, 340,
    (some ⟨1, 34, 340, []⟩),
    none, [], [], [34]⟩]),
  (train_gt_26103, [
   ⟨1, 26103, 0, (some 17), true, false, 0, 0, 0,
    none,
    (some ⟨2, [104], [12], 1, [5, 18]⟩), [], [47, 53], [0]⟩,
   ⟨1, 26103, 2, (some 52), true, false, 3, 3, 30,
    (some ⟨0, 1, 0, [104]⟩),
    (some ⟨1, [], [], 0, [39, 54, 55]⟩), [5, 18], [], [1]⟩,
   ⟨1, 26103, 1, (some 14), true, false, 11, 11, 110,
    (some ⟨2, 3, 30, []⟩),
    (some ⟨12, [83], [9], 1, [100]⟩), [39, 54, 55], [61, 64, 69, 71, 87, 92], [3]⟩,
   ⟨1, 26103, 12, (some 101), true, false, 14, 14, 140,
    (some ⟨1, 12, 110, [83]⟩),
    (some ⟨5, [139, 132, 42], [25, 25, 15], 6, [25, 26]⟩), [100], [415, 416, 417], [12]⟩,
   ⟨1, 26103, 5, (some 47), true, false, 23, 23, 230,
    (some ⟨12, 20, 140, [139, 132, 42]⟩),
    (some ⟨6, [77, 144, 119, 40, 86, 142, 87, 126, 30, 90, 91, 92, 93, 127], [11, 9, 8, 7, 13, 7, 7, 9, 15, 13, 9, 5, 7, 20], 14, [31, 34, 43]⟩), [25, 26], [10, 11, 14, 17, 20], [20]⟩,
   ⟨1, 26103, 6, (some 38), true, false, 38, 38, 380,
    (some ⟨5, 37, 230, [77, 144, 119, 40, 86, 142, 87, 126, 30, 90, 91, 92, 93, 127]⟩),
    none, [31, 34, 43], [], [37]⟩]),
  (train_gt_421009, [
   ⟨2, 421009, 4, none, true, false, -10, -10, -100,
    none,
    (some ⟨2, [], [], 0, [1, 9, 15, 21, 23]⟩), [], [], [-10]⟩,
   ⟨2, 421009, 2, (some 49), true, false, -8, -8, -80,
    (some ⟨4, -10, -100, []⟩),
    (some ⟨1, [], [], 0, [35, 51]⟩), [1, 9, 15, 21, 23], [], [-10]⟩,
   ⟨2, 421009, 1, (some 11), false, true, -8, -8, -80,
    (some ⟨2, -8, -80, []⟩),
    none, [35, 51], [], [-8]⟩]),
  (train_gt_42100, [
   ⟨3, 42100, 1, (some 11), true, false, 8, 8, 80,
    none,
    (some ⟨2, [], [], 0, []⟩), [], [35, 51], [-8]⟩,
   ⟨3, 42100, 2, (some 49), true, false, 9, 9, 90,
    (some ⟨1, 8, 80, []⟩),
    (some ⟨0, [102], [13], 1, [48, 52]⟩), [], [6, 7, 11, 17, 20, 23], [8]⟩,
   ⟨3, 42100, 0, (some 18), true, false, 11, 11, 110,
    (some ⟨2, 10, 90, [102]⟩),
    none, [48, 52], [], [10]⟩]),
  (train_gt_5312, [
   ⟨4, 5312, 6, (some 33), true, false, 0, 10, 100,
    none,
    (some ⟨5, [78, 79, 80, 81, 120, 31, 94, 95, 143, 128, 41, 85, 145, 125], [18, 7, 6, 8, 12, 20, 23, 5, 9, 11, 6, 11, 7, 14], 16, [10, 11, 14, 17, 19]⟩), [], [36, 30, 22], [0]⟩,
   ⟨4, 5312, 5, (some 47), true, false, 18, 31, 310,
    (some ⟨6, 26, 100, [78, 79, 80, 81, 120, 31, 94, 95, 143, 128, 41, 85, 145, 125]⟩),
    (some ⟨12, [42, 132, 139], [25, 25, 25], 8, [416, 417]⟩), [10, 11, 14, 17, 19], [25, 26], [26]⟩,
   ⟨4, 5312, 12, (some 133), true, false, 27, 40, 400,
    (some ⟨5, 39, 310, [42, 132, 139]⟩),
    (some ⟨1, [122], [10], 1, [81, 85, 88, 91]⟩), [416, 417], [200], [39]⟩,
   ⟨4, 5312, 1, (some 13), true, false, 31, 45, 450,
    (some ⟨12, 41, 400, [122]⟩),
    (some ⟨2, [], [], 0, []⟩), [81, 85, 88, 91], [35, 51, 56], [41]⟩,
   ⟨4, 5312, 2, (some 49), true, false, 32, 46, 460,
    (some ⟨1, 45, 450, []⟩),
    (some ⟨0, [103], [13], 1, [41, 50]⟩), [], [8, 14, 21, 23], [45]⟩,
   ⟨4, 5312, 0, (some 20), true, false, 34, 48, 480,
    (some ⟨2, 47, 460, [103]⟩),
    none, [41, 50], [], [47]⟩]),
  (train_gt_40518, [
   ⟨5, 40518, 9, (some 26), true, false, -4, -4, -40,
    none,
    (some ⟨8, [58, 108, 55, 72, 135, 73, 74, 116], [10, 7, 6, 6, 16, 8, 6, 19], 8, [55, 56, 78, 79, 83]⟩), [], [112, 1, 114, 15], [-4]⟩,
   ⟨5, 40518, 8, (some 8), true, false, 5, 5, 50,
    (some ⟨9, 4, -40, [58, 108, 55, 72, 135, 73, 74, 116]⟩),
    (some ⟨1, [82, 131, 65, 112], [14, 15, 9, 10], 5, [82, 84, 86, 93]⟩), [55, 56, 78, 79, 83], [15, 8], [4]⟩,
   ⟨5, 40518, 1, (some 15), true, true, 13, 13, 130,
    (some ⟨8, 10, 50, [82, 131, 65, 112]⟩),
    (some ⟨2, [], [], 0, []⟩), [82, 84, 86, 93], [32, 34, 35, 40, 41, 42, 49], [10]⟩,
   ⟨5, 40518, 2, none, false, true, 13, 13, 130,
    (some ⟨1, 13, 130, []⟩),
    none, [], [], [13]⟩]),
  (train_gt_34319, [
   ⟨6, 34319, 0, (some 19), true, false, 40, 41, 410,
    none,
    (some ⟨2, [105], [14], 1, [7, 11, 20, 23]⟩), [], [42, 49, 51], [40]⟩,
   ⟨6, 34319, 2, (some 49), true, false, 43, 44, 440,
    (some ⟨0, 42, 410, [105]⟩),
    (some ⟨1, [], [], 0, [35, 40, 41, 42, 49]⟩), [7, 11, 20, 23], [], [42]⟩,
   ⟨6, 34319, 1, (some 15), false, true, 43, 44, 440,
    (some ⟨2, 44, 440, []⟩),
    none, [35, 40, 41, 42, 49], [], [44]⟩]),
  (train_gt_343199, [
   ⟨7, 343199, 1, (some 15), true, true, 14, 49, 490,
    none,
    (some ⟨2, [], [], 0, []⟩), [], [43, 42, 49], [44]⟩,
   ⟨7, 343199, 2, none, false, true, 14, 49, 490,
    (some ⟨1, 49, 490, []⟩),
    none, [], [], [49]⟩]),
  (train_gt_14006, [
   ⟨8, 14006, 0, (some 17), true, false, 29, 29, 290,
    none,
    (some ⟨2, [104], [12], 1, [5, 18]⟩), [], [47, 53], [29]⟩,
   ⟨8, 14006, 2, (some 52), true, false, 32, 32, 320,
    (some ⟨0, 30, 290, [104]⟩),
    (some ⟨1, [], [], 0, [39, 54]⟩), [5, 18], [], [30]⟩,
   ⟨8, 14006, 1, (some 16), true, false, 35, 35, 350,
    (some ⟨2, 32, 320, []⟩),
    (some ⟨8, [138, 141, 96, 118], [10, 9, 16, 9], 4, [9, 16]⟩), [39, 54], [62, 64, 69, 70, 72, 74], [32]⟩,
   ⟨8, 14006, 8, (some 7), true, false, 40, 40, 400,
    (some ⟨1, 39, 350, [138, 141, 96, 118]⟩),
    (some ⟨9, [137, 69, 70, 134, 71, 129, 54, 136, 57], [19, 6, 5, 6, 4, 5, 7, 6, 11], 7, [2, 3, 4, 7, 11, 20, 21]⟩), [9, 16], [54, 57, 84], [39]⟩,
   ⟨8, 14006, 9, (some 29), true, false, 49, 49, 490,
    (some ⟨8, 47, 400, [137, 69, 70, 134, 71, 129, 54, 136, 57]⟩),
    none, [2, 3, 4, 7, 11, 20, 21], [], [47]⟩]),
  (train_gt_94611, [
   ⟨9, 94611, 3, none, true, false, -5, -5, -50,
    none,
    (some ⟨1, [], [], 0, [66, 67, 85, 88, 90, 95]⟩), [], [], [-5]⟩,
   ⟨9, 94611, 1, (some 10), true, false, 12, 12, 120,
    (some ⟨3, -5, -50, []⟩),
    (some ⟨8, [138, 141, 96, 118], [10, 9, 16, 9], 4, [9, 16]⟩), [66, 67, 85, 88, 90, 95], [66, 68, 70, 72, 74], [-5]⟩,
   ⟨9, 94611, 8, (some 7), true, false, 18, 18, 180,
    (some ⟨1, 16, 120, [138, 141, 96, 118]⟩),
    (some ⟨9, [137, 69, 70, 134, 71, 129, 54, 136, 57], [29, 6, 5, 6, 7, 5, 7, 6, 9], 8, [2, 3, 14, 16]⟩), [9, 16], [54, 57, 84], [16]⟩,
   ⟨9, 94611, 9, (some 25), true, false, 28, 28, 280,
    (some ⟨8, 26, 180, [137, 69, 70, 134, 71, 129, 54, 136, 57]⟩),
    none, [2, 3, 14, 16], [], [26]⟩]),
  (train_gt_40150, [
   ⟨10, 40150, 6, (some 35), true, false, -8, 5, 50,
    none,
    (some ⟨5, [78, 79, 80, 81, 120, 31, 94, 95, 143, 128, 41, 85, 145, 125], [18, 7, 6, 8, 12, 20, 23, 5, 19, 11, 16, 11, 17, 14], 19, [10, 11, 14, 17, 19]⟩), [], [29, 24, 22], [-8]⟩,
   ⟨10, 40150, 5, (some 47), true, false, 13, 26, 260,
    (some ⟨6, 24, 50, [78, 79, 80, 81, 120, 31, 94, 95, 143, 128, 41, 85, 145, 125]⟩),
    (some ⟨12, [42, 132, 139], [25, 25, 25], 8, [416, 417]⟩), [10, 11, 14, 17, 19], [25, 26], [24]⟩,
   ⟨10, 40150, 12, (some 133), true, false, 23, 36, 360,
    (some ⟨5, 34, 260, [42, 132, 139]⟩),
    (some ⟨1, [122], [10], 1, [81, 85, 88, 91]⟩), [416, 417], [200], [34]⟩,
   ⟨10, 40150, 1, (some 13), true, false, 27, 40, 400,
    (some ⟨12, 37, 360, [122]⟩),
    (some ⟨2, [], [], 0, []⟩), [81, 85, 88, 91], [35, 51, 56], [37]⟩,
   ⟨10, 40150, 2, (some 49), true, false, 28, 41, 410,
    (some ⟨1, 40, 400, []⟩),
    (some ⟨0, [102], [18], 2, [48, 52]⟩), [], [6, 7, 11, 17, 20, 23], [40]⟩,
   ⟨10, 40150, 0, (some 18), true, false, 32, 45, 450,
    (some ⟨2, 43, 410, [102]⟩),
    none, [48, 52], [], [43]⟩]),
  (train_gt_41004, [
   ⟨11, 41004, 9, (some 27), true, false, 22, 22, 220,
    none,
    (some ⟨8, [58, 108, 55, 72, 135, 73, 74, 116], [10, 7, 6, 6, 6, 5, 6, 9], 6, [55, 56, 78, 79, 83]⟩), [], [112, 1, 2, 3, 4, 7, 11, 20, 21, 22], [22]⟩,
   ⟨11, 41004, 8, (some 8), true, false, 30, 30, 300,
    (some ⟨9, 28, 220, [58, 108, 55, 72, 135, 73, 74, 116]⟩),
    (some ⟨1, [82, 131, 65, 112], [16, 9, 8, 10], 4, [82, 84, 86, 93]⟩), [55, 56, 78, 79, 83], [15, 8], [28]⟩,
   ⟨11, 41004, 1, (some 39), true, false, 37, 37, 370,
    (some ⟨8, 34, 300, [82, 131, 65, 112]⟩),
    (some ⟨2, [], [], 0, []⟩), [82, 84, 86, 93], [38, 41, 42, 47], [34]⟩,
   ⟨11, 41004, 2, (some 53), true, false, 38, 38, 380,
    (some ⟨1, 37, 370, []⟩),
    (some ⟨0, [102], [13], 1, [48, 52]⟩), [], [6, 7, 8, 14, 21], [37]⟩,
   ⟨11, 41004, 0, (some 18), true, false, 40, 40, 400,
    (some ⟨2, 39, 380, [102]⟩),
    none, [48, 52], [], [39]⟩]),
  (train_gt_94113, [
   ⟨12, 94113, 3, none, true, false, 7, 13, 130,
    none,
    (some ⟨1, [], [], 0, [66, 67, 85, 88, 90, 95]⟩), [], [], [7]⟩,
   ⟨12, 94113, 1, (some 10), true, false, 24, 24, 240,
    (some ⟨3, 13, 130, []⟩),
    (some ⟨8, [138, 141, 96, 118], [10, 9, 16, 9], 4, [9, 16]⟩), [66, 67, 85, 88, 90, 95], [66, 68, 70, 72, 74], [13]⟩,
   ⟨12, 94113, 8, (some 7), true, false, 30, 30, 300,
    (some ⟨1, 28, 240, [138, 141, 96, 118]⟩),
    (some ⟨9, [137, 69, 70, 134, 71, 129, 54, 136, 57], [29, 6, 5, 6, 7, 5, 7, 6, 9], 8, [2, 3, 14, 16]⟩), [9, 16], [54, 57, 84], [28]⟩,
   ⟨12, 94113, 9, (some 25), true, false, 41, 41, 410,
    (some ⟨8, 38, 300, [137, 69, 70, 134, 71, 129, 54, 136, 57]⟩),
    none, [2, 3, 14, 16], [], [38]⟩]),
  (train_gt_40673, [
   ⟨13, 40673, 0, (some 17), true, false, 14, 14, 140,
    none,
    (some ⟨2, [104], [14], 1, [5, 18]⟩), [], [47, 53], [14]⟩,
   ⟨13, 40673, 2, (some 52), true, false, 17, 17, 170,
    (some ⟨0, 15, 140, [104]⟩),
    (some ⟨1, [], [], 0, [39, 54, 55]⟩), [5, 18], [], [15]⟩,
   ⟨13, 40673, 1, (some 14), true, false, 30, 30, 300,
    (some ⟨2, 17, 170, []⟩),
    (some ⟨12, [83], [9], 1, [100]⟩), [39, 54, 55], [61, 64, 69, 71, 87, 92], [17]⟩,
   ⟨13, 40673, 12, (some 101), true, false, 33, 55, 550,
    (some ⟨1, 31, 300, [83]⟩),
    (some ⟨5, [139, 132, 42], [25, 25, 15], 6, [25, 26]⟩), [100], [415, 416, 417], [31]⟩,
   ⟨13, 40673, 5, (some 47), true, false, 42, 64, 640,
    (some ⟨12, 61, 550, [139, 132, 42]⟩),
    (some ⟨6, [77, 144, 119, 40, 86, 142, 87, 126, 30, 90, 91, 92, 93, 127], [15, 14, 8, 14, 13, 13, 7, 9, 15, 13, 9, 5, 7, 20], 16, [31, 33, 41]⟩), [25, 26], [10, 11, 14, 17, 20], [61]⟩,
   ⟨13, 40673, 6, (some 35), false, true, 58, 80, 800,
    (some ⟨5, 80, 640, [77, 144, 119, 40, 86, 142, 87, 126, 30, 90, 91, 92, 93, 127]⟩),
    none, [31, 33, 41], [], [80]⟩]),
  (train_gt_54101, [
   ⟨14, 54101, 0, (some 17), true, false, 24, 24, 240,
    none,
    (some ⟨2, [104], [12], 1, [5, 6, 7, 11, 17, 20, 23]⟩), [], [47, 53], [24]⟩,
   ⟨14, 54101, 2, (some 49), true, false, 27, 27, 270,
    (some ⟨0, 25, 240, [104]⟩),
    (some ⟨1, [], [], 0, [35, 51]⟩), [5, 6, 7, 11, 17, 20, 23], [], [25]⟩,
   ⟨14, 54101, 1, (some 11), false, true, 27, 27, 270,
    (some ⟨2, 27, 270, []⟩),
    none, [35, 51], [], [27]⟩]),
  (train_gt_541019, [
   ⟨15, 541019, 1, (some 11), true, true, 28, 32, 320,
    none,
    (some ⟨2, [], [], 0, []⟩), [], [35, 51], [27]⟩,
   ⟨15, 541019, 2, (some 49), true, false, 30, 34, 340,
    (some ⟨1, 32, 320, []⟩),
    (some ⟨4, [], [], 0, []⟩), [], [1, 9, 15, 21, 23], [32]⟩,
   ⟨15, 541019, 4, none, false, true, 30, 34, 340,
    (some ⟨2, 34, 340, []⟩),
    none, [], [], [34]⟩]),
  (train_gt_40477, [
   ⟨16, 40477, 2, none, true, false, 0, 0, 0,
    none,
    (some ⟨1, [], [], 0, [32, 33, 36, 67, 39, 54]⟩), [], [], [0]⟩,
   ⟨16, 40477, 1, (some 16), true, false, 29, 29, 290,
    (some ⟨2, 0, 0, []⟩),
    (some ⟨8, [138, 141, 96, 118], [10, 9, 26, 9], 5, [9, 16]⟩), [32, 33, 36, 67, 39, 54], [62, 64, 69, 70, 72, 74], [0]⟩,
   ⟨16, 40477, 8, (some 7), true, false, 36, 36, 360,
    (some ⟨1, 34, 290, [138, 141, 96, 118]⟩),
    (some ⟨9, [137, 69, 70, 134, 71, 129, 54, 136, 57], [29, 6, 5, 16, 7, 5, 7, 6, 9], 9, [2, 3, 14, 16]⟩), [9, 16], [54, 57, 84], [34]⟩,
   ⟨16, 40477, 9, (some 25), true, false, 55, 55, 550,
    (some ⟨8, 45, 360, [137, 69, 70, 134, 71, 129, 54, 136, 57]⟩),
    none, [2, 3, 14, 16], [], [45]⟩]),
  (train_gt_4500, [
   ⟨17, 4500, 6, (some 32), true, false, 17, 17, 170,
    none,
    (some ⟨5, [78, 79, 80, 81, 120, 31, 94, 95, 143, 128, 41, 85, 145, 125], [18, 7, 6, 8, 12, 20, 23, 5, 9, 11, 6, 11, 7, 14], 16, [10, 11, 14, 17, 19]⟩), [], [37, 36, 30, 22], [17]⟩,
   ⟨17, 4500, 5, (some 47), true, false, 35, 36, 360,
    (some ⟨6, 33, 170, [78, 79, 80, 81, 120, 31, 94, 95, 143, 128, 41, 85, 145, 125]⟩),
    (some ⟨12, [42, 132, 139], [25, 25, 25], 8, [416, 417]⟩), [10, 11, 14, 17, 19], [25, 26], [33]⟩,
   ⟨17, 4500, 12, (some 133), true, false, 44, 45, 450,
    (some ⟨5, 44, 360, [42, 132, 139]⟩),
    (some ⟨1, [122], [10], 1, [81, 85, 88, 91]⟩), [416, 417], [200], [44]⟩,
   ⟨17, 4500, 1, (some 11), true, false, 48, 49, 490,
    (some ⟨12, 46, 450, [122]⟩),
    (some ⟨2, [], [], 0, []⟩), [81, 85, 88, 91], [35, 51], [46]⟩,
   ⟨17, 4500, 2, (some 49), true, false, 49, 50, 500,
    (some ⟨1, 49, 490, []⟩),
    (some ⟨0, [102], [13], 1, [48, 52]⟩), [], [6, 7, 11, 17, 20, 23], [49]⟩,
   ⟨17, 4500, 0, (some 18), true, false, 51, 52, 520,
    (some ⟨2, 51, 500, [102]⟩),
    none, [48, 52], [], [51]⟩]),
  (train_gt_94317, [
   ⟨18, 94317, 0, (some 19), true, false, 39, 39, 390,
    none,
    (some ⟨2, [105], [14], 1, [7, 11, 13, 24]⟩), [], [42, 49, 51], [39]⟩,
   ⟨18, 94317, 2, (some 48), true, false, 42, 42, 420,
    (some ⟨0, 40, 390, [105]⟩),
    (some ⟨1, [], [], 0, [36, 67, 53, 55]⟩), [7, 11, 13, 24], [], [40]⟩,
   ⟨18, 94317, 1, (some 14), true, false, 50, 54, 540,
    (some ⟨2, 42, 420, []⟩),
    (some ⟨12, [83], [9], 1, [100]⟩), [36, 67, 53, 55], [61, 64, 69, 71, 87, 92], [42]⟩,
   ⟨18, 94317, 12, (some 101), true, false, 53, 60, 600,
    (some ⟨1, 55, 540, [83]⟩),
    (some ⟨5, [139, 132, 42], [25, 25, 15], 6, [25, 26]⟩), [100], [415, 416, 417], [55]⟩,
   ⟨18, 94317, 5, (some 47), true, false, 62, 69, 690,
    (some ⟨12, 66, 600, [139, 132, 42]⟩),
    (some ⟨7, [97], [24], 2, [1, 9]⟩), [25, 26], [10, 11, 14], [66]⟩,
   ⟨18, 94317, 7, (some 5), true, false, 66, 73, 730,
    (some ⟨5, 71, 690, [97]⟩),
    none, [1, 9], [], [71]⟩]),
  (train_gt_44717, [
   ⟨19, 44717, 2, none, true, false, 25, 25, 250,
    none,
    (some ⟨1, [], [], 0, [31, 33, 36, 52]⟩), [], [], [25]⟩,
   ⟨19, 44717, 1, (some 10), true, false, 36, 37, 370,
    (some ⟨2, 25, 250, []⟩),
    (some ⟨8, [138, 141, 96, 118], [10, 9, 26, 9], 5, [9, 16, 17]⟩), [31, 33, 36, 52], [66, 68, 70, 72, 74], [25]⟩,
   ⟨19, 44717, 8, (some 9), true, false, 43, 47, 470,
    (some ⟨1, 42, 370, [138, 141, 96, 118]⟩),
    (some ⟨11, [146, 114], [35, 15], 5, [1]⟩), [9, 16, 17], [42, 43, 53, 58, 85], [42]⟩,
   ⟨19, 44717, 11, (some 21), true, false, 51, 54, 540,
    (some ⟨8, 52, 470, [146, 114]⟩),
    (some ⟨10, [107], [19], 2, [1, 2]⟩), [1], [2], [52]⟩,
   ⟨19, 44717, 10, (some 23), true, false, 55, 58, 580,
    (some ⟨11, 56, 540, [107]⟩),
    none, [1, 2], [], [56]⟩]),
  (train_gt_64350, [
   ⟨20, 64350, 7, (some 6), true, false, 25, 33, 330,
    none,
    (some ⟨5, [98], [30], 3, [10, 11, 15]⟩), [], [2, 16], [25]⟩,
   ⟨20, 64350, 5, (some 47), true, false, 31, 41, 410,
    (some ⟨7, 36, 330, [98]⟩),
    (some ⟨12, [42, 132, 139], [25, 25, 25], 8, [416, 417]⟩), [10, 11, 15], [25, 26], [36]⟩,
   ⟨20, 64350, 12, (some 133), true, false, 41, 52, 520,
    (some ⟨5, 49, 410, [42, 132, 139]⟩),
    (some ⟨1, [122], [10], 1, [82, 84, 86, 89, 91]⟩), [416, 417], [200], [49]⟩,
   ⟨20, 64350, 1, (some 15), true, false, 45, 56, 560,
    (some ⟨12, 53, 520, [122]⟩),
    (some ⟨2, [], [], 0, []⟩), [82, 84, 86, 89, 91], [38, 41, 42], [53]⟩,
   ⟨20, 64350, 2, (some 53), true, false, 46, 57, 570,
    (some ⟨1, 56, 560, []⟩),
    (some ⟨0, [103], [18], 2, [41, 50]⟩), [], [8, 14, 21], [56]⟩,
   ⟨20, 64350, 0, (some 20), true, false, 50, 61, 610,
    (some ⟨2, 59, 570, [103]⟩),
    none, [41, 50], [], [59]⟩]),
  (train_gt_94717, [
   ⟨21, 94717, 2, none, true, false, 30, 37, 370,
    none,
    (some ⟨1, [], [], 0, [32, 33, 36, 52]⟩), [], [], [30]⟩,
   ⟨21, 94717, 1, (some 10), true, false, 47, 47, 470,
    (some ⟨2, 37, 370, []⟩),
    (some ⟨8, [138, 141, 96, 118], [10, 9, 26, 9], 5, [9, 16]⟩), [32, 33, 36, 52], [66, 68, 70, 72, 74], [37]⟩,
   ⟨21, 94717, 8, (some 7), true, false, 54, 54, 540,
    (some ⟨1, 52, 470, [138, 141, 96, 118]⟩),
    (some ⟨9, [137, 69, 70, 134, 71, 129, 54, 136, 57], [29, 6, 5, 16, 7, 5, 7, 6, 9], 9, [2, 3, 14, 16]⟩), [9, 16], [54, 57, 84], [52]⟩,
   ⟨21, 94717, 9, (some 25), true, false, 66, 66, 660,
    (some ⟨8, 63, 540, [137, 69, 70, 134, 71, 129, 54, 136, 57]⟩),
    none, [2, 3, 14, 16], [], [63]⟩]),
  (train_gt_44862, [
   ⟨22, 44862, 10, (some 24), true, false, 37, 37, 370,
    none,
    (some ⟨11, [107], [17], 2, [2]⟩), [], [1, 11], [37]⟩,
   ⟨22, 44862, 11, (some 22), true, false, 41, 41, 410,
    (some ⟨10, 39, 370, [107]⟩),
    (some ⟨8, [114, 146], [22, 24], 5, [55, 56, 78, 79, 83, 84, 85]⟩), [2], [1], [39]⟩,
   ⟨22, 44862, 8, (some 8), true, false, 47, 47, 470,
    (some ⟨11, 46, 410, [114, 146]⟩),
    (some ⟨1, [82, 131, 65, 112], [14, 15, 9, 10], 5, [82, 84, 86, 93]⟩), [55, 56, 78, 79, 83, 84, 85], [15, 8], [46]⟩,
   ⟨22, 44862, 1, (some 15), true, true, 55, 55, 550,
    (some ⟨8, 52, 470, [82, 131, 65, 112]⟩),
    (some ⟨2, [], [], 0, []⟩), [82, 84, 86, 93], [43, 42, 49], [52]⟩,
   ⟨22, 44862, 2, none, false, true, 55, 55, 550,
    (some ⟨1, 55, 550, []⟩),
    none, [], [], [55]⟩]),
  (train_gt_40628, [
   ⟨23, 40628, 6, (some 35), true, false, 16, 22, 220,
    none,
    (some ⟨5, [78, 79, 80, 81, 120, 31, 94, 95, 143, 128, 41, 85, 145, 125], [18, 7, 6, 8, 12, 20, 23, 5, 19, 11, 16, 11, 17, 14], 19, [10, 11, 14, 17, 19]⟩), [], [29, 24, 22], [16]⟩,
   ⟨23, 40628, 5, (some 47), true, false, 37, 46, 460,
    (some ⟨6, 41, 220, [78, 79, 80, 81, 120, 31, 94, 95, 143, 128, 41, 85, 145, 125]⟩),
    (some ⟨12, [42, 132, 139], [25, 25, 25], 8, [416, 417]⟩), [10, 11, 14, 17, 19], [25, 26], [41]⟩,
   ⟨23, 40628, 12, (some 133), true, false, 47, 56, 560,
    (some ⟨5, 54, 460, [42, 132, 139]⟩),
    (some ⟨1, [122], [10], 1, [81, 85, 88, 91]⟩), [416, 417], [200], [54]⟩,
   ⟨23, 40628, 1, (some 11), true, false, 51, 61, 610,
    (some ⟨12, 57, 560, [122]⟩),
    (some ⟨2, [], [], 0, []⟩), [81, 85, 88, 91], [35, 51], [57]⟩,
   ⟨23, 40628, 2, (some 49), true, false, 52, 62, 620,
    (some ⟨1, 61, 610, []⟩),
    (some ⟨0, [102], [18], 2, [48, 52]⟩), [], [6, 7, 11, 17, 20, 23], [61]⟩,
   ⟨23, 40628, 0, (some 18), true, false, 56, 66, 660,
    (some ⟨2, 64, 620, [102]⟩),
    none, [48, 52], [], [64]⟩]),
  (train_gt_40675, [
   ⟨24, 40675, 0, (some 17), true, false, 44, 44, 440,
    none,
    (some ⟨2, [104], [14], 1, [5, 18]⟩), [], [47, 53], [44]⟩,
   ⟨24, 40675, 2, (some 52), true, false, 47, 47, 470,
    (some ⟨0, 45, 440, [104]⟩),
    (some ⟨1, [], [], 0, [39, 54]⟩), [5, 18], [], [45]⟩,
   ⟨24, 40675, 1, (some 16), true, false, 55, 59, 590,
    (some ⟨2, 47, 470, []⟩),
    (some ⟨12, [83], [9], 1, [100]⟩), [39, 54], [62, 64, 69, 71, 87, 92], [47]⟩,
   ⟨24, 40675, 12, (some 101), true, false, 58, 65, 650,
    (some ⟨1, 60, 590, [83]⟩),
    (some ⟨5, [139, 132, 42], [25, 25, 15], 6, [25, 26]⟩), [100], [415, 416, 417], [60]⟩,
   ⟨24, 40675, 5, (some 47), true, false, 67, 74, 740,
    (some ⟨12, 71, 650, [139, 132, 42]⟩),
    (some ⟨6, [77, 144, 119, 40, 86, 142, 87, 126, 30, 90, 91, 92, 93, 127], [15, 14, 8, 14, 13, 13, 7, 9, 15, 13, 9, 5, 7, 20], 16, [31, 33, 41]⟩), [25, 26], [10, 11, 14, 17, 20], [71]⟩,
   ⟨24, 40675, 6, (some 35), false, true, 83, 90, 900,
    (some ⟨5, 90, 740, [77, 144, 119, 40, 86, 142, 87, 126, 30, 90, 91, 92, 93, 127]⟩),
    none, [31, 33, 41], [], [90]⟩]),
  (train_gt_73000, [
   ⟨25, 73000, 6, (some 34), true, false, 47, 59, 590,
    none,
    (some ⟨5, [78, 79, 80, 81, 120, 31, 94, 95, 143, 128, 41, 85, 145, 125], [18, 7, 6, 8, 12, 20, 23, 5, 9, 11, 6, 11, 7, 14], 16, [10, 11, 14, 17, 19]⟩), [], [30, 22], [47]⟩,
   ⟨25, 73000, 5, (some 47), true, false, 65, 77, 770,
    (some ⟨6, 75, 590, [78, 79, 80, 81, 120, 31, 94, 95, 143, 128, 41, 85, 145, 125]⟩),
    (some ⟨12, [42, 132, 139], [25, 25, 25], 8, [416, 417]⟩), [10, 11, 14, 17, 19], [25, 26], [75]⟩,
   ⟨25, 73000, 12, (some 133), true, false, 74, 86, 860,
    (some ⟨5, 85, 770, [42, 132, 139]⟩),
    (some ⟨1, [122], [10], 1, [81, 85, 88, 91]⟩), [416, 417], [200], [85]⟩,
   ⟨25, 73000, 1, (some 13), true, false, 78, 90, 900,
    (some ⟨12, 87, 860, [122]⟩),
    (some ⟨2, [], [], 0, []⟩), [81, 85, 88, 91], [35, 51, 56], [87]⟩,
   ⟨25, 73000, 2, (some 49), true, false, 79, 91, 910,
    (some ⟨1, 90, 900, []⟩),
    (some ⟨0, [103], [13], 1, [41, 50]⟩), [], [8, 14, 21, 23], [90]⟩,
   ⟨25, 73000, 0, (some 20), true, false, 81, 93, 930,
    (some ⟨2, 92, 910, [103]⟩),
    none, [41, 50], [], [92]⟩]),
  (train_gt_4120, [
   ⟨26, 4120, 9, (some 26), true, false, 41, 41, 410,
    none,
    (some ⟨8, [58, 108, 55, 72, 135, 73, 74, 116], [10, 7, 6, 6, 6, 5, 6, 9], 6, [55, 56, 78, 79, 83]⟩), [], [112, 1, 114, 15], [41]⟩,
   ⟨26, 4120, 8, (some 8), true, false, 49, 50, 500,
    (some ⟨9, 47, 410, [58, 108, 55, 72, 135, 73, 74, 116]⟩),
    (some ⟨1, [82, 131, 65, 112], [16, 9, 8, 10], 4, [82, 84, 86, 93]⟩), [55, 56, 78, 79, 83], [15, 8], [47]⟩,
   ⟨26, 4120, 1, (some 39), true, false, 60, 60, 600,
    (some ⟨8, 54, 500, [82, 131, 65, 112]⟩),
    (some ⟨2, [], [], 0, []⟩), [82, 84, 86, 93], [35, 40, 41, 42, 47], [54]⟩,
   ⟨26, 4120, 2, (some 49), true, false, 61, 61, 610,
    (some ⟨1, 60, 600, []⟩),
    (some ⟨0, [102], [13], 1, [48, 52]⟩), [], [6, 7, 11, 17, 20, 23], [60]⟩,
   ⟨26, 4120, 0, (some 18), true, false, 63, 63, 630,
    (some ⟨2, 62, 610, [102]⟩),
    none, [48, 52], [], [62]⟩])]

theorem real5Plan_sections : real5Plan.map Prod.fst = gt := rfl

theorem real5Plan_ok : netGt.PlanOK "16:00" real5Delays 40 netGtSpecial real5Plan :=
  gtPlan_ok.again rfl (by decide +kernel) (by decide +kernel) (by decide +kernel) (by decide +kernel)

theorem real5_cost : netGt.costOK real5Plan 459 = true := by decide +kernel

/-- the departures: train and station -/
def real5Nodes : List (Nat × Nat) := [
  (6, 2), (7, 1), (13, 0), (24, 0), (14, 0), (13, 2), (1, 0), (23, 6), (13, 5), (10, 6), (25, 6),
  (1, 5), (18, 12), (4, 5), (25, 5), (13, 12), (13, 1), (1, 2), (18, 1), (8, 0), (23, 5), (17, 6),
  (10, 5), (1, 12), (1, 6), (17, 5), (20, 5), (1, 1), (17, 12), (17, 1), (17, 2), (17, 0), (18, 5),
  (18, 7), (23, 12), (23, 1), (23, 2), (23, 0), (24, 12), (25, 12), (25, 1), (25, 2), (25, 0),
  (24, 5), (22, 11), (19, 8), (19, 11), (19, 10), (22, 8), (22, 1), (20, 12), (20, 1), (20, 2),
  (20, 0), (20, 7), (4, 6), (4, 12), (4, 1), (4, 2), (4, 0), (26, 1), (26, 2), (26, 0), (18, 2),
  (18, 0), (10, 2), (10, 0), (10, 12), (10, 1), (24, 1), (6, 0), (19, 1), (8, 1), (8, 8), (8, 9),
  (8, 2)]

/-- the choices -/
def real5Choices : List CodedNet.Choice := [
  .first 1 13 0, .first 8 24 0, .first 13 14 0, .first 6 18 0, .first 1 13 2, .first 8 13 2,
  .first 10 23 6, .first 10 13 5, .against 1 25 5 6, .against 4 18 5 12, .against 24 4 12 5,
  .against 13 25 12 5, .first 1 13 1, .first 13 18 1, .first 10 23 5, .first 10 17 6,
  .against 1 10 12 5, .against 1 4 12 5, .against 13 17 12 5, .against 1 20 12 5, .first 1 13 12,
  .against 1 17 12 5, .first 13 18 12, .first 17 20 5, .first 23 17 5, .first 23 17 6,
  .against 1 23 12 5, .first 13 24 12, .against 19 22 8 11, .first 24 18 12, .first 25 18 5,
  .against 25 18 5 12, .first 24 25 5, .against 24 25 12 5, .against 23 13 5 12, .first 23 13 5,
  .against 23 24 5 12, .first 23 24 5, .against 23 18 5 12, .first 23 25 5, .first 23 25 6,
  .first 13 24 5, .first 23 20 5, .first 1 20 5, .against 1 20 5 7, .against 23 13 6 5,
  .against 13 20 12 5, .first 1 17 5, .against 1 17 5 6, .first 13 20 5, .against 13 20 5 7,
  .against 24 20 12 5, .first 1 23 5, .against 20 18 5 12, .first 1 13 5, .against 24 25 5 6,
  .first 20 25 5, .first 20 18 5, .first 13 25 5, .against 13 25 5 6, .against 25 18 6 5,
  .against 1 23 5 6, .first 24 20 5, .first 13 17 5, .against 13 17 5 6, .first 17 25 5,
  .first 24 17 5, .against 17 18 5 12, .against 24 17 12 5, .first 17 25 1, .first 23 18 5,
  .first 20 25 1, .first 23 25 1, .against 20 18 7 5, .against 24 20 5 7, .first 1 4 5,
  .against 1 4 5 6, .against 17 18 6 5, .first 17 4 5, .first 17 4 6, .first 23 4 5, .first 23 4 6,
  .first 4 20 5, .first 7 20 1, .first 17 18 5, .first 23 26 1, .first 23 26 2, .against 13 4 12 5,
  .first 20 25 2, .first 4 20 2, .first 4 20 12, .against 24 17 5 6, .first 13 4 5, .first 17 4 1,
  .first 23 17 1, .first 1 10 5, .against 10 13 5 12, .against 10 18 2 0, .against 1 10 5 6,
  .against 23 24 6 5, .first 10 17 5, .first 10 4 6, .first 13 18 5, .first 10 20 5, .first 10 4 5,
  .first 24 18 1, .against 13 4 5 6, .against 23 18 6 5, .against 6 20 2 1, .first 10 4 12,
  .first 10 4 1, .first 6 4 2, .first 6 10 2, .against 6 4 2 1, .against 6 10 0 2,
  .against 6 4 0 2, .against 6 10 2 1, .first 22 20 1, .first 23 26 0, .first 8 19 1,
  .first 26 20 1, .first 23 4 1, .first 26 4 1]

/-- the inequalities -/
def real5Arcs : ArcTree :=
  .node ⟨.stock, 0, 1, 2, 5, 0, false⟩ (.node ⟨.track, 2, 3, 0, 0, 0, false⟩ (.node
  ⟨.track, 6, 5, 0, 0, 14, false⟩ (.node ⟨.track, 16, 9, 10, 0, 19, false⟩ (.node
  ⟨.track, 28, 19, 6, 0, 0, false⟩ (.node ⟨.follow, 27, 17, 19, 1, 0, false⟩ (.node
  ⟨.run, 0, 11, 15, 18, 0, false⟩ (.node ⟨.track, 105, 12, 8, 0, 19, false⟩ (.node
  ⟨.follow, 208, 27, 23, 5, 0, false⟩ .none .none) .none) (.node
  ⟨.follow, 162, 14, 21, 5, 0, false⟩ .none .none)) (.node ⟨.run, 0, 22, 26, 18, 0, false⟩ (.node
  ⟨.come, 137, 39, 26, 7, 0, false⟩ (.node ⟨.track, 225, 1, 69, 0, 0, false⟩ .none .none) .none)
  (.node ⟨.come, 22, 14, 39, 9, 0, false⟩ .none .none))) (.node ⟨.run, 0, 36, 37, 1, 0, false⟩
  (.node ⟨.follow, 82, 11, 8, 4, 0, false⟩ (.node ⟨.leave, 122, 33, 11, 0, 15, false⟩ (.node
  ⟨.come, 214, 56, 9, 17, 0, false⟩ .none .none) .none) (.node ⟨.track, 27, 17, 64, 0, 0, false⟩
  .none .none)) (.node ⟨.run, 0, 55, 27, 5, 0, false⟩ (.node ⟨.leave, 149, 44, 55, 0, 2, false⟩
  (.node ⟨.depart, 242, 52, 61, 1, 0, false⟩ .none .none) .none) (.node
  ⟨.track, 15, 23, 16, 0, 6, false⟩ .none .none)))) (.node ⟨.come, 36, 14, 24, 9, 0, false⟩ (.node
  ⟨.follow, 45, 16, 13, 5, 0, false⟩ (.node ⟨.track, 65, 44, 11, 0, 16, false⟩ (.node
  ⟨.come, 103, 39, 27, 7, 0, false⟩ (.node ⟨.track, 59, 39, 19, 0, 1, false⟩ .none .none) .none)
  (.node ⟨.come, 155, 22, 33, 17, 0, false⟩ .none .none)) (.node ⟨.follow, 86, 27, 21, 5, 0, false⟩
  (.node ⟨.track, 141, 21, 13, 0, 6, false⟩ (.node ⟨.track, 238, 63, 37, 0, 2, false⟩ .none .none)
  .none) (.node ⟨.track, 173, 37, 61, 0, 0, false⟩ .none .none))) (.node
  ⟨.run, 0, 42, 43, 2, 0, false⟩ (.node ⟨.come, 73, 21, 39, 9, 0, false⟩ (.node
  ⟨.track, 127, 9, 22, 0, 16, false⟩ (.node ⟨.track, 224, 59, 71, 0, 1, false⟩ .none .none) .none)
  (.node ⟨.track, 157, 26, 56, 0, 16, false⟩ .none .none)) (.node
  ⟨.track, 100, 27, 16, 0, 6, false⟩ (.node ⟨.run, 0, 57, 58, 4, 0, false⟩ (.node
  ⟨.track, 7, 71, 0, 0, 39, false⟩ .none .none) .none) (.node ⟨.run, 0, 68, 69, 4, 0, false⟩ .none
  .none))))) (.node ⟨.come, 24, 15, 16, 9, 0, false⟩ (.node ⟨.follow, 32, 22, 10, 4, 0, false⟩
  (.node ⟨.come, 44, 26, 24, 9, 0, false⟩ (.node ⟨.follow, 59, 39, 13, 5, 0, false⟩ (.node
  ⟨.follow, 113, 27, 15, 5, 0, false⟩ (.node ⟨.track, 210, 14, 10, 0, 19, false⟩ .none .none)
  .none) (.node ⟨.follow, 165, 14, 27, 5, 0, false⟩ .none .none)) (.node
  ⟨.run, 0, 51, 52, 4, 0, false⟩ (.node ⟨.follow, 131, 26, 15, 5, 0, false⟩ (.node
  ⟨.track, 236, 52, 49, 0, 5, false⟩ .none .none) .none) (.node ⟨.track, 185, 9, 56, 0, 16, false⟩
  .none .none))) (.node ⟨.come, 23, 16, 15, 7, 0, false⟩ (.node ⟨.follow, 79, 21, 15, 5, 0, false⟩
  (.node ⟨.track, 126, 27, 39, 0, 6, false⟩ (.node ⟨.come, 217, 1, 52, 1, 0, false⟩ .none .none)
  .none) (.node ⟨.follow, 161, 21, 14, 5, 0, false⟩ .none .none)) (.node
  ⟨.track, 95, 12, 22, 0, 16, false⟩ (.node ⟨.come, 154, 56, 12, 17, 0, false⟩ (.node
  ⟨.leave, 195, 66, 65, 0, 0, false⟩ .none .none) .none) (.node ⟨.leave, 197, 12, 10, 0, 18, false⟩
  .none .none)))) (.node ⟨.track, 42, 16, 28, 0, 1, false⟩ (.node ⟨.follow, 52, 22, 8, 4, 0, false⟩
  (.node ⟨.come, 53, 24, 21, 7, 0, false⟩ (.node ⟨.track, 117, 9, 11, 0, 16, false⟩ (.node
  ⟨.track, 208, 27, 10, 0, 19, false⟩ .none .none) .none) (.node ⟨.run, 0, 61, 62, 1, 0, false⟩
  .none .none)) (.node ⟨.track, 88, 27, 24, 0, 6, false⟩ (.node ⟨.depart, 145, 36, 41, 1, 0, false⟩
  (.node ⟨.run, 0, 74, 75, 9, 0, false⟩ .none .none) .none) (.node ⟨.come, 33, 24, 23, 7, 0, false⟩
  .none .none))) (.node ⟨.run, 0, 46, 47, 7, 0, false⟩ (.node ⟨.track, 84, 44, 16, 0, 6, false⟩
  (.node ⟨.run, 0, 6, 17, 3, 0, false⟩ (.node ⟨.leave, 230, 66, 71, 0, 0, false⟩ .none .none)
  .none) (.node ⟨.follow, 180, 53, 59, 2, 0, false⟩ .none .none)) (.node
  ⟨.come, 104, 27, 39, 9, 0, false⟩ (.node ⟨.follow, 158, 14, 26, 5, 0, false⟩ .none .none) (.node
  ⟨.run, 0, 69, 66, 1, 0, false⟩ .none .none)))))) (.node ⟨.track, 1, 7, 0, 0, 14, false⟩ (.node
  ⟨.come, 18, 11, 12, 17, 0, false⟩ (.node ⟨.track, 3, 20, 0, 0, 44, false⟩ (.node
  ⟨.follow, 48, 27, 26, 5, 0, false⟩ (.node ⟨.track, 61, 15, 13, 0, 6, false⟩ (.node
  ⟨.track, 109, 12, 16, 0, 6, false⟩ (.node ⟨.follow, 207, 23, 27, 5, 0, false⟩ .none .none) .none)
  (.node ⟨.track, 168, 52, 1, 0, 0, false⟩ .none .none)) (.node ⟨.follow, 47, 26, 27, 5, 0, false⟩
  (.node ⟨.come, 135, 26, 13, 9, 0, false⟩ (.node ⟨.leave, 232, 59, 71, 0, 0, false⟩ .none .none)
  .none) (.node ⟨.track, 181, 57, 27, 0, 8, false⟩ .none .none))) (.node
  ⟨.come, 54, 21, 24, 9, 0, false⟩ (.node ⟨.follow, 81, 8, 11, 5, 0, false⟩ (.node
  ⟨.come, 124, 8, 12, 20, 0, false⟩ (.node ⟨.follow, 174, 62, 37, 1, 0, false⟩ .none .none) .none)
  (.node ⟨.follow, 163, 8, 56, 5, 0, false⟩ .none .none)) (.node ⟨.come, 94, 27, 16, 9, 0, false⟩
  (.node ⟨.track, 152, 14, 24, 0, 6, false⟩ (.node ⟨.depart, 246, 58, 61, 1, 0, false⟩ .none .none)
  .none) (.node ⟨.run, 0, 66, 67, 4, 0, false⟩ .none .none)))) (.node ⟨.run, 0, 16, 9, 9, 0, false⟩
  (.node ⟨.run, 0, 13, 33, 9, 0, false⟩ (.node ⟨.run, 0, 45, 49, 6, 0, false⟩ (.node
  ⟨.track, 116, 33, 55, 0, 3, false⟩ (.node ⟨.follow, 31, 10, 22, 5, 0, false⟩ .none .none) .none)
  (.node ⟨.track, 174, 62, 36, 0, 0, false⟩ .none .none)) (.node ⟨.come, 43, 24, 26, 7, 0, false⟩
  (.node ⟨.follow, 143, 52, 41, 0, 0, false⟩ (.node ⟨.follow, 240, 72, 73, 4, 0, false⟩ .none
  .none) .none) (.node ⟨.come, 184, 22, 44, 17, 0, false⟩ .none .none))) (.node
  ⟨.run, 0, 39, 44, 9, 0, false⟩ (.node ⟨.track, 71, 21, 16, 0, 6, false⟩ (.node
  ⟨.leave, 129, 9, 22, 0, 15, false⟩ (.node ⟨.leave, 228, 58, 1, 1, 0, false⟩ .none .none) .none)
  (.node ⟨.follow, 178, 42, 53, 1, 0, false⟩ .none .none)) (.node ⟨.come, 102, 55, 9, 4, 0, false⟩
  (.node ⟨.run, 0, 59, 60, 2, 0, false⟩ .none .none) (.node ⟨.track, 202, 26, 10, 0, 19, false⟩
  .none .none))))) (.node ⟨.track, 9, 18, 3, 0, 1, false⟩ (.node ⟨.run, 0, 24, 12, 9, 0, false⟩
  (.node ⟨.follow, 41, 24, 16, 5, 0, false⟩ (.node ⟨.come, 67, 39, 15, 7, 0, false⟩ (.node
  ⟨.leave, 111, 44, 11, 0, 15, false⟩ (.node ⟨.follow, 212, 19, 70, 1, 0, false⟩ .none .none)
  .none) (.node ⟨.track, 83, 9, 39, 0, 6, false⟩ .none .none)) (.node
  ⟨.run, 0, 53, 54, 4, 0, false⟩ (.node ⟨.depart, 139, 30, 41, 1, 0, false⟩ (.node
  ⟨.depart, 235, 50, 52, 1, 0, false⟩ .none .none) .none) (.node
  ⟨.depart, 187, 30, 58, 1, 0, false⟩ .none .none))) (.node ⟨.run, 0, 40, 41, 4, 0, false⟩ (.node
  ⟨.come, 77, 21, 13, 9, 0, false⟩ (.node ⟨.come, 37, 16, 26, 7, 0, false⟩ (.node
  ⟨.track, 222, 58, 68, 0, 1, false⟩ .none .none) .none) (.node ⟨.follow, 159, 22, 56, 4, 0, false⟩
  .none .none)) (.node ⟨.leave, 97, 12, 22, 0, 15, false⟩ (.node ⟨.run, 0, 56, 14, 18, 0, false⟩
  (.node ⟨.come, 21, 39, 14, 7, 0, false⟩ .none .none) .none) (.node
  ⟨.run, 0, 23, 68, 10, 0, false⟩ .none .none)))) (.node ⟨.run, 0, 17, 16, 3, 0, false⟩ (.node
  ⟨.run, 0, 21, 35, 10, 0, false⟩ (.node ⟨.come, 74, 39, 21, 7, 0, false⟩ (.node
  ⟨.leave, 119, 9, 11, 0, 15, false⟩ (.node ⟨.leave, 216, 33, 8, 0, 18, false⟩ .none .none) .none)
  (.node ⟨.run, 0, 62, 63, 2, 0, false⟩ .none .none)) (.node ⟨.come, 90, 55, 12, 4, 0, false⟩
  (.node ⟨.come, 147, 55, 33, 4, 0, false⟩ (.node ⟨.run, 0, 72, 46, 7, 0, false⟩ .none .none)
  .none) (.node ⟨.track, 191, 12, 10, 0, 19, false⟩ .none .none))) (.node
  ⟨.follow, 60, 13, 39, 5, 0, false⟩ (.node ⟨.track, 50, 26, 8, 0, 19, false⟩ (.node
  ⟨.come, 136, 13, 26, 7, 0, false⟩ (.node ⟨.come, 229, 71, 66, 2, 0, false⟩ .none .none) .none)
  (.node ⟨.come, 175, 16, 14, 7, 0, false⟩ .none .none)) (.node ⟨.come, 108, 13, 27, 7, 0, false⟩
  (.node ⟨.follow, 164, 56, 8, 4, 0, false⟩ .none .none) (.node ⟨.track, 206, 33, 16, 0, 6, false⟩
  .none .none))))))) (.node ⟨.track, 4, 4, 0, 0, 29, false⟩ (.node ⟨.track, 10, 6, 7, 0, 1, false⟩
  (.node ⟨.track, 13, 10, 0, 0, 16, false⟩ (.node ⟨.track, 12, 6, 20, 0, 1, false⟩ (.node
  ⟨.run, 0, 19, 13, 3, 0, false⟩ (.node ⟨.come, 64, 13, 15, 7, 0, false⟩ (.node
  ⟨.follow, 42, 16, 24, 5, 0, false⟩ (.node ⟨.follow, 201, 23, 26, 5, 0, false⟩ .none .none) .none)
  (.node ⟨.depart, 146, 41, 36, 1, 0, false⟩ .none .none)) (.node
  ⟨.follow, 49, 21, 26, 5, 0, false⟩ (.node ⟨.track, 134, 26, 39, 0, 6, false⟩ (.node
  ⟨.track, 221, 69, 57, 0, 1, false⟩ .none .none) .none) (.node ⟨.follow, 182, 51, 57, 1, 0, false⟩
  .none .none))) (.node ⟨.run, 0, 37, 38, 4, 0, false⟩ (.node ⟨.follow, 80, 15, 21, 5, 0, false⟩
  (.node ⟨.come, 121, 11, 33, 17, 0, false⟩ (.node ⟨.leave, 213, 9, 56, 0, 15, false⟩ .none .none)
  .none) (.node ⟨.run, 0, 64, 19, 3, 0, false⟩ .none .none)) (.node
  ⟨.leave, 92, 9, 8, 0, 18, false⟩ (.node ⟨.come, 35, 24, 14, 7, 0, false⟩ (.node
  ⟨.depart, 243, 36, 58, 1, 0, false⟩ .none .none) .none) (.node ⟨.come, 196, 65, 66, 2, 0, false⟩
  .none .none)))) (.node ⟨.come, 38, 26, 16, 9, 0, false⟩ (.node ⟨.run, 0, 31, 32, 2, 0, false⟩
  (.node ⟨.come, 57, 46, 45, 6, 0, false⟩ (.node ⟨.come, 91, 8, 9, 20, 0, false⟩ (.node
  ⟨.follow, 211, 70, 19, 1, 0, false⟩ .none .none) .none) (.node
  ⟨.depart, 172, 61, 36, 1, 0, false⟩ .none .none)) (.node ⟨.follow, 85, 21, 27, 5, 0, false⟩
  (.node ⟨.follow, 144, 41, 52, 0, 0, false⟩ (.node ⟨.track, 237, 38, 62, 0, 1, false⟩ .none .none)
  .none) (.node ⟨.track, 189, 36, 29, 0, 1, false⟩ .none .none))) (.node
  ⟨.follow, 55, 16, 39, 5, 0, false⟩ (.node ⟨.come, 70, 16, 21, 7, 0, false⟩ (.node
  ⟨.come, 130, 22, 9, 17, 0, false⟩ (.node ⟨.run, 0, 71, 1, 3, 0, false⟩ .none .none) .none) (.node
  ⟨.come, 176, 14, 16, 9, 0, false⟩ .none .none)) (.node ⟨.track, 99, 9, 55, 0, 3, false⟩ (.node
  ⟨.run, 0, 58, 59, 1, 0, false⟩ .none .none) (.node ⟨.leave, 200, 44, 8, 0, 18, false⟩ .none
  .none))))) (.node ⟨.track, 26, 17, 18, 0, 0, false⟩ (.node ⟨.come, 34, 23, 24, 9, 0, false⟩
  (.node ⟨.run, 0, 29, 30, 4, 0, false⟩ (.node ⟨.come, 68, 15, 39, 9, 0, false⟩ (.node
  ⟨.come, 112, 11, 44, 17, 0, false⟩ (.node ⟨.follow, 209, 23, 14, 5, 0, false⟩ .none .none) .none)
  (.node ⟨.follow, 84, 44, 9, 3, 0, false⟩ .none .none)) (.node ⟨.run, 0, 52, 53, 1, 0, false⟩
  (.node ⟨.depart, 140, 41, 30, 1, 0, false⟩ (.node ⟨.leave, 234, 69, 1, 1, 0, false⟩ .none .none)
  .none) (.node ⟨.depart, 188, 58, 30, 1, 0, false⟩ .none .none))) (.node
  ⟨.run, 0, 15, 40, 9, 0, false⟩ (.node ⟨.come, 78, 13, 21, 7, 0, false⟩ (.node
  ⟨.track, 125, 44, 55, 0, 3, false⟩ (.node ⟨.track, 220, 57, 23, 0, 8, false⟩ .none .none) .none)
  (.node ⟨.track, 158, 14, 22, 0, 16, false⟩ .none .none)) (.node ⟨.come, 98, 22, 12, 17, 0, false⟩
  (.node ⟨.leave, 153, 12, 56, 0, 15, false⟩ (.node ⟨.track, 8, 65, 0, 0, 40, false⟩ .none .none)
  .none) (.node ⟨.run, 0, 10, 23, 21, 0, false⟩ .none .none)))) (.node
  ⟨.follow, 25, 28, 17, 1, 0, false⟩ (.node ⟨.run, 0, 8, 21, 21, 0, false⟩ (.node
  ⟨.track, 72, 9, 8, 0, 19, false⟩ (.node ⟨.come, 120, 11, 9, 17, 0, false⟩ (.node
  ⟨.come, 199, 8, 44, 20, 0, false⟩ .none .none) .none) (.node ⟨.follow, 173, 37, 62, 2, 0, false⟩
  .none .none)) (.node ⟨.track, 87, 12, 55, 0, 3, false⟩ (.node ⟨.leave, 148, 33, 55, 0, 2, false⟩
  (.node ⟨.follow, 239, 73, 72, 2, 0, false⟩ .none .none) .none) (.node
  ⟨.track, 192, 23, 24, 0, 6, false⟩ .none .none))) (.node ⟨.run, 0, 47, 48, 4, 0, false⟩ (.node
  ⟨.follow, 83, 9, 44, 3, 0, false⟩ (.node ⟨.follow, 132, 15, 26, 5, 0, false⟩ (.node
  ⟨.come, 227, 1, 58, 1, 0, false⟩ .none .none) .none) (.node ⟨.follow, 179, 59, 53, 1, 0, false⟩
  .none .none)) (.node ⟨.track, 106, 21, 24, 0, 6, false⟩ (.node
  ⟨.follow, 160, 56, 22, 4, 0, false⟩ .none .none) (.node ⟨.track, 56, 39, 17, 0, 1, false⟩ .none
  .none)))))) (.node ⟨.track, 14, 8, 0, 8, 0, false⟩ (.node ⟨.come, 20, 13, 14, 7, 0, false⟩ (.node
  ⟨.track, 30, 21, 10, 0, 19, false⟩ (.node ⟨.run, 0, 26, 29, 9, 0, false⟩ (.node
  ⟨.come, 63, 15, 13, 9, 0, false⟩ (.node ⟨.follow, 114, 15, 27, 5, 0, false⟩ (.node
  ⟨.follow, 203, 10, 56, 5, 0, false⟩ .none .none) .none) (.node ⟨.depart, 167, 2, 52, 1, 0, false⟩
  .none .none)) (.node ⟨.run, 0, 27, 51, 10, 0, false⟩ (.node ⟨.track, 133, 44, 22, 0, 16, false⟩
  (.node ⟨.come, 231, 71, 59, 2, 0, false⟩ .none .none) .none) (.node
  ⟨.track, 186, 14, 16, 0, 6, false⟩ .none .none))) (.node ⟨.follow, 56, 39, 16, 5, 0, false⟩
  (.node ⟨.track, 80, 15, 8, 0, 19, false⟩ (.node ⟨.leave, 123, 12, 8, 0, 18, false⟩ (.node
  ⟨.leave, 218, 52, 1, 1, 0, false⟩ .none .none) .none) (.node ⟨.track, 162, 14, 8, 0, 19, false⟩
  .none .none)) (.node ⟨.track, 96, 26, 24, 0, 6, false⟩ (.node ⟨.track, 151, 12, 56, 0, 16, false⟩
  (.node ⟨.depart, 245, 61, 58, 1, 0, false⟩ .none .none) .none) (.node
  ⟨.come, 198, 10, 12, 20, 0, false⟩ .none .none)))) (.node ⟨.come, 40, 27, 24, 9, 0, false⟩ (.node
  ⟨.run, 0, 33, 34, 4, 0, false⟩ (.node ⟨.run, 0, 49, 50, 8, 0, false⟩ (.node
  ⟨.track, 118, 15, 16, 0, 6, false⟩ (.node ⟨.follow, 210, 14, 23, 5, 0, false⟩ .none .none) .none)
  (.node ⟨.depart, 171, 36, 61, 1, 0, false⟩ .none .none)) (.node ⟨.come, 39, 24, 27, 7, 0, false⟩
  (.node ⟨.follow, 146, 41, 36, 0, 0, false⟩ (.node ⟨.run, 0, 73, 74, 5, 0, false⟩ .none .none)
  .none) (.node ⟨.leave, 183, 44, 22, 0, 15, false⟩ .none .none))) (.node
  ⟨.come, 58, 45, 46, 6, 0, false⟩ (.node ⟨.come, 69, 21, 16, 9, 0, false⟩ (.node
  ⟨.track, 25, 28, 6, 0, 0, false⟩ (.node ⟨.track, 223, 1, 58, 0, 0, false⟩ .none .none) .none)
  (.node ⟨.depart, 168, 52, 2, 1, 0, false⟩ .none .none)) (.node ⟨.leave, 101, 9, 55, 0, 2, false⟩
  (.node ⟨.leave, 156, 33, 22, 0, 15, false⟩ .none .none) (.node
  ⟨.follow, 204, 56, 10, 4, 0, false⟩ .none .none))))) (.node ⟨.track, 5, 3, 0, 0, 24, false⟩
  (.node ⟨.run, 0, 12, 25, 15, 0, false⟩ (.node ⟨.run, 0, 30, 31, 1, 0, false⟩ (.node
  ⟨.track, 66, 15, 39, 0, 6, false⟩ (.node ⟨.come, 107, 27, 13, 9, 0, false⟩ (.node
  ⟨.run, 0, 70, 39, 3, 0, false⟩ .none .none) .none) (.node ⟨.track, 170, 33, 22, 0, 16, false⟩
  .none .none)) (.node ⟨.follow, 50, 26, 21, 5, 0, false⟩ (.node ⟨.track, 142, 33, 8, 0, 19, false⟩
  (.node ⟨.come, 233, 1, 69, 1, 0, false⟩ .none .none) .none) (.node
  ⟨.track, 190, 30, 35, 0, 1, false⟩ .none .none))) (.node ⟨.run, 0, 41, 42, 1, 0, false⟩ (.node
  ⟨.track, 75, 21, 39, 0, 6, false⟩ (.node ⟨.track, 128, 26, 16, 0, 6, false⟩ (.node
  ⟨.follow, 219, 68, 57, 1, 0, false⟩ .none .none) .none) (.node
  ⟨.follow, 157, 26, 14, 5, 0, false⟩ .none .none)) (.node ⟨.come, 93, 16, 27, 7, 0, false⟩ (.node
  ⟨.run, 0, 14, 57, 9, 0, false⟩ (.node ⟨.track, 11, 76, 3, 0, 1, false⟩ .none .none) .none) (.node
  ⟨.come, 193, 23, 16, 9, 0, false⟩ .none .none)))) (.node ⟨.track, 46, 13, 17, 0, 1, false⟩ (.node
  ⟨.run, 0, 35, 36, 4, 0, false⟩ (.node ⟨.track, 76, 44, 8, 0, 19, false⟩ (.node
  ⟨.track, 115, 27, 13, 0, 6, false⟩ (.node ⟨.come, 215, 8, 33, 20, 0, false⟩ .none .none) .none)
  (.node ⟨.track, 169, 26, 13, 0, 6, false⟩ .none .none)) (.node ⟨.leave, 89, 12, 55, 0, 2, false⟩
  (.node ⟨.come, 150, 55, 44, 4, 0, false⟩ (.node ⟨.follow, 29, 23, 21, 5, 0, false⟩ .none .none)
  .none) (.node ⟨.come, 194, 16, 23, 7, 0, false⟩ .none .none))) (.node
  ⟨.track, 62, 33, 11, 0, 16, false⟩ (.node ⟨.follow, 51, 8, 22, 5, 0, false⟩ (.node
  ⟨.come, 138, 26, 39, 9, 0, false⟩ (.node ⟨.track, 226, 66, 71, 0, 1, false⟩ .none .none) .none)
  (.node ⟨.come, 19, 14, 13, 9, 0, false⟩ .none .none)) (.node ⟨.follow, 110, 9, 12, 5, 0, false⟩
  (.node ⟨.follow, 166, 27, 14, 5, 0, false⟩ .none .none) (.node ⟨.follow, 46, 13, 16, 5, 0, false⟩
  .none .none)))))))

/-- the bounds of the departures -/
def real5Times : TimeTree :=
  .node 10 0 10 (.node 53 4 93 (.node 24 0 64 (.node 10 0 50 (.node 75 0 115 (.node 59 0 99 (.node
  73 6 113 .none .none) .none) (.node 61 0 101 .none .none)) (.node 23 0 63 (.node 68 0 108 (.node
  50 0 90 .none .none) .none) (.node 35 0 75 .none .none))) (.node 57 0 97 (.node 60 0 100 (.node
  57 0 97 (.node 42 4 82 .none .none) .none) (.node 51 0 91 .none .none)) (.node 41 0 81 (.node 91
  6 131 (.node 59 6 99 .none .none) .none) (.node 42 0 82 .none .none)))) (.node 34 0 74 (.node 52
  4 92 (.node 40 0 80 (.node 72 0 112 (.node 49 0 89 .none .none) .none) (.node 57 0 97 .none
  .none)) (.node 48 6 88 (.node 88 0 128 (.node 45 0 85 .none .none) .none) (.node 37 0 77 .none
  .none))) (.node 63 0 103 (.node 47 0 87 (.node 62 0 102 (.node 37 0 77 .none .none) .none) (.node
  56 0 96 .none .none)) (.node 54 0 94 (.node 51 0 91 .none .none) (.node 70 0 110 .none .none)))))
  (.node 24 0 64 (.node 54 0 94 (.node 26 0 66 (.node 43 0 83 (.node 61 7 101 (.node 52 0 92 .none
  .none) .none) (.node 65 4 105 .none .none)) (.node 24 0 64 (.node 84 0 124 (.node 46 0 86 .none
  .none) .none) (.node 10 0 50 .none .none))) (.node 33 0 73 (.node 39 0 79 (.node 61 0 101 (.node
  33 0 73 .none .none) .none) (.node 55 0 95 .none .none)) (.node 21 0 61 (.node 77 4 117 (.node 42
  0 82 .none .none) .none) (.node 44 6 84 .none .none)))) (.node 27 0 67 (.node 2 0 42 (.node 13 0
  53 (.node 76 4 116 (.node 38 0 78 .none .none) .none) (.node 65 4 105 .none .none)) (.node 45 0
  85 (.node 89 0 129 (.node 50 0 90 .none .none) .none) (.node 41 0 81 .none .none))) (.node 28 0
  68 (.node 27 0 67 (.node 66 4 106 (.node 65 0 105 .none .none) .none) (.node 60 4 100 .none
  .none)) (.node 58 0 98 (.node 53 0 93 .none .none) (.node 71 0 111 .none .none)))))

/-- some of the cases -/
def real5Case0 : SumTree :=
  .cases [] 98 (.leaf [243, 244, 245, 247, 251, 307, 308]) (.cycle 12 [237, 242])

/-- some of the cases -/
def real5Case1 : SumTree :=
  .cases [90, 25, 153, 95, 34, 36, 38, 40] 78 (.leaf [214]) (.cases [] 92 (.leaf
  [227, 181, 182, 187, 183, 34, 184, 36, 185, 38, 40]) (.cases [] 87 (.cycle 16 [221, 226]) (.cases
  [] 68 (.cases [159, 34, 36, 38, 40] 49 (.leaf [120, 111, 98, 99, 100, 101]) (.cases [] 66 (.cases
  [162, 95, 34, 36, 38, 40] 80 (.leaf [211, 182, 216, 183, 25, 184, 185]) (.cases [] 46 (.cycle 16
  [118, 119]) (.cases [] 104 (.cases [260, 182, 183, 184, 185] 65 (.leaf [163, 52, 53, 54, 55])
  (.cases [156, 34, 36, 38, 40] 42 (.leaf [104, 98, 113, 99, 25, 100, 101]) (.cases [] 82 (.leaf
  [195, 98, 103, 99, 90, 100, 25, 101]) (.leaf [190, 182, 191, 183, 90, 184, 25, 185])))) (.cases
  [266, 245, 247, 251, 241] 65 (.leaf [163, 52, 53, 54, 55]) (.cases [156, 34, 36, 38, 40] 42
  (.leaf [104, 98, 113, 99, 25, 100, 101]) (.cases [] 103 (.leaf
  [257, 98, 103, 99, 45, 90, 100, 46, 25, 101, 47, 48]) (.leaf
  [255, 245, 302, 247, 45, 90, 251, 46, 25, 241, 47, 48]))))))) (.cycle 39 [159, 160]))) (.cases
  [158, 57] 23 (.leaf [97, 98, 99, 100, 101]) (.cases [] 57 (.cases [] 53 (.cases [] 33 (.cases
  [69, 52, 53, 54, 55] 29 (.leaf [67, 41, 42]) (.cases [] 67 (.leaf
  [161, 41, 61, 42, 57, 69, 52, 53, 54, 55]) (.cases
  [157, 34, 158, 36, 57, 69, 38, 52, 40, 53, 54, 55] 28 (.leaf [72, 73, 74]) (.cases [58, 59, 60]
  110 (.leaf [288, 183, 184, 185]) (.cases [277, 247, 251, 241] 83 (.leaf [194, 100, 101]) (.leaf
  [193])))))) (.cases [68, 57] 65 (.cases [] 22 (.cases [] 29 (.leaf [67, 41, 42]) (.cases [] 49
  (.leaf [120, 111, 98, 33, 134, 99, 34, 41, 100, 36, 42, 101, 38, 40]) (.cases [] 46 (.cycle 16
  [118, 119]) (.cases [] 31 (.leaf [66, 41, 61, 42, 57]) (.cases [] 67 (.leaf
  [161, 41, 64, 42, 68, 57]) (.cases [] 101 (.cases [258, 181, 182, 183, 184, 185] 84 (.cycle 13
  [157, 206]) (.leaf [198, 95, 34, 163, 36, 52, 68, 38, 53, 57, 40, 54, 55])) (.cases
  [250, 244, 245, 302, 247, 45, 251, 46, 241, 47, 48] 42 (.leaf
  [104, 98, 113, 99, 25, 39, 100, 157, 101, 34, 36, 38, 40]) (.cases [] 103 (.leaf [257, 98, 103,
  99, 45, 90, 100, 46, 25, 39, 101, 47, 157, 48, 34, 36, 38, 40]) (.leaf [255, 245, 302, 247, 90,
  251, 25, 39, 241, 157, 34, 163, 36, 68, 38, 57, 40]))))))))) (.cycle 13 [30, 31, 32])) (.leaf
  [156, 34, 158, 36, 57, 38, 40]))) (.cycle 13 [125, 142])) (.leaf
  [137, 111, 33, 34, 158, 36, 57, 38, 40]))))))

/-- some of the cases -/
def real5Case2 : SumTree :=
  .cases [118, 98, 99, 100, 101] 104 (.cases [260, 182, 183, 184, 185] 65 (.cases [] 66 (.leaf
  [162, 95, 34, 36, 38, 40]) (.cases [] 87 (.cases [221, 182, 183, 184, 185] 84 (.cases [] 57
  (.cases [] 67 (.cases [] 68 (.cycle 39 [159, 160]) (.cases [] 53 (.cases [] 24 (.cases
  [96, 34, 161, 158, 36, 41, 57, 38, 42, 40] 122 (.leaf [306, 184, 185]) (.cases [] 117 (.cases []
  85 (.leaf [202, 203, 205]) (.cases [] 78 (.leaf [214, 182, 223, 183, 57, 184, 185]) (.cases [] 82
  (.leaf [195, 98, 99, 100, 101]) (.leaf [190, 182, 183, 184, 305, 185, 200, 47, 48])))) (.leaf
  [291, 74]))) (.cases [102, 45, 46, 47, 48] 78 (.leaf [214, 182, 223, 183, 57, 184, 185]) (.cases
  [] 42 (.leaf [104, 98, 134, 99, 41, 100, 42, 101]) (.cases [] 82 (.cases [195, 98, 99, 100, 101]
  23 (.leaf [97, 98, 134, 103, 99, 41, 45, 100, 42, 46, 101, 47, 48]) (.leaf
  [33, 34, 102, 36, 45, 38, 46, 40, 47, 48])) (.leaf [190, 182, 187, 183, 34, 102, 184, 36, 45,
  185, 38, 46, 40, 47, 48]))))) (.cycle 13 [125, 142]))) (.cycle 13 [157, 206])) (.leaf
  [137, 111, 98, 99, 100, 101])) (.leaf [198, 95, 34, 36, 38, 40])) (.cases [216, 25, 118, 153,
  112, 98, 95, 44, 99, 34, 45, 100, 36, 46, 101, 38, 47, 40, 48] 39 (.cases [] 57 (.cases [] 68
  (.cycle 39 [159, 160]) (.cases [158, 57] 53 (.cases [134, 41, 42] 38 (.cases [85, 41, 42] 31
  (.leaf [66, 41, 42]) (.leaf [64, 52, 53, 54, 55])) (.leaf [84, 45, 46, 47, 48])) (.cycle 13
  [125, 142]))) (.leaf [137, 111, 98, 99, 100, 101])) (.leaf [80, 45, 46, 47, 48])))) (.leaf
  [156, 34, 36, 38, 40])) (.cases [266, 245, 246, 247, 25, 118, 251, 153, 112, 98, 241, 95, 44, 99,
  34, 45, 100, 36, 46, 101, 38, 47, 40, 48] 84 (.cases [] 66 (.leaf [162, 95, 34, 36, 38, 40])
  (.cases [] 68 (.cycle 39 [159, 160]) (.cases [158, 57] 67 (.cases [161, 41, 42] 33 (.cases
  [69, 52, 53, 54, 55] 28 (.leaf [72, 73, 74]) (.leaf [58, 59, 60])) (.leaf [68, 57])) (.cycle 13
  [157, 206])))) (.leaf [198, 95, 34, 36, 38, 40]))

/-- some of the cases -/
def real5Case3 : SumTree :=
  .cases [113, 25, 153, 112, 95, 44, 34, 45, 36, 46, 38, 47, 40, 48] 93 (.leaf [229, 184, 185])
  (.cases [] 121 (.leaf [304, 184, 228, 185, 38, 40]) (.cases [] 78 (.leaf
  [214, 182, 183, 184, 228, 185, 38, 40]) (.cases [] 80 (.leaf
  [211, 182, 187, 183, 34, 184, 36, 185, 38, 40]) (.cases [] 81 (.cycle 8 [209, 181, 210]) (.cases
  [] 106 (.leaf [272, 181, 182, 222, 187, 183, 41, 34, 184, 42, 36, 185, 38, 40]) (.cases [] 67
  (.cases [161, 41, 42] 65 (.cases [] 92 (.cycle 9 [227, 271]) (.cases [] 87 (.cycle 16 [221, 226])
  (.cases [] 91 (.leaf [234, 95, 34, 161, 36, 41, 38, 42, 40]) (.cases [] 24 (.cases
  [96, 34, 161, 36, 41, 38, 42, 40] 66 (.cycle 44 [162, 233]) (.cases [] 30 (.cases [] 68 (.cycle
  39 [159, 160]) (.cases [158, 57] 31 (.cases [66, 41, 42] 33 (.leaf [69, 66, 41, 42]) (.leaf
  [68, 57])) (.cycle 13 [64, 65]))) (.leaf [62, 63, 52, 53, 54, 55]))) (.cases
  [102, 45, 46, 47, 48] 66 (.cycle 44 [162, 233]) (.cases [] 36 (.cases [87, 57] 32 (.leaf
  [71, 63, 52, 53, 54, 55]) (.cases [] 33 (.cycle 39 [69, 70]) (.cases [68, 57] 82 (.cases [] 103
  (.cases [] 101 (.leaf [258, 181, 182, 195, 183, 113, 184, 25, 185, 153, 95, 34, 161, 102, 36, 41,
  45, 38, 42, 46, 40, 47, 48]) (.leaf [250, 244, 245, 257, 247, 113, 251, 25, 241, 153, 95, 34,
  161, 36, 41, 38, 42, 40])) (.leaf [255, 245, 246, 247, 25, 251, 153, 241, 95, 34, 102, 36, 45,
  38, 46, 40, 47, 48])) (.leaf [190, 182, 216, 183, 25, 184, 153, 185, 95, 34, 161, 36, 41, 38, 42,
  40])))) (.cases [] 68 (.cycle 39 [159, 160]) (.cases [158, 57, 77, 45, 46, 47, 48] 38 (.leaf
  [85, 41, 42]) (.cases [] 31 (.leaf [66, 84]) (.cases [64, 52, 53, 54, 55] 28 (.leaf [72, 73, 74])
  (.cases [58, 59, 60] 110 (.leaf [288, 183, 184, 185]) (.cases [277, 247, 251, 241] 83 (.leaf
  [194, 100, 101]) (.leaf [193]))))))))))))) (.leaf [156, 34, 161, 36, 41, 38, 42, 40])) (.cases
  [157, 34, 36, 38, 40] 31 (.leaf [66, 157]) (.cases [] 38 (.leaf
  [85, 41, 157, 64, 42, 34, 52, 36, 53, 38, 54, 40, 55]) (.cases [84, 45, 46, 47, 48] 65 (.cases []
  33 (.cases [] 68 (.leaf [159, 34, 163, 36, 52, 38, 53, 40, 54, 55]) (.leaf
  [158, 69, 52, 53, 54, 55])) (.leaf [68, 57])) (.leaf [156, 34, 36, 38, 40]))))))))))

/-- some of the cases -/
def real5Case4 : SumTree :=
  .cases [72, 73, 74] 87 (.cycle 16 [221, 226]) (.cases [] 29 (.cases [67, 41, 42] 88 (.cases [] 56
  (.cases [] 62 (.leaf [148, 111, 98, 99, 100, 101]) (.cases [] 51 (.cycle 39 [135, 147]) (.cases
  [] 31 (.cases [66, 41, 42] 78 (.leaf [214, 182, 216, 183, 25, 184, 185]) (.cases [] 49 (.leaf
  [120, 111, 98, 123, 99, 57, 100, 101]) (.cases [] 46 (.cycle 16 [118, 119]) (.cases [] 32 (.cases
  [71, 63, 52, 66, 53, 41, 54, 42, 55] 80 (.leaf [211, 182, 187, 183, 24, 184, 25, 185]) (.cases []
  23 (.leaf [97, 98, 113, 99, 25, 100, 101]) (.cases [] 82 (.cases [195, 98, 99, 100, 101] 42
  (.leaf [104, 33, 34, 24, 36, 25, 38, 40]) (.leaf [103, 96, 34, 24, 36, 25, 38, 40])) (.leaf
  [190, 182, 191, 183, 96, 184, 34, 24, 185, 36, 25, 38, 40])))) (.cases [] 82 (.cases
  [195, 98, 99, 100, 101] 42 (.cases [104, 98, 99, 100, 101] 33 (.cycle 15 [70, 69]) (.leaf
  [68, 57, 67, 41, 42])) (.cases [103, 45, 96, 46, 34, 24, 47, 36, 25, 48, 38, 40] 119 (.cases
  [300, 301, 72, 73, 74] 41 (.cases [] 27 (.leaf [56, 57]) (.cycle 39 [50, 25, 197])) (.cycle 15
  [70, 57, 91, 51])) (.leaf [297, 298, 299]))) (.cases [190, 182, 183, 184, 185] 33 (.cycle 15
  [70, 69]) (.leaf [68, 57, 67, 41, 42]))))))) (.cases [64, 52, 53, 54, 55] 78 (.leaf
  [214, 182, 216, 183, 25, 184, 185]) (.cases [] 49 (.leaf [120, 111, 98, 123, 99, 57, 100, 101])
  (.cases [] 46 (.cycle 16 [118, 119]) (.cases [] 30 (.cycle 13 [64, 65]) (.cases
  [62, 63, 52, 53, 54, 55] 80 (.leaf [211, 182, 187, 183, 34, 24, 184, 36, 25, 185, 38, 40])
  (.cases [] 82 (.cases [195, 98, 99, 100, 101] 42 (.cases [104, 98, 99, 100, 101] 41 (.cases [] 27
  (.cases [] 23 (.leaf [97, 98, 113, 99, 25, 56, 100, 67, 101, 41, 42, 62, 63, 52, 53, 54, 55])
  (.leaf [33, 34, 24, 36, 25, 56, 38, 57, 67, 40, 41, 62, 63, 52, 53, 54, 55])) (.cycle 39
  [50, 25, 197])) (.leaf [196, 91, 39, 41, 42, 62, 63, 52, 53, 54, 55])) (.cases
  [103, 45, 96, 46, 34, 24, 47, 36, 25, 48, 38, 40] 119 (.leaf [300, 301, 72, 73, 74]) (.leaf
  [297, 298, 299]))) (.leaf [190, 182, 191, 183, 96, 184, 34, 24, 185, 36, 25, 38, 40]))))))))))
  (.leaf [130, 98, 99, 100, 101])) (.leaf [217, 101])) (.cases [61, 57] 56 (.cases [] 33 (.cases []
  57 (.cases [] 51 (.cycle 13 [61, 135, 142]) (.cases [] 32 (.cases [] 78 (.leaf
  [214, 182, 216, 183, 25, 39, 184, 41, 61, 185, 42, 57]) (.cases [] 49 (.leaf
  [120, 111, 98, 123, 99, 57, 100, 101]) (.cases [] 55 (.cases [] 46 (.cycle 16 [118, 119]) (.cases
  [] 82 (.cases [195, 98, 99, 100, 101] 42 (.cases [104, 98, 99, 100, 101] 23 (.leaf [97, 98, 113,
  99, 25, 39, 100, 61, 101, 57, 133, 63, 52, 53, 54, 55]) (.leaf [33, 34, 24, 36, 25, 39, 38, 61,
  40, 57, 133, 63, 52, 53, 54, 55])) (.leaf [103, 45, 96, 46, 34, 24, 47, 36, 25, 39, 48, 38, 61,
  40, 57, 133, 63, 52, 53, 54, 55])) (.cases [190, 182, 183, 184, 185] 80 (.leaf [211, 182, 187,
  183, 34, 24, 184, 36, 25, 39, 185, 38, 41, 61, 40, 42, 57]) (.leaf [191, 96, 34, 24, 36, 25, 39,
  38, 61, 40, 57, 133, 63, 52, 53, 54, 55])))) (.cycle 44 [71, 132])))) (.cycle 39 [69, 70])))
  (.leaf [137, 111, 98, 131, 99, 52, 100, 53, 101, 54, 55])) (.cases [68, 57] 78 (.leaf
  [214, 182, 216, 183, 25, 184, 185]) (.cases [] 49 (.leaf
  [120, 111, 98, 131, 99, 68, 100, 57, 101]) (.cases [] 46 (.cycle 16 [118, 119]) (.cases [] 30
  (.cases [] 82 (.cases [195, 98, 99, 100, 101] 42 (.cases [104, 98, 99, 100, 101] 31 (.leaf
  [66, 41, 61, 42, 57]) (.cycle 15 [65, 64])) (.cases
  [103, 45, 96, 46, 34, 24, 47, 36, 25, 39, 48, 38, 41, 40, 42] 119 (.leaf [300, 301, 72, 73, 74])
  (.leaf [297, 298, 299]))) (.cases [190, 182, 183, 184, 185] 31 (.leaf [66, 41, 61, 42, 57])
  (.cycle 15 [65, 64]))) (.cases [] 80 (.leaf [211, 182, 187, 183, 34, 24, 184, 36, 25, 39, 185,
  38, 41, 40, 62, 63, 68, 57]) (.cases [] 82 (.cases [195, 98, 99, 100, 101] 42 (.cases
  [104, 98, 99, 100, 101] 23 (.leaf [97, 98, 113, 99, 25, 39, 100, 41, 101, 62, 63, 68, 57]) (.leaf
  [33, 34, 24, 36, 25, 39, 38, 41, 40, 62, 63, 68, 57])) (.leaf
  [103, 96, 34, 24, 36, 25, 39, 38, 41, 40, 42, 62, 63, 68, 57])) (.leaf [190, 182, 191, 183, 96,
  184, 34, 24, 185, 36, 25, 39, 38, 41, 40, 62, 63, 68, 57])))))))) (.leaf
  [130, 98, 99, 100, 101])))

/-- some of the cases -/
def real5Case5 : SumTree :=
  .cases [67, 41, 42] 57 (.cases [] 87 (.cycle 16 [221, 226]) (.cases [] 53 (.cases [] 31 (.cases
  [66, 41, 42] 78 (.leaf [214, 182, 216, 183, 25, 184, 185]) (.cases [] 49 (.leaf
  [120, 111, 98, 99, 100, 101]) (.cases [] 32 (.cases [71, 63, 52, 66, 53, 41, 54, 42, 55] 80
  (.leaf [211, 182, 187, 183, 34, 24, 184, 36, 25, 185, 38, 40]) (.cases [] 46 (.cycle 16
  [118, 119]) (.cases [] 82 (.cases [195, 98, 99, 100, 101] 42 (.cases [104, 98, 99, 100, 101] 23
  (.leaf [97, 98, 113, 99, 25, 100, 101]) (.leaf [33, 34, 24, 36, 25, 38, 40])) (.leaf
  [103, 45, 96, 46, 34, 24, 47, 36, 25, 48, 38, 40])) (.leaf
  [190, 182, 191, 183, 96, 184, 34, 24, 185, 36, 25, 38, 40])))) (.cases [] 46 (.cycle 16
  [118, 119]) (.cases [] 33 (.cycle 15 [70, 69]) (.cases [68, 57, 67, 41, 42] 89 (.cases [] 82
  (.cases [195] 23 (.leaf [97, 98, 113, 99, 25, 100, 101]) (.cases [] 42 (.leaf
  [104, 33, 34, 24, 36, 25, 38, 40]) (.leaf [103, 96, 34, 24, 36, 25, 38, 40]))) (.leaf
  [190, 182, 183, 184, 185])) (.leaf [219, 185]))))))) (.cases [] 50 (.leaf
  [122, 111, 98, 134, 99, 41, 100, 42, 101]) (.cases [] 30 (.cycle 13 [64, 65]) (.cases
  [62, 63, 52, 53, 54, 55] 78 (.leaf [214, 182, 216, 183, 25, 184, 185]) (.cases [] 49 (.cycle 9
  [120, 121]) (.cases [] 46 (.cycle 16 [118, 119]) (.cases [] 60 (.cycle 33 [62, 144]) (.cases
  [143, 63, 52, 53, 54, 55] 82 (.cases [195, 98, 99, 100, 101] 42 (.cases [104, 98, 99, 100, 101]
  23 (.cases [97, 98, 113, 99, 25, 100, 101] 120 (.cases [] 41 (.leaf
  [92, 197, 67, 41, 42, 143, 63, 52, 53, 54, 55]) (.leaf
  [196, 91, 39, 41, 42, 143, 63, 52, 53, 54, 55])) (.leaf [303, 203, 205])) (.leaf
  [33, 34, 24, 36, 25, 38, 40])) (.cases [103, 45, 96, 46, 34, 24, 47, 36, 25, 48, 38, 40] 41
  (.cases [] 27 (.leaf [56, 67, 41, 42, 143, 63, 52, 53, 54, 55]) (.cycle 39 [50, 25, 197])) (.leaf
  [196, 91, 39, 41, 42, 143, 63, 52, 53, 54, 55]))) (.cases [190, 182, 183, 184, 185] 80 (.leaf
  [211, 182, 187, 183, 34, 24, 184, 36, 25, 185, 38, 40]) (.leaf
  [191, 45, 96, 46, 34, 24, 47, 36, 25, 48, 38, 40])))))))))) (.cycle 13 [125, 142]))) (.leaf
  [137])

/-- some of the cases -/
def real5Case6 : SumTree :=
  .cases [61, 57] 87 (.cycle 16 [221, 226]) (.cases [] 33 (.cases [] 32 (.cases
  [71, 63, 52, 53, 54, 55] 57 (.cases [] 51 (.cycle 13 [61, 135, 142]) (.cases [] 55 (.cases [] 49
  (.leaf [120, 111, 98, 123, 99, 57, 100, 133, 101, 63, 52, 53, 54, 55]) (.cases [] 82 (.cases
  [195, 98, 99, 100, 101] 42 (.cases [104, 98, 99, 100, 101] 23 (.cases [97, 98, 99, 100, 101] 46
  (.cycle 16 [118, 119]) (.leaf [113, 25, 39, 41, 61, 42, 57, 133, 63, 52, 53, 54, 55])) (.leaf
  [33, 34, 24, 36, 25, 39, 38, 61, 40, 57, 133, 63, 52, 53, 54, 55])) (.leaf [103, 45, 96, 46, 34,
  24, 47, 36, 25, 39, 48, 38, 41, 61, 40, 42, 57, 133, 63, 52, 53, 54, 55])) (.cases
  [190, 182, 183, 184, 185] 80 (.cases [211, 182, 183, 184, 185] 78 (.leaf
  [214, 182, 216, 183, 25, 39, 184, 41, 61, 185, 42, 57]) (.leaf
  [187, 34, 24, 36, 25, 39, 38, 41, 61, 40, 42, 57])) (.leaf [191, 45, 96, 46, 34, 24, 47, 36, 25,
  39, 48, 38, 61, 40, 57, 133, 63, 52, 53, 54, 55])))) (.cycle 44 [71, 132]))) (.leaf
  [137, 111, 98, 99, 100, 101])) (.cycle 39 [69, 70])) (.cases [68, 57] 56 (.cases [] 49 (.leaf
  [120, 111, 98, 131, 99, 68, 100, 57, 101]) (.cases [] 30 (.cases [] 46 (.cycle 16 [118, 119])
  (.cases [] 31 (.cases [66, 41, 61, 42, 57] 89 (.cases [] 82 (.cases [195] 23 (.leaf
  [97, 98, 113, 99, 25, 100, 101]) (.cases [] 42 (.leaf [104, 33, 34, 24, 36, 25, 38, 40]) (.leaf
  [103, 96, 34, 24, 36, 25, 38, 40]))) (.leaf [190, 182, 183, 184, 185])) (.leaf [219, 185]))
  (.cycle 15 [65, 64]))) (.cases [] 78 (.leaf
  [214, 182, 216, 183, 25, 39, 184, 41, 185, 62, 63, 68, 57]) (.cases [] 46 (.cycle 16 [118, 119])
  (.cases [] 60 (.cycle 33 [62, 144]) (.cases [] 82 (.cases [195, 98, 99, 100, 101] 42 (.cases
  [104, 98, 99, 100, 101] 23 (.leaf [97, 98, 113, 99, 25, 39, 100, 41, 101, 42, 143, 63, 68, 57])
  (.leaf [33, 34, 24, 36, 25, 39, 38, 41, 40, 42, 143, 63, 68, 57])) (.leaf [103, 45, 96, 46, 34,
  24, 47, 36, 25, 39, 48, 38, 41, 40, 42, 143, 63, 68, 57])) (.cases [190, 182, 183, 184, 185] 80
  (.leaf [211, 182, 187, 183, 34, 24, 184, 36, 25, 39, 185, 38, 41, 40, 143, 63, 68, 57]) (.leaf
  [191, 45, 96, 46, 34, 24, 47, 36, 25, 39, 48, 38, 41, 40, 143, 63, 68, 57])))))))) (.leaf
  [130, 98, 99, 100, 101])))

/-- some of the cases -/
def real5Case7 : SumTree :=
  .cases [] 82 (.leaf [195, 98, 99, 193, 0]) (.cases [190, 182, 183, 184, 185] 108 (.cycle 52
  [193, 275]) (.cases [274] 80 (.cases [211, 182, 183, 184, 185] 78 (.cases
  [214, 182, 183, 184, 185] 87 (.cycle 16 [221, 226]) (.cases [216, 25, 39, 41, 42] 31 (.leaf
  [66, 41, 42]) (.cases [64] 33 (.cases [] 41 (.cases [] 27 (.cases [56] 29 (.leaf
  [67, 41, 64, 42, 52, 53, 54, 55]) (.leaf [61, 69, 52, 53, 54, 55])) (.cycle 16 [25, 197, 50]))
  (.leaf [196, 91, 39, 41, 64, 42, 52, 53, 54, 55])) (.leaf [68, 57])))) (.cases
  [187, 34, 24, 36, 25, 39, 38, 40] 31 (.leaf [66, 41, 42]) (.cases [64] 33 (.cases [] 41 (.cases
  [] 27 (.cases [56] 29 (.leaf [67, 41, 64, 42, 52, 53, 54, 55]) (.leaf
  [61, 57, 69, 52, 53, 54, 55])) (.cycle 16 [25, 197, 50])) (.leaf
  [196, 91, 39, 41, 64, 42, 52, 53, 54, 55])) (.leaf [68, 57])))) (.cases
  [191, 45, 96, 46, 34, 24, 47, 36, 25, 39, 48, 38, 41, 40, 42] 28 (.cases [72, 73, 74] 31 (.leaf
  [66, 41, 42]) (.cases [64] 33 (.cases [] 41 (.cases [] 27 (.cases [56] 29 (.leaf
  [67, 41, 64, 42, 52, 53, 54, 55]) (.leaf [61, 57, 69, 52, 53, 54, 55])) (.cycle 39
  [50, 25, 197])) (.leaf [196, 91, 39, 41, 42])) (.leaf [68, 57]))) (.cases [58, 59, 60] 29 (.cases
  [67, 41, 42] 30 (.cases [] 33 (.cases [] 31 (.cases [] 41 (.cases [] 27 (.leaf
  [56, 57, 69, 66, 41, 42]) (.cycle 39 [50, 25, 197])) (.leaf [196, 91, 51, 66, 41, 42])) (.cycle
  13 [64, 65])) (.leaf [68, 67, 41, 42])) (.leaf [62, 63, 52, 53, 54, 55])) (.cases [61, 57] 32
  (.leaf [71, 63, 52, 53, 54, 55]) (.cases [] 31 (.leaf [66, 41, 61, 42, 57]) (.cases [64] 33
  (.cycle 39 [69, 70]) (.leaf [68, 57]))))))))

/-- some of the cases -/
def real5Case8 : SumTree :=
  .cases [] 101 (.cycle 56 [181, 259, 258]) (.cases [250, 244, 245, 302, 247, 45, 96, 251, 46, 34,
  24, 241, 47, 36, 25, 39, 48, 38, 41, 40] 103 (.cases [257, 98, 99, 100, 101] 42 (.cases
  [104, 98, 99, 100, 101] 23 (.cases [97, 98, 99, 100, 101] 46 (.cases [118, 98, 99, 100, 101] 31
  (.leaf [66, 41, 42]) (.cases [] 51 (.cases [135, 98, 99, 100, 101] 53 (.leaf [134, 41, 42])
  (.cases [] 33 (.cases [] 56 (.cases [] 29 (.leaf
  [67, 125, 98, 131, 99, 52, 100, 53, 101, 54, 55]) (.leaf
  [61, 135, 98, 131, 99, 52, 100, 53, 101, 54, 55])) (.cases [] 29 (.leaf [67, 64, 130]) (.leaf
  [61, 69, 130]))) (.leaf [68, 135]))) (.cases [123, 57] 57 (.cases [] 53 (.leaf [134, 41, 42])
  (.cycle 13 [125, 142])) (.leaf [137, 111, 98, 123, 99, 57, 100, 101])))) (.cases
  [113, 25, 39, 41, 42] 27 (.cases [56, 57] 29 (.cases [67, 41, 42] 32 (.leaf
  [71, 63, 52, 53, 54, 55]) (.cases [] 33 (.cycle 39 [69, 70]) (.leaf [68, 57, 67, 41, 42])))
  (.cases [61, 57] 30 (.cases [] 31 (.leaf [66, 41, 61, 42, 57]) (.cycle 13 [64, 65])) (.leaf
  [62, 63, 52, 53, 54, 55]))) (.leaf [50, 25, 51, 39, 52, 41, 53, 42, 54, 55]))) (.cases
  [33, 34, 24, 36, 25, 39, 38, 41, 40, 42] 33 (.cases [] 27 (.cases [56, 57, 69, 52, 53, 54, 55] 29
  (.leaf [67, 41, 42]) (.leaf [61, 57, 69, 52, 53, 54, 55])) (.leaf
  [50, 25, 51, 39, 52, 41, 53, 42, 54, 55])) (.leaf [68, 57]))) (.cases
  [103, 45, 96, 46, 34, 24, 47, 36, 25, 39, 48, 38, 41, 40, 42] 33 (.cases [] 27 (.cases
  [56, 57, 69, 52, 53, 54, 55] 29 (.leaf [67, 41, 42]) (.leaf [61, 57, 69, 52, 53, 54, 55])) (.leaf
  [50, 25, 51, 39, 52, 41, 53, 42, 54, 55])) (.leaf [68, 57]))) (.cases [255, 245, 302, 247, 45,
  96, 251, 46, 34, 24, 241, 47, 36, 25, 39, 48, 38, 41, 40, 42] 27 (.cases [56, 57] 31 (.cases
  [66, 41, 42] 29 (.cases [] 33 (.cases [] 55 (.leaf [133, 63, 52, 66, 53, 41, 54, 42, 55]) (.cases
  [] 32 (.cycle 44 [71, 132]) (.cycle 39 [69, 70]))) (.leaf [68, 57, 67, 41, 42])) (.leaf
  [61, 57])) (.cases [] 30 (.cycle 13 [64, 65]) (.cases [62, 63, 52, 53, 54, 55] 33 (.cases [] 29
  (.cases [67, 41, 42, 62, 63, 52, 53, 54, 55] 83 (.leaf [194, 100, 101]) (.cases [193] 28 (.leaf
  [72, 73, 74]) (.leaf [58, 59, 60]))) (.cases [61, 57, 69, 52, 53, 54, 55] 28 (.cases [72, 73, 74]
  83 (.leaf [194, 100, 101]) (.leaf [193])) (.cases [58, 59, 60] 55 (.leaf
  [133, 63, 52, 53, 54, 55]) (.cases [] 32 (.cycle 44 [71, 132]) (.cycle 39 [69, 70]))))) (.leaf
  [68, 57])))) (.cases [50, 25, 39, 41, 42] 58 (.leaf [139, 63, 52, 53, 54, 55]) (.cycle 16
  [51, 138]))))

/-- some of the cases -/
def real5Case9 : SumTree :=
  .cases [214, 182, 183, 184, 185] 79 (.cases [213] 80 (.cases [211, 182, 183, 184, 185] 87 (.cycle
  16 [221, 226]) (.cases [216, 25, 39, 41, 42] 28 (.cases [72, 73, 74] 30 (.cases [] 31 (.leaf
  [66, 41, 42]) (.cycle 13 [64, 65])) (.leaf [62, 63, 52, 53, 54, 55])) (.cases [58, 59, 60] 33
  (.cases [] 27 (.cases [56, 69] 31 (.leaf [66, 41, 42]) (.cases [] 29 (.leaf
  [67, 41, 64, 42, 52, 53, 54, 55]) (.leaf [61, 57, 69, 52, 53, 54, 55]))) (.leaf
  [50, 25, 51, 39, 52, 41, 53, 42, 54, 55])) (.leaf [68, 57])))) (.cases
  [191, 45, 90, 46, 25, 39, 47, 41, 48, 42] 88 (.cases [] 56 (.cases [] 49 (.leaf
  [120, 111, 98, 99, 100, 101]) (.cases [] 81 (.cycle 8 [209, 181, 210]) (.cases
  [189, 44, 45, 90, 46, 25, 39, 47, 41, 48, 42] 46 (.cycle 16 [118, 119]) (.cases [] 27 (.cases
  [56, 57] 31 (.cases [66, 41, 42] 42 (.leaf [104, 98, 113, 99, 25, 51, 100, 66, 101, 41, 42])
  (.cases [] 29 (.cases [] 33 (.cases [69, 52, 66, 53, 41, 54, 42, 55] 28 (.leaf [72, 73, 74])
  (.cases [58, 59, 60] 82 (.leaf [195, 98, 103, 99, 90, 100, 25, 56, 101, 69, 66, 41, 42]) (.cases
  [] 23 (.leaf [97, 98, 190, 99, 182, 191, 100, 183, 90, 101, 184, 25, 56, 185, 69, 66, 41, 42])
  (.leaf [33, 34, 214, 36, 182, 38, 183, 40, 184, 185])))) (.leaf [68, 57, 67, 41, 42])) (.leaf
  [61, 57]))) (.cases [] 30 (.cycle 13 [64, 65]) (.cases [62, 63, 52, 53, 54, 55] 42 (.leaf
  [104, 98, 113, 99, 25, 39, 56, 100, 41, 57, 101, 42]) (.cases [] 33 (.cases [] 29 (.cases
  [67, 41, 42, 62, 63, 52, 53, 54, 55] 82 (.leaf [195, 98, 103, 99, 45, 90, 100, 46, 25, 56, 101,
  47, 67, 48, 41, 42]) (.cases [] 23 (.leaf [97, 98, 190, 99, 182, 191, 100, 183, 45, 90, 101, 184,
  46, 25, 56, 185, 47, 67, 48, 41, 42]) (.leaf [33, 34, 214, 36, 182, 38, 183, 40, 184, 185])))
  (.cases [61, 57] 82 (.leaf [195, 98, 103, 99, 45, 90, 100, 46, 25, 39, 101, 47, 41, 61, 48, 42,
  57]) (.cases [] 23 (.leaf [97, 98, 190, 99, 182, 191, 100, 183, 45, 90, 101, 184, 46, 25, 39,
  185, 47, 41, 61, 48, 42, 57]) (.cases [33, 34, 214, 36, 182, 38, 183, 40, 184, 185] 32 (.leaf
  [71, 63, 52, 53, 54, 55]) (.cycle 39 [69, 70]))))) (.leaf [68, 57]))))) (.cases
  [50, 25, 51, 39, 52, 41, 53, 42, 54, 55] 89 (.leaf [220, 101]) (.cases [] 82 (.leaf
  [195, 98, 99, 100, 219, 185]) (.cases [] 23 (.leaf
  [97, 98, 190, 99, 182, 100, 183, 101, 184, 185]) (.leaf
  [33, 34, 214, 36, 182, 38, 183, 40, 184, 185])))))))) (.leaf [130, 98, 99, 100, 101])) (.leaf
  [217, 101]))) (.cycle 26 [215, 188, 95])

/-- some of the cases -/
def real5Case10 : SumTree :=
  .cases [104, 98, 99, 100, 101] 46 (.cases [] 49 (.cases [120, 111, 98, 99, 100, 101] 51 (.cases
  [135, 98, 99, 100, 101] 33 (.cases [] 56 (.cases [131, 52, 53, 54, 55] 53 (.leaf [134, 41, 42])
  (.cases [] 28 (.cases [72, 73, 74] 29 (.leaf [67, 125, 98, 131, 99, 52, 100, 53, 101, 54, 55])
  (.leaf [61, 135, 98, 131, 99, 52, 100, 53, 101, 54, 55])) (.cases [58, 59, 60] 29 (.leaf
  [67, 41, 125, 42, 98, 131, 99, 52, 100, 53, 101, 54, 55]) (.leaf
  [61, 57, 135, 98, 131, 99, 52, 100, 53, 101, 54, 55])))) (.cases [] 32 (.leaf [71, 63, 130])
  (.cycle 15 [70, 69]))) (.leaf [68, 135])) (.cases [123, 57] 29 (.leaf [67, 41, 42]) (.cases [] 32
  (.leaf [71, 63, 52, 53, 54, 55]) (.cases [] 53 (.leaf [134, 41, 61, 42, 57]) (.cases
  [125, 98, 99, 100, 101] 33 (.cycle 39 [69, 70]) (.cases [68, 57] 28 (.leaf [72, 73, 74]) (.cases
  [58, 59, 60] 56 (.leaf [131, 52, 68, 53, 57, 54, 55]) (.leaf
  [130, 98, 123, 99, 57, 100, 101])))))))) (.cycle 16 [118, 119])) (.cases [113, 25, 39, 41, 42] 27
  (.cases [56, 57] 31 (.cases [66, 41, 42] 29 (.cases [] 33 (.cases [] 55 (.leaf
  [133, 63, 52, 66, 53, 41, 54, 42, 55]) (.cases [] 32 (.cycle 44 [71, 132]) (.cycle 39 [69, 70])))
  (.leaf [68, 57, 67, 41, 42])) (.leaf [61, 57])) (.cases [] 30 (.cycle 13 [64, 65]) (.cases
  [62, 63, 52, 53, 54, 55] 33 (.cases [] 29 (.cases [67, 41, 42, 62, 63, 52, 53, 54, 55] 28 (.leaf
  [72, 73, 74]) (.leaf [58, 59, 60])) (.cases [61, 57, 69, 52, 53, 54, 55] 117 (.cases [] 28 (.leaf
  [72, 73, 74, 293, 100, 101]) (.cases [58, 59, 60] 32 (.leaf [71, 63, 52, 53, 54, 55]) (.cycle 39
  [69, 70]))) (.leaf [291, 74]))) (.leaf [68, 57])))) (.cases
  [50, 25, 51, 39, 52, 41, 53, 42, 54, 55] 30 (.cases [] 31 (.leaf [66, 41, 42]) (.cycle 13
  [64, 65])) (.leaf [62, 63, 52, 53, 54, 55])))

/-- some of the cases -/
def real5Case11 : SumTree :=
  .cases [103, 45, 90, 46, 25, 39, 47, 41, 48, 42] 27 (.cases [56, 57] 29 (.cases [67, 41, 42] 31
  (.cases [] 33 (.cases [] 28 (.cases [72, 73, 74] 32 (.leaf [71, 63, 52, 66, 53, 41, 54, 42, 55])
  (.cycle 39 [69, 70])) (.cases [58, 59, 60] 32 (.leaf [71, 63, 52, 66, 53, 41, 54, 42, 55])
  (.cycle 39 [69, 70]))) (.leaf [68, 57, 67, 41, 42])) (.cases [64, 52, 53, 54, 55] 28 (.cases
  [72, 73, 74] 119 (.cases [300, 301, 72, 73, 74] 30 (.cycle 13 [64, 65]) (.leaf
  [62, 63, 52, 53, 54, 55])) (.leaf [297, 298, 299])) (.cases [58, 59, 60] 30 (.cycle 13 [64, 65])
  (.cases [62, 63, 52, 53, 54, 55] 110 (.cases [] 86 (.cases [204, 205] 117 (.cases [293, 100, 101]
  118 (.cases [296, 205] 112 (.leaf [287, 251, 288, 241, 183, 184, 185]) (.cases [] 114 (.cycle 71
  [285, 286]) (.leaf [283, 280]))) (.cycle 37 [204, 205, 295])) (.leaf [291, 74])) (.cases
  [273, 48] 115 (.cases [] 60 (.cycle 33 [62, 144]) (.cases [143, 63, 52, 53, 54, 55] 111 (.cases
  [] 116 (.leaf [294, 251, 288, 241, 183, 184, 185]) (.cases [] 117 (.cases [293, 100, 101] 112
  (.cycle 1 [287, 292]) (.cases [] 114 (.cycle 71 [285, 286]) (.cases [283, 280] 113 (.leaf
  [284, 184, 185]) (.cycle 58 [281, 282])))) (.cases [291, 74] 112 (.cycle 1 [287, 292]) (.cases []
  114 (.cycle 71 [285, 286]) (.leaf [283, 280]))))) (.cycle 59 [279, 290]))) (.leaf [289, 280])))
  (.leaf [277, 247, 251, 241]))))) (.cases [61, 57] 33 (.cases [69, 52, 53, 54, 55] 28 (.cases
  [72, 73, 74] 119 (.cases [300, 301, 72, 73, 74] 32 (.leaf [71, 63, 52, 53, 54, 55]) (.cycle 39
  [69, 70])) (.leaf [297, 298, 299])) (.cases [58, 59, 60] 32 (.cases [71, 63, 52, 53, 54, 55] 110
  (.cases [] 86 (.cases [204, 205] 117 (.cases [293, 100, 101] 118 (.cases [296, 205] 112 (.leaf
  [287, 251, 288, 241, 183, 184, 185]) (.cases [] 114 (.cycle 71 [285, 286]) (.leaf [283, 280])))
  (.cycle 37 [204, 205, 295])) (.leaf [291, 74])) (.cases [273, 48] 115 (.cases [] 55 (.cases
  [133, 63, 52, 53, 54, 55] 111 (.cases [] 116 (.leaf [294, 251, 288, 241, 183, 184, 185]) (.cases
  [] 117 (.cases [293, 100, 101] 112 (.cycle 1 [287, 292]) (.cases [] 114 (.cycle 71 [285, 286])
  (.cases [283, 280] 113 (.leaf [284, 184, 185]) (.cycle 58 [281, 282])))) (.cases [291, 74] 112
  (.cycle 1 [287, 292]) (.cases [] 114 (.cycle 71 [285, 286]) (.leaf [283, 280]))))) (.cycle 59
  [279, 290])) (.cycle 44 [71, 132])) (.leaf [289, 280]))) (.leaf [277, 247, 251, 241])) (.cycle 39
  [69, 70]))) (.cases [] 31 (.leaf [66, 41, 61, 42, 57]) (.cases [] 28 (.cases [72, 73, 74] 30
  (.cycle 13 [64, 65]) (.leaf [62, 63, 52, 68, 53, 57, 54, 55])) (.cases [58, 59, 60] 30 (.cycle 13
  [64, 65]) (.leaf [62, 63, 52, 68, 53, 57, 54, 55])))))) (.cases
  [50, 25, 51, 39, 52, 41, 53, 42, 54, 55] 30 (.cases [] 31 (.leaf [66, 41, 42]) (.cycle 13
  [64, 65])) (.leaf [62, 63, 52, 53, 54, 55]))

/-- some of the cases -/
def real5Case12 : SumTree :=
  .cases [33, 34, 102, 36, 45, 90, 38, 46, 25, 39, 40, 47, 41, 48, 42] 27 (.cases [56, 57] 31
  (.cases [66, 41, 42] 29 (.cases [] 33 (.cases [] 32 (.leaf [71, 63, 52, 66, 53, 41, 54, 42, 55])
  (.cycle 39 [69, 70])) (.leaf [68, 57, 67, 41, 42])) (.leaf [61, 57])) (.cases [] 30 (.cycle 13
  [64, 65]) (.cases [62, 63, 52, 53, 54, 55] 33 (.cases [] 29 (.cases
  [67, 41, 42, 62, 63, 52, 53, 54, 55] 110 (.cases [] 28 (.leaf [72, 73, 74]) (.cases [58, 59, 60]
  111 (.cases [] 112 (.leaf [287, 251, 288, 241, 183, 184, 185]) (.cases [] 113 (.cases [] 114
  (.cycle 71 [285, 286]) (.leaf [283, 280, 284, 184, 185])) (.cycle 58 [281, 282]))) (.leaf
  [279, 280, 0, 194, 100, 101]))) (.leaf [277, 247, 251, 241])) (.cases [61, 57] 28 (.cases
  [72, 73, 74] 32 (.leaf [71, 63, 52, 53, 54, 55]) (.cycle 39 [69, 70])) (.cases [58, 59, 60] 109
  (.cases [] 32 (.cases [71, 63, 52, 53, 54, 55] 110 (.cases [] 111 (.cases [] 112 (.leaf
  [287, 251, 288, 241, 183, 184, 185]) (.cases [] 113 (.cases [] 114 (.cycle 71 [285, 286]) (.leaf
  [283, 280, 284, 184, 185])) (.cycle 58 [281, 282]))) (.leaf [279, 280, 0, 194, 100, 101]))
  (.cycle 57 [183, 277, 278])) (.cycle 39 [69, 70])) (.cycle 23 [260, 182, 276])))) (.leaf
  [68, 57])))) (.cases [50, 25, 39, 41, 42] 58 (.leaf [139, 63, 52, 53, 54, 55]) (.cycle 16
  [51, 138]))

/-- some of the cases -/
def real5Case13 : SumTree :=
  .cases [190, 182, 187, 183, 34, 102, 184, 36, 45, 90, 185, 38, 46, 25, 39, 40, 47, 41, 48, 42] 27
  (.cases [56, 57] 31 (.cases [66, 41, 42] 29 (.cases [] 32 (.leaf
  [71, 63, 52, 66, 53, 41, 54, 42, 55]) (.cases [] 33 (.cycle 39 [69, 70]) (.leaf
  [68, 57, 67, 41, 42]))) (.leaf [61, 57])) (.cases [64, 52, 53, 54, 55] 29 (.cases [67, 41, 42] 30
  (.cycle 13 [64, 65]) (.leaf [62, 63, 52, 53, 54, 55])) (.cases [61, 57] 32 (.leaf
  [71, 63, 52, 53, 54, 55]) (.cases [] 33 (.cycle 39 [69, 70]) (.cases [68, 57] 85 (.leaf
  [202, 203, 205]) (.cases [200, 47, 48] 86 (.cycle 61 [200, 47, 231]) (.cases [] 89 (.leaf
  [220, 101]) (.leaf [219, 185])))))))) (.leaf [50, 25, 51, 39, 52, 41, 53, 42, 54, 55])

/-- some of the cases -/
def real5Case14 : SumTree :=
  .cases [] 82 (.leaf [195, 98, 99, 193, 0]) (.cases [190, 182, 183, 184, 185] 23 (.leaf
  [97, 98, 99, 218]) (.cases [33, 34, 36, 38, 40] 108 (.cycle 52 [193, 275]) (.cases [274] 78
  (.cases [214, 182, 183, 184, 185] 80 (.cases [211, 182, 183, 184, 185] 87 (.cycle 16 [221, 226])
  (.cases [216, 25, 39, 41, 42] 28 (.cases [72, 73, 74] 30 (.cases [] 31 (.leaf [66, 41, 42])
  (.cycle 13 [64, 65])) (.leaf [62, 63, 52, 53, 54, 55])) (.cases [58, 59, 60] 33 (.cases [] 27
  (.cases [56, 57] 29 (.cases [67, 41, 42] 32 (.leaf [71, 63, 52, 53, 54, 55]) (.cycle 39
  [69, 70])) (.leaf [61, 57, 69, 52, 53, 54, 55])) (.leaf
  [50, 25, 51, 39, 52, 41, 53, 42, 54, 55])) (.leaf [68, 57])))) (.cases
  [191, 45, 90, 46, 25, 39, 47, 41, 48, 42] 27 (.cases [56, 57] 31 (.cases [66, 41, 42] 29 (.cases
  [] 32 (.leaf [71, 63, 52, 66, 53, 41, 54, 42, 55]) (.cases [] 33 (.cycle 39 [69, 70]) (.leaf
  [68, 57, 67, 41, 42]))) (.leaf [61, 57])) (.cases [] 29 (.cases [67, 41, 42] 60 (.cases [] 30
  (.cycle 13 [64, 65]) (.cycle 33 [62, 144])) (.leaf [143, 63, 52, 53, 54, 55])) (.cases [61, 57]
  55 (.leaf [133, 63, 52, 53, 54, 55]) (.cases [] 33 (.cases [] 32 (.cycle 44 [71, 132]) (.cycle 39
  [69, 70])) (.cases [] 30 (.cycle 13 [64, 65]) (.leaf [62, 63, 52, 68, 53, 57, 54, 55]))))))
  (.cases [50, 25, 51, 39, 52, 41, 53, 42, 54, 55] 85 (.leaf [202, 203, 205]) (.leaf
  [200, 47, 48])))) (.cases [187, 34, 102, 36, 45, 90, 38, 46, 25, 39, 40, 47, 41, 48, 42] 27
  (.cases [56, 57] 31 (.cases [66, 41, 42] 29 (.cases [] 32 (.leaf
  [71, 63, 52, 66, 53, 41, 54, 42, 55]) (.cases [] 33 (.cycle 39 [69, 70]) (.leaf
  [68, 57, 67, 41, 42]))) (.leaf [61, 57])) (.cases [] 29 (.cases [67, 41, 42] 30 (.cycle 13
  [64, 65]) (.leaf [62, 63, 52, 53, 54, 55])) (.cases [61, 57] 32 (.leaf [71, 63, 52, 53, 54, 55])
  (.cases [] 33 (.cycle 39 [69, 70]) (.cases [] 30 (.cycle 13 [64, 65]) (.leaf
  [62, 63, 52, 68, 53, 57, 54, 55])))))) (.leaf [50, 25, 51, 39, 52, 41, 53, 42, 54, 55])))))

/-- some of the cases -/
def real5Case15 : SumTree :=
  .cases [257, 98, 99, 100, 101] 23 (.cases [97, 98, 99, 100, 101] 42 (.cases
  [104, 98, 99, 100, 101] 46 (.cases [118, 98, 99, 100, 101] 51 (.cases [135, 98, 99, 100, 101] 53
  (.leaf [134, 41, 42]) (.cases [] 31 (.leaf [66, 125]) (.cases [] 33 (.cases [] 56 (.cases [] 29
  (.leaf [67, 125, 98, 131, 99, 52, 100, 53, 101, 54, 55]) (.leaf
  [61, 57, 135, 98, 131, 99, 52, 100, 53, 101, 54, 55])) (.cases [] 29 (.leaf [67, 64, 130]) (.leaf
  [61, 69, 130]))) (.leaf [68, 135])))) (.cases [123, 57] 29 (.leaf [67, 41, 42]) (.cases [] 57
  (.cases [] 53 (.leaf [134, 41, 61, 42, 57]) (.cycle 13 [125, 142])) (.leaf
  [137, 111, 98, 123, 99, 57, 100, 101])))) (.cases [113, 25, 39, 41, 42] 27 (.cases [56] 29
  (.cases [67, 41, 42] 30 (.cases [] 31 (.cases [] 33 (.leaf [69, 52, 66, 53, 41, 54, 42, 55])
  (.leaf [68, 57, 67, 41, 42])) (.cycle 13 [64, 65])) (.leaf [62, 63, 52, 53, 54, 55])) (.cases
  [61, 57] 32 (.leaf [71, 63, 52, 53, 54, 55]) (.cases [] 33 (.cycle 39 [69, 70]) (.cases [] 58
  (.leaf [139, 63, 52, 68, 53, 57, 54, 55]) (.cycle 15 [138, 51]))))) (.cases [50, 25, 39, 41, 42]
  58 (.leaf [139, 63, 52, 53, 54, 55]) (.cycle 16 [51, 138])))) (.cases
  [103, 45, 90, 46, 25, 39, 47, 41, 48, 42] 27 (.cases [56] 29 (.cases [67, 41, 42] 30 (.cases []
  31 (.cases [] 33 (.leaf [69, 52, 66, 53, 41, 54, 42, 55]) (.leaf [68, 57, 67, 41, 42])) (.cycle
  13 [64, 65])) (.leaf [62, 63, 52, 53, 54, 55])) (.cases [61, 57] 32 (.leaf
  [71, 63, 52, 53, 54, 55]) (.cases [] 33 (.cycle 39 [69, 70]) (.cases [] 58 (.leaf
  [139, 63, 52, 68, 53, 57, 54, 55]) (.cycle 15 [138, 51]))))) (.cases [50, 25, 39, 41, 42] 58
  (.leaf [139, 63, 52, 53, 54, 55]) (.cycle 16 [51, 138])))) (.cases
  [33, 34, 102, 36, 45, 90, 38, 46, 25, 39, 40, 47, 41, 48, 42] 27 (.cases [56, 57] 29 (.cases
  [67, 41, 42] 32 (.leaf [71, 63, 52, 53, 54, 55]) (.cases [] 33 (.cycle 39 [69, 70]) (.leaf
  [68, 57, 67, 41, 42]))) (.cases [61, 57] 30 (.cases [] 31 (.leaf [66, 41, 61, 42, 57]) (.cycle 13
  [64, 65])) (.leaf [62, 63, 52, 53, 54, 55]))) (.leaf [50, 25, 51, 39, 52, 41, 53, 42, 54, 55]))

/-- some of the cases -/
def real5Case16 : SumTree :=
  .cases [255, 245, 256, 247, 34, 102, 251, 36, 45, 90, 241, 38, 46, 25, 39, 40, 47, 41, 48, 42] 27
  (.cases [56, 57] 29 (.cases [67, 41, 42] 31 (.cases [] 33 (.cases [] 55 (.leaf
  [133, 63, 52, 66, 53, 41, 54, 42, 55]) (.cases [] 32 (.cycle 44 [71, 132]) (.cycle 39 [69, 70])))
  (.leaf [68, 57, 67, 41, 42])) (.cases [] 28 (.cases [72, 73, 74] 30 (.cycle 13 [64, 65]) (.leaf
  [62, 63, 52, 53, 54, 55])) (.cases [58, 59, 60] 30 (.cycle 13 [64, 65]) (.cases
  [62, 63, 52, 53, 54, 55] 83 (.cases [194, 100, 101] 85 (.leaf [202, 203, 205]) (.leaf
  [200, 47, 48])) (.cases [193] 86 (.leaf [204, 205]) (.cases [273, 48] 108 (.cycle 52 [193, 275])
  (.cases [274] 60 (.cycle 33 [62, 144]) (.leaf [143, 63, 52, 53, 54, 55])))))))) (.cases [61, 57]
  33 (.cases [] 28 (.cases [72, 73, 74] 32 (.leaf [71, 63, 52, 53, 54, 55]) (.cycle 39 [69, 70]))
  (.cases [58, 59, 60] 32 (.cases [71, 63, 52, 53, 54, 55] 83 (.cases [194, 100, 101] 85 (.leaf
  [202, 203, 205]) (.leaf [200, 47, 48])) (.cases [193] 86 (.leaf [204, 205]) (.cases [273, 48] 108
  (.cycle 52 [193, 275]) (.cases [274] 55 (.leaf [133, 63, 52, 53, 54, 55]) (.cycle 44
  [71, 132]))))) (.cycle 39 [69, 70]))) (.cases [] 31 (.leaf [66, 41, 61, 42, 57]) (.cases [] 60
  (.cases [] 30 (.cycle 13 [64, 65]) (.cycle 33 [62, 144])) (.leaf
  [143, 63, 52, 68, 53, 57, 54, 55]))))) (.cases [50, 25, 51, 39, 52, 41, 53, 42, 54, 55] 30
  (.cases [] 31 (.leaf [66, 41, 42]) (.cycle 13 [64, 65])) (.leaf [62, 63, 52, 53, 54, 55]))

/-- some of the cases -/
def real5Case17 : SumTree :=
  .cases [85, 41, 42] 81 (.cycle 8 [209, 181, 210]) (.cases [] 92 (.leaf [227, 181, 189, 182, 44,
  183, 45, 87, 184, 46, 57, 185, 47, 48]) (.cases [] 53 (.cases [] 31 (.cases [66, 41, 42] 87
  (.cycle 16 [221, 226]) (.cases [] 33 (.cases [] 78 (.leaf [214, 182, 216, 183, 25, 184, 112, 185,
  44, 45, 87, 46, 69, 47, 66, 48, 41, 42]) (.cases [] 82 (.cases [] 42 (.leaf
  [104, 98, 123, 99, 69, 100, 66, 101, 41, 42]) (.cases [] 49 (.leaf [120, 111, 98, 103, 99, 45,
  87, 100, 46, 69, 101, 47, 66, 48, 41, 42]) (.cases [] 46 (.cycle 16 [118, 119]) (.cases [] 104
  (.leaf [260, 182, 187, 195, 183, 24, 98, 184, 25, 99, 185, 112, 100, 44, 101, 45, 87, 46, 57, 69,
  47, 52, 66, 48, 53, 41, 54, 42, 55]) (.cases [266, 245, 247, 251, 241] 103 (.leaf [257, 98, 113,
  99, 25, 100, 112, 101, 44, 45, 87, 46, 57, 69, 47, 52, 66, 48, 53, 41, 54, 42, 55]) (.leaf [255,
  245, 246, 247, 25, 251, 112, 241, 44, 45, 87, 46, 57, 69, 47, 52, 66, 48, 53, 41, 54, 42,
  55])))))) (.leaf [190, 182, 187, 183, 24, 184, 25, 185, 112, 44, 45, 87, 46, 69, 47, 66, 48, 41,
  42]))) (.cases [68, 57] 42 (.leaf [104, 98, 99, 100, 101]) (.cases [] 49 (.leaf
  [120, 111, 98, 103, 99, 45, 100, 46, 101, 47, 48]) (.cases [] 104 (.cases
  [260, 182, 183, 184, 185] 46 (.cycle 16 [118, 119]) (.cases [] 29 (.cases [67, 41, 42] 78 (.leaf
  [214, 182, 216, 183, 25, 184, 112, 185, 44, 45, 46, 47, 48]) (.cases [187] 82 (.cases [195] 23
  (.leaf [97, 113, 25, 112, 44, 45, 46, 47, 48]) (.leaf [33, 24, 25, 112, 44, 45, 46, 47, 48]))
  (.leaf [190, 182, 187, 183, 24, 184, 25, 185, 112, 44, 45, 46, 47, 48]))) (.cases [61, 57] 78
  (.leaf [214, 182, 216, 183, 25, 184, 112, 185, 44, 45, 46, 47, 48]) (.cases [187] 82 (.cases
  [195] 23 (.leaf [97, 113, 25, 112, 44, 45, 46, 47, 48]) (.leaf
  [33, 24, 25, 112, 44, 45, 46, 47, 48])) (.leaf [190, 182, 187, 183, 24, 184, 25, 185, 112, 44,
  45, 46, 47, 48]))))) (.cases [266, 245, 247, 251, 241] 46 (.cycle 16 [118, 119]) (.cases [] 103
  (.cases [257, 98, 99, 100, 101] 29 (.cases [67, 41, 42] 23 (.leaf
  [97, 98, 113, 99, 25, 100, 112, 101, 44, 45, 46, 47, 48]) (.leaf
  [33, 24, 25, 112, 44, 45, 46, 47, 48])) (.cases [61, 57] 23 (.leaf
  [97, 98, 113, 99, 25, 100, 112, 101, 44, 45, 46, 47, 48]) (.leaf
  [33, 24, 25, 112, 44, 45, 46, 47, 48]))) (.cases [255, 245, 247, 251, 241] 23 (.leaf
  [97, 267, 8]) (.cases [33] 100 (.leaf [256, 34, 24, 36, 25, 38, 112, 40, 44, 45, 46, 47, 48])
  (.leaf [249, 8])))))))))) (.cases [] 87 (.cycle 16 [221, 226]) (.cases [] 30 (.cycle 13 [64, 65])
  (.cases [62, 63, 52, 53, 54, 55] 42 (.leaf [104, 98, 123, 134, 99, 57, 41, 100, 62, 101, 63, 52,
  53, 54, 55]) (.cases [] 50 (.leaf [122, 111, 98, 103, 99, 45, 87, 85, 100, 46, 57, 41, 101, 47,
  62, 48, 63, 52, 53, 54, 55]) (.cases [] 78 (.leaf [214, 182, 216, 183, 25, 184, 112, 185, 44, 45,
  87, 85, 46, 57, 41, 47, 42, 48]) (.cases [] 29 (.cases [] 82 (.cases [] 100 (.cases [] 103
  (.cases [] 49 (.cycle 9 [120, 121]) (.cases [] 46 (.cycle 16 [118, 119]) (.cases [] 104 (.leaf
  [260, 182, 187, 195, 183, 34, 24, 98, 184, 36, 25, 99, 185, 38, 112, 100, 40, 44, 101, 45, 87,
  46, 67, 47, 41, 48, 42, 62, 63, 52, 53, 54, 55]) (.leaf [266, 245, 256, 257, 247, 24, 98, 251,
  25, 99, 241, 112, 100, 44, 101, 45, 87, 46, 57, 67, 47, 41, 48, 42, 62, 63, 52, 53, 54, 55]))))
  (.leaf [255, 245, 256, 247, 34, 24, 251, 36, 25, 241, 38, 112, 40, 44, 45, 87, 46, 57, 67, 47,
  41, 48, 42])) (.cycle 26 [249, 265, 95])) (.leaf [190, 182, 187, 183, 34, 24, 184, 36, 25, 185,
  38, 112, 40, 44, 45, 87, 46, 67, 47, 41, 48, 42])) (.cases [] 49 (.cycle 9 [120, 121]) (.cases []
  46 (.cycle 16 [118, 119]) (.cases [] 104 (.cases [260, 182, 187, 183, 34, 24, 184, 36, 25, 185,
  38, 112, 40, 44, 45, 85, 46, 41, 61, 47, 42, 62, 57, 48, 63, 52, 53, 54, 55] 82 (.leaf
  [195, 98, 99, 100, 101]) (.leaf [190, 182, 187, 183, 24, 184, 25, 185, 112, 44, 45, 85, 46, 41,
  61, 47, 42, 57, 48])) (.cases [266, 245, 247, 251, 241] 33 (.cases [] 100 (.cases [256] 103
  (.cases [257] 23 (.leaf [97, 98, 113, 99, 25, 100, 112, 101, 44, 45, 85, 46, 41, 61, 47, 42, 57,
  48]) (.leaf [33, 34, 24, 36, 25, 38, 112, 40, 44, 45, 85, 46, 41, 61, 47, 42, 57, 48])) (.leaf
  [255, 245, 256, 247, 34, 24, 251, 36, 25, 241, 38, 112, 40, 44, 45, 85, 46, 41, 61, 47, 42, 57,
  48])) (.cycle 26 [249, 265, 95])) (.leaf [68, 57])))))))))))) (.leaf [125])))

/-- some of the cases -/
def real5Case18 : SumTree :=
  .cases [] 106 (.leaf [272, 181, 182, 222, 183, 41, 84, 87, 184, 42, 57, 185]) (.cases [] 70
  (.cycle 13 [84, 167]) (.cases [166, 44, 45, 46, 47, 48] 42 (.leaf
  [104, 98, 123, 99, 57, 100, 101]) (.cases [] 92 (.cycle 9 [227, 271]) (.cases [] 87 (.cycle 16
  [221, 226]) (.cases [] 107 (.cycle 33 [166, 270]) (.cases [269, 44, 45, 87, 46, 57, 47, 48] 39
  (.cases [83, 52, 53, 54, 55] 57 (.cases [] 53 (.cases [] 33 (.cases [69, 52, 53, 54, 55] 82
  (.cases [] 100 (.cases [] 49 (.leaf [120, 111, 98, 134, 99, 41, 100, 269, 101, 44, 45, 87, 46,
  57, 47, 48]) (.cases [] 46 (.cycle 16 [118, 119]) (.cases [] 104 (.leaf
  [260, 182, 195, 183, 98, 113, 184, 99, 25, 185, 100, 101]) (.cases
  [266, 245, 256, 247, 34, 24, 251, 36, 25, 241, 38, 40] 83 (.leaf [194, 100, 101]) (.cases [] 103
  (.leaf [257, 98, 99, 193, 0]) (.leaf [255, 245, 256, 247, 24, 251, 25, 241])))))) (.cycle 26
  [249, 265, 95])) (.leaf [190, 182, 216, 183, 25, 184, 185])) (.cases [68, 57] 49 (.leaf
  [120, 111, 134, 41, 42, 269, 44, 45, 83, 46, 68, 47, 57, 48]) (.cases [] 104 (.cases
  [260, 182, 183, 184, 185] 46 (.cycle 16 [118, 119]) (.cases [] 82 (.cases [195] 78 (.leaf [214,
  182, 195, 183, 134, 113, 184, 41, 25, 185, 269, 44, 45, 83, 46, 68, 47, 57, 48]) (.cases [187] 23
  (.leaf [97, 98, 113, 99, 25, 100, 101]) (.leaf [33, 34, 24, 36, 25, 38, 40]))) (.cases
  [190, 182, 183, 184, 185] 78 (.leaf [214, 182, 216, 183, 25, 184, 185]) (.leaf
  [187, 34, 24, 36, 25, 38, 40])))) (.cases [266, 245, 247, 251, 241] 46 (.cycle 16 [118, 119])
  (.cases [] 103 (.cases [257, 98, 99, 100, 101] 22 (.cases [] 23 (.leaf [97, 98, 113, 99, 25, 39,
  100, 41, 101, 269, 44, 45, 83, 46, 52, 68, 47, 53, 57, 48, 54, 55]) (.leaf [33, 34, 24, 36, 25,
  39, 38, 41, 40, 269, 44, 45, 83, 46, 68, 47, 57, 48])) (.cycle 13 [30, 31, 32])) (.cases
  [255, 245, 247, 251, 241] 23 (.leaf [97, 267, 8]) (.cases [33] 100 (.leaf
  [256, 34, 24, 36, 25, 38, 40]) (.leaf [249, 8])))))))) (.cycle 13 [125, 142])) (.leaf
  [137, 111, 98, 103, 99, 45, 87, 100, 46, 57, 101, 47, 48])) (.cases [80, 45, 87, 46, 57, 47, 48]
  50 (.leaf [122, 111, 98, 99, 100, 101]) (.cases [] 40 (.cycle 15 [82, 81, 63]) (.cases
  [79, 44, 45, 87, 46, 57, 47, 48] 78 (.leaf [214, 182, 216, 183, 25, 184, 185]) (.cases [] 49
  (.cycle 9 [120, 121]) (.cases [] 104 (.cases [260, 182, 187, 183, 184, 185] 46 (.cycle 16
  [118, 119]) (.cases [] 82 (.cases [195] 23 (.leaf [97, 98, 113, 99, 25, 100, 101]) (.leaf
  [33, 34, 24, 36, 25, 38, 40])) (.leaf [190, 182, 187, 183, 24, 184, 25, 185]))) (.cases
  [266, 245, 247, 251, 241] 46 (.cycle 16 [118, 119]) (.cases [] 103 (.cases [257] 23 (.cases
  [97, 98, 113, 99, 25, 100, 101] 101 (.cycle 56 [181, 259, 258]) (.leaf
  [250, 244, 245, 247, 251, 241])) (.leaf [33, 34, 24, 36, 25, 38, 40])) (.cases
  [255, 245, 247, 251, 241] 100 (.leaf [256, 34, 24, 36, 25, 38, 40]) (.cycle 26
  [249, 265, 95])))))))))))))))

/-- some of the cases -/
def real5Case19 : SumTree :=
  .cases [248, 44, 45, 46, 47, 48] 55 (.cases [133, 63, 52, 53, 54, 55] 74 (.leaf [175, 111, 98,
  103, 131, 99, 45, 52, 100, 46, 53, 101, 47, 54, 48, 55]) (.cases [] 39 (.cases
  [83, 52, 53, 54, 55] 62 (.cycle 44 [148, 174]) (.cases [] 87 (.cycle 16 [221, 226]) (.cases [] 51
  (.cycle 39 [135, 147]) (.cases [] 104 (.cases [260, 182, 183, 184, 185] 49 (.leaf [120, 111, 98,
  123, 99, 57, 100, 248, 101, 44, 45, 83, 46, 52, 47, 53, 48, 54, 55]) (.cases [] 78 (.cases
  [214, 182, 216, 183, 25, 184, 185] 89 (.leaf [220, 101]) (.cases [] 82 (.leaf
  [195, 98, 99, 100, 219, 185]) (.cases [] 23 (.leaf [97, 190, 182, 216, 183, 25, 184, 185])
  (.cases [33, 34, 214, 36, 182, 216, 38, 183, 25, 40, 184, 185] 22 (.leaf [39, 41, 42]) (.cycle 13
  [30, 31, 32]))))) (.cases [187, 34, 36, 38, 40] 46 (.cycle 16 [118, 119]) (.cases [] 82 (.cases
  [195, 98, 99, 100, 101] 23 (.cases [97, 98, 113, 99, 25, 100, 101] 105 (.leaf [264, 32, 41, 42])
  (.cases [] 22 (.cases [39] 29 (.cycle 39 [263, 261, 262]) (.leaf
  [61, 57, 248, 44, 45, 83, 46, 52, 47, 53, 48, 54, 55])) (.cycle 13 [30, 31, 32]))) (.cases
  [33, 34, 24, 36, 25, 38, 40] 22 (.leaf [39, 41, 42]) (.cycle 13 [30, 31, 32]))) (.leaf
  [190, 182, 187, 183, 34, 24, 184, 36, 25, 185, 38, 40]))))) (.cases [266, 245, 247, 251, 241] 103
  (.cases [] 23 (.cases [] 46 (.leaf [118, 98, 123, 99, 57, 100, 248, 101, 44, 45, 83, 46, 52, 47,
  53, 48, 54, 55]) (.cases [] 100 (.cases [] 101 (.cycle 56 [181, 259, 258]) (.leaf [250, 244, 245,
  256, 247, 34, 97, 251, 36, 98, 113, 241, 38, 99, 25, 40, 100, 101])) (.cycle 26 [249, 265, 95])))
  (.cases [] 101 (.cycle 56 [181, 259, 258]) (.leaf [250, 244, 245, 257, 247, 98, 33, 251, 99, 34,
  24, 241, 100, 36, 25, 101, 38, 40]))) (.cases [255, 245, 247, 251, 241] 23 (.leaf [97, 267, 8])
  (.cases [33] 100 (.cases [256, 34, 24, 36, 25, 38, 40] 22 (.cases [39] 29 (.leaf [67, 41, 42])
  (.leaf [61, 57, 248, 44, 45, 83, 46, 52, 47, 53, 48, 54, 55])) (.cycle 13 [30, 31, 32])) (.leaf
  [249, 8])))))))) (.cases [] 40 (.cycle 11 [63, 82, 81]) (.cases [79, 44, 45, 46, 47, 48] 62
  (.leaf [148, 111, 131, 80]) (.cases [] 87 (.leaf [221, 223, 57, 133, 79]) (.cases [] 51 (.cycle
  39 [135, 147]) (.cases [] 49 (.leaf [120, 111, 123, 57, 133, 79]) (.cases [] 46 (.leaf
  [118, 123, 57, 133, 79]) (.cases [] 23 (.cases [97, 98, 113, 99, 25, 100, 101] 78 (.leaf
  [214, 182, 183, 184, 185]) (.cases [] 104 (.cases [260, 182, 187, 183, 34, 97, 184, 36, 98, 113,
  185, 38, 99, 25, 40, 100, 101] 105 (.leaf [264, 32, 41, 42]) (.cases [] 22 (.cases [39] 29
  (.cycle 39 [263, 261, 262]) (.leaf [61, 57, 133, 79])) (.leaf
  [30, 207, 208, 261, 262, 57, 133, 79]))) (.cases [] 100 (.cases [] 101 (.cycle 56
  [181, 259, 258]) (.leaf [250, 244, 245, 256, 247, 34, 97, 251, 36, 98, 113, 241, 38, 99, 25, 40,
  100, 101])) (.cycle 26 [249, 265, 95])))) (.cases [33, 34, 36, 38, 40] 100 (.cases [] 101 (.cases
  [] 104 (.cases [260, 182, 183, 184, 185] 82 (.cases
  [195, 98, 33, 99, 34, 24, 100, 36, 25, 101, 38, 40] 105 (.leaf [264, 32, 41, 42]) (.cases [] 22
  (.cases [39] 29 (.cycle 39 [263, 261, 262]) (.leaf [61, 57, 133, 79])) (.leaf
  [30, 207, 208, 261, 262, 57, 133, 79]))) (.cases [190, 182, 183, 184, 185] 22 (.cases [] 78
  (.leaf [214, 182, 216, 183, 25, 39, 184, 41, 185, 42]) (.leaf [187, 34, 24, 36, 25, 38, 40]))
  (.cycle 13 [30, 31, 32]))) (.cycle 10 [258, 181, 259])) (.cases [250, 244, 245, 247, 251, 241] 27
  (.cases [] 102 (.cases [] 22 (.cases [] 28 (.cases [72, 73, 74] 103 (.leaf
  [257, 33, 34, 24, 36, 25, 38, 40]) (.leaf
  [255, 245, 256, 247, 34, 24, 251, 36, 25, 241, 38, 40])) (.cases [58, 59, 60] 103 (.leaf
  [257, 33, 34, 24, 36, 25, 38, 40]) (.leaf [255, 245, 256, 247, 34, 24, 251, 36, 25, 39, 241, 38,
  41, 40, 42]))) (.leaf [254, 56, 57, 133, 79])) (.leaf [253, 56, 57, 133, 79])) (.leaf
  [50, 252, 25, 207, 208, 32, 41, 42]))) (.leaf [249, 8]))))))))))) (.cycle 44 [71, 132])

/-- some of the cases -/
def real5Case20 : SumTree :=
  .cases [23, 21] 95 (.leaf [237, 8]) (.cycle 24 [235, 236])

/-- some of the cases -/
def real5Case21 : SumTree :=
  .cases [221, 182, 183, 184, 185] 46 (.cases [118, 98, 99, 100, 101] 65 (.cases [] 91 (.leaf
  [234, 95, 34, 36, 38, 40]) (.cases [] 34 (.leaf
  [90, 25, 221, 153, 182, 95, 183, 34, 184, 36, 185, 38, 40]) (.cases [88, 45, 46, 47, 48] 66
  (.cycle 44 [162, 233]) (.cases [] 67 (.cases [161, 41, 42] 49 (.cases
  [120, 111, 98, 99, 100, 101] 92 (.cases [227, 181, 182, 183, 184, 185] 35 (.cycle 16 [88, 89])
  (.cases [76, 44, 45, 46, 47, 48] 56 (.cases [] 74 (.leaf [175, 111, 98, 99, 100, 101]) (.cases []
  82 (.cases [195, 98, 99, 100, 101] 80 (.cases
  [211, 182, 222, 195, 183, 41, 98, 184, 42, 99, 185, 100, 101] 94 (.leaf [232, 36, 38, 40])
  (.cases [230, 46, 47, 48] 85 (.leaf [202, 203, 205]) (.cases [] 86 (.cycle 36 [47, 231, 200])
  (.cases [] 89 (.cases [] 78 (.leaf [214, 182, 222, 195, 183, 41, 98, 184, 42, 99, 185, 100, 101])
  (.leaf [187, 34, 36, 38, 40])) (.leaf [219, 185]))))) (.cases [191, 45, 46, 47, 48] 23 (.cases
  [97, 98, 99, 100, 101] 24 (.leaf [96, 34, 97, 36, 98, 38, 99, 40, 100, 101]) (.cases
  [102, 45, 46, 47, 48] 57 (.cases [] 62 (.cycle 44 [148, 174]) (.cases [] 51 (.cycle 39
  [135, 147]) (.cases [123, 57] 33 (.cases [69, 52, 53, 54, 55] 53 (.cases [134, 41, 42] 28 (.leaf
  [72, 73, 74]) (.cases [58, 59, 60] 93 (.leaf [229, 184, 185]) (.cases [] 78 (.leaf
  [214, 182, 195, 183, 98, 184, 228, 99, 185, 38, 100, 40, 101]) (.leaf [187, 34, 97, 36, 98, 123,
  134, 38, 99, 57, 41, 40, 100, 42, 101])))) (.cycle 13 [125, 142])) (.leaf [68, 57])))) (.leaf
  [137, 111, 98, 99, 100, 101]))) (.leaf [33, 34, 161, 36, 41, 38, 42, 40]))) (.cases
  [190, 182, 183, 184, 185] 78 (.cases [214, 182, 222, 223, 183, 41, 57, 184, 42, 185] 80 (.cases
  [] 25 (.cases [94, 95, 34, 214, 36, 182, 222, 223, 38, 183, 41, 57, 40, 184, 42, 185] 29 (.leaf
  [67, 41, 42]) (.leaf [61, 57])) (.leaf [43, 44, 45, 211, 46, 182, 47, 183, 48, 184, 185])) (.leaf
  [191, 45, 46, 47, 48])) (.leaf [187, 34, 161, 36, 41, 38, 42, 40])))) (.leaf
  [130, 98, 99, 100, 101]))) (.cycle 16 [221, 226])) (.cycle 16 [118, 119])) (.cases
  [157, 34, 36, 38, 40] 33 (.cases [] 68 (.cycle 39 [159, 160]) (.leaf [158, 69, 52, 53, 54, 55]))
  (.leaf [68, 57])))))) (.leaf [156, 34, 36, 38, 40])) (.cases [113, 25, 221, 153, 182, 222, 95,
  183, 41, 34, 184, 36, 185, 38, 40] 65 (.cases [] 84 (.cases [] 66 (.leaf
  [162, 95, 34, 36, 38, 40]) (.cases [] 68 (.cycle 39 [159, 160]) (.cases [158, 57] 31 (.leaf
  [66, 41, 42]) (.cases [] 67 (.cases [161, 41, 64, 42] 33 (.cases [] 78 (.leaf
  [214, 182, 223, 183, 57, 184, 185]) (.cases [] 29 (.leaf [67, 41, 64, 42, 52, 53, 54, 55]) (.leaf
  [61, 57, 69, 52, 53, 54, 55]))) (.leaf [68, 57])) (.cycle 13 [157, 206]))))) (.leaf
  [198, 95, 34, 36, 38, 40])) (.leaf [156, 34, 36, 38, 40]))

/-- some of the cases -/
def real5Case22 : SumTree :=
  .cases [216, 25, 153, 95, 34, 36, 38, 40] 40 (.cases [] 81 (.cases [209, 181, 182, 216, 183, 25,
  184, 153, 185, 95, 34, 36, 38, 40] 65 (.cases [] 66 (.leaf [162, 95, 34, 36, 38, 40]) (.cases []
  67 (.leaf [161, 41, 42]) (.cases [] 33 (.cases [] 68 (.cycle 39 [159, 160]) (.leaf
  [158, 69, 52, 53, 54, 55])) (.leaf [68, 57])))) (.leaf [156, 34, 36, 38, 40])) (.cases
  [189, 44, 45, 46, 47, 48] 19 (.cases [] 34 (.cases [90, 25, 153, 95, 34, 36, 38, 40] 65 (.cases
  [163, 52, 53, 54, 55] 22 (.cases [39, 41, 42] 29 (.leaf [67, 41, 42]) (.cases [61, 57] 90 (.leaf
  [225, 98, 99, 100, 101]) (.cases [] 43 (.leaf [108, 111, 98, 99, 224, 100, 183, 101, 184, 185])
  (.cycle 27 [107, 106])))) (.cycle 13 [30, 31, 32])) (.leaf [156, 34, 36, 38, 40])) (.cases
  [88, 45, 46, 47, 48] 23 (.leaf [97, 98, 99, 100, 101]) (.cases [] 42 (.leaf
  [104, 98, 33, 99, 34, 100, 36, 101, 38, 40]) (.cases [] 49 (.leaf [120, 111, 98, 33, 103, 99, 34,
  45, 100, 36, 46, 101, 38, 47, 40, 48]) (.cases [] 66 (.leaf [162, 95, 34, 36, 38, 40]) (.cases []
  68 (.cycle 39 [159, 160]) (.cases [158, 57] 39 (.cases [] 29 (.leaf [67, 41, 42]) (.cases [] 32
  (.leaf [71, 63, 52, 53, 54, 55]) (.cases [] 46 (.cycle 16 [118, 119]) (.cases [] 36 (.cases [] 38
  (.cases [] 82 (.leaf [195, 113, 25, 88, 153, 85, 95, 41, 61, 34, 42, 57, 36, 38, 40]) (.leaf
  [190, 182, 216, 183, 25, 88, 184, 153, 45, 85, 185, 95, 46, 41, 61, 34, 47, 42, 57, 36, 48, 38,
  40])) (.leaf [84, 45, 87, 46, 57, 47, 48])) (.cycle 39 [77, 83, 70]))))) (.cycle 15
  [82, 81, 63])))))))) (.leaf [26, 21, 22, 180, 181, 182, 216, 183, 25, 184, 185]))) (.leaf
  [79, 44, 45, 46, 47, 48])

/-- some of the cases -/
def real5Case23 : SumTree :=
  .cases [221, 182, 222, 223, 183, 41, 57, 184, 42, 185] 40 (.cases [] 70 (.cases [] 37 (.cases []
  25 (.cases [] 24 (.leaf [96, 34, 24, 36, 25, 221, 38, 182, 222, 40, 183, 41, 184, 42, 185])
  (.cycle 8 [94, 95, 93])) (.cases [43, 44, 45, 46, 47, 48] 34 (.leaf
  [90, 25, 221, 182, 222, 223, 183, 41, 57, 184, 42, 185]) (.cases [88, 45, 46, 47, 48] 80 (.cases
  [211, 182, 222, 223, 183, 41, 57, 184, 42, 185] 83 (.leaf [194, 100, 101]) (.leaf [193])) (.cases
  [191, 45, 46, 47, 48] 38 (.cases [85, 41, 42] 30 (.cases [] 31 (.cases [66, 41, 42] 36 (.leaf
  [87, 57]) (.cycle 39 [77, 86])) (.cycle 13 [64, 65])) (.leaf [62, 63, 52, 53, 54, 55])) (.cycle
  13 [84, 167]))))) (.leaf [78, 44, 45, 167, 46, 41, 47, 42, 48])) (.leaf
  [166, 44, 45, 46, 47, 48])) (.leaf [79, 44, 45, 46, 47, 48])

/-- some of the cases -/
def real5Case24 : SumTree :=
  .cases [96, 34, 214, 36, 182, 216, 38, 183, 25, 39, 40, 184, 41, 185, 42] 33 (.cases [] 28
  (.cases [72, 73, 74] 29 (.cases [67, 41, 42] 32 (.leaf [71, 63, 52, 53, 54, 55]) (.cycle 15
  [70, 69])) (.leaf [61, 57])) (.cases [58, 59, 60] 31 (.leaf [66, 41, 42]) (.cases [] 27 (.cases
  [56] 29 (.leaf [67, 41, 64, 42, 52, 53, 54, 55]) (.leaf [61, 57, 69, 52, 53, 54, 55])) (.leaf
  [50, 25, 39, 41, 42])))) (.leaf [68, 57])

/-- some of the cases -/
def real5Case25 : SumTree :=
  .cases [211, 182, 216, 183, 25, 39, 184, 41, 185, 42] 49 (.leaf [120, 111, 98, 99, 100, 101])
  (.cases [] 46 (.cycle 16 [118, 119]) (.cases [] 27 (.cases [56, 57] 82 (.leaf
  [195, 98, 113, 99, 25, 56, 100, 57, 101]) (.cases [] 28 (.cases [72, 73, 74] 31 (.leaf
  [66, 41, 42]) (.cases [64] 33 (.cases [] 29 (.leaf [67, 41, 64, 42, 52, 53, 54, 55]) (.leaf
  [61, 57, 69, 52, 53, 54, 55])) (.leaf [68, 57]))) (.cases [58, 59, 60] 29 (.cases [67, 41, 42] 42
  (.leaf [104, 98, 190, 99, 182, 216, 100, 183, 25, 101, 184, 185]) (.cases [] 33 (.cases [] 23
  (.leaf [97, 98, 103, 99, 45, 211, 100, 46, 182, 216, 101, 47, 183, 25, 56, 48, 184, 67, 185, 41,
  42]) (.cases [33, 34, 36, 38, 40] 32 (.leaf [71, 63, 52, 53, 54, 55]) (.cycle 39 [69, 70])))
  (.leaf [68, 57, 67, 41, 42]))) (.cases [61, 57] 32 (.leaf [71, 63, 52, 53, 54, 55]) (.cases [] 31
  (.leaf [66, 41, 61, 42, 57]) (.cases [64, 52, 53, 54, 55] 33 (.cycle 39 [69, 70]) (.leaf
  [68, 57]))))))) (.cases [50, 25, 51, 39, 52, 41, 53, 42, 54, 55] 83 (.leaf [194, 100, 101])
  (.leaf [193]))))

/-- some of the cases -/
def real5Case26 : SumTree :=
  .cases [] 81 (.cycle 8 [209, 181, 210]) (.cases [189, 44, 45, 46, 47, 48] 34 (.cases
  [90, 25, 39, 41, 42] 27 (.cases [56, 57] 58 (.cases [] 59 (.cases [141, 63] 19 (.cases [] 43
  (.cases [108, 111, 98, 99, 100, 101] 23 (.cases [97, 98, 99, 100, 101] 82 (.cases
  [195, 98, 99, 100, 101] 31 (.leaf [66, 41, 42]) (.cases [] 33 (.cases [] 29 (.cases
  [67, 41, 64, 42, 52, 53, 54, 55] 85 (.leaf [202, 203, 205]) (.leaf [200, 47, 48])) (.cases
  [61, 57, 69, 52, 53, 54, 55] 85 (.leaf [202, 203, 205]) (.leaf [200, 47, 48]))) (.leaf
  [68, 57]))) (.leaf [190, 182, 191, 183, 45, 90, 184, 46, 25, 39, 56, 185, 47, 41, 57, 48, 42]))
  (.cases [33, 34, 214, 36, 182, 191, 38, 183, 45, 90, 40, 184, 46, 25, 39, 56, 185, 47, 141, 41,
  57, 48, 63, 42, 52, 53, 54, 55] 29 (.leaf [67, 41, 42]) (.leaf [61, 57]))) (.cycle 27
  [107, 106])) (.leaf [26, 21, 22, 180, 181, 189, 44, 182, 90, 183, 25, 184, 185])) (.cycle 9
  [139, 140])) (.cycle 15 [138, 51])) (.cases [50, 25, 51, 39, 52, 41, 53, 42, 54, 55] 89 (.leaf
  [220, 101]) (.cases [] 82 (.leaf [195, 98, 99, 100, 101, 219, 185]) (.cases [] 23 (.leaf [97, 98,
  190, 99, 182, 191, 100, 183, 45, 101, 184, 46, 185, 47, 48]) (.cases
  [33, 34, 214, 36, 182, 38, 183, 40, 184, 185] 58 (.leaf [139, 63, 52, 53, 54, 55]) (.cycle 16
  [51, 138])))))) (.cases [88, 45, 46, 47, 48] 88 (.cases [] 56 (.cases [] 62 (.leaf
  [148, 111, 98, 99, 100, 101]) (.cases [] 51 (.cycle 39 [135, 147]) (.cases [] 35 (.cycle 16
  [88, 89]) (.cases [76, 44, 45, 46, 47, 48] 42 (.leaf [104, 98, 99, 100, 101]) (.cases [] 50
  (.leaf [122, 111, 98, 103, 99, 45, 100, 46, 101, 47, 48]) (.cases [] 38 (.cases [85, 41, 42] 30
  (.cases [] 31 (.cases [66, 41, 42] 36 (.leaf [87, 57]) (.cases [77, 45, 46, 47, 48] 28 (.leaf
  [72, 73, 74]) (.cases [58, 59, 60] 83 (.leaf [194, 100, 101]) (.leaf [193])))) (.cycle 13
  [64, 65])) (.leaf [62, 63, 52, 53, 54, 55])) (.cases [] 49 (.cycle 9 [120, 121]) (.cases [] 31
  (.leaf [66, 84]) (.cases [] 29 (.cases [67, 41, 84, 64, 42, 45, 52, 46, 53, 47, 54, 48, 55] 83
  (.leaf [194, 100, 101]) (.cases [193] 23 (.leaf [97, 98, 99, 218]) (.leaf
  [33, 214, 182, 216, 183, 25, 184, 185]))) (.cases [] 70 (.cycle 13 [84, 167]) (.cases
  [166, 44, 45, 46, 47, 48] 19 (.cases [] 46 (.cycle 16 [118, 119]) (.cases [] 43 (.cases
  [108, 111, 98, 99, 100, 101] 23 (.cases [97, 98, 99, 100, 101] 36 (.leaf [87, 57]) (.cases [] 82
  (.leaf [195, 98, 113, 99, 25, 39, 100, 61, 101, 57, 77, 45, 46, 47, 48]) (.leaf
  [190, 182, 216, 183, 25, 39, 184, 61, 185, 77, 45, 46, 47, 48]))) (.leaf [33, 34, 214, 36, 182,
  216, 38, 183, 25, 39, 40, 184, 41, 61, 185, 42, 166, 57, 44, 45, 46, 47, 48])) (.cycle 27
  [107, 106]))) (.leaf [26, 21, 22, 180, 181, 182, 216, 183, 25, 184, 185])))))))))))) (.leaf
  [130, 98, 99, 100, 101])) (.leaf [217, 101])))

/-- some of the cases -/
def real5Case27 : SumTree :=
  .cases [211, 182, 187, 183, 34, 24, 184, 36, 25, 185, 38, 40] 22 (.cases [39, 41, 42] 33 (.cases
  [] 28 (.cases [72, 73, 74] 27 (.leaf [56, 57, 69, 52, 53, 54, 55]) (.leaf [50, 25, 39, 41, 42]))
  (.cases [58, 59, 60] 29 (.cases [67, 41, 42] 30 (.cases [] 31 (.leaf [66, 41, 42]) (.cycle 13
  [64, 65])) (.leaf [62, 63, 52, 53, 54, 55])) (.leaf [61, 69, 52, 53, 54, 55]))) (.leaf [68, 57]))
  (.cycle 13 [30, 31, 32])

/-- some of the cases -/
def real5Case28 : SumTree :=
  .cases [195, 98, 99, 100, 101] 23 (.cases [97, 98, 99, 100, 101] 84 (.cases [] 24 (.cases
  [96, 34, 24, 97, 36, 25, 98, 38, 99, 40, 100, 101] 49 (.leaf [120, 111, 98, 99, 100, 101])
  (.cases [] 62 (.leaf [148, 111, 98, 119, 99, 25, 100, 101]) (.cases [] 67 (.cases [161, 41, 42]
  51 (.cycle 39 [135, 147]) (.cases [123, 57] 33 (.cases [69, 52, 53, 54, 55] 28 (.leaf
  [72, 73, 74]) (.cases [58, 59, 60] 22 (.leaf [39, 41, 42]) (.cycle 13 [30, 207, 208, 32])))
  (.leaf [68, 57]))) (.cycle 13 [157, 206])))) (.cases [] 25 (.cycle 8 [94, 95, 93]) (.cases
  [43, 44, 45, 46, 47, 48] 34 (.cases [90, 25] 22 (.cases [39, 41, 42] 56 (.cases [] 27 (.cases
  [56, 57] 42 (.cases [104, 98, 99, 100, 101] 46 (.cases
  [118, 98, 131, 99, 52, 100, 53, 101, 54, 55] 29 (.leaf [67, 41, 42]) (.leaf [61, 57])) (.cases
  [113, 25, 51, 39, 56, 52, 41, 57, 53, 42, 54, 55] 85 (.cases [] 86 (.leaf [204, 205]) (.cycle 62
  [201, 202, 203])) (.leaf [200, 47, 48]))) (.cases
  [103, 45, 90, 46, 25, 39, 56, 47, 41, 57, 48, 42] 30 (.cases [] 31 (.leaf [66, 41, 42]) (.cycle
  13 [64, 65])) (.leaf [62, 63, 52, 53, 54, 55]))) (.leaf
  [50, 25, 51, 39, 52, 41, 53, 42, 54, 55])) (.leaf [130, 98, 99, 100, 101])) (.cycle 13
  [30, 31, 32])) (.cases [88, 45, 46, 47, 48] 42 (.cases [104, 98, 99, 100, 101] 70 (.cases [] 53
  (.leaf [134, 41, 42]) (.cases [] 38 (.leaf [85, 125, 98, 99, 100, 101]) (.cycle 13 [84, 167])))
  (.leaf [166, 44, 45, 104, 46, 98, 47, 99, 48, 100, 101])) (.cases [] 46 (.cases
  [118, 98, 103, 99, 45, 100, 46, 101, 47, 48] 57 (.cases [] 53 (.leaf [134, 41, 42]) (.cycle 13
  [125, 142])) (.leaf [137, 111, 98, 103, 99, 45, 100, 46, 101, 47, 48])) (.cases
  [113, 25, 88, 45, 46, 47, 48] 38 (.leaf [85, 41, 42]) (.cases [] 33 (.cases [] 36 (.leaf
  [87, 69, 52, 53, 54, 55]) (.cases [77, 45, 46, 47, 48] 22 (.cases [39, 41, 42] 39 (.leaf
  [83, 52, 53, 54, 55]) (.cases [] 40 (.cycle 15 [82, 81, 63]) (.leaf [79, 44, 45, 46, 47, 48])))
  (.cycle 13 [30, 31, 32]))) (.leaf [68, 57])))))))) (.cycle 33 [198, 199])) (.cases
  [33, 34, 24, 36, 25, 38, 40] 22 (.cases [39, 41, 42] 70 (.cases [] 42 (.leaf [104, 98, 33, 99,
  34, 24, 100, 36, 25, 39, 101, 38, 41, 40, 42]) (.cases [103, 45, 46, 47, 48] 24 (.cases
  [96, 34, 24, 36, 25, 39, 38, 41, 40, 42] 41 (.cases [] 27 (.leaf [56, 57]) (.cycle 16
  [25, 197, 50])) (.leaf [196, 91, 39, 41, 42])) (.cases [102, 45, 46, 47, 48] 34 (.cases
  [90, 25, 39, 41, 42] 29 (.cases [] 30 (.cases [] 31 (.leaf [66, 41, 42]) (.cycle 13 [64, 65]))
  (.leaf [62, 63, 52, 53, 54, 55])) (.leaf [61, 57])) (.cases [88, 45, 46, 47, 48] 38 (.leaf
  [85, 41, 42]) (.cycle 13 [84, 167]))))) (.leaf [166, 44, 45, 46, 47, 48])) (.cycle 13
  [30, 31, 32]))

/-- some of the cases -/
def real5Case29 : SumTree :=
  .cases [] 22 (.cases [] 43 (.cases [108, 111, 98, 190, 99, 182, 187, 191, 100, 183, 34, 24, 45,
  101, 184, 36, 25, 39, 46, 185, 38, 41, 47, 40, 42, 48] 40 (.cases [] 24 (.cases
  [96, 34, 24, 36, 25, 39, 38, 41, 40, 42] 29 (.cases [67, 41, 42] 30 (.cases [] 31 (.leaf
  [66, 41, 42]) (.cycle 13 [64, 65])) (.leaf [62, 63, 52, 53, 54, 55])) (.leaf [61, 57])) (.cases
  [102, 45, 46, 47, 48] 34 (.cases [90, 25, 39, 41, 42] 60 (.cases [] 30 (.cases [] 31 (.cases
  [66, 41, 42] 83 (.leaf [194, 100, 101]) (.leaf [193])) (.cycle 13 [64, 65])) (.cycle 33
  [62, 144])) (.leaf [143, 63, 52, 53, 54, 55])) (.cases [88, 45, 46, 47, 48] 31 (.leaf
  [66, 41, 42]) (.cases [] 38 (.leaf [85, 41, 64, 42, 52, 53, 54, 55]) (.cases [84, 45, 46, 47, 48]
  36 (.leaf [87, 57]) (.cases [77, 45, 46, 47, 48] 28 (.leaf [72, 73, 74]) (.cases [58, 59, 60] 72
  (.leaf [171, 54, 55]) (.cases [] 39 (.leaf [83, 52, 53, 192, 47, 48]) (.cycle 15
  [82, 81, 63]))))))))) (.leaf [79, 44, 45, 46, 47, 48])) (.cases [] 19 (.cycle 27 [107, 106])
  (.leaf [26, 21, 22, 180, 181, 182, 187, 24, 183, 25, 184, 185]))) (.cycle 13 [30, 31, 32])

/-- some of the cases -/
def real5Case30 : SumTree :=
  .cases [90, 25, 153, 122, 95, 111, 34, 98, 36, 99, 38, 100, 40, 101] 66 (.leaf
  [162, 95, 34, 36, 38, 40]) (.cases [] 33 (.cases [] 68 (.cycle 39 [159, 160]) (.leaf
  [158, 57, 69, 52, 53, 54, 55])) (.leaf [68, 57]))

/-- some of the cases -/
def real5Case31 : SumTree :=
  .cases [96, 34, 97, 161, 36, 98, 41, 38, 99, 40, 100, 101] 73 (.cases [] 68 (.cycle 39
  [159, 160]) (.cases [158, 57] 74 (.leaf [175]) (.cases [] 53 (.cases [134, 41, 42] 29 (.cases []
  31 (.cases [] 62 (.cycle 44 [148, 174]) (.cases [] 33 (.cases [] 51 (.cycle 39 [135, 147]) (.leaf
  [123, 57, 69, 52, 66, 53, 41, 54, 42, 55])) (.leaf [68, 57, 67, 41, 42]))) (.cases [] 62 (.cycle
  44 [148, 174]) (.cases [] 51 (.cycle 39 [135, 147]) (.leaf
  [123, 57, 67, 41, 64, 42, 52, 53, 54, 55])))) (.cases [61, 57] 30 (.cases [] 31 (.leaf
  [66, 41, 61, 42, 57]) (.cycle 13 [64, 65])) (.leaf [62, 63, 52, 53, 54, 55]))) (.cases
  [125, 98, 99, 100, 101] 31 (.leaf [66, 125]) (.cases [] 56 (.cases [131, 52, 53, 54, 55] 51
  (.cases [] 29 (.leaf [67, 41, 125, 42, 98, 131, 99, 52, 100, 53, 101, 54, 55]) (.leaf
  [61, 57, 135, 98, 131, 99, 52, 100, 53, 101, 54, 55])) (.leaf [123, 57])) (.cases [] 57 (.cycle
  27 [142, 125]) (.cycle 33 [137, 173]))))))) (.leaf [172])

/-- some of the cases -/
def real5Case32 : SumTree :=
  .cases [] 25 (.cycle 22 [95, 93, 94]) (.cases [43, 44, 45, 46, 47, 48] 38 (.cases [85, 41] 57
  (.cases [] 36 (.cases [87, 57] 62 (.leaf [148]) (.cases [] 42 (.cases [104, 98, 99, 100, 101] 53
  (.cases [134, 41, 42] 29 (.cases [] 31 (.cases [] 33 (.cases [] 55 (.leaf
  [133, 63, 52, 66, 53, 41, 54, 42, 55]) (.cases [] 32 (.cycle 44 [71, 132]) (.cycle 39 [69, 70])))
  (.leaf [68, 57, 67, 41, 42])) (.cases [] 51 (.cycle 39 [135, 147]) (.leaf
  [123, 67, 41, 64, 42, 52, 53, 54, 55]))) (.cases [61, 57] 30 (.cases [] 31 (.leaf
  [66, 41, 61, 42, 57]) (.cycle 13 [64, 65])) (.leaf [62, 63, 52, 53, 54, 55]))) (.cycle 13
  [125, 142])) (.cases [103, 45, 85, 87, 46, 41, 57, 47, 42, 48] 31 (.cases [66, 41, 42] 29 (.cases
  [] 32 (.leaf [71, 63, 52, 66, 53, 41, 54, 42, 55]) (.cases [] 33 (.cycle 39 [69, 70]) (.leaf
  [68, 57, 67, 41, 42]))) (.leaf [61, 57])) (.cases [64, 52, 53, 54, 55] 33 (.cases [] 29 (.cases
  [67, 41, 42] 30 (.cycle 13 [64, 65]) (.leaf [62, 63, 52, 53, 54, 55])) (.cases [61, 57] 32 (.leaf
  [71, 63, 52, 53, 54, 55]) (.cycle 39 [69, 70]))) (.leaf [68, 57]))))) (.cases
  [77, 45, 85, 46, 41, 47, 42, 48] 30 (.cases [] 31 (.cases [] 39 (.leaf
  [83, 52, 66, 53, 41, 54, 42, 55]) (.leaf [80, 45, 85, 46, 41, 47, 42, 48])) (.cycle 13 [64, 65]))
  (.leaf [62, 63, 52, 53, 54, 55]))) (.leaf [137])) (.cases [] 31 (.leaf [66, 84]) (.cases [] 70
  (.cycle 13 [84, 167]) (.cases [166, 44, 45, 46, 47, 48] 29 (.cases
  [67, 41, 42, 166, 44, 45, 46, 47, 48] 72 (.leaf [171, 54, 55]) (.cases [] 39 (.leaf
  [83, 52, 53, 170]) (.cases [] 30 (.cycle 13 [64, 65]) (.leaf [62, 63, 80])))) (.cases [61] 53
  (.cases [134, 41, 64, 61, 42, 166, 57, 44, 45, 46, 47, 48] 39 (.leaf [83, 52, 53, 54, 55])
  (.cases [80, 45, 46, 47, 48] 32 (.leaf [71, 63, 80]) (.cases [] 36 (.leaf [87, 57]) (.cases [] 33
  (.cycle 39 [69, 70]) (.leaf [68, 77]))))) (.cases [125, 98, 99, 100, 101] 51 (.cases
  [135, 98, 99, 100, 101] 36 (.leaf [87, 135]) (.cases [77, 45, 46, 47, 48] 42 (.cases
  [104, 98, 99, 100, 101] 71 (.leaf [169, 54, 55]) (.cases [] 56 (.leaf [131, 52, 53, 168]) (.cases
  [] 39 (.leaf [83, 130]) (.leaf [80, 104])))) (.cases [103, 45, 46, 47, 48] 56 (.leaf
  [131, 52, 53, 54, 55]) (.leaf [130, 98, 103, 99, 45, 100, 46, 101, 47, 48])))) (.cases [123, 57]
  42 (.leaf [104, 98, 123, 99, 57, 100, 101]) (.cases [103, 45, 46, 47, 48] 56 (.cases
  [131, 52, 53, 54, 55] 39 (.leaf [83, 52, 53, 54, 55]) (.leaf [80, 45, 46, 47, 48])) (.leaf
  [130, 98, 123, 103, 99, 57, 45, 100, 46, 101, 47, 48])))))))))

/-- some of the cases -/
def real5Case33 : SumTree :=
  .cases [157, 34, 97, 36, 98, 38, 99, 40, 100, 101] 68 (.cycle 39 [159, 160]) (.leaf [158, 57])

/-- some of the cases -/
def real5Case34 : SumTree :=
  .cases [33, 34, 36, 38, 40] 53 (.cases [134, 41, 42] 67 (.cases [161, 41, 42] 68 (.leaf
  [159, 34, 161, 36, 41, 38, 42, 40]) (.cases [158, 57] 42 (.cases [104, 98, 33, 99, 34, 161, 158,
  100, 36, 41, 57, 101, 38, 42, 40] 60 (.cases [] 55 (.leaf [133, 63, 144, 52, 42, 53, 54, 55])
  (.cases [] 29 (.cases [] 32 (.cycle 44 [71, 132]) (.cases [] 33 (.cycle 39 [69, 70]) (.leaf
  [68, 57, 67, 41, 42]))) (.cases [] 30 (.cases [] 31 (.leaf [66, 41, 61, 42, 57]) (.cycle 13
  [64, 65])) (.cycle 33 [62, 144])))) (.leaf [143, 63, 52, 53, 54, 55])) (.cases
  [103, 45, 46, 47, 48] 24 (.cases [96, 34, 161, 158, 36, 41, 57, 38, 42, 40] 60 (.cases [] 55
  (.leaf [133, 63, 144, 52, 42, 53, 54, 55]) (.cases [] 29 (.cases [] 32 (.cycle 44 [71, 132])
  (.cases [] 33 (.cycle 39 [69, 70]) (.leaf [68, 57, 67, 41, 42]))) (.cases [] 30 (.cases [] 31
  (.leaf [66, 41, 61, 42, 57]) (.cycle 13 [64, 65])) (.cycle 33 [62, 144])))) (.leaf
  [143, 63, 52, 53, 54, 55])) (.cases [102, 45, 46, 47, 48] 38 (.cases [85, 41, 42] 29 (.cases []
  31 (.cases [] 37 (.cases [] 33 (.cases [] 36 (.leaf [87, 57, 69, 52, 66, 53, 41, 54, 42, 55])
  (.cycle 39 [77, 86])) (.leaf [68, 57, 67, 41, 42])) (.leaf [78, 44, 45, 85, 46, 41, 47, 42, 48]))
  (.cases [] 37 (.cases [] 36 (.leaf [87, 57, 67, 41, 64, 42, 52, 53, 54, 55]) (.cycle 39
  [77, 86])) (.leaf [78, 44, 45, 85, 46, 41, 47, 42, 48]))) (.cases [61, 57] 30 (.cases [] 31
  (.leaf [66, 41, 61, 42, 57]) (.cycle 13 [64, 65])) (.leaf [62, 63, 52, 53, 54, 55]))) (.cases
  [84, 45, 46, 47, 48] 31 (.leaf [66, 84]) (.cases [64] 29 (.leaf
  [67, 41, 84, 64, 42, 45, 52, 46, 53, 47, 54, 48, 55]) (.cases [61, 57] 32 (.leaf
  [71, 63, 52, 53, 54, 55]) (.cases [] 39 (.cases [] 70 (.cycle 13 [84, 167]) (.leaf
  [166, 44, 45, 83, 46, 52, 70, 47, 53, 57, 48, 54, 55])) (.cases [80, 45, 46, 47, 48] 36 (.leaf
  [87, 57]) (.cases [] 33 (.cycle 39 [69, 70]) (.leaf [68, 77]))))))))))) (.cases
  [157, 34, 36, 38, 40] 40 (.cases [] 31 (.leaf [66, 157]) (.cases [] 42 (.cases
  [104, 98, 134, 99, 41, 157, 64, 100, 42, 34, 101, 36, 38, 40] 65 (.leaf [163, 52, 53, 54, 55])
  (.leaf [156, 34, 36, 38, 40])) (.cases [103, 45, 46, 47, 48] 24 (.cases [] 39 (.cases [] 38
  (.cases [85, 41, 157, 64, 42, 34, 36, 38, 40] 65 (.leaf [163, 52, 53, 54, 55]) (.leaf
  [156, 34, 36, 38, 40])) (.cases [84, 45, 96, 83, 46, 34, 52, 47, 36, 53, 48, 38, 54, 40, 55] 69
  (.leaf [165, 54, 55]) (.leaf [164, 38, 40]))) (.cycle 15 [82, 81, 63])) (.cases
  [102, 45, 46, 47, 48] 39 (.leaf [83, 52, 53, 54, 55]) (.cycle 15 [82, 81, 63]))))) (.leaf
  [79, 44, 45, 46, 47, 48]))) (.cases [125, 98, 33, 99, 34, 100, 36, 101, 38, 40] 65 (.leaf
  [163, 52, 53, 54, 55]) (.leaf [156, 34, 36, 38, 40]))

/-- some of the cases -/
def real5Case35 : SumTree :=
  .cases [] 19 (.cases [] 43 (.cases [] 26 (.cases [] 52 (.cases [] 44 (.cases
  [110, 111, 98, 113, 99, 25, 100, 153, 101, 95, 34, 36, 38, 40] 61 (.cases
  [146, 44, 45, 46, 47, 48] 42 (.cases [104, 98, 113, 99, 25, 100, 153, 101, 95, 34, 36, 38, 40] 65
  (.cases [163, 52, 53, 54, 55] 22 (.leaf [39, 41, 42]) (.cycle 13 [30, 31, 32])) (.leaf
  [156, 34, 36, 38, 40])) (.cases [103, 45, 46, 47, 48] 34 (.cases
  [90, 25, 153, 95, 34, 36, 38, 40] 65 (.cases [163, 52, 53, 54, 55] 22 (.leaf [39, 41, 42])
  (.cycle 13 [30, 31, 32])) (.leaf [156, 34, 36, 38, 40])) (.cases [88, 45, 46, 47, 48] 66 (.leaf
  [162, 95, 34, 36, 38, 40]) (.cases [] 67 (.leaf [161, 41, 42]) (.cases [] 68 (.cycle 39
  [159, 160]) (.leaf [158, 57])))))) (.cycle 12 [127, 145])) (.cycle 12 [108, 109])) (.cycle 21
  [124, 75])) (.leaf [49, 21, 108, 111, 113, 25, 151])) (.cycle 24 [106, 107])) (.cases
  [26, 21, 22] 20 (.cases [37, 25, 153, 95, 34, 36, 38, 40] 26 (.cases [75, 45, 46, 47, 48] 65
  (.cases [] 66 (.leaf [162, 95, 34, 36, 38, 40]) (.cases [] 34 (.leaf
  [90, 25, 153, 95, 34, 36, 38, 40]) (.cases [88, 45, 46, 47, 48] 67 (.leaf [161, 41, 42]) (.cases
  [157, 34, 36, 38, 40] 68 (.cycle 39 [159, 160]) (.leaf [158, 57]))))) (.leaf
  [156, 34, 36, 38, 40])) (.leaf [49, 21, 37, 22, 25, 153, 95, 34, 36, 38, 40])) (.cycle 16
  [27, 154, 155, 29]))

/-- some of the cases -/
def real5Case36 : SumTree :=
  .cases [96, 34, 24, 36, 25, 38, 40] 54 (.cases [] 20 (.cases [] 22 (.cases [39, 41] 42 (.cases
  [104, 98, 99, 100, 101] 23 (.cases [97, 98, 99, 100, 101] 46 (.cases [] 21 (.cases [] 49 (.cases
  [120, 111, 98, 99, 100, 101] 26 (.cases [] 56 (.cases [] 51 (.cases
  [135, 98, 131, 99, 52, 100, 53, 101, 54, 55] 31 (.leaf [66, 41, 42]) (.cases [] 29 (.cases
  [67, 41] 57 (.cases [] 53 (.leaf [134, 41, 64, 42, 52, 53, 54, 55]) (.cycle 13 [125, 142]))
  (.leaf [137])) (.cases [61, 57] 62 (.leaf [148]) (.cycle 39 [135, 147])))) (.cases [123, 57] 29
  (.leaf [67, 41, 42]) (.cases [] 32 (.leaf [71, 63, 52, 53, 54, 55]) (.cases [] 53 (.leaf
  [134, 41, 61, 42, 57]) (.cases [] 33 (.cycle 39 [69, 70]) (.cases [] 52 (.leaf [127, 44, 96, 34,
  24, 36, 25, 39, 38, 41, 125, 40, 42, 98, 131, 99, 52, 68, 100, 53, 57, 101, 54, 55]) (.cycle 21
  [124, 75]))))))) (.cases [130, 98, 99, 100, 101] 30 (.cases [] 53 (.leaf [134, 41, 42]) (.cases
  [] 31 (.leaf [66, 125]) (.cycle 15 [65, 64]))) (.leaf [62, 63, 130]))) (.leaf
  [49, 105, 24, 25, 120])) (.cycle 16 [118, 119])) (.leaf
  [35, 21, 37, 22, 25, 118, 98, 99, 100, 101])) (.cases [] 21 (.cases [] 58 (.cases [] 27 (.cases
  [] 59 (.cases [] 26 (.cases [] 52 (.cases [] 61 (.cases [146, 44, 45, 96, 46, 34, 97, 47, 36, 98,
  113, 48, 38, 99, 25, 39, 56, 40, 100, 141, 41, 57, 101, 63, 42, 52, 53, 54, 55] 31 (.leaf
  [66, 41, 42]) (.cases [] 33 (.cases [] 29 (.leaf [67, 41, 64, 42, 52, 53, 54, 55]) (.leaf
  [61, 57, 69, 52, 53, 54, 55])) (.leaf [68, 57]))) (.cycle 12 [127, 145])) (.cycle 21 [124, 75]))
  (.leaf [49, 21, 105, 22, 34, 97, 36, 113, 38, 25, 56, 40, 57])) (.cycle 9 [139, 140])) (.cases
  [50, 25, 39, 139, 41, 63, 42, 52, 53, 54, 55] 31 (.leaf [66, 41, 42]) (.cases [] 60 (.cases [] 30
  (.cycle 13 [64, 65]) (.cycle 33 [62, 144])) (.leaf [143, 63, 52, 53, 54, 55])))) (.cycle 15
  [138, 51])) (.leaf [35, 21, 22, 110, 111, 98, 113, 99, 25, 100, 101]))) (.cases
  [33, 34, 36, 38, 40] 27 (.cases [] 26 (.cases [] 52 (.cases [127, 44, 45, 104, 46, 98, 33, 47,
  99, 34, 24, 48, 100, 36, 25, 39, 56, 101, 38, 41, 57, 40, 42] 31 (.cases [66, 41, 42] 29 (.cases
  [] 32 (.leaf [71, 63, 52, 66, 53, 41, 54, 42, 55]) (.cases [] 33 (.cycle 39 [69, 70]) (.leaf
  [68, 57, 67, 41, 42]))) (.leaf [61, 57])) (.cases [] 29 (.cases [67, 41, 42] 30 (.cycle 13
  [64, 65]) (.leaf [62, 63, 52, 53, 54, 55])) (.cases [61, 57] 32 (.leaf [71, 63, 52, 53, 54, 55])
  (.cases [] 33 (.cycle 39 [69, 70]) (.cases [] 30 (.cycle 13 [64, 65]) (.leaf
  [62, 63, 52, 68, 53, 57, 54, 55])))))) (.cycle 21 [124, 75])) (.leaf
  [49, 21, 22, 110, 111, 98, 33, 99, 24, 100, 25, 56, 101, 57])) (.cases
  [50, 25, 51, 39, 52, 41, 53, 42, 54, 55] 30 (.cases [] 31 (.leaf [66, 41, 42]) (.cycle 13
  [64, 65])) (.leaf [62, 63, 52, 53, 54, 55])))) (.cases
  [103, 45, 96, 46, 34, 24, 47, 36, 25, 39, 48, 38, 41, 40, 42] 27 (.cases [56, 57] 31 (.cases []
  58 (.leaf [139, 63, 52, 66, 53, 41, 54, 42, 55]) (.cycle 15 [138, 51])) (.cases [64] 33 (.cases
  [] 29 (.leaf [67, 41, 64, 42, 52, 53, 54, 55]) (.leaf [61, 57, 69, 52, 53, 54, 55])) (.leaf
  [68, 57]))) (.cases [50, 25, 39, 41, 42] 58 (.leaf [139, 63, 52, 53, 54, 55]) (.cycle 16
  [51, 138])))) (.cycle 13 [30, 31, 32])) (.leaf [128])) (.leaf [126])

/-- some of the cases -/
def real5Case37 : SumTree :=
  .cases [90, 25] 54 (.cases [] 20 (.cases [] 22 (.cases [] 47 (.cases [] 48 (.cases [117, 95, 43,
  34, 44, 36, 45, 90, 38, 46, 25, 39, 40, 47, 41, 48] 57 (.cases [] 58 (.cases [] 59 (.cases
  [141, 63, 52, 53, 54, 55] 56 (.cases [] 23 (.cases [97, 98, 99, 100, 101] 27 (.cases [56, 57] 42
  (.cases [104, 98, 99, 100, 101] 46 (.cases [118, 98, 99, 100, 101] 31 (.leaf [66, 41, 42])
  (.cases [] 53 (.leaf [134, 41, 64, 42, 52, 53, 54, 55]) (.cycle 13 [125, 142]))) (.cases
  [113, 25, 39, 56, 141, 41, 57, 63, 42, 52, 53, 54, 55] 29 (.leaf [67, 41, 42]) (.leaf [61, 57])))
  (.cases [103, 45, 90, 46, 25, 39, 56, 47, 141, 41, 57, 48, 63, 42, 52, 53, 54, 55] 31 (.leaf
  [66, 41, 42]) (.cases [] 33 (.cases [] 29 (.cases [67, 41, 42] 30 (.cycle 13 [64, 65]) (.leaf
  [62, 63, 52, 53, 54, 55])) (.cases [61, 57] 32 (.leaf [71, 63, 52, 53, 54, 55]) (.cycle 39
  [69, 70]))) (.leaf [68, 57])))) (.cases [50, 25, 39, 141, 41, 63, 42, 52, 53, 54, 55] 42 (.leaf
  [104, 98, 99, 100, 101]) (.cases [103, 45, 46, 47, 48] 30 (.cases [] 31 (.leaf [66, 41, 42])
  (.cycle 15 [65, 64])) (.leaf [62, 63, 52, 53, 54, 55])))) (.cases [33, 34, 102, 36, 45, 90, 38,
  46, 25, 39, 40, 47, 141, 41, 48, 63, 42, 52, 53, 54, 55] 33 (.cases [] 27 (.cases [56, 57] 31
  (.leaf [66, 41, 42]) (.cases [] 29 (.leaf [67, 41, 64, 42, 52, 53, 54, 55]) (.leaf
  [61, 57, 69, 52, 53, 54, 55]))) (.leaf [50, 25, 39, 141, 41, 63, 42, 52, 53, 54, 55])) (.leaf
  [68, 57]))) (.leaf [130])) (.cycle 9 [139, 140])) (.cycle 15 [138, 51])) (.leaf [137])) (.cycle
  12 [115, 116])) (.cases [] 21 (.cycle 26 [114, 105]) (.cases
  [35, 21, 22, 110, 111, 98, 99, 100, 101] 42 (.cases [] 26 (.leaf
  [75, 45, 90, 46, 25, 39, 47, 41, 48, 42]) (.leaf
  [49, 21, 37, 22, 110, 25, 111, 98, 99, 100, 101])) (.leaf [103, 45, 90, 46, 25, 47, 48]))))
  (.cycle 13 [30, 31, 32])) (.leaf [128])) (.leaf [126])

/-- some of the cases -/
def real5Case38 : SumTree :=
  .cases [] 49 (.cases [] 50 (.cases [122, 111, 98, 99, 100, 101] 51 (.cases
  [135, 98, 99, 100, 101] 54 (.cases [] 20 (.cases [] 36 (.leaf [87, 135]) (.cases
  [77, 45, 46, 47, 48] 33 (.cases [] 21 (.cases [] 42 (.cases [] 37 (.cycle 39 [77, 86]) (.leaf
  [78, 44, 104])) (.cases [103, 45, 46, 47, 48] 56 (.cases [131, 52, 53, 54, 55] 39 (.cases
  [83, 52, 53, 54, 55] 47 (.leaf [115, 95, 24, 25]) (.cycle 26 [114, 105])) (.cases
  [80, 45, 46, 47, 48] 47 (.leaf [115, 95, 34, 24, 36, 25, 38, 40]) (.cycle 26 [114, 105])))
  (.cases [] 32 (.leaf [71, 63, 130]) (.cycle 15 [70, 69])))) (.leaf [35, 21, 37, 22, 25])) (.leaf
  [68, 135]))) (.cycle 16 [128, 21, 129])) (.leaf [126, 22])) (.cases [123, 57] 52 (.cases [] 53
  (.cases [134, 41, 42] 54 (.cases [] 20 (.cases [] 21 (.cases [] 42 (.cases
  [104, 98, 123, 134, 99, 57, 41, 100, 42, 101] 56 (.cases [131, 52, 53, 54, 55] 29 (.leaf
  [67, 41, 42]) (.leaf [61, 57])) (.leaf [130, 98, 123, 134, 99, 57, 41, 100, 42, 101])) (.cases
  [103, 45, 46, 47, 48] 30 (.cases [] 32 (.leaf [71, 63, 52, 65, 53, 41, 54, 42, 55]) (.cases [] 29
  (.cases [] 33 (.cycle 39 [69, 70]) (.leaf [68, 57, 67, 41, 42])) (.cases [] 33 (.cycle 13
  [61, 69, 65]) (.cases [68, 57] 47 (.leaf [115, 95, 24, 25, 122, 111, 98, 134, 103, 99, 41, 45,
  100, 42, 46, 101, 47, 48]) (.cycle 26 [114, 105]))))) (.leaf [62, 63, 52, 53, 54, 55]))) (.leaf
  [35, 21, 37, 22, 25, 122, 111, 98, 123, 134, 99, 57, 41, 100, 42, 101])) (.cycle 16
  [128, 21, 129])) (.leaf [126, 22, 110, 111, 98, 123, 134, 99, 57, 41, 100, 42, 101])) (.cases
  [125, 98, 123, 99, 57, 100, 101] 54 (.cases [] 20 (.cases [] 21 (.cases [] 38 (.leaf [85, 125])
  (.cases [84, 45, 46, 47, 48] 55 (.leaf [133, 63, 52, 53, 54, 55]) (.cases [] 32 (.cycle 44
  [71, 132]) (.cases [] 33 (.cycle 39 [69, 70]) (.cases [68] 36 (.cases [] 47 (.cases
  [115, 95, 24, 25] 56 (.cases [] 39 (.cases [] 42 (.leaf
  [104, 98, 131, 99, 52, 68, 100, 53, 57, 101, 54, 55]) (.leaf
  [103, 45, 83, 46, 52, 68, 47, 53, 57, 48, 54, 55])) (.leaf [80, 45, 87, 46, 57, 47, 48])) (.leaf
  [130, 98, 123, 99, 57, 100, 101])) (.cycle 26 [114, 105])) (.leaf [77])))))) (.leaf [35, 21, 37,
  22, 25, 112, 122, 44, 111, 45, 98, 46, 99, 47, 100, 48, 101])) (.cycle 16 [128, 21, 129])) (.leaf
  [126, 22, 110, 127, 111, 44, 98, 45, 99, 46, 100, 47, 101, 48]))) (.cycle 21 [124, 75]))) (.cycle
  9 [120, 121])) (.cycle 16 [118, 119])

/-- some of the cases -/
def real5Case39 : SumTree :=
  .cases [] 23 (.cases [] 22 (.cases [] 47 (.cases [] 48 (.cases [117, 95, 34, 97, 36, 98, 113, 38,
  99, 25, 39, 40, 100, 112, 41, 101, 44, 42, 45, 46, 47, 48] 39 (.cases [83, 52, 53, 54, 55] 38
  (.leaf [85, 41, 42]) (.cases [] 36 (.leaf [87, 57]) (.cases [] 29 (.leaf
  [67, 41, 84, 42, 45, 83, 46, 52, 47, 53, 48, 54, 55]) (.leaf
  [61, 57, 77, 45, 83, 46, 52, 47, 53, 48, 54, 55])))) (.cases [80, 45, 46, 47, 48] 38 (.leaf
  [85, 41, 42]) (.cases [] 31 (.leaf [66, 84]) (.cases [] 36 (.leaf [87, 57]) (.cases [] 33 (.cases
  [] 29 (.leaf [67, 41, 64, 42, 52, 80, 53, 45, 54, 46, 55, 47, 48]) (.leaf
  [61, 57, 69, 52, 80, 53, 45, 54, 46, 55, 47, 48])) (.leaf [68, 77])))))) (.cycle 12 [115, 116]))
  (.cases [] 21 (.cycle 26 [114, 105]) (.leaf
  [35, 21, 22, 110, 111, 98, 113, 99, 25, 39, 100, 41, 101, 42]))) (.cycle 13 [30, 31, 32]))
  (.cases [33, 34, 24, 36, 25, 38, 112, 40, 44, 45, 46, 47, 48] 22 (.cases [39, 41, 42] 39 (.cases
  [83, 52, 53, 54, 55] 38 (.leaf [85, 41, 42]) (.cases [] 36 (.leaf [87, 57]) (.cases [] 29 (.leaf
  [67, 41, 84, 42, 45, 83, 46, 52, 47, 53, 48, 54, 55]) (.leaf
  [61, 77, 45, 83, 46, 52, 47, 53, 48, 54, 55])))) (.cases [80, 45, 46, 47, 48] 38 (.leaf
  [85, 41, 42]) (.cases [] 31 (.leaf [66, 84]) (.cases [] 36 (.leaf [87, 57]) (.cases [] 33 (.cases
  [] 29 (.leaf [67, 41, 64, 42, 52, 80, 53, 45, 54, 46, 55, 47, 48]) (.leaf
  [61, 57, 69, 52, 80, 53, 45, 54, 46, 55, 47, 48])) (.leaf [68, 77])))))) (.cycle 13
  [30, 31, 32]))

/-- some of the cases -/
def real5Case40 : SumTree :=
  .cases [] 21 (.cases [105, 34, 24, 36, 25, 38, 40] 39 (.cases [] 22 (.cases [39, 41, 42] 35
  (.cases [] 34 (.cases [] 26 (.cases [75, 45, 46, 47, 48] 24 (.leaf
  [96, 34, 24, 36, 25, 39, 38, 41, 40, 42]) (.leaf [102, 45, 90, 46, 25, 39, 47, 41, 48, 42]))
  (.leaf [49, 21, 105, 22, 34, 24, 36, 25, 39, 38, 41, 40, 42])) (.cycle 16 [88, 89])) (.leaf
  [76, 44, 45, 46, 47, 48])) (.cycle 13 [30, 31, 32])) (.leaf [80, 45, 46, 47, 48])) (.cases [] 22
  (.cases [] 23 (.cases [97, 98, 26, 99, 21, 37, 100, 22, 25, 39, 101, 41, 42] 24 (.leaf
  [96, 97, 26]) (.cases [102, 45, 46, 47, 48] 39 (.cases [] 35 (.cases [] 37 (.cases [] 38 (.cases
  [] 36 (.cases [] 42 (.leaf [104, 98, 26, 99, 21, 37, 100, 22, 25, 51, 39, 101, 52, 41, 53, 42,
  54, 55]) (.cases [103, 45, 46, 47, 48] 26 (.leaf [75, 45, 85, 87, 46, 41, 57, 47, 42, 48]) (.leaf
  [49, 21, 37, 22, 25, 51, 39, 52, 41, 53, 42, 54, 55]))) (.cycle 39 [77, 86])) (.cycle 16
  [39, 84, 89])) (.leaf [78, 44, 45, 89, 46, 25, 47, 48])) (.leaf [76, 44, 45, 46, 47, 48])) (.leaf
  [80, 45, 46, 47, 48]))) (.cases [33, 34, 35, 36, 21, 37, 38, 22, 25, 39, 40, 41, 42] 24 (.cases
  [96, 34, 35, 36, 21, 37, 38, 22, 25, 39, 40, 41, 42] 33 (.cases [] 28 (.cases [72, 73, 74] 29
  (.cases [67, 41, 42] 32 (.leaf [71, 63, 52, 53, 54, 55]) (.cycle 15 [70, 69])) (.leaf [61, 57]))
  (.cases [58, 59, 60] 31 (.leaf [66, 41, 42]) (.cases [] 27 (.cases [56] 29 (.leaf
  [67, 41, 64, 42, 52, 53, 54, 55]) (.leaf [61, 57, 69, 52, 53, 54, 55])) (.leaf
  [50, 25, 39, 41, 42])))) (.leaf [68, 57])) (.cases [] 25 (.cycle 26 [93, 94, 95]) (.cases
  [43, 44, 45, 46, 47, 48] 26 (.cases [75, 45, 46, 47, 48] 34 (.cases
  [90, 25, 51, 39, 52, 41, 53, 42, 54, 55] 41 (.leaf [92]) (.cases [] 27 (.cycle 16 [56, 57, 91])
  (.leaf [50, 25, 51, 39, 52, 41, 53, 42, 54, 55]))) (.cases [] 35 (.cycle 16 [88, 89]) (.cases
  [76, 44, 45, 46, 47, 48] 36 (.cases [87, 57] 29 (.leaf [67, 41, 42]) (.cases [] 32 (.leaf
  [71, 63, 52, 53, 54, 55]) (.cases [] 38 (.leaf [85, 41, 61, 42, 57]) (.cases [84, 45, 46, 47, 48]
  33 (.cycle 39 [69, 70]) (.cases [68, 57] 28 (.leaf [72, 73, 74]) (.cases [58, 59, 60] 39 (.leaf
  [83, 52, 68, 53, 57, 54, 55]) (.leaf [80, 45, 87, 46, 57, 47, 48]))))))) (.cases [] 33 (.cases []
  37 (.cycle 39 [77, 86]) (.cases [78, 44, 45, 46, 47, 48] 38 (.leaf [85, 41, 42]) (.cases [] 31
  (.leaf [66, 84]) (.cases [] 28 (.cases [72, 73, 74] 39 (.leaf [83, 52, 53, 54, 55]) (.cases [] 40
  (.cycle 8 [81, 63, 82]) (.cases [79, 44, 45, 46, 47, 48] 29 (.leaf
  [67, 41, 64, 42, 80, 45, 46, 47, 48]) (.leaf [61, 57, 69, 52, 53, 54, 55])))) (.cases
  [58, 59, 60] 39 (.leaf [83, 52, 53, 54, 55]) (.cases [] 40 (.cycle 8 [81, 63, 82]) (.cases [] 29
  (.leaf [67, 41, 64, 42, 80, 45, 46, 47, 48]) (.cases [61, 57] 32 (.leaf [71, 79]) (.cycle 39
  [69, 70]))))))))) (.leaf [68, 77]))))) (.cases [49, 21, 37, 22, 25, 39, 41, 42] 27 (.cases
  [56, 57] 28 (.cases [72, 73, 74] 30 (.cases [] 31 (.leaf [66, 41, 42]) (.cycle 13 [64, 65]))
  (.leaf [62, 63, 52, 53, 54, 55])) (.cases [58, 59, 60] 29 (.cases [67, 41, 42] 32 (.leaf
  [71, 63, 52, 53, 54, 55]) (.cases [] 33 (.cycle 39 [69, 70]) (.leaf [68, 57, 67, 41, 42])))
  (.cases [61, 57] 30 (.cases [] 31 (.leaf [66, 41, 61, 42, 57]) (.cycle 13 [64, 65])) (.leaf
  [62, 63, 52, 53, 54, 55])))) (.leaf [50, 25, 51, 39, 52, 41, 53, 42, 54, 55])))))) (.cycle 13
  [30, 31, 32]))

/-- all cases -/
def real5Cases : SumTree :=
  .cases [0] 0 (.cases [] 1 (.cases [] 2 (.cases [] 3 (.leaf [311]) (.cases [] 4 (.cases [] 5
  (.leaf [310, 14]) (.cases [] 6 (.cases [] 7 (.cases [] 8 (.cases [] 9 (.cases [] 10 (.leaf [309])
  (.cases [] 11 (.cases [] 12 (.cases [] 13 (.cases [] 14 (.cases [] 15 (.cases [] 16 (.cases [] 17
  (.cases [] 95 (.cases [] 96 (.cases [] 75 (.cases [] 97 real5Case0 (.cases [240, 241] 76 (.cases
  [180, 181, 182, 183, 184, 185] 98 (.cases [243, 244, 245, 246, 247, 25] 18 (.cases [] 63 (.cases
  [] 64 (.cases [153, 95, 34, 36, 38, 40] 34 real5Case1 (.cases [] 35 (.cycle 16 [88, 89]) (.cases
  [] 45 (.cycle 9 [76, 136]) (.cases [112, 44, 45, 46, 47, 48] 46 real5Case2 real5Case3)))) (.cycle
  9 [151, 152])) (.cycle 16 [149, 150])) (.cases [24, 25] 24 (.cases [96, 34, 24, 36, 25, 38, 40]
  92 (.leaf [227]) (.cases [] 22 (.cases [39, 41, 42] 104 (.cases [260, 182, 183, 184, 185] 83
  (.cases [194, 100, 101] 28 real5Case4 (.cases [58, 59, 60] 29 real5Case5 real5Case6)) real5Case7)
  real5Case8) (.cycle 13 [30, 31, 32]))) (.cases [] 25 (.cycle 8 [94, 95, 93]) (.cases
  [43, 44, 45, 46, 47, 48] 34 (.cases [90, 25] 92 (.leaf [227]) (.cases [] 22 (.cases [39, 41, 42]
  104 (.cases [260, 182, 183, 184, 185] 83 (.cases [194, 100, 101] 78 real5Case9 (.cases
  [187, 34, 36, 38, 40] 82 (.cases [195, 98, 99, 100, 101] 23 (.cases [97, 98, 99, 100, 101] 42
  real5Case10 real5Case11) real5Case12) real5Case13)) real5Case14) (.cases [] 101 (.cycle 56
  [181, 259, 258]) (.cases [250, 244, 245, 247, 251, 241] 100 (.cases
  [256, 34, 102, 36, 45, 90, 38, 46, 25, 39, 40, 47, 41, 48] 103 real5Case15 real5Case16) (.cycle
  26 [249, 265, 95])))) (.cycle 13 [30, 31, 32]))) (.cases [] 35 (.cycle 16 [88, 89]) (.cases
  [76, 44] 80 (.leaf [211]) (.cases [] 45 (.cycle 9 [76, 136]) (.cases [112, 44, 45, 46, 47, 48] 36
  (.cases [87] 51 (.leaf [135]) (.cases [] 38 real5Case17 real5Case18)) (.cases [] 33 (.cases [] 37
  (.cycle 39 [77, 86]) (.cases [78, 44] 42 (.leaf [104]) (.cases [] 32 (.cases [71, 63] 56 (.cases
  [] 92 (.leaf [227, 181, 182, 223, 183, 57, 184, 78, 185, 44, 45, 46, 47, 48]) (.cases [] 99
  (.cycle 44 [78, 268]) real5Case19)) (.leaf [130])) (.cycle 15 [70, 69])))) (.leaf
  [68, 77])))))))))) (.cycle 12 [237, 242])) (.cycle 12 [178, 179]))) (.cycle 24 [176, 177]))
  (.cycle 16 [238, 239])) (.cycle 24 [235, 236])) real5Case20) (.cases [20, 21, 22] 17 (.cases []
  75 (.cases [] 76 (.cases [180, 181, 182, 183, 184, 185] 18 (.cases [] 63 (.cases [] 64 (.cases
  [153, 95, 34, 36, 38, 40] 87 real5Case21 real5Case22) (.cycle 9 [151, 152])) (.cycle 16
  [149, 150])) (.cases [24, 25] 77 (.cases [] 78 (.cases [214, 182, 183, 184, 185] 79 (.cases [213]
  87 real5Case23 (.cases [216, 25] 22 (.cases [39, 41, 42] 24 real5Case24 (.cases [] 25 (.cycle 8
  [94, 95, 93]) (.cases [43, 44, 45, 46, 47, 48] 80 real5Case25 real5Case26))) (.cycle 13
  [30, 31, 32]))) (.cycle 26 [215, 188, 95])) (.cases [187, 34, 24, 36, 25, 38, 40] 79 (.cycle 56
  [181, 212, 213]) (.cases [188] 80 real5Case27 (.cases [] 81 (.cycle 8 [209, 181, 210]) (.cases
  [189, 44, 45, 46, 47, 48] 82 real5Case28 real5Case29))))) (.leaf [186, 95, 24]))) (.cycle 12
  [178, 179])) (.cycle 24 [176, 177])) (.cases [23, 21, 22] 18 (.cases [] 63 (.cases [] 64 (.cases
  [153, 95, 34, 36, 38, 40] 46 (.cases [] 49 (.cases [] 50 (.cases [122, 111, 98, 99, 100, 101] 34
  real5Case30 (.cases [] 35 (.cycle 16 [88, 89]) (.cases [] 45 (.cycle 9 [76, 136]) (.cases
  [112, 44, 45, 46, 47, 48] 23 (.cases [97, 98, 99, 100, 101] 66 (.leaf [162, 95, 97]) (.cases []
  67 (.cases [161, 41, 42] 24 real5Case31 real5Case32) real5Case33)) real5Case34)))) (.cycle 9
  [120, 121])) (.cycle 16 [118, 119])) real5Case35) (.cycle 9 [151, 152])) (.cycle 16 [149, 150]))
  (.cases [24, 25] 19 (.cases [] 43 (.cases [] 44 (.cases [110, 111, 98, 99, 100, 101] 24
  real5Case36 (.cases [] 25 (.cycle 8 [94, 95, 93]) (.cases [43, 44, 45, 46, 47, 48] 34 real5Case37
  (.cases [88] 26 (.cases [] 35 (.cycle 16 [88, 89]) (.cases [] 45 (.cycle 9 [76, 136]) (.cases
  [112, 44, 45, 46, 47, 48] 46 real5Case38 real5Case39))) (.leaf [49]))))) (.cycle 12 [108, 109]))
  (.cycle 24 [106, 107])) (.cases [26, 21, 22] 20 real5Case40 (.cycle 16 [27, 28, 29])))))) (.leaf
  [19, 8])) (.leaf [18, 8])) (.leaf [15, 16, 17])) (.leaf [12, 13, 14])) (.leaf [11]))) (.leaf
  [10])) (.leaf [9])) (.leaf [7, 8])) (.leaf [6]))) (.leaf [4, 5]))) (.leaf [3])) (.leaf [2]))
  (.leaf [1])

theorem real5_part0 : real5Cases.checkAt real5Arcs 459 real5Choices.length
    [true, true, true, true]
    [] real5Times 0 = true := by decide +kernel

theorem real5_part1 : real5Cases.checkAt real5Arcs 459 real5Choices.length
    [true, true, true, false, true, true]
    [] real5Times 0 = true := by decide +kernel

theorem real5_part2 : real5Cases.checkAt real5Arcs 459 real5Choices.length
    [true, true, true, false, true, false, true, true, true, true, true]
    [] real5Times 0 = true := by decide +kernel

theorem real5_part3 : real5Cases.checkAt real5Arcs 459 real5Choices.length
    [true, true, true, false, true, false, true, true, true, true, false, true, true, true, true,
    true, true]
    [] real5Times 0 = true := by decide +kernel

theorem real5_part4 : real5Cases.checkAt real5Arcs 459 real5Choices.length
    [true, true, true, false, true, false, true, true, true, true, false, true, true, true, true,
    true, false]
    [] real5Times 0 = true := by decide +kernel

theorem real5_part5 : real5Cases.checkAt real5Arcs 459 real5Choices.length
    [true, true, true, false, true, false, true, true, true, true, false, true, true, true, true,
    false]
    [] real5Times 0 = true := by decide +kernel

theorem real5_part6 : real5Cases.checkAt real5Arcs 459 real5Choices.length
    [true, true, true, false, true, false, true, true, true, true, false, true, true, true, false]
    [] real5Times 0 = true := by decide +kernel

theorem real5_part7 : real5Cases.checkAt real5Arcs 459 real5Choices.length
    [true, true, true, false, true, false, true, true, true, true, false, true, true, false]
    [] real5Times 0 = true := by decide +kernel

theorem real5_part8 : real5Cases.checkAt real5Arcs 459 real5Choices.length
    [true, true, true, false, true, false, true, true, true, true, false, true, false]
    [] real5Times 0 = true := by decide +kernel

theorem real5_part9 : real5Cases.checkAt real5Arcs 459 real5Choices.length
    [true, true, true, false, true, false, true, true, true, true, false, false]
    [] real5Times 0 = true := by decide +kernel

theorem real5_part10 : real5Cases.checkAt real5Arcs 459 real5Choices.length
    [true, true, true, false, true, false, true, true, true, false]
    [] real5Times 0 = true := by decide +kernel

theorem real5_part11 : real5Cases.checkAt real5Arcs 459 real5Choices.length
    [true, true, true, false, true, false, true, true, false]
    [] real5Times 0 = true := by decide +kernel

theorem real5_part12 : real5Cases.checkAt real5Arcs 459 real5Choices.length
    [true, true, true, false, true, false, true, false]
    [] real5Times 0 = true := by decide +kernel

theorem real5_part13 : real5Cases.checkAt real5Arcs 459 real5Choices.length
    [true, true, true, false, true, false, false]
    [] real5Times 0 = true := by decide +kernel

theorem real5_part14 : real5Cases.checkAt real5Arcs 459 real5Choices.length
    [true, true, true, false, false]
    [] real5Times 0 = true := by decide +kernel

theorem real5_part15 : real5Cases.checkAt real5Arcs 459 real5Choices.length
    [true, true, false]
    [] real5Times 0 = true := by decide +kernel

theorem real5_part16 : real5Cases.checkAt real5Arcs 459 real5Choices.length
    [true, false]
    [] real5Times 0 = true := by decide +kernel

theorem real5_part17 : real5Cases.checkAt real5Arcs 459 real5Choices.length
    [false]
    [] real5Times 0 = true := by decide +kernel

theorem real5_cases : real5Cases.check real5Arcs 459 real5Choices.length [] real5Times 0 = true :=
  SumTree.join (path := []) (SumTree.join (SumTree.join (SumTree.join real5_part0 (SumTree.join
  (SumTree.join real5_part1 (SumTree.join (SumTree.join (SumTree.join (SumTree.join (SumTree.join
  real5_part2 (SumTree.join (SumTree.join (SumTree.join (SumTree.join (SumTree.join (SumTree.join
  real5_part3 real5_part4) real5_part5) real5_part6) real5_part7) real5_part8) real5_part9))
  real5_part10) real5_part11) real5_part12) real5_part13)) real5_part14)) real5_part15)
  real5_part16) real5_part17

theorem real5_choices : real5Choices.all (CodedNet.Choice.ok netGt netGtSpecial real5Plan) = true := by
  decide +kernel

theorem real5_arcs : real5Arcs.toList.all
    (netGt.arcOK netGtSpecial real5Plan real5Nodes real5Choices) = true := by decide +kernel

theorem real5_times : netGt.startOK real5Plan real5Nodes 10 40 real5Times = true := by decide +kernel

end Verif.Real
