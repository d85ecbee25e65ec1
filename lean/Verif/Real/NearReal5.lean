import Verif.Proofs.PlanSum
import Verif.Proofs.PlanNear
import Verif.Real.OptReal5

/-!
# Case 5 of `solve_real_problem.py`: a plan that breaks one rule

Generated; see `CodedNet.Item`. Train 26103 comes to CB over a switch at the minute when train 5312 leaves
over it. The sum of the delays that count is 259/4, instead of 459/4 in the best plan that keeps all rules.
-/

namespace Verif.Real

set_option maxRecDepth 100000

/-- the plan, items by sections -/
def real5NearPlan : CodedNet.Plan := [
  (train_gt_94766, [
   ⟨0, 94766, 9, (some 26), true, false, 17, 17, 170,
    none,
    (some ⟨8, [58, 108, 55, 72, 135, 73, 74, 116], [10, 7, 6, 6, 16, 8, 6, 19], 8, [55, 56, 78, 79, 83]⟩), [], [112, 1, 114, 15], [17]⟩,
   ⟨0, 94766, 8, (some 8), true, false, 26, 26, 260,
    (some ⟨9, 25, 170, [58, 108, 55, 72, 135, 73, 74, 116]⟩),
    (some ⟨1, [82, 131, 65, 112], [14, 15, 9, 10], 5, [82, 84, 86, 93]⟩), [55, 56, 78, 79, 83], [15, 8], [25]⟩,
   ⟨0, 94766, 1, (some 15), true, true, 34, 34, 340,
    (some ⟨8, 31, 260, [82, 131, 65, 112]⟩),
    (some ⟨2, [], [], 0, []⟩), [82, 84, 86, 93], [31, 34, 35, 40, 41, 42, 49], [31]⟩,
   ⟨0, 94766, 2, none, false, true, 34, 34, 340,
    (some ⟨1, 34, 340, []⟩),
    none, [], [], [34]⟩]),
  (train_gt_26103, [
   ⟨1, 26103, 0, (some 17), true, false, 0, 0, 0,
    none,
    (some ⟨2, [104], [12], 1, [5, 18]⟩), [], [47, 53], [0]⟩,
   ⟨1, 26103, 2, (some 52), true, false, 3, 3, 30,
    (some ⟨0, 1, 0, [104]⟩),
    (some ⟨1, [], [], 0, [39, 54, 55]⟩), [5, 18], [], [1]⟩,
   ⟨1, 26103, 1, (some 14), true, false, 11, 11, 110,
    (some ⟨2, 3, 30, []⟩),
    (some ⟨12, [83], [9], 1, [100]⟩), [39, 54, 55], [61, 64, 69, 71, 87, 92], [3]⟩,
   ⟨1, 26103, 12, (some 101), true, false, 14, 14, 140,
    (some ⟨1, 12, 110, [83]⟩),
    (some ⟨5, [139, 132, 42], [25, 25, 15], 6, [25, 26]⟩), [100], [415, 416, 417], [12]⟩,
   ⟨1, 26103, 5, (some 47), true, false, 23, 23, 230,
    (some ⟨12, 20, 140, [139, 132, 42]⟩),
    (some ⟨6, [77, 144, 119, 40, 86, 142, 87, 126, 30, 90, 91, 92, 93, 127], [11, 9, 8, 7, 13, 7, 7, 9, 15, 13, 9, 5, 7, 20], 14, [31, 34, 43]⟩), [25, 26], [10, 11, 14, 17, 20], [20]⟩,
   ⟨1, 26103, 6, (some 38), true, false, 38, 38, 380,
    (some ⟨5, 37, 230, [77, 144, 119, 40, 86, 142, 87, 126, 30, 90, 91, 92, 93, 127]⟩),
    none, [31, 34, 43], [], [37]⟩]),
  (train_gt_421009, [
   ⟨2, 421009, 4, none, true, false, -10, -10, -100,
    none,
    (some ⟨2, [], [], 0, [1, 9, 15, 21, 23]⟩), [], [], [-10]⟩,
   ⟨2, 421009, 2, (some 49), true, false, -8, -8, -80,
    (some ⟨4, -10, -100, []⟩),
    (some ⟨1, [], [], 0, [35, 51]⟩), [1, 9, 15, 21, 23], [], [-10]⟩,
   ⟨2, 421009, 1, (some 11), false, true, -8, -8, -80,
    (some ⟨2, -8, -80, []⟩),
    none, [35, 51], [], [-8]⟩]),
  (train_gt_42100, [
   ⟨3, 42100, 1, (some 11), true, false, 8, 8, 80,
    none,
    (some ⟨2, [], [], 0, []⟩), [], [35, 51], [-8]⟩,
   ⟨3, 42100, 2, (some 49), true, false, 9, 9, 90,
    (some ⟨1, 8, 80, []⟩),
    (some ⟨0, [102], [13], 1, [48, 52]⟩), [], [6, 7, 11, 17, 20, 23], [8]⟩,
   ⟨3, 42100, 0, (some 18), true, false, 11, 11, 110,
    (some ⟨2, 10, 90, [102]⟩),
    none, [48, 52], [], [10]⟩]),
  (train_gt_5312, [
   ⟨4, 5312, 6, (some 33), true, false, 0, 0, 0,
    none,
    (some ⟨5, [78, 79, 80, 81, 120, 31, 94, 95, 143, 128, 41, 85, 145, 125], [18, 7, 6, 8, 12, 20, 23, 5, 9, 11, 6, 11, 7, 14], 16, [10, 11, 14, 17, 19]⟩), [], [36, 30, 22], [0]⟩,
   ⟨4, 5312, 5, (some 47), true, false, 18, 20, 200,
    (some ⟨6, 16, 0, [78, 79, 80, 81, 120, 31, 94, 95, 143, 128, 41, 85, 145, 125]⟩),
    (some ⟨12, [42, 132, 139], [25, 25, 25], 8, [416, 417]⟩), [10, 11, 14, 17, 19], [25, 26], [16]⟩,
   ⟨4, 5312, 12, (some 133), true, false, 27, 29, 290,
    (some ⟨5, 28, 200, [42, 132, 139]⟩),
    (some ⟨1, [122], [10], 1, [81, 85, 88, 91]⟩), [416, 417], [200], [28]⟩,
   ⟨4, 5312, 1, (some 13), true, false, 31, 33, 330,
    (some ⟨12, 30, 290, [122]⟩),
    (some ⟨2, [], [], 0, []⟩), [81, 85, 88, 91], [35, 51, 56], [30]⟩,
   ⟨4, 5312, 2, (some 49), true, false, 32, 34, 340,
    (some ⟨1, 33, 330, []⟩),
    (some ⟨0, [103], [13], 1, [41, 50]⟩), [], [8, 14, 21, 23], [33]⟩,
   ⟨4, 5312, 0, (some 20), true, false, 34, 36, 360,
    (some ⟨2, 35, 340, [103]⟩),
    none, [41, 50], [], [35]⟩]),
  (train_gt_40518, [
   ⟨5, 40518, 9, (some 26), true, false, -4, -4, -40,
    none,
    (some ⟨8, [58, 108, 55, 72, 135, 73, 74, 116], [10, 7, 6, 6, 16, 8, 6, 19], 8, [55, 56, 78, 79, 83]⟩), [], [112, 1, 114, 15], [-4]⟩,
   ⟨5, 40518, 8, (some 8), true, false, 5, 5, 50,
    (some ⟨9, 4, -40, [58, 108, 55, 72, 135, 73, 74, 116]⟩),
    (some ⟨1, [82, 131, 65, 112], [14, 15, 9, 10], 5, [82, 84, 86, 93]⟩), [55, 56, 78, 79, 83], [15, 8], [4]⟩,
   ⟨5, 40518, 1, (some 15), true, true, 13, 13, 130,
    (some ⟨8, 10, 50, [82, 131, 65, 112]⟩),
    (some ⟨2, [], [], 0, []⟩), [82, 84, 86, 93], [32, 34, 35, 40, 41, 42, 49], [10]⟩,
   ⟨5, 40518, 2, none, false, true, 13, 13, 130,
    (some ⟨1, 13, 130, []⟩),
    none, [], [], [13]⟩]),
  (train_gt_34319, [
   ⟨6, 34319, 0, (some 19), true, false, 40, 41, 410,
    none,
    (some ⟨2, [105], [14], 1, [7, 11, 20, 23]⟩), [], [42, 49, 51], [40]⟩,
   ⟨6, 34319, 2, (some 49), true, false, 43, 46, 460,
    (some ⟨0, 42, 410, [105]⟩),
    (some ⟨1, [], [], 0, [35, 40, 41, 42, 49]⟩), [7, 11, 20, 23], [], [42]⟩,
   ⟨6, 34319, 1, (some 15), false, true, 43, 46, 460,
    (some ⟨2, 46, 460, []⟩),
    none, [35, 40, 41, 42, 49], [], [46]⟩]),
  (train_gt_343199, [
   ⟨7, 343199, 1, (some 15), true, true, 14, 51, 510,
    none,
    (some ⟨2, [], [], 0, []⟩), [], [43, 42, 49], [46]⟩,
   ⟨7, 343199, 2, none, false, true, 14, 51, 510,
    (some ⟨1, 51, 510, []⟩),
    none, [], [], [51]⟩]),
  (train_gt_14006, [
   ⟨8, 14006, 0, (some 17), true, false, 29, 29, 290,
    none,
    (some ⟨2, [104], [12], 1, [5, 18]⟩), [], [47, 53], [29]⟩,
   ⟨8, 14006, 2, (some 52), true, false, 32, 32, 320,
    (some ⟨0, 30, 290, [104]⟩),
    (some ⟨1, [], [], 0, [39, 54]⟩), [5, 18], [], [30]⟩,
   ⟨8, 14006, 1, (some 16), true, false, 35, 35, 350,
    (some ⟨2, 32, 320, []⟩),
    (some ⟨8, [138, 141, 96, 118], [10, 9, 16, 9], 4, [9, 16]⟩), [39, 54], [62, 64, 69, 70, 72, 74], [32]⟩,
   ⟨8, 14006, 8, (some 7), true, false, 40, 40, 400,
    (some ⟨1, 39, 350, [138, 141, 96, 118]⟩),
    (some ⟨9, [137, 69, 70, 134, 71, 129, 54, 136, 57], [19, 6, 5, 6, 4, 5, 7, 6, 11], 7, [2, 3, 4, 7, 11, 20, 21]⟩), [9, 16], [54, 57, 84], [39]⟩,
   ⟨8, 14006, 9, (some 29), true, false, 49, 49, 490,
    (some ⟨8, 47, 400, [137, 69, 70, 134, 71, 129, 54, 136, 57]⟩),
    none, [2, 3, 4, 7, 11, 20, 21], [], [47]⟩]),
  (train_gt_94611, [
   ⟨9, 94611, 3, none, true, false, -5, -5, -50,
    none,
    (some ⟨1, [], [], 0, [66, 67, 85, 88, 90, 95]⟩), [], [], [-5]⟩,
   ⟨9, 94611, 1, (some 10), true, false, 12, 12, 120,
    (some ⟨3, -5, -50, []⟩),
    (some ⟨8, [138, 141, 96, 118], [10, 9, 16, 9], 4, [9, 16]⟩), [66, 67, 85, 88, 90, 95], [66, 68, 70, 72, 74], [-5]⟩,
   ⟨9, 94611, 8, (some 7), true, false, 18, 18, 180,
    (some ⟨1, 16, 120, [138, 141, 96, 118]⟩),
    (some ⟨9, [137, 69, 70, 134, 71, 129, 54, 136, 57], [29, 6, 5, 6, 7, 5, 7, 6, 9], 8, [2, 3, 14, 16]⟩), [9, 16], [54, 57, 84], [16]⟩,
   ⟨9, 94611, 9, (some 25), true, false, 28, 28, 280,
    (some ⟨8, 26, 180, [137, 69, 70, 134, 71, 129, 54, 136, 57]⟩),
    none, [2, 3, 14, 16], [], [26]⟩]),
  (train_gt_40150, [
   ⟨10, 40150, 6, (some 35), true, false, -8, 5, 50,
    none,
    (some ⟨5, [78, 79, 80, 81, 120, 31, 94, 95, 143, 128, 41, 85, 145, 125], [18, 7, 6, 8, 12, 20, 23, 5, 19, 11, 16, 11, 17, 14], 19, [10, 11, 14, 17, 19]⟩), [], [29, 24, 22], [-8]⟩,
   ⟨10, 40150, 5, (some 47), true, false, 13, 26, 260,
    (some ⟨6, 24, 50, [78, 79, 80, 81, 120, 31, 94, 95, 143, 128, 41, 85, 145, 125]⟩),
    (some ⟨12, [42, 132, 139], [25, 25, 25], 8, [416, 417]⟩), [10, 11, 14, 17, 19], [25, 26], [24]⟩,
   ⟨10, 40150, 12, (some 133), true, false, 23, 36, 360,
    (some ⟨5, 34, 260, [42, 132, 139]⟩),
    (some ⟨1, [122], [10], 1, [81, 85, 88, 91]⟩), [416, 417], [200], [34]⟩,
   ⟨10, 40150, 1, (some 13), true, false, 27, 40, 400,
    (some ⟨12, 37, 360, [122]⟩),
    (some ⟨2, [], [], 0, []⟩), [81, 85, 88, 91], [35, 51, 56], [37]⟩,
   ⟨10, 40150, 2, (some 49), true, false, 28, 41, 410,
    (some ⟨1, 40, 400, []⟩),
    (some ⟨0, [102], [18], 2, [48, 52]⟩), [], [6, 7, 11, 17, 20, 23], [40]⟩,
   ⟨10, 40150, 0, (some 18), true, false, 32, 45, 450,
    (some ⟨2, 43, 410, [102]⟩),
    none, [48, 52], [], [43]⟩]),
  (train_gt_41004, [
   ⟨11, 41004, 9, (some 27), true, false, 22, 22, 220,
    none,
    (some ⟨8, [58, 108, 55, 72, 135, 73, 74, 116], [10, 7, 6, 6, 6, 5, 6, 9], 6, [55, 56, 78, 79, 83]⟩), [], [112, 1, 2, 3, 4, 7, 11, 20, 21, 22], [22]⟩,
   ⟨11, 41004, 8, (some 8), true, false, 30, 30, 300,
    (some ⟨9, 28, 220, [58, 108, 55, 72, 135, 73, 74, 116]⟩),
    (some ⟨1, [82, 131, 65, 112], [16, 9, 8, 10], 4, [82, 84, 86, 93]⟩), [55, 56, 78, 79, 83], [15, 8], [28]⟩,
   ⟨11, 41004, 1, (some 39), true, false, 37, 37, 370,
    (some ⟨8, 34, 300, [82, 131, 65, 112]⟩),
    (some ⟨2, [], [], 0, []⟩), [82, 84, 86, 93], [38, 41, 42, 47], [34]⟩,
   ⟨11, 41004, 2, (some 53), true, false, 38, 38, 380,
    (some ⟨1, 37, 370, []⟩),
    (some ⟨0, [102], [13], 1, [48, 52]⟩), [], [6, 7, 8, 14, 21], [37]⟩,
   ⟨11, 41004, 0, (some 18), true, false, 40, 40, 400,
    (some ⟨2, 39, 380, [102]⟩),
    none, [48, 52], [], [39]⟩]),
  (train_gt_94113, [
   ⟨12, 94113, 3, none, true, false, 7, 13, 130,
    none,
    (some ⟨1, [], [], 0, [66, 67, 85, 88, 90, 95]⟩), [], [], [7]⟩,
   ⟨12, 94113, 1, (some 10), true, false, 24, 24, 240,
    (some ⟨3, 13, 130, []⟩),
    (some ⟨8, [138, 141, 96, 118], [10, 9, 16, 9], 4, [9, 16]⟩), [66, 67, 85, 88, 90, 95], [66, 68, 70, 72, 74], [13]⟩,
   ⟨12, 94113, 8, (some 7), true, false, 30, 30, 300,
    (some ⟨1, 28, 240, [138, 141, 96, 118]⟩),
    (some ⟨9, [137, 69, 70, 134, 71, 129, 54, 136, 57], [29, 6, 5, 6, 7, 5, 7, 6, 9], 8, [2, 3, 14, 16]⟩), [9, 16], [54, 57, 84], [28]⟩,
   ⟨12, 94113, 9, (some 25), true, false, 41, 41, 410,
    (some ⟨8, 38, 300, [137, 69, 70, 134, 71, 129, 54, 136, 57]⟩),
    none, [2, 3, 14, 16], [], [38]⟩]),
  (train_gt_40673, [
   ⟨13, 40673, 0, (some 17), true, false, 14, 14, 140,
    none,
    (some ⟨2, [104], [14], 1, [5, 18]⟩), [], [47, 53], [14]⟩,
   ⟨13, 40673, 2, (some 52), true, false, 17, 17, 170,
    (some ⟨0, 15, 140, [104]⟩),
    (some ⟨1, [], [], 0, [39, 54, 55]⟩), [5, 18], [], [15]⟩,
   ⟨13, 40673, 1, (some 14), true, false, 30, 30, 300,
    (some ⟨2, 17, 170, []⟩),
    (some ⟨12, [83], [9], 1, [100]⟩), [39, 54, 55], [61, 64, 69, 71, 87, 92], [17]⟩,
   ⟨13, 40673, 12, (some 101), true, false, 33, 51, 510,
    (some ⟨1, 31, 300, [83]⟩),
    (some ⟨5, [139, 132, 42], [25, 25, 15], 6, [25, 26]⟩), [100], [415, 416, 417], [31]⟩,
   ⟨13, 40673, 5, (some 47), true, false, 42, 60, 600,
    (some ⟨12, 57, 510, [139, 132, 42]⟩),
    (some ⟨6, [77, 144, 119, 40, 86, 142, 87, 126, 30, 90, 91, 92, 93, 127], [15, 14, 8, 14, 13, 13, 7, 9, 15, 13, 9, 5, 7, 20], 16, [31, 33, 41]⟩), [25, 26], [10, 11, 14, 17, 20], [57]⟩,
   ⟨13, 40673, 6, (some 35), false, true, 58, 76, 760,
    (some ⟨5, 76, 600, [77, 144, 119, 40, 86, 142, 87, 126, 30, 90, 91, 92, 93, 127]⟩),
    none, [31, 33, 41], [], [76]⟩]),
  (train_gt_54101, [
   ⟨14, 54101, 0, (some 17), true, false, 24, 24, 240,
    none,
    (some ⟨2, [104], [12], 1, [5, 6, 7, 11, 17, 20, 23]⟩), [], [47, 53], [24]⟩,
   ⟨14, 54101, 2, (some 49), true, false, 27, 27, 270,
    (some ⟨0, 25, 240, [104]⟩),
    (some ⟨1, [], [], 0, [35, 51]⟩), [5, 6, 7, 11, 17, 20, 23], [], [25]⟩,
   ⟨14, 54101, 1, (some 11), false, true, 27, 27, 270,
    (some ⟨2, 27, 270, []⟩),
    none, [35, 51], [], [27]⟩]),
  (train_gt_541019, [
   ⟨15, 541019, 1, (some 11), true, true, 28, 35, 350,
    none,
    (some ⟨2, [], [], 0, []⟩), [], [35, 51], [27]⟩,
   ⟨15, 541019, 2, (some 49), true, false, 30, 37, 370,
    (some ⟨1, 35, 350, []⟩),
    (some ⟨4, [], [], 0, []⟩), [], [1, 9, 15, 21, 23], [35]⟩,
   ⟨15, 541019, 4, none, false, true, 30, 37, 370,
    (some ⟨2, 37, 370, []⟩),
    none, [], [], [37]⟩]),
  (train_gt_40477, [
   ⟨16, 40477, 2, none, true, false, 0, 0, 0,
    none,
    (some ⟨1, [], [], 0, [32, 33, 36, 67, 39, 54]⟩), [], [], [0]⟩,
   ⟨16, 40477, 1, (some 16), true, false, 29, 29, 290,
    (some ⟨2, 0, 0, []⟩),
    (some ⟨8, [138, 141, 96, 118], [10, 9, 26, 9], 5, [9, 16]⟩), [32, 33, 36, 67, 39, 54], [62, 64, 69, 70, 72, 74], [0]⟩,
   ⟨16, 40477, 8, (some 7), true, false, 36, 36, 360,
    (some ⟨1, 34, 290, [138, 141, 96, 118]⟩),
    (some ⟨9, [137, 69, 70, 134, 71, 129, 54, 136, 57], [29, 6, 5, 16, 7, 5, 7, 6, 9], 9, [2, 3, 14, 16]⟩), [9, 16], [54, 57, 84], [34]⟩,
   ⟨16, 40477, 9, (some 25), true, false, 55, 55, 550,
    (some ⟨8, 45, 360, [137, 69, 70, 134, 71, 129, 54, 136, 57]⟩),
    none, [2, 3, 14, 16], [], [45]⟩]),
  (train_gt_4500, [
   ⟨17, 4500, 6, (some 32), true, false, 17, 17, 170,
    none,
    (some ⟨5, [78, 79, 80, 81, 120, 31, 94, 95, 143, 128, 41, 85, 145, 125], [18, 7, 6, 8, 12, 20, 23, 5, 9, 11, 6, 11, 7, 14], 16, [10, 11, 14, 17, 19]⟩), [], [37, 36, 30, 22], [17]⟩,
   ⟨17, 4500, 5, (some 47), true, false, 35, 36, 360,
    (some ⟨6, 33, 170, [78, 79, 80, 81, 120, 31, 94, 95, 143, 128, 41, 85, 145, 125]⟩),
    (some ⟨12, [42, 132, 139], [25, 25, 25], 8, [416, 417]⟩), [10, 11, 14, 17, 19], [25, 26], [33]⟩,
   ⟨17, 4500, 12, (some 133), true, false, 44, 45, 450,
    (some ⟨5, 44, 360, [42, 132, 139]⟩),
    (some ⟨1, [122], [10], 1, [81, 85, 88, 91]⟩), [416, 417], [200], [44]⟩,
   ⟨17, 4500, 1, (some 11), true, false, 48, 49, 490,
    (some ⟨12, 46, 450, [122]⟩),
    (some ⟨2, [], [], 0, []⟩), [81, 85, 88, 91], [35, 51], [46]⟩,
   ⟨17, 4500, 2, (some 49), true, false, 49, 50, 500,
    (some ⟨1, 49, 490, []⟩),
    (some ⟨0, [102], [13], 1, [48, 52]⟩), [], [6, 7, 11, 17, 20, 23], [49]⟩,
   ⟨17, 4500, 0, (some 18), true, false, 51, 52, 520,
    (some ⟨2, 51, 500, [102]⟩),
    none, [48, 52], [], [51]⟩]),
  (train_gt_94317, [
   ⟨18, 94317, 0, (some 19), true, false, 39, 39, 390,
    none,
    (some ⟨2, [105], [14], 1, [7, 11, 13, 24]⟩), [], [42, 49, 51], [39]⟩,
   ⟨18, 94317, 2, (some 48), true, false, 42, 42, 420,
    (some ⟨0, 40, 390, [105]⟩),
    (some ⟨1, [], [], 0, [36, 67, 53, 55]⟩), [7, 11, 13, 24], [], [40]⟩,
   ⟨18, 94317, 1, (some 14), true, false, 50, 50, 500,
    (some ⟨2, 42, 420, []⟩),
    (some ⟨12, [83], [9], 1, [100]⟩), [36, 67, 53, 55], [61, 64, 69, 71, 87, 92], [42]⟩,
   ⟨18, 94317, 12, (some 101), true, false, 53, 56, 560,
    (some ⟨1, 51, 500, [83]⟩),
    (some ⟨5, [139, 132, 42], [25, 25, 15], 6, [25, 26]⟩), [100], [415, 416, 417], [51]⟩,
   ⟨18, 94317, 5, (some 47), true, false, 62, 65, 650,
    (some ⟨12, 62, 560, [139, 132, 42]⟩),
    (some ⟨7, [97], [24], 2, [1, 9]⟩), [25, 26], [10, 11, 14], [62]⟩,
   ⟨18, 94317, 7, (some 5), true, false, 66, 69, 690,
    (some ⟨5, 67, 650, [97]⟩),
    none, [1, 9], [], [67]⟩]),
  (train_gt_44717, [
   ⟨19, 44717, 2, none, true, false, 25, 25, 250,
    none,
    (some ⟨1, [], [], 0, [31, 33, 36, 52]⟩), [], [], [25]⟩,
   ⟨19, 44717, 1, (some 10), true, false, 36, 37, 370,
    (some ⟨2, 25, 250, []⟩),
    (some ⟨8, [138, 141, 96, 118], [10, 9, 26, 9], 5, [9, 16, 17]⟩), [31, 33, 36, 52], [66, 68, 70, 72, 74], [25]⟩,
   ⟨19, 44717, 8, (some 9), true, false, 43, 47, 470,
    (some ⟨1, 42, 370, [138, 141, 96, 118]⟩),
    (some ⟨11, [146, 114], [35, 15], 5, [1]⟩), [9, 16, 17], [42, 43, 53, 58, 85], [42]⟩,
   ⟨19, 44717, 11, (some 21), true, false, 51, 54, 540,
    (some ⟨8, 52, 470, [146, 114]⟩),
    (some ⟨10, [107], [19], 2, [1, 2]⟩), [1], [2], [52]⟩,
   ⟨19, 44717, 10, (some 23), true, false, 55, 58, 580,
    (some ⟨11, 56, 540, [107]⟩),
    none, [1, 2], [], [56]⟩]),
  (train_gt_64350, [
   ⟨20, 64350, 7, (some 6), true, false, 25, 25, 250,
    none,
    (some ⟨5, [98], [30], 3, [10, 11, 15]⟩), [], [2, 16], [25]⟩,
   ⟨20, 64350, 5, (some 47), true, false, 31, 31, 310,
    (some ⟨7, 28, 250, [98]⟩),
    (some ⟨12, [42, 132, 139], [25, 25, 25], 8, [416, 417]⟩), [10, 11, 15], [25, 26], [28]⟩,
   ⟨20, 64350, 12, (some 133), true, false, 41, 41, 410,
    (some ⟨5, 39, 310, [42, 132, 139]⟩),
    (some ⟨1, [122], [10], 1, [82, 84, 86, 89, 91]⟩), [416, 417], [200], [39]⟩,
   ⟨20, 64350, 1, (some 15), true, false, 45, 45, 450,
    (some ⟨12, 42, 410, [122]⟩),
    (some ⟨2, [], [], 0, []⟩), [82, 84, 86, 89, 91], [38, 41, 42], [42]⟩,
   ⟨20, 64350, 2, (some 53), true, false, 46, 46, 460,
    (some ⟨1, 45, 450, []⟩),
    (some ⟨0, [103], [18], 2, [41, 50]⟩), [], [8, 14, 21], [45]⟩,
   ⟨20, 64350, 0, (some 20), true, false, 50, 50, 500,
    (some ⟨2, 48, 460, [103]⟩),
    none, [41, 50], [], [48]⟩]),
  (train_gt_94717, [
   ⟨21, 94717, 2, none, true, false, 30, 37, 370,
    none,
    (some ⟨1, [], [], 0, [32, 33, 36, 52]⟩), [], [], [30]⟩,
   ⟨21, 94717, 1, (some 10), true, false, 47, 47, 470,
    (some ⟨2, 37, 370, []⟩),
    (some ⟨8, [138, 141, 96, 118], [10, 9, 26, 9], 5, [9, 16]⟩), [32, 33, 36, 52], [66, 68, 70, 72, 74], [37]⟩,
   ⟨21, 94717, 8, (some 7), true, false, 54, 54, 540,
    (some ⟨1, 52, 470, [138, 141, 96, 118]⟩),
    (some ⟨9, [137, 69, 70, 134, 71, 129, 54, 136, 57], [29, 6, 5, 16, 7, 5, 7, 6, 9], 9, [2, 3, 14, 16]⟩), [9, 16], [54, 57, 84], [52]⟩,
   ⟨21, 94717, 9, (some 25), true, false, 66, 66, 660,
    (some ⟨8, 63, 540, [137, 69, 70, 134, 71, 129, 54, 136, 57]⟩),
    none, [2, 3, 14, 16], [], [63]⟩]),
  (train_gt_44862, [
   ⟨22, 44862, 10, (some 24), true, false, 37, 37, 370,
    none,
    (some ⟨11, [107], [17], 2, [2]⟩), [], [1, 11], [37]⟩,
   ⟨22, 44862, 11, (some 22), true, false, 41, 41, 410,
    (some ⟨10, 39, 370, [107]⟩),
    (some ⟨8, [114, 146], [22, 24], 5, [55, 56, 78, 79, 83, 84, 85]⟩), [2], [1], [39]⟩,
   ⟨22, 44862, 8, (some 8), true, false, 47, 47, 470,
    (some ⟨11, 46, 410, [114, 146]⟩),
    (some ⟨1, [82, 131, 65, 112], [14, 15, 9, 10], 5, [82, 84, 86, 93]⟩), [55, 56, 78, 79, 83, 84, 85], [15, 8], [46]⟩,
   ⟨22, 44862, 1, (some 15), true, true, 55, 55, 550,
    (some ⟨8, 52, 470, [82, 131, 65, 112]⟩),
    (some ⟨2, [], [], 0, []⟩), [82, 84, 86, 93], [43, 42, 49], [52]⟩,
   ⟨22, 44862, 2, none, false, true, 55, 55, 550,
    (some ⟨1, 55, 550, []⟩),
    none, [], [], [55]⟩]),
  (train_gt_40628, [
   ⟨23, 40628, 6, (some 35), true, false, 16, 21, 210,
    none,
    (some ⟨5, [78, 79, 80, 81, 120, 31, 94, 95, 143, 128, 41, 85, 145, 125], [18, 7, 6, 8, 12, 20, 23, 5, 19, 11, 16, 11, 17, 14], 19, [10, 11, 14, 17, 19]⟩), [], [29, 24, 22], [16]⟩,
   ⟨23, 40628, 5, (some 47), true, false, 37, 42, 420,
    (some ⟨6, 40, 210, [78, 79, 80, 81, 120, 31, 94, 95, 143, 128, 41, 85, 145, 125]⟩),
    (some ⟨12, [42, 132, 139], [25, 25, 25], 8, [416, 417]⟩), [10, 11, 14, 17, 19], [25, 26], [40]⟩,
   ⟨23, 40628, 12, (some 133), true, false, 47, 52, 520,
    (some ⟨5, 50, 420, [42, 132, 139]⟩),
    (some ⟨1, [122], [10], 1, [81, 85, 88, 91]⟩), [416, 417], [200], [50]⟩,
   ⟨23, 40628, 1, (some 11), true, false, 51, 56, 560,
    (some ⟨12, 53, 520, [122]⟩),
    (some ⟨2, [], [], 0, []⟩), [81, 85, 88, 91], [35, 51], [53]⟩,
   ⟨23, 40628, 2, (some 49), true, false, 52, 57, 570,
    (some ⟨1, 56, 560, []⟩),
    (some ⟨0, [102], [18], 2, [48, 52]⟩), [], [6, 7, 11, 17, 20, 23], [56]⟩,
   ⟨23, 40628, 0, (some 18), true, false, 56, 61, 610,
    (some ⟨2, 59, 570, [102]⟩),
    none, [48, 52], [], [59]⟩]),
  (train_gt_40675, [
   ⟨24, 40675, 0, (some 17), true, false, 44, 44, 440,
    none,
    (some ⟨2, [104], [14], 1, [5, 18]⟩), [], [47, 53], [44]⟩,
   ⟨24, 40675, 2, (some 52), true, false, 47, 47, 470,
    (some ⟨0, 45, 440, [104]⟩),
    (some ⟨1, [], [], 0, [39, 54]⟩), [5, 18], [], [45]⟩,
   ⟨24, 40675, 1, (some 16), true, false, 55, 55, 550,
    (some ⟨2, 47, 470, []⟩),
    (some ⟨12, [83], [9], 1, [100]⟩), [39, 54], [62, 64, 69, 71, 87, 92], [47]⟩,
   ⟨24, 40675, 12, (some 101), true, false, 58, 61, 610,
    (some ⟨1, 56, 550, [83]⟩),
    (some ⟨5, [139, 132, 42], [25, 25, 15], 6, [25, 26]⟩), [100], [415, 416, 417], [56]⟩,
   ⟨24, 40675, 5, (some 47), true, false, 67, 70, 700,
    (some ⟨12, 67, 610, [139, 132, 42]⟩),
    (some ⟨6, [77, 144, 119, 40, 86, 142, 87, 126, 30, 90, 91, 92, 93, 127], [15, 14, 8, 14, 13, 13, 7, 9, 15, 13, 9, 5, 7, 20], 16, [31, 33, 41]⟩), [25, 26], [10, 11, 14, 17, 20], [67]⟩,
   ⟨24, 40675, 6, (some 35), false, true, 83, 86, 860,
    (some ⟨5, 86, 700, [77, 144, 119, 40, 86, 142, 87, 126, 30, 90, 91, 92, 93, 127]⟩),
    none, [31, 33, 41], [], [86]⟩]),
  (train_gt_73000, [
   ⟨25, 73000, 6, (some 34), true, false, 47, 55, 550,
    none,
    (some ⟨5, [78, 79, 80, 81, 120, 31, 94, 95, 143, 128, 41, 85, 145, 125], [18, 7, 6, 8, 12, 20, 23, 5, 9, 11, 6, 11, 7, 14], 16, [10, 11, 14, 17, 19]⟩), [], [30, 22], [47]⟩,
   ⟨25, 73000, 5, (some 47), true, false, 65, 73, 730,
    (some ⟨6, 71, 550, [78, 79, 80, 81, 120, 31, 94, 95, 143, 128, 41, 85, 145, 125]⟩),
    (some ⟨12, [42, 132, 139], [25, 25, 25], 8, [416, 417]⟩), [10, 11, 14, 17, 19], [25, 26], [71]⟩,
   ⟨25, 73000, 12, (some 133), true, false, 74, 82, 820,
    (some ⟨5, 81, 730, [42, 132, 139]⟩),
    (some ⟨1, [122], [10], 1, [81, 85, 88, 91]⟩), [416, 417], [200], [81]⟩,
   ⟨25, 73000, 1, (some 13), true, false, 78, 86, 860,
    (some ⟨12, 83, 820, [122]⟩),
    (some ⟨2, [], [], 0, []⟩), [81, 85, 88, 91], [35, 51, 56], [83]⟩,
   ⟨25, 73000, 2, (some 49), true, false, 79, 87, 870,
    (some ⟨1, 86, 860, []⟩),
    (some ⟨0, [103], [13], 1, [41, 50]⟩), [], [8, 14, 21, 23], [86]⟩,
   ⟨25, 73000, 0, (some 20), true, false, 81, 89, 890,
    (some ⟨2, 88, 870, [103]⟩),
    none, [41, 50], [], [88]⟩]),
  (train_gt_4120, [
   ⟨26, 4120, 9, (some 26), true, false, 41, 41, 410,
    none,
    (some ⟨8, [58, 108, 55, 72, 135, 73, 74, 116], [10, 7, 6, 6, 6, 5, 6, 9], 6, [55, 56, 78, 79, 83]⟩), [], [112, 1, 114, 15], [41]⟩,
   ⟨26, 4120, 8, (some 8), true, false, 49, 50, 500,
    (some ⟨9, 47, 410, [58, 108, 55, 72, 135, 73, 74, 116]⟩),
    (some ⟨1, [82, 131, 65, 112], [16, 9, 8, 10], 4, [82, 84, 86, 93]⟩), [55, 56, 78, 79, 83], [15, 8], [47]⟩,
   ⟨26, 4120, 1, (some 39), true, false, 60, 60, 600,
    (some ⟨8, 54, 500, [82, 131, 65, 112]⟩),
    (some ⟨2, [], [], 0, []⟩), [82, 84, 86, 93], [35, 40, 41, 42, 47], [54]⟩,
   ⟨26, 4120, 2, (some 49), true, false, 61, 61, 610,
    (some ⟨1, 60, 600, []⟩),
    (some ⟨0, [102], [13], 1, [48, 52]⟩), [], [6, 7, 11, 17, 20, 23], [60]⟩,
   ⟨26, 4120, 0, (some 18), true, false, 63, 63, 630,
    (some ⟨2, 62, 610, [102]⟩),
    none, [48, 52], [], [62]⟩])]

/-- train 26103 in KTC -/
def real5Comes : CodedNet.Item :=
   ⟨1, 26103, 12, (some 101), true, false, 14, 14, 140,
    (some ⟨1, 12, 110, [83]⟩),
    (some ⟨5, [139, 132, 42], [25, 25, 15], 6, [25, 26]⟩), [100], [415, 416, 417], [12]⟩

/-- train 5312 in CB -/
def real5Leaves : CodedNet.Item :=
   ⟨4, 5312, 5, (some 47), true, false, 18, 20, 200,
    (some ⟨6, 16, 0, [78, 79, 80, 81, 120, 31, 94, 95, 143, 128, 41, 85, 145, 125]⟩),
    (some ⟨12, [42, 132, 139], [25, 25, 25], 8, [416, 417]⟩), [10, 11, 14, 17, 19], [25, 26], [16]⟩

theorem real5NearPlan_sections : real5NearPlan.map Prod.fst = gt := rfl

theorem real5NearPlan_base : netGt.PlanBase "16:00" real5Delays 40 netGtSpecial real5NearPlan :=
  gtPlan_ok.toPlanBase.again rfl (by decide +kernel) (by decide +kernel) (by decide +kernel)

theorem real5NearPlan_comes : real5Comes ∈ CodedNet.items real5NearPlan :=
  List.mem_flatMap.2 ⟨real5NearPlan[1], by simp [real5NearPlan], by simp [real5NearPlan, real5Comes]⟩

theorem real5NearPlan_leaves : real5Leaves ∈ CodedNet.items real5NearPlan :=
  List.mem_flatMap.2 ⟨real5NearPlan[4], by simp [real5NearPlan], by simp [real5NearPlan, real5Leaves]⟩

theorem real5NearPlan_same : CodedNet.sameMinute real5Comes real5Leaves = true := by decide +kernel

theorem real5NearPlan_against : CodedNet.againstBut netGt.stations.length real5Comes real5Leaves
    (CodedNet.items real5NearPlan) = true := by decide +kernel

theorem real5NearPlan_cost : netGt.costOK real5NearPlan 259 = true := by decide +kernel

end Verif.Real
