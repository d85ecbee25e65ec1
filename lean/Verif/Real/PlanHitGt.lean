import Verif.Real.Gt
import Verif.Real.Specials
import Verif.Proofs.PlanAgain

/-!
# A plan with a collision for the shipped sheet of `Verif.Real.Gt`

Generated; see `CodedNet.Item`. There are no delays given, `d_max` is 40. At `KO` trains 4500 and 541019
stand on the same track.
-/

namespace Verif.Real

set_option maxRecDepth 100000

/-- the plan, items by sections -/
def hitgtPlan : CodedNet.Plan := [
  (train_gt_94766, [
   ⟨0, 94766, 9, (some 26), true, false, -13, -13, -130,
    none,
    (some ⟨8, [58, 108, 55, 72, 135, 73, 74, 116], [10, 7, 6, 6, 16, 8, 6, 19], 8, [55, 56, 78, 79, 83]⟩), [], [112, 1, 114, 15], [-13]⟩,
   ⟨0, 94766, 8, (some 8), true, false, -3, -3, -30,
    (some ⟨9, -5, -130, [58, 108, 55, 72, 135, 73, 74, 116]⟩),
    (some ⟨1, [82, 131, 65, 112], [14, 15, 9, 10], 5, [82, 84, 86, 93]⟩), [55, 56, 78, 79, 83], [15, 8], [-5]⟩,
   ⟨0, 94766, 1, (some 15), true, true, 5, 5, 50,
    (some ⟨8, 2, -30, [82, 131, 65, 112]⟩),
    (some ⟨2, [], [], 0, []⟩), [82, 84, 86, 93], [31, 34, 35, 40, 41, 42, 49], [2]⟩,
   ⟨0, 94766, 2, none, false, true, 5, 5, 50,
    (some ⟨1, 5, 50, []⟩),
    none, [], [], [5]⟩]),
  (train_gt_26103, [
   ⟨1, 26103, 0, (some 17), true, false, 0, 0, 0,
    none,
    (some ⟨2, [104], [12], 1, [5, 18]⟩), [], [47, 53], [0]⟩,
   ⟨1, 26103, 2, (some 52), true, false, 3, 3, 30,
    (some ⟨0, 1, 0, [104]⟩),
    (some ⟨1, [], [], 0, [39, 54, 55]⟩), [5, 18], [], [1]⟩,
   ⟨1, 26103, 1, (some 14), true, false, 11, 11, 110,
    (some ⟨2, 3, 30, []⟩),
    (some ⟨12, [83], [9], 1, [100]⟩), [39, 54, 55], [61, 64, 69, 71, 87, 92], [3]⟩,
   ⟨1, 26103, 12, (some 101), true, false, 14, 14, 140,
    (some ⟨1, 12, 110, [83]⟩),
    (some ⟨5, [139, 132, 42], [25, 25, 15], 6, [25, 26]⟩), [100], [415, 416, 417], [12]⟩,
   ⟨1, 26103, 5, (some 47), true, false, 23, 23, 230,
    (some ⟨12, 20, 140, [139, 132, 42]⟩),
    (some ⟨6, [77, 144, 119, 40, 86, 142, 87, 126, 30, 90, 91, 92, 93, 127], [11, 9, 8, 7, 13, 7, 7, 9, 15, 13, 9, 5, 7, 20], 14, [31, 34, 43]⟩), [25, 26], [10, 11, 14, 17, 20], [20]⟩,
   ⟨1, 26103, 6, (some 38), true, false, 38, 38, 380,
    (some ⟨5, 37, 230, [77, 144, 119, 40, 86, 142, 87, 126, 30, 90, 91, 92, 93, 127]⟩),
    none, [31, 34, 43], [], [37]⟩]),
  (train_gt_421009, [
   ⟨2, 421009, 4, none, true, false, -10, -10, -100,
    none,
    (some ⟨2, [], [], 0, [1, 9, 15, 21, 23]⟩), [], [], [-10]⟩,
   ⟨2, 421009, 2, (some 49), true, false, -8, -8, -80,
    (some ⟨4, -10, -100, []⟩),
    (some ⟨1, [], [], 0, [35, 51]⟩), [1, 9, 15, 21, 23], [], [-10]⟩,
   ⟨2, 421009, 1, (some 11), false, true, -8, -8, -80,
    (some ⟨2, -8, -80, []⟩),
    none, [35, 51], [], [-8]⟩]),
  (train_gt_42100, [
   ⟨3, 42100, 1, (some 11), true, false, 8, 8, 80,
    none,
    (some ⟨2, [], [], 0, []⟩), [], [35, 51], [-8]⟩,
   ⟨3, 42100, 2, (some 49), true, false, 9, 9, 90,
    (some ⟨1, 8, 80, []⟩),
    (some ⟨0, [102], [13], 1, [48, 52]⟩), [], [6, 7, 11, 17, 20, 23], [8]⟩,
   ⟨3, 42100, 0, (some 18), true, false, 11, 11, 110,
    (some ⟨2, 10, 90, [102]⟩),
    none, [48, 52], [], [10]⟩]),
  (train_gt_5312, [
   ⟨4, 5312, 6, (some 33), true, false, -18, -18, -180,
    none,
    (some ⟨5, [78, 79, 80, 81, 120, 31, 94, 95, 143, 128, 41, 85, 145, 125], [18, 7, 6, 8, 12, 20, 23, 5, 9, 11, 6, 11, 7, 14], 16, [10, 11, 14, 17, 19]⟩), [], [36, 30, 22], [-18]⟩,
   ⟨4, 5312, 5, (some 47), true, false, 0, 0, 0,
    (some ⟨6, -2, -180, [78, 79, 80, 81, 120, 31, 94, 95, 143, 128, 41, 85, 145, 125]⟩),
    (some ⟨12, [42, 132, 139], [25, 25, 25], 8, [416, 417]⟩), [10, 11, 14, 17, 19], [25, 26], [-2]⟩,
   ⟨4, 5312, 12, (some 133), true, false, 9, 9, 90,
    (some ⟨5, 8, 0, [42, 132, 139]⟩),
    (some ⟨1, [122], [10], 1, [81, 85, 88, 91]⟩), [416, 417], [200], [8]⟩,
   ⟨4, 5312, 1, (some 13), true, false, 13, 14, 140,
    (some ⟨12, 10, 90, [122]⟩),
    (some ⟨2, [], [], 0, []⟩), [81, 85, 88, 91], [35, 51, 56], [10]⟩,
   ⟨4, 5312, 2, (some 49), true, false, 14, 15, 150,
    (some ⟨1, 14, 140, []⟩),
    (some ⟨0, [103], [13], 1, [41, 50]⟩), [], [8, 14, 21, 23], [14]⟩,
   ⟨4, 5312, 0, (some 20), true, false, 16, 17, 170,
    (some ⟨2, 16, 150, [103]⟩),
    none, [41, 50], [], [16]⟩]),
  (train_gt_40518, [
   ⟨5, 40518, 9, (some 26), true, false, -9, -9, -90,
    none,
    (some ⟨8, [58, 108, 55, 72, 135, 73, 74, 116], [10, 7, 6, 6, 16, 8, 6, 19], 8, [55, 56, 78, 79, 83]⟩), [], [112, 1, 114, 15], [-9]⟩,
   ⟨5, 40518, 8, (some 8), true, false, 3, 3, 30,
    (some ⟨9, -1, -90, [58, 108, 55, 72, 135, 73, 74, 116]⟩),
    (some ⟨1, [82, 131, 65, 112], [14, 15, 9, 10], 5, [82, 84, 86, 93]⟩), [55, 56, 78, 79, 83], [15, 8], [-1]⟩,
   ⟨5, 40518, 1, (some 15), true, true, 11, 11, 110,
    (some ⟨8, 8, 30, [82, 131, 65, 112]⟩),
    (some ⟨2, [], [], 0, []⟩), [82, 84, 86, 93], [32, 34, 35, 40, 41, 42, 49], [8]⟩,
   ⟨5, 40518, 2, none, false, true, 11, 11, 110,
    (some ⟨1, 11, 110, []⟩),
    none, [], [], [11]⟩]),
  (train_gt_34319, [
   ⟨6, 34319, 0, (some 19), true, false, 10, 10, 100,
    none,
    (some ⟨2, [105], [14], 1, [7, 11, 20, 23]⟩), [], [42, 49, 51], [10]⟩,
   ⟨6, 34319, 2, (some 49), true, false, 13, 13, 130,
    (some ⟨0, 11, 100, [105]⟩),
    (some ⟨1, [], [], 0, [35, 40, 41, 42, 49]⟩), [7, 11, 20, 23], [], [11]⟩,
   ⟨6, 34319, 1, (some 15), false, true, 13, 13, 130,
    (some ⟨2, 13, 130, []⟩),
    none, [35, 40, 41, 42, 49], [], [13]⟩]),
  (train_gt_343199, [
   ⟨7, 343199, 1, (some 15), true, true, 14, 18, 180,
    none,
    (some ⟨2, [], [], 0, []⟩), [], [43, 42, 49], [13]⟩,
   ⟨7, 343199, 2, none, false, true, 14, 18, 180,
    (some ⟨1, 18, 180, []⟩),
    none, [], [], [18]⟩]),
  (train_gt_14006, [
   ⟨8, 14006, 0, (some 17), true, false, 6, 6, 60,
    none,
    (some ⟨2, [104], [12], 1, [5, 18]⟩), [], [47, 53], [6]⟩,
   ⟨8, 14006, 2, (some 52), true, false, 9, 9, 90,
    (some ⟨0, 7, 60, [104]⟩),
    (some ⟨1, [], [], 0, [39, 54]⟩), [5, 18], [], [7]⟩,
   ⟨8, 14006, 1, (some 16), true, false, 19, 19, 190,
    (some ⟨2, 9, 90, []⟩),
    (some ⟨8, [138, 141, 96, 118], [10, 9, 16, 9], 4, [9, 16]⟩), [39, 54], [62, 64, 69, 70, 72, 74], [9]⟩,
   ⟨8, 14006, 8, (some 7), true, false, 24, 24, 240,
    (some ⟨1, 23, 190, [138, 141, 96, 118]⟩),
    (some ⟨9, [137, 69, 70, 134, 71, 129, 54, 136, 57], [19, 6, 5, 6, 4, 5, 7, 6, 11], 7, [2, 3, 4, 7, 11, 20, 21]⟩), [9, 16], [54, 57, 84], [23]⟩,
   ⟨8, 14006, 9, (some 29), true, false, 34, 34, 340,
    (some ⟨8, 31, 240, [137, 69, 70, 134, 71, 129, 54, 136, 57]⟩),
    none, [2, 3, 4, 7, 11, 20, 21], [], [31]⟩]),
  (train_gt_94611, [
   ⟨9, 94611, 3, none, true, false, -5, -5, -50,
    none,
    (some ⟨1, [], [], 0, [66, 67, 85, 88, 90, 95]⟩), [], [], [-5]⟩,
   ⟨9, 94611, 1, (some 10), true, false, 12, 12, 120,
    (some ⟨3, -5, -50, []⟩),
    (some ⟨8, [138, 141, 96, 118], [10, 9, 16, 9], 4, [9, 16]⟩), [66, 67, 85, 88, 90, 95], [66, 68, 70, 72, 74], [-5]⟩,
   ⟨9, 94611, 8, (some 7), true, false, 18, 18, 180,
    (some ⟨1, 16, 120, [138, 141, 96, 118]⟩),
    (some ⟨9, [137, 69, 70, 134, 71, 129, 54, 136, 57], [29, 6, 5, 6, 7, 5, 7, 6, 9], 8, [2, 3, 14, 16]⟩), [9, 16], [54, 57, 84], [16]⟩,
   ⟨9, 94611, 9, (some 25), true, false, 28, 28, 280,
    (some ⟨8, 26, 180, [137, 69, 70, 134, 71, 129, 54, 136, 57]⟩),
    none, [2, 3, 14, 16], [], [26]⟩]),
  (train_gt_40150, [
   ⟨10, 40150, 6, (some 35), true, false, -11, 12, 120,
    none,
    (some ⟨5, [78, 79, 80, 81, 120, 31, 94, 95, 143, 128, 41, 85, 145, 125], [18, 7, 6, 8, 12, 20, 23, 5, 19, 11, 16, 11, 17, 14], 19, [10, 11, 14, 17, 19]⟩), [], [29, 24, 22], [-11]⟩,
   ⟨10, 40150, 5, (some 47), true, false, 10, 36, 360,
    (some ⟨6, 31, 120, [78, 79, 80, 81, 120, 31, 94, 95, 143, 128, 41, 85, 145, 125]⟩),
    (some ⟨12, [42, 132, 139], [25, 25, 25], 8, [416, 417]⟩), [10, 11, 14, 17, 19], [25, 26], [31]⟩,
   ⟨10, 40150, 12, (some 133), true, false, 20, 46, 460,
    (some ⟨5, 44, 360, [42, 132, 139]⟩),
    (some ⟨1, [122], [10], 1, [81, 85, 88, 91]⟩), [416, 417], [200], [44]⟩,
   ⟨10, 40150, 1, (some 13), true, false, 24, 50, 500,
    (some ⟨12, 47, 460, [122]⟩),
    (some ⟨2, [], [], 0, []⟩), [81, 85, 88, 91], [35, 51, 56], [47]⟩,
   ⟨10, 40150, 2, (some 49), true, false, 25, 51, 510,
    (some ⟨1, 50, 500, []⟩),
    (some ⟨0, [102], [18], 2, [48, 52]⟩), [], [6, 7, 11, 17, 20, 23], [50]⟩,
   ⟨10, 40150, 0, (some 18), true, false, 29, 55, 550,
    (some ⟨2, 53, 510, [102]⟩),
    none, [48, 52], [], [53]⟩]),
  (train_gt_41004, [
   ⟨11, 41004, 9, (some 27), true, false, 1, 1, 10,
    none,
    (some ⟨8, [58, 108, 55, 72, 135, 73, 74, 116], [10, 7, 6, 6, 6, 5, 6, 9], 6, [55, 56, 78, 79, 83]⟩), [], [112, 1, 2, 3, 4, 7, 11, 20, 21, 22], [1]⟩,
   ⟨11, 41004, 8, (some 8), true, false, 9, 9, 90,
    (some ⟨9, 7, 10, [58, 108, 55, 72, 135, 73, 74, 116]⟩),
    (some ⟨1, [82, 131, 65, 112], [16, 9, 8, 10], 4, [82, 84, 86, 93]⟩), [55, 56, 78, 79, 83], [15, 8], [7]⟩,
   ⟨11, 41004, 1, (some 39), true, false, 25, 25, 250,
    (some ⟨8, 13, 90, [82, 131, 65, 112]⟩),
    (some ⟨2, [], [], 0, []⟩), [82, 84, 86, 93], [38, 41, 42, 47], [13]⟩,
   ⟨11, 41004, 2, (some 53), true, false, 26, 26, 260,
    (some ⟨1, 25, 250, []⟩),
    (some ⟨0, [102], [13], 1, [48, 52]⟩), [], [6, 7, 8, 14, 21], [25]⟩,
   ⟨11, 41004, 0, (some 18), true, false, 28, 28, 280,
    (some ⟨2, 27, 260, [102]⟩),
    none, [48, 52], [], [27]⟩]),
  (train_gt_94113, [
   ⟨12, 94113, 3, none, true, false, 7, 13, 130,
    none,
    (some ⟨1, [], [], 0, [66, 67, 85, 88, 90, 95]⟩), [], [], [7]⟩,
   ⟨12, 94113, 1, (some 10), true, false, 24, 24, 240,
    (some ⟨3, 13, 130, []⟩),
    (some ⟨8, [138, 141, 96, 118], [10, 9, 16, 9], 4, [9, 16]⟩), [66, 67, 85, 88, 90, 95], [66, 68, 70, 72, 74], [13]⟩,
   ⟨12, 94113, 8, (some 7), true, false, 30, 30, 300,
    (some ⟨1, 28, 240, [138, 141, 96, 118]⟩),
    (some ⟨9, [137, 69, 70, 134, 71, 129, 54, 136, 57], [29, 6, 5, 6, 7, 5, 7, 6, 9], 8, [2, 3, 14, 16]⟩), [9, 16], [54, 57, 84], [28]⟩,
   ⟨12, 94113, 9, (some 25), true, false, 41, 41, 410,
    (some ⟨8, 38, 300, [137, 69, 70, 134, 71, 129, 54, 136, 57]⟩),
    none, [2, 3, 14, 16], [], [38]⟩]),
  (train_gt_40673, [
   ⟨13, 40673, 0, (some 17), true, false, 14, 14, 140,
    none,
    (some ⟨2, [104], [14], 1, [5, 18]⟩), [], [47, 53], [14]⟩,
   ⟨13, 40673, 2, (some 52), true, false, 17, 50, 500,
    (some ⟨0, 15, 140, [104]⟩),
    (some ⟨1, [], [], 0, [39, 54, 55]⟩), [5, 18], [], [15]⟩,
   ⟨13, 40673, 1, (some 14), true, false, 30, 62, 620,
    (some ⟨2, 50, 500, []⟩),
    (some ⟨12, [83], [9], 1, [100]⟩), [39, 54, 55], [61, 64, 69, 71, 87, 92], [50]⟩,
   ⟨13, 40673, 12, (some 101), true, false, 33, 68, 680,
    (some ⟨1, 63, 620, [83]⟩),
    (some ⟨5, [139, 132, 42], [25, 25, 15], 6, [25, 26]⟩), [100], [415, 416, 417], [63]⟩,
   ⟨13, 40673, 5, (some 47), true, false, 42, 77, 770,
    (some ⟨12, 74, 680, [139, 132, 42]⟩),
    (some ⟨6, [77, 144, 119, 40, 86, 142, 87, 126, 30, 90, 91, 92, 93, 127], [15, 14, 8, 14, 13, 13, 7, 9, 15, 13, 9, 5, 7, 20], 16, [31, 33, 41]⟩), [25, 26], [10, 11, 14, 17, 20], [74]⟩,
   ⟨13, 40673, 6, (some 35), false, true, 58, 93, 930,
    (some ⟨5, 93, 770, [77, 144, 119, 40, 86, 142, 87, 126, 30, 90, 91, 92, 93, 127]⟩),
    none, [31, 33, 41], [], [93]⟩]),
  (train_gt_54101, [
   ⟨14, 54101, 0, (some 17), true, false, 24, 24, 240,
    none,
    (some ⟨2, [104], [12], 1, [5, 6, 7, 11, 17, 20, 23]⟩), [], [47, 53], [24]⟩,
   ⟨14, 54101, 2, (some 49), true, false, 27, 27, 270,
    (some ⟨0, 25, 240, [104]⟩),
    (some ⟨1, [], [], 0, [35, 51]⟩), [5, 6, 7, 11, 17, 20, 23], [], [25]⟩,
   ⟨14, 54101, 1, (some 11), false, true, 27, 27, 270,
    (some ⟨2, 27, 270, []⟩),
    none, [35, 51], [], [27]⟩]),
  (train_gt_541019, [
   ⟨15, 541019, 1, (some 11), true, true, 28, 37, 370,
    none,
    (some ⟨2, [], [], 0, []⟩), [], [35, 51], [27]⟩,
   ⟨15, 541019, 2, (some 49), true, false, 30, 39, 390,
    (some ⟨1, 37, 370, []⟩),
    (some ⟨4, [], [], 0, []⟩), [], [1, 9, 15, 21, 23], [37]⟩,
   ⟨15, 541019, 4, none, false, true, 30, 39, 390,
    (some ⟨2, 39, 390, []⟩),
    none, [], [], [39]⟩]),
  (train_gt_40477, [
   ⟨16, 40477, 2, none, true, false, 0, 19, 190,
    none,
    (some ⟨1, [], [], 0, [32, 33, 36, 67, 39, 54]⟩), [], [], [0]⟩,
   ⟨16, 40477, 1, (some 16), true, false, 29, 29, 290,
    (some ⟨2, 19, 190, []⟩),
    (some ⟨8, [138, 141, 96, 118], [10, 9, 26, 9], 5, [9, 16]⟩), [32, 33, 36, 67, 39, 54], [62, 64, 69, 70, 72, 74], [19]⟩,
   ⟨16, 40477, 8, (some 7), true, false, 36, 36, 360,
    (some ⟨1, 34, 290, [138, 141, 96, 118]⟩),
    (some ⟨9, [137, 69, 70, 134, 71, 129, 54, 136, 57], [29, 6, 5, 16, 7, 5, 7, 6, 9], 9, [2, 3, 14, 16]⟩), [9, 16], [54, 57, 84], [34]⟩,
   ⟨16, 40477, 9, (some 25), true, false, 55, 55, 550,
    (some ⟨8, 45, 360, [137, 69, 70, 134, 71, 129, 54, 136, 57]⟩),
    none, [2, 3, 14, 16], [], [45]⟩]),
  (train_gt_4500, [
   ⟨17, 4500, 6, (some 32), true, false, 7, 8, 80,
    none,
    (some ⟨5, [78, 79, 80, 81, 120, 31, 94, 95, 143, 128, 41, 85, 145, 125], [18, 7, 6, 8, 12, 20, 23, 5, 9, 11, 6, 11, 7, 14], 16, [10, 11, 14, 17, 19]⟩), [], [37, 36, 30, 22], [7]⟩,
   ⟨17, 4500, 5, (some 47), true, false, 25, 26, 260,
    (some ⟨6, 24, 80, [78, 79, 80, 81, 120, 31, 94, 95, 143, 128, 41, 85, 145, 125]⟩),
    (some ⟨12, [42, 132, 139], [25, 25, 25], 8, [416, 417]⟩), [10, 11, 14, 17, 19], [25, 26], [24]⟩,
   ⟨17, 4500, 12, (some 133), true, false, 34, 35, 350,
    (some ⟨5, 34, 260, [42, 132, 139]⟩),
    (some ⟨1, [122], [10], 1, [81, 85, 88, 91]⟩), [416, 417], [200], [34]⟩,
   ⟨17, 4500, 1, (some 11), true, false, 38, 39, 390,
    (some ⟨12, 36, 350, [122]⟩),
    (some ⟨2, [], [], 0, []⟩), [81, 85, 88, 91], [35, 51], [36]⟩,
   ⟨17, 4500, 2, (some 49), true, false, 39, 40, 400,
    (some ⟨1, 39, 390, []⟩),
    (some ⟨0, [102], [13], 1, [48, 52]⟩), [], [6, 7, 11, 17, 20, 23], [39]⟩,
   ⟨17, 4500, 0, (some 18), true, false, 41, 42, 420,
    (some ⟨2, 41, 400, [102]⟩),
    none, [48, 52], [], [41]⟩]),
  (train_gt_94317, [
   ⟨18, 94317, 0, (some 19), true, false, 39, 40, 400,
    none,
    (some ⟨2, [105], [14], 1, [7, 11, 13, 24]⟩), [], [42, 49, 51], [39]⟩,
   ⟨18, 94317, 2, (some 48), true, false, 42, 43, 430,
    (some ⟨0, 41, 400, [105]⟩),
    (some ⟨1, [], [], 0, [36, 67, 53, 55]⟩), [7, 11, 13, 24], [], [41]⟩,
   ⟨18, 94317, 1, (some 14), true, false, 50, 50, 500,
    (some ⟨2, 43, 430, []⟩),
    (some ⟨12, [83], [9], 1, [100]⟩), [36, 67, 53, 55], [61, 64, 69, 71, 87, 92], [43]⟩,
   ⟨18, 94317, 12, (some 101), true, false, 53, 58, 580,
    (some ⟨1, 51, 500, [83]⟩),
    (some ⟨5, [139, 132, 42], [25, 25, 15], 6, [25, 26]⟩), [100], [415, 416, 417], [51]⟩,
   ⟨18, 94317, 5, (some 47), true, false, 62, 67, 670,
    (some ⟨12, 64, 580, [139, 132, 42]⟩),
    (some ⟨7, [97], [24], 2, [1, 9]⟩), [25, 26], [10, 11, 14], [64]⟩,
   ⟨18, 94317, 7, (some 5), true, false, 66, 71, 710,
    (some ⟨5, 69, 670, [97]⟩),
    none, [1, 9], [], [69]⟩]),
  (train_gt_44717, [
   ⟨19, 44717, 2, none, true, false, 25, 25, 250,
    none,
    (some ⟨1, [], [], 0, [31, 33, 36, 52]⟩), [], [], [25]⟩,
   ⟨19, 44717, 1, (some 10), true, false, 36, 36, 360,
    (some ⟨2, 25, 250, []⟩),
    (some ⟨8, [138, 141, 96, 118], [10, 9, 26, 9], 5, [9, 16, 17]⟩), [31, 33, 36, 52], [66, 68, 70, 72, 74], [25]⟩,
   ⟨19, 44717, 8, (some 9), true, false, 43, 43, 430,
    (some ⟨1, 41, 360, [138, 141, 96, 118]⟩),
    (some ⟨11, [146, 114], [35, 15], 5, [1]⟩), [9, 16, 17], [42, 43, 53, 58, 85], [41]⟩,
   ⟨19, 44717, 11, (some 21), true, false, 51, 51, 510,
    (some ⟨8, 48, 430, [146, 114]⟩),
    (some ⟨10, [107], [19], 2, [1, 2]⟩), [1], [2], [48]⟩,
   ⟨19, 44717, 10, (some 23), true, false, 55, 55, 550,
    (some ⟨11, 53, 510, [107]⟩),
    none, [1, 2], [], [53]⟩]),
  (train_gt_64350, [
   ⟨20, 64350, 7, (some 6), true, false, 25, 25, 250,
    none,
    (some ⟨5, [98], [30], 3, [10, 11, 15]⟩), [], [2, 16], [25]⟩,
   ⟨20, 64350, 5, (some 47), true, false, 31, 31, 310,
    (some ⟨7, 28, 250, [98]⟩),
    (some ⟨12, [42, 132, 139], [25, 25, 25], 8, [416, 417]⟩), [10, 11, 15], [25, 26], [28]⟩,
   ⟨20, 64350, 12, (some 133), true, false, 41, 41, 410,
    (some ⟨5, 39, 310, [42, 132, 139]⟩),
    (some ⟨1, [122], [10], 1, [82, 84, 86, 89, 91]⟩), [416, 417], [200], [39]⟩,
   ⟨20, 64350, 1, (some 15), true, false, 45, 45, 450,
    (some ⟨12, 42, 410, [122]⟩),
    (some ⟨2, [], [], 0, []⟩), [82, 84, 86, 89, 91], [38, 41, 42], [42]⟩,
   ⟨20, 64350, 2, (some 53), true, false, 46, 46, 460,
    (some ⟨1, 45, 450, []⟩),
    (some ⟨0, [103], [18], 2, [41, 50]⟩), [], [8, 14, 21], [45]⟩,
   ⟨20, 64350, 0, (some 20), true, false, 50, 50, 500,
    (some ⟨2, 48, 460, [103]⟩),
    none, [41, 50], [], [48]⟩]),
  (train_gt_94717, [
   ⟨21, 94717, 2, none, true, false, 30, 36, 360,
    none,
    (some ⟨1, [], [], 0, [32, 33, 36, 52]⟩), [], [], [30]⟩,
   ⟨21, 94717, 1, (some 10), true, false, 47, 47, 470,
    (some ⟨2, 36, 360, []⟩),
    (some ⟨8, [138, 141, 96, 118], [10, 9, 26, 9], 5, [9, 16]⟩), [32, 33, 36, 52], [66, 68, 70, 72, 74], [36]⟩,
   ⟨21, 94717, 8, (some 7), true, false, 54, 54, 540,
    (some ⟨1, 52, 470, [138, 141, 96, 118]⟩),
    (some ⟨9, [137, 69, 70, 134, 71, 129, 54, 136, 57], [29, 6, 5, 16, 7, 5, 7, 6, 9], 9, [2, 3, 14, 16]⟩), [9, 16], [54, 57, 84], [52]⟩,
   ⟨21, 94717, 9, (some 25), true, false, 66, 66, 660,
    (some ⟨8, 63, 540, [137, 69, 70, 134, 71, 129, 54, 136, 57]⟩),
    none, [2, 3, 14, 16], [], [63]⟩]),
  (train_gt_44862, [
   ⟨22, 44862, 10, (some 24), true, false, 32, 32, 320,
    none,
    (some ⟨11, [107], [17], 2, [2]⟩), [], [1, 11], [32]⟩,
   ⟨22, 44862, 11, (some 22), true, false, 36, 36, 360,
    (some ⟨10, 34, 320, [107]⟩),
    (some ⟨8, [114, 146], [22, 24], 5, [55, 56, 78, 79, 83, 84, 85]⟩), [2], [1], [34]⟩,
   ⟨22, 44862, 8, (some 8), true, false, 42, 42, 420,
    (some ⟨11, 41, 360, [114, 146]⟩),
    (some ⟨1, [82, 131, 65, 112], [14, 15, 9, 10], 5, [82, 84, 86, 93]⟩), [55, 56, 78, 79, 83, 84, 85], [15, 8], [41]⟩,
   ⟨22, 44862, 1, (some 15), true, true, 50, 50, 500,
    (some ⟨8, 47, 420, [82, 131, 65, 112]⟩),
    (some ⟨2, [], [], 0, []⟩), [82, 84, 86, 93], [43, 42, 49], [47]⟩,
   ⟨22, 44862, 2, none, false, true, 50, 50, 500,
    (some ⟨1, 50, 500, []⟩),
    none, [], [], [50]⟩]),
  (train_gt_40628, [
   ⟨23, 40628, 6, (some 35), true, false, 16, 17, 170,
    none,
    (some ⟨5, [78, 79, 80, 81, 120, 31, 94, 95, 143, 128, 41, 85, 145, 125], [18, 7, 6, 8, 12, 20, 23, 5, 19, 11, 16, 11, 17, 14], 19, [10, 11, 14, 17, 19]⟩), [], [29, 24, 22], [16]⟩,
   ⟨23, 40628, 5, (some 47), true, false, 37, 41, 410,
    (some ⟨6, 36, 170, [78, 79, 80, 81, 120, 31, 94, 95, 143, 128, 41, 85, 145, 125]⟩),
    (some ⟨12, [42, 132, 139], [25, 25, 25], 8, [416, 417]⟩), [10, 11, 14, 17, 19], [25, 26], [36]⟩,
   ⟨23, 40628, 12, (some 133), true, false, 47, 51, 510,
    (some ⟨5, 49, 410, [42, 132, 139]⟩),
    (some ⟨1, [122], [10], 1, [81, 85, 88, 91]⟩), [416, 417], [200], [49]⟩,
   ⟨23, 40628, 1, (some 11), true, false, 51, 55, 550,
    (some ⟨12, 52, 510, [122]⟩),
    (some ⟨2, [], [], 0, []⟩), [81, 85, 88, 91], [35, 51], [52]⟩,
   ⟨23, 40628, 2, (some 49), true, false, 52, 56, 560,
    (some ⟨1, 55, 550, []⟩),
    (some ⟨0, [102], [18], 2, [48, 52]⟩), [], [6, 7, 11, 17, 20, 23], [55]⟩,
   ⟨23, 40628, 0, (some 18), true, false, 56, 60, 600,
    (some ⟨2, 58, 560, [102]⟩),
    none, [48, 52], [], [58]⟩]),
  (train_gt_40675, [
   ⟨24, 40675, 0, (some 17), true, false, 44, 49, 490,
    none,
    (some ⟨2, [104], [14], 1, [5, 18]⟩), [], [47, 53], [44]⟩,
   ⟨24, 40675, 2, (some 52), true, false, 47, 52, 520,
    (some ⟨0, 50, 490, [104]⟩),
    (some ⟨1, [], [], 0, [39, 54]⟩), [5, 18], [], [50]⟩,
   ⟨24, 40675, 1, (some 16), true, false, 55, 57, 570,
    (some ⟨2, 52, 520, []⟩),
    (some ⟨12, [83], [9], 1, [100]⟩), [39, 54], [62, 64, 69, 71, 87, 92], [52]⟩,
   ⟨24, 40675, 12, (some 101), true, false, 58, 63, 630,
    (some ⟨1, 58, 570, [83]⟩),
    (some ⟨5, [139, 132, 42], [25, 25, 15], 6, [25, 26]⟩), [100], [415, 416, 417], [58]⟩,
   ⟨24, 40675, 5, (some 47), true, false, 67, 72, 720,
    (some ⟨12, 69, 630, [139, 132, 42]⟩),
    (some ⟨6, [77, 144, 119, 40, 86, 142, 87, 126, 30, 90, 91, 92, 93, 127], [15, 14, 8, 14, 13, 13, 7, 9, 15, 13, 9, 5, 7, 20], 16, [31, 33, 41]⟩), [25, 26], [10, 11, 14, 17, 20], [69]⟩,
   ⟨24, 40675, 6, (some 35), false, true, 83, 88, 880,
    (some ⟨5, 88, 720, [77, 144, 119, 40, 86, 142, 87, 126, 30, 90, 91, 92, 93, 127]⟩),
    none, [31, 33, 41], [], [88]⟩]),
  (train_gt_73000, [
   ⟨25, 73000, 6, (some 34), true, false, 31, 31, 310,
    none,
    (some ⟨5, [78, 79, 80, 81, 120, 31, 94, 95, 143, 128, 41, 85, 145, 125], [18, 7, 6, 8, 12, 20, 23, 5, 9, 11, 6, 11, 7, 14], 16, [10, 11, 14, 17, 19]⟩), [], [30, 22], [31]⟩,
   ⟨25, 73000, 5, (some 47), true, false, 49, 49, 490,
    (some ⟨6, 47, 310, [78, 79, 80, 81, 120, 31, 94, 95, 143, 128, 41, 85, 145, 125]⟩),
    (some ⟨12, [42, 132, 139], [25, 25, 25], 8, [416, 417]⟩), [10, 11, 14, 17, 19], [25, 26], [47]⟩,
   ⟨25, 73000, 12, (some 133), true, false, 58, 58, 580,
    (some ⟨5, 57, 490, [42, 132, 139]⟩),
    (some ⟨1, [122], [10], 1, [81, 85, 88, 91]⟩), [416, 417], [200], [57]⟩,
   ⟨25, 73000, 1, (some 13), true, false, 62, 62, 620,
    (some ⟨12, 59, 580, [122]⟩),
    (some ⟨2, [], [], 0, []⟩), [81, 85, 88, 91], [35, 51, 56], [59]⟩,
   ⟨25, 73000, 2, (some 49), true, false, 63, 63, 630,
    (some ⟨1, 62, 620, []⟩),
    (some ⟨0, [103], [13], 1, [41, 50]⟩), [], [8, 14, 21, 23], [62]⟩,
   ⟨25, 73000, 0, (some 20), true, false, 65, 65, 650,
    (some ⟨2, 64, 630, [103]⟩),
    none, [41, 50], [], [64]⟩]),
  (train_gt_4120, [
   ⟨26, 4120, 9, (some 26), true, false, 41, 41, 410,
    none,
    (some ⟨8, [58, 108, 55, 72, 135, 73, 74, 116], [10, 7, 6, 6, 6, 5, 6, 9], 6, [55, 56, 78, 79, 83]⟩), [], [112, 1, 114, 15], [41]⟩,
   ⟨26, 4120, 8, (some 8), true, false, 49, 49, 490,
    (some ⟨9, 47, 410, [58, 108, 55, 72, 135, 73, 74, 116]⟩),
    (some ⟨1, [82, 131, 65, 112], [16, 9, 8, 10], 4, [82, 84, 86, 93]⟩), [55, 56, 78, 79, 83], [15, 8], [47]⟩,
   ⟨26, 4120, 1, (some 39), true, false, 60, 60, 600,
    (some ⟨8, 53, 490, [82, 131, 65, 112]⟩),
    (some ⟨2, [], [], 0, []⟩), [82, 84, 86, 93], [35, 40, 41, 42, 47], [53]⟩,
   ⟨26, 4120, 2, (some 49), true, false, 61, 61, 610,
    (some ⟨1, 60, 600, []⟩),
    (some ⟨0, [102], [13], 1, [48, 52]⟩), [], [6, 7, 11, 17, 20, 23], [60]⟩,
   ⟨26, 4120, 0, (some 18), true, false, 63, 63, 630,
    (some ⟨2, 62, 610, [102]⟩),
    none, [48, 52], [], [62]⟩])]

theorem hitgtPlan_sections : hitgtPlan.map Prod.fst = gt := rfl

theorem hitgtPlan_ok : netGt.PlanOK "16:00" [] 40 netGtSpecial hitgtPlan where
  special := netGtSpecial_ok
  sections := by decide +kernel
  stock := by decide +kernel
  pairs := CodedNet.stationPairs_spec (n := netGt.stations.length) (by decide +kernel)
  against := CodedNet.againstPairs_spec (n := netGt.stations.length) (by decide +kernel)

end Verif.Real
