import Verif.Proofs.PlanSum
import Verif.Proofs.PlanAgain
import Verif.Real.PlanBase

/-!
# The sheet of `Verif.Real.Base` with given delays: a plan, and that no plan is better

Generated; see `CodedNet.Item` and `Verif/Proofs/SumTree.lean`. Case 3 of
`/repo/solve_real_problem.py`, lines 152-175;
`d_max` is 40. The sum of the delays that count is 30/4.
-/

namespace Verif.Real

set_option maxRecDepth 100000

/-- the given delays -/
def real3Delays : List (Int × ℚ) := [
  (94766, 30), (26013, 12), (5312, 18), (40518, 5), (34319, 30), (14006, 23), (40150, 3),
  (41004, 21), (45101, 35), (4500, 10), (49317, 25), (64359, 7), (44862, 5), (73000, 16)]

/-- the plan, items by sections -/
def real3Plan : CodedNet.Plan := [
  (train_base_94766, [
   ⟨0, 94766, 9, (some 26), true, false, 17, 17, 170,
    none,
    (some ⟨8, [58, 108, 55, 72, 135, 73, 74, 116], [10, 7, 6, 6, 16, 8, 6, 19], 8, [55, 56, 78, 79, 83]⟩), [], [112, 1, 114, 15], [17]⟩,
   ⟨0, 94766, 8, (some 8), true, false, 26, 26, 260,
    (some ⟨9, 25, 170, [58, 108, 55, 72, 135, 73, 74, 116]⟩),
    (some ⟨1, [82, 131, 65, 112], [14, 15, 9, 10], 5, [82, 84, 86, 93]⟩), [55, 56, 78, 79, 83], [15, 8], [25]⟩,
   ⟨0, 94766, 1, (some 15), true, true, 34, 34, 340,
    (some ⟨8, 31, 260, [82, 131, 65, 112]⟩),
    (some ⟨2, [], [], 0, []⟩), [82, 84, 86, 93], [31, 34, 35, 40, 41, 42, 49], [31]⟩,
   ⟨0, 94766, 2, none, false, true, 34, 34, 340,
    (some ⟨1, 34, 340, []⟩),
    none, [], [], [34]⟩]),
  (train_base_26103, [
   ⟨1, 26103, 0, (some 17), true, false, 0, 0, 0,
    none,
    (some ⟨2, [104], [12], 1, [5, 18]⟩), [], [47, 53], [0]⟩,
   ⟨1, 26103, 2, (some 52), true, false, 3, 3, 30,
    (some ⟨0, 1, 0, [104]⟩),
    (some ⟨1, [], [], 0, [39, 54, 55]⟩), [5, 18], [], [1]⟩,
   ⟨1, 26103, 1, (some 14), true, false, 11, 11, 110,
    (some ⟨2, 3, 30, []⟩),
    (some ⟨5, [83, 101, 84, 121], [9, 12, 6, 7], 3, [5, 8]⟩), [39, 54, 55], [61, 64, 69, 71, 87, 92], [3]⟩,
   ⟨1, 26103, 5, (some 1), true, false, 17, 17, 170,
    (some ⟨1, 14, 110, [83, 101, 84, 121]⟩),
    (some ⟨6, [77, 144, 119, 40, 86, 142, 87, 126, 30, 90, 91, 92, 93, 127], [11, 9, 8, 7, 13, 7, 7, 9, 15, 13, 9, 5, 7, 20], 14, [31, 34, 43]⟩), [5, 8], [16, 2], [14]⟩,
   ⟨1, 26103, 6, (some 38), true, false, 36, 36, 360,
    (some ⟨5, 31, 170, [77, 144, 119, 40, 86, 142, 87, 126, 30, 90, 91, 92, 93, 127]⟩),
    none, [31, 34, 43], [], [31]⟩]),
  (train_base_421009, [
   ⟨2, 421009, 4, none, true, false, -10, -10, -100,
    none,
    (some ⟨2, [], [], 0, [1, 9, 15, 21, 23]⟩), [], [], [-10]⟩,
   ⟨2, 421009, 2, (some 49), true, false, -8, -8, -80,
    (some ⟨4, -10, -100, []⟩),
    (some ⟨1, [], [], 0, [35, 51]⟩), [1, 9, 15, 21, 23], [], [-10]⟩,
   ⟨2, 421009, 1, (some 11), false, true, -8, -8, -80,
    (some ⟨2, -8, -80, []⟩),
    none, [35, 51], [], [-8]⟩]),
  (train_base_42100, [
   ⟨3, 42100, 1, (some 11), true, false, 8, 8, 80,
    none,
    (some ⟨2, [], [], 0, []⟩), [], [35, 51], [-8]⟩,
   ⟨3, 42100, 2, (some 49), true, false, 9, 9, 90,
    (some ⟨1, 8, 80, []⟩),
    (some ⟨0, [102], [13], 1, [48, 52]⟩), [], [6, 7, 11, 17, 20, 23], [8]⟩,
   ⟨3, 42100, 0, (some 18), true, false, 11, 11, 110,
    (some ⟨2, 10, 90, [102]⟩),
    none, [48, 52], [], [10]⟩]),
  (train_base_5312, [
   ⟨4, 5312, 6, (some 33), true, false, 0, 0, 0,
    none,
    (some ⟨5, [78, 79, 80, 81, 120, 31, 94, 95, 143, 128, 41, 85, 145, 125], [18, 7, 6, 8, 12, 20, 23, 5, 9, 11, 6, 11, 7, 9], 15, [17, 19]⟩), [], [36, 30, 22], [0]⟩,
   ⟨4, 5312, 5, (some 2), true, false, 15, 16, 160,
    (some ⟨6, 15, 0, [78, 79, 80, 81, 120, 31, 94, 95, 143, 128, 41, 85, 145, 125]⟩),
    (some ⟨1, [76, 130, 133, 122], [6, 10, 12, 10], 4, [81, 85, 88, 91]⟩), [17, 19], [9, 7, 6], [15]⟩,
   ⟨4, 5312, 1, (some 13), true, false, 22, 23, 230,
    (some ⟨5, 20, 160, [76, 130, 133, 122]⟩),
    (some ⟨2, [], [], 0, []⟩), [81, 85, 88, 91], [35, 51, 56], [20]⟩,
   ⟨4, 5312, 2, (some 49), true, false, 23, 24, 240,
    (some ⟨1, 23, 230, []⟩),
    (some ⟨0, [103], [13], 1, [41, 50]⟩), [], [8, 14, 21, 23], [23]⟩,
   ⟨4, 5312, 0, (some 20), true, false, 25, 26, 260,
    (some ⟨2, 25, 240, [103]⟩),
    none, [41, 50], [], [25]⟩]),
  (train_base_40518, [
   ⟨5, 40518, 9, (some 26), true, false, -4, -4, -40,
    none,
    (some ⟨8, [58, 108, 55, 72, 135, 73, 74, 116], [10, 7, 6, 6, 16, 8, 6, 19], 8, [55, 56, 78, 79, 83]⟩), [], [112, 1, 114, 15], [-4]⟩,
   ⟨5, 40518, 8, (some 8), true, false, 5, 5, 50,
    (some ⟨9, 4, -40, [58, 108, 55, 72, 135, 73, 74, 116]⟩),
    (some ⟨1, [82, 131, 65, 112], [14, 15, 9, 10], 5, [82, 84, 86, 93]⟩), [55, 56, 78, 79, 83], [15, 8], [4]⟩,
   ⟨5, 40518, 1, (some 15), true, true, 13, 13, 130,
    (some ⟨8, 10, 50, [82, 131, 65, 112]⟩),
    (some ⟨2, [], [], 0, []⟩), [82, 84, 86, 93], [32, 34, 35, 40, 41, 42, 49], [10]⟩,
   ⟨5, 40518, 2, none, false, true, 13, 13, 130,
    (some ⟨1, 13, 130, []⟩),
    none, [], [], [13]⟩]),
  (train_base_34319, [
   ⟨6, 34319, 0, (some 19), true, false, 40, 41, 410,
    none,
    (some ⟨2, [105], [14], 1, [7, 11, 20, 23]⟩), [], [42, 49, 51], [40]⟩,
   ⟨6, 34319, 2, (some 49), true, false, 43, 44, 440,
    (some ⟨0, 42, 410, [105]⟩),
    (some ⟨1, [], [], 0, [35, 40, 41, 42, 49]⟩), [7, 11, 20, 23], [], [42]⟩,
   ⟨6, 34319, 1, (some 15), false, true, 43, 44, 440,
    (some ⟨2, 44, 440, []⟩),
    none, [35, 40, 41, 42, 49], [], [44]⟩]),
  (train_base_343199, [
   ⟨7, 343199, 1, (some 15), true, true, 14, 49, 490,
    none,
    (some ⟨2, [], [], 0, []⟩), [], [43, 42, 49], [44]⟩,
   ⟨7, 343199, 2, none, false, true, 14, 49, 490,
    (some ⟨1, 49, 490, []⟩),
    none, [], [], [49]⟩]),
  (train_base_14006, [
   ⟨8, 14006, 0, (some 17), true, false, 29, 29, 290,
    none,
    (some ⟨2, [104], [12], 1, [5, 18]⟩), [], [47, 53], [29]⟩,
   ⟨8, 14006, 2, (some 52), true, false, 32, 32, 320,
    (some ⟨0, 30, 290, [104]⟩),
    (some ⟨1, [], [], 0, [39, 54]⟩), [5, 18], [], [30]⟩,
   ⟨8, 14006, 1, (some 16), true, false, 35, 35, 350,
    (some ⟨2, 32, 320, []⟩),
    (some ⟨8, [138, 141, 96, 118], [10, 9, 16, 9], 4, [9, 16]⟩), [39, 54], [62, 64, 69, 70, 72, 74], [32]⟩,
   ⟨8, 14006, 8, (some 7), true, false, 40, 40, 400,
    (some ⟨1, 39, 350, [138, 141, 96, 118]⟩),
    (some ⟨9, [137, 69, 70, 134, 71, 129, 54, 136, 57], [19, 6, 5, 6, 4, 5, 7, 6, 11], 7, [2, 3, 4, 7, 11, 20, 21]⟩), [9, 16], [54, 57, 84], [39]⟩,
   ⟨8, 14006, 9, (some 29), true, false, 49, 49, 490,
    (some ⟨8, 47, 400, [137, 69, 70, 134, 71, 129, 54, 136, 57]⟩),
    none, [2, 3, 4, 7, 11, 20, 21], [], [47]⟩]),
  (train_base_94611, [
   ⟨9, 94611, 3, none, true, false, -5, -5, -50,
    none,
    (some ⟨1, [], [], 0, [66, 67, 85, 88, 90, 95]⟩), [], [], [-5]⟩,
   ⟨9, 94611, 1, (some 10), true, false, 12, 12, 120,
    (some ⟨3, -5, -50, []⟩),
    (some ⟨8, [138, 141, 96, 118], [10, 9, 16, 9], 4, [9, 16]⟩), [66, 67, 85, 88, 90, 95], [66, 68, 70, 72, 74], [-5]⟩,
   ⟨9, 94611, 8, (some 7), true, false, 18, 18, 180,
    (some ⟨1, 16, 120, [138, 141, 96, 118]⟩),
    (some ⟨9, [137, 69, 70, 134, 71, 129, 54, 136, 57], [29, 6, 5, 6, 7, 5, 7, 6, 9], 8, [2, 3, 14, 16]⟩), [9, 16], [54, 57, 84], [16]⟩,
   ⟨9, 94611, 9, (some 25), true, false, 28, 28, 280,
    (some ⟨8, 26, 180, [137, 69, 70, 134, 71, 129, 54, 136, 57]⟩),
    none, [2, 3, 14, 16], [], [26]⟩]),
  (train_base_40150, [
   ⟨10, 40150, 6, (some 35), true, false, -8, -8, -80,
    none,
    (some ⟨5, [78, 79, 80, 81, 120, 31, 94, 95, 143, 128, 41, 85, 145, 125], [18, 7, 6, 8, 12, 20, 23, 5, 19, 11, 16, 11, 17, 9], 18, [17, 19]⟩), [], [29, 24, 22], [-8]⟩,
   ⟨10, 40150, 5, (some 2), true, false, 12, 12, 120,
    (some ⟨6, 10, -80, [78, 79, 80, 81, 120, 31, 94, 95, 143, 128, 41, 85, 145, 125]⟩),
    (some ⟨1, [76, 130, 133, 122], [8, 12, 22, 10], 5, [81, 85, 88, 91]⟩), [17, 19], [9, 7, 6], [10]⟩,
   ⟨10, 40150, 1, (some 13), true, false, 20, 20, 200,
    (some ⟨5, 17, 120, [76, 130, 133, 122]⟩),
    (some ⟨2, [], [], 0, []⟩), [81, 85, 88, 91], [35, 51, 56], [17]⟩,
   ⟨10, 40150, 2, (some 49), true, false, 21, 21, 210,
    (some ⟨1, 20, 200, []⟩),
    (some ⟨0, [102], [18], 2, [48, 52]⟩), [], [6, 7, 11, 17, 20, 23], [20]⟩,
   ⟨10, 40150, 0, (some 18), true, false, 26, 26, 260,
    (some ⟨2, 23, 210, [102]⟩),
    none, [48, 52], [], [23]⟩]),
  (train_base_41004, [
   ⟨11, 41004, 9, (some 27), true, false, 22, 22, 220,
    none,
    (some ⟨8, [58, 108, 55, 72, 135, 73, 74, 116], [10, 7, 6, 6, 6, 5, 6, 9], 6, [55, 56, 78, 79, 83]⟩), [], [112, 1, 2, 3, 4, 7, 11, 20, 21, 22], [22]⟩,
   ⟨11, 41004, 8, (some 8), true, false, 30, 30, 300,
    (some ⟨9, 28, 220, [58, 108, 55, 72, 135, 73, 74, 116]⟩),
    (some ⟨1, [82, 131, 65, 112], [16, 9, 8, 10], 4, [82, 84, 86, 93]⟩), [55, 56, 78, 79, 83], [15, 8], [28]⟩,
   ⟨11, 41004, 1, (some 39), true, false, 37, 37, 370,
    (some ⟨8, 34, 300, [82, 131, 65, 112]⟩),
    (some ⟨2, [], [], 0, []⟩), [82, 84, 86, 93], [38, 41, 42, 47], [34]⟩,
   ⟨11, 41004, 2, (some 53), true, false, 38, 38, 380,
    (some ⟨1, 37, 370, []⟩),
    (some ⟨0, [102], [13], 1, [48, 52]⟩), [], [6, 7, 8, 14, 21], [37]⟩,
   ⟨11, 41004, 0, (some 18), true, false, 40, 40, 400,
    (some ⟨2, 39, 380, [102]⟩),
    none, [48, 52], [], [39]⟩]),
  (train_base_94113, [
   ⟨12, 94113, 3, none, true, false, 7, 13, 130,
    none,
    (some ⟨1, [], [], 0, [66, 67, 85, 88, 90, 95]⟩), [], [], [7]⟩,
   ⟨12, 94113, 1, (some 10), true, false, 24, 24, 240,
    (some ⟨3, 13, 130, []⟩),
    (some ⟨8, [138, 141, 96, 118], [10, 9, 16, 9], 4, [9, 16]⟩), [66, 67, 85, 88, 90, 95], [66, 68, 70, 72, 74], [13]⟩,
   ⟨12, 94113, 8, (some 7), true, false, 30, 30, 300,
    (some ⟨1, 28, 240, [138, 141, 96, 118]⟩),
    (some ⟨9, [137, 69, 70, 134, 71, 129, 54, 136, 57], [29, 6, 5, 6, 7, 5, 7, 6, 9], 8, [2, 3, 14, 16]⟩), [9, 16], [54, 57, 84], [28]⟩,
   ⟨12, 94113, 9, (some 25), true, false, 41, 41, 410,
    (some ⟨8, 38, 300, [137, 69, 70, 134, 71, 129, 54, 136, 57]⟩),
    none, [2, 3, 14, 16], [], [38]⟩]),
  (train_base_40673, [
   ⟨13, 40673, 0, (some 17), true, false, 14, 14, 140,
    none,
    (some ⟨2, [104], [14], 1, [5, 18]⟩), [], [47, 53], [14]⟩,
   ⟨13, 40673, 2, (some 52), true, false, 17, 17, 170,
    (some ⟨0, 15, 140, [104]⟩),
    (some ⟨1, [], [], 0, [39, 54, 55]⟩), [5, 18], [], [15]⟩,
   ⟨13, 40673, 1, (some 14), true, false, 30, 30, 300,
    (some ⟨2, 17, 170, []⟩),
    (some ⟨5, [83, 101, 84, 121], [9, 19, 8, 8], 4, [5, 8]⟩), [39, 54, 55], [61, 64, 69, 71, 87, 92], [17]⟩,
   ⟨13, 40673, 5, (some 1), true, false, 36, 36, 360,
    (some ⟨1, 34, 300, [83, 101, 84, 121]⟩),
    (some ⟨6, [77, 144, 119, 40, 86, 142, 87, 126, 30, 90, 91, 92, 93, 127], [15, 14, 8, 14, 13, 13, 7, 9, 15, 13, 9, 5, 7, 20], 16, [31, 33, 41]⟩), [5, 8], [16, 2], [34]⟩,
   ⟨13, 40673, 6, (some 35), false, true, 52, 52, 520,
    (some ⟨5, 52, 360, [77, 144, 119, 40, 86, 142, 87, 126, 30, 90, 91, 92, 93, 127]⟩),
    none, [31, 33, 41], [], [52]⟩]),
  (train_base_54101, [
   ⟨14, 54101, 0, (some 17), true, false, 24, 24, 240,
    none,
    (some ⟨2, [104], [12], 1, [5, 6, 7, 11, 17, 20, 23]⟩), [], [47, 53], [24]⟩,
   ⟨14, 54101, 2, (some 49), true, false, 27, 27, 270,
    (some ⟨0, 25, 240, [104]⟩),
    (some ⟨1, [], [], 0, [35, 51]⟩), [5, 6, 7, 11, 17, 20, 23], [], [25]⟩,
   ⟨14, 54101, 1, (some 11), false, true, 27, 27, 270,
    (some ⟨2, 27, 270, []⟩),
    none, [35, 51], [], [27]⟩]),
  (train_base_541019, [
   ⟨15, 541019, 1, (some 11), true, true, 28, 32, 320,
    none,
    (some ⟨2, [], [], 0, []⟩), [], [35, 51], [27]⟩,
   ⟨15, 541019, 2, (some 49), true, false, 30, 34, 340,
    (some ⟨1, 32, 320, []⟩),
    (some ⟨4, [], [], 0, []⟩), [], [1, 9, 15, 21, 23], [32]⟩,
   ⟨15, 541019, 4, none, false, true, 30, 34, 340,
    (some ⟨2, 34, 340, []⟩),
    none, [], [], [34]⟩]),
  (train_base_40477, [
   ⟨16, 40477, 2, none, true, false, 0, 0, 0,
    none,
    (some ⟨1, [], [], 0, [32, 33, 36, 67, 39, 54]⟩), [], [], [0]⟩,
   ⟨16, 40477, 1, (some 16), true, false, 29, 29, 290,
    (some ⟨2, 0, 0, []⟩),
    (some ⟨8, [138, 141, 96, 118], [10, 9, 26, 9], 5, [9, 16]⟩), [32, 33, 36, 67, 39, 54], [62, 64, 69, 70, 72, 74], [0]⟩,
   ⟨16, 40477, 8, (some 7), true, false, 36, 36, 360,
    (some ⟨1, 34, 290, [138, 141, 96, 118]⟩),
    (some ⟨9, [137, 69, 70, 134, 71, 129, 54, 136, 57], [29, 6, 5, 16, 7, 5, 7, 6, 9], 9, [2, 3, 14, 16]⟩), [9, 16], [54, 57, 84], [34]⟩,
   ⟨16, 40477, 9, (some 25), true, false, 55, 55, 550,
    (some ⟨8, 45, 360, [137, 69, 70, 134, 71, 129, 54, 136, 57]⟩),
    none, [2, 3, 14, 16], [], [45]⟩]),
  (train_base_4500, [
   ⟨17, 4500, 6, (some 32), true, false, 17, 17, 170,
    none,
    (some ⟨5, [78, 79, 80, 81, 120, 31, 94, 95, 143, 128, 41, 85, 145, 125], [18, 7, 6, 8, 12, 20, 23, 5, 9, 11, 6, 11, 7, 9], 15, [17, 19]⟩), [], [37, 36, 30, 22], [17]⟩,
   ⟨17, 4500, 5, (some 2), true, false, 32, 32, 320,
    (some ⟨6, 32, 170, [78, 79, 80, 81, 120, 31, 94, 95, 143, 128, 41, 85, 145, 125]⟩),
    (some ⟨1, [76, 130, 133, 122], [6, 10, 12, 10], 4, [81, 85, 88, 91]⟩), [17, 19], [9, 7, 6], [32]⟩,
   ⟨17, 4500, 1, (some 11), true, false, 39, 39, 390,
    (some ⟨5, 36, 320, [76, 130, 133, 122]⟩),
    (some ⟨2, [], [], 0, []⟩), [81, 85, 88, 91], [35, 51], [36]⟩,
   ⟨17, 4500, 2, (some 49), true, false, 40, 40, 400,
    (some ⟨1, 39, 390, []⟩),
    (some ⟨0, [102], [13], 1, [48, 52]⟩), [], [6, 7, 11, 17, 20, 23], [39]⟩,
   ⟨17, 4500, 0, (some 18), true, false, 42, 42, 420,
    (some ⟨2, 41, 400, [102]⟩),
    none, [48, 52], [], [41]⟩]),
  (train_base_94317, [
   ⟨18, 94317, 0, (some 19), true, false, 39, 40, 400,
    none,
    (some ⟨2, [105], [14], 1, [7, 11, 13, 24]⟩), [], [42, 49, 51], [39]⟩,
   ⟨18, 94317, 2, (some 48), true, false, 42, 43, 430,
    (some ⟨0, 41, 400, [105]⟩),
    (some ⟨1, [], [], 0, [36, 67, 53, 55]⟩), [7, 11, 13, 24], [], [41]⟩,
   ⟨18, 94317, 1, (some 14), true, false, 50, 50, 500,
    (some ⟨2, 43, 430, []⟩),
    (some ⟨5, [83, 101, 84, 121], [9, 19, 8, 10], 5, [5, 8, 9]⟩), [36, 67, 53, 55], [61, 64, 69, 71, 87, 92], [43]⟩,
   ⟨18, 94317, 5, (some 3), true, false, 58, 58, 580,
    (some ⟨1, 55, 500, [83, 101, 84, 121]⟩),
    (some ⟨7, [97], [24], 2, [1, 9]⟩), [5, 8, 9], [12, 14], [55]⟩,
   ⟨18, 94317, 7, (some 5), true, false, 63, 63, 630,
    (some ⟨5, 60, 580, [97]⟩),
    none, [1, 9], [], [60]⟩]),
  (train_base_44717, [
   ⟨19, 44717, 2, none, true, false, 25, 25, 250,
    none,
    (some ⟨1, [], [], 0, [31, 33, 36, 52]⟩), [], [], [25]⟩,
   ⟨19, 44717, 1, (some 10), true, false, 36, 37, 370,
    (some ⟨2, 25, 250, []⟩),
    (some ⟨8, [138, 141, 96, 118], [10, 9, 26, 9], 5, [9, 16, 17]⟩), [31, 33, 36, 52], [66, 68, 70, 72, 74], [25]⟩,
   ⟨19, 44717, 8, (some 9), true, false, 43, 47, 470,
    (some ⟨1, 42, 370, [138, 141, 96, 118]⟩),
    (some ⟨11, [146, 114], [35, 15], 5, [1]⟩), [9, 16, 17], [42, 43, 53, 58, 85], [42]⟩,
   ⟨19, 44717, 11, (some 21), true, false, 51, 54, 540,
    (some ⟨8, 52, 470, [146, 114]⟩),
    (some ⟨10, [107], [19], 2, [1, 2]⟩), [1], [2], [52]⟩,
   ⟨19, 44717, 10, (some 23), true, false, 55, 58, 580,
    (some ⟨11, 56, 540, [107]⟩),
    none, [1, 2], [], [56]⟩]),
  (train_base_64350, [
   ⟨20, 64350, 7, (some 6), true, false, 25, 25, 250,
    none,
    (some ⟨5, [98], [25], 2, [11, 15]⟩), [], [2, 16], [25]⟩,
   ⟨20, 64350, 5, (some 4), true, false, 31, 34, 340,
    (some ⟨7, 27, 250, [98]⟩),
    (some ⟨1, [76, 130, 133, 122], [8, 12, 22, 10], 5, [82, 84, 86, 89, 91]⟩), [11, 15], [7, 6], [27]⟩,
   ⟨20, 64350, 1, (some 15), true, false, 40, 42, 420,
    (some ⟨5, 39, 340, [76, 130, 133, 122]⟩),
    (some ⟨2, [], [], 0, []⟩), [82, 84, 86, 89, 91], [38, 41, 42], [39]⟩,
   ⟨20, 64350, 2, (some 53), true, false, 41, 43, 430,
    (some ⟨1, 42, 420, []⟩),
    (some ⟨0, [103], [18], 2, [41, 50]⟩), [], [8, 14, 21], [42]⟩,
   ⟨20, 64350, 0, (some 20), true, false, 45, 47, 470,
    (some ⟨2, 45, 430, [103]⟩),
    none, [41, 50], [], [45]⟩]),
  (train_base_94717, [
   ⟨21, 94717, 2, none, true, false, 30, 37, 370,
    none,
    (some ⟨1, [], [], 0, [32, 33, 36, 52]⟩), [], [], [30]⟩,
   ⟨21, 94717, 1, (some 10), true, false, 47, 47, 470,
    (some ⟨2, 37, 370, []⟩),
    (some ⟨8, [138, 141, 96, 118], [10, 9, 26, 9], 5, [9, 16]⟩), [32, 33, 36, 52], [66, 68, 70, 72, 74], [37]⟩,
   ⟨21, 94717, 8, (some 7), true, false, 54, 54, 540,
    (some ⟨1, 52, 470, [138, 141, 96, 118]⟩),
    (some ⟨9, [137, 69, 70, 134, 71, 129, 54, 136, 57], [29, 6, 5, 16, 7, 5, 7, 6, 9], 9, [2, 3, 14, 16]⟩), [9, 16], [54, 57, 84], [52]⟩,
   ⟨21, 94717, 9, (some 25), true, false, 66, 66, 660,
    (some ⟨8, 63, 540, [137, 69, 70, 134, 71, 129, 54, 136, 57]⟩),
    none, [2, 3, 14, 16], [], [63]⟩]),
  (train_base_44862, [
   ⟨22, 44862, 10, (some 24), true, false, 37, 37, 370,
    none,
    (some ⟨11, [107], [17], 2, [2]⟩), [], [1, 11], [37]⟩,
   ⟨22, 44862, 11, (some 22), true, false, 41, 41, 410,
    (some ⟨10, 39, 370, [107]⟩),
    (some ⟨8, [114, 146], [22, 24], 5, [55, 56, 78, 79, 83, 84, 85]⟩), [2], [1], [39]⟩,
   ⟨22, 44862, 8, (some 8), true, false, 47, 47, 470,
    (some ⟨11, 46, 410, [114, 146]⟩),
    (some ⟨1, [82, 131, 65, 112], [14, 15, 9, 10], 5, [82, 84, 86, 93]⟩), [55, 56, 78, 79, 83, 84, 85], [15, 8], [46]⟩,
   ⟨22, 44862, 1, (some 15), true, true, 55, 55, 550,
    (some ⟨8, 52, 470, [82, 131, 65, 112]⟩),
    (some ⟨2, [], [], 0, []⟩), [82, 84, 86, 93], [43, 42, 49], [52]⟩,
   ⟨22, 44862, 2, none, false, true, 55, 55, 550,
    (some ⟨1, 55, 550, []⟩),
    none, [], [], [55]⟩]),
  (train_base_40628, [
   ⟨23, 40628, 6, (some 35), true, false, 16, 21, 210,
    none,
    (some ⟨5, [78, 79, 80, 81, 120, 31, 94, 95, 143, 128, 41, 85, 145, 125], [18, 7, 6, 8, 12, 20, 23, 5, 19, 11, 16, 11, 17, 9], 18, [17, 19]⟩), [], [29, 24, 22], [16]⟩,
   ⟨23, 40628, 5, (some 2), true, false, 36, 41, 410,
    (some ⟨6, 39, 210, [78, 79, 80, 81, 120, 31, 94, 95, 143, 128, 41, 85, 145, 125]⟩),
    (some ⟨1, [76, 130, 133, 122], [8, 12, 22, 10], 5, [81, 85, 88, 91]⟩), [17, 19], [9, 7, 6], [39]⟩,
   ⟨23, 40628, 1, (some 11), true, false, 51, 51, 510,
    (some ⟨5, 46, 410, [76, 130, 133, 122]⟩),
    (some ⟨2, [], [], 0, []⟩), [81, 85, 88, 91], [35, 51], [46]⟩,
   ⟨23, 40628, 2, (some 49), true, false, 52, 52, 520,
    (some ⟨1, 51, 510, []⟩),
    (some ⟨0, [102], [18], 2, [48, 52]⟩), [], [6, 7, 11, 17, 20, 23], [51]⟩,
   ⟨23, 40628, 0, (some 18), true, false, 56, 56, 560,
    (some ⟨2, 54, 520, [102]⟩),
    none, [48, 52], [], [54]⟩]),
  (train_base_40675, [
   ⟨24, 40675, 0, (some 17), true, false, 44, 44, 440,
    none,
    (some ⟨2, [104], [14], 1, [5, 18]⟩), [], [47, 53], [44]⟩,
   ⟨24, 40675, 2, (some 52), true, false, 47, 47, 470,
    (some ⟨0, 45, 440, [104]⟩),
    (some ⟨1, [], [], 0, [39, 54]⟩), [5, 18], [], [45]⟩,
   ⟨24, 40675, 1, (some 16), true, false, 55, 55, 550,
    (some ⟨2, 47, 470, []⟩),
    (some ⟨5, [83, 101, 84, 121], [9, 19, 8, 8], 4, [5, 8]⟩), [39, 54], [62, 64, 69, 71, 87, 92], [47]⟩,
   ⟨24, 40675, 5, (some 1), true, false, 62, 62, 620,
    (some ⟨1, 59, 550, [83, 101, 84, 121]⟩),
    (some ⟨6, [77, 144, 119, 40, 86, 142, 87, 126, 30, 90, 91, 92, 93, 127], [15, 14, 8, 14, 13, 13, 7, 9, 15, 13, 9, 5, 7, 20], 16, [31, 33, 41]⟩), [5, 8], [16, 2], [59]⟩,
   ⟨24, 40675, 6, (some 35), false, true, 78, 78, 780,
    (some ⟨5, 78, 620, [77, 144, 119, 40, 86, 142, 87, 126, 30, 90, 91, 92, 93, 127]⟩),
    none, [31, 33, 41], [], [78]⟩]),
  (train_base_73000, [
   ⟨25, 73000, 6, (some 34), true, false, 47, 47, 470,
    none,
    (some ⟨5, [78, 79, 80, 81, 120, 31, 94, 95, 143, 128, 41, 85, 145, 125], [18, 7, 6, 8, 12, 20, 23, 5, 9, 11, 6, 11, 7, 9], 15, [17, 19]⟩), [], [30, 22], [47]⟩,
   ⟨25, 73000, 5, (some 2), true, false, 62, 62, 620,
    (some ⟨6, 62, 470, [78, 79, 80, 81, 120, 31, 94, 95, 143, 128, 41, 85, 145, 125]⟩),
    (some ⟨1, [76, 130, 133, 122], [6, 10, 12, 10], 4, [81, 85, 88, 91]⟩), [17, 19], [9, 7, 6], [62]⟩,
   ⟨25, 73000, 1, (some 13), true, false, 69, 69, 690,
    (some ⟨5, 66, 620, [76, 130, 133, 122]⟩),
    (some ⟨2, [], [], 0, []⟩), [81, 85, 88, 91], [35, 51, 56], [66]⟩,
   ⟨25, 73000, 2, (some 49), true, false, 70, 70, 700,
    (some ⟨1, 69, 690, []⟩),
    (some ⟨0, [103], [13], 1, [41, 50]⟩), [], [8, 14, 21, 23], [69]⟩,
   ⟨25, 73000, 0, (some 20), true, false, 72, 72, 720,
    (some ⟨2, 71, 700, [103]⟩),
    none, [41, 50], [], [71]⟩]),
  (train_base_4120, [
   ⟨26, 4120, 9, (some 26), true, false, 41, 41, 410,
    none,
    (some ⟨8, [58, 108, 55, 72, 135, 73, 74, 116], [10, 7, 6, 6, 6, 5, 6, 9], 6, [55, 56, 78, 79, 83]⟩), [], [112, 1, 114, 15], [41]⟩,
   ⟨26, 4120, 8, (some 8), true, false, 49, 50, 500,
    (some ⟨9, 47, 410, [58, 108, 55, 72, 135, 73, 74, 116]⟩),
    (some ⟨1, [82, 131, 65, 112], [16, 9, 8, 10], 4, [82, 84, 86, 93]⟩), [55, 56, 78, 79, 83], [15, 8], [47]⟩,
   ⟨26, 4120, 1, (some 39), true, false, 60, 60, 600,
    (some ⟨8, 54, 500, [82, 131, 65, 112]⟩),
    (some ⟨2, [], [], 0, []⟩), [82, 84, 86, 93], [35, 40, 41, 42, 47], [54]⟩,
   ⟨26, 4120, 2, (some 49), true, false, 61, 61, 610,
    (some ⟨1, 60, 600, []⟩),
    (some ⟨0, [102], [13], 1, [48, 52]⟩), [], [6, 7, 11, 17, 20, 23], [60]⟩,
   ⟨26, 4120, 0, (some 18), true, false, 63, 63, 630,
    (some ⟨2, 62, 610, [102]⟩),
    none, [48, 52], [], [62]⟩])]

theorem real3Plan_sections : real3Plan.map Prod.fst = base := rfl

theorem real3Plan_ok : net.PlanOK "16:00" real3Delays 40 netSpecial real3Plan :=
  basePlan_ok.again rfl (by decide +kernel) (by decide +kernel) (by decide +kernel) (by decide +kernel)

theorem real3_cost : net.costOK real3Plan 30 = true := by decide +kernel

/-- the departures: train and station -/
def real3Nodes : List (Nat × Nat) := [
  (22, 11), (19, 8), (19, 11), (19, 10), (20, 5), (17, 5), (17, 1), (17, 2), (17, 0), (20, 1),
  (20, 2), (20, 0), (14, 2), (10, 1), (10, 2), (10, 0), (14, 0), (4, 1), (10, 5), (4, 5), (4, 2),
  (4, 0), (18, 0), (6, 0), (6, 2), (22, 8), (22, 1)]

/-- the choices -/
def real3Choices : List CodedNet.Choice := [
  .first 6 18 0, .against 19 22 8 11, .first 17 20 5, .first 10 14 2, .against 10 14 2 0,
  .first 10 4 1, .against 17 18 2 0]

/-- the inequalities -/
def real3Arcs : ArcTree :=
  .node ⟨.come, 4, 1, 2, 6, 0, false⟩ (.node ⟨.run, 0, 2, 3, 7, 0, false⟩ (.node
  ⟨.follow, 6, 5, 6, 4, 0, false⟩ (.node ⟨.follow, 5, 6, 5, 2, 0, false⟩ (.node
  ⟨.track, 7, 15, 17, 0, 1, false⟩ .none .none) (.node ⟨.leave, 13, 8, 23, 0, 0, false⟩ .none
  .none)) (.node ⟨.track, 8, 13, 14, 0, 0, false⟩ (.node ⟨.run, 0, 20, 18, 7, 0, false⟩ .none
  .none) (.node ⟨.run, 0, 1, 26, 6, 0, false⟩ .none .none))) (.node ⟨.run, 0, 7, 8, 1, 0, false⟩
  (.node ⟨.run, 0, 10, 11, 1, 0, false⟩ (.node ⟨.run, 0, 19, 14, 8, 0, false⟩ .none .none) (.node
  ⟨.run, 0, 24, 25, 3, 0, false⟩ .none .none)) (.node ⟨.run, 0, 15, 16, 4, 0, false⟩ (.node
  ⟨.run, 0, 21, 22, 2, 0, false⟩ .none .none) (.node ⟨.track, 1, 24, 0, 0, 39, false⟩ .none
  .none)))) (.node ⟨.run, 0, 3, 4, 4, 0, false⟩ (.node ⟨.run, 0, 6, 7, 7, 0, false⟩ (.node
  ⟨.run, 0, 5, 10, 8, 0, false⟩ (.node ⟨.track, 12, 18, 19, 0, 5, false⟩ .none .none) (.node
  ⟨.follow, 2, 23, 24, 1, 0, false⟩ .none .none)) (.node ⟨.run, 0, 14, 15, 1, 0, false⟩ (.node
  ⟨.run, 0, 18, 21, 1, 0, false⟩ .none .none) (.node ⟨.run, 0, 26, 27, 8, 0, false⟩ .none .none)))
  (.node ⟨.run, 0, 8, 9, 2, 0, false⟩ (.node ⟨.run, 0, 11, 12, 4, 0, false⟩ (.node
  ⟨.track, 11, 14, 20, 0, 4, false⟩ .none .none) (.node ⟨.come, 3, 2, 1, 6, 0, false⟩ .none .none))
  (.node ⟨.come, 10, 17, 15, 2, 0, false⟩ (.node ⟨.come, 14, 23, 8, 2, 0, false⟩ .none .none)
  .none)))

/-- the bounds of the departures -/
def real3Times : TimeTree :=
  .node 10 0 10 (.node 51 0 91 (.node 61 0 101 (.node 49 0 89 (.node 31 0 71 .none .none) (.node 49
  0 89 .none .none)) (.node 51 0 91 (.node 22 0 62 .none .none) (.node 65 4 105 .none .none)))
  (.node 41 0 81 (.node 52 7 92 (.node 34 0 74 .none .none) (.node 53 4 93 .none .none)) (.node 37
  6 77 (.node 33 0 73 .none .none) .none))) (.node 53 0 93 (.node 65 4 105 (.node 50 0 90 (.node 36
  4 76 .none .none) (.node 50 0 90 .none .none)) (.node 55 4 95 (.node 25 0 65 .none .none) .none))
  (.node 42 0 82 (.node 50 0 90 (.node 32 0 72 .none .none) (.node 57 0 97 .none .none)) (.node 30
  0 70 (.node 35 6 75 .none .none) .none)))

/-- some of the cases -/
def real3Case0 : SumTree :=
  .cases [] 0 (.leaf [29]) (.cases [] 1 (.leaf [26, 27, 28]) (.cases [0, 1, 2] 2 (.cases
  [7, 8, 9, 10] 3 (.cases [] 4 (.cases [] 5 (.cases [18, 19, 20, 21] 6 (.leaf [23, 24, 25]) (.leaf
  [22, 6])) (.leaf [16, 17, 12, 13])) (.cycle 17 [14, 15])) (.leaf [11, 12, 13])) (.leaf
  [3, 4, 5, 6])))

/-- all cases -/
def real3Cases : SumTree :=
  real3Case0

theorem real3_cases : real3Cases.check real3Arcs 30 real3Choices.length [] real3Times 0 = true := by
  decide +kernel

theorem real3_choices : real3Choices.all (CodedNet.Choice.ok net netSpecial real3Plan) = true := by
  decide +kernel

theorem real3_arcs : real3Arcs.toList.all
    (net.arcOK netSpecial real3Plan real3Nodes real3Choices) = true := by decide +kernel

theorem real3_times : net.startOK real3Plan real3Nodes 10 40 real3Times = true := by decide +kernel

end Verif.Real
