import Verif.Proofs.PlanSum
import Verif.Proofs.PlanAgain
import Verif.Real.PlanOne

/-!
# The sheet of `Verif.Real.One` with given delays: a plan, and that no plan is better

Generated; see `CodedNet.Item` and `Verif/Proofs/SumTree.lean`. Case 6 of
`/repo/solve_real_problem.py`, lines 152-175;
`d_max` is 40. The sum of the delays that count is 365/4.
-/

namespace Verif.Real

set_option maxRecDepth 100000

/-- the given delays -/
def real6Delays : List (Int × ℚ) := [
  (94766, 30), (26013, 12), (5312, 18), (40518, 5), (34319, 30), (14006, 23), (40150, 3),
  (41004, 21), (45101, 35), (4500, 10), (49317, 25), (64359, 7), (44862, 5), (73000, 16)]

/-- the plan, items by sections -/
def real6Plan : CodedNet.Plan := [
  (train_one_94766, [
   ⟨0, 94766, 9, (some 26), true, false, 17, 17, 170,
    none,
    (some ⟨8, [58, 108, 55, 72, 135, 73, 74, 116], [10, 7, 6, 6, 16, 8, 6, 19], 8, [55, 56, 78, 79, 83]⟩), [], [112, 1, 114, 15], [17]⟩,
   ⟨0, 94766, 8, (some 8), true, false, 26, 26, 260,
    (some ⟨9, 25, 170, [58, 108, 55, 72, 135, 73, 74, 116]⟩),
    (some ⟨1, [82, 131, 65, 112], [14, 15, 9, 10], 5, [82, 84, 86, 93]⟩), [55, 56, 78, 79, 83], [15, 8], [25]⟩,
   ⟨0, 94766, 1, (some 15), true, true, 34, 34, 340,
    (some ⟨8, 31, 260, [82, 131, 65, 112]⟩),
    (some ⟨2, [], [], 0, []⟩), [82, 84, 86, 93], [31, 34, 35, 40, 41, 42, 49], [31]⟩,
   ⟨0, 94766, 2, none, false, true, 34, 34, 340,
    (some ⟨1, 34, 340, []⟩),
    none, [], [], [34]⟩]),
  (train_one_26103, [
   ⟨1, 26103, 0, (some 17), true, false, 0, 0, 0,
    none,
    (some ⟨2, [104], [12], 1, [5, 18]⟩), [], [47, 53], [0]⟩,
   ⟨1, 26103, 2, (some 52), true, false, 3, 3, 30,
    (some ⟨0, 1, 0, [104]⟩),
    (some ⟨1, [], [], 0, [39, 54, 55]⟩), [5, 18], [], [1]⟩,
   ⟨1, 26103, 1, (some 14), true, false, 11, 11, 110,
    (some ⟨2, 3, 30, []⟩),
    (some ⟨5, [83, 101, 84, 121], [9, 12, 6, 7], 3, [5, 8]⟩), [39, 54, 55], [61, 64, 69, 71, 87, 92], [3]⟩,
   ⟨1, 26103, 5, (some 1), true, false, 17, 17, 170,
    (some ⟨1, 14, 110, [83, 101, 84, 121]⟩),
    (some ⟨6, [77, 144, 119, 40, 86, 142, 87, 126, 30, 90, 91, 92, 93, 127], [11, 9, 8, 7, 13, 7, 7, 9, 15, 13, 9, 5, 7, 20], 14, [31, 34, 43]⟩), [5, 8], [16, 2], [14]⟩,
   ⟨1, 26103, 6, (some 38), true, false, 36, 36, 360,
    (some ⟨5, 31, 170, [77, 144, 119, 40, 86, 142, 87, 126, 30, 90, 91, 92, 93, 127]⟩),
    none, [31, 34, 43], [], [31]⟩]),
  (train_one_421009, [
   ⟨2, 421009, 4, none, true, false, -10, -10, -100,
    none,
    (some ⟨2, [], [], 0, [1, 9, 15, 21, 23]⟩), [], [], [-10]⟩,
   ⟨2, 421009, 2, (some 49), true, false, -8, -8, -80,
    (some ⟨4, -10, -100, []⟩),
    (some ⟨1, [], [], 0, [35, 51]⟩), [1, 9, 15, 21, 23], [], [-10]⟩,
   ⟨2, 421009, 1, (some 11), false, true, -8, -8, -80,
    (some ⟨2, -8, -80, []⟩),
    none, [35, 51], [], [-8]⟩]),
  (train_one_42100, [
   ⟨3, 42100, 1, (some 11), true, false, 8, 8, 80,
    none,
    (some ⟨2, [], [], 0, []⟩), [], [35, 51], [-8]⟩,
   ⟨3, 42100, 2, (some 49), true, false, 10, 10, 100,
    (some ⟨1, 8, 80, []⟩),
    (some ⟨0, [104], [18], 2, [48, 52, 53]⟩), [], [5, 6, 7, 11, 17, 20, 23], [8]⟩,
   ⟨3, 42100, 0, (some 18), true, false, 13, 13, 130,
    (some ⟨2, 12, 100, [104]⟩),
    none, [48, 52, 53], [], [12]⟩]),
  (train_one_5312, [
   ⟨4, 5312, 6, (some 33), true, false, 0, 0, 0,
    none,
    (some ⟨5, [78, 79, 80, 81, 120, 31, 94, 95, 143, 128, 41, 85, 145, 125], [18, 7, 6, 8, 12, 20, 23, 5, 9, 11, 6, 11, 7, 9], 15, [17, 19]⟩), [], [36, 30, 22], [0]⟩,
   ⟨4, 5312, 5, (some 2), true, false, 15, 16, 160,
    (some ⟨6, 15, 0, [78, 79, 80, 81, 120, 31, 94, 95, 143, 128, 41, 85, 145, 125]⟩),
    (some ⟨1, [76, 130, 133, 122], [6, 10, 12, 10], 4, [81, 85, 88, 91]⟩), [17, 19], [9, 7, 6], [15]⟩,
   ⟨4, 5312, 1, (some 13), true, false, 22, 23, 230,
    (some ⟨5, 20, 160, [76, 130, 133, 122]⟩),
    (some ⟨2, [], [], 0, []⟩), [81, 85, 88, 91], [35, 51, 56], [20]⟩,
   ⟨4, 5312, 2, (some 49), true, false, 24, 25, 250,
    (some ⟨1, 23, 230, []⟩),
    (some ⟨0, [104], [18], 2, [41, 42, 49, 51, 52, 53]⟩), [], [5, 6, 7, 11, 17, 20, 23], [23]⟩,
   ⟨4, 5312, 0, (some 20), true, false, 27, 28, 280,
    (some ⟨2, 27, 250, [104]⟩),
    none, [41, 42, 49, 51, 52, 53], [], [27]⟩]),
  (train_one_40518, [
   ⟨5, 40518, 9, (some 26), true, false, -4, -4, -40,
    none,
    (some ⟨8, [58, 108, 55, 72, 135, 73, 74, 116], [10, 7, 6, 6, 16, 8, 6, 19], 8, [55, 56, 78, 79, 83]⟩), [], [112, 1, 114, 15], [-4]⟩,
   ⟨5, 40518, 8, (some 8), true, false, 5, 5, 50,
    (some ⟨9, 4, -40, [58, 108, 55, 72, 135, 73, 74, 116]⟩),
    (some ⟨1, [82, 131, 65, 112], [14, 15, 9, 10], 5, [82, 84, 86, 93]⟩), [55, 56, 78, 79, 83], [15, 8], [4]⟩,
   ⟨5, 40518, 1, (some 15), true, true, 13, 13, 130,
    (some ⟨8, 10, 50, [82, 131, 65, 112]⟩),
    (some ⟨2, [], [], 0, []⟩), [82, 84, 86, 93], [32, 34, 35, 40, 41, 42, 49], [10]⟩,
   ⟨5, 40518, 2, none, false, true, 13, 13, 130,
    (some ⟨1, 13, 130, []⟩),
    none, [], [], [13]⟩]),
  (train_one_34319, [
   ⟨6, 34319, 0, (some 19), true, false, 40, 40, 400,
    none,
    (some ⟨2, [104], [14], 1, [5, 6, 7, 11, 17, 20, 23]⟩), [], [42, 49, 51, 52, 53], [40]⟩,
   ⟨6, 34319, 2, (some 49), true, false, 43, 43, 430,
    (some ⟨0, 41, 400, [104]⟩),
    (some ⟨1, [], [], 0, [35, 40, 41, 42, 49]⟩), [5, 6, 7, 11, 17, 20, 23], [], [41]⟩,
   ⟨6, 34319, 1, (some 15), false, true, 43, 43, 430,
    (some ⟨2, 43, 430, []⟩),
    none, [35, 40, 41, 42, 49], [], [43]⟩]),
  (train_one_343199, [
   ⟨7, 343199, 1, (some 15), true, true, 14, 48, 480,
    none,
    (some ⟨2, [], [], 0, []⟩), [], [43, 42, 49], [43]⟩,
   ⟨7, 343199, 2, none, false, true, 14, 48, 480,
    (some ⟨1, 48, 480, []⟩),
    none, [], [], [48]⟩]),
  (train_one_14006, [
   ⟨8, 14006, 0, (some 17), true, false, 29, 29, 290,
    none,
    (some ⟨2, [104], [12], 1, [5, 18]⟩), [], [47, 53], [29]⟩,
   ⟨8, 14006, 2, (some 52), true, false, 32, 32, 320,
    (some ⟨0, 30, 290, [104]⟩),
    (some ⟨1, [], [], 0, [39, 54]⟩), [5, 18], [], [30]⟩,
   ⟨8, 14006, 1, (some 16), true, false, 35, 35, 350,
    (some ⟨2, 32, 320, []⟩),
    (some ⟨8, [112, 65, 131, 82], [10, 14, 10, 9], 4, [16, 9, 8]⟩), [39, 54], [62, 64, 69, 71, 87, 88, 90, 93], [32]⟩,
   ⟨8, 14006, 8, (some 7), true, false, 41, 41, 410,
    (some ⟨1, 39, 350, [112, 65, 131, 82]⟩),
    (some ⟨9, [116, 74, 73, 135, 72, 55, 108, 58], [19, 6, 5, 6, 5, 7, 6, 11], 6, [112, 1, 2, 3, 4, 7, 11, 20, 21]⟩), [16, 9, 8], [54, 55, 56, 78, 79, 83], [39]⟩,
   ⟨8, 14006, 9, (some 29), true, false, 49, 49, 490,
    (some ⟨8, 47, 410, [116, 74, 73, 135, 72, 55, 108, 58]⟩),
    none, [112, 1, 2, 3, 4, 7, 11, 20, 21], [], [47]⟩]),
  (train_one_94611, [
   ⟨9, 94611, 3, none, true, false, -5, -5, -50,
    none,
    (some ⟨1, [], [], 0, [66, 67, 85, 88, 90, 95]⟩), [], [], [-5]⟩,
   ⟨9, 94611, 1, (some 10), true, false, 12, 12, 120,
    (some ⟨3, -5, -50, []⟩),
    (some ⟨8, [112, 65, 131, 82], [10, 14, 10, 9], 4, [16, 9, 8]⟩), [66, 67, 85, 88, 90, 95], [66, 67, 85, 88, 90, 93], [-5]⟩,
   ⟨9, 94611, 8, (some 7), true, false, 19, 29, 290,
    (some ⟨1, 16, 120, [112, 65, 131, 82]⟩),
    (some ⟨9, [116, 74, 73, 135, 72, 55, 108, 58], [29, 6, 5, 6, 5, 7, 6, 14], 8, [112, 1, 2, 3, 14, 16]⟩), [16, 9, 8], [54, 55, 56, 78, 79, 83], [16]⟩,
   ⟨9, 94611, 9, (some 25), true, false, 29, 39, 390,
    (some ⟨8, 37, 290, [116, 74, 73, 135, 72, 55, 108, 58]⟩),
    none, [112, 1, 2, 3, 14, 16], [], [37]⟩]),
  (train_one_40150, [
   ⟨10, 40150, 6, (some 35), true, false, -8, -8, -80,
    none,
    (some ⟨5, [78, 79, 80, 81, 120, 31, 94, 95, 143, 128, 41, 85, 145, 125], [18, 7, 6, 8, 12, 20, 23, 5, 19, 11, 16, 11, 17, 9], 18, [17, 19]⟩), [], [29, 24, 22], [-8]⟩,
   ⟨10, 40150, 5, (some 2), true, false, 12, 12, 120,
    (some ⟨6, 10, -80, [78, 79, 80, 81, 120, 31, 94, 95, 143, 128, 41, 85, 145, 125]⟩),
    (some ⟨1, [76, 130, 133, 122], [8, 12, 22, 10], 5, [81, 85, 88, 91]⟩), [17, 19], [9, 7, 6], [10]⟩,
   ⟨10, 40150, 1, (some 13), true, false, 20, 20, 200,
    (some ⟨5, 17, 120, [76, 130, 133, 122]⟩),
    (some ⟨2, [], [], 0, []⟩), [81, 85, 88, 91], [35, 51, 56], [17]⟩,
   ⟨10, 40150, 2, (some 49), true, false, 22, 22, 220,
    (some ⟨1, 20, 200, []⟩),
    (some ⟨0, [104], [23], 2, [48, 52, 53]⟩), [], [5, 6, 7, 11, 17, 20, 23], [20]⟩,
   ⟨10, 40150, 0, (some 18), true, false, 26, 26, 260,
    (some ⟨2, 24, 220, [104]⟩),
    none, [48, 52, 53], [], [24]⟩]),
  (train_one_41004, [
   ⟨11, 41004, 9, (some 27), true, false, 22, 22, 220,
    none,
    (some ⟨8, [58, 108, 55, 72, 135, 73, 74, 116], [10, 7, 6, 6, 6, 5, 6, 9], 6, [55, 56, 78, 79, 83]⟩), [], [112, 1, 2, 3, 4, 7, 11, 20, 21, 22], [22]⟩,
   ⟨11, 41004, 8, (some 8), true, false, 30, 30, 300,
    (some ⟨9, 28, 220, [58, 108, 55, 72, 135, 73, 74, 116]⟩),
    (some ⟨1, [82, 131, 65, 112], [16, 9, 8, 10], 4, [82, 84, 86, 93]⟩), [55, 56, 78, 79, 83], [15, 8], [28]⟩,
   ⟨11, 41004, 1, (some 39), true, false, 37, 37, 370,
    (some ⟨8, 34, 300, [82, 131, 65, 112]⟩),
    (some ⟨2, [], [], 0, []⟩), [82, 84, 86, 93], [38, 41, 42, 47], [34]⟩,
   ⟨11, 41004, 2, (some 53), true, false, 39, 42, 420,
    (some ⟨1, 37, 370, []⟩),
    (some ⟨0, [104], [18], 2, [48, 52, 53]⟩), [], [5, 6, 7, 8, 14, 21], [37]⟩,
   ⟨11, 41004, 0, (some 18), true, false, 42, 45, 450,
    (some ⟨2, 44, 420, [104]⟩),
    none, [48, 52, 53], [], [44]⟩]),
  (train_one_94113, [
   ⟨12, 94113, 3, none, true, false, 7, 38, 380,
    none,
    (some ⟨1, [], [], 0, [66, 67, 85, 88, 90, 95]⟩), [], [], [7]⟩,
   ⟨12, 94113, 1, (some 10), true, false, 24, 43, 430,
    (some ⟨3, 38, 380, []⟩),
    (some ⟨8, [112, 65, 131, 82], [10, 14, 10, 9], 4, [16, 9, 8]⟩), [66, 67, 85, 88, 90, 95], [66, 67, 85, 88, 90, 93], [38]⟩,
   ⟨12, 94113, 8, (some 7), true, false, 31, 50, 500,
    (some ⟨1, 47, 430, [112, 65, 131, 82]⟩),
    (some ⟨9, [116, 74, 73, 135, 72, 55, 108, 58], [29, 6, 5, 6, 5, 7, 6, 14], 8, [112, 1, 2, 3, 14, 16]⟩), [16, 9, 8], [54, 55, 56, 78, 79, 83], [47]⟩,
   ⟨12, 94113, 9, (some 25), true, false, 41, 60, 600,
    (some ⟨8, 58, 500, [116, 74, 73, 135, 72, 55, 108, 58]⟩),
    none, [112, 1, 2, 3, 14, 16], [], [58]⟩]),
  (train_one_40673, [
   ⟨13, 40673, 0, (some 17), true, false, 14, 14, 140,
    none,
    (some ⟨2, [104], [14], 1, [5, 18]⟩), [], [47, 53], [14]⟩,
   ⟨13, 40673, 2, (some 52), true, false, 17, 17, 170,
    (some ⟨0, 15, 140, [104]⟩),
    (some ⟨1, [], [], 0, [39, 54, 55]⟩), [5, 18], [], [15]⟩,
   ⟨13, 40673, 1, (some 14), true, false, 30, 30, 300,
    (some ⟨2, 17, 170, []⟩),
    (some ⟨5, [83, 101, 84, 121], [9, 19, 8, 8], 4, [5, 8]⟩), [39, 54, 55], [61, 64, 69, 71, 87, 92], [17]⟩,
   ⟨13, 40673, 5, (some 1), true, false, 36, 36, 360,
    (some ⟨1, 34, 300, [83, 101, 84, 121]⟩),
    (some ⟨6, [77, 144, 119, 40, 86, 142, 87, 126, 30, 90, 91, 92, 93, 127], [15, 14, 8, 14, 13, 13, 7, 9, 15, 13, 9, 5, 7, 20], 16, [31, 33, 41]⟩), [5, 8], [16, 2], [34]⟩,
   ⟨13, 40673, 6, (some 35), false, true, 52, 52, 520,
    (some ⟨5, 52, 360, [77, 144, 119, 40, 86, 142, 87, 126, 30, 90, 91, 92, 93, 127]⟩),
    none, [31, 33, 41], [], [52]⟩]),
  (train_one_54101, [
   ⟨14, 54101, 0, (some 17), true, false, 24, 28, 280,
    none,
    (some ⟨2, [104], [12], 1, [5, 6, 7, 11, 17, 20, 23]⟩), [], [47, 53], [24]⟩,
   ⟨14, 54101, 2, (some 49), true, false, 27, 31, 310,
    (some ⟨0, 29, 280, [104]⟩),
    (some ⟨1, [], [], 0, [35, 51]⟩), [5, 6, 7, 11, 17, 20, 23], [], [29]⟩,
   ⟨14, 54101, 1, (some 11), false, true, 27, 31, 310,
    (some ⟨2, 31, 310, []⟩),
    none, [35, 51], [], [31]⟩]),
  (train_one_541019, [
   ⟨15, 541019, 1, (some 11), true, true, 28, 36, 360,
    none,
    (some ⟨2, [], [], 0, []⟩), [], [35, 51], [31]⟩,
   ⟨15, 541019, 2, (some 49), true, false, 30, 38, 380,
    (some ⟨1, 36, 360, []⟩),
    (some ⟨4, [], [], 0, []⟩), [], [1, 9, 15, 21, 23], [36]⟩,
   ⟨15, 541019, 4, none, false, true, 30, 38, 380,
    (some ⟨2, 38, 380, []⟩),
    none, [], [], [38]⟩]),
  (train_one_40477, [
   ⟨16, 40477, 2, none, true, false, 0, 35, 350,
    none,
    (some ⟨1, [], [], 0, [32, 33, 36, 67, 39, 54]⟩), [], [], [0]⟩,
   ⟨16, 40477, 1, (some 16), true, false, 29, 39, 390,
    (some ⟨2, 35, 350, []⟩),
    (some ⟨8, [112, 65, 131, 82], [10, 14, 10, 9], 4, [16, 9, 8]⟩), [32, 33, 36, 67, 39, 54], [62, 64, 69, 71, 87, 88, 90, 93], [35]⟩,
   ⟨16, 40477, 8, (some 7), true, false, 36, 46, 460,
    (some ⟨1, 43, 390, [112, 65, 131, 82]⟩),
    (some ⟨9, [116, 74, 73, 135, 72, 55, 108, 58], [29, 6, 5, 16, 5, 7, 6, 14], 9, [112, 1, 2, 3, 14, 16]⟩), [16, 9, 8], [54, 55, 56, 78, 79, 83], [43]⟩,
   ⟨16, 40477, 9, (some 25), true, false, 55, 57, 570,
    (some ⟨8, 55, 460, [116, 74, 73, 135, 72, 55, 108, 58]⟩),
    none, [112, 1, 2, 3, 14, 16], [], [55]⟩]),
  (train_one_4500, [
   ⟨17, 4500, 6, (some 32), true, false, 17, 17, 170,
    none,
    (some ⟨5, [78, 79, 80, 81, 120, 31, 94, 95, 143, 128, 41, 85, 145, 125], [18, 7, 6, 8, 12, 20, 23, 5, 9, 11, 6, 11, 7, 9], 15, [17, 19]⟩), [], [37, 36, 30, 22], [17]⟩,
   ⟨17, 4500, 5, (some 2), true, false, 32, 36, 360,
    (some ⟨6, 32, 170, [78, 79, 80, 81, 120, 31, 94, 95, 143, 128, 41, 85, 145, 125]⟩),
    (some ⟨1, [76, 130, 133, 122], [6, 10, 12, 10], 4, [81, 85, 88, 91]⟩), [17, 19], [9, 7, 6], [32]⟩,
   ⟨17, 4500, 1, (some 11), true, false, 39, 44, 440,
    (some ⟨5, 40, 360, [76, 130, 133, 122]⟩),
    (some ⟨2, [], [], 0, []⟩), [81, 85, 88, 91], [35, 51], [40]⟩,
   ⟨17, 4500, 2, (some 49), true, false, 41, 46, 460,
    (some ⟨1, 44, 440, []⟩),
    (some ⟨0, [104], [18], 2, [48, 52, 53]⟩), [], [5, 6, 7, 11, 17, 20, 23], [44]⟩,
   ⟨17, 4500, 0, (some 18), true, false, 44, 49, 490,
    (some ⟨2, 48, 460, [104]⟩),
    none, [48, 52, 53], [], [48]⟩]),
  (train_one_94317, [
   ⟨18, 94317, 0, (some 19), true, false, 39, 39, 390,
    none,
    (some ⟨2, [104], [14], 1, [5, 6, 13, 24]⟩), [], [42, 49, 51, 52, 53], [39]⟩,
   ⟨18, 94317, 2, (some 48), true, false, 42, 42, 420,
    (some ⟨0, 40, 390, [104]⟩),
    (some ⟨1, [], [], 0, [36, 67, 53, 55]⟩), [5, 6, 13, 24], [], [40]⟩,
   ⟨18, 94317, 1, (some 14), true, false, 50, 50, 500,
    (some ⟨2, 42, 420, []⟩),
    (some ⟨5, [83, 101, 84, 121], [9, 19, 8, 10], 5, [5, 8, 9]⟩), [36, 67, 53, 55], [61, 64, 69, 71, 87, 92], [42]⟩,
   ⟨18, 94317, 5, (some 3), true, false, 58, 58, 580,
    (some ⟨1, 55, 500, [83, 101, 84, 121]⟩),
    (some ⟨7, [97], [24], 2, [1, 9]⟩), [5, 8, 9], [12, 14], [55]⟩,
   ⟨18, 94317, 7, (some 5), true, false, 63, 63, 630,
    (some ⟨5, 60, 580, [97]⟩),
    none, [1, 9], [], [60]⟩]),
  (train_one_44717, [
   ⟨19, 44717, 2, none, true, false, 25, 25, 250,
    none,
    (some ⟨1, [], [], 0, [31, 33, 36, 52]⟩), [], [], [25]⟩,
   ⟨19, 44717, 1, (some 10), true, false, 36, 37, 370,
    (some ⟨2, 25, 250, []⟩),
    (some ⟨8, [112, 65, 131, 82], [10, 14, 10, 9], 4, [15, 8]⟩), [31, 33, 36, 52], [66, 67, 85, 88, 90, 93], [25]⟩,
   ⟨19, 44717, 8, (some 8), true, false, 43, 43, 430,
    (some ⟨1, 41, 370, [112, 65, 131, 82]⟩),
    (some ⟨11, [146, 114], [35, 15], 5, [1]⟩), [15, 8], [55, 56, 78, 79, 83, 84, 85], [41]⟩,
   ⟨19, 44717, 11, (some 21), true, false, 51, 51, 510,
    (some ⟨8, 48, 430, [146, 114]⟩),
    (some ⟨10, [107], [19], 2, [1, 2]⟩), [1], [2], [48]⟩,
   ⟨19, 44717, 10, (some 23), true, false, 55, 55, 550,
    (some ⟨11, 53, 510, [107]⟩),
    none, [1, 2], [], [53]⟩]),
  (train_one_64350, [
   ⟨20, 64350, 7, (some 6), true, false, 25, 25, 250,
    none,
    (some ⟨5, [98], [25], 2, [11, 15]⟩), [], [2, 16], [25]⟩,
   ⟨20, 64350, 5, (some 4), true, false, 31, 31, 310,
    (some ⟨7, 27, 250, [98]⟩),
    (some ⟨1, [76, 130, 133, 122], [8, 12, 22, 10], 5, [82, 84, 86, 89, 91]⟩), [11, 15], [7, 6], [27]⟩,
   ⟨20, 64350, 1, (some 15), true, false, 40, 42, 420,
    (some ⟨5, 36, 310, [76, 130, 133, 122]⟩),
    (some ⟨2, [], [], 0, []⟩), [82, 84, 86, 89, 91], [38, 41, 42], [36]⟩,
   ⟨20, 64350, 2, (some 53), true, false, 42, 44, 440,
    (some ⟨1, 42, 420, []⟩),
    (some ⟨0, [104], [23], 2, [41, 42, 49, 51, 52, 53]⟩), [], [5, 6, 7, 8, 14, 21], [42]⟩,
   ⟨20, 64350, 0, (some 20), true, false, 46, 48, 480,
    (some ⟨2, 46, 440, [104]⟩),
    none, [41, 42, 49, 51, 52, 53], [], [46]⟩]),
  (train_one_94717, [
   ⟨21, 94717, 2, none, true, false, 30, 43, 430,
    none,
    (some ⟨1, [], [], 0, [32, 33, 36, 52]⟩), [], [], [30]⟩,
   ⟨21, 94717, 1, (some 10), true, false, 47, 47, 470,
    (some ⟨2, 43, 430, []⟩),
    (some ⟨8, [112, 65, 131, 82], [10, 14, 10, 9], 4, [16, 9, 8]⟩), [32, 33, 36, 52], [66, 67, 85, 88, 90, 93], [43]⟩,
   ⟨21, 94717, 8, (some 7), true, false, 54, 54, 540,
    (some ⟨1, 51, 470, [112, 65, 131, 82]⟩),
    (some ⟨9, [116, 74, 73, 135, 72, 55, 108, 58], [29, 6, 5, 16, 5, 7, 6, 14], 9, [112, 1, 2, 3, 14, 16]⟩), [16, 9, 8], [54, 55, 56, 78, 79, 83], [51]⟩,
   ⟨21, 94717, 9, (some 25), true, false, 66, 66, 660,
    (some ⟨8, 63, 540, [116, 74, 73, 135, 72, 55, 108, 58]⟩),
    none, [112, 1, 2, 3, 14, 16], [], [63]⟩]),
  (train_one_44862, [
   ⟨22, 44862, 10, (some 24), true, false, 37, 37, 370,
    none,
    (some ⟨11, [107], [17], 2, [2]⟩), [], [1, 11], [37]⟩,
   ⟨22, 44862, 11, (some 22), true, false, 41, 50, 500,
    (some ⟨10, 39, 370, [107]⟩),
    (some ⟨8, [114, 146], [22, 24], 5, [55, 56, 78, 79, 83, 84, 85]⟩), [2], [1], [39]⟩,
   ⟨22, 44862, 8, (some 8), true, false, 47, 56, 560,
    (some ⟨11, 55, 500, [114, 146]⟩),
    (some ⟨1, [82, 131, 65, 112], [14, 15, 9, 10], 5, [82, 84, 86, 93]⟩), [55, 56, 78, 79, 83, 84, 85], [15, 8], [55]⟩,
   ⟨22, 44862, 1, (some 15), true, true, 55, 64, 640,
    (some ⟨8, 61, 560, [82, 131, 65, 112]⟩),
    (some ⟨2, [], [], 0, []⟩), [82, 84, 86, 93], [43, 42, 49], [61]⟩,
   ⟨22, 44862, 2, none, false, true, 55, 64, 640,
    (some ⟨1, 64, 640, []⟩),
    none, [], [], [64]⟩]),
  (train_one_40628, [
   ⟨23, 40628, 6, (some 35), true, false, 16, 21, 210,
    none,
    (some ⟨5, [78, 79, 80, 81, 120, 31, 94, 95, 143, 128, 41, 85, 145, 125], [18, 7, 6, 8, 12, 20, 23, 5, 19, 11, 16, 11, 17, 9], 18, [17, 19]⟩), [], [29, 24, 22], [16]⟩,
   ⟨23, 40628, 5, (some 2), true, false, 36, 41, 410,
    (some ⟨6, 39, 210, [78, 79, 80, 81, 120, 31, 94, 95, 143, 128, 41, 85, 145, 125]⟩),
    (some ⟨1, [76, 130, 133, 122], [8, 12, 22, 10], 5, [81, 85, 88, 91]⟩), [17, 19], [9, 7, 6], [39]⟩,
   ⟨23, 40628, 1, (some 11), true, false, 51, 51, 510,
    (some ⟨5, 46, 410, [76, 130, 133, 122]⟩),
    (some ⟨2, [], [], 0, []⟩), [81, 85, 88, 91], [35, 51], [46]⟩,
   ⟨23, 40628, 2, (some 49), true, false, 53, 53, 530,
    (some ⟨1, 51, 510, []⟩),
    (some ⟨0, [104], [23], 2, [48, 52, 53]⟩), [], [5, 6, 7, 11, 17, 20, 23], [51]⟩,
   ⟨23, 40628, 0, (some 18), true, false, 57, 57, 570,
    (some ⟨2, 55, 530, [104]⟩),
    none, [48, 52, 53], [], [55]⟩]),
  (train_one_40675, [
   ⟨24, 40675, 0, (some 17), true, false, 44, 49, 490,
    none,
    (some ⟨2, [104], [14], 1, [5, 18]⟩), [], [47, 53], [44]⟩,
   ⟨24, 40675, 2, (some 52), true, false, 47, 52, 520,
    (some ⟨0, 50, 490, [104]⟩),
    (some ⟨1, [], [], 0, [39, 54]⟩), [5, 18], [], [50]⟩,
   ⟨24, 40675, 1, (some 16), true, false, 55, 55, 550,
    (some ⟨2, 52, 520, []⟩),
    (some ⟨5, [83, 101, 84, 121], [9, 19, 8, 8], 4, [5, 8]⟩), [39, 54], [62, 64, 69, 71, 87, 92], [52]⟩,
   ⟨24, 40675, 5, (some 1), true, false, 62, 62, 620,
    (some ⟨1, 59, 550, [83, 101, 84, 121]⟩),
    (some ⟨6, [77, 144, 119, 40, 86, 142, 87, 126, 30, 90, 91, 92, 93, 127], [15, 14, 8, 14, 13, 13, 7, 9, 15, 13, 9, 5, 7, 20], 16, [31, 33, 41]⟩), [5, 8], [16, 2], [59]⟩,
   ⟨24, 40675, 6, (some 35), false, true, 78, 78, 780,
    (some ⟨5, 78, 620, [77, 144, 119, 40, 86, 142, 87, 126, 30, 90, 91, 92, 93, 127]⟩),
    none, [31, 33, 41], [], [78]⟩]),
  (train_one_73000, [
   ⟨25, 73000, 6, (some 34), true, false, 47, 47, 470,
    none,
    (some ⟨5, [78, 79, 80, 81, 120, 31, 94, 95, 143, 128, 41, 85, 145, 125], [18, 7, 6, 8, 12, 20, 23, 5, 9, 11, 6, 11, 7, 9], 15, [17, 19]⟩), [], [30, 22], [47]⟩,
   ⟨25, 73000, 5, (some 2), true, false, 62, 62, 620,
    (some ⟨6, 62, 470, [78, 79, 80, 81, 120, 31, 94, 95, 143, 128, 41, 85, 145, 125]⟩),
    (some ⟨1, [76, 130, 133, 122], [6, 10, 12, 10], 4, [81, 85, 88, 91]⟩), [17, 19], [9, 7, 6], [62]⟩,
   ⟨25, 73000, 1, (some 13), true, false, 69, 69, 690,
    (some ⟨5, 66, 620, [76, 130, 133, 122]⟩),
    (some ⟨2, [], [], 0, []⟩), [81, 85, 88, 91], [35, 51, 56], [66]⟩,
   ⟨25, 73000, 2, (some 49), true, false, 71, 71, 710,
    (some ⟨1, 69, 690, []⟩),
    (some ⟨0, [104], [18], 2, [41, 42, 49, 51, 52, 53]⟩), [], [5, 6, 7, 11, 17, 20, 23], [69]⟩,
   ⟨25, 73000, 0, (some 20), true, false, 74, 74, 740,
    (some ⟨2, 73, 710, [104]⟩),
    none, [41, 42, 49, 51, 52, 53], [], [73]⟩]),
  (train_one_4120, [
   ⟨26, 4120, 9, (some 26), true, false, 41, 64, 640,
    none,
    (some ⟨8, [58, 108, 55, 72, 135, 73, 74, 116], [10, 7, 6, 6, 6, 5, 6, 9], 6, [55, 56, 78, 79, 83]⟩), [], [112, 1, 114, 15], [41]⟩,
   ⟨26, 4120, 8, (some 8), true, false, 49, 72, 720,
    (some ⟨9, 70, 640, [58, 108, 55, 72, 135, 73, 74, 116]⟩),
    (some ⟨1, [82, 131, 65, 112], [16, 9, 8, 10], 4, [82, 84, 86, 93]⟩), [55, 56, 78, 79, 83], [15, 8], [70]⟩,
   ⟨26, 4120, 1, (some 39), true, false, 60, 79, 790,
    (some ⟨8, 76, 720, [82, 131, 65, 112]⟩),
    (some ⟨2, [], [], 0, []⟩), [82, 84, 86, 93], [35, 40, 41, 42, 47], [76]⟩,
   ⟨26, 4120, 2, (some 49), true, false, 62, 81, 810,
    (some ⟨1, 79, 790, []⟩),
    (some ⟨0, [104], [18], 2, [48, 52, 53]⟩), [], [5, 6, 7, 11, 17, 20, 23], [79]⟩,
   ⟨26, 4120, 0, (some 18), true, false, 65, 84, 840,
    (some ⟨2, 83, 810, [104]⟩),
    none, [48, 52, 53], [], [83]⟩])]

theorem real6Plan_sections : real6Plan.map Prod.fst = one := rfl

theorem real6Plan_ok : net.PlanOK "16:00" real6Delays 40 netSpecial real6Plan :=
  onePlan_ok.again rfl (by decide +kernel) (by decide +kernel) (by decide +kernel) (by decide +kernel)

theorem real6_cost : net.costOK real6Plan 365 = true := by decide +kernel

/-- the departures: train and station -/
def real6Nodes : List (Nat × Nat) := [
  (24, 0), (21, 1), (9, 3), (24, 2), (8, 0), (24, 1), (16, 2), (18, 0), (11, 2), (11, 0), (12, 3),
  (21, 8), (11, 9), (0, 9), (9, 8), (9, 9), (11, 8), (11, 1), (12, 8), (8, 8), (8, 9), (0, 8),
  (12, 1), (12, 9), (26, 9), (26, 8), (26, 1), (26, 2), (26, 0), (16, 1), (16, 8), (16, 9),
  (22, 8), (21, 9), (4, 1), (10, 5), (10, 1), (10, 2), (10, 0), (4, 5), (4, 2), (4, 0), (0, 1),
  (22, 1), (8, 1), (24, 5), (20, 2), (17, 2), (17, 0), (20, 0), (20, 5), (17, 5), (17, 1), (20, 1),
  (14, 2), (14, 0), (19, 2), (19, 1), (19, 8), (19, 11), (19, 10), (21, 2), (22, 11), (25, 5),
  (6, 2), (25, 2), (25, 0), (8, 2), (6, 0), (4, 6), (10, 6), (23, 2), (23, 0), (25, 1), (9, 1),
  (23, 1)]

/-- the choices -/
def real6Choices : List CodedNet.Choice := [
  .first 6 18 0, .first 8 14 0, .first 8 24 0, .first 19 9 1, .first 9 21 1, .first 8 24 2,
  .first 26 0 9, .first 16 24 1, .against 11 18 2 0, .against 22 9 8 1, .against 26 9 8 1,
  .against 12 21 3 1, .against 8 0 8 9, .against 16 0 8 9, .against 11 21 9 8, .against 9 0 8 9,
  .against 11 9 9 8, .against 11 12 9 8, .against 8 11 8 9, .against 12 0 1 8, .against 26 12 9 8,
  .first 16 21 1, .first 8 16 8, .first 16 21 8, .first 16 12 9, .against 11 21 8 1,
  .against 26 21 8 1, .against 22 21 8 1, .first 16 12 8, .against 16 11 8 9, .first 10 4 1,
  .first 11 22 8, .against 8 11 1 8, .against 8 22 1 8, .against 16 11 1 8, .against 16 22 1 8,
  .first 11 26 8, .against 8 26 1 8, .against 16 26 1 8, .first 11 26 1, .against 8 26 8 9,
  .against 26 21 9 8, .against 16 26 8 9, .first 17 20 2, .first 10 4 5, .first 17 20 5,
  .first 26 22 8, .first 4 14 2, .against 4 14 2 0, .first 8 21 8, .first 19 21 1,
  .against 19 22 8 11, .first 19 22 8, .against 11 19 8 1, .against 19 22 1 8, .first 8 19 1,
  .first 6 17 2, .first 10 14 2, .against 25 21 5 1, .first 26 25 2, .against 16 0 1 8,
  .against 19 0 1 8, .first 8 24 1, .first 11 26 9, .first 19 0 8, .first 8 12 8, .against 8 4 0 2,
  .first 11 25 2, .against 8 0 1 8, .against 26 19 8 1, .first 16 19 1, .first 8 16 1,
  .against 6 17 0 2, .first 10 4 6, .first 20 0 1, .first 8 12 1, .first 26 19 8, .first 23 11 2,
  .first 11 19 8, .against 11 12 8 1, .first 19 12 1, .against 16 22 8 11, .against 8 10 0 2,
  .first 12 21 1, .first 16 12 1, .first 12 21 8, .first 8 21 1, .against 26 12 8 1,
  .against 22 12 8 1, .first 26 25 1, .first 8 9 8, .first 16 9 8, .against 26 9 9 8,
  .first 12 9 1, .first 11 20 1, .first 11 20 2, .first 12 9 8, .first 11 17 2, .against 4 14 1 2,
  .first 6 21 2, .against 6 11 0 2, .against 6 17 2 1, .against 10 14 2 0, .first 11 0 8,
  .first 26 0 8, .against 9 0 1 8, .against 11 9 8 1, .against 12 0 8 9, .first 9 21 8,
  .against 12 9 1 3, .first 11 17 0, .first 22 0 8, .against 6 20 0 2, .first 11 0 9,
  .against 19 0 8 9, .first 26 22 1, .against 19 12 1 3, .first 16 9 9, .against 11 19 9 8,
  .against 8 17 1 5, .against 16 19 2 1, .against 22 21 11 8, .against 8 22 8 11,
  .against 19 25 1 5, .against 12 9 3 1, .against 10 14 1 2, .first 10 4 2, .first 16 9 1,
  .first 6 23 2, .against 6 23 2 1, .against 6 11 2 1, .against 6 23 0 2, .first 22 25 1,
  .first 8 9 1, .against 16 17 1 5, .against 19 17 1 5, .first 11 22 1, .against 6 0 2 1,
  .against 21 0 1 8, .against 26 19 9 8, .against 22 12 11 8, .against 22 9 11 8, .against 19 0 2 1]

/-- the inequalities -/
def real6Arcs : ArcTree :=
  .node ⟨.track, 6, 1, 0, 0, 29, false⟩ (.node ⟨.track, 10, 2, 3, 0, 0, false⟩ (.node
  ⟨.track, 5, 5, 0, 0, 44, false⟩ (.node ⟨.leave, 24, 2, 11, 1, 0, false⟩ (.node
  ⟨.come, 36, 19, 13, 9, 0, false⟩ (.node ⟨.run, 0, 2, 12, 7, 0, false⟩ (.node
  ⟨.come, 68, 33, 45, 6, 0, false⟩ (.node ⟨.come, 104, 63, 59, 6, 0, false⟩ (.node
  ⟨.come, 198, 55, 35, 1, 0, false⟩ .none .none) (.node ⟨.track, 7, 58, 3, 0, 0, false⟩ .none
  .none)) (.node ⟨.run, 0, 72, 73, 4, 0, false⟩ (.node ⟨.leave, 242, 58, 7, 1, 0, false⟩ .none
  .none) .none)) (.node ⟨.run, 0, 52, 53, 7, 0, false⟩ (.node ⟨.follow, 136, 66, 9, 2, 0, false⟩
  (.node ⟨.leave, 219, 23, 3, 1, 0, false⟩ .none .none) .none) (.node
  ⟨.track, 171, 19, 2, 0, 4, false⟩ (.node ⟨.follow, 273, 18, 44, 0, 0, false⟩ .none .none)
  .none))) (.node ⟨.run, 0, 40, 35, 7, 0, false⟩ (.node ⟨.track, 73, 17, 25, 0, 6, false⟩ (.node
  ⟨.track, 126, 6, 68, 0, 0, false⟩ (.node ⟨.follow, 14, 14, 25, 4, 0, false⟩ .none .none) .none)
  (.node ⟨.track, 115, 38, 56, 0, 1, false⟩ (.node ⟨.track, 257, 65, 76, 0, 0, false⟩ .none .none)
  .none)) (.node ⟨.follow, 100, 12, 20, 4, 0, false⟩ (.node ⟨.follow, 148, 70, 71, 4, 0, false⟩
  (.node ⟨.leave, 229, 59, 14, 0, 7, false⟩ .none .none) .none) (.node
  ⟨.follow, 188, 75, 23, 2, 0, false⟩ (.node ⟨.leave, 284, 15, 63, 0, 4, false⟩ .none .none)
  .none)))) (.node ⟨.run, 0, 26, 27, 7, 0, false⟩ (.node ⟨.come, 52, 2, 17, 5, 0, false⟩ (.node
  ⟨.follow, 63, 17, 33, 2, 0, false⟩ (.node ⟨.come, 117, 64, 2, 5, 0, false⟩ (.node
  ⟨.come, 203, 65, 53, 1, 0, false⟩ .none .none) .none) (.node ⟨.come, 160, 23, 17, 5, 0, false⟩
  (.node ⟨.track, 254, 41, 37, 0, 0, false⟩ .none .none) .none)) (.node
  ⟨.come, 83, 25, 12, 7, 0, false⟩ (.node ⟨.follow, 102, 2, 58, 2, 0, false⟩ (.node
  ⟨.track, 222, 49, 9, 0, 2, false⟩ .none .none) .none) (.node ⟨.run, 0, 74, 66, 2, 0, false⟩
  (.node ⟨.come, 278, 22, 2, 6, 0, false⟩ .none .none) .none))) (.node
  ⟨.come, 39, 23, 22, 5, 0, false⟩ (.node ⟨.come, 86, 25, 31, 7, 0, false⟩ (.node
  ⟨.track, 129, 59, 14, 0, 8, false⟩ (.node ⟨.come, 213, 17, 75, 5, 0, false⟩ .none .none) .none)
  (.node ⟨.follow, 169, 30, 23, 2, 0, false⟩ (.node ⟨.follow, 266, 74, 44, 0, 0, false⟩ .none
  .none) .none)) (.node ⟨.run, 0, 60, 61, 4, 0, false⟩ (.node ⟨.track, 149, 54, 22, 0, 5, false⟩
  (.node ⟨.track, 236, 16, 31, 0, 9, false⟩ .none .none) .none) (.node
  ⟨.follow, 184, 15, 31, 4, 0, false⟩ (.node ⟨.come, 285, 57, 43, 1, 0, false⟩ .none .none)
  .none))))) (.node ⟨.come, 34, 15, 13, 9, 0, false⟩ (.node ⟨.run, 0, 23, 19, 7, 0, false⟩ (.node
  ⟨.come, 59, 31, 13, 10, 0, false⟩ (.node ⟨.come, 69, 30, 17, 5, 0, false⟩ (.node
  ⟨.follow, 112, 58, 45, 2, 0, false⟩ (.node ⟨.follow, 199, 65, 62, 0, 0, false⟩ .none .none)
  .none) (.node ⟨.track, 63, 17, 63, 0, 5, false⟩ (.node ⟨.leave, 245, 20, 63, 0, 4, false⟩ .none
  .none) .none)) (.node ⟨.run, 0, 54, 47, 2, 0, false⟩ (.node ⟨.come, 137, 45, 22, 5, 0, false⟩
  (.node ⟨.follow, 9, 75, 2, 2, 0, false⟩ .none .none) .none) (.node
  ⟨.follow, 162, 23, 58, 2, 0, false⟩ (.node ⟨.come, 26, 14, 20, 9, 0, false⟩ .none .none) .none)))
  (.node ⟨.come, 51, 17, 2, 5, 0, false⟩ (.node ⟨.track, 15, 30, 4, 0, 0, false⟩ (.node
  ⟨.track, 125, 45, 4, 0, 0, false⟩ (.node ⟨.come, 214, 75, 17, 5, 0, false⟩ .none .none) .none)
  (.node ⟨.track, 168, 2, 11, 0, 0, false⟩ (.node ⟨.leave, 262, 18, 65, 1, 0, false⟩ .none .none)
  .none)) (.node ⟨.track, 102, 2, 57, 0, 0, false⟩ (.node ⟨.run, 0, 70, 40, 15, 0, false⟩ (.node
  ⟨.follow, 231, 27, 44, 0, 0, false⟩ .none .none) .none) (.node ⟨.run, 0, 75, 15, 7, 0, false⟩
  (.node ⟨.follow, 99, 20, 12, 2, 0, false⟩ .none .none) .none)))) (.node
  ⟨.run, 0, 30, 31, 7, 0, false⟩ (.node ⟨.run, 0, 36, 37, 8, 0, false⟩ (.node
  ⟨.come, 78, 26, 30, 5, 0, false⟩ (.node ⟨.run, 0, 66, 67, 3, 0, false⟩ (.node
  ⟨.track, 208, 22, 13, 0, 6, false⟩ .none .none) .none) (.node ⟨.come, 164, 63, 31, 6, 0, false⟩
  (.node ⟨.follow, 256, 75, 30, 2, 0, false⟩ .none .none) .none)) (.node
  ⟨.track, 95, 41, 56, 0, 1, false⟩ (.node ⟨.come, 146, 48, 69, 3, 0, false⟩ (.node
  ⟨.come, 225, 69, 47, 2, 0, false⟩ .none .none) .none) (.node ⟨.follow, 190, 54, 18, 0, 0, false⟩
  (.node ⟨.follow, 223, 33, 22, 3, 0, false⟩ .none .none) .none))) (.node
  ⟨.follow, 64, 33, 17, 3, 0, false⟩ (.node ⟨.run, 0, 47, 50, 4, 0, false⟩ (.node
  ⟨.track, 131, 20, 23, 0, 4, false⟩ (.node ⟨.track, 183, 31, 75, 0, 4, false⟩ .none .none) .none)
  (.node ⟨.follow, 174, 2, 45, 2, 0, false⟩ (.node ⟨.leave, 269, 30, 52, 0, 3, false⟩ .none .none)
  .none)) (.node ⟨.come, 109, 58, 33, 5, 0, false⟩ (.node ⟨.follow, 152, 23, 45, 2, 0, false⟩
  (.node ⟨.leave, 238, 59, 13, 0, 5, false⟩ .none .none) .none) (.node
  ⟨.follow, 195, 9, 48, 2, 0, false⟩ (.node ⟨.come, 19, 33, 75, 6, 0, false⟩ .none .none)
  .none)))))) (.node ⟨.come, 18, 8, 9, 2, 0, false⟩ (.node ⟨.come, 32, 14, 15, 9, 0, false⟩ (.node
  ⟨.run, 0, 20, 21, 8, 0, false⟩ (.node ⟨.come, 60, 13, 31, 7, 0, false⟩ (.node
  ⟨.come, 70, 17, 30, 5, 0, false⟩ (.node ⟨.come, 103, 59, 63, 6, 0, false⟩ (.node
  ⟨.follow, 200, 62, 65, 0, 0, false⟩ .none .none) (.node ⟨.track, 1, 69, 0, 0, 39, false⟩ .none
  .none)) (.node ⟨.track, 158, 59, 13, 0, 6, false⟩ (.node ⟨.come, 241, 7, 58, 1, 0, false⟩ .none
  .none) .none)) (.node ⟨.follow, 91, 52, 51, 2, 0, false⟩ (.node ⟨.come, 133, 5, 41, 2, 0, false⟩
  (.node ⟨.follow, 207, 17, 22, 2, 0, false⟩ .none .none) .none) (.node
  ⟨.come, 178, 23, 33, 5, 0, false⟩ (.node ⟨.come, 275, 65, 43, 1, 0, false⟩ .none .none) .none)))
  (.node ⟨.run, 0, 41, 42, 3, 0, false⟩ (.node ⟨.track, 79, 18, 26, 0, 4, false⟩ (.node
  ⟨.come, 29, 13, 12, 7, 0, false⟩ (.node ⟨.come, 212, 22, 75, 6, 0, false⟩ .none .none) .none)
  (.node ⟨.come, 165, 5, 38, 2, 0, false⟩ (.node ⟨.come, 259, 65, 76, 1, 0, false⟩ .none .none)
  .none)) (.node ⟨.follow, 48, 12, 31, 4, 0, false⟩ (.node ⟨.track, 90, 40, 71, 0, 18, false⟩
  (.node ⟨.follow, 218, 12, 15, 4, 0, false⟩ .none .none) .none) (.node
  ⟨.track, 187, 23, 3, 0, 0, false⟩ (.node ⟨.come, 31, 15, 14, 9, 0, false⟩ .none .none) .none))))
  (.node ⟨.run, 0, 28, 29, 3, 0, false⟩ (.node ⟨.run, 0, 12, 34, 11, 0, false⟩ (.node
  ⟨.track, 74, 26, 13, 0, 6, false⟩ (.node ⟨.follow, 120, 66, 28, 2, 0, false⟩ (.node
  ⟨.come, 206, 56, 38, 2, 0, false⟩ .none .none) .none) (.node ⟨.track, 57, 31, 23, 0, 4, false⟩
  (.node ⟨.leave, 250, 75, 11, 1, 0, false⟩ .none .none) .none)) (.node
  ⟨.track, 96, 55, 35, 0, 0, false⟩ (.node ⟨.track, 143, 45, 7, 0, 0, false⟩ (.node
  ⟨.come, 20, 75, 33, 5, 0, false⟩ .none .none) .none) (.node ⟨.follow, 192, 47, 9, 2, 0, false⟩
  (.node ⟨.leave, 280, 59, 25, 0, 5, false⟩ .none .none) .none))) (.node
  ⟨.come, 56, 2, 33, 5, 0, false⟩ (.node ⟨.run, 0, 48, 49, 3, 0, false⟩ (.node
  ⟨.come, 37, 20, 13, 7, 0, false⟩ (.node ⟨.follow, 8, 75, 58, 2, 0, false⟩ .none .none) .none)
  (.node ⟨.follow, 167, 23, 2, 2, 0, false⟩ (.node ⟨.follow, 267, 45, 75, 2, 0, false⟩ .none .none)
  .none)) (.node ⟨.come, 110, 33, 58, 6, 0, false⟩ (.node ⟨.track, 154, 59, 25, 0, 6, false⟩ (.node
  ⟨.track, 188, 75, 11, 0, 0, false⟩ .none .none) .none) (.node ⟨.follow, 196, 48, 9, 2, 0, false⟩
  (.node ⟨.come, 25, 20, 14, 7, 0, false⟩ .none .none) .none))))) (.node
  ⟨.run, 0, 17, 18, 7, 0, false⟩ (.node ⟨.come, 42, 19, 25, 9, 0, false⟩ (.node
  ⟨.follow, 57, 31, 19, 4, 0, false⟩ (.node ⟨.come, 67, 45, 33, 5, 0, false⟩ (.node
  ⟨.track, 100, 12, 45, 0, 4, false⟩ (.node ⟨.track, 192, 47, 18, 0, 0, false⟩ .none .none) .none)
  (.node ⟨.track, 58, 19, 30, 0, 4, false⟩ (.node ⟨.come, 252, 55, 37, 1, 0, false⟩ .none .none)
  .none)) (.node ⟨.follow, 93, 26, 33, 2, 0, false⟩ (.node ⟨.follow, 141, 30, 58, 2, 0, false⟩
  (.node ⟨.track, 14, 14, 0, 0, 41, false⟩ .none .none) .none) (.node
  ⟨.track, 120, 66, 27, 0, 0, false⟩ (.node ⟨.follow, 143, 45, 30, 2, 0, false⟩ .none .none)
  .none))) (.node ⟨.track, 45, 20, 30, 0, 4, false⟩ (.node ⟨.run, 0, 6, 46, 6, 0, false⟩ (.node
  ⟨.come, 123, 58, 22, 5, 0, false⟩ (.node ⟨.come, 215, 19, 14, 9, 0, false⟩ .none .none) .none)
  (.node ⟨.track, 167, 23, 62, 0, 0, false⟩ (.node ⟨.come, 264, 72, 69, 3, 0, false⟩ .none .none)
  .none)) (.node ⟨.run, 0, 58, 59, 6, 0, false⟩ (.node ⟨.follow, 94, 33, 26, 3, 0, false⟩ (.node
  ⟨.leave, 233, 58, 11, 1, 0, false⟩ .none .none) .none) (.node ⟨.come, 185, 25, 15, 7, 0, false⟩
  (.node ⟨.follow, 210, 22, 26, 3, 0, false⟩ .none .none) .none)))) (.node
  ⟨.track, 48, 12, 30, 0, 4, false⟩ (.node ⟨.run, 0, 38, 39, 4, 0, false⟩ (.node
  ⟨.come, 77, 30, 26, 5, 0, false⟩ (.node ⟨.come, 121, 30, 22, 5, 0, false⟩ (.node
  ⟨.track, 210, 22, 25, 0, 6, false⟩ .none .none) .none) (.node ⟨.track, 161, 58, 11, 0, 0, false⟩
  (.node ⟨.leave, 244, 12, 63, 0, 4, false⟩ .none .none) .none)) (.node
  ⟨.run, 0, 56, 55, 3, 0, false⟩ (.node ⟨.come, 145, 69, 48, 2, 0, false⟩ (.node
  ⟨.follow, 227, 13, 14, 2, 0, false⟩ .none .none) .none) (.node ⟨.track, 194, 15, 23, 0, 4, false⟩
  (.node ⟨.leave, 282, 19, 63, 0, 4, false⟩ .none .none) .none))) (.node
  ⟨.come, 66, 17, 45, 5, 0, false⟩ (.node ⟨.follow, 89, 36, 40, 4, 0, false⟩ (.node
  ⟨.run, 0, 5, 68, 3, 0, false⟩ (.node ⟨.track, 182, 15, 45, 0, 4, false⟩ .none .none) .none)
  (.node ⟨.come, 176, 23, 26, 5, 0, false⟩ (.node ⟨.come, 272, 52, 58, 5, 0, false⟩ .none .none)
  .none)) (.node ⟨.track, 101, 58, 62, 0, 0, false⟩ (.node ⟨.come, 35, 13, 19, 7, 0, false⟩ (.node
  ⟨.come, 240, 52, 45, 5, 0, false⟩ .none .none) .none) (.node ⟨.track, 181, 20, 75, 0, 4, false⟩
  (.node ⟨.track, 2, 8, 0, 0, 40, false⟩ .none .none) .none))))))) (.node
  ⟨.track, 12, 4, 5, 0, 1, false⟩ (.node ⟨.track, 16, 6, 7, 0, 0, false⟩ (.node
  ⟨.come, 30, 12, 13, 10, 0, false⟩ (.node ⟨.come, 38, 13, 20, 7, 0, false⟩ (.node
  ⟨.follow, 58, 19, 31, 4, 0, false⟩ (.node ⟨.come, 65, 45, 17, 5, 0, false⟩ (.node
  ⟨.track, 105, 59, 63, 0, 5, false⟩ (.node ⟨.leave, 197, 35, 55, 1, 0, false⟩ .none .none) (.node
  ⟨.track, 3, 5, 0, 0, 24, false⟩ .none .none)) (.node ⟨.follow, 155, 72, 9, 2, 0, false⟩ (.node
  ⟨.come, 243, 63, 12, 6, 0, false⟩ .none .none) .none)) (.node ⟨.run, 0, 53, 48, 2, 0, false⟩
  (.node ⟨.follow, 135, 9, 66, 2, 0, false⟩ (.node ⟨.follow, 181, 20, 15, 2, 0, false⟩ .none .none)
  .none) (.node ⟨.follow, 172, 12, 19, 4, 0, false⟩ (.node ⟨.leave, 276, 43, 65, 1, 0, false⟩ .none
  .none) .none))) (.node ⟨.run, 0, 35, 41, 2, 0, false⟩ (.node ⟨.track, 80, 27, 17, 0, 4, false⟩
  (.node ⟨.follow, 11, 68, 4, 0, 0, false⟩ (.node ⟨.follow, 161, 58, 23, 2, 0, false⟩ .none .none)
  .none) (.node ⟨.come, 166, 38, 5, 3, 0, false⟩ (.node ⟨.leave, 260, 76, 65, 1, 0, false⟩ .none
  .none) .none)) (.node ⟨.track, 99, 20, 2, 0, 4, false⟩ (.node ⟨.run, 0, 71, 36, 20, 0, false⟩
  (.node ⟨.track, 223, 33, 14, 0, 8, false⟩ .none .none) .none) (.node
  ⟨.follow, 194, 15, 19, 4, 0, false⟩ (.node ⟨.come, 283, 63, 15, 6, 0, false⟩ .none .none)
  .none)))) (.node ⟨.run, 0, 27, 28, 2, 0, false⟩ (.node ⟨.come, 54, 2, 26, 5, 0, false⟩ (.node
  ⟨.follow, 74, 26, 17, 2, 0, false⟩ (.node ⟨.track, 113, 65, 53, 0, 0, false⟩ (.node
  ⟨.track, 93, 26, 63, 0, 5, false⟩ .none .none) .none) (.node ⟨.come, 159, 17, 23, 5, 0, false⟩
  (.node ⟨.follow, 61, 37, 35, 0, 0, false⟩ .none .none) .none)) (.node
  ⟨.come, 81, 20, 25, 7, 0, false⟩ (.node ⟨.follow, 144, 30, 45, 2, 0, false⟩ (.node
  ⟨.track, 221, 10, 48, 0, 2, false⟩ .none .none) .none) (.node ⟨.come, 33, 13, 15, 7, 0, false⟩
  (.node ⟨.come, 277, 2, 22, 5, 0, false⟩ .none .none) .none))) (.node
  ⟨.run, 0, 22, 43, 8, 0, false⟩ (.node ⟨.follow, 88, 47, 48, 2, 0, false⟩ (.node
  ⟨.come, 28, 14, 31, 9, 0, false⟩ (.node ⟨.track, 218, 12, 75, 0, 4, false⟩ .none .none) .none)
  (.node ⟨.track, 172, 12, 23, 0, 4, false⟩ (.node ⟨.follow, 268, 75, 45, 2, 0, false⟩ .none .none)
  .none)) (.node ⟨.track, 106, 33, 58, 0, 4, false⟩ (.node ⟨.come, 139, 26, 58, 5, 0, false⟩ (.node
  ⟨.track, 235, 32, 15, 0, 8, false⟩ .none .none) .none) (.node ⟨.follow, 131, 20, 19, 2, 0, false⟩
  (.node ⟨.come, 27, 31, 14, 10, 0, false⟩ .none .none) .none))))) (.node
  ⟨.run, 0, 13, 17, 8, 0, false⟩ (.node ⟨.run, 0, 19, 24, 10, 0, false⟩ (.node
  ⟨.track, 50, 24, 31, 0, 9, false⟩ (.node ⟨.track, 46, 31, 45, 0, 4, false⟩ (.node
  ⟨.follow, 111, 45, 58, 2, 0, false⟩ (.node ⟨.come, 201, 69, 9, 2, 0, false⟩ .none .none) .none)
  (.node ⟨.track, 132, 19, 45, 0, 4, false⟩ (.node ⟨.come, 248, 64, 58, 5, 0, false⟩ .none .none)
  .none)) (.node ⟨.track, 94, 33, 25, 0, 6, false⟩ (.node ⟨.follow, 142, 58, 30, 2, 0, false⟩
  (.node ⟨.follow, 217, 15, 12, 4, 0, false⟩ .none .none) .none) (.node
  ⟨.follow, 180, 74, 27, 0, 0, false⟩ (.node ⟨.leave, 271, 58, 52, 0, 3, false⟩ .none .none)
  .none))) (.node ⟨.track, 49, 32, 19, 0, 8, false⟩ (.node ⟨.run, 0, 4, 6, 3, 0, false⟩ (.node
  ⟨.follow, 128, 25, 13, 2, 0, false⟩ (.node ⟨.come, 216, 14, 19, 9, 0, false⟩ .none .none) .none)
  (.node ⟨.come, 23, 11, 2, 1, 0, false⟩ (.node ⟨.come, 261, 65, 18, 1, 0, false⟩ .none .none)
  .none)) (.node ⟨.run, 0, 57, 58, 3, 0, false⟩ (.node ⟨.follow, 101, 58, 2, 2, 0, false⟩ (.node
  ⟨.come, 234, 11, 58, 1, 0, false⟩ .none .none) .none) (.node ⟨.come, 186, 15, 25, 9, 0, false⟩
  (.node ⟨.follow, 209, 26, 22, 2, 0, false⟩ .none .none) .none)))) (.node
  ⟨.run, 0, 31, 32, 11, 0, false⟩ (.node ⟨.run, 0, 37, 38, 2, 0, false⟩ (.node
  ⟨.come, 75, 45, 26, 5, 0, false⟩ (.node ⟨.come, 122, 22, 30, 6, 0, false⟩ (.node
  ⟨.track, 207, 17, 14, 0, 8, false⟩ .none .none) .none) (.node ⟨.leave, 163, 31, 63, 0, 4, false⟩
  (.node ⟨.follow, 255, 30, 75, 2, 0, false⟩ .none .none) .none)) (.node
  ⟨.come, 97, 41, 56, 3, 0, false⟩ (.node ⟨.run, 0, 69, 65, 3, 0, false⟩ (.node
  ⟨.follow, 228, 14, 13, 4, 0, false⟩ .none .none) .none) (.node
  ⟨.follow, 189, 18, 54, 0, 0, false⟩ (.node ⟨.come, 279, 25, 59, 7, 0, false⟩ .none .none)
  .none))) (.node ⟨.track, 64, 33, 13, 0, 6, false⟩ (.node ⟨.follow, 90, 40, 36, 2, 0, false⟩
  (.node ⟨.come, 134, 41, 5, 3, 0, false⟩ (.node ⟨.track, 8, 75, 57, 0, 0, false⟩ .none .none)
  .none) (.node ⟨.follow, 173, 45, 2, 2, 0, false⟩ (.node ⟨.come, 230, 14, 59, 9, 0, false⟩ .none
  .none) .none)) (.node ⟨.come, 107, 17, 58, 5, 0, false⟩ (.node
  ⟨.follow, 151, 45, 23, 2, 0, false⟩ (.node ⟨.come, 237, 13, 59, 7, 0, false⟩ .none .none) .none)
  (.node ⟨.follow, 183, 31, 15, 4, 0, false⟩ (.node ⟨.come, 17, 9, 8, 3, 0, false⟩ .none .none)
  .none)))))) (.node ⟨.run, 0, 9, 10, 3, 0, false⟩ (.node ⟨.run, 0, 15, 16, 10, 0, false⟩ (.node
  ⟨.come, 40, 22, 23, 6, 0, false⟩ (.node ⟨.follow, 46, 31, 20, 4, 0, false⟩ (.node
  ⟨.come, 72, 33, 30, 6, 0, false⟩ (.node ⟨.run, 0, 63, 33, 6, 0, false⟩ (.node
  ⟨.come, 202, 9, 69, 3, 0, false⟩ .none .none) .none) (.node ⟨.track, 157, 17, 58, 0, 4, false⟩
  (.node ⟨.come, 246, 63, 20, 6, 0, false⟩ .none .none) .none)) (.node
  ⟨.run, 0, 51, 54, 8, 0, false⟩ (.node ⟨.come, 138, 22, 45, 6, 0, false⟩ (.node
  ⟨.track, 184, 15, 30, 0, 4, false⟩ .none .none) .none) (.node ⟨.come, 177, 33, 23, 6, 0, false⟩
  (.node ⟨.come, 249, 11, 75, 1, 0, false⟩ .none .none) .none))) (.node
  ⟨.come, 53, 26, 2, 5, 0, false⟩ (.node ⟨.come, 82, 25, 20, 7, 0, false⟩ (.node
  ⟨.follow, 127, 13, 25, 2, 0, false⟩ (.node ⟨.come, 211, 75, 22, 5, 0, false⟩ .none .none) .none)
  (.node ⟨.track, 4, 56, 0, 0, 29, false⟩ (.node ⟨.run, 0, 76, 72, 2, 0, false⟩ .none .none)
  .none)) (.node ⟨.follow, 47, 31, 12, 4, 0, false⟩ (.node ⟨.follow, 147, 71, 70, 5, 0, false⟩
  (.node ⟨.follow, 232, 44, 27, 0, 0, false⟩ .none .none) .none) (.node
  ⟨.run, 0, 3, 75, 3, 0, false⟩ (.node ⟨.track, 224, 22, 63, 0, 5, false⟩ .none .none) .none))))
  (.node ⟨.follow, 44, 2, 30, 2, 0, false⟩ (.node ⟨.track, 62, 35, 36, 0, 5, false⟩ (.node
  ⟨.come, 76, 26, 45, 5, 0, false⟩ (.node ⟨.follow, 119, 28, 66, 2, 0, false⟩ (.node
  ⟨.come, 205, 38, 56, 3, 0, false⟩ .none .none) .none) (.node ⟨.track, 162, 23, 57, 0, 0, false⟩
  (.node ⟨.leave, 251, 37, 55, 1, 0, false⟩ .none .none) .none)) (.node
  ⟨.come, 98, 56, 41, 2, 0, false⟩ (.node ⟨.run, 0, 7, 30, 3, 0, false⟩ (.node
  ⟨.come, 226, 47, 69, 3, 0, false⟩ .none .none) .none) (.node ⟨.track, 191, 9, 54, 0, 0, false⟩
  (.node ⟨.follow, 253, 38, 41, 2, 0, false⟩ .none .none) .none))) (.node
  ⟨.run, 0, 33, 44, 8, 0, false⟩ (.node ⟨.follow, 87, 48, 47, 2, 0, false⟩ (.node
  ⟨.follow, 132, 19, 20, 4, 0, false⟩ (.node ⟨.track, 217, 15, 2, 0, 4, false⟩ .none .none) .none)
  (.node ⟨.follow, 171, 19, 12, 4, 0, false⟩ (.node ⟨.come, 270, 52, 30, 5, 0, false⟩ .none .none)
  .none)) (.node ⟨.come, 108, 58, 17, 5, 0, false⟩ (.node ⟨.track, 153, 26, 58, 0, 4, false⟩ (.node
  ⟨.follow, 45, 20, 31, 2, 0, false⟩ .none .none) .none) (.node ⟨.follow, 191, 9, 47, 2, 0, false⟩
  (.node ⟨.come, 21, 26, 75, 5, 0, false⟩ .none .none) .none))))) (.node
  ⟨.run, 0, 18, 9, 2, 0, false⟩ (.node ⟨.run, 0, 25, 26, 8, 0, false⟩ (.node
  ⟨.come, 55, 33, 2, 6, 0, false⟩ (.node ⟨.come, 71, 30, 33, 5, 0, false⟩ (.node
  ⟨.track, 116, 55, 37, 0, 0, false⟩ (.node ⟨.leave, 204, 53, 65, 1, 0, false⟩ .none .none) .none)
  (.node ⟨.track, 144, 30, 68, 0, 0, false⟩ (.node ⟨.track, 253, 38, 35, 0, 0, false⟩ .none .none)
  .none)) (.node ⟨.come, 85, 31, 25, 10, 0, false⟩ (.node ⟨.come, 140, 58, 26, 5, 0, false⟩ (.node
  ⟨.come, 22, 75, 26, 5, 0, false⟩ .none .none) .none) (.node ⟨.follow, 179, 27, 74, 0, 0, false⟩
  (.node ⟨.follow, 224, 22, 33, 3, 0, false⟩ .none .none) .none))) (.node
  ⟨.come, 41, 25, 19, 7, 0, false⟩ (.node ⟨.come, 84, 12, 25, 10, 0, false⟩ (.node
  ⟨.track, 130, 22, 58, 0, 4, false⟩ (.node ⟨.run, 0, 14, 22, 9, 0, false⟩ .none .none) .none)
  (.node ⟨.follow, 170, 23, 30, 2, 0, false⟩ (.node ⟨.come, 263, 69, 72, 2, 0, false⟩ .none .none)
  .none)) (.node ⟨.run, 0, 59, 60, 7, 0, false⟩ (.node ⟨.follow, 150, 43, 54, 0, 0, false⟩ (.node
  ⟨.follow, 208, 22, 17, 3, 0, false⟩ .none .none) .none) (.node
  ⟨.follow, 182, 15, 20, 4, 0, false⟩ (.node ⟨.leave, 286, 43, 57, 1, 0, false⟩ .none .none)
  .none)))) (.node ⟨.follow, 43, 30, 2, 2, 0, false⟩ (.node ⟨.track, 61, 37, 40, 0, 4, false⟩
  (.node ⟨.follow, 73, 17, 26, 2, 0, false⟩ (.node ⟨.come, 124, 22, 58, 6, 0, false⟩ (.node
  ⟨.track, 209, 26, 14, 0, 8, false⟩ .none .none) .none) (.node ⟨.run, 0, 11, 23, 3, 0, false⟩
  (.node ⟨.track, 258, 72, 69, 0, 1, false⟩ .none .none) .none)) (.node
  ⟨.track, 47, 31, 2, 0, 4, false⟩ (.node ⟨.track, 114, 48, 69, 0, 1, false⟩ (.node
  ⟨.follow, 193, 19, 15, 4, 0, false⟩ .none .none) .none) (.node ⟨.track, 193, 19, 75, 0, 4, false⟩
  (.node ⟨.come, 281, 63, 19, 6, 0, false⟩ .none .none) .none))) (.node
  ⟨.run, 0, 45, 20, 6, 0, false⟩ (.node ⟨.follow, 92, 51, 52, 4, 0, false⟩ (.node
  ⟨.run, 0, 68, 45, 3, 0, false⟩ (.node ⟨.come, 220, 3, 23, 1, 0, false⟩ .none .none) .none) (.node
  ⟨.come, 175, 26, 23, 5, 0, false⟩ (.node ⟨.follow, 274, 44, 18, 0, 0, false⟩ .none .none) .none))
  (.node ⟨.run, 0, 62, 2, 3, 0, false⟩ (.node ⟨.follow, 156, 9, 72, 2, 0, false⟩ (.node
  ⟨.leave, 239, 45, 52, 0, 3, false⟩ .none .none) .none) (.node ⟨.track, 9, 75, 62, 0, 0, false⟩
  (.node ⟨.track, 13, 25, 0, 0, 17, false⟩ .none .none) .none)))))))

/-- the bounds of the departures -/
def real6Times : TimeTree :=
  .node 10 0 10 (.node 54 0 94 (.node 5 0 45 (.node 10 0 50 (.node 29 0 69 (.node 46 0 86 (.node 51
  0 91 .none .none) .none) (.node 52 0 92 .none .none)) (.node 34 0 74 (.node 36 4 76 (.node 2 0 42
  .none .none) .none) (.node 37 6 77 .none .none))) (.node 17 0 57 (.node 41 0 81 (.node 32 0 72
  (.node 84 6 124 .none .none) .none) (.node 41 0 81 .none .none)) (.node 70 0 110 (.node 44 4 84
  (.node 22 0 62 .none .none) .none) (.node 53 0 93 .none .none)))) (.node 39 0 79 (.node 49 0 89
  (.node 40 0 80 (.node 57 0 97 (.node 53 4 93 .none .none) .none) (.node 54 7 94 .none .none))
  (.node 51 0 91 (.node 34 0 74 (.node 67 4 107 .none .none) .none) (.node 35 0 75 .none .none)))
  (.node 32 0 72 (.node 59 6 99 (.node 30 0 70 (.node 50 0 90 .none .none) .none) (.node 49 0 89
  .none .none)) (.node 75 6 115 (.node 45 0 85 .none .none) (.node 65 4 105 .none .none))))) (.node
  57 0 97 (.node 57 0 97 (.node 49 0 89 (.node 39 4 79 (.node 65 4 105 (.node 72 0 112 .none .none)
  .none) (.node 51 0 91 .none .none)) (.node 51 4 91 (.node 25 0 65 (.node 63 0 103 .none .none)
  .none) (.node 34 0 74 .none .none))) (.node 64 0 104 (.node 51 0 91 (.node 22 0 62 (.node 42 0 82
  .none .none) .none) (.node 42 0 82 .none .none)) (.node 72 0 112 (.node 65 4 105 (.node 61 0 101
  .none .none) .none) (.node 61 0 101 .none .none)))) (.node 65 0 105 (.node 52 6 92 (.node 47 0 87
  (.node 76 4 116 (.node 81 0 121 .none .none) .none) (.node 56 4 96 .none .none)) (.node 59 0 99
  (.node 37 6 77 (.node 79 0 119 .none .none) .none) (.node 46 0 86 .none .none))) (.node 27 0 67
  (.node 36 0 76 (.node 32 0 72 (.node 10 0 50 .none .none) .none) (.node 50 0 90 .none .none))
  (.node 39 0 79 (.node 72 4 112 .none .none) (.node 40 0 80 .none .none)))))

/-- some of the cases -/
def real6Case0 : SumTree :=
  .cases [277, 278, 355, 152, 56, 17, 28] 16 (.leaf [232, 240, 277, 293]) (.cases [11] 17 (.leaf
  [189, 277, 293]) (.cases [15] 29 (.leaf [35, 12, 13, 14, 6]) (.cases [] 113 (.leaf [301, 293])
  (.cases [300, 12, 33, 13, 28, 14, 6] 68 (.cases [] 18 (.leaf [153, 12, 33, 13, 28, 14, 6])
  (.cases [16, 17] 103 (.cycle 14 [300, 12, 268]) (.cases [] 22 (.cases [53, 27, 28] 73 (.cases []
  35 (.cases [70, 58] 39 (.cases [81, 23, 24, 25] 43 (.cases [90, 91] 44 (.leaf [93, 47, 48, 49])
  (.cycle 40 [177, 178, 179])) (.leaf [88, 89])) (.leaf [80, 13, 14, 6])) (.cases [66, 27, 28] 30
  (.cases [46, 47, 48, 49] 39 (.leaf [81, 23, 24, 25]) (.leaf [80, 13, 14, 6])) (.leaf
  [42, 43, 44, 45]))) (.leaf [175, 176, 43, 44, 45])) (.cycle 13 [33, 68, 163, 267])))) (.leaf
  [162, 62, 17])))))

/-- some of the cases -/
def real6Case1 : SumTree :=
  .cases [232, 10, 369, 278, 271, 355, 152, 276, 56, 17, 28, 20] 104 (.cycle 14 [271, 22, 270])
  (.cases [] 111 (.cases [363, 304, 56, 269, 355, 152, 276, 17, 28, 20] 27 (.cases [38, 31, 41] 20
  (.cases [54, 20] 42 (.leaf [102, 22, 54, 23, 20, 24, 25]) (.cases [87, 28] 51 (.leaf
  [129, 130, 304, 293]) (.cases [127, 118, 119] 83 (.cases [] 65 (.cases [] 85 (.cases [] 19
  (.cases [] 138 (.cycle 2 [360, 269, 54, 223]) (.cases [] 88 (.leaf
  [226, 19, 55, 20, 56, 359, 31, 41]) (.cycle 33 [304, 355, 155, 225]))) (.leaf
  [18, 19, 20, 218, 41])) (.cycle 2 [31, 216, 217])) (.leaf [154, 17])) (.leaf [211])))) (.leaf
  [21, 22, 23, 24, 25])) (.leaf [57, 304, 293])) (.cases [358, 370, 58] 41 (.cases [] 138 (.cases
  [360, 56, 373, 269, 358, 370, 23, 58, 24, 25] 20 (.cases [54, 20] 42 (.leaf [102, 54, 20])
  (.cases [87, 28] 51 (.cases [] 30 (.leaf [46, 47, 48, 49]) (.leaf [42, 43, 44, 45])) (.leaf
  [127, 118, 119]))) (.leaf [21, 22, 23, 24, 25])) (.cases [359, 31, 41] 83 (.cases [] 49 (.cases
  [] 33 (.cases [] 65 (.cases [155, 19, 20] 20 (.cases [] 22 (.cases [53, 27] 42 (.leaf
  [102, 103, 54, 41, 20]) (.cases [] 51 (.cases [129, 130, 58] 40 (.leaf [104, 54, 87, 20, 28])
  (.cases [82, 17, 155, 53, 19, 27, 20, 28] 30 (.cases [46, 47, 48, 49] 84 (.leaf [215, 19, 20])
  (.leaf [214, 27, 28])) (.leaf [42, 43, 44, 45]))) (.cases [127, 118, 119] 40 (.leaf
  [104, 54, 87, 20, 28]) (.cases [82, 17, 155, 53, 19, 27, 20, 28] 30 (.cases [46, 47, 48, 49] 97
  (.leaf [251, 89]) (.leaf [249, 6])) (.leaf [42, 43, 44, 45]))))) (.cases
  [34, 68, 17, 155, 19, 20] 85 (.cases [] 68 (.cases [163, 56] 19 (.leaf
  [55, 56, 358, 359, 58, 31, 41]) (.leaf [18, 19, 20, 218, 41])) (.leaf
  [162, 62, 17, 155, 19, 20])) (.cycle 2 [31, 216, 217]))) (.leaf [21, 22, 103, 23, 41, 24, 25]))
  (.cases [154, 196, 17] 71 (.leaf [169]) (.cases [] 40 (.leaf [104, 22, 103, 23, 41, 24, 25])
  (.cases [] 20 (.cases [54, 20] 42 (.leaf [102, 54, 20, 154, 17]) (.cases [87, 28] 22 (.cycle 20
  [53, 168, 62]) (.cases [] 68 (.cycle 25 [54, 196, 163, 269]) (.leaf [162, 62, 69, 17, 58]))))
  (.leaf [21, 22, 82, 23, 17, 24, 25]))))) (.leaf [63, 62, 17, 112, 31, 41])) (.leaf [111, 17]))
  (.leaf [211]))) (.leaf [86, 22, 23, 24, 25])))

/-- some of the cases -/
def real6Case2 : SumTree :=
  .cases [289, 56] 65 (.cases [] 83 (.cases [] 22 (.cases [] 34 (.cycle 20 [53, 67, 268, 355])
  (.cases [65, 27, 28] 79 (.cases [200, 19, 20] 42 (.cases [102, 22, 23, 24, 25] 28 (.leaf
  [37, 201, 20, 213, 126, 31, 41]) (.leaf [32, 28, 102, 22, 23, 24, 25])) (.cases [87, 28] 20
  (.cases [54, 20] 69 (.leaf [184, 117, 118, 119]) (.cases [] 85 (.cases [218, 41] 80 (.cases [] 61
  (.cases [] 28 (.cases [37, 20, 218, 41] 46 (.leaf [101, 58]) (.cases [] 88 (.cases [] 35 (.leaf
  [70, 58, 226, 19, 20, 218, 41]) (.leaf [66, 27, 28, 37, 20, 218, 41])) (.cycle 25
  [87, 201, 225, 100]))) (.cases [32, 28] 51 (.cases [129, 130, 58] 45 (.cases [97, 98, 99, 91] 46
  (.leaf [101, 58]) (.leaf [181, 100, 23, 54, 24, 20, 218, 32, 25, 41, 28])) (.leaf
  [94, 95, 96, 89])) (.cases [] 111 (.leaf [363, 304, 56, 355, 104, 54, 20, 32, 28]) (.cases [] 64
  (.cycle 63 [127, 151, 278, 370]) (.cycle 22 [150, 149]))))) (.leaf [142, 205])) (.cases
  [202, 116, 117, 118, 119] 111 (.leaf [363, 304, 56, 355, 104, 87, 54, 28, 20]) (.cases [] 46
  (.leaf [101, 58]) (.cases [] 52 (.leaf [128, 130, 58, 181, 100, 23, 87, 54, 24, 28, 20, 25])
  (.cases [] 19 (.leaf [55, 56, 358, 120, 117, 118, 119]) (.cases [18, 202, 116, 117, 118, 119] 142
  (.cases [] 88 (.leaf [226, 19, 202, 20, 116, 375, 117, 118, 119]) (.leaf [225, 58])) (.leaf
  [374, 116, 117, 166, 118, 23, 119, 24, 25]))))))) (.cycle 2 [31, 216, 217]))) (.leaf
  [21, 22, 87, 23, 28, 24, 25]))) (.cycle 20 [155, 199, 268, 355]))) (.cycle 45
  [64, 268, 152, 68])) (.cycle 2 [211, 212])) (.cycle 45 [64, 268, 276, 196])

/-- some of the cases -/
def real6Case3 : SumTree :=
  .cases [] 65 (.cases [] 83 (.cases [] 20 (.cases [54, 20] 85 (.cases [218, 223, 41] 29 (.cases
  [35, 12, 13, 14, 6] 64 (.leaf [151, 278, 152, 56, 35, 12, 189, 20, 13, 14, 6]) (.cases [] 61
  (.cycle 58 [149, 150]) (.leaf [142, 117, 118, 119]))) (.cases [] 22 (.cases [] 42 (.cases [] 71
  (.leaf [169, 170, 27, 28, 102, 22, 54, 23, 20, 218, 24, 41, 25]) (.cycle 20 [53, 168, 62]))
  (.cases [87, 28] 39 (.cases [] 50 (.cases [] 36 (.cases [] 25 (.cases [] 69 (.leaf
  [184, 117, 118, 119]) (.cases [] 18 (.leaf [153, 12, 13, 79, 51, 14, 54, 31, 6, 20, 41]) (.cases
  [] 28 (.cases [37, 20, 218, 41] 64 (.leaf [151, 278, 56, 310, 267, 13, 16, 14, 17, 104, 6, 87,
  28, 37, 20]) (.cases [] 61 (.cycle 58 [149, 150]) (.leaf [142, 117, 118, 119]))) (.cases [32, 28]
  31 (.cases [] 46 (.leaf [101, 58]) (.cases [] 76 (.cycle 26 [186, 166]) (.cases [] 34 (.cycle 25
  [54, 197, 67, 71, 100]) (.cases [] 139 (.cycle 25 [364, 185]) (.cases [] 80 (.cases [] 53 (.leaf
  [124, 205]) (.cases [] 61 (.cases [149, 56, 310, 267, 13, 16, 14, 17, 104, 6, 22, 54, 23, 20,
  218, 32, 24, 41, 28, 25] 35 (.cycle 25 [54, 197, 70, 100]) (.cases [] 135 (.leaf
  [356, 95, 96, 89]) (.leaf [349, 149, 56, 310, 267, 13, 16, 14, 17, 104, 6, 22, 54, 23, 20, 32,
  24, 28, 25]))) (.leaf [142, 205, 122, 206, 13, 65, 19, 14, 27, 20, 6, 28]))) (.cases [] 19
  (.cycle 20 [155, 55, 267, 16]) (.leaf
  [18, 202, 116, 117, 118, 361, 119, 54, 20, 218, 32, 41, 28]))))))) (.leaf
  [59, 60, 13, 16, 14, 104, 6, 54, 20, 32, 28]))))) (.cycle 25 [54, 223, 39, 79])) (.cycle 26
  [72, 13, 81])) (.leaf [115, 116, 117, 118, 119])) (.leaf [80, 13, 14, 6]))) (.cycle 45
  [163, 267, 33, 68]))) (.cycle 12 [216, 217, 31])) (.cases [] 29 (.leaf
  [35, 12, 189, 13, 20, 21, 14, 22, 6, 23, 24, 25]) (.cases [] 22 (.cases [] 71 (.cases [169, 170]
  19 (.cases [] 18 (.leaf [153, 12, 189, 13, 20, 21, 14, 22, 6, 23, 24, 25]) (.cycle 20
  [155, 55, 267, 16])) (.cases [18, 19, 20, 21, 22, 23, 24, 25] 84 (.cases [] 28 (.cases [] 60
  (.leaf [141, 56, 310, 18, 13, 19, 14, 20, 21, 6, 22, 23, 24, 25]) (.leaf
  [140, 27, 28, 37, 20, 21, 22, 23, 24, 25])) (.cycle 23 [19, 197, 215])) (.leaf [214, 27, 28])))
  (.cycle 20 [53, 168, 62])) (.cycle 45 [163, 267, 33, 68])))) (.cycle 2 [211, 212])) (.cycle 45
  [163, 267, 189, 196])

/-- some of the cases -/
def real6Case4 : SumTree :=
  .cases [15, 12, 13, 14, 6] 20 (.leaf [54, 15]) (.cases [] 18 (.cases [153, 12, 13, 14, 6] 24
  (.leaf [52, 20, 15, 21, 12, 22, 13, 23, 14, 24, 6, 25]) (.cases [] 28 (.cycle 19 [20, 36, 37])
  (.cases [32] 22 (.cases [53, 27] 29 (.cases [35, 12, 145, 13, 41, 14, 6] 39 (.leaf
  [81, 23, 24, 25]) (.cases [] 60 (.cases [141, 56] 42 (.leaf [102, 22, 23, 24, 80, 25, 13, 14, 6])
  (.leaf [87, 35])) (.leaf [140, 27, 35]))) (.cases [33, 28] 53 (.leaf [124, 117, 118, 119])
  (.cases [] 69 (.leaf [184, 117, 122, 118, 13, 119, 14, 6]) (.cases [] 71 (.cases [169, 170] 55
  (.cases [132] 51 (.cases [129, 130, 58] 80 (.leaf [205, 206, 19, 15, 12, 33, 13, 28, 14, 6])
  (.cases [] 61 (.cases [] 75 (.leaf [188, 19, 202, 20, 15, 116, 12, 33, 149, 13, 28, 56, 14, 6])
  (.cases [] 65 (.cycle 20 [155, 187, 62]) (.cases [] 64 (.cycle 59 [151, 276, 196, 132, 117])
  (.cycle 58 [149, 150])))) (.leaf [142, 117, 129, 130, 58]))) (.cases [] 60 (.cases [141, 56] 111
  (.leaf [363, 304, 56, 276, 20, 15, 12, 13, 14, 6]) (.cases [] 64 (.cycle 63
  [127, 151, 355, 53, 141, 370]) (.cases [] 78 (.cycle 17 [194, 122]) (.cases [] 76 (.cycle 26
  [186, 166]) (.cases [] 61 (.cycle 22 [150, 149]) (.leaf [142, 117, 118, 193, 185, 119, 12, 33,
  22, 13, 28, 23, 14, 24, 6, 25])))))) (.cases [140] 61 (.cases [] 111 (.leaf
  [363, 304, 56, 276, 20, 15, 12, 13, 14, 6]) (.cases [] 64 (.cycle 63 [127, 151, 278, 370])
  (.cycle 58 [149, 150]))) (.cases [142, 117, 118, 119] 82 (.leaf [209, 45]) (.cases [] 34 (.cases
  [] 38 (.cases [] 35 (.cases [70, 58] 30 (.cases [46, 47, 48, 49] 39 (.leaf [81, 23, 24, 25])
  (.leaf [80, 13, 14, 6])) (.leaf [42, 43, 44, 45, 208, 157, 158, 62, 163, 153, 56, 140, 142, 12,
  33, 70, 117, 13, 28, 58, 118, 14, 119, 6])) (.leaf [66, 27, 67, 77, 28, 13, 23, 14, 24, 6, 25]))
  (.leaf [75, 27, 67, 28, 13, 14, 6])) (.leaf [65, 27, 28])))))) (.leaf [131, 62, 163, 17, 104,
  153, 56, 22, 12, 33, 23, 13, 28, 24, 14, 25, 6])) (.cycle 20 [53, 168, 62]))))) (.cases [34, 68,
  17, 104, 153, 163, 22, 12, 145, 56, 23, 13, 41, 24, 14, 25, 6] 39 (.leaf [81, 23, 24, 25]) (.leaf
  [80, 13, 14, 6]))))) (.leaf [16, 17, 104, 22, 23, 24, 25]))

/-- some of the cases -/
def real6Case5 : SumTree :=
  .cases [155, 19, 20] 18 (.leaf [153, 12, 189, 13, 20, 14, 6]) (.cases [] 83 (.cases [] 42 (.cases
  [102, 22, 82, 23, 17, 155, 24, 19, 213, 25, 20, 126, 31, 41] 80 (.cases [] 46 (.leaf [101, 58])
  (.cases [] 64 (.leaf [151, 278, 152, 56, 102, 82, 17, 155, 19, 20]) (.cases [] 54 (.cases [] 27
  (.cases [] 61 (.cycle 58 [149, 150]) (.leaf [142, 117, 123, 118, 38, 119, 31, 41])) (.cycle 25
  [82, 155, 213, 126, 57, 100])) (.leaf [121, 205])))) (.leaf [202, 116, 117, 118, 119])) (.cases
  [87] 22 (.cases [53, 27, 28] 88 (.cases [226, 19, 213, 20, 126, 31, 41] 84 (.cases [] 70 (.leaf
  [165, 117, 118, 119]) (.cases [] 104 (.cycle 26 [270, 271, 22]) (.cases [] 28 (.cases [] 60
  (.cycle 25 [82, 53, 141, 269]) (.cases [] 61 (.cases [149, 56, 140, 27, 28] 53 (.leaf
  [124, 149, 56, 140, 27, 28, 37, 20]) (.cases [122, 13, 14, 6] 35 (.leaf
  [70, 226, 19, 213, 20, 126, 31, 41]) (.leaf [66, 27, 28, 37, 201, 213, 20, 126, 31, 41]))) (.leaf
  [142, 117, 164, 118, 27, 119, 28]))) (.cycle 23 [19, 197, 215])))) (.leaf [214, 27, 28])) (.cases
  [225, 58] 39 (.cases [] 46 (.cases [101, 58] 111 (.leaf [304, 293]) (.cases [] 80 (.cases [] 19
  (.cases [] 103 (.cases [] 79 (.cases [] 34 (.cycle 25 [82, 53, 67, 268, 271]) (.cases
  [65, 27, 28] 53 (.leaf [124, 117, 205, 118, 206, 119, 19, 55, 20, 56]) (.cases
  [122, 13, 200, 65, 14, 19, 55, 27, 6, 20, 56, 358, 28, 58] 135 (.leaf [356, 95, 96, 89]) (.leaf
  [349, 122, 13, 200, 65, 14, 19, 55, 27, 6, 20, 56, 358, 28, 58])))) (.cycle 25
  [82, 155, 199, 268, 271])) (.cycle 20 [155, 55, 267, 16])) (.cases [18, 19, 20] 103 (.cases
  [289, 56, 18, 19, 213, 225, 20, 126, 58, 31, 41] 23 (.cases [] 66 (.leaf [161, 49]) (.cases [] 61
  (.cases [] 34 (.cycle 25 [82, 53, 67, 268, 271]) (.cases [65, 27, 28] 35 (.cases [] 38 (.cases
  [77] 104 (.leaf [270, 293]) (.cases [] 76 (.cycle 26 [186, 149, 373]) (.cases [] 98 (.cases [] 51
  (.cases [129, 130, 58] 28 (.cases [37, 20] 85 (.cases [218, 41] 47 (.cases [] 48 (.leaf
  [108, 109]) (.cycle 56 [106, 107])) (.cycle 55 [105, 256])) (.cycle 2 [31, 216, 217])) (.leaf
  [32, 197, 28, 77, 101, 58])) (.cycle 26 [264, 127, 185, 22])) (.leaf [255, 48, 156, 157, 158, 64,
  13, 289, 65, 56, 18, 14, 27, 19, 6, 28, 20])))) (.leaf [75, 27, 70, 28, 58])) (.leaf
  [66, 27, 28]))) (.leaf [142, 205]))) (.leaf [113, 28])) (.cases [310, 13, 14, 6] 104 (.cycle 26
  [372, 310, 13, 81]) (.cases [] 60 (.cycle 20 [53, 141, 267, 16]) (.cases [140, 27, 28] 79 (.cases
  [200, 19, 213, 225, 20, 126, 58, 31, 41] 34 (.leaf [67, 13, 200, 14, 19, 6, 20]) (.cases
  [65, 27, 28] 27 (.leaf [38, 31, 41]) (.cases [] 26 (.leaf [50, 31, 57, 41, 58]) (.leaf
  [40, 101, 58])))) (.leaf [199, 13, 14, 81, 6, 101, 58])))))) (.cases [] 36 (.cases [] 79 (.cases
  [200, 19, 213, 202, 20, 126, 116, 117, 118, 119] 34 (.cycle 25 [82, 53, 67, 79]) (.cases
  [65, 27, 28] 54 (.cases [] 69 (.leaf [184, 117, 123, 118, 58, 119]) (.cases [166, 101] 27 (.leaf
  [38, 31, 41]) (.cases [] 26 (.leaf [50, 57, 58]) (.cases [] 50 (.leaf
  [125, 126, 31, 40, 41, 101, 58]) (.leaf [115, 116, 117, 166, 118, 101, 119, 58]))))) (.leaf
  [121, 117, 118, 119]))) (.cycle 25 [82, 155, 199, 79])) (.cycle 26 [72, 13, 81])))) (.cycle 25
  [82, 155, 225, 100])) (.leaf [80, 13, 14, 6]))) (.leaf
  [34, 68, 17, 155, 64, 163, 19, 13, 56, 20, 14, 6]))) (.cycle 2 [211, 212]))

/-- some of the cases -/
def real6Case6 : SumTree :=
  .cases [] 104 (.cycle 26 [270, 271, 22]) (.cycle 25 [54, 196, 163, 269])

/-- some of the cases -/
def real6Case7 : SumTree :=
  .cases [21, 22, 82, 23, 17, 24, 25] 104 (.cycle 14 [276, 21, 22, 270]) (.cases [] 18 (.leaf
  [153, 12, 13, 14, 6]) (.cases [] 103 (.cases [] 65 (.cycle 19 [21, 82, 248]) (.cycle 45
  [64, 268, 276, 196])) (.cases [] 29 (.cases [35, 12, 13, 14, 6] 86 (.cases [] 49 (.cases [] 24
  (.leaf [52, 20, 21, 82, 17]) (.cases [36, 35, 12, 16, 13, 17, 112, 14, 31, 6, 41] 61 (.cases
  [149, 56] 27 (.cases [38, 31, 41] 26 (.leaf [50, 31, 41]) (.leaf [40, 23, 24, 25])) (.leaf
  [57, 58])) (.leaf [142, 117, 118, 119]))) (.cycle 12 [133, 220, 31])) (.leaf
  [219, 62, 163, 17, 56, 310, 13, 14, 6])) (.cases [] 65 (.cycle 19 [21, 82, 248]) (.cases [] 22
  (.cases [] 63 (.cases [] 17 (.cycle 45 [163, 267, 189, 196]) (.leaf
  [15, 12, 146, 13, 22, 82, 14, 23, 17, 53, 6, 24, 27, 25, 28])) (.leaf
  [148, 12, 16, 13, 17, 53, 14, 27, 6, 28])) (.cycle 45 [163, 267, 33, 68]))))))

/-- some of the cases -/
def real6Case8 : SumTree :=
  .cases [149, 56, 162, 62, 64, 69, 17, 13, 58, 14, 6] 75 (.leaf [188, 19, 20]) (.cases [] 67
  (.cases [] 65 (.cycle 45 [62, 155, 187]) (.cases [] 78 (.cycle 58 [149, 162, 64, 194]) (.cases
  [193] 19 (.cases [] 18 (.leaf [153, 12, 13, 14, 6]) (.cases [] 29 (.cases [] 64 (.leaf
  [151, 278, 152, 56, 35, 12, 16, 17, 13, 14, 6]) (.cycle 58 [149, 150])) (.cases [] 17 (.cases
  [189, 20] 31 (.cases [71, 58] 36 (.cases [78] 46 (.cases [101, 58] 28 (.cycle 13
  [33, 201, 55, 267]) (.leaf [32, 28])) (.leaf [181, 23, 24, 25])) (.leaf
  [73, 33, 189, 28, 20, 154, 17])) (.cycle 45 [69, 60, 189, 196])) (.cases
  [15, 12, 33, 13, 28, 14, 6] 39 (.leaf [81, 23, 24, 25]) (.leaf [80, 13, 14, 6]))))) (.leaf
  [18, 19, 20, 154, 196, 64, 17, 13, 14, 6])))) (.leaf [159, 6]))

/-- some of the cases -/
def real6Case9 : SumTree :=
  .cases [51, 31, 41] 83 (.cases [] 85 (.cases [] 41 (.cases [] 29 (.cases
  [35, 12, 13, 51, 14, 31, 6, 41] 39 (.leaf [81, 23, 24, 25]) (.cases [80, 13, 51, 14, 31, 6, 41]
  45 (.cases [97, 98, 99, 91] 28 (.leaf [37, 20]) (.leaf [32, 35, 12, 13, 51, 14, 31, 6, 41]))
  (.leaf [94, 95, 96, 89]))) (.cases [33] 17 (.cases [189, 20] 50 (.cases [] 31 (.cases [71, 58] 79
  (.leaf [200, 19, 20, 218, 41]) (.cases [] 39 (.cases [] 55 (.cases [132, 117, 118, 119] 20
  (.cases [54, 20] 73 (.cases [] 54 (.cases [] 40 (.leaf [104, 54, 20]) (.cases [] 42 (.leaf
  [102, 54, 82, 20, 17]) (.cases [87, 28] 43 (.cases [] 44 (.cases [93, 47, 48, 49] 45 (.cases
  [97, 98, 99, 91] 36 (.leaf [79, 54, 87, 20, 28]) (.cycle 17 [13, 81, 72])) (.leaf
  [94, 95, 96, 89])) (.cycle 40 [177, 178, 179])) (.leaf [88, 89])))) (.leaf
  [121, 117, 125, 118, 126, 119, 31, 41])) (.leaf [175, 176, 43, 44, 45])) (.cases
  [21, 22, 23, 24, 25] 40 (.leaf [104, 22, 103, 23, 41, 24, 25]) (.cases [82, 17] 30 (.cases
  [46, 47, 48, 49] 43 (.cases [] 45 (.cases [97, 98, 99, 91] 47 (.cases [] 52 (.leaf
  [128, 130, 58]) (.cases [120, 117, 118, 119] 48 (.leaf [108, 109]) (.cycle 56 [106, 107])))
  (.leaf [105, 48, 49])) (.leaf [94, 95, 96, 89])) (.leaf [88, 89])) (.leaf [42, 43, 44, 45]))))
  (.cases [131, 62, 17] 75 (.leaf [188, 19, 199, 20, 13, 71, 14, 58, 6]) (.cases [] 80 (.leaf
  [205, 206, 19, 187, 20, 62, 64, 17, 13, 14, 6]) (.cases [] 65 (.cycle 58 [131, 62, 155, 227])
  (.cases [] 78 (.cycle 58 [131, 64, 194]) (.leaf
  [193, 12, 33, 189, 13, 28, 20, 154, 14, 17, 6])))))) (.leaf
  [80, 13, 51, 71, 14, 31, 58, 6, 41]))) (.leaf [59, 60, 13, 51, 33, 189, 14, 31, 28, 20, 6, 41]))
  (.cases [115, 116, 117, 118, 119] 39 (.cases [] 75 (.leaf [188, 19, 20]) (.cases [] 31 (.cases
  [71] 36 (.cases [] 65 (.cycle 45 [62, 155, 187]) (.cases [] 52 (.leaf [128, 130, 58]) (.cases []
  76 (.cases [] 54 (.cycle 58 [123, 120]) (.cases [] 69 (.cases [] 27 (.cases [38, 31, 41] 26
  (.cases [] 20 (.cycle 45 [64, 79, 54, 196]) (.leaf
  [21, 22, 50, 31, 115, 41, 116, 117, 118, 119])) (.leaf [40, 184, 117, 118, 119])) (.leaf
  [57, 58, 121, 117, 118, 119])) (.cycle 58 [166, 186]))) (.leaf [185, 22, 23, 24, 25])))) (.cycle
  17 [13, 81, 72])) (.leaf [59, 60, 13, 51, 189, 14, 115, 20, 6, 116, 117, 118, 119]))) (.leaf
  [80, 13, 51, 14, 31, 115, 6, 41, 116, 117, 118, 119]))) (.cases
  [15, 12, 33, 13, 51, 28, 14, 31, 6, 41] 30 (.leaf [46, 47, 48, 49]) (.leaf [42, 43, 44, 45]))))
  (.leaf [86, 22, 23, 24, 25])) (.cycle 2 [31, 216, 217])) (.leaf [211])

/-- some of the cases -/
def real6Case10 : SumTree :=
  .cases [39, 13, 14, 6] 79 (.leaf [200, 19, 20]) (.cases [] 88 (.leaf
  [226, 19, 199, 20, 13, 14, 6]) (.cases [] 41 (.cases [] 27 (.cases [38, 31, 39, 41, 13, 14, 6] 39
  (.leaf [81, 23, 24, 25]) (.cases [] 75 (.leaf [188, 19, 225, 20, 38, 39, 13, 14, 6]) (.cases []
  67 (.cases [] 31 (.cycle 33 [38, 39, 71]) (.cases [] 65 (.cycle 45 [62, 155, 187]) (.cases [] 22
  (.cycle 45 [62, 53, 168]) (.cases [] 24 (.leaf [52, 20, 154, 17]) (.cases [36] 26 (.cases [] 18
  (.leaf [153, 12, 145, 13, 41, 14, 6]) (.cases [] 29 (.leaf [35, 16, 17]) (.cycle 45
  [69, 60, 33, 68]))) (.leaf [40, 23, 24, 80, 25, 13, 14, 6])))))) (.leaf [159, 6])))) (.cases
  [57, 58] 83 (.cases [] 85 (.cases [] 31 (.cases [71, 58] 18 (.leaf [153, 12, 145, 13, 41, 14, 6])
  (.cases [] 50 (.cases [] 78 (.cycle 2 [39, 194, 180]) (.cases [193, 16, 17] 80 (.leaf
  [205, 206, 19, 20, 223, 39, 13, 71, 14, 58, 6]) (.cases [] 59 (.cases [] 65 (.cycle 58
  [117, 193, 16, 155, 227]) (.cases [] 40 (.leaf [104, 22, 23, 24, 25]) (.cases [] 42 (.cases
  [102, 22, 82, 23, 17, 24, 25] 47 (.cases [] 24 (.leaf [52, 20]) (.cases
  [36, 102, 22, 82, 23, 17, 24, 25] 48 (.leaf [108, 109]) (.cycle 56 [106, 107]))) (.leaf
  [105, 48, 49])) (.cases [87] 49 (.cases [] 28 (.leaf [37, 20, 154, 17, 112, 39, 13, 14, 6])
  (.cases [] 17 (.leaf [189, 20, 197, 198, 158, 62, 17, 112, 39, 13, 14, 6]) (.cases
  [15, 12, 16, 13, 71, 17, 14, 58, 6] 29 (.leaf [35, 12, 16, 13, 17, 14, 6]) (.leaf [33, 28]))))
  (.leaf [111, 133, 17, 64, 13, 71, 58, 14, 6]))))) (.leaf [137, 25])))) (.cases
  [115, 116, 117, 118, 119] 75 (.leaf [188, 19, 20, 223, 39, 115, 13, 116, 14, 117, 6, 118, 119])
  (.cases [] 55 (.cases [] 65 (.cycle 45 [62, 155, 187]) (.cases [] 49 (.cases [] 40 (.leaf
  [104, 22, 23, 24, 25]) (.cases [] 20 (.leaf
  [54, 20, 154, 17, 112, 39, 115, 13, 116, 14, 117, 6, 118, 119]) (.leaf [21, 82, 17, 112, 39, 115,
  13, 71, 116, 14, 58, 117, 6, 118, 119]))) (.leaf
  [111, 133, 17, 64, 132, 13, 117, 14, 118, 6, 119]))) (.leaf [131, 62, 64, 17, 13, 14, 6])))))
  (.cases [59, 13, 14, 6] 75 (.leaf [188, 19, 20, 223, 57, 58, 59, 13, 14, 6]) (.cases [] 65
  (.cycle 45 [62, 155, 187]) (.cases [] 23 (.cases [] 40 (.leaf [104, 22, 23, 24, 25]) (.cases []
  17 (.cycle 2 [57, 60, 189, 223]) (.cases [] 20 (.leaf [54, 20, 154, 15, 17, 12, 13, 14, 6])
  (.cases [21, 82, 17] 42 (.cases [102, 22, 82, 23, 17, 24, 25] 39 (.leaf [81, 23, 24, 25]) (.leaf
  [80, 13, 14, 6])) (.leaf [87, 28, 114, 110, 41, 57, 59, 13, 14, 6]))))) (.cycle 12
  [29, 198, 158, 69, 60, 145]))))) (.cycle 12 [216, 217, 31])) (.cycle 2 [211, 212]))) (.leaf
  [86, 22, 23, 24, 25])))

/-- some of the cases -/
def real6Case11 : SumTree :=
  .cases [63, 62, 64, 17, 13, 14, 6] 43 (.cases [90, 91] 44 (.cases [93, 47, 48] 47 (.cases [] 48
  (.leaf [108, 109]) (.cycle 56 [106, 107])) (.leaf [105, 48, 49])) (.leaf [92, 43, 44, 45]))
  (.leaf [88, 89])

/-- some of the cases -/
def real6Case12 : SumTree :=
  .cases [363, 304, 56, 355, 152, 276, 17, 28, 20] 104 (.cycle 14 [271, 22, 270]) (.cases [] 27
  (.cases [38, 31, 41] 42 (.leaf [102, 22, 23, 24, 25]) (.cases [] 33 (.cases [] 22 (.cycle 33
  [304, 355, 53, 168, 69]) (.cycle 33 [363, 269, 87, 68, 69])) (.leaf [63, 62, 163, 17, 56])))
  (.leaf [57, 304, 293]))

/-- some of the cases -/
def real6Case13 : SumTree :=
  .cases [360, 56, 358, 58] 41 (.cases [] 64 (.cases [151, 355, 152, 276, 17, 28, 20] 104 (.cycle
  14 [271, 22, 270]) (.cases [] 49 (.cases [] 40 (.leaf [104, 22, 23, 24, 25]) (.cycle 2
  [360, 269, 82, 112])) (.cycle 12 [133, 163, 269, 103]))) (.cases [] 50 (.cycle 2 [360, 150, 180])
  (.cases [115, 116, 117, 118, 119] 42 (.cases [] 104 (.cycle 14 [152, 102, 22, 270]) (.cases [] 49
  (.cases [] 40 (.leaf [104, 22, 103, 23, 41, 24, 25]) (.cycle 25 [82, 112, 360, 269])) (.cycle 25
  [103, 133, 163, 269]))) (.cases [87] 55 (.cases [] 83 (.cases [] 49 (.cases [] 85 (.cases [] 23
  (.cases [] 20 (.cases [54, 20] 65 (.cases [] 22 (.cycle 45 [62, 53, 168]) (.leaf
  [34, 17, 155, 19, 20, 223, 360, 56, 358, 58])) (.leaf
  [154, 17, 112, 360, 115, 56, 358, 116, 58, 117, 118, 119])) (.leaf [21, 22, 87, 23, 28, 114, 110,
  24, 41, 360, 115, 25, 56, 116, 117, 118, 119])) (.cycle 12 [29, 168, 62, 371])) (.cycle 12
  [216, 217, 31])) (.leaf [111, 133, 17, 163, 132, 56, 358, 117, 58, 118, 119])) (.cycle 2
  [211, 212])) (.cycle 58 [131, 163, 150]))))) (.leaf [86, 22, 23, 24, 25])

/-- some of the cases -/
def real6Case14 : SumTree :=
  .cases [359, 31, 41] 83 (.cases [] 64 (.cases [151, 278, 271, 355, 152, 276, 56, 358, 359, 22,
  17, 28, 20, 58, 31, 41] 59 (.cases [] 85 (.cases [] 20 (.cases [54, 20] 42 (.leaf
  [102, 54, 20, 218, 41]) (.cases [87, 28] 40 (.leaf [104, 54, 87, 20, 28]) (.cases [82, 17] 26
  (.cases [50, 31, 41] 51 (.leaf [129, 130, 58]) (.cycle 59 [151, 278, 370, 127])) (.leaf
  [40, 23, 24, 25])))) (.leaf [21, 22, 23, 24, 25])) (.cycle 2 [31, 216, 217])) (.leaf [137, 25]))
  (.cases [150, 117, 118, 119] 41 (.cases [] 61 (.cycle 22 [150, 149]) (.cases [142, 117, 118, 119]
  20 (.cases [54, 20] 51 (.leaf [129, 130, 58]) (.cases [] 50 (.cases [] 40 (.leaf
  [104, 22, 54, 23, 20, 24, 25]) (.cases [82, 17] 42 (.leaf [102, 54, 82, 20, 17]) (.cases [87, 28]
  52 (.cycle 59 [128, 127]) (.cases [] 54 (.cycle 58 [123, 120]) (.cases
  [121, 117, 125, 118, 126, 119, 31, 41] 30 (.cases [46, 47, 48, 49] 43 (.leaf [90, 91]) (.leaf
  [88, 89])) (.leaf [42, 43, 44, 45])))))) (.cases [115, 116, 117, 118, 119] 40 (.leaf
  [104, 103, 54, 41, 20]) (.cases [82, 17] 42 (.leaf [102, 54, 82, 20, 17]) (.cases [87, 28] 52
  (.cycle 59 [128, 127]) (.cases [] 54 (.cycle 58 [123, 120]) (.cases [] 27 (.cases
  [38, 31, 115, 41, 116, 117, 118, 119] 30 (.cases [46, 47, 48, 49] 43 (.leaf [90, 91]) (.leaf
  [88, 89])) (.leaf [42, 43, 44, 45])) (.leaf [57, 58, 121, 117, 118, 119])))))))) (.cases
  [21, 22, 23, 24, 25] 49 (.cases [] 19 (.cases [] 51 (.leaf [129, 130, 58]) (.cases [] 28 (.cases
  [37, 20, 21, 22, 23, 24, 25] 40 (.cases [] 75 (.leaf
  [188, 19, 55, 20, 21, 56, 358, 22, 103, 58, 23, 41, 24, 25]) (.cases [] 65 (.cycle 45
  [62, 155, 187]) (.cases [] 24 (.leaf
  [52, 20, 154, 196, 17, 104, 163, 22, 103, 56, 23, 41, 24, 25]) (.cycle 31 [37, 20, 36])))) (.leaf
  [82, 17])) (.cases [] 40 (.cases [104, 22, 23, 24, 25] 52 (.cycle 59 [128, 127]) (.cases [] 26
  (.leaf [50, 31, 41]) (.cases [] 50 (.cases [] 54 (.cycle 58 [123, 120]) (.cases
  [121, 117, 125, 118, 126, 119, 31, 40, 41, 23, 24, 25] 30 (.leaf [46, 47, 48, 49]) (.leaf
  [42, 43, 44, 45]))) (.cases [] 22 (.cycle 45 [62, 53, 168]) (.cases [] 34 (.cycle 14
  [276, 197, 67, 268]) (.leaf [65, 27, 28, 34, 68, 163, 17, 104, 56, 22, 103, 23, 41, 24, 25]))))))
  (.cases [82, 17] 46 (.leaf [101, 58]) (.cases [] 69 (.leaf [184, 117, 118, 119]) (.cases
  [166, 23, 24, 25] 27 (.cases [38, 31, 41] 26 (.leaf [50, 31, 41]) (.leaf [40, 23, 24, 25]))
  (.cycle 2 [57, 100, 82, 112]))))))) (.leaf [18, 19, 20, 21, 103, 41])) (.cycle 45
  [163, 359, 31, 133])))) (.leaf [86, 22, 23, 24, 25]))) (.leaf [211])

/-- some of the cases -/
def real6Case15 : SumTree :=
  .cases [] 62 (.cases [] 138 (.cases [360, 56, 162, 62, 147, 17, 84, 85] 111 (.leaf
  [304, 276, 20]) (.leaf [358, 58])) (.cases [] 111 (.leaf
  [363, 304, 56, 162, 359, 276, 62, 31, 20, 17, 41]) (.cases [] 64 (.leaf [151, 278, 152, 276, 56,
  162, 359, 358, 28, 20, 62, 31, 58, 17, 41]) (.cycle 58 [149, 150])))) (.cycle 6 [143, 144, 84])

/-- some of the cases -/
def real6Case16 : SumTree :=
  .cases [54, 20] 42 (.cases [102, 22, 54, 23, 20, 24, 25] 69 (.leaf [184, 117, 118, 119]) (.cases
  [] 41 (.cases [103, 41] 51 (.leaf [129, 130, 58]) (.cases [] 50 (.cases [] 52 (.cycle 59
  [128, 127]) (.cases [] 54 (.cycle 58 [123, 120]) (.leaf
  [121, 117, 166, 125, 118, 23, 126, 119, 24, 31, 25, 41]))) (.cases [115, 116, 117, 118, 119] 55
  (.cases [] 80 (.leaf [205]) (.cases [] 46 (.leaf [101, 264, 58, 127, 118, 119]) (.cases [] 65
  (.cases [] 88 (.leaf [226, 19, 202, 20, 116, 117, 166, 118, 23, 119, 24, 25]) (.cases [] 40
  (.leaf [104, 54, 103, 20, 41]) (.cycle 25 [82, 155, 225, 100]))) (.leaf
  [154, 196, 17, 132, 117, 118, 119])))) (.leaf [131, 62, 17])))) (.leaf
  [86, 22, 54, 23, 20, 24, 25]))) (.cases [87, 28] 22 (.cycle 45 [62, 53, 168]) (.cases [34, 17] 28
  (.cases [37, 201, 20] 83 (.cases [] 88 (.cases [226, 19, 213, 20, 126, 31, 41] 74 (.cases [] 30
  (.cases [46, 47, 48, 49] 95 (.leaf [250, 234, 91, 183, 56, 142, 117, 118, 119]) (.cases [] 45
  (.leaf [97, 98, 99, 91, 233, 6]) (.leaf [94, 95, 96, 89]))) (.leaf [42, 43, 44, 45])) (.leaf
  [182, 99, 91])) (.cases [225, 58] 80 (.cases [205, 206, 19, 213, 225, 20, 126, 58, 31, 41] 86
  (.cases [] 65 (.cases [] 52 (.cases [] 51 (.leaf [129, 130, 58]) (.cycle 59 [128, 127])) (.cycle
  58 [205, 206, 225, 120])) (.leaf [154, 196, 17, 220, 31, 41])) (.leaf [219, 62, 17])) (.cases
  [202, 116, 117, 118, 119] 62 (.cases [] 65 (.cases [155, 19, 213, 225, 202, 20, 126, 58, 116, 31,
  117, 41, 118, 119] 50 (.leaf [125, 126, 31, 41]) (.leaf [115, 116, 117, 118, 119])) (.cases
  [154, 196, 17] 33 (.cases [69, 58] 46 (.cases [] 76 (.cases [] 54 (.cases [] 69 (.leaf
  [184, 117, 123, 118, 58, 119]) (.cycle 58 [166, 186])) (.leaf [121, 117, 118, 119])) (.cycle 58
  [117, 185, 87, 201, 227])) (.cycle 19 [196, 69, 100, 54])) (.cases [63, 62, 147, 17, 84, 85] 30
  (.leaf [46, 47, 48, 49]) (.leaf [42, 43, 44, 45])))) (.cycle 6 [143, 144, 84])))) (.cycle 2
  [211, 212])) (.cases [32, 28, 34, 17] 50 (.cases [125, 126, 31] 27 (.cases [38, 31, 41] 104
  (.cycle 26 [270, 271, 22]) (.cases [] 49 (.cases [] 60 (.cycle 25 [54, 197, 141, 269]) (.cases
  [140] 35 (.cases [70] 54 (.cases [] 70 (.leaf [165, 117, 123, 118, 58, 38, 119, 31, 41]) (.leaf
  [164, 27, 70, 28, 34, 38, 17, 31, 41])) (.leaf [121, 117, 125, 118, 126, 119, 31, 41])) (.leaf
  [66, 27, 28, 34, 17]))) (.leaf [111, 17]))) (.cases [57, 58] 23 (.cases [114] 33 (.cases [] 49
  (.cases [112, 31, 57, 41, 58] 30 (.leaf [46, 47, 48, 49]) (.leaf [42, 43, 44, 45])) (.leaf
  [111, 133, 17, 69, 58])) (.leaf [63, 62, 17])) (.leaf [113, 28, 34, 17]))) (.cases
  [115, 116, 117, 118, 119] 104 (.cycle 26 [270, 271, 22]) (.cases [] 60 (.cycle 25
  [54, 197, 141, 269]) (.cases [] 27 (.leaf [38, 31, 115, 41, 116, 117, 118, 119]) (.cases [57, 58]
  74 (.cases [] 30 (.cases [46, 47, 48, 49] 95 (.leaf [234, 183, 56, 140, 27, 28, 34, 17]) (.cases
  [] 43 (.cases [] 45 (.leaf [97, 98, 99, 91, 233, 6]) (.leaf [94, 95, 96, 89, 90, 233, 6])) (.leaf
  [88, 89]))) (.leaf [42, 43, 44, 45])) (.leaf [182, 99, 91]))))))))

/-- some of the cases -/
def real6Case17 : SumTree :=
  .cases [21, 22, 23, 24, 25] 41 (.cases [103] 40 (.cases [104, 22, 103, 23, 41, 24, 25] 22 (.cycle
  45 [62, 53, 168]) (.cases [] 33 (.cases [69, 58] 103 (.cases [] 24 (.leaf [52, 20]) (.cases [] 60
  (.cases [] 34 (.cases [] 28 (.cycle 19 [20, 36, 37]) (.cycle 14 [276, 197, 67, 268])) (.leaf
  [65, 27, 141, 28, 56, 162, 62, 69, 17, 104, 58, 103, 41])) (.leaf
  [140, 27, 28, 34, 17, 104, 22, 23, 24, 25]))) (.cycle 13 [301, 278, 267])) (.leaf
  [63, 62, 17, 104, 22, 23, 24, 25]))) (.cases [] 28 (.cases [] 103 (.cases [] 19 (.cases [] 79
  (.leaf [200, 19, 55, 20, 21, 56, 142, 82, 117, 17, 118, 119]) (.cycle 14 [152, 201, 199, 268]))
  (.leaf [18, 19, 20, 21, 103, 82, 41, 17])) (.cycle 13 [301, 278, 267])) (.cases [] 42 (.cases []
  103 (.cases [] 60 (.cases [] 34 (.cycle 14 [276, 197, 67, 268]) (.leaf
  [65, 27, 141, 102, 56, 142, 103, 82, 117, 41, 17, 118, 119])) (.leaf
  [140, 27, 102, 103, 82, 41, 17])) (.cycle 13 [301, 278, 267])) (.cases [87, 28] 37 (.cases [] 22
  (.cycle 20 [53, 168, 62]) (.cases [34, 17] 26 (.leaf [50, 31, 41]) (.cases [] 122 (.leaf
  [323, 130, 58]) (.cases [] 51 (.leaf [129, 130, 322, 58, 17]) (.cases [] 27 (.cases
  [38, 31, 40, 41, 23, 24, 25] 30 (.cases [46, 47, 48, 49] 94 (.leaf [236, 99, 91]) (.cases [] 95
  (.cycle 18 [14, 234, 235]) (.cases [] 45 (.leaf [97, 98, 99, 91, 233, 6]) (.leaf
  [94, 95, 96, 89])))) (.leaf [42, 43, 44, 45])) (.cases [] 46 (.leaf
  [101, 264, 58, 127, 118, 119]) (.cases [] 23 (.cycle 25 [87, 110, 57, 100]) (.leaf
  [113, 28, 34, 68, 17, 76, 23, 24, 25])))))))) (.leaf [74, 62, 17]))))) (.cases
  [86, 22, 23, 24, 25] 75 (.leaf [188, 19, 20]) (.cases [] 65 (.cycle 45 [62, 155, 187]) (.cases []
  19 (.cases [] 33 (.cases [69] 79 (.leaf [200, 19, 55, 20, 56, 162, 62, 17]) (.cases [] 27 (.leaf
  [38, 31, 86, 22, 23, 24, 25]) (.cases [] 86 (.cases [] 70 (.cases [] 103 (.cases [] 22 (.cycle 45
  [62, 53, 168]) (.cases [] 28 (.cycle 14 [152, 201, 199, 268]) (.cases [197] 60 (.leaf [141, 56,
  162, 142, 62, 220, 117, 17, 31, 57, 118, 86, 58, 119, 22, 23, 24, 25]) (.leaf
  [140, 27, 28, 34, 68, 220, 17, 31, 86, 22, 23, 24, 25])))) (.cycle 13 [301, 278, 267])) (.leaf
  [164, 198, 158, 62, 220, 17, 31, 86, 22, 23, 24, 25])) (.leaf [219, 62, 69, 17, 58])))) (.leaf
  [63, 62, 17])) (.leaf [18, 19, 20, 154, 17]))))

/-- some of the cases -/
def real6Case18 : SumTree :=
  .cases [122, 13, 61, 14, 62, 6, 17] 51 (.cases [129, 130, 58] 111 (.leaf [304, 293]) (.cases []
  103 (.cases [289, 268, 56, 276, 20] 88 (.leaf [226, 19, 20]) (.cases [] 42 (.cases [] 78 (.cycle
  58 [122, 194]) (.leaf [193, 12, 301, 13, 61, 278, 276, 14, 62, 56, 20, 6, 17])) (.cases [87, 28]
  87 (.leaf [222, 19, 225, 20, 58]) (.cases [] 40 (.leaf [104, 22, 87, 23, 28, 24, 25]) (.cases []
  28 (.cases [37, 20] 49 (.cases [112] 138 (.leaf [360, 56, 358, 58]) (.cases [359] 79 (.cases
  [200, 19, 221, 20] 27 (.leaf [38, 31, 41]) (.cases [] 26 (.leaf [50, 31, 57, 41, 58]) (.cases []
  83 (.cases [] 46 (.cases [] 65 (.leaf [155, 19, 213, 20, 126, 31, 40, 41, 101, 58]) (.leaf
  [154, 17, 112, 40, 101, 58])) (.cycle 33 [100, 87, 201, 217, 57])) (.leaf [211])))) (.cycle 25
  [87, 201, 199, 268, 271]))) (.leaf [111, 17])) (.cases [] 20 (.cases [54, 20, 32, 28] 22 (.cycle
  45 [62, 53, 168]) (.cases [34, 17] 49 (.leaf [112, 31, 41]) (.leaf [111, 17]))) (.leaf
  [21, 87, 82, 28, 17]))))))) (.cycle 13 [301, 278, 267]))) (.cases [127] 78 (.cycle 58 [122, 194])
  (.leaf [193, 301, 293]))

/-- some of the cases -/
def real6Case19 : SumTree :=
  .cases [102, 22, 54, 23, 20, 24, 25] 37 (.cases [] 65 (.cases [] 83 (.cases [] 40 (.leaf
  [104, 22, 54, 23, 20, 24, 25]) (.cases [82, 17, 155, 19, 213, 20, 126, 31, 41] 30 (.cases
  [46, 47, 48, 49] 43 (.leaf [90, 91]) (.leaf [88, 89])) (.leaf [42, 43, 44, 45]))) (.cycle 2
  [211, 212])) (.cases [154, 196, 17] 86 (.leaf [220, 31, 41]) (.cases [] 49 (.cycle 20
  [112, 219, 62]) (.cases [] 85 (.leaf [218, 111, 133, 17, 76, 23, 24, 25]) (.leaf
  [224, 20, 154, 196, 17, 76, 23, 24, 25]))))) (.leaf [74, 62, 17])

/-- some of the cases -/
def real6Case20 : SumTree :=
  .cases [87, 28] 22 (.cycle 45 [62, 53, 168]) (.cases [34, 17] 28 (.cases [37, 20] 39 (.cases []
  83 (.cases [] 88 (.cases [226, 19, 213, 20, 126, 31, 41] 75 (.cases [] 33 (.leaf
  [69, 58, 226, 19, 213, 20, 126, 31, 41]) (.leaf [63, 62, 188, 17, 19, 213, 20, 126, 31, 41]))
  (.leaf [187, 62, 17])) (.cases [] 46 (.cases [101, 264, 58] 85 (.cases [218, 41] 54 (.cases [] 80
  (.cases [] 61 (.cases [149, 56] 36 (.cases [] 51 (.cases [129, 130, 58] 79 (.cases [] 27 (.leaf
  [38, 31, 41]) (.cases [] 103 (.cycle 14 [300, 12, 268]) (.leaf
  [310, 13, 61, 200, 14, 62, 19, 6, 17, 20, 223, 57, 58]))) (.cycle 25 [87, 201, 199, 79])) (.cases
  [127] 64 (.leaf [151, 293]) (.cycle 58 [149, 150]))) (.cycle 26 [72, 13, 81])) (.cases [142, 117]
  78 (.cases [] 53 (.cases [124, 117, 205, 118, 206, 119, 19, 20, 218, 223, 41] 87 (.leaf
  [222, 19, 225, 20, 58]) (.cases [221, 101, 58] 27 (.leaf [38, 31, 41]) (.cases [] 26 (.leaf
  [50, 57, 58]) (.leaf [40, 101, 58])))) (.cycle 58 [122, 194])) (.leaf
  [193, 12, 33, 13, 61, 37, 14, 62, 17, 20, 6]))) (.cases [] 76 (.cases [] 69 (.leaf
  [184, 117, 123, 118, 58, 119]) (.cycle 58 [166, 186])) (.cycle 58 [117, 185, 87, 201, 227])))
  (.leaf [121, 117, 118, 119])) (.cycle 12 [216, 217, 31])) (.cycle 25 [87, 201, 225, 100])))
  (.cycle 2 [211, 212])) (.leaf [80, 13, 61, 14, 62, 6, 17])) (.cases [32, 28, 34, 68, 17] 39
  (.cases [] 104 (.cycle 26 [270, 271, 22]) (.cases [] 26 (.cases [50, 31, 41] 55 (.leaf
  [132, 117, 118, 119]) (.cases [] 36 (.cases [] 49 (.cases [] 34 (.cycle 25 [54, 197, 67, 79])
  (.cases [65] 35 (.cases [70] 38 (.cases [77, 50, 31, 41] 54 (.cases [] 27 (.cases [] 118 (.cases
  [] 70 (.leaf [165, 117, 123, 118, 38, 119, 31, 41]) (.cases [] 78 (.cases [] 76 (.cycle 30
  [77, 186, 164]) (.cases [] 53 (.leaf [124, 117, 118, 185, 119, 54, 20, 32, 28, 34, 17]) (.cycle
  58 [122, 194]))) (.cycle 59 [193, 316]))) (.leaf [315, 12, 13, 65, 14, 27, 6, 28, 34, 17]))
  (.leaf [57, 58])) (.leaf [121, 117, 131, 118, 62, 119, 17])) (.leaf [75, 27, 28, 34, 17])) (.leaf
  [66, 27, 28, 34, 17]))) (.leaf [111, 17])) (.cycle 26 [72, 13, 81]))) (.cases [40] 38 (.cases []
  27 (.cases [38, 31, 40, 41, 23, 24, 25] 43 (.cases [90, 91] 44 (.cases [93, 47, 48] 47 (.cases []
  48 (.leaf [108, 109]) (.cycle 56 [106, 107])) (.leaf [105, 48, 49])) (.leaf [92, 43, 44, 45]))
  (.leaf [88, 89])) (.cases [57] 35 (.cases [] 60 (.cycle 25 [54, 197, 141, 269]) (.cases [] 46
  (.cases [101, 58] 33 (.cases [] 61 (.cases [149, 56, 140, 27, 28, 34, 68, 69, 17, 58] 30 (.leaf
  [46, 47, 48, 49]) (.leaf [42, 43, 44, 45])) (.cases [142, 117, 118, 119] 21 (.cases [] 49 (.leaf
  [112, 31, 40, 41, 101, 58]) (.cases [] 23 (.leaf [114, 111, 133, 17, 69, 58]) (.cycle 12
  [29, 30, 31]))) (.leaf [26, 27, 28, 34, 68, 69, 17, 58]))) (.leaf [63, 62, 17])) (.cycle 33
  [100, 54, 197, 70]))) (.leaf [66, 27, 28, 34, 17]))) (.leaf [75, 27, 28, 34, 17])))) (.leaf
  [80, 13, 61, 14, 62, 6, 17])))

/-- some of the cases -/
def real6Case21 : SumTree :=
  .cases [21, 22, 23, 24, 25] 40 (.cases [104, 22, 23, 24, 25] 33 (.cases [69, 58] 111 (.cycle 14
  [300, 12, 61, 69, 304]) (.cases [] 41 (.cases [103, 41] 75 (.leaf
  [188, 19, 20, 21, 22, 23, 24, 25]) (.cases [] 65 (.cycle 45 [62, 155, 187]) (.cases [] 22 (.cycle
  45 [62, 53, 168]) (.cases [] 64 (.leaf [151, 278, 300, 56, 12, 189, 13, 61, 20, 14, 62, 69, 6,
  17, 58]) (.cases [] 68 (.leaf [163, 56]) (.cases [] 19 (.cases [] 28 (.leaf [37, 201, 20, 55, 56,
  162, 62, 69, 17, 104, 58, 22, 103, 23, 41, 24, 25]) (.cases [197] 51 (.cases [129, 130, 58] 30
  (.cases [46, 47, 48] 47 (.cases [] 48 (.leaf [108, 109]) (.cycle 56 [106, 107])) (.leaf
  [105, 48, 49])) (.leaf [42, 43, 44, 45])) (.cases [127, 118, 119] 34 (.cases [] 60 (.leaf
  [141, 56, 162, 62, 69, 17, 104, 58, 22, 103, 23, 41, 24, 25]) (.leaf
  [140, 27, 67, 28, 13, 61, 62, 69, 14, 17, 58, 6])) (.leaf
  [65, 27, 28, 34, 17, 104, 22, 23, 24, 25])))) (.leaf
  [18, 19, 20, 154, 196, 17, 104, 69, 22, 58, 23, 24, 25]))))))) (.cases [86, 22, 23, 24, 25] 75
  (.leaf [188, 19, 20]) (.cases [] 65 (.cycle 45 [62, 155, 187]) (.cases [] 68 (.leaf
  [163, 56, 358, 58]) (.cases [] 19 (.cases [] 27 (.leaf [38, 31, 86, 22, 23, 24, 25]) (.cases []
  22 (.cycle 45 [62, 53, 168]) (.cases [] 49 (.cases [] 28 (.leaf [37, 201, 20, 55, 56, 162, 62,
  17, 112, 31, 57, 86, 58, 22, 23, 24, 25]) (.cases [] 103 (.cycle 14 [300, 12, 268]) (.cases [] 60
  (.cycle 13 [189, 197, 141, 267]) (.leaf [140, 27, 28, 34, 17, 112, 31, 86, 22, 23, 24, 25]))))
  (.leaf [111, 133, 17, 104, 69, 22, 58, 23, 24, 25])))) (.leaf [18, 19, 20, 154, 17]))))))) (.leaf
  [63, 62, 17, 104, 22, 23, 24, 25])) (.cases [] 24 (.leaf [52, 20, 21, 22, 82, 23, 17, 24, 25])
  (.cases [] 28 (.cycle 19 [20, 36, 37]) (.cases [] 42 (.cases [] 34 (.cases [] 60 (.cases [] 103
  (.cycle 14 [300, 12, 268]) (.cycle 13 [189, 197, 141, 267])) (.leaf
  [140, 27, 67, 102, 13, 22, 82, 14, 23, 17, 6, 24, 25])) (.leaf
  [65, 27, 102, 22, 82, 23, 17, 24, 25])) (.cases [87, 28] 22 (.cycle 20 [53, 168, 62]) (.cases
  [34, 68, 17] 55 (.leaf [132, 117, 118, 119]) (.cases [] 31 (.cases [] 54 (.cases [] 27 (.cases
  [38, 31, 41] 46 (.leaf [101, 38, 31, 41]) (.cases [] 37 (.cases [] 51 (.leaf
  [129, 130, 58, 38, 100, 31, 87, 41, 28, 34, 17]) (.cases [] 78 (.cases [] 33 (.cycle 25
  [87, 68, 69, 100]) (.cases [] 53 (.leaf [124, 117, 123, 118, 38, 63, 119, 31, 62, 41, 17])
  (.cycle 58 [122, 194]))) (.cycle 63 [127, 193, 12, 195]))) (.leaf [74, 62, 17]))) (.cases
  [57, 58] 37 (.cases [] 33 (.cases [69, 58] 53 (.leaf [124, 117, 118, 119]) (.cases
  [122, 13, 14, 6] 30 (.cases [46, 47, 48, 49] 45 (.cases [97, 98, 99, 91] 46 (.leaf [101, 58])
  (.cycle 25 [87, 68, 69, 100])) (.leaf [94, 95, 96, 89])) (.leaf [42, 43, 44, 45]))) (.leaf
  [63, 62, 76, 17, 23, 24, 25])) (.leaf [74, 62, 17]))) (.leaf [121, 117, 131, 118, 62, 119, 17]))
  (.leaf [59, 60, 13, 189, 14, 20, 21, 6, 87, 34, 17])))))))

/-- some of the cases -/
def real6Case22 : SumTree :=
  .cases [274, 56] 68 (.cases [163, 56] 103 (.cases [] 113 (.cases [301] 107 (.leaf
  [277, 278, 355, 152, 9, 56, 17, 28, 10]) (.cases [276, 20] 106 (.cases
  [279, 243, 284, 10, 116, 117, 129, 130, 58, 38, 31, 41] 21 (.cases [] 23 (.cases [] 35 (.cases []
  34 (.leaf [67, 13, 268, 279, 14, 276, 243, 284, 274, 6, 20, 10, 116, 56, 117, 118, 129, 119, 130,
  58, 38, 31, 41]) (.cases [65, 27] 42 (.cases [102, 22, 23, 24, 25] 60 (.cases [] 92 (.leaf
  [245, 10]) (.cases [] 91 (.leaf [252, 283, 10, 244, 284, 274, 22, 116, 56, 23, 117, 24, 129, 25,
  130, 58, 38, 31, 41]) (.cases [247, 290, 28, 102, 141, 22, 56, 23, 24, 25] 30 (.cases
  [46, 47, 48, 49] 97 (.leaf [251, 89]) (.cases [249, 6] 95 (.leaf [250, 91]) (.leaf [233, 6])))
  (.leaf [42, 43, 44, 45])))) (.leaf [140, 27, 102, 22, 103, 23, 41, 24, 25])) (.cases [87, 28] 91
  (.cycle 25 [87, 283, 274, 269]) (.cases [] 26 (.cases [] 141 (.leaf
  [368, 10, 247, 290, 28, 70, 38, 31, 41]) (.cases [] 92 (.leaf
  [245, 10, 247, 367, 28, 130, 58, 38, 31, 41]) (.cases [244, 22, 87, 23, 50, 28, 24, 31, 25, 41]
  30 (.leaf [46, 47, 48, 49]) (.leaf [42, 43, 44, 45])))) (.leaf [40, 23, 24, 25]))))) (.leaf
  [66, 27, 28, 114, 41])) (.cycle 2 [31, 29, 30])) (.leaf [26, 27, 28])) (.cycle 14
  [276, 238, 275, 268]))) (.cycle 17 [268, 300, 12])) (.cases [310, 267, 13, 232, 14, 10, 6] 26
  (.cases [] 141 (.leaf [368, 10]) (.cases [] 92 (.leaf [245, 10, 367, 130, 58, 38, 31, 41])
  (.cases [] 17 (.cycle 22 [267, 189, 238, 274]) (.leaf
  [15, 12, 232, 13, 10, 244, 14, 22, 6, 50, 31, 41])))) (.leaf [40, 23, 24, 25]))) (.cases
  [162, 62, 17, 104, 22, 23, 24, 25] 61 (.leaf [149, 56, 162, 62, 17, 104, 22, 23, 24, 25]) (.cases
  [142, 117, 129, 130, 58, 38, 31, 41] 107 (.leaf
  [277, 278, 9, 56, 162, 142, 10, 62, 117, 17, 118, 119]) (.cases [] 92 (.leaf [245, 10]) (.cases
  [] 17 (.cases [] 103 (.cases [] 34 (.leaf [67, 13, 289, 268, 14, 56, 162, 142, 276, 6, 62, 117,
  302, 17, 104, 129, 10, 22, 130, 23, 58, 38, 24, 31, 25, 41]) (.cases [65] 60 (.leaf [141, 56,
  162, 142, 62, 117, 17, 118, 129, 119, 130, 58, 38, 31, 41]) (.cases [] 106 (.leaf [279, 243, 274,
  10, 56, 162, 142, 140, 62, 117, 27, 17, 118, 129, 28, 119, 130, 38, 31, 41]) (.cycle 75
  [275, 268, 276, 238])))) (.cycle 75 [274, 267, 189, 238])) (.leaf
  [15, 12, 232, 13, 10, 244, 14, 22, 6, 23, 24, 25])))))

/-- some of the cases -/
def real6Case23 : SumTree :=
  .cases [273, 243, 284, 10, 116, 117, 129, 130, 58, 38, 31, 41] 31 (.cases [] 18 (.leaf
  [153, 12, 232, 13, 71, 10, 14, 58, 6]) (.cases [] 60 (.cases [141, 56, 273, 243, 284, 10, 116,
  117, 118, 129, 119, 130, 58, 38, 31, 41] 59 (.cases [] 46 (.cases [] 92 (.cases [245, 10] 74
  (.leaf [183, 56, 273, 284, 116, 117, 118, 129, 119, 130, 58, 38, 31, 41]) (.leaf [182, 99, 91]))
  (.leaf [244, 22, 23, 101, 24, 58, 38, 25, 31, 41])) (.leaf [181, 23, 24, 25])) (.leaf [137, 25]))
  (.cases [140, 27] 92 (.cases [245, 10] 90 (.cases
  [253, 284, 116, 117, 118, 129, 119, 130, 58, 38, 31, 41] 22 (.cases [53, 27] 42 (.leaf
  [102, 245]) (.cases [87, 28] 30 (.cases [46, 47, 48, 49] 97 (.leaf [251, 89]) (.cases [249, 6] 95
  (.leaf [250, 91]) (.leaf [233, 6]))) (.leaf [42, 43, 44, 45]))) (.leaf [34, 104, 245])) (.cycle
  20 [104, 245, 246])) (.cases [] 103 (.cases [289, 56, 273, 140, 243, 284, 27, 10, 116, 28, 117,
  129, 130, 58, 38, 31, 41] 55 (.cases [] 90 (.cases [] 68 (.leaf [163, 56, 273, 140, 243, 284, 27,
  10, 244, 116, 28, 22, 117, 23, 118, 24, 119, 25]) (.leaf [162, 62, 17, 253, 243, 284, 10, 244,
  116, 22, 117, 23, 129, 24, 130, 25, 58, 38, 31, 41])) (.leaf [246, 285, 17, 104, 132, 22, 117,
  23, 129, 24, 130, 25, 58, 38, 31, 41])) (.leaf [131, 62, 17, 104, 22, 23, 24, 25])) (.cases [310]
  91 (.cases [252, 283, 10, 244, 284, 22, 116, 23, 117, 24, 118, 129, 25, 119, 130, 58, 38, 31, 41]
  55 (.cases [] 90 (.cases [] 32 (.leaf [64, 13, 14, 6]) (.cases [61, 62, 17] 34 (.leaf
  [67, 13, 61, 14, 62, 6, 17, 253, 243, 10, 244, 22, 23, 24, 25]) (.leaf [65, 27, 252, 283, 10,
  244, 284, 22, 116, 23, 117, 24, 118, 129, 25, 119, 130, 58, 38, 31, 41]))) (.leaf [246, 285, 17,
  104, 132, 22, 117, 23, 129, 24, 130, 25, 58, 38, 31, 41])) (.leaf
  [131, 62, 17, 104, 22, 23, 24, 25])) (.cases [247, 290, 28] 71 (.cases [] 22 (.cases [] 90
  (.cases [253, 243, 284, 10, 244, 290, 116, 22, 117, 23, 118, 129, 24, 119, 130, 25, 58, 38, 31,
  41] 78 (.cases [] 34 (.leaf [67, 13, 194, 14, 117, 6, 129, 130, 58, 38, 31, 41]) (.cases [] 53
  (.cases [] 42 (.cases [] 32 (.leaf [64, 13, 65, 124, 14, 27, 117, 6, 28, 102, 129, 22, 130, 23,
  58, 24, 25]) (.leaf [61, 62, 253, 243, 284, 10, 247, 116, 28, 102, 117, 22, 129, 23, 130, 24, 58,
  38, 25, 31, 41])) (.cases [87, 28] 30 (.cases [46, 47, 48, 49] 97 (.leaf [251, 89]) (.leaf
  [249, 6])) (.leaf [42, 43, 44, 45]))) (.cycle 58 [122, 194]))) (.cycle 58
  [117, 193, 16, 253, 281])) (.cases [246, 285, 17, 104, 53, 22, 27, 23, 28, 24, 25] 78 (.cases []
  32 (.leaf [64, 13, 194, 14, 117, 6, 129, 130, 58, 38, 31, 41]) (.cases [] 106 (.leaf [279, 243,
  284, 10, 246, 116, 17, 104, 53, 117, 22, 27, 118, 129, 23, 28, 119, 130, 24, 58, 38, 25, 31, 41])
  (.leaf [275, 61, 169]))) (.leaf [193, 232, 285, 169]))) (.leaf [68, 169])) (.cases
  [198, 158, 62, 17, 104, 22, 23, 24, 25] 78 (.cases [] 32 (.leaf
  [64, 13, 194, 14, 117, 6, 118, 129, 119, 130, 58]) (.cases [] 34 (.leaf [67, 13, 194, 61, 14,
  117, 62, 6, 118, 17, 104, 119, 22, 23, 24, 25]) (.cases [] 53 (.cases [] 42 (.cases [] 106 (.leaf
  [279, 243, 284, 10, 247, 290, 116, 28, 102, 198, 117, 22, 158, 129, 23, 62, 130, 24, 17, 58, 38,
  25, 31, 41]) (.leaf [275, 13, 65, 124, 14, 27, 198, 117, 6, 28, 158, 118, 129, 62, 119, 130, 17,
  58])) (.leaf [87, 28])) (.cycle 58 [122, 194])))) (.leaf
  [193, 12, 232, 13, 10, 247, 290, 14, 28, 198, 6, 158, 62, 17])))))))) (.leaf
  [59, 60, 13, 232, 14, 10, 6])

/-- some of the cases -/
def real6Case24 : SumTree :=
  .cases [] 103 (.cases [289, 268, 56, 9, 10] 41 (.cases [] 79 (.cases [200, 19, 55, 20, 56] 34
  (.cases [67, 13, 268, 200, 14, 9, 19, 55, 6, 10, 20, 56] 84 (.cases [] 59 (.cases [] 28 (.cases
  [] 78 (.cases [] 24 (.cases [52, 20] 61 (.cases [] 53 (.cases
  [124, 117, 129, 130, 58, 38, 31, 41] 26 (.cases [] 20 (.leaf [54, 20]) (.leaf
  [21, 22, 23, 50, 24, 31, 25, 41])) (.leaf [40, 23, 24, 25])) (.cycle 58 [122, 194])) (.leaf
  [142, 117, 118, 129, 119, 130, 58])) (.cycle 19 [20, 36, 37])) (.leaf
  [193, 12, 268, 200, 9, 19, 55, 20, 10, 56])) (.cycle 30 [67, 200, 19, 197])) (.leaf [137, 25]))
  (.cycle 30 [67, 200, 214])) (.cases [65, 27] 20 (.cases [54, 20] 133 (.leaf [345, 243, 284, 10,
  237, 116, 55, 117, 56, 129, 130, 38, 31, 41]) (.cases [] 90 (.cycle 20 [253, 344, 62]) (.cases []
  65 (.cases [155, 55, 56] 28 (.cases [201, 55, 56] 64 (.leaf
  [151, 9, 10, 246, 104, 155, 54, 55, 20, 56]) (.cases [] 61 (.cycle 22 [150, 149]) (.leaf
  [142, 117, 118, 129, 119, 130, 58]))) (.leaf [32, 28])) (.cycle 20 [104, 54, 154])))) (.cases []
  80 (.cases [205, 206, 19, 55, 20, 21, 56, 22, 23, 24, 25] 133 (.leaf [345, 243, 284, 10, 116,
  117, 205, 129, 206, 130, 19, 55, 58, 38, 20, 56, 31, 41]) (.cases [] 75 (.cases [] 90 (.cycle 20
  [253, 344, 62]) (.cases [] 65 (.cases [] 64 (.leaf [151, 9, 10, 246, 155, 19, 55, 20, 56])
  (.cycle 23 [55, 150, 272])) (.cycle 23 [19, 196, 188]))) (.leaf [187, 62, 17]))) (.cases
  [202, 116, 117, 129, 130, 58, 38, 31, 41] 28 (.leaf [37, 201, 20, 21, 55, 202, 22, 56, 116, 23,
  117, 24, 118, 129, 25, 119, 130, 58, 38, 31, 41]) (.cases [32, 197] 71 (.cases [] 68 (.cases []
  42 (.cases [102, 22, 23, 24, 25] 46 (.leaf [101, 58, 38, 31, 41]) (.cases [] 64 (.cycle 23
  [202, 116, 117, 151, 9, 237]) (.cases [] 60 (.cases [141, 56] 61 (.cycle 22 [150, 149]) (.leaf
  [142, 117, 118, 129, 119, 130, 58, 38, 31, 41])) (.leaf
  [140, 27, 28, 102, 22, 103, 23, 41, 24, 25])))) (.cases [] 65 (.leaf [155, 19, 55, 202, 20, 21,
  56, 116, 22, 87, 117, 23, 28, 129, 24, 130, 25, 58, 38, 31, 41]) (.leaf
  [154, 196, 104, 163, 22, 87, 56, 23, 28, 24, 25]))) (.leaf [162, 169])) (.cases
  [198, 158, 62, 17, 104, 22, 23, 24, 25] 55 (.leaf [132, 117, 129, 130, 58, 38, 31, 41]) (.cases
  [] 70 (.leaf [165, 117, 131, 129, 62, 130, 17, 104, 58, 38, 22, 31, 23, 41, 24, 25]) (.leaf
  [164, 198, 158, 62, 17, 104, 22, 23, 24, 25])))))))) (.cycle 17 [268, 9, 237, 199])) (.leaf
  [86, 22, 23, 24, 25])) (.cycle 13 [232, 237, 55, 267])

/-- some of the cases -/
def real6Case25 : SumTree :=
  .cases [101, 58, 38, 31, 41] 92 (.leaf [245, 10, 240, 20]) (.cases [] 48 (.cases [108, 109] 78
  (.cases [] 114 (.leaf [303, 278, 9, 56, 10, 244, 22, 54, 20, 101, 58]) (.cases [] 30 (.cases
  [46, 47, 48, 49, 108, 109] 64 (.cycle 59 [151, 348]) (.cases [] 61 (.cycle 58 [149, 150]) (.cases
  [] 60 (.cases [141, 56, 142, 117, 118, 119] 43 (.cases [] 45 (.cases [97, 98, 99, 91] 103 (.cases
  [] 113 (.leaf [301, 9, 10]) (.cycle 17 [268, 300, 12])) (.leaf [310, 267, 13, 232, 14, 10, 6]))
  (.leaf [94, 95, 96, 89])) (.leaf [88, 89])) (.cases [140] 34 (.cases [67, 13, 14, 6] 32 (.cases
  [64, 13, 14, 6] 53 (.leaf [124, 117, 129, 130, 58, 38, 31, 41]) (.cycle 58 [122, 194])) (.leaf
  [61, 62, 104, 22, 54, 23, 101, 20, 24, 58, 25])) (.cases [65, 27] 42 (.leaf
  [102, 22, 54, 23, 101, 20, 24, 58, 38, 25, 31, 41]) (.cases [87, 28] 43 (.cases [] 45 (.cases
  [97, 98, 99, 91] 28 (.leaf [37, 20]) (.leaf [32, 28])) (.leaf [94, 95, 96, 89])) (.leaf
  [88, 89]))))))) (.cases [42, 43, 44, 45] 28 (.cases [] 102 (.leaf [266, 210]) (.cases [265, 45]
  32 (.leaf [64, 13, 14, 6]) (.cases [] 34 (.leaf [67, 13, 61, 14, 62, 6, 17, 104, 22, 54, 101, 20,
  58, 38, 31, 41]) (.cases [65, 27] 42 (.leaf [102, 22, 54, 23, 101, 20, 24, 58, 38, 25, 31, 41])
  (.leaf [87, 28, 37, 20]))))) (.leaf [32, 28])))) (.leaf
  [193, 12, 232, 13, 10, 244, 14, 22, 54, 6, 101, 20, 58])) (.cases [] 118 (.cases [] 47 (.cycle 56
  [106, 107]) (.cases [105, 48, 49] 64 (.leaf [151, 278, 9, 56, 10, 244, 22, 54, 20, 101, 58])
  (.cases [] 78 (.cases [] 61 (.cycle 58 [149, 150]) (.cases [] 60 (.cases
  [141, 56, 142, 117, 118, 119] 43 (.cases [] 45 (.cases [97, 98, 99, 91] 103 (.cases [] 113 (.leaf
  [301, 9, 10]) (.cycle 17 [268, 300, 12])) (.leaf [310, 267, 13, 232, 14, 10, 6])) (.leaf
  [94, 95, 96, 89])) (.leaf [88, 89])) (.cases [140] 34 (.cases [67, 13, 14, 6] 32 (.cases
  [64, 13, 14, 6] 53 (.leaf [124, 117, 129, 130, 58, 38, 31, 41]) (.cycle 58 [122, 194])) (.leaf
  [61, 62, 104, 22, 54, 23, 101, 20, 24, 58, 25])) (.cases [65, 27] 42 (.leaf
  [102, 22, 54, 23, 101, 20, 24, 58, 38, 25, 31, 41]) (.cases [87, 28] 43 (.cases [] 45 (.cases
  [97, 98, 99, 91] 28 (.leaf [37, 20]) (.leaf [32, 28])) (.leaf [94, 95, 96, 89])) (.leaf
  [88, 89])))))) (.cycle 59 [193, 316])))) (.leaf
  [315, 12, 232, 13, 10, 244, 14, 22, 54, 6, 101, 20, 58])))

/-- some of the cases -/
def real6Case26 : SumTree :=
  .cases [181, 100, 23, 54, 24, 20, 25] 21 (.cases [] 23 (.cases [] 38 (.cases [] 141 (.leaf
  [368, 10, 240, 20]) (.cases [] 92 (.cycle 63 [130, 100, 245, 367]) (.cases [] 26 (.cases
  [50, 31, 41] 35 (.cases [] 48 (.cases [108, 109] 78 (.cases [] 30 (.cases
  [46, 47, 48, 49, 108, 109] 28 (.cases [] 60 (.cases [141, 56] 103 (.cases [268, 9, 10] 68 (.leaf
  [163, 56]) (.leaf [162, 62, 17, 104, 22, 54, 50, 20, 31, 41])) (.leaf
  [310, 267, 13, 232, 14, 10, 6])) (.cases [140] 34 (.cases [67, 13, 14, 6] 32 (.cases
  [64, 13, 14, 6] 53 (.leaf [124, 117, 118, 129, 119, 130, 181, 100, 50, 54, 31, 20, 41]) (.cycle
  58 [122, 194])) (.leaf [61, 62, 17, 104, 22, 54, 50, 20, 31, 41])) (.cases [65, 27] 71 (.cases
  [169, 170, 27] 42 (.leaf [102, 22, 54, 23, 50, 20, 24, 31, 25, 41]) (.leaf [87, 28, 37, 20]))
  (.cases [] 22 (.cycle 45 [62, 53, 168]) (.leaf
  [34, 17, 104, 22, 54, 23, 50, 20, 24, 31, 25, 41]))))) (.cycle 33 [100, 54, 197, 70])) (.cases
  [42, 43, 44] 28 (.cases [] 102 (.leaf [266, 210]) (.cases [265, 45] 32 (.leaf [64, 13, 14, 6])
  (.cases [] 88 (.leaf [226, 19, 20, 218, 41]) (.cases [] 42 (.cases [] 34 (.leaf [67, 13, 61, 14,
  62, 6, 17, 104, 22, 54, 23, 50, 20, 24, 31, 25, 41]) (.cases
  [65, 27, 102, 22, 54, 23, 50, 20, 24, 31, 25, 41] 71 (.leaf
  [169, 170, 27, 102, 22, 54, 23, 50, 20, 24, 31, 25, 41]) (.leaf [198, 158, 62, 17]))) (.cycle 33
  [100, 87, 201, 225]))))) (.cycle 33 [100, 54, 197, 70]))) (.leaf
  [193, 12, 232, 13, 10, 244, 14, 22, 54, 6, 50, 20, 31, 41])) (.cases [] 118 (.cases [] 47 (.cycle
  56 [106, 107]) (.cases [105, 48, 49] 28 (.cases [] 78 (.cases [] 60 (.cases [141, 56] 103 (.cases
  [268, 9, 10] 68 (.leaf [163, 56]) (.leaf [162, 62, 17, 104, 22, 54, 50, 20, 31, 41])) (.leaf
  [310, 267, 13, 232, 14, 10, 6])) (.cases [140] 34 (.cases [67, 13, 14, 6] 32 (.cases
  [64, 13, 14, 6] 53 (.leaf [124, 117, 118, 129, 119, 130, 181, 100, 50, 54, 31, 20, 41]) (.cycle
  58 [122, 194])) (.leaf [61, 62, 17, 104, 22, 54, 50, 20, 31, 41])) (.cases [65, 27] 71 (.cases
  [169, 170, 27] 42 (.leaf [102, 22, 54, 23, 50, 20, 24, 31, 25, 41]) (.leaf [87, 28, 37, 20]))
  (.cases [] 22 (.cycle 45 [62, 53, 168]) (.leaf
  [34, 17, 104, 22, 54, 23, 50, 20, 24, 31, 25, 41]))))) (.cycle 59 [193, 316])) (.cycle 33
  [100, 54, 197, 70]))) (.leaf [315, 12, 232, 13, 10, 244, 14, 22, 54, 6, 50, 20, 31, 41]))) (.leaf
  [66, 27, 77, 28, 50, 31, 41])) (.cases [40, 23, 24, 25] 28 (.cases [] 78 (.cases [] 53 (.cases []
  34 (.leaf [67, 13, 124, 14, 117, 6, 118, 129, 119, 130, 58, 38, 100, 31, 40, 54, 41, 23, 20, 24,
  25]) (.cases [65, 27] 71 (.cases [169, 170, 27] 88 (.leaf
  [226, 19, 20, 218, 223, 40, 41, 23, 24, 25]) (.cases [] 42 (.cases [102, 54, 20] 56 (.leaf
  [136, 96, 89]) (.cases [] 45 (.cases [97, 98, 99, 91] 55 (.cases [132] 70 (.leaf
  [165, 117, 129, 130, 58, 38, 31, 40, 41, 23, 24, 25]) (.cases [164, 27, 28, 102, 54, 20] 97
  (.leaf [251, 89]) (.leaf [249, 6]))) (.leaf [131, 62, 169, 17, 170, 27, 102, 54, 20, 218, 41]))
  (.leaf [94, 95, 96, 89, 174, 172]))) (.cycle 33 [100, 87, 201, 225]))) (.cases [] 22 (.cycle 45
  [62, 53, 168]) (.cases [34, 17, 104, 54, 20] 110 (.leaf [296, 89]) (.leaf [295, 6]))))) (.cycle
  58 [122, 194])) (.leaf [193, 232, 10, 244, 54, 20])) (.leaf [32, 28]))))) (.leaf
  [75, 27, 28, 114, 41])) (.cycle 2 [31, 29, 30])) (.leaf [26, 27, 28])

/-- some of the cases -/
def real6Case27 : SumTree :=
  .cases [50, 31, 41] 96 (.cycle 58 [309, 206, 19, 238, 281]) (.cases [] 78 (.cases [] 79 (.cases
  [] 42 (.cases [] 60 (.cases [141, 56] 68 (.leaf
  [163, 18, 19, 20, 21, 22, 23, 50, 24, 31, 25, 41]) (.leaf
  [162, 62, 17, 155, 19, 20, 21, 22, 23, 50, 24, 31, 25, 41])) (.cases [140] 34 (.cases
  [67, 13, 200, 14, 19, 6, 20, 21, 22, 23, 50, 24, 31, 25, 41] 30 (.cases [46, 47, 48, 49] 43
  (.leaf [90, 91]) (.leaf [88, 89])) (.leaf [42, 43, 44, 45])) (.cases [65, 27] 22 (.cases [] 71
  (.cases [169, 170, 27, 28] 28 (.cases [37, 20, 21, 22, 23, 50, 24, 31, 25, 41] 66 (.leaf
  [161, 49]) (.cases [] 82 (.leaf [209, 45]) (.cases [] 98 (.cases [] 45 (.cases [97, 98, 99, 91]
  47 (.cases [] 48 (.cases [108, 109] 30 (.leaf [46, 47, 48, 49, 108, 109]) (.leaf [42, 43, 44, 45,
  208, 157, 158, 169, 170, 27, 37, 20, 21, 22, 23, 50, 24, 31, 25, 41])) (.cycle 56 [106, 107]))
  (.cycle 55 [105, 256])) (.cases [94, 95, 96, 89] 55 (.cases [132] 70 (.leaf [165, 117, 309, 129,
  206, 130, 19, 58, 20, 21, 22, 23, 50, 24, 31, 25, 41]) (.leaf
  [164, 27, 28, 37, 20, 21, 22, 23, 50, 24, 31, 25, 41])) (.leaf
  [131, 169, 170, 27, 37, 20, 21, 22, 23, 50, 24, 31, 25, 41]))) (.leaf [255, 48, 49, 156, 157,
  158, 62, 169, 17, 170, 27, 28, 37, 21, 22, 23, 50, 24, 31, 25, 41])))) (.leaf
  [32, 28, 102, 22, 23, 50, 24, 31, 25, 41])) (.cycle 20 [53, 168, 62])) (.cases
  [34, 17, 155, 19, 20, 21, 22, 23, 50, 24, 31, 25, 41] 97 (.leaf [251, 89]) (.leaf [249, 6])))))
  (.leaf [87, 28])) (.cycle 23 [199, 194, 272])) (.leaf
  [193, 12, 232, 13, 10, 240, 14, 20, 21, 6, 22, 50, 31, 41]))

/-- some of the cases -/
def real6Case28 : SumTree :=
  .cases [108, 109] 78 (.cases [] 117 (.leaf [312, 10, 240, 20, 21, 22, 23, 24, 25]) (.cases [] 79
  (.cases [] 42 (.cases [] 60 (.cases [141, 56] 91 (.cycle 31 [252, 10, 311]) (.cases [] 103
  (.cases [268, 9, 10] 68 (.leaf [163, 56, 18, 19, 20, 21, 22, 103, 23, 41, 24, 25]) (.leaf
  [162, 62, 17, 155, 19, 20])) (.cycle 30 [141, 267, 232, 290]))) (.cases [140] 34 (.cases
  [67, 13, 14, 6] 32 (.leaf [64, 13, 200, 14, 19, 6, 20, 21, 22, 23, 24, 25]) (.leaf
  [61, 62, 17, 155, 19, 20, 21, 22, 23, 24, 25])) (.cases [65, 27] 30 (.cases
  [46, 47, 48, 49, 108, 109] 22 (.cases [] 71 (.cases [169, 170] 28 (.cases [] 55 (.cases [132] 70
  (.leaf [165, 117, 309, 129, 206, 130, 19, 58, 38, 20, 31, 40, 41, 23, 24, 25]) (.cases
  [164, 27, 28, 37, 20, 21, 22, 23, 24, 25] 101 (.leaf [263, 96, 89]) (.cases [] 45 (.cases
  [97, 98, 99] 43 (.cases [] 56 (.cycle 65 [136, 262]) (.cases [] 97 (.leaf
  [251, 89, 90, 174, 91, 172]) (.cases [249, 6] 100 (.cases [] 72 (.cycle 69 [173, 174]) (.leaf
  [171, 172, 260, 6])) (.leaf [258, 172])))) (.leaf [88, 89])) (.cases [94, 95, 96, 89] 97 (.cases
  [] 95 (.cases [250, 91] 43 (.leaf [90, 91]) (.leaf [88, 89])) (.leaf [233, 6, 251, 89])) (.leaf
  [249, 6]))))) (.leaf [131, 62, 169, 17, 170, 27, 28, 37, 20, 21, 22, 23, 24, 25])) (.cases
  [32, 28, 102, 22, 23, 24, 25] 55 (.leaf
  [132, 309, 206, 19, 20, 32, 28, 102, 22, 103, 23, 41, 24, 25]) (.leaf [131, 62, 17]))) (.cycle 20
  [53, 168, 62])) (.cases [34, 17, 155, 19, 20] 43 (.cases [] 45 (.cases [97, 98, 99, 91] 56 (.leaf
  [136, 96, 89]) (.cases [] 100 (.cases [] 72 (.cycle 69 [173, 174]) (.leaf [171, 260, 6])) (.leaf
  [258, 172]))) (.leaf [94, 95, 96, 89])) (.leaf [88, 89]))) (.cases [42, 43, 44] 44 (.cycle 35
  [42, 93, 47]) (.cases [] 102 (.leaf [266, 210]) (.cases [265, 45] 71 (.cases [169, 170, 27, 28]
  45 (.cases [97, 98, 99, 91] 95 (.cases [] 43 (.cases [] 73 (.cycle 40 [177, 178, 179]) (.cases
  [175, 176, 43, 44, 45] 55 (.cases [132, 309, 206, 19, 20] 84 (.cases [] 70 (.leaf [165, 117, 309,
  129, 206, 130, 19, 38, 20, 31, 40, 41, 23, 24, 25]) (.cases [] 97 (.leaf [251, 89, 90, 91])
  (.leaf [249, 6, 250, 91]))) (.leaf [214, 27, 102, 22, 23, 24, 25])) (.leaf [131, 62, 17])))
  (.leaf [88, 89])) (.leaf [233, 6])) (.cases [94, 95, 96, 89] 55 (.cases [132, 309, 206, 19, 20]
  84 (.cases [] 70 (.leaf [165, 117, 309, 118, 129, 206, 119, 130, 19, 38, 20, 31, 40, 41, 23, 24,
  25]) (.cases [164, 27, 28] 97 (.cases [] 95 (.cases [250, 91] 43 (.leaf [90, 91]) (.leaf
  [88, 89])) (.leaf [233, 6, 251, 89])) (.leaf [249, 6]))) (.leaf
  [214, 27, 28, 102, 22, 23, 24, 25])) (.leaf [131, 62, 169, 17, 170, 27, 28]))) (.cases [] 22
  (.cycle 45 [62, 53, 168]) (.cases [34, 17, 155, 19, 20] 110 (.leaf [296, 89]) (.leaf
  [295, 6]))))))))) (.leaf [87, 28])) (.cycle 23 [199, 194, 272]))) (.leaf
  [193, 12, 232, 13, 10, 14, 6])

/-- some of the cases -/
def real6Case29 : SumTree :=
  .cases [106, 49] 78 (.cases [] 79 (.cases [] 114 (.leaf
  [303, 278, 355, 9, 56, 18, 17, 10, 19, 20]) (.cases [] 42 (.cases [] 47 (.cycle 56 [106, 107])
  (.cases [105, 48, 49] 64 (.cycle 59 [151, 348]) (.cases [] 61 (.cycle 58 [149, 150]) (.cases []
  60 (.leaf [141, 142, 117, 309, 129, 206, 130, 19, 58, 38, 20, 31, 40, 41, 23, 24, 25]) (.cases
  [140, 27] 34 (.cases [67, 13, 200, 14, 19, 6, 20] 71 (.leaf [169, 170, 27, 67, 28, 13, 194, 200,
  14, 117, 19, 6, 118, 20, 21, 119, 22, 23, 24, 25]) (.cases [] 45 (.cases [97, 98, 99, 91] 22
  (.cycle 20 [53, 168, 62]) (.leaf [34, 17])) (.leaf [94, 95, 96, 89]))) (.cases [65, 27] 22
  (.cases [] 71 (.cases [169, 170, 27, 28] 28 (.cases [37, 20] 66 (.cases [161, 49] 101 (.leaf
  [263, 96, 89]) (.cases [] 45 (.cases [97, 98, 99, 91] 95 (.cases [] 43 (.cases [] 56 (.cycle 65
  [136, 262]) (.cases [] 97 (.leaf [251, 89, 90, 174, 91, 172]) (.cases [249, 6, 250, 91] 55
  (.cases [132] 70 (.leaf [165, 117, 309, 118, 129, 206, 119, 130, 19, 38, 20, 31, 40, 41, 23, 24,
  25]) (.leaf [164, 27, 28, 37, 20, 21, 22, 23, 24, 25])) (.leaf
  [131, 169, 170, 27, 37, 20, 21, 22, 23, 24, 25])))) (.leaf [88, 89])) (.leaf [233, 6])) (.cases
  [94, 95, 96, 89] 55 (.cases [132] 70 (.leaf [165, 117, 309, 118, 129, 206, 119, 130, 19, 38, 20,
  31, 40, 41, 23, 24, 25]) (.leaf [164, 27, 28, 37, 20, 21, 22, 23, 24, 25])) (.leaf
  [131, 62, 169, 17, 170, 27, 37, 20, 21, 22, 23, 24, 25])))) (.leaf [156, 157, 158, 62, 169, 17,
  170, 27, 28, 37, 20, 21, 22, 23, 24, 25])) (.cases [32, 28, 102, 22, 23, 24, 25] 55 (.leaf
  [132, 309, 206, 19, 20, 32, 28, 102, 22, 103, 23, 41, 24, 25]) (.leaf [131, 62, 17]))) (.cycle 20
  [53, 168, 62])) (.cases [34, 17, 155, 19, 20] 43 (.cases [] 45 (.cases [97, 98, 99, 91] 56 (.leaf
  [136, 96, 89]) (.cases [] 100 (.cases [] 72 (.cycle 69 [173, 174]) (.leaf [171, 260, 6])) (.leaf
  [258, 172]))) (.leaf [94, 95, 96, 89])) (.leaf [88, 89])))))))) (.leaf [87, 28]))) (.cycle 23
  [199, 194, 272])) (.leaf [193, 12, 232, 13, 10, 240, 14, 20, 6])

/-- some of the cases -/
def real6Case30 : SumTree :=
  .cases [202, 116, 117, 118, 129, 119, 130, 58, 38, 31, 41] 60 (.leaf [141, 56, 18, 19, 202, 20,
  21, 116, 22, 117, 23, 118, 129, 24, 119, 130, 25, 58, 38, 31, 41]) (.cases [140, 27] 22 (.cases
  [] 71 (.cases [169, 170, 27] 28 (.leaf [37, 201, 20, 21, 202, 22, 116, 23, 117, 24, 118, 129, 25,
  119, 130, 58, 38, 31, 41]) (.cases [32, 197, 28] 42 (.cases [102, 22, 23, 24, 25] 70 (.cases
  [165, 117, 118, 129, 119, 130, 58, 38, 31, 41] 26 (.cases [50, 31, 41] 97 (.leaf [251, 89])
  (.leaf [249, 6])) (.leaf [40, 23, 24, 25])) (.cases [164, 27, 28, 102, 22, 23, 24, 25] 66 (.leaf
  [161, 49]) (.cases [] 45 (.cases [97, 98, 99, 91] 82 (.leaf [209, 45]) (.cases [] 98 (.cases []
  26 (.cases [50, 31, 41] 30 (.leaf [46, 47, 48, 49]) (.leaf [42, 43, 44, 45, 208, 157, 158, 62,
  17, 155, 19, 202, 20, 116, 117, 164, 118, 27, 119, 28, 102, 22, 23, 50, 24, 31, 25, 41])) (.cases
  [40, 23, 24, 25] 47 (.cases [] 48 (.cases [108, 109] 30 (.leaf [46, 47, 48, 108, 109]) (.leaf
  [42, 43, 44, 45, 208, 157, 158, 62, 17, 155, 19, 202, 20, 116, 117, 164, 118, 129, 27, 119, 130,
  28, 38, 31, 40, 41, 23, 24, 25])) (.cycle 56 [106, 107])) (.cycle 55 [105, 256]))) (.leaf [255,
  48, 49, 156, 157, 158, 62, 17, 155, 19, 202, 20, 116, 117, 164, 118, 129, 27, 119, 130, 28, 58,
  38, 31, 41]))) (.cases [94, 95, 96, 89] 30 (.cases [46, 47, 48, 49] 43 (.leaf [90, 91]) (.cases
  [] 47 (.cases [] 48 (.leaf [108, 109]) (.cycle 56 [106, 107])) (.leaf [105, 48, 49, 156, 157,
  158, 62, 17, 155, 19, 202, 20, 116, 117, 164, 118, 129, 27, 119, 130, 28, 58, 38, 31, 41])))
  (.leaf [42, 43, 44, 45]))))) (.cases [87, 28] 82 (.leaf [209, 45]) (.cases [] 101 (.leaf
  [263, 96, 89]) (.cases [] 26 (.cases [50, 31, 41] 56 (.cycle 65 [136, 262]) (.cases [] 45 (.cases
  [97, 98, 99, 91] 30 (.cases [46, 47, 48, 49] 97 (.leaf [251, 89]) (.leaf [249, 6])) (.leaf [42,
  43, 44, 45, 208, 157, 158, 62, 155, 19, 202, 20, 21, 116, 22, 87, 117, 23, 50, 28, 129, 24, 31,
  130, 25, 41, 58])) (.leaf [94, 95, 96, 89, 174, 172]))) (.leaf [40, 23, 24, 25])))))) (.cycle 20
  [53, 168, 62])) (.cases [34, 17, 155, 202, 116, 117, 118, 129, 119, 130, 58, 38, 31, 41] 28
  (.cases [] 24 (.cases [52, 20, 21, 22, 23, 24, 25] 26 (.cases [50, 31, 41] 30 (.cases
  [46, 47, 48, 49] 97 (.leaf [251, 89]) (.cases [249, 6] 95 (.leaf [250, 91]) (.leaf [233, 6])))
  (.leaf [42, 43, 44, 45])) (.leaf [40, 23, 24, 25])) (.cycle 19 [20, 36, 37])) (.cycle 19
  [32, 34, 248])))

/-- some of the cases -/
def real6Case31 : SumTree :=
  .cases [200, 19, 20, 154, 196, 17, 104, 22, 23, 24, 25] 34 (.leaf
  [67, 13, 200, 14, 19, 6, 20, 154, 17, 104, 22, 23, 24, 25]) (.cases [65, 27] 26 (.cases
  [50, 31, 41] 80 (.cases [205, 206, 19, 20, 154, 17, 104, 22, 23, 50, 24, 31, 25, 41] 84 (.cases
  [] 70 (.leaf [165, 205, 206, 19, 20, 154, 17, 104, 22, 23, 50, 24, 31, 25, 41]) (.leaf
  [164, 215, 19, 20, 154, 17, 104, 22, 23, 50, 24, 31, 25, 41])) (.leaf [214, 27, 28])) (.cases
  [202, 116, 117, 129, 130, 58] 28 (.leaf [37, 201, 20, 154, 202, 17, 104, 116, 22, 117, 23, 50,
  129, 24, 31, 130, 25, 41, 58]) (.cases [32, 197, 28] 22 (.cases [53, 27, 28] 42 (.cases
  [102, 22, 23, 50, 24, 31, 25, 41] 30 (.leaf [46, 47, 48, 49]) (.leaf [42, 43, 44, 45])) (.cases
  [87, 28] 30 (.cases [46, 47, 48, 49] 97 (.leaf [251, 89]) (.cases [249, 6] 95 (.leaf [250, 91])
  (.leaf [233, 6]))) (.leaf [42, 43, 44, 45]))) (.cases [34, 17, 104, 22, 23, 50, 24, 31, 25, 41]
  70 (.leaf [165, 117, 118, 129, 119, 130, 58]) (.leaf
  [164, 27, 28, 34, 17, 104, 22, 23, 50, 24, 31, 25, 41]))))) (.cases [40, 23, 24, 25] 80 (.cases
  [205, 206, 19, 20, 154, 17] 45 (.cases [97, 98, 99, 91] 47 (.cases [] 48 (.cases [108, 109] 30
  (.leaf [46, 47, 48, 49, 108, 109]) (.leaf [42, 43, 44, 45])) (.cycle 56 [106, 107])) (.leaf
  [105, 48, 49])) (.cases [94, 95, 96, 89] 30 (.cases [46, 47, 48, 49] 97 (.cases [] 95 (.cases
  [250, 91] 43 (.leaf [90, 91]) (.leaf [88, 89])) (.leaf [233, 6, 251, 89])) (.leaf [249, 6]))
  (.leaf [42, 43, 44, 45]))) (.cases [202, 116, 117, 129, 130, 58, 38, 31, 40, 41, 23, 24, 25] 42
  (.cases [] 28 (.leaf [37, 201, 20, 154, 202, 17, 116, 117, 129, 130, 58, 38, 31, 40, 41, 23, 24,
  25]) (.cases [32, 197, 28] 55 (.cases
  [132, 117, 118, 129, 119, 130, 58, 38, 31, 40, 41, 23, 24, 25] 71 (.cases [169, 170] 70 (.leaf
  [165, 117, 129, 130, 58, 38, 31, 40, 41, 23, 24, 25]) (.cases [164, 27, 28] 97 (.leaf [251, 89])
  (.leaf [249, 6]))) (.leaf [198, 158, 62, 132, 17, 117, 129, 130, 58, 38, 31, 40, 41, 23, 24,
  25])) (.cases [131] 70 (.cases [165, 117, 131, 118, 129, 62, 119, 130, 17, 58, 38, 31, 40, 41,
  23, 24, 25] 97 (.leaf [251, 89]) (.leaf [249, 6])) (.cases [164, 27, 28] 45 (.cases
  [97, 98, 99, 91] 71 (.cases [169, 170, 27, 28, 102, 22, 23, 24, 25] 47 (.cases [] 48 (.cases
  [108, 109] 30 (.leaf [46, 47, 48, 49, 108, 109]) (.leaf [42, 43, 44, 45])) (.cycle 56
  [106, 107])) (.leaf [105, 48, 49])) (.cases [] 22 (.cycle 45 [62, 53, 168]) (.cases [34, 17] 47
  (.cases [] 48 (.leaf [108, 109]) (.cycle 56 [106, 107])) (.leaf [105, 48, 49])))) (.cases
  [94, 95, 96, 89] 97 (.cases [] 73 (.cases [] 22 (.cases [] 71 (.cases
  [169, 170, 27, 28, 102, 22, 23, 24, 25] 95 (.cases [250] 43 (.leaf [90, 91]) (.cases [88, 89] 44
  (.leaf [93, 47, 48, 49]) (.cycle 40 [177, 178, 179]))) (.leaf [233, 6, 251, 89])) (.cycle 20
  [53, 168, 62])) (.leaf [34, 17])) (.leaf [175, 176, 43, 44, 45])) (.leaf [249, 6])))))) (.leaf
  [87, 28]))))

/-- some of the cases -/
def real6Case32 : SumTree :=
  .cases [199, 13, 14, 6] 80 (.leaf [205, 206, 19, 199, 20, 154, 13, 17, 104, 14, 22, 6, 23, 24,
  25]) (.cases [] 24 (.leaf [52, 20, 154, 17, 104, 22, 23, 24, 25]) (.cases [] 28 (.cycle 19
  [20, 36, 37]) (.cases [32] 53 (.cases [124, 117, 118, 129, 119, 130, 58, 38, 31, 41] 26 (.cases
  [] 22 (.cases [53] 71 (.cases [] 32 (.cases
  [64, 13, 124, 14, 117, 6, 118, 129, 119, 130, 58, 38, 31, 41] 34 (.leaf
  [67, 13, 124, 14, 117, 6, 129, 130, 58, 38, 31, 41]) (.leaf [65, 27, 28])) (.leaf [61, 169]))
  (.cycle 20 [53, 168, 62])) (.cases [34, 17, 104, 22, 23, 50, 24, 31, 25, 41] 30 (.cases
  [46, 47, 48, 49] 59 (.leaf [138, 139]) (.leaf [137, 25])) (.leaf [42, 43, 44, 45]))) (.leaf
  [40, 23, 24, 25])) (.cases [] 93 (.cases [241, 242, 243, 284, 10, 116, 117, 122, 129, 13, 130,
  14, 58, 38, 6, 31, 41] 90 (.leaf [253, 243, 284, 10, 116, 117, 122, 118, 129, 13, 119, 130, 14,
  38, 6, 31, 41]) (.leaf [246, 17, 104, 22, 23, 24, 25])) (.cases [] 96 (.cycle 23 [19, 238, 239])
  (.cases [] 78 (.cycle 58 [122, 194]) (.cycle 59 [193, 232, 237, 227, 117])))))))

/-- some of the cases -/
def real6Case33 : SumTree :=
  .cases [302, 10] 93 (.cases [] 109 (.cases [287, 242] 105 (.cases [274, 56] 68 (.cases [163, 56]
  92 (.leaf [245, 10]) (.cases [] 17 (.cases [] 50 (.cases [125, 126, 31, 41] 103 (.cases [] 107
  (.leaf [277, 9, 244, 22, 184, 125]) (.cases [] 34 (.cases [67, 13, 268, 14, 276, 6, 20, 302, 10]
  30 (.cases [46, 47, 48, 49] 95 (.leaf [250, 91]) (.cases [233, 6] 43 (.leaf [90, 91, 233, 6])
  (.leaf [88, 89]))) (.leaf [42, 43, 44, 45])) (.cases [65, 27] 42 (.cases
  [102, 22, 23, 184, 24, 117, 125, 25, 118, 126, 119, 31, 41] 30 (.leaf [46, 47, 48, 49]) (.leaf
  [42, 43, 44, 45])) (.cases [87, 28] 30 (.cases [46, 47, 48, 49] 97 (.leaf [251, 89]) (.leaf
  [249, 6])) (.leaf [42, 43, 44, 45]))))) (.cycle 22 [267, 189, 238, 274])) (.cases [] 133 (.leaf
  [345, 243, 244, 22, 50, 115]) (.cases [] 103 (.cases [] 90 (.leaf [253, 243, 244, 22, 50, 115])
  (.cases [] 106 (.leaf [279, 243, 246, 104, 22, 50, 115]) (.cases [] 107 (.leaf
  [277, 9, 244, 22, 50, 115]) (.cycle 75 [275, 268, 276, 238])))) (.leaf
  [267, 189, 302, 244, 22, 50, 115])))) (.leaf
  [15, 12, 232, 13, 10, 244, 14, 22, 6, 23, 50, 24, 31, 25, 41]))) (.cases [162, 62, 17, 104, 22,
  23, 184, 50, 24, 117, 31, 25, 118, 41, 119] 30 (.cases [46, 47, 48, 49] 97 (.leaf [251, 89])
  (.cases [249, 6] 95 (.leaf [250, 91]) (.leaf [233, 6]))) (.leaf [42, 43, 44, 45]))) (.cases
  [273, 243, 10] 50 (.cases [125, 126, 31, 41] 60 (.cases [141, 56, 273, 243, 10] 92 (.cases
  [245, 10] 74 (.leaf [183, 56]) (.leaf [182, 99, 91])) (.leaf
  [244, 22, 184, 117, 125, 118, 126, 119, 31, 41])) (.cases [140, 27] 42 (.cases
  [102, 22, 23, 184, 24, 117, 125, 25, 118, 126, 119, 31, 41] 30 (.cases [46, 47, 48, 49] 71 (.leaf
  [169, 170, 27, 102, 22, 23, 184, 24, 117, 125, 25, 118, 126, 119, 31, 41]) (.leaf
  [198, 158, 62, 17])) (.leaf [42, 43, 44, 45])) (.cases [87, 28] 46 (.leaf
  [101, 58, 121, 117, 125, 118, 126, 119, 31, 41]) (.cases [] 91 (.cycle 25 [87, 283, 297, 100])
  (.cases [] 92 (.leaf [245, 10, 247, 28]) (.leaf [244, 22, 87, 23, 184, 28, 24, 117, 125, 25, 118,
  126, 119, 31, 41])))))) (.cases [115, 116, 117, 118, 119] 90 (.cases [253, 243] 92 (.cases
  [245, 10] 42 (.cases [] 71 (.leaf [357, 27, 102, 245]) (.cases [] 22 (.leaf [314, 102, 245])
  (.cases [] 68 (.leaf [163, 56]) (.cases [] 60 (.leaf [141, 162, 62, 104, 245]) (.leaf
  [140, 27, 34, 104, 245]))))) (.leaf [87, 28])) (.leaf [244, 22, 50, 115])) (.leaf
  [246, 104, 22, 50, 115])))) (.cycle 23 [241, 286])) (.cycle 19 [238, 239, 19])

/-- some of the cases -/
def real6Case34 : SumTree :=
  .cases [] 103 (.cases [289, 268, 56, 9, 10, 240, 20] 34 (.cases
  [67, 13, 289, 268, 14, 56, 9, 6, 10, 240, 20] 71 (.leaf [169, 170, 67, 13, 289, 268, 14, 56, 355,
  9, 6, 104, 10, 240, 22, 20, 50, 31, 41]) (.cases [] 22 (.cycle 20 [53, 168, 62]) (.cases [] 20
  (.leaf [54, 20]) (.cases [] 24 (.leaf [52, 20, 21, 22, 184, 50, 117, 31, 118, 41, 119]) (.leaf
  [36, 34, 17, 104, 22, 23, 184, 50, 24, 117, 31, 25, 118, 41, 119]))))) (.cases [65, 27] 50
  (.cases [125, 126, 31, 41] 71 (.cases [169, 170, 27] 42 (.leaf
  [102, 22, 23, 184, 24, 117, 125, 25, 118, 126, 119, 31, 41]) (.cases [87, 28] 68 (.cases
  [163, 56] 30 (.cases [46, 47, 48, 49] 97 (.leaf [251, 89]) (.leaf [249, 6])) (.leaf
  [42, 43, 44, 45])) (.leaf [162, 62, 104, 22, 87, 23, 184, 28, 24, 117, 125, 25, 118, 126, 119,
  31, 41]))) (.cases [198, 158, 62, 17, 104, 22, 23, 184, 24, 117, 125, 25, 118, 126, 119, 31, 41]
  68 (.leaf [163, 56]) (.cases [] 60 (.leaf [141, 162, 62, 104, 22, 184, 125]) (.leaf [140, 198,
  158, 62, 17, 104, 22, 23, 184, 24, 117, 125, 25, 118, 126, 119, 31, 41])))) (.cases
  [115, 116, 117, 118, 119] 22 (.cases [53, 27] 42 (.leaf [102, 22, 50, 115]) (.cases [87, 28] 140
  (.leaf [366, 20]) (.cases [] 20 (.leaf [54, 20, 365, 130, 58, 38, 115, 116, 117, 118, 119])
  (.cases [] 75 (.leaf [188, 19, 21, 22, 50, 115]) (.cases [] 65 (.leaf [155, 19, 21, 22, 50, 115])
  (.cases [] 79 (.leaf [200, 19, 154, 104, 22, 50, 115]) (.cycle 17 [268, 9, 237, 199])))))))
  (.leaf [34, 104, 22, 50, 115])))) (.cycle 13 [232, 237, 55, 267])

/-- some of the cases -/
def real6Case35 : SumTree :=
  .cases [18, 19, 20] 65 (.cases [155, 19, 20] 50 (.cases [125, 126, 31, 41] 20 (.cases [54, 20] 28
  (.cases [] 32 (.leaf [64, 13, 14, 6]) (.cases [] 42 (.cases [] 34 (.leaf [67, 13, 61, 14, 62, 6,
  17, 104, 22, 54, 184, 20, 117, 125, 118, 126, 119, 31, 41]) (.leaf [65, 27, 102, 22, 54, 23, 184,
  20, 24, 117, 125, 25, 118, 126, 119, 31, 41])) (.leaf [87, 28, 37, 20]))) (.leaf [32, 28]))
  (.cases [21, 22, 23, 184, 24, 117, 125, 25, 118, 126, 119, 31, 41] 30 (.cases [46, 47, 48, 49] 97
  (.leaf [251, 89]) (.leaf [249, 6])) (.leaf [42, 43, 44, 45]))) (.cases [115, 116, 117, 118, 119]
  20 (.cases [54, 20] 42 (.cases [] 71 (.leaf [357, 27, 102, 22, 50, 115]) (.cases [] 22 (.leaf
  [314, 102, 22, 50, 115]) (.cases [] 68 (.leaf [163, 56]) (.cases [] 60 (.leaf
  [141, 162, 62, 104, 22, 50, 115]) (.leaf [140, 27, 34, 17, 104, 22, 54, 23, 50, 20, 24, 31, 115,
  25, 41, 116, 117, 118, 119]))))) (.leaf [87, 28])) (.leaf [21, 22, 50, 115]))) (.cases
  [154, 17, 104, 22, 23, 184, 50, 24, 117, 31, 25, 118, 41, 119] 50 (.cases [125, 126, 31, 41] 24
  (.leaf [52, 154, 104, 22, 184, 125]) (.cases [] 79 (.leaf [200, 19, 20, 154, 17, 104, 22, 23,
  184, 24, 117, 125, 25, 118, 126, 119, 31, 41]) (.cases [199, 13, 14, 6] 42 (.cases [] 34 (.cases
  [] 22 (.leaf [53, 27, 67, 28, 102, 13, 22, 14, 23, 184, 6, 24, 117, 25, 118, 119]) (.cases [] 28
  (.cycle 19 [20, 36, 37]) (.leaf [32, 197, 34, 67, 17, 104, 13, 22, 14, 184, 6, 117, 125, 118,
  126, 119, 31, 41]))) (.leaf [65, 27, 102, 22, 184, 125])) (.leaf [87, 28])))) (.cases
  [115, 116, 117, 118, 119] 24 (.leaf [52, 154, 104, 22, 50, 115]) (.cases [] 79 (.leaf
  [200, 19, 154, 104, 22, 50, 115]) (.cases [199, 13, 14, 6] 42 (.cases [] 71 (.leaf
  [357, 27, 102, 22, 50, 115]) (.cases [] 22 (.leaf [314, 102, 22, 50, 115]) (.cases [] 28 (.cycle
  19 [20, 36, 37]) (.leaf [32, 102, 22, 50, 115])))) (.leaf [87, 28])))))

/-- some of the cases -/
def real6Case36 : SumTree :=
  .cases [302, 10] 18 (.leaf [153, 12, 232, 13, 10, 14, 6]) (.cases [] 93 (.cases [] 109 (.cases
  [287, 242] 105 (.cases [274, 56] 70 (.cases [] 68 (.cases [163, 56] 38 (.cases [] 17 (.cases []
  103 (.cases [] 113 (.cases [301] 107 (.leaf
  [277, 278, 355, 9, 56, 17, 104, 10, 22, 103, 23, 41, 24, 25]) (.cases [276, 20, 302, 10] 21
  (.cases [] 23 (.cases [] 92 (.leaf [245, 10]) (.cases [] 106 (.cases
  [279, 243, 10, 244, 22, 23, 184, 24, 117, 25, 118, 119] 42 (.cases [] 117 (.leaf
  [312, 10, 244, 22, 23, 184, 24, 117, 25, 118, 119]) (.cases
  [311, 102, 22, 23, 184, 24, 117, 25, 118, 119] 133 (.leaf [345, 243, 274, 10, 56, 311, 28, 102,
  22, 23, 184, 24, 117, 25, 118, 119]) (.leaf [344, 62, 163, 17, 56]))) (.leaf [87, 28, 114, 41]))
  (.cycle 14 [276, 238, 275, 268]))) (.cycle 2 [31, 29, 30])) (.leaf
  [26, 27, 77, 28, 23, 184, 24, 117, 25, 118, 119]))) (.cycle 17 [268, 300, 12])) (.cycle 22
  [267, 189, 238, 274])) (.leaf [15, 12, 232, 16, 13, 10, 17, 104, 14, 22, 6, 23, 24, 25])) (.leaf
  [75, 27, 165, 28, 117, 118, 119])) (.cases [162, 62, 17, 104, 22, 23, 184, 24, 117, 25, 118, 119]
  32 (.leaf [64, 13, 14, 6]) (.cases [] 107 (.leaf [277, 278, 162, 62, 104, 22, 184]) (.cases [] 17
  (.cases [] 103 (.cases [] 34 (.leaf [67, 13, 289, 268, 14, 56, 162, 276, 6, 62, 302, 17, 104, 10,
  22, 23, 184, 24, 117, 25, 118, 119]) (.cases [65] 60 (.leaf
  [141, 56, 162, 62, 17, 104, 22, 103, 184, 41, 117, 118, 119]) (.cases [140, 27, 28] 71 (.cases []
  74 (.leaf [183, 162, 169]) (.cases [] 113 (.leaf [301, 276, 20, 302, 238, 10, 274, 56, 162, 182,
  62, 169, 99, 17, 104, 170, 91, 22, 27, 23, 184, 28, 24, 117, 25, 118, 119]) (.cycle 17
  [268, 300, 12]))) (.cases [198, 158, 62, 17, 104, 22, 103, 23, 184, 41, 24, 117, 25, 118, 119] 74
  (.leaf [183, 56, 140, 198, 158, 62, 17, 104, 22, 23, 184, 24, 117, 25, 118, 119]) (.leaf
  [182, 99, 91]))))) (.cycle 75 [274, 267, 189, 238])) (.leaf [15, 12, 61, 62, 104, 22, 184])))))
  (.leaf [164, 27, 28])) (.cases [273, 243, 10] 92 (.cases [245, 10] 91 (.cases [] 32 (.leaf
  [64, 13, 14, 6]) (.cases [] 42 (.cases [] 71 (.leaf [357, 27, 102, 245]) (.cases [] 22 (.leaf
  [314, 102, 245]) (.cases [] 34 (.leaf [67, 13, 61, 14, 62, 6, 17, 104, 22, 245, 23, 184, 10, 24,
  117, 25, 118, 119]) (.leaf [65, 27, 34, 104, 245])))) (.cycle 25 [87, 283, 297, 100]))) (.leaf
  [247, 28])) (.cases [244, 22, 23, 184, 24, 117, 25, 118, 119] 117 (.cases
  [312, 10, 244, 22, 103, 23, 184, 41, 24, 117, 25, 118, 119] 97 (.leaf [251, 89]) (.leaf
  [249, 6])) (.cases [311] 22 (.cases [] 71 (.cases [169, 170, 27] 103 (.cases [] 91 (.cycle 15
  [10, 311, 252]) (.cases [] 113 (.leaf [301, 278, 56, 273, 243, 10, 244, 247, 22, 103, 28, 23,
  184, 41, 24, 117, 25, 118, 119]) (.cycle 17 [268, 300, 12]))) (.cases [310] 42 (.cases
  [102, 22, 103, 23, 184, 41, 24, 117, 25, 118, 119] 32 (.leaf [64, 13, 14, 6]) (.leaf [61, 62,
  169, 17, 170, 27, 28, 102, 22, 103, 23, 184, 41, 24, 117, 25, 118, 119])) (.cases [87, 28] 32
  (.leaf [64, 13, 14, 6]) (.cases [] 106 (.leaf [279, 243, 10, 244, 22, 87, 23, 184, 28, 24, 117,
  25, 118, 119]) (.leaf [275, 61, 169]))))) (.cycle 20 [53, 168, 62])) (.cases
  [34, 17, 104, 22, 103, 23, 184, 41, 24, 117, 25, 118, 119] 30 (.cases [46, 47, 48, 49] 97 (.leaf
  [251, 89]) (.cases [249, 6] 95 (.leaf [250, 91]) (.leaf [233, 6]))) (.leaf [42, 43, 44, 45]))))))
  (.cycle 23 [241, 286])) (.cycle 19 [238, 239, 19]))

/-- some of the cases -/
def real6Case37 : SumTree :=
  .cases [] 103 (.cases [268, 9, 10] 79 (.cases [200, 19, 55, 20, 56] 68 (.cases [] 24 (.cases
  [52, 20] 65 (.cases [155, 55, 56] 20 (.leaf [54, 20]) (.leaf
  [21, 22, 23, 184, 24, 117, 25, 118, 119])) (.leaf
  [154, 196, 17, 104, 163, 22, 103, 56, 23, 41, 24, 25])) (.cases [36] 22 (.cases [] 42 (.cases []
  75 (.leaf [188, 19, 55, 20, 56, 36, 102, 22, 103, 23, 184, 41, 24, 117, 25, 118, 119]) (.leaf
  [187, 62, 163, 17, 53, 56, 27, 102, 22, 23, 184, 24, 117, 25, 118, 119])) (.cases [87, 28] 75
  (.leaf [188, 19, 55, 20, 56]) (.leaf [187, 62, 163, 104, 56, 87, 28]))) (.leaf
  [34, 68, 17, 104, 163, 22, 56, 23, 184, 24, 117, 25, 118, 119]))) (.leaf
  [162, 62, 17, 104, 22, 103, 184, 41, 117, 118, 119])) (.cycle 17 [268, 9, 237, 199])) (.cycle 13
  [232, 237, 55, 267])

/-- some of the cases -/
def real6Case38 : SumTree :=
  .cases [200, 19, 20] 20 (.cases [54, 20] 21 (.cases [] 23 (.cases [] 117 (.leaf [312, 10])
  (.cases [] 60 (.cases [] 71 (.leaf [169, 170, 141, 56, 18, 19, 20]) (.cases [] 91 (.cycle 31
  [252, 10, 311]) (.cases [] 103 (.cases [268, 9, 10] 22 (.cycle 20 [53, 168, 62]) (.cases [] 34
  (.cycle 30 [67, 268, 9, 290]) (.leaf
  [65, 27, 141, 34, 56, 17, 104, 22, 54, 184, 20, 117, 118, 119]))) (.cycle 30
  [141, 267, 232, 290])))) (.cases [140] 34 (.cases [67, 13, 14, 6] 32 (.cases [64, 13, 200, 14, 6]
  88 (.leaf [226, 19, 213, 20, 126, 40, 23, 184, 24, 117, 25, 118, 119]) (.leaf
  [225, 58, 38, 40, 23, 184, 24, 117, 25, 118, 119])) (.leaf
  [61, 62, 17, 104, 22, 54, 184, 20, 117, 118, 119])) (.cases [65, 27] 71 (.cases [169, 170, 27] 42
  (.leaf [102, 22, 103, 54, 23, 184, 41, 20, 24, 117, 25, 118, 119]) (.cases [87, 28] 85 (.cases []
  28 (.leaf [37, 20, 218, 223, 41, 40, 23, 184, 24, 117, 25, 118, 119]) (.leaf
  [32, 28, 114, 110, 41, 40, 23, 184, 24, 117, 25, 118, 119])) (.cycle 2 [31, 216, 217]))) (.cases
  [] 22 (.cycle 45 [62, 53, 168]) (.leaf
  [34, 17, 104, 22, 54, 23, 184, 20, 24, 117, 25, 118, 119])))))) (.cycle 2 [31, 29, 30])) (.leaf
  [26, 27, 28])) (.cases [] 24 (.cases [52, 20, 21, 22, 103, 23, 184, 41, 24, 117, 25, 118, 119] 65
  (.cases [] 28 (.cases [] 47 (.cases [] 68 (.leaf
  [163, 56, 18, 19, 20, 21, 22, 103, 184, 41, 117, 118, 119]) (.cases [] 60 (.leaf [141, 56, 162,
  62, 155, 19, 20, 21, 22, 23, 184, 24, 117, 25, 118, 119]) (.cases [140] 32 (.leaf [64, 13, 200,
  14, 19, 6, 20, 21, 22, 103, 184, 41, 117, 118, 119]) (.cases [] 34 (.leaf [67, 13, 61, 14, 62, 6,
  17, 155, 19, 20, 21, 22, 103, 184, 41, 117, 118, 119]) (.cases [65, 27] 22 (.cases [53, 27, 37,
  20, 21, 22, 103, 23, 184, 41, 24, 117, 25, 118, 119] 48 (.leaf [108, 109]) (.cycle 56
  [106, 107])) (.leaf [34, 155, 19, 20, 21, 22, 103, 23, 184, 41, 24, 117, 25, 118, 119]))))))
  (.leaf [105, 48, 49])) (.cycle 32 [52, 32, 28])) (.leaf
  [154, 17, 104, 22, 23, 184, 24, 117, 25, 118, 119])) (.cases [] 28 (.cycle 19 [20, 36, 37])
  (.cases [32, 197, 28] 71 (.cases [] 22 (.cases [] 65 (.cases
  [155, 19, 20, 21, 32, 22, 28, 23, 184, 24, 117, 25, 118, 119] 42 (.leaf
  [102, 22, 103, 23, 184, 41, 24, 117, 25, 118, 119]) (.cases [87, 28] 30 (.cases [46, 47, 48, 49]
  97 (.leaf [251, 89]) (.leaf [249, 6])) (.leaf [42, 43, 44, 45]))) (.cases
  [154, 17, 104, 53, 22, 27, 23, 184, 28, 24, 117, 25, 118, 119] 21 (.cases [] 23 (.cases [] 42
  (.leaf [102, 22, 23, 184, 24, 117, 25, 118, 119]) (.leaf [87, 28, 114, 41])) (.cycle 2
  [31, 29, 30])) (.leaf [26, 27, 28]))) (.leaf [68, 169])) (.cases
  [198, 158, 62, 17, 104, 22, 23, 184, 24, 117, 25, 118, 119] 23 (.cases [] 42 (.cases
  [102, 22, 103, 23, 184, 41, 24, 117, 25, 118, 119] 30 (.leaf [46, 47, 48, 49]) (.leaf
  [42, 43, 44, 45])) (.leaf [87, 28])) (.cycle 45 [62, 104, 103, 29, 168])))))

/-- some of the cases -/
def real6Case39 : SumTree :=
  .cases [199, 13, 14, 6] 70 (.cases [] 38 (.cases [] 60 (.leaf
  [141, 56, 18, 19, 199, 20, 13, 14, 6]) (.cases [140, 27] 32 (.cases [64, 13, 14, 6] 65 (.cases
  [155, 19, 199, 20, 13, 14, 6] 20 (.cases [54, 20] 30 (.cases [46, 47, 48, 49] 43 (.leaf [90, 91])
  (.leaf [88, 89])) (.leaf [42, 43, 44, 45])) (.cases [21, 22, 23, 184, 24, 117, 25, 118, 119] 45
  (.cases [97, 98, 99, 91] 22 (.cases [53, 27] 28 (.leaf [37, 201, 20, 21, 199, 22, 103, 13, 184,
  41, 14, 117, 6, 118, 119]) (.leaf [32, 28])) (.leaf [34, 17, 155, 19, 199, 20, 21, 13, 22, 14,
  23, 184, 6, 24, 117, 25, 118, 119])) (.leaf [94, 95, 96, 89]))) (.cases [154, 17, 104] 21 (.cases
  [] 23 (.cases [] 28 (.leaf [37, 20, 154, 196, 17, 104, 64, 22, 13, 23, 184, 14, 24, 117, 6, 25,
  118, 119]) (.cases [32] 22 (.cases [53, 27] 42 (.leaf
  [102, 22, 103, 23, 184, 41, 24, 117, 25, 118, 119]) (.cases [87, 28, 114, 41] 47 (.cases [] 48
  (.leaf [108, 109]) (.cycle 56 [106, 107])) (.leaf [105, 48, 49]))) (.leaf [34, 68, 17, 104, 64,
  22, 103, 13, 23, 184, 41, 14, 24, 117, 6, 25, 118, 119]))) (.cycle 2 [31, 29, 30])) (.leaf
  [26, 27, 77, 28, 23, 184, 24, 117, 25, 118, 119]))) (.cases
  [61, 62, 17, 104, 22, 103, 23, 184, 41, 24, 117, 25, 118, 119] 30 (.leaf [46, 47, 48, 49]) (.leaf
  [42, 43, 44, 45])))) (.leaf [75, 27, 165, 28, 117, 118, 119])) (.leaf [164, 27, 28])

/-- some of the cases -/
def real6Case40 : SumTree :=
  .cases [274, 56] 55 (.cases [] 38 (.cases [] 68 (.cases [163, 56] 23 (.cases [] 17 (.cases [] 41
  (.cases [] 103 (.cases [] 113 (.cases [301] 107 (.leaf
  [277, 278, 355, 9, 56, 17, 10, 244, 103, 41]) (.cases [276, 20] 106 (.cases [279, 243, 10] 42
  (.cases [] 60 (.cases [] 117 (.cases [312, 10, 244, 22, 23, 24, 25] 30 (.cases [46, 47, 48, 49]
  97 (.leaf [251, 89]) (.cases [249, 6] 95 (.leaf [250, 91]) (.leaf [233, 6]))) (.leaf
  [42, 43, 44, 45])) (.cases [311] 22 (.cases [] 90 (.cases [253, 243, 10] 91 (.cycle 15
  [10, 311, 252]) (.leaf [247, 290, 102, 141, 22, 103, 56, 23, 41, 24, 25])) (.leaf
  [246, 17, 53, 27, 141, 56, 102, 22, 23, 24, 25])) (.leaf [34, 68, 17, 163, 56]))) (.leaf
  [140, 27, 28, 102, 22, 23, 24, 25])) (.leaf [87, 28, 114, 41])) (.cycle 14
  [276, 238, 275, 268]))) (.cycle 17 [268, 300, 12])) (.cycle 22 [267, 189, 238, 274])) (.leaf
  [86, 22, 23, 24, 25])) (.leaf [15, 12, 232, 13, 10, 14, 6])) (.leaf
  [113, 29, 28, 77, 23, 24, 25])) (.cases [162, 62, 17] 107 (.leaf
  [277, 278, 9, 56, 162, 10, 62, 132, 17, 117, 118, 119]) (.cases [] 17 (.cases [] 41 (.cases []
  103 (.cases [] 34 (.cases [67, 13, 289, 268, 14, 56, 162, 276, 6, 62, 20, 302, 17, 104, 10, 22,
  23, 24, 25] 74 (.cases [] 30 (.cases [46, 47, 48, 49] 95 (.leaf
  [250, 234, 91, 183, 56, 162, 62, 17, 104, 22, 23, 24, 25]) (.leaf [233, 6])) (.leaf
  [42, 43, 44, 45])) (.leaf [182, 99, 91])) (.cases [65] 60 (.leaf
  [141, 56, 162, 62, 17, 104, 22, 103, 23, 41, 24, 25]) (.cases [] 33 (.cases [] 71 (.cases [] 106
  (.leaf [279, 274, 162, 169]) (.cycle 19 [238, 275, 268, 276])) (.cases [] 106 (.leaf [279, 243,
  274, 10, 56, 140, 27, 198, 28, 158, 62, 69, 17, 121, 117, 118, 119]) (.cycle 19
  [238, 275, 268, 276]))) (.leaf [63, 62, 17, 104, 22, 103, 23, 41, 24, 25])))) (.cycle 19
  [238, 274, 267, 189])) (.leaf [86, 22, 23, 24, 25])) (.leaf
  [15, 12, 232, 13, 10, 244, 14, 22, 6, 23, 24, 25])))) (.leaf [75, 27, 28])) (.leaf
  [131, 62, 17, 104, 22, 23, 24, 25])

/-- some of the cases -/
def real6Case41 : SumTree :=
  .cases [] 38 (.cases [] 107 (.leaf [277, 278, 273]) (.cases [] 41 (.cases [] 90 (.cases
  [253, 243, 10] 48 (.cases [108, 109] 21 (.cases [] 23 (.cases [] 60 (.cases [141, 56] 68 (.leaf
  [163, 56, 273, 243, 297, 10, 244, 58, 121, 103, 117, 41, 118, 119]) (.leaf
  [162, 62, 17, 253, 243, 10, 244, 22, 103, 23, 41, 24, 25])) (.cases [140, 27] 22 (.cases [] 71
  (.cases [169, 170, 27, 28] 91 (.cases [252, 10, 244, 22, 103, 23, 41, 24, 25] 43 (.cases [90, 91]
  44 (.cases [93, 47, 48, 49, 108, 109] 45 (.cases [97, 98, 99, 91] 110 (.leaf [296, 89]) (.leaf
  [295, 6])) (.leaf [94, 95, 96, 89])) (.leaf [92, 43, 44, 45])) (.leaf [88, 89])) (.cases
  [247, 28] 42 (.cases [102, 22, 103, 23, 41, 24, 25] 57 (.cases [] 82 (.leaf [209, 207, 210])
  (.cases [] 45 (.cases [97, 98, 99] 95 (.cases [] 43 (.cases [] 102 (.cases [] 30 (.cases
  [46, 47, 48, 108, 109] 97 (.leaf [251, 89, 90, 91]) (.leaf [249, 6, 250, 91])) (.leaf
  [42, 43, 44, 266, 210])) (.cycle 56 [265, 207])) (.leaf [88, 89])) (.leaf [233, 6])) (.cases
  [94, 95, 96, 89] 30 (.leaf [46, 47, 48, 49, 108, 109]) (.leaf [42, 43, 44, 45, 208, 157, 158, 62,
  253, 243, 10, 247, 102, 22, 103, 23, 41, 24, 25])))) (.leaf [134, 44, 45])) (.cases
  [87, 28, 114, 41] 30 (.leaf [46, 47, 48, 108, 109]) (.leaf [42, 43, 44, 45])))) (.cycle 20
  [53, 168, 62])) (.leaf [34, 17, 253, 243, 10, 244, 22, 103, 23, 41, 24, 25]))) (.cycle 2
  [31, 29, 30])) (.leaf [26, 27, 77, 28, 23, 24, 25])) (.cases [106, 49] 21 (.cases [] 23 (.cases
  [] 47 (.cycle 56 [106, 107]) (.cases [105, 48, 49] 42 (.cases [] 60 (.cases
  [141, 56, 273, 243, 10, 244, 22, 23, 24, 25] 43 (.cases [] 59 (.leaf [138, 139]) (.cases [] 45
  (.cases [97, 98, 99, 91] 103 (.cases [] 113 (.cases [301, 276, 20] 110 (.leaf [296, 89]) (.leaf
  [295, 6])) (.cycle 17 [268, 300, 12])) (.leaf [310, 13, 14, 6])) (.leaf [94, 95, 96, 89])))
  (.leaf [88, 89])) (.cases [140, 27] 71 (.cases [169, 170, 27, 28] 91 (.cases
  [252, 10, 244, 22, 103, 23, 41, 24, 25] 97 (.leaf [251, 89]) (.leaf [249, 6])) (.cases
  [247, 28, 102, 22, 103, 23, 41, 24, 25] 43 (.cases [] 45 (.cases [97, 98, 99, 91] 66 (.leaf
  [161, 49]) (.leaf [156, 157, 158, 62, 17, 253, 243, 10, 247, 28, 102, 22, 23, 24, 25])) (.leaf
  [94, 95, 96, 89])) (.leaf [88, 89]))) (.cases [] 22 (.cycle 45 [62, 53, 168]) (.leaf
  [34, 17, 253, 243, 10, 244, 22, 103, 23, 41, 24, 25])))) (.leaf [87, 28, 114, 41]))) (.cycle 2
  [31, 29, 30])) (.leaf [26, 27, 77, 28, 23, 24, 25]))) (.cases [246, 285, 17] 21 (.cases [] 23
  (.cases [] 117 (.leaf [312, 10, 246, 285, 17, 104, 69, 22, 103, 121, 23, 41, 117, 24, 118, 25,
  119]) (.cases [] 91 (.cycle 15 [10, 311, 252]) (.cases [247, 28] 32 (.leaf [64, 13, 14, 6])
  (.cases [] 71 (.cases [] 103 (.leaf [289, 273, 243, 285, 169]) (.cases [310] 22 (.cases [] 106
  (.cases [279, 243, 10, 246, 17, 104, 53, 22, 27, 23, 28, 24, 25] 35 (.leaf [70, 121, 117, 125,
  118, 361, 126, 119, 22, 31, 23, 41, 24, 25]) (.leaf [66, 27, 28, 114, 41])) (.leaf
  [275, 61, 169])) (.cycle 45 [169, 170, 27, 68]))) (.cases [] 22 (.cycle 45 [62, 53, 168]) (.cases
  [34, 17, 104, 22, 103, 23, 41, 24, 25] 30 (.cases [46, 47, 48, 49] 97 (.leaf [251, 89]) (.cases
  [249, 6] 95 (.leaf [250, 91]) (.leaf [233, 6]))) (.leaf [42, 43, 44, 45]))))))) (.cycle 2
  [31, 29, 30])) (.leaf [26, 27, 77, 28, 23, 24, 25]))) (.leaf [86, 22, 23, 24, 25]))) (.leaf
  [75, 27, 28])

/-- some of the cases -/
def real6Case42 : SumTree :=
  .cases [] 103 (.cases [268, 9, 10] 85 (.cases [] 79 (.cases [200, 19, 55, 20, 56] 70 (.cases []
  21 (.cases [] 111 (.leaf [363, 304, 56, 355, 152, 9, 17, 28, 10]) (.cases [] 23 (.cases [] 117
  (.leaf [312, 10, 240, 237, 20, 55, 56, 358, 121, 117, 118, 119]) (.cases [] 68 (.cases [] 35
  (.cases [] 20 (.leaf [54, 20, 218, 41]) (.cases [] 42 (.cases [] 41 (.cases [] 24 (.cases
  [52, 20, 21, 22, 23, 24, 25] 65 (.cases [] 91 (.cycle 31 [252, 10, 311]) (.cases [] 28 (.cases []
  34 (.cycle 30 [67, 268, 9, 290]) (.cases [65] 71 (.leaf [169, 170, 27, 37, 201, 20, 21, 55, 22,
  103, 56, 358, 23, 41, 121, 24, 117, 25, 118, 119]) (.leaf [198, 158, 62, 155, 55, 56, 358, 121,
  117, 125, 118, 126, 119, 31, 41]))) (.cycle 32 [52, 32, 28]))) (.leaf
  [154, 196, 17, 104, 163, 22, 56, 358, 23, 58, 24, 25])) (.cases [36] 22 (.cases [] 60 (.cases []
  65 (.cases [155, 19, 20] 28 (.cycle 19 [20, 36, 37]) (.leaf [32, 197, 102, 141, 22, 103, 56, 358,
  23, 41, 121, 24, 117, 25, 118, 119])) (.leaf
  [154, 17, 53, 27, 141, 56, 28, 102, 22, 103, 23, 41, 24, 25])) (.leaf
  [140, 27, 70, 28, 102, 58, 22, 103, 23, 41, 24, 25])) (.cases [34, 68, 17, 163, 56] 97 (.leaf
  [251, 89]) (.leaf [249, 6])))) (.leaf [86, 22, 23, 24, 25])) (.leaf [87, 28, 114, 41]))) (.leaf
  [66, 27, 165, 28, 117, 125, 118, 361, 126, 119, 22, 31, 23, 41, 24, 25])) (.leaf
  [162, 62, 17, 104, 22, 23, 24, 25]))) (.cycle 2 [31, 29, 165, 180]))) (.cycle 2 [26, 165, 180]))
  (.leaf [164, 27, 28])) (.cycle 17 [268, 9, 237, 199])) (.cycle 2 [31, 216, 217])) (.cycle 13
  [232, 237, 55, 267])

/-- some of the cases -/
def real6Case43 : SumTree :=
  .cases [108, 109] 85 (.cases [] 23 (.cases [] 60 (.cases [141, 56, 18, 19, 20] 133 (.leaf
  [345, 243, 329, 10, 206, 19, 20]) (.cases [] 90 (.cycle 20 [253, 344, 62]) (.cases [] 91 (.leaf
  [252, 10]) (.cases [] 28 (.cases [] 20 (.leaf [54, 20, 218, 41]) (.cases [21, 22, 23, 24, 25] 103
  (.cases [] 113 (.cases [301, 9, 10] 56 (.leaf [136, 96, 89]) (.cases [] 24 (.cases [] 100 (.cases
  [] 72 (.cycle 69 [173, 174]) (.leaf [171, 260, 6])) (.leaf [258, 172])) (.cycle 19
  [20, 36, 37]))) (.cycle 17 [268, 300, 12])) (.cycle 30 [141, 267, 232, 290]))) (.cycle 30
  [141, 18, 19, 197]))))) (.cases [140] 34 (.cases [67, 13, 14, 6] 32 (.cases
  [64, 13, 200, 14, 19, 6, 20] 88 (.leaf
  [226, 19, 202, 20, 116, 117, 118, 361, 119, 22, 23, 24, 25]) (.leaf
  [225, 58, 121, 117, 118, 361, 119, 22, 23, 24, 25])) (.leaf
  [61, 62, 17, 104, 155, 22, 19, 23, 20, 24, 25])) (.cases [65, 27] 22 (.cases [] 71 (.cases
  [169, 170, 27, 28] 42 (.cases [102, 22, 23, 24, 25] 28 (.cases [37, 20] 20 (.leaf
  [54, 20, 218, 41]) (.cases [21, 22, 103, 23, 41, 24, 25] 101 (.leaf [263, 96, 89]) (.cases [] 45
  (.cases [97, 98, 99] 43 (.cases [] 56 (.cycle 65 [136, 262]) (.cases [] 97 (.leaf
  [251, 89, 90, 174, 91, 172]) (.cases [249, 6] 100 (.cases [] 72 (.cycle 69 [173, 174]) (.leaf
  [171, 260, 6])) (.leaf [258, 172])))) (.leaf [88, 89])) (.cases [94, 95, 96, 89] 97 (.cases [] 95
  (.cases [250, 91] 43 (.leaf [90, 91]) (.leaf [88, 89])) (.leaf [233, 6, 251, 89])) (.leaf
  [249, 6]))))) (.cases [32, 28, 102, 22, 103, 23, 41, 24, 25] 45 (.cases [97, 98, 99, 91] 95
  (.cases [] 43 (.cases [] 101 (.leaf [263, 96, 89, 90, 91]) (.cases [] 97 (.cases
  [251, 89, 90, 91] 56 (.cycle 65 [136, 262]) (.cases [] 100 (.cycle 9 [251, 174, 260]) (.leaf
  [258, 172]))) (.cases [249, 6, 250, 91] 56 (.cycle 65 [136, 262]) (.cases [] 100 (.cases [] 72
  (.cycle 69 [173, 174]) (.leaf [171, 172, 260, 6])) (.leaf [258, 172]))))) (.leaf [88, 89]))
  (.leaf [233, 6])) (.cases [94, 95, 96, 89] 97 (.cases [] 95 (.cases [250] 43 (.leaf [90, 91])
  (.cases [88, 89] 56 (.cases [] 100 (.leaf [260, 6, 250, 88, 89]) (.leaf [258, 172, 136, 96, 89]))
  (.leaf [174, 172]))) (.leaf [233, 6, 251, 89])) (.leaf [249, 6])))) (.cases [87, 28, 114, 41] 97
  (.leaf [251, 89]) (.leaf [249, 6]))) (.cycle 20 [53, 168, 62])) (.cases [34, 17, 155, 19, 20] 20
  (.leaf [54, 20, 218, 41]) (.cases [21, 22, 103, 23, 41, 24, 25] 97 (.leaf [251, 89]) (.leaf
  [249, 6])))))) (.leaf [113, 29, 28, 77, 23, 24, 25])) (.cycle 2 [31, 216, 217])

/-- some of the cases -/
def real6Case44 : SumTree :=
  .cases [106, 49] 85 (.cases [] 23 (.cases [] 60 (.cases [141, 56] 32 (.leaf
  [64, 13, 200, 14, 19, 6, 20]) (.cases [] 88 (.leaf
  [226, 19, 202, 20, 116, 117, 118, 361, 119, 22, 23, 24, 25]) (.cases [] 20 (.leaf
  [54, 20, 218, 41]) (.cases [] 75 (.cases [] 103 (.cases [268, 9, 10] 68 (.leaf [163, 56, 18, 19,
  225, 20, 21, 58, 121, 103, 117, 41, 118, 119]) (.leaf
  [162, 188, 19, 20, 21, 22, 103, 23, 41, 24, 25])) (.leaf [310, 267, 13, 61, 232, 14, 62, 188, 10,
  6, 17, 19, 225, 20, 21, 121, 103, 117, 41, 118, 119])) (.cycle 23 [187, 62, 155]))))) (.cases
  [140] 34 (.cases [67, 13, 14, 6] 32 (.cases [64, 13, 200, 14, 19, 6, 20] 88 (.leaf
  [226, 19, 202, 20, 116, 117, 118, 361, 119, 22, 23, 24, 25]) (.leaf [225, 121, 117, 125, 118,
  361, 126, 119, 22, 31, 23, 41, 24, 25])) (.leaf [61, 62, 17, 104, 155, 22, 19, 23, 20, 24, 25]))
  (.cases [65, 27] 22 (.cases [] 71 (.cases [169, 170, 27, 28] 42 (.cases [102, 22, 23, 24, 25] 47
  (.cycle 56 [106, 107]) (.cases [105, 48, 49] 20 (.leaf [54, 20, 218, 41]) (.cases [] 28 (.cases
  [37, 20, 21, 22, 103, 23, 41, 24, 25] 45 (.cases [97, 98, 99, 91] 66 (.cases [161, 49] 100 (.leaf
  [260, 6]) (.leaf [258, 172])) (.leaf [156, 157, 158, 62, 169, 17, 170, 27, 37, 20, 21, 22, 23,
  24, 25])) (.leaf [94, 95, 96, 89])) (.cases [32, 28, 102, 22, 103, 23, 41, 24, 25] 56 (.leaf
  [136, 96, 89]) (.cases [] 45 (.cases [97, 98, 99, 91] 94 (.cases [] 95 (.cases [] 66 (.cases
  [161, 49] 100 (.cases [] 72 (.cycle 69 [173, 174]) (.leaf [171, 260, 6])) (.leaf [258, 172]))
  (.leaf [156, 157, 158, 62, 17, 155, 19, 20, 32, 28, 102, 22, 23, 24, 25])) (.cycle 54
  [99, 261, 236])) (.leaf [235, 14, 6])) (.leaf [94, 95, 96, 89, 174, 172])))))) (.cases
  [87, 28, 114, 41] 95 (.cases [250, 91] 59 (.leaf [138, 139]) (.leaf [137, 25])) (.leaf
  [233, 6]))) (.cycle 20 [53, 168, 62])) (.cases [34, 17, 155, 19, 20] 20 (.leaf [54, 20, 218, 41])
  (.cases [21, 22, 103, 23, 41, 24, 25] 97 (.leaf [251, 89]) (.leaf [249, 6])))))) (.leaf
  [113, 29, 28, 77, 23, 24, 25])) (.cycle 2 [31, 216, 217])

/-- some of the cases -/
def real6Case45 : SumTree :=
  .cases [265, 45] 41 (.cases [] 57 (.cycle 56 [265, 207]) (.cases [134, 44, 45] 85 (.cases [] 23
  (.cases [] 60 (.cases [141, 56, 18, 19, 20] 30 (.leaf [46, 47, 48, 49]) (.cases [] 133 (.leaf
  [345, 243, 329, 10, 206, 19, 20]) (.cases [] 90 (.cycle 20 [253, 344, 62]) (.cases [] 91 (.leaf
  [252, 10]) (.cases [] 28 (.cases [] 20 (.leaf [54, 20, 218, 41]) (.cases [21, 22, 23, 24, 25] 103
  (.cases [] 113 (.cases [301, 9, 10] 47 (.cases [] 24 (.cases [] 48 (.leaf
  [108, 109, 134, 44, 45]) (.cycle 56 [106, 107])) (.cycle 19 [20, 36, 37])) (.leaf
  [105, 48, 42, 49, 43, 44, 45])) (.cycle 17 [268, 300, 12])) (.cycle 30 [141, 267, 232, 290])))
  (.cycle 30 [141, 18, 19, 197])))))) (.cases [140] 34 (.cases [67, 13, 14, 6] 32 (.cases
  [64, 13, 200, 14, 19, 6, 20] 88 (.leaf
  [226, 19, 202, 20, 116, 117, 118, 361, 119, 22, 23, 24, 25]) (.leaf
  [225, 58, 121, 117, 118, 361, 119, 22, 23, 24, 25])) (.leaf
  [61, 62, 17, 104, 155, 22, 19, 23, 20, 24, 25])) (.cases [65, 27] 22 (.cases [] 71 (.cases
  [169, 170, 27, 28] 82 (.cases [209, 45] 30 (.cases [] 126 (.cases [362, 49] 43 (.cases [] 45
  (.cases [97, 98, 99, 91] 28 (.leaf [37, 20]) (.cases [32, 28] 110 (.leaf [296, 89]) (.leaf
  [295, 6]))) (.leaf [94, 95, 96, 89])) (.leaf [88, 89])) (.cycle 37 [46, 47, 48, 327])) (.cases []
  44 (.cycle 35 [42, 93, 47]) (.cases [] 73 (.cycle 40 [177, 178, 179]) (.cases
  [175, 176, 43, 44, 45] 20 (.leaf [54, 20, 218, 41]) (.cases [] 42 (.cases [] 28 (.cases
  [37, 20, 21, 22, 103, 23, 41, 24, 25] 97 (.leaf [251, 89]) (.leaf [249, 6])) (.cases
  [32, 28, 102, 22, 103, 23, 41, 24, 25] 43 (.cases [] 45 (.cases [97, 98, 99, 91] 47 (.cases [] 48
  (.leaf [108, 109]) (.cycle 56 [106, 107])) (.leaf [105, 48, 49])) (.leaf [94, 95, 96, 89]))
  (.leaf [88, 89]))) (.leaf [87, 28, 114, 41])))))) (.cases
  [208, 157, 158, 62, 169, 17, 155, 170, 19, 27, 20, 28] 30 (.leaf [46, 47, 48, 49]) (.cases [] 44
  (.cycle 35 [42, 93, 47]) (.cases [] 73 (.cycle 40 [177, 178, 179]) (.leaf
  [175, 176, 43, 44, 208, 157, 158, 169]))))) (.cycle 20 [53, 168, 62])) (.cases
  [34, 17, 155, 19, 20] 20 (.leaf [54, 20, 218, 41]) (.cases [21, 22, 103, 23, 41, 24, 25] 97
  (.leaf [251, 89]) (.leaf [249, 6])))))) (.leaf [113, 29, 28, 77, 23, 24, 25])) (.cycle 2
  [31, 216, 217]))) (.leaf [86, 22, 23, 24, 25])

/-- some of the cases -/
def real6Case46 : SumTree :=
  .cases [154, 17] 41 (.cases [] 24 (.cases [52, 20, 154, 17, 104, 22, 103, 23, 41, 24, 25] 97
  (.leaf [251, 89]) (.leaf [249, 6])) (.cases [] 28 (.cycle 19 [20, 36, 37]) (.cases [32, 28] 42
  (.cases [] 22 (.cases [53, 27, 28, 102, 22, 103, 23, 41, 24, 25] 98 (.cases [] 45 (.cases
  [97, 98, 99, 91] 47 (.cases [] 48 (.cases [108, 109] 30 (.leaf [46, 47, 48, 108, 109]) (.leaf
  [42, 43, 44, 45])) (.cycle 56 [106, 107])) (.cycle 55 [105, 256])) (.cases [94, 95, 96, 89] 30
  (.cases [46, 47, 48, 49] 94 (.cases [] 95 (.leaf [250, 91]) (.cycle 47 [261, 236, 99])) (.leaf
  [235, 14, 6])) (.leaf [42, 43, 44, 45]))) (.leaf [255, 48, 49])) (.cases
  [34, 17, 104, 22, 103, 23, 41, 24, 25] 45 (.cases [97, 98, 99, 91] 43 (.cases [] 98 (.cases [] 48
  (.cases [108, 109] 30 (.cases [46, 47, 48, 108, 109] 97 (.leaf [251, 89, 90, 91]) (.leaf
  [249, 6])) (.leaf [42, 43, 44, 45])) (.cases [] 47 (.cycle 56 [106, 107]) (.cycle 55
  [105, 256]))) (.leaf [255, 48, 49])) (.leaf [88, 89])) (.cases [94, 95, 96, 89] 30 (.cases
  [46, 47, 48, 49] 43 (.leaf [90, 91]) (.cases [] 47 (.cases [] 48 (.leaf [108, 109]) (.cycle 56
  [106, 107])) (.leaf [105, 48, 49]))) (.leaf [42, 43, 44, 45])))) (.cases [87, 28] 56 (.leaf
  [136, 96, 89]) (.cases [] 57 (.cases [] 45 (.cases [97, 98, 99, 91] 30 (.cases [46, 47, 48, 49]
  97 (.leaf [251, 89]) (.leaf [249, 6])) (.leaf [42, 43, 44, 45])) (.leaf
  [94, 95, 96, 89, 174, 172])) (.leaf [134, 44, 45])))))) (.leaf [86, 22, 23, 24, 25])

/-- some of the cases -/
def real6Case47 : SumTree :=
  .cases [199, 13, 14, 6] 55 (.cases [] 85 (.cases [] 33 (.cases [] 38 (.cases [] 41 (.cases [] 60
  (.leaf [141, 56, 18, 19, 199, 20, 13, 14, 6]) (.cases [140, 27] 32 (.cases [64, 13, 14, 6] 23
  (.cases [] 20 (.leaf [54, 20, 218, 41]) (.cases [] 65 (.cases [155, 19, 199, 20, 13, 14, 6] 42
  (.cases [] 34 (.cases [] 22 (.cases [] 71 (.cases [169, 170, 27] 28 (.leaf
  [37, 201, 20, 21, 199, 22, 103, 13, 23, 41, 14, 24, 6, 25]) (.leaf
  [32, 197, 28, 102, 67, 22, 103, 13, 23, 41, 14, 24, 6, 25])) (.cycle 20 [53, 168, 62])) (.cases
  [34, 17, 155, 19, 199, 20, 21, 13, 22, 14, 23, 6, 24, 25] 30 (.cases [46, 47, 48, 49] 77 (.leaf
  [192, 6]) (.cases [190, 191] 43 (.leaf [90, 91]) (.leaf [88, 89]))) (.leaf [42, 43, 44, 45])))
  (.leaf [65, 27, 28, 102, 22, 23, 24, 25])) (.leaf [87, 28, 114, 41])) (.cases [154, 17] 28
  (.cases [37, 20, 154, 196, 17, 64, 13, 14, 6] 30 (.cases [46, 47, 48, 49] 77 (.leaf [192, 6])
  (.leaf [190, 191])) (.leaf [42, 43, 44, 45])) (.cases [32] 22 (.cases [53, 27, 28] 71 (.cases []
  34 (.cases [67, 13, 14, 6] 42 (.cases [102, 22, 23, 24, 25] 66 (.leaf [161, 49]) (.cases [] 98
  (.cases [] 45 (.cases [97, 98, 99, 91] 59 (.leaf [138, 139]) (.cases [] 47 (.cases [] 48 (.cases
  [108, 109] 30 (.leaf [46, 47, 48, 108, 109]) (.leaf [42, 43, 44, 45])) (.cycle 56 [106, 107]))
  (.cycle 55 [105, 256]))) (.cases [94, 95, 96, 89] 30 (.cases [46, 47, 48, 49] 77 (.leaf [192, 6])
  (.leaf [190, 191])) (.leaf [42, 43, 44, 45]))) (.leaf [255, 48, 49, 156, 157, 158, 62, 169, 17,
  170, 27, 67, 102, 13, 22, 14, 23, 6, 24, 25]))) (.leaf [87, 28, 114, 41])) (.cases [65, 27, 28]
  42 (.leaf [102, 22, 103, 23, 41, 24, 25]) (.leaf [87, 28, 114, 41]))) (.cycle 20 [53, 168, 62]))
  (.cases [34, 68, 17, 64, 13, 14, 6] 47 (.cases [] 57 (.cases [] 30 (.cases [46, 47, 48, 49] 48
  (.leaf [108, 109]) (.cycle 56 [106, 107])) (.leaf [42, 43, 44, 45, 207, 109])) (.leaf
  [134, 44, 45])) (.leaf [105, 48, 49])))))) (.leaf [113, 29, 28, 77, 23, 24, 25])) (.cases
  [61, 62, 17, 104, 22, 23, 24, 25] 71 (.leaf [169]) (.cases [] 23 (.cases [] 42 (.cases [] 28
  (.leaf [37, 201, 20, 199, 13, 61, 14, 62, 69, 6, 17, 104, 58, 121, 22, 117, 23, 118, 24, 119,
  25]) (.cases [197] 34 (.leaf [67, 13, 61, 14, 62, 69, 6, 17, 104, 121, 22, 117, 125, 23, 118,
  126, 24, 119, 31, 25, 41]) (.leaf [65, 27, 198, 102, 158, 22, 103, 62, 69, 23, 41, 17, 121, 24,
  117, 25, 118, 119]))) (.leaf [87, 28, 114, 41])) (.cycle 33 [121, 125, 126, 31, 29, 168, 69])))))
  (.leaf [86, 22, 23, 24, 25])) (.leaf [75, 27, 28])) (.leaf
  [63, 62, 132, 17, 104, 117, 22, 118, 23, 119, 24, 25])) (.cycle 2 [31, 216, 217])) (.leaf
  [131, 62, 17, 104, 22, 23, 24, 25])

/-- some of the cases -/
def real6Case48 : SumTree :=
  .cases [55, 56] 96 (.cases [] 105 (.cases [] 17 (.cases [] 103 (.cases [] 106 (.cases
  [279, 243, 274, 10, 56] 90 (.cases [253, 243, 274, 10, 56] 91 (.cases [] 117 (.leaf [312, 10])
  (.cycle 15 [10, 311, 252])) (.leaf [247, 28])) (.leaf [246, 17])) (.cases [] 107 (.leaf
  [277, 278, 355, 9, 56, 17, 10, 244, 103, 41]) (.cycle 19 [238, 275, 268, 276]))) (.cycle 19
  [238, 274, 267, 189])) (.leaf [15, 12, 232, 13, 10, 14, 6])) (.cases [273, 243, 10] 70 (.cases []
  23 (.cases [] 42 (.cases [] 60 (.cases [141, 56, 273, 243, 10] 133 (.cases [] 68 (.leaf
  [163, 56, 273, 243, 297, 10, 244, 58, 22, 103, 23, 41, 24, 25]) (.leaf
  [162, 62, 345, 17, 243, 10, 244, 22, 103, 23, 41, 24, 25])) (.leaf [344, 62, 17])) (.cases
  [140, 27] 90 (.cases [253, 243, 10] 22 (.cases [] 71 (.cases [169, 170, 27, 28] 106 (.cases [] 91
  (.cases [252, 10, 244, 22, 103, 23, 41, 24, 25] 56 (.leaf [136, 96, 89]) (.cases [] 57 (.cases []
  82 (.leaf [209, 207, 210]) (.cases [] 45 (.cases [97, 98, 99, 91] 30 (.cases [46, 47, 48, 49] 94
  (.cases [] 97 (.leaf [251, 89]) (.cases [249, 6] 95 (.leaf [250, 91]) (.cycle 54
  [99, 261, 236]))) (.leaf [235, 14, 6])) (.leaf [42, 43, 44, 45, 208, 157, 158, 169, 170, 27, 252,
  10, 244, 22, 103, 23, 41, 24, 25])) (.leaf [94, 95, 96, 89, 174, 172]))) (.leaf [134, 44, 45])))
  (.cases [] 68 (.leaf [163, 56, 273, 243, 10, 247, 28, 102, 22, 23, 24, 25]) (.cases [] 32 (.leaf
  [64, 13, 279, 14, 243, 6, 10, 247, 28, 102, 22, 23, 24, 25]) (.cases [] 103 (.leaf [289, 56, 162,
  62, 253, 243, 10, 247, 102, 22, 103, 23, 41, 24, 25]) (.leaf [310, 61, 62, 253, 243, 10, 247, 28,
  102, 22, 103, 23, 41, 24, 25]))))) (.leaf [275, 13, 14, 6])) (.cycle 20 [53, 168, 62])) (.cases
  [34, 17, 253, 243, 10, 244, 22, 103, 23, 41, 24, 25] 30 (.leaf [46, 47, 48, 49]) (.leaf
  [42, 43, 44, 45]))) (.cases [246, 285, 17] 91 (.leaf [252, 10, 246, 17]) (.cases [247, 28] 98
  (.cases [] 71 (.cases [169, 170, 27, 28, 102, 22, 103, 23, 41, 24, 25] 30 (.cases
  [46, 47, 48, 49] 97 (.leaf [251, 89]) (.leaf [249, 6])) (.leaf [42, 43, 44, 45])) (.cases [] 22
  (.cycle 45 [62, 53, 168]) (.cases [34, 17] 110 (.leaf [296, 89]) (.cases [295, 6] 47 (.cases []
  48 (.leaf [108, 109]) (.cycle 56 [106, 107])) (.cycle 55 [105, 256]))))) (.leaf
  [255, 48, 49]))))) (.cycle 58 [117, 361, 87, 110, 167])) (.cycle 58 [117, 361, 103, 29, 165]))
  (.leaf [164, 27, 28]))) (.cases [] 103 (.cases [268, 9, 10] 34 (.cases
  [67, 13, 268, 14, 9, 6, 10] 28 (.cases [201, 55, 56] 24 (.leaf [52, 20]) (.cycle 31
  [37, 20, 36])) (.cycle 30 [67, 268, 9, 240, 197])) (.cases [65, 27] 79 (.cases
  [200, 19, 55, 20, 56] 65 (.cases [155, 19, 55, 20, 56] 22 (.cases [53, 27] 28 (.leaf
  [37, 201, 20, 55, 56]) (.leaf [32, 28])) (.leaf [34, 155, 19, 55, 20, 56])) (.leaf [154, 17]))
  (.cycle 17 [268, 9, 237, 199]))) (.cycle 13 [232, 237, 55, 267]))

/-- some of the cases -/
def real6Case49 : SumTree :=
  .cases [141, 56, 18, 19, 20] 133 (.leaf [345, 243, 10]) (.cases [] 75 (.cases [] 90 (.cycle 20
  [253, 344, 62]) (.cases [] 91 (.leaf [252, 10]) (.cases [] 20 (.cycle 58
  [117, 361, 54, 223, 167]) (.cases [] 103 (.cases [268, 9, 10] 68 (.leaf
  [163, 56, 18, 19, 20, 21, 22, 23, 24, 25]) (.leaf
  [162, 62, 188, 17, 19, 20, 21, 22, 103, 23, 41, 24, 25])) (.cycle 30 [141, 267, 232, 290])))))
  (.leaf [187, 62, 17]))

/-- some of the cases -/
def real6Case50 : SumTree :=
  .cases [67, 13, 200, 14, 19, 6, 20] 75 (.cases [] 32 (.cases [64, 13, 200, 14, 19, 6, 20] 88
  (.leaf [226, 19, 20, 223, 115, 116, 117, 118, 361, 119, 22, 23, 24, 25]) (.leaf
  [225, 58, 38, 115, 116, 117, 118, 361, 119, 22, 23, 24, 25])) (.leaf [61, 62, 188, 17, 19, 20]))
  (.leaf [187, 62, 69, 17, 38, 115, 116, 117, 118, 361, 119, 22, 23, 24, 25])

/-- some of the cases -/
def real6Case51 : SumTree :=
  .cases [155, 19, 20] 22 (.cases [] 71 (.cases [169, 170, 27, 28] 20 (.cycle 58
  [117, 361, 54, 223, 167]) (.cases [] 28 (.cases [37, 20, 21, 22, 103, 23, 41, 24, 25] 73 (.cases
  [] 30 (.cases [46, 47, 48, 49] 45 (.cases [97, 98, 99, 91] 43 (.cases [] 66 (.leaf [161, 49])
  (.cases [] 97 (.cases [251, 89, 90, 91] 47 (.cases [] 48 (.leaf [108, 109]) (.cycle 56
  [106, 107])) (.leaf [105, 48, 49, 156, 157, 158, 62, 169, 17, 170, 27, 37, 20, 21, 22, 23, 24,
  25])) (.cases [249, 6] 47 (.cases [] 48 (.leaf [108, 109]) (.cycle 56 [106, 107])) (.leaf [105,
  48, 49, 156, 157, 158, 62, 169, 17, 170, 27, 37, 20, 21, 22, 23, 24, 25])))) (.leaf [88, 89]))
  (.cases [94, 95, 96, 89] 47 (.cases [] 48 (.leaf [108, 109]) (.cycle 56 [106, 107])) (.leaf
  [105, 48, 49]))) (.cases [] 44 (.cycle 35 [42, 93, 47]) (.cycle 40 [177, 178, 179]))) (.leaf
  [175, 176, 43, 44, 45])) (.cases [32, 28] 42 (.cases [102, 22, 103, 23, 41, 24, 25] 48 (.cases
  [108, 109] 57 (.cases [] 82 (.leaf [209, 207, 210]) (.cases [] 45 (.cases [97, 98, 99, 91] 43
  (.cases [] 101 (.leaf [263, 96, 89, 90, 91]) (.cases [] 97 (.cases [251, 89, 90, 91] 30 (.leaf
  [46, 47, 48, 49, 108, 109]) (.leaf [42, 43, 44, 45, 208, 157, 158, 62, 155, 19, 20, 32, 102, 22,
  103, 23, 41, 24, 25])) (.cases [249, 6] 30 (.cases [46, 47, 48, 108, 109] 56 (.cycle 65
  [136, 262]) (.cases [] 100 (.cases [] 72 (.cycle 69 [173, 174]) (.leaf [171, 260, 6])) (.leaf
  [258, 172]))) (.leaf [42, 43, 44, 45, 208, 157, 158, 62, 155, 19, 20, 32, 102, 22, 103, 23, 41,
  24, 25])))) (.leaf [88, 89])) (.cases [94, 95, 96, 89] 30 (.cases [46, 47, 48, 49, 108, 109] 94
  (.cases [] 95 (.leaf [250, 91]) (.cycle 47 [261, 236, 99])) (.leaf [235, 14, 6])) (.leaf [42, 43,
  44, 45, 208, 157, 158, 62, 155, 19, 20, 32, 102, 22, 103, 23, 41, 24, 25])))) (.leaf
  [134, 44, 45])) (.cases [] 47 (.cycle 56 [106, 107]) (.cases [105, 48, 49] 56 (.leaf
  [136, 96, 89]) (.cases [] 45 (.cases [97, 98, 99, 91] 66 (.cases [161, 49] 100 (.leaf [260, 6])
  (.leaf [258, 172])) (.leaf [156, 157, 158, 62, 17, 155, 19, 20, 32, 28, 102, 22, 23, 24, 25]))
  (.leaf [94, 95, 96, 89, 174, 172]))))) (.cycle 58 [117, 361, 87, 110, 167])))) (.cycle 20
  [53, 168, 62])) (.cases [34, 17, 155, 19, 20] 73 (.cases [] 98 (.cases [] 20 (.cycle 58
  [117, 361, 54, 223, 167]) (.cases [21, 22, 103, 23, 41, 24, 25] 43 (.cases [] 44 (.cases
  [93, 47, 48, 49] 45 (.cases [97, 98, 99, 91] 110 (.leaf [296, 89]) (.cases [295, 6] 47 (.cases []
  48 (.leaf [108, 109]) (.cycle 56 [106, 107])) (.cycle 55 [105, 256]))) (.leaf [94, 95, 96, 89]))
  (.cycle 40 [177, 178, 179])) (.leaf [88, 89]))) (.leaf [255, 48, 49])) (.leaf
  [175, 176, 43, 44, 45]))

/-- some of the cases -/
def real6Case52 : SumTree :=
  .cases [154, 17] 42 (.cases [] 28 (.cases [37, 20, 154, 17] 30 (.cases [46, 47, 48, 49] 97 (.leaf
  [251, 89]) (.cases [249, 6] 95 (.leaf [250, 91]) (.leaf [233, 6]))) (.leaf [42, 43, 44, 45]))
  (.cases [32, 28] 71 (.cases [] 22 (.cases [53, 27, 28, 102, 22, 103, 23, 41, 24, 25] 56 (.leaf
  [136, 96, 89]) (.cases [] 57 (.cases [] 30 (.cases [46, 47, 48, 49] 97 (.leaf [251, 89]) (.cases
  [249, 6] 95 (.leaf [250, 91]) (.leaf [233, 6]))) (.leaf [42, 43, 44, 45])) (.leaf
  [134, 44, 45]))) (.cycle 45 [169, 170, 27, 68])) (.cases [] 22 (.cycle 45 [62, 53, 168]) (.cases
  [34, 17] 56 (.leaf [136, 96, 89]) (.cases [] 57 (.cases [] 45 (.cases [97, 98, 99, 91] 30 (.cases
  [46, 47, 48, 49] 94 (.cases [] 97 (.leaf [251, 89]) (.cases [249, 6] 95 (.leaf [250, 91]) (.cycle
  54 [99, 261, 236]))) (.leaf [235, 14, 6])) (.leaf [42, 43, 44, 45])) (.leaf
  [94, 95, 96, 89, 174, 172])) (.leaf [134, 44, 45])))))) (.cycle 58 [117, 361, 87, 110, 167])

/-- some of the cases -/
def real6Case53 : SumTree :=
  .cases [199, 13, 14, 6] 70 (.cases [] 23 (.cases [] 42 (.cases [] 35 (.cases [] 65 (.cases
  [155, 19, 199, 20, 13, 14, 6] 22 (.cases [53, 27] 28 (.leaf [37, 201, 20, 199, 13, 14, 6]) (.leaf
  [32, 28, 102, 22, 103, 23, 41, 24, 25])) (.leaf [34, 17, 155, 19, 199, 20, 13, 14, 6])) (.cases
  [154, 17] 28 (.cases [37, 201, 20, 154, 199, 17, 13, 14, 6] 30 (.leaf [46, 47, 48, 49]) (.leaf
  [42, 43, 44, 45])) (.cases [32, 197] 22 (.cases [53, 27, 28] 77 (.leaf [192, 6]) (.cases [] 71
  (.cases [] 32 (.cases [64, 13, 14, 6] 34 (.cases [67, 13, 14, 6, 190, 191] 30 (.leaf
  [46, 47, 48, 49]) (.leaf [42, 43, 44, 45])) (.leaf [65, 27, 70, 28, 102, 58, 38, 22, 115, 23,
  116, 24, 117, 25, 118, 119])) (.leaf [61, 169])) (.cycle 20 [53, 168, 62]))) (.cases [34, 68, 17]
  32 (.leaf [64, 13, 14, 6]) (.cases [] 34 (.leaf [67, 13, 61, 14, 62, 69, 6, 17, 38, 115, 116,
  117, 118, 361, 119, 22, 23, 24, 25]) (.leaf [65, 27, 28, 34, 68, 17, 104, 69, 22, 38, 23, 115,
  24, 116, 25, 117, 118, 119])))))) (.leaf [66, 27, 28, 102, 22, 103, 23, 41, 24, 25])) (.cycle 58
  [117, 361, 87, 110, 167])) (.cycle 58 [117, 361, 103, 29, 165])) (.leaf [164, 27, 28])

/-- some of the cases -/
def real6Case54 : SumTree :=
  .cases [86, 22, 23, 24, 25] 19 (.cases [55, 56] 133 (.leaf [345, 243, 10]) (.cases [] 90 (.cycle
  20 [253, 344, 62]) (.cases [] 24 (.leaf [52, 20]) (.cases [] 96 (.cases [302, 238, 10] 68 (.leaf
  [163, 56]) (.cases [] 60 (.leaf [141, 56, 162, 62, 17]) (.cases [140] 71 (.cases [] 105 (.leaf
  [274, 56, 162, 62, 169, 17, 170, 27, 28]) (.leaf [273, 243, 10, 246, 17])) (.cases
  [198, 158, 62, 17] 30 (.cases [46, 47, 48, 49] 97 (.leaf [251, 89]) (.leaf [249, 6])) (.leaf
  [42, 43, 44, 45]))))) (.cases [240, 237, 20, 55, 56] 60 (.cases [] 71 (.leaf [169, 170, 141, 56])
  (.cases [] 103 (.cases [268, 9, 10, 240, 20] 22 (.cycle 20 [53, 168, 62]) (.cases [] 28 (.cycle
  31 [37, 20, 36]) (.leaf [32, 197, 34, 141, 17, 56]))) (.cycle 22 [267, 232, 237, 55]))) (.cases
  [140, 27] 71 (.cases [169, 170, 27, 28] 103 (.cases [289, 268, 56, 9, 10, 240, 20] 30 (.cases
  [46, 47, 48, 49] 97 (.leaf [251, 89]) (.cases [249, 6] 95 (.leaf [250, 91]) (.leaf [233, 6])))
  (.leaf [42, 43, 44, 45])) (.cycle 13 [232, 237, 55, 267])) (.cases [] 22 (.cycle 45
  [62, 53, 168]) (.cases [34, 17] 47 (.cases [] 48 (.leaf [108, 109]) (.cycle 56 [106, 107]))
  (.leaf [105, 48, 49]))))))))) (.cases [18, 19, 20] 32 (.leaf [64, 13, 14, 6]) (.cases [] 79
  (.cases [200, 19, 20] 122 (.cases [] 65 (.cases [155, 19, 20] 56 (.leaf [136, 96, 89]) (.cases []
  57 (.cases [] 60 (.leaf [141, 56, 18, 19, 20]) (.cases [140] 34 (.leaf [67, 13, 61, 14, 62, 6,
  17, 323, 155, 130, 19, 38, 20, 31, 86, 22, 23, 24, 25]) (.cases [65] 30 (.cases [46, 47, 48, 49]
  71 (.cases [169, 170, 27, 28] 84 (.leaf [215, 19, 20]) (.cases [214, 27, 28] 97 (.leaf [251, 89])
  (.leaf [249, 6]))) (.leaf [198, 158, 62, 17, 155, 19, 20])) (.leaf [42, 43, 44, 45])))) (.leaf
  [134, 44, 45]))) (.leaf [154, 17, 323, 130, 38, 31, 115, 41, 86, 116, 22, 117, 23, 118, 24, 119,
  25])) (.leaf [322, 17])) (.leaf [199, 13, 61, 14, 62, 6, 17])))

/-- some of the cases -/
def real6Case55 : SumTree :=
  .cases [108, 109] 106 (.cases [279, 243, 10] 103 (.cases [] 113 (.cases [301] 107 (.leaf
  [277, 278, 355, 9, 56, 17, 104, 10, 22, 23, 24, 25]) (.cases [276, 20] 90 (.cases
  [253, 243, 284, 274, 10, 116, 56, 117, 118, 119] 41 (.cases [] 138 (.cases [360, 56, 358, 58] 64
  (.cycle 58 [117, 151, 355, 253, 281]) (.cases [] 61 (.cycle 22 [150, 149]) (.leaf
  [142, 117, 118, 119]))) (.cases [359, 57, 58] 34 (.cases [67, 13, 279, 268, 14, 243, 284, 274,
  276, 6, 10, 116, 56, 359, 20, 117, 31, 57, 118, 41, 58, 119] 59 (.cases [] 108 (.cases [] 92
  (.leaf [245, 10, 292, 282, 41, 57, 58]) (.leaf [244, 22, 103, 23, 41, 24, 25])) (.leaf [305]))
  (.leaf [137, 25])) (.cases [65, 27] 92 (.cases [245, 10] 22 (.cases [53, 27] 91 (.cases
  [283, 284, 274, 116, 56, 359, 117, 31, 57, 118, 58, 119] 108 (.cases [292, 41] 110 (.leaf
  [296, 89]) (.leaf [295, 6])) (.leaf [305])) (.leaf [247, 28])) (.leaf [34, 104, 245])) (.cases
  [244, 22, 103, 23, 41, 24, 25] 21 (.cases [] 23 (.cases [] 42 (.cases [] 60 (.cases [] 71 (.cases
  [169, 170, 27] 91 (.leaf [252, 283, 10, 244, 274, 22, 103, 56, 23, 41, 24, 25]) (.leaf
  [247, 290, 28, 102, 141, 22, 103, 56, 23, 41, 24, 25])) (.leaf [198, 158, 62, 253, 243, 274, 10,
  244, 56, 359, 22, 103, 57, 23, 41, 58, 24, 25])) (.leaf
  [140, 27, 28, 110, 102, 57, 103, 58, 41])) (.leaf [87, 28, 114, 41])) (.cycle 12 [29, 30, 31]))
  (.leaf [26, 27, 28]))))) (.cases [86, 22, 23, 24, 25] 97 (.leaf [251, 89]) (.leaf [249, 6])))
  (.cases [246, 285, 17, 104, 163, 22, 56, 23, 24, 25] 76 (.leaf [186, 117, 118, 119]) (.cases []
  54 (.cases [] 41 (.cases [] 50 (.cases [] 64 (.cycle 75 [284, 116, 117, 151, 276, 238]) (.cases
  [] 61 (.cycle 22 [150, 149]) (.leaf [142, 117, 125, 118, 126, 119, 57, 58]))) (.leaf
  [115, 116, 117, 123, 118, 58, 119])) (.leaf [86, 22, 23, 24, 25])) (.leaf
  [121, 117, 118, 185, 119, 22, 23, 24, 25]))))) (.cycle 17 [268, 300, 12])) (.cycle 22
  [310, 279, 274])) (.cases [275, 13, 14, 6] 32 (.cases [64, 13, 14, 6] 103 (.cases [] 107 (.leaf
  [277, 278, 355, 152, 9, 56, 17, 28, 10]) (.cycle 17 [268, 276, 238, 275])) (.cases [267, 232, 10]
  39 (.cases [] 18 (.leaf [153, 12, 232, 13, 10, 14, 6]) (.cases [] 17 (.cycle 22
  [267, 189, 238, 274]) (.leaf [15, 12, 232, 16, 13, 10, 104, 14, 22, 6, 23, 24, 25]))) (.leaf
  [80, 13, 14, 6]))) (.cases [] 103 (.cases [] 90 (.cycle 75 [275, 61, 62, 253]) (.cases [] 107
  (.leaf [277, 152, 9, 28, 10, 246, 285, 17, 163, 56, 358, 58]) (.cycle 75 [275, 268, 276, 238])))
  (.cycle 17 [61, 163, 310])))

/-- some of the cases -/
def real6Case56 : SumTree :=
  .cases [97, 98, 99, 91] 18 (.leaf [153, 12, 232, 13, 10, 14, 6]) (.cases [] 103 (.cases [] 113
  (.cases [301] 107 (.leaf [277, 278, 355, 152, 9, 56, 17, 28, 10]) (.cases [276, 20] 106 (.cases
  [279, 243, 10] 34 (.cases [67, 13, 268, 279, 14, 276, 243, 274, 6, 20, 10, 56] 133 (.cases [] 71
  (.cycle 45 [169, 170, 67, 268, 276, 196]) (.cases [] 90 (.cases [] 22 (.cycle 20
  [53, 67, 268, 276, 154]) (.cases [] 64 (.cycle 58 [117, 151, 355, 253, 281]) (.cases [] 76 (.leaf
  [186, 117, 118, 119]) (.cases [] 61 (.cycle 58 [149, 150]) (.leaf
  [142, 117, 118, 185, 119, 22, 23, 24, 25]))))) (.cycle 75 [243, 285, 345]))) (.leaf
  [344, 62, 163, 17, 104, 56, 22, 23, 24, 25])) (.cases [65, 27] 71 (.cases [169, 170, 27, 28] 22
  (.cases [] 92 (.cases [245, 10] 90 (.cases [253, 274, 56] 91 (.leaf
  [283, 284, 274, 116, 56, 117, 118, 119]) (.leaf [247, 28])) (.leaf [285, 169])) (.cases [] 42
  (.cases [] 41 (.cases [] 90 (.cases [253, 243, 274, 10, 56] 91 (.leaf
  [252, 283, 10, 244, 274, 22, 56, 23, 24, 25]) (.leaf [247, 102, 22, 103, 23, 41, 24, 25])) (.leaf
  [246, 285, 17, 53, 163, 27, 56, 102, 22, 23, 24, 25])) (.cases [86, 22, 23, 24, 25] 133 (.leaf
  [345, 243, 274, 10, 56]) (.leaf [344, 163, 56]))) (.cases [] 90 (.leaf
  [253, 243, 274, 10, 244, 56, 22, 87, 23, 28, 24, 25]) (.leaf
  [246, 285, 104, 163, 22, 87, 56, 23, 28, 24, 25])))) (.cycle 45 [169, 170, 27, 68])) (.cases
  [198, 158, 62, 163, 17, 104, 56, 22, 23, 24, 25] 86 (.cases [] 23 (.cases [] 76 (.leaf
  [186, 117, 118, 119]) (.cases [] 54 (.cases [] 42 (.cases [102, 22, 23, 24, 25] 41 (.cases [] 50
  (.cases [] 64 (.cycle 75 [284, 116, 117, 151, 276, 238]) (.cases [] 61 (.cycle 22 [150, 149])
  (.leaf [142, 117, 125, 118, 126, 119, 57, 58]))) (.leaf [115, 116, 117, 123, 118, 58, 119]))
  (.leaf [86, 22, 23, 24, 25])) (.leaf [87, 28, 114, 110, 41, 57, 58])) (.leaf
  [121, 117, 118, 185, 119, 22, 23, 24, 25]))) (.cycle 12 [29, 168, 220, 31])) (.leaf
  [219, 62, 163, 17, 56, 358, 58])))) (.cycle 14 [276, 238, 275, 268]))) (.cycle 17
  [268, 300, 12])) (.cases [310, 267, 13, 232, 14, 10, 6] 31 (.cases [] 108 (.cases [] 25 (.cases
  [] 92 (.leaf [245, 10, 292, 41]) (.cases [] 17 (.cycle 22 [267, 189, 238, 274]) (.leaf
  [15, 12, 232, 16, 13, 10, 17, 14, 6]))) (.leaf [39, 13, 71, 14, 58, 6])) (.cycle 12
  [280, 291, 31])) (.leaf [59, 60, 13, 232, 14, 10, 6])))

/-- some of the cases -/
def real6Case57 : SumTree :=
  .cases [94, 95, 96, 89] 31 (.cases [] 103 (.cases [] 113 (.cases [301] 107 (.leaf
  [277, 278, 355, 152, 9, 56, 17, 28, 10]) (.cases [276, 20] 106 (.cases
  [279, 243, 284, 10, 116, 117] 41 (.cases [] 34 (.cases [67, 13, 268, 279, 14, 276, 243, 284, 274,
  6, 20, 10, 116, 56, 117, 118, 119] 133 (.cases [] 71 (.cycle 45 [169, 170, 67, 268, 276, 196])
  (.cases [] 50 (.cases [] 46 (.leaf [101, 58]) (.cases [] 90 (.cases [] 22 (.cycle 20
  [53, 67, 268, 276, 154]) (.cases [] 64 (.cycle 58 [117, 151, 355, 253, 281]) (.cases [] 117
  (.cases [312, 10] 61 (.cycle 58 [149, 150]) (.leaf [142, 117, 125, 118, 126, 119, 57, 58]))
  (.cycle 15 [10, 311, 34, 288])))) (.cycle 75 [243, 285, 345]))) (.leaf
  [115, 116, 117, 118, 119]))) (.leaf [344, 62, 163, 17, 104, 56, 103, 41])) (.cases [65, 27] 42
  (.cases [102, 103] 108 (.cases [] 60 (.cases [] 92 (.leaf [245, 10, 292, 282, 41, 57, 58])
  (.cases [] 91 (.leaf [252, 283, 10, 244, 274, 22, 103, 56, 23, 41, 24, 25]) (.leaf
  [247, 290, 102, 141, 22, 103, 56, 23, 41, 24, 25]))) (.leaf [140, 27, 102, 22, 23, 24, 25]))
  (.leaf [305])) (.cases [] 91 (.cycle 25 [87, 283, 274, 269]) (.cases [] 92 (.leaf
  [245, 10, 247, 28]) (.cases [244, 22, 103, 87, 23, 41, 28, 24, 25] 51 (.leaf [129, 130, 58])
  (.leaf [127, 118, 119])))))) (.leaf [86, 22, 23, 24, 25])) (.cycle 14 [276, 238, 275, 268])))
  (.cycle 17 [268, 300, 12])) (.cases [310, 267, 13, 232, 14, 10, 6] 25 (.cases [] 92 (.leaf
  [245, 10]) (.cases [] 17 (.cycle 22 [267, 189, 238, 274]) (.leaf
  [15, 12, 232, 13, 51, 10, 14, 57, 6, 58]))) (.leaf [39, 13, 71, 14, 58, 6]))) (.leaf
  [59, 60, 13, 232, 14, 10, 6])

/-- some of the cases -/
def real6Case58 : SumTree :=
  .cases [108, 109, 325, 44, 45] 30 (.cycle 41 [108, 109, 325, 328, 48]) (.cases [] 44 (.cycle 35
  [42, 93, 47]) (.cases [] 31 (.cases [] 103 (.cases [] 73 (.cycle 40 [177, 178, 179]) (.cases
  [175, 176, 43, 44, 45] 113 (.cases [301] 107 (.leaf [277, 278, 355, 152, 9, 56, 17, 28, 10])
  (.cases [276, 20] 106 (.cases [279, 243, 284, 10, 116, 117] 41 (.cases [] 34 (.cases
  [67, 13, 268, 279, 14, 276, 243, 274, 6, 20, 10, 56] 133 (.cases [] 71 (.cycle 45
  [169, 170, 67, 268, 276, 196]) (.cases [] 50 (.cases [] 90 (.cases [] 22 (.cycle 20
  [53, 67, 268, 276, 154]) (.cases [] 64 (.cycle 58 [117, 151, 355, 253, 281]) (.cases [] 76 (.leaf
  [186, 117, 125, 118, 126, 119, 57, 58]) (.cases [] 61 (.cycle 58 [149, 150]) (.leaf
  [142, 117, 125, 118, 126, 119, 57, 58]))))) (.cycle 75 [243, 285, 345])) (.leaf
  [115, 116, 117, 118, 119]))) (.leaf [344, 62, 163, 17, 104, 56, 103, 41])) (.cases [65, 27] 42
  (.cases [102, 103] 108 (.cases [] 60 (.cases [] 92 (.leaf [245, 10, 292, 282, 41, 57, 58])
  (.cases [] 91 (.leaf [252, 283, 10, 244, 274, 22, 103, 56, 23, 41, 24, 25]) (.leaf
  [247, 290, 28, 102, 141, 22, 103, 56, 23, 41, 24, 25]))) (.leaf
  [140, 27, 28, 102, 22, 23, 24, 25])) (.leaf [305])) (.cases [] 91 (.cycle 25 [87, 283, 274, 269])
  (.cases [] 108 (.cases [] 92 (.leaf [245, 10, 247, 292, 28, 41]) (.cases
  [244, 22, 103, 87, 23, 41, 28, 24, 25] 51 (.leaf [129, 130, 58]) (.leaf [127, 118, 119])))
  (.cycle 12 [280, 291, 31]))))) (.leaf [86, 22, 23, 24, 25])) (.cycle 14 [276, 238, 275, 268])))
  (.cycle 17 [268, 300, 12]))) (.cases [310, 267, 13, 232, 14, 10, 6] 25 (.cases [51, 57, 58] 92
  (.leaf [245, 10]) (.cases [] 17 (.cycle 22 [267, 189, 238, 274]) (.leaf
  [15, 12, 232, 13, 51, 10, 14, 57, 6, 58]))) (.leaf [39, 13, 71, 14, 58, 6]))) (.leaf
  [59, 60, 13, 232, 14, 10, 6])))

/-- some of the cases -/
def real6Case59 : SumTree :=
  .cases [] 47 (.cycle 56 [106, 107]) (.cases [105, 48, 49] 31 (.cases [] 103 (.cases [] 113
  (.cases [301] 107 (.leaf [277, 278, 355, 152, 9, 56, 17, 28, 10]) (.cases [276, 20] 106 (.cases
  [279, 243, 284, 10, 116, 117] 34 (.cases [67, 13, 268, 279, 14, 276, 243, 274, 6, 20, 10, 56] 133
  (.cases [] 71 (.cycle 45 [169, 170, 67, 268, 276, 196]) (.cases [] 50 (.cases [] 90 (.cases [] 22
  (.cycle 20 [53, 67, 268, 276, 154]) (.cases [] 64 (.cycle 58 [117, 151, 355, 253, 281]) (.cases
  [] 61 (.cycle 58 [149, 150]) (.leaf [142, 117, 125, 118, 126, 119, 57, 58])))) (.cycle 75
  [243, 285, 345])) (.leaf [115, 116, 117, 118, 119]))) (.leaf
  [344, 62, 163, 17, 104, 56, 22, 23, 24, 25])) (.cases [65, 27] 71 (.cases [169, 170, 27, 28] 41
  (.cases [103] 42 (.cases [102, 22, 103, 23, 41, 24, 25] 30 (.leaf [46, 47, 48, 49]) (.cases
  [42, 43, 44, 45] 95 (.cases [250] 43 (.cases [] 44 (.cycle 35 [42, 93, 47]) (.cases [] 45 (.cases
  [97, 98, 99, 91] 73 (.cycle 40 [177, 178, 179]) (.leaf [175, 176, 43, 44, 45])) (.leaf
  [94, 95, 96, 89]))) (.leaf [88, 89])) (.leaf [233, 6]))) (.cases [87, 28] 91 (.cycle 25
  [87, 283, 274, 269]) (.cases [] 30 (.cases [46, 47, 48, 49] 90 (.cases [253, 243, 274, 10, 56] 23
  (.leaf [110, 57, 58]) (.leaf [113, 28])) (.leaf [246, 285, 17, 104, 163, 87, 56, 28])) (.cases
  [42, 43, 44, 45] 92 (.leaf [245, 10, 247, 28]) (.cases [244, 22, 103, 87, 23, 41, 28, 24, 25] 51
  (.leaf [129, 130, 58]) (.leaf [127, 118, 119])))))) (.leaf [86, 22, 23, 24, 25])) (.cases
  [198, 158, 62, 163, 17, 104, 56] 108 (.cases [] 92 (.leaf [245, 10, 282, 57, 58]) (.cases [] 41
  (.cases [] 22 (.cycle 45 [62, 53, 168]) (.cases [34, 17] 91 (.leaf
  [252, 10, 244, 22, 23, 24, 25]) (.leaf [247, 34, 68, 17, 104, 163, 103, 56, 41]))) (.leaf
  [86, 22, 23, 24, 25]))) (.cycle 12 [280, 291, 31])))) (.cycle 14 [276, 238, 275, 268]))) (.cycle
  17 [268, 300, 12])) (.cases [310, 267, 13, 232, 14, 10, 6] 25 (.cases [51, 57, 58] 92 (.leaf
  [245, 10]) (.cases [] 17 (.cycle 22 [267, 189, 238, 274]) (.leaf
  [15, 12, 232, 13, 51, 10, 14, 57, 6, 58]))) (.leaf [39, 13, 71, 14, 58, 6]))) (.leaf
  [59, 60, 13, 232, 14, 10, 6]))

/-- some of the cases -/
def real6Case60 : SumTree :=
  .cases [162, 62] 61 (.cases [149, 56, 162, 62, 17, 104, 22, 23, 24, 25] 33 (.cases [] 41 (.leaf
  [103, 41]) (.cases [] 49 (.leaf [112, 31, 57, 41, 86, 58, 22, 23, 24, 25]) (.leaf
  [111, 133, 17, 104, 69, 22, 58, 23, 24, 25]))) (.leaf [63, 62, 17, 104, 22, 23, 24, 25])) (.cases
  [] 106 (.cases [279, 243, 274, 10, 56, 162, 142, 62, 117, 17, 104, 118, 22, 119, 23, 24, 25] 30
  (.leaf [46, 47, 48, 49]) (.leaf [42, 43, 44, 45])) (.cases [] 91 (.cases [252, 283, 10, 274, 275,
  56, 162, 142, 13, 62, 117, 14, 17, 104, 118, 6, 22, 119, 23, 24, 25] 41 (.cases [103, 41] 30
  (.cases [46, 47, 48, 49] 55 (.leaf [132, 117, 118, 119]) (.leaf
  [131, 62, 17, 104, 22, 103, 23, 41, 24, 25])) (.leaf [42, 43, 44, 45])) (.leaf
  [86, 22, 23, 24, 25])) (.cases [] 18 (.leaf [153, 12, 232, 13, 10, 14, 6]) (.cases [] 103 (.cases
  [] 107 (.leaf [277, 278, 9, 56, 162, 10, 247, 62, 28, 17]) (.cycle 75 [275, 268, 276, 238]))
  (.cases [] 17 (.cycle 75 [274, 267, 189, 238]) (.leaf [15, 12, 232, 16, 13, 10, 247, 17, 104, 14,
  28, 22, 6, 23, 24, 25]))))))

/-- some of the cases -/
def real6Case61 : SumTree :=
  .cases [245, 10] 90 (.cases [253, 284, 116, 117, 118, 119] 24 (.leaf [52, 154, 104, 245]) (.cases
  [] 60 (.cases [141] 127 (.cases [] 91 (.cases [] 68 (.cases [163, 56, 273, 254, 126, 31, 57, 58]
  106 (.cases [] 17 (.cases [] 103 (.cases [] 108 (.cases [] 42 (.cases [] 71 (.leaf
  [357, 27, 102, 245]) (.cases [] 22 (.leaf [314, 102, 245]) (.cases [] 28 (.cycle 31 [37, 20, 36])
  (.cases [] 34 (.cycle 30 [67, 268, 276, 197]) (.leaf [65, 27, 34, 104, 245]))))) (.leaf
  [87, 28, 252, 10, 292, 282, 41, 57, 58])) (.leaf [305])) (.cycle 45 [163, 267, 189, 196])) (.leaf
  [15, 12, 279])) (.leaf [275, 13, 14, 6])) (.leaf [162, 62, 104, 245])) (.leaf [290, 332]))
  (.cycle 30 [141, 273, 331])) (.cases [140, 27] 22 (.cases [53, 27] 42 (.leaf [102, 245]) (.cases
  [87, 28] 91 (.leaf [252, 283, 10, 284, 254, 116, 126, 117, 31, 57, 118, 41, 58, 119]) (.cases
  [247, 28] 108 (.cases [292, 41] 46 (.cases [101, 58] 23 (.cases [114, 110, 41] 26 (.leaf
  [50, 31, 57, 41, 58]) (.leaf [40, 23, 101, 24, 58, 25])) (.cases [113, 29, 28] 35 (.cases [] 38
  (.leaf [77, 23, 101, 24, 58, 25]) (.leaf [75, 27, 70, 28, 58])) (.leaf
  [66, 27, 83, 28, 84, 85]))) (.cycle 25 [245, 282, 57, 100])) (.cycle 12 [280, 291, 31])))) (.leaf
  [34, 104, 245])))) (.cycle 20 [104, 245, 246])

/-- some of the cases -/
def real6Case62 : SumTree :=
  .cases [108, 109] 18 (.leaf [153, 12, 232, 13, 10, 244, 14, 103, 6, 41]) (.cases [] 30 (.cases
  [46, 47, 48, 49, 108, 109] 38 (.cases [] 117 (.cases [312, 10, 244, 22, 103, 23, 41, 24, 25] 78
  (.cases [] 53 (.cases [] 60 (.cases [141, 56] 68 (.leaf
  [163, 56, 273, 243, 10, 244, 22, 103, 23, 41, 24, 25]) (.leaf [162, 62, 17, 253, 243, 284, 10,
  244, 116, 22, 103, 117, 23, 41, 118, 24, 119, 25])) (.cases [140] 103 (.cases [] 91 (.cases []
  113 (.leaf [301, 278, 56, 140, 27, 252, 283, 10, 244, 284, 22, 103, 116, 23, 41, 117, 24, 118,
  25, 119]) (.cycle 17 [268, 300, 12])) (.cycle 31 [28, 312, 247])) (.cases [310] 71 (.cases
  [169, 170, 27, 28, 312, 10, 244, 22, 103, 23, 41, 24, 25] 32 (.leaf
  [64, 13, 124, 14, 117, 6, 118, 119]) (.leaf [61, 62, 169, 17, 253, 170, 284, 27, 116, 28, 117,
  312, 118, 10, 244, 119, 22, 103, 23, 41, 24, 25])) (.cases [198, 158, 62, 17] 32 (.leaf
  [64, 13, 14, 6]) (.cases [] 34 (.leaf [67, 13, 61, 14, 62, 6, 17, 253, 243, 254, 10, 244, 126,
  103, 57, 41, 58]) (.leaf [65, 198, 158, 62, 17, 253, 243, 284, 10, 244, 116, 22, 103, 117, 23,
  41, 118, 24, 119, 25])))))) (.cycle 58 [122, 194])) (.cycle 58 [117, 193, 16, 253, 281])) (.cases
  [] 91 (.cycle 15 [10, 311, 252]) (.cases [247, 28] 42 (.cases [102, 22, 103, 23, 41, 24, 25] 68
  (.leaf [163, 56, 273, 243, 254, 10, 247, 126, 28, 102, 57, 103, 58, 41]) (.cases [] 106 (.cases
  [] 103 (.leaf [289, 56, 162, 62, 253, 243, 10, 247, 28, 102, 22, 103, 23, 41, 24, 25]) (.cases
  [310] 32 (.leaf [64, 13, 279, 14, 243, 254, 6, 10, 247, 126, 28, 102, 57, 103, 58, 41]) (.leaf
  [61, 62, 17, 253, 243, 284, 10, 247, 116, 28, 102, 117, 22, 103, 118, 23, 41, 119, 24, 25])))
  (.leaf [275, 13, 14, 6]))) (.cases [87, 28] 23 (.leaf [114, 110, 41, 57, 58]) (.cases
  [113, 29, 28, 83, 84, 85] 132 (.cases [] 115 (.leaf [307]) (.cases [] 46 (.leaf
  [101, 58, 306, 24, 25]) (.cases [] 35 (.cycle 25 [103, 29, 70, 100]) (.leaf
  [66, 27, 83, 77, 28, 84, 23, 85, 24, 25])))) (.leaf [343])))))) (.leaf [75, 27, 28])) (.cases
  [42, 43, 44] 44 (.cycle 35 [42, 93, 47]) (.cases [] 102 (.leaf [266, 210]) (.cases [265, 45] 60
  (.cases [141, 56] 68 (.leaf [163, 56, 273, 243, 284, 254, 10, 244, 116, 126, 103, 117, 57, 41,
  118, 58, 119]) (.leaf [162, 62, 17, 253, 243, 10, 244, 22, 103, 23, 41, 24, 25])) (.cases
  [140, 27] 71 (.cases [169, 170, 27, 28] 91 (.cases [252, 283, 10, 244, 284, 22, 103, 116, 23, 41,
  117, 24, 118, 25, 119] 97 (.leaf [251, 89]) (.leaf [249, 6])) (.cases [247, 290, 28] 42 (.cases
  [102, 22, 103, 23, 41, 24, 25] 134 (.leaf [347, 95, 96, 89]) (.cases [] 135 (.leaf
  [356, 95, 346, 96, 27, 89, 28, 102, 22, 103, 23, 41, 24, 25]) (.cases [] 45 (.cases
  [97, 98, 99, 91] 73 (.cycle 40 [177, 178, 179]) (.cases [175, 176, 43, 44, 45] 70 (.leaf
  [165, 117, 118, 119]) (.leaf [164, 27, 28, 102, 22, 103, 23, 41, 24, 25]))) (.cases
  [94, 95, 96, 89] 43 (.leaf [90, 91]) (.cases [] 73 (.cycle 40 [177, 178, 179]) (.leaf
  [175, 176, 43, 44, 45])))))) (.cases [87, 28] 132 (.cases [] 46 (.leaf [101, 58]) (.cases [] 23
  (.cycle 25 [87, 110, 57, 100]) (.cases [113, 29, 28, 83, 84, 85] 110 (.leaf [296, 89]) (.cases
  [295, 6] 57 (.cycle 56 [265, 207]) (.leaf [134, 44, 45]))))) (.leaf [343])))) (.cases [] 22
  (.cycle 45 [62, 53, 168]) (.leaf [34, 17, 253, 243, 284, 10, 244, 116, 22, 103, 117, 23, 41, 118,
  24, 119, 25])))))))

/-- some of the cases -/
def real6Case63 : SumTree :=
  .cases [] 47 (.cycle 56 [106, 107]) (.cases [] 98 (.cycle 55 [105, 256]) (.cases [255, 48, 49] 60
  (.cases [141, 56] 68 (.leaf [163, 56, 273, 243, 284, 254, 10, 244, 116, 126, 103, 117, 57, 41,
  118, 58, 119]) (.leaf [162, 62, 17, 253, 243, 10, 244, 22, 103, 23, 41, 24, 25])) (.cases
  [140, 27] 22 (.cases [] 71 (.cases [169, 170, 27, 28] 91 (.cases [252, 283, 10, 244, 284, 22,
  103, 116, 23, 41, 117, 24, 118, 25, 119] 43 (.cases [] 45 (.cases [97, 98, 99, 91] 66 (.cases
  [161, 49] 100 (.leaf [260, 6]) (.leaf [258, 172])) (.leaf [156, 157, 158, 62, 169, 17, 170, 27,
  252, 10, 244, 22, 103, 23, 41, 24, 25])) (.leaf [94, 95, 96, 89])) (.leaf [88, 89])) (.cases
  [247, 28] 66 (.cases [161, 49] 42 (.cases [102, 22, 103, 23, 41, 24, 25] 68 (.leaf
  [163, 56, 273, 243, 10, 247, 28, 102, 103, 41]) (.cases [] 32 (.leaf [64, 13, 14, 6]) (.cases []
  133 (.cases [] 103 (.leaf [289, 56, 162, 62, 345, 17, 243, 10, 247, 102, 22, 103, 23, 41, 24,
  25]) (.leaf [310, 61, 62, 345, 17, 243, 10, 247, 28, 102, 22, 103, 23, 41, 24, 25])) (.cycle 20
  [253, 344, 62])))) (.cases [87, 28] 46 (.leaf [101, 58]) (.cases [] 23 (.cycle 25
  [87, 110, 57, 100]) (.cases [113, 29, 28, 83, 84, 85] 97 (.leaf [251, 89]) (.leaf [249, 6])))))
  (.leaf [156, 157, 158, 62, 17, 253, 243, 284, 10, 244, 247, 116, 22, 103, 28, 117, 23, 41, 118,
  24, 119, 25]))) (.cycle 20 [53, 168, 62])) (.leaf [34, 17, 253, 243, 284, 10, 244, 116, 22, 103,
  117, 23, 41, 118, 24, 119, 25]))))

/-- some of the cases -/
def real6Case64 : SumTree :=
  .cases [108, 109] 78 (.cases [] 35 (.cases [] 30 (.cases [46, 47, 48, 49, 108, 109] 53 (.cases []
  54 (.cases [] 60 (.cases [141, 56, 273, 243, 10] 50 (.cases [] 68 (.leaf [163, 56, 273, 243, 284,
  10, 116, 125, 126, 31, 86, 22, 23, 24, 25]) (.leaf [162, 62, 17, 253, 243, 284, 10, 116, 117,
  125, 118, 126, 119, 31, 86, 22, 23, 24, 25])) (.leaf [115, 116, 117, 123, 118, 58, 119])) (.cases
  [140, 27] 71 (.cases [169, 170, 27, 28] 34 (.leaf [67, 13, 124, 14, 117, 6, 118, 119]) (.cases []
  50 (.cases [] 91 (.cases [252, 283, 10, 284, 116, 117, 118, 119] 51 (.leaf [129, 130, 58])
  (.cases [] 52 (.cycle 59 [128, 127]) (.cycle 2 [57, 120, 180]))) (.cases [] 106 (.cases [] 103
  (.cases [289, 56, 273, 243, 10] 23 (.cases [] 68 (.leaf [163, 56, 273, 243, 284, 10, 247, 116,
  28, 110, 57, 117, 58, 118, 119]) (.leaf [162, 62, 253, 243, 284, 10, 247, 116, 28, 114, 117, 86,
  118, 22, 119, 23, 24, 25])) (.leaf [113, 29, 28, 102, 70, 22, 58, 23, 24, 25])) (.cases [310] 45
  (.cases [97, 98, 99, 91] 32 (.leaf [64, 13, 279, 14, 243, 284, 6, 10, 247, 116, 28, 117, 125,
  118, 126, 119, 57, 58]) (.cases [61, 62, 17, 253, 243, 284, 10, 247, 116, 28, 117, 118, 119] 133
  (.cases [] 97 (.leaf [251, 89]) (.leaf [249, 6])) (.cycle 45 [62, 253, 344]))) (.cases
  [94, 95, 96, 89] 21 (.cases [] 23 (.cases [] 32 (.leaf [64, 13, 279, 14, 243, 284, 6, 10, 247,
  116, 28, 110, 57, 117, 58, 118, 119]) (.leaf
  [61, 62, 17, 253, 243, 284, 10, 247, 116, 28, 117, 118, 119])) (.cycle 12 [29, 30, 31])) (.leaf
  [26, 27, 70, 28, 102, 58, 22, 23, 24, 25])))) (.leaf [275, 13, 124, 65, 14, 125, 27, 6, 126, 28,
  31, 86, 22, 23, 24, 25]))) (.cases [115, 116, 117, 123, 118, 58, 119] 97 (.leaf [251, 89])
  (.cases [249, 6] 95 (.leaf [250, 91]) (.leaf [233, 6]))))) (.cases [] 22 (.cycle 45
  [62, 53, 168]) (.leaf [34, 17, 253, 243, 284, 10, 116, 117, 118, 119])))) (.leaf
  [121, 117, 118, 119])) (.cycle 58 [122, 194])) (.cases [42, 43, 44] 44 (.cycle 35 [42, 93, 47])
  (.cases [] 102 (.leaf [266, 210]) (.cases [265, 45] 60 (.cases
  [141, 56, 273, 243, 284, 10, 116, 117, 118, 119] 97 (.leaf [251, 89]) (.leaf [249, 6])) (.cases
  [140] 71 (.cases [169, 170, 27, 28] 91 (.cases [252, 283, 10, 284, 116, 117, 118, 119] 97 (.leaf
  [251, 89]) (.cases [249, 6] 95 (.leaf [250, 91]) (.leaf [233, 6]))) (.cases [247, 28] 45 (.cases
  [97, 98, 99, 91] 95 (.cases [] 43 (.cases [] 73 (.cycle 40 [177, 178, 179]) (.cases
  [175, 176, 43, 44, 45] 97 (.leaf [251, 89, 90, 91]) (.leaf [249, 6, 250, 91]))) (.leaf [88, 89]))
  (.leaf [233, 6])) (.cases [94, 95, 96, 89] 97 (.cases [] 95 (.cases [250] 43 (.leaf [90, 91])
  (.cases [88, 89] 73 (.cycle 40 [177, 178, 179]) (.leaf [175, 176, 43, 44, 45]))) (.leaf
  [233, 6, 251, 89])) (.leaf [249, 6])))) (.cases
  [198, 158, 62, 17, 253, 243, 284, 10, 116, 117, 118, 119] 97 (.leaf [251, 89]) (.leaf
  [249, 6]))))))) (.leaf [66, 27, 28, 102, 22, 23, 24, 25])) (.cycle 58 [117, 193, 16, 253, 281])

/-- some of the cases -/
def real6Case65 : SumTree :=
  .cases [] 78 (.cases [] 47 (.cycle 56 [106, 107]) (.cases [105, 48, 49] 53 (.cases [] 54 (.cases
  [] 60 (.cases [141, 56, 273, 243, 10] 50 (.cases [] 68 (.leaf [163, 56, 273, 243, 284, 10, 116,
  125, 126, 31, 86, 22, 23, 24, 25]) (.leaf [162, 62, 17, 253, 243, 284, 10, 116, 117, 125, 118,
  126, 119, 31, 86, 22, 23, 24, 25])) (.leaf [115, 116, 117, 123, 118, 58, 119])) (.cases [140, 27]
  71 (.cases [169, 170, 27, 28] 34 (.leaf [67, 13, 124, 14, 117, 6, 118, 119]) (.cases [] 50
  (.cases [] 66 (.cases [161, 49] 106 (.cases [] 91 (.cases [252, 283, 10, 284, 116, 117, 118, 119]
  95 (.cases [250] 43 (.cases [] 45 (.cases [97, 98, 99, 91] 56 (.leaf [136, 96, 89]) (.cases []
  100 (.cases [] 72 (.cycle 69 [173, 174]) (.leaf [171, 260, 6])) (.leaf [258, 172]))) (.leaf
  [94, 95, 96, 89])) (.leaf [88, 89])) (.leaf [233, 6])) (.cases [247, 28] 68 (.leaf [163, 56, 273,
  243, 284, 10, 247, 116, 28, 117, 125, 118, 126, 119, 57, 58]) (.cases [] 32 (.leaf [64, 13, 279,
  14, 243, 284, 6, 10, 247, 116, 28, 117, 125, 118, 126, 119, 57, 58]) (.cases [] 45 (.cases
  [97, 98, 99, 91] 103 (.leaf [289, 56, 162, 62, 17, 253, 243, 10, 247, 28]) (.leaf [310, 61, 62,
  17, 253, 243, 284, 10, 247, 116, 28, 117, 118, 119])) (.cases [94, 95, 96, 89] 52 (.cases [] 51
  (.leaf [129, 130, 58]) (.cycle 63 [127, 128])) (.cycle 2 [57, 120, 180])))))) (.leaf [275, 13,
  124, 65, 14, 125, 27, 6, 126, 28, 31, 86, 22, 23, 24, 25])) (.cases [156, 157, 158, 62, 169, 17,
  253, 170, 243, 284, 27, 10, 116, 28, 117, 118, 119] 127 (.leaf [332, 243, 284, 10, 116, 117, 125,
  118, 126, 119, 31, 86, 22, 23, 24, 25]) (.cases [331, 27, 28] 70 (.cases [165, 117, 118, 119] 97
  (.leaf [251, 89]) (.leaf [249, 6])) (.leaf [164, 27, 28])))) (.cases
  [115, 116, 117, 123, 118, 58, 119] 97 (.leaf [251, 89]) (.cases [249, 6] 95 (.leaf [250, 91])
  (.leaf [233, 6]))))) (.cases [] 22 (.cycle 45 [62, 53, 168]) (.leaf
  [34, 17, 253, 243, 284, 10, 116, 117, 118, 119])))) (.leaf [121, 117, 118, 119])) (.cycle 58
  [122, 194]))) (.cycle 58 [117, 193, 16, 253, 281])

/-- some of the cases -/
def real6Case66 : SumTree :=
  .cases [141, 56, 273, 243, 284, 10, 246, 116, 17, 104, 117, 22, 118, 23, 119, 24, 25] 34 (.cases
  [67, 13, 14, 6] 41 (.leaf [103, 41]) (.leaf [86, 22, 23, 24, 25])) (.leaf [65, 141, 56, 273, 243,
  284, 254, 10, 246, 116, 126, 17, 117, 57, 118, 58, 119])

/-- some of the cases -/
def real6Case67 : SumTree :=
  .cases [103, 41] 31 (.cases [] 117 (.cases [312, 10, 246, 17, 104, 22, 103, 23, 41, 24, 25] 50
  (.cases [] 91 (.cases [283, 284, 116, 117, 118, 119] 52 (.cases [] 51 (.leaf [129, 130, 58])
  (.cycle 59 [128, 127])) (.cycle 2 [57, 120, 180])) (.cycle 32 [312, 247, 28])) (.leaf
  [115, 116, 117, 118, 119])) (.cases [] 91 (.cycle 15 [10, 311, 252]) (.cases [247, 290, 28] 103
  (.cases [289, 56, 273, 243, 284, 10, 285, 247, 290, 116, 28] 71 (.leaf [169]) (.cases
  [198, 158, 62, 17, 104, 22, 103, 23, 41, 24, 25] 55 (.leaf [132, 117, 118, 119]) (.cases [] 70
  (.leaf [165, 117, 131, 118, 62, 119, 17, 104, 22, 103, 23, 41, 24, 25]) (.leaf
  [164, 27, 198, 28, 158, 62, 17, 104, 22, 103, 23, 41, 24, 25])))) (.cases [310] 106 (.cases [279,
  243, 284, 10, 246, 285, 247, 116, 17, 104, 28, 117, 22, 103, 118, 23, 41, 119, 24, 25] 49 (.cases
  [] 23 (.cases [] 120 (.cases [] 22 (.cases [53, 27, 28] 71 (.cases [] 55 (.cases
  [132, 117, 118, 119] 46 (.leaf [101, 58]) (.cases [] 42 (.leaf [102, 22, 103, 23, 41, 24, 25])
  (.cycle 25 [87, 110, 57, 100]))) (.cycle 45 [169, 321, 131])) (.cycle 20 [53, 168, 62])) (.leaf
  [34, 17, 104, 112, 22, 103, 57, 23, 41, 58, 24, 25])) (.leaf [319])) (.leaf [113, 28])) (.cycle
  20 [104, 103, 111])) (.cases [275, 13, 14, 6] 71 (.cases [] 22 (.cases [53, 27, 28] 78 (.cases []
  32 (.cases [64, 13, 14, 6] 25 (.cases [51, 57, 58] 42 (.leaf [102, 22, 103, 23, 41, 24, 25])
  (.leaf [87, 28])) (.leaf [39, 13, 71, 194, 14, 58, 117, 6, 118, 119])) (.leaf [61, 169])) (.leaf
  [193, 232, 285, 169])) (.cycle 45 [169, 170, 27, 68])) (.cases [198, 158, 62, 17, 104] 23 (.cases
  [] 42 (.cases [102, 22, 103, 23, 41, 24, 25] 34 (.cases [67, 13, 14, 6] 53 (.leaf
  [124, 117, 118, 119]) (.cases [] 55 (.leaf [132, 122, 13, 14, 6]) (.cases [] 70 (.leaf
  [165, 117, 122, 131, 118, 13, 62, 119, 14, 17, 6]) (.leaf [164, 27, 198, 67, 102, 158, 13, 22,
  103, 62, 14, 23, 41, 17, 6, 24, 25])))) (.leaf
  [65, 27, 198, 28, 102, 158, 22, 62, 23, 17, 24, 25])) (.leaf [87, 28, 114, 110, 41, 57, 58]))
  (.cycle 45 [62, 104, 103, 29, 168]))))))) (.leaf [59, 60, 13, 232, 14, 10, 246, 6, 17])

/-- some of the cases -/
def real6Case68 : SumTree :=
  .cases [86, 22, 23, 24, 25] 33 (.cases [] 42 (.cases [] 71 (.cases [] 103 (.leaf
  [289, 273, 243, 285, 169]) (.cases [310] 22 (.cases [53, 27, 28] 32 (.leaf [64, 13, 14, 6])
  (.cases [] 106 (.cases [279, 243, 284, 10, 246, 285, 116, 17, 53, 27, 28] 120 (.cases [] 35
  (.cases [] 55 (.cases [132, 117, 118, 119] 43 (.cases [90, 91] 44 (.cases [93, 47, 48, 49] 45
  (.cases [97, 98, 99, 91] 23 (.cases [114, 86, 22, 23, 24, 25] 110 (.leaf [296, 89]) (.leaf
  [295, 6])) (.leaf [113, 28, 102, 22, 23, 24, 25])) (.leaf [94, 95, 96, 89])) (.leaf
  [92, 43, 44, 45])) (.leaf [88, 89])) (.cycle 45 [169, 321, 131])) (.leaf
  [66, 27, 28, 102, 22, 23, 24, 25])) (.leaf [319])) (.leaf [275, 61, 169]))) (.cycle 45
  [169, 170, 27, 68]))) (.cases [] 103 (.cases [289, 56, 273, 140, 243, 284, 27, 10, 246, 116, 28,
  17, 117, 118, 119] 50 (.cases [] 52 (.cases [] 51 (.leaf [129, 130, 58]) (.cycle 59 [128, 127]))
  (.cycle 2 [57, 120, 180])) (.leaf [115, 116, 117, 118, 119])) (.cases [310] 91 (.cases
  [252, 283, 10, 246, 285, 17] 49 (.cases [] 32 (.leaf [64, 13, 14, 6]) (.cases [] 106 (.cases []
  34 (.leaf [67, 13, 279, 14, 243, 284, 6, 10, 246, 116, 17, 112, 117, 57, 58, 118, 119]) (.leaf
  [65, 27, 252, 283, 10, 246, 284, 17, 112, 116, 31, 57, 117, 86, 58, 118, 22, 119, 23, 24, 25]))
  (.leaf [275, 13, 61, 14, 62, 6, 17, 112, 31, 86, 22, 23, 24, 25]))) (.leaf
  [111, 133, 17, 104, 69, 22, 58, 23, 24, 25])) (.cases [290, 198, 158, 62, 17] 32 (.leaf
  [64, 13, 14, 6]) (.cases [] 22 (.cycle 45 [62, 53, 168]) (.cases [] 34 (.leaf
  [67, 13, 61, 14, 62, 6, 17]) (.cases [] 51 (.cases [] 106 (.leaf [279, 243, 284, 10, 247, 116,
  28, 34, 117, 17, 118, 129, 119, 130, 58]) (.leaf [275, 13, 65, 14, 27, 6, 34, 17])) (.cases
  [127, 118, 119] 49 (.cases [] 106 (.cases [279, 243, 10, 247, 28, 34, 17, 112, 31, 57, 86, 58,
  22, 23, 24, 25] 30 (.leaf [46, 47, 48, 49]) (.leaf [42, 43, 44, 45])) (.leaf
  [275, 13, 65, 14, 27, 6, 34, 17, 112, 31, 86, 22, 23, 24, 25])) (.leaf
  [111, 133, 17, 104, 69, 22, 58, 23, 24, 25]))))))))) (.leaf [87, 28])) (.leaf
  [63, 62, 17, 104, 22, 23, 24, 25])

/-- some of the cases -/
def real6Case69 : SumTree :=
  .cases [54, 20] 65 (.cases [155, 55, 56] 85 (.cases [218, 223, 41, 57, 58] 23 (.cases [] 54
  (.cases [] 69 (.leaf [184, 117, 123, 118, 58, 119]) (.cases [] 34 (.cases
  [67, 13, 268, 200, 14, 9, 55, 6, 10, 56] 71 (.leaf [169, 170, 67, 13, 268, 200, 14, 355, 9, 55,
  6, 104, 10, 56, 54, 20]) (.cases [] 22 (.cycle 20 [53, 168, 62]) (.cases [] 64 (.leaf
  [151, 152, 9, 34, 10, 17, 104, 155, 54, 55, 20, 56]) (.cases [] 76 (.cycle 26 [186, 166]) (.cases
  [] 61 (.cycle 22 [150, 149]) (.leaf [142, 117, 118, 185, 119, 54, 20, 218, 223, 41, 57, 58]))))))
  (.cases [65, 27] 80 (.cases [205, 206, 55, 56] 28 (.cases [] 42 (.leaf
  [102, 22, 54, 23, 20, 218, 223, 24, 41, 57, 25, 58]) (.cycle 25 [87, 201, 55, 269])) (.leaf
  [32, 28, 110, 57, 58])) (.cases [] 28 (.cases [201, 55, 56] 42 (.leaf
  [102, 22, 54, 23, 20, 218, 223, 24, 41, 57, 25, 58]) (.cycle 25 [87, 201, 55, 269])) (.leaf
  [32, 28, 114, 110, 41, 57, 58]))))) (.leaf [121, 117, 118, 119])) (.leaf [113, 28])) (.cycle 12
  [216, 217, 31])) (.cycle 20 [104, 54, 154])

/-- some of the cases -/
def real6Case70 : SumTree :=
  .cases [] 65 (.cases [155, 19, 55, 20, 21, 56, 22, 23, 24, 25] 64 (.leaf [151, 355, 9, 17, 155,
  10, 240, 20, 21, 55, 22, 56, 23, 24, 25]) (.cases [] 80 (.cycle 23 [55, 150, 272]) (.cases [] 41
  (.cases [103, 41] 34 (.cases [67, 13, 268, 200, 14, 9, 19, 55, 202, 6, 10, 20, 21, 56, 116, 22,
  103, 117, 23, 41, 118, 24, 119, 25] 133 (.leaf [345, 243, 10, 240, 237, 20, 21, 55, 22, 103, 56,
  23, 41, 24, 25]) (.cases [] 97 (.leaf [251, 89]) (.cases [] 90 (.cycle 20 [253, 344, 62]) (.cases
  [] 91 (.leaf [252, 10, 246, 155, 19, 55, 20, 21, 56, 22, 103, 23, 41, 24, 25]) (.cycle 30
  [67, 268, 9, 290]))))) (.cases [65] 71 (.cases [169, 170, 27, 28] 50 (.cases [] 61 (.cycle 58
  [149, 150]) (.cases [142, 117, 125, 118, 126, 119, 57, 58] 70 (.cases [] 23 (.cases [] 60 (.cases
  [141, 56, 142, 117, 125, 118, 126, 119, 57, 58] 42 (.cases [102, 22, 103, 23, 41, 24, 25] 30
  (.leaf [46, 47, 48, 49]) (.leaf [42, 43, 44, 45])) (.leaf [87, 28, 114, 110, 41, 57, 58])) (.leaf
  [140, 27, 165, 28, 117, 125, 118, 126, 119, 57, 58])) (.cycle 12 [29, 165, 180, 31])) (.leaf
  [164, 27, 28]))) (.cases [115, 116, 117, 118, 119] 70 (.cases [] 21 (.cases [] 46 (.leaf
  [101, 58]) (.cases [] 23 (.cases [] 61 (.cycle 58 [149, 150]) (.cases [] 42 (.cases [] 28 (.leaf
  [37, 201, 20, 21, 55, 22, 56, 142, 23, 117, 24, 118, 25, 119]) (.leaf
  [32, 102, 22, 103, 23, 41, 24, 25])) (.cycle 25 [87, 110, 57, 100]))) (.cycle 12 [29, 30, 31])))
  (.leaf [26, 27, 165, 28, 117, 118, 119])) (.leaf [164, 27, 28]))) (.cases [198, 158, 62, 17, 155,
  19, 55, 202, 20, 21, 56, 116, 22, 103, 117, 23, 41, 118, 24, 119, 25] 30 (.leaf [46, 47, 48, 49])
  (.leaf [42, 43, 44, 45])))) (.cases [86, 22, 23, 24, 25] 50 (.cases [] 61 (.cycle 58 [149, 150])
  (.leaf [142, 117, 125, 118, 126, 119, 31, 57, 86, 58, 22, 23, 24, 25])) (.leaf
  [115, 116, 117, 118, 119]))))) (.cases [154, 196, 17, 104, 22, 23, 24, 25] 33 (.cases [] 80
  (.cases [205, 206, 19, 55, 20, 154, 56, 17, 104, 22, 23, 24, 25] 30 (.cases [46, 47, 48, 49] 97
  (.leaf [251, 89]) (.cases [249, 6] 95 (.leaf [250, 91]) (.leaf [233, 6]))) (.leaf
  [42, 43, 44, 45])) (.cases [] 41 (.cases [103, 41] 23 (.cases [] 24 (.leaf
  [52, 20, 154, 17, 104, 22, 103, 23, 41, 24, 25]) (.cases [] 28 (.cycle 19 [20, 36, 37]) (.cases
  [32, 197] 71 (.cases [] 22 (.cases [53, 27, 28] 68 (.cases [163, 56] 42 (.leaf
  [102, 22, 103, 23, 41, 24, 25]) (.leaf [87, 28, 110, 57, 58])) (.leaf [162, 169])) (.cycle 45
  [169, 170, 27, 68])) (.cases [198, 158, 62, 17, 104] 42 (.cases [102, 22, 103, 23, 41, 24, 25] 64
  (.cycle 23 [202, 116, 117, 151, 9, 237]) (.cases [] 60 (.cases [141, 56] 61 (.cycle 22
  [150, 149]) (.leaf [142, 117, 118, 119])) (.leaf
  [140, 27, 198, 28, 110, 102, 158, 57, 103, 58, 62, 41, 17]))) (.leaf
  [87, 28, 114, 110, 41, 57, 58]))))) (.leaf [113, 28])) (.cases [86, 22, 23, 24, 25] 86 (.cases []
  64 (.cycle 23 [202, 116, 117, 151, 9, 237]) (.cases [] 68 (.cases [163, 56] 61 (.cycle 22
  [150, 149]) (.leaf [142, 117, 118, 119])) (.leaf
  [162, 62, 220, 17, 31, 57, 86, 58, 22, 23, 24, 25]))) (.leaf [219, 62, 17])))) (.leaf
  [63, 62, 17, 104, 22, 23, 24, 25]))

/-- some of the cases -/
def real6Case71 : SumTree :=
  .cases [251, 89] 38 (.cases [] 69 (.leaf [184, 117, 123, 118, 58, 119]) (.cases [] 100 (.cases
  [260, 6, 251, 89] 23 (.cases [] 114 (.leaf [303, 278, 9, 56, 10, 244, 54, 20]) (.cases [] 56
  (.cases [136, 96, 89] 64 (.cycle 59 [151, 348]) (.cases [] 117 (.leaf
  [312, 10, 244, 22, 54, 101, 20, 58]) (.cases [] 60 (.cases [141, 56] 91 (.cycle 31
  [252, 10, 311]) (.cases [] 76 (.cycle 26 [186, 166]) (.cases [] 51 (.cases [] 103 (.cases
  [268, 9, 10] 68 (.cases [163, 56] 61 (.cycle 58 [149, 150]) (.leaf [142, 117, 129, 130, 58]))
  (.leaf [162, 62, 17, 104, 22, 54, 101, 20, 58])) (.cycle 30 [141, 267, 232, 290])) (.cycle 25
  [22, 264, 127, 185])))) (.cases [140, 27] 34 (.cases [67, 13, 14, 6, 251, 89] 71 (.leaf
  [169, 170, 67, 13, 14, 6, 251, 89]) (.cases [] 22 (.cycle 20 [53, 168, 62]) (.leaf
  [34, 17, 104, 22, 54, 23, 101, 20, 24, 58, 25]))) (.cases [65, 27] 42 (.leaf
  [102, 22, 54, 23, 101, 20, 218, 24, 58, 41, 25]) (.cases [87, 28] 26 (.leaf [50, 31, 57, 41, 58])
  (.cases [] 28 (.leaf [37, 20, 218, 223, 41, 40, 101, 58]) (.leaf
  [32, 28, 114, 110, 41, 40, 101, 58])))))))) (.cycle 69 [260, 251, 174]))) (.leaf
  [113, 29, 28, 77, 101, 58])) (.cases [258, 172] 23 (.cases [] 34 (.cases
  [67, 13, 14, 6, 251, 258, 89, 172] 32 (.leaf [64, 13, 14, 6, 251, 89]) (.leaf
  [61, 62, 17, 104, 22, 54, 101, 20, 218, 58, 41])) (.cases [65, 27] 42 (.leaf
  [102, 22, 54, 23, 101, 20, 218, 24, 58, 41, 25]) (.cases [87, 28] 26 (.leaf [50, 31, 57, 41, 58])
  (.cases [] 28 (.leaf [37, 20, 218, 223, 41, 40, 101, 58]) (.leaf
  [32, 28, 114, 110, 41, 40, 101, 58]))))) (.leaf [113, 29, 28, 77, 101, 58])))) (.leaf
  [75, 27, 70, 28, 58])

/-- some of the cases -/
def real6Case72 : SumTree :=
  .cases [249, 6] 38 (.cases [] 69 (.leaf [184, 117, 123, 118, 58, 119]) (.cases [] 72 (.cases
  [173, 89, 249, 6] 23 (.cases [] 56 (.cases [136, 96, 89, 249, 6] 74 (.leaf [183, 56]) (.cases []
  28 (.cases [] 137 (.leaf [353, 182, 99, 91]) (.cases [] 68 (.leaf [163, 56, 352, 136, 96, 89])
  (.cases [] 42 (.cases [] 71 (.leaf [169, 170, 27, 102, 22, 54, 101, 20, 218, 58, 41]) (.cases []
  22 (.cycle 20 [53, 168, 62]) (.cases [] 60 (.leaf [141, 56, 162, 62, 104, 22, 54, 101, 20, 58])
  (.leaf [140, 27, 34, 17, 104, 22, 54, 23, 101, 20, 218, 24, 58, 41, 25])))) (.leaf
  [87, 28, 37, 20, 223, 57, 58])))) (.leaf [32, 28, 110, 57, 58]))) (.cycle 69 [173, 174])) (.leaf
  [113, 29, 28, 83, 77, 84, 101, 85, 58])) (.cases [171, 172] 23 (.cases [] 114 (.leaf
  [303, 278, 9, 56, 10, 244, 54, 20]) (.cases [] 100 (.cases [260, 6] 28 (.cases [] 68 (.leaf
  [163, 56]) (.cases [] 60 (.leaf [141, 56, 162, 62, 17, 104, 22, 54, 101, 20, 58]) (.cases
  [140, 27] 95 (.cases [250, 91] 42 (.cases [] 71 (.leaf
  [169, 170, 27, 102, 22, 54, 101, 20, 218, 58, 41]) (.cases [] 22 (.cycle 20 [53, 168, 62]) (.leaf
  [34, 17, 104, 22, 54, 23, 101, 20, 218, 24, 58, 41, 25]))) (.leaf [87, 28, 37, 20, 223, 57, 58]))
  (.cases [] 22 (.cases [53, 27] 42 (.leaf [102, 22, 54, 23, 101, 20, 24, 58, 25]) (.leaf
  [87, 28, 37, 20, 218, 223, 41, 57, 58])) (.cases
  [34, 104, 22, 54, 23, 101, 20, 218, 24, 58, 41, 25] 112 (.leaf [299, 91, 233, 6]) (.leaf
  [298, 172, 260, 6])))))) (.leaf [32, 28, 114, 110, 41, 57, 58])) (.cases [258, 172] 64 (.cycle 59
  [151, 348]) (.cases [] 78 (.cases [] 117 (.leaf [312, 10, 244, 22, 54, 101, 20, 58]) (.cases []
  60 (.cases [141, 56] 91 (.cycle 31 [252, 10, 311]) (.cases [] 76 (.cycle 26 [186, 166]) (.cases
  [] 51 (.cases [] 103 (.cases [268, 9, 10] 68 (.cases [163, 56] 61 (.cycle 58 [149, 150]) (.leaf
  [142, 117, 129, 130, 58])) (.leaf [162, 62, 17, 104, 22, 54, 101, 20, 58])) (.cycle 30
  [141, 267, 232, 290])) (.cycle 25 [22, 264, 127, 185])))) (.cases [140] 34 (.cases
  [67, 13, 14, 6, 258, 172] 32 (.cases [64, 13, 14, 6, 258, 172] 53 (.leaf [124, 117, 118, 119])
  (.cycle 58 [122, 194])) (.leaf [61, 62, 17, 104, 22, 54, 101, 20, 58])) (.cases [65, 27] 42
  (.leaf [102, 22, 54, 23, 101, 20, 218, 24, 58, 41, 25]) (.cases [87, 28] 26 (.leaf
  [50, 31, 57, 41, 58]) (.cases [] 28 (.leaf [37, 20, 218, 223, 41, 40, 101, 58]) (.leaf
  [32, 28, 114, 110, 41, 40, 101, 58]))))))) (.leaf
  [193, 12, 232, 13, 10, 244, 14, 54, 6, 258, 20, 172]))))) (.leaf [113, 29, 28, 77, 101, 58]))))
  (.leaf [75, 27, 70, 28, 58])

/-- some of the cases -/
def real6Case73 : SumTree :=
  .cases [94, 95, 96, 89] 35 (.cases [] 38 (.cases [] 54 (.cases [] 69 (.leaf
  [184, 117, 123, 118, 58, 119]) (.cases [] 92 (.leaf [245, 10, 240, 20, 218, 41]) (.cases [] 100
  (.cases [260, 6] 56 (.cases [136, 96, 89] 23 (.cases [] 114 (.leaf
  [303, 278, 9, 56, 10, 244, 54, 20]) (.cases [] 101 (.cases [263, 96, 89] 64 (.cycle 59
  [151, 348]) (.cases [] 60 (.cases [141, 56] 76 (.cycle 26 [186, 166]) (.cases [] 51 (.cases [] 68
  (.cases [163, 56] 61 (.cycle 58 [149, 150]) (.leaf [142, 117, 129, 130, 58])) (.leaf
  [162, 62, 17, 104, 22, 54, 101, 20, 58])) (.cycle 25 [22, 264, 127, 185]))) (.cases [140, 27] 34
  (.cases [67, 13, 14, 6] 28 (.cases [] 42 (.cases [] 71 (.leaf
  [169, 170, 27, 67, 102, 13, 22, 54, 14, 101, 20, 6, 58]) (.cases [] 22 (.cycle 20 [53, 168, 62])
  (.leaf [34, 17, 104, 22, 54, 23, 101, 20, 218, 24, 58, 41, 25]))) (.leaf
  [87, 28, 37, 20, 223, 57, 58])) (.cycle 25 [54, 197, 67, 79])) (.cases [65, 27] 42 (.leaf
  [102, 22, 54, 23, 101, 20, 218, 24, 58, 41, 25]) (.cases [87, 28] 26 (.leaf [50, 31, 57, 41, 58])
  (.cases [] 28 (.leaf [37, 20, 218, 223, 41, 40, 101, 58]) (.leaf
  [32, 28, 114, 110, 41, 40, 101, 58]))))))) (.cycle 65 [136, 262]))) (.leaf
  [113, 29, 28, 83, 77, 84, 101, 85, 58])) (.cases [174, 172, 260, 6] 21 (.cases [] 28 (.cases []
  68 (.leaf [163, 56]) (.cases [] 60 (.leaf [141, 56, 162, 62, 17, 104, 22, 54, 101, 20, 58])
  (.cases [140, 27] 22 (.cases [53, 27] 42 (.leaf [102, 22, 54, 101, 20, 218, 58, 41]) (.leaf
  [87, 28, 37, 20, 223, 57, 58])) (.cases [34, 17, 104, 22, 54, 23, 101, 20, 218, 24, 58, 41, 25]
  97 (.cycle 48 [174, 260, 251]) (.leaf [249, 6]))))) (.leaf [32, 197, 28, 30, 31, 41])) (.leaf
  [26, 27, 77, 28, 101, 58]))) (.cases [258, 172] 23 (.cases [] 117 (.leaf
  [312, 10, 244, 22, 54, 101, 20, 58]) (.cases [] 60 (.cases [141, 56] 91 (.cycle 31
  [252, 10, 311]) (.cases [] 28 (.cases [] 76 (.cycle 26 [186, 166]) (.cases [] 42 (.cases [] 51
  (.cases [] 71 (.leaf [169, 170, 27, 141, 102, 56, 22, 54, 101, 20, 58]) (.cases [] 103 (.cases
  [268, 9, 10] 22 (.cycle 20 [53, 168, 62]) (.cases [] 34 (.cycle 30 [67, 268, 9, 290]) (.leaf
  [65, 27, 141, 34, 56, 17, 104, 22, 54, 101, 20, 58]))) (.cycle 30 [141, 267, 232, 290]))) (.cycle
  25 [22, 264, 127, 185])) (.leaf [87, 28, 37, 20, 223, 57, 58]))) (.cycle 19 [197, 141, 18, 19])))
  (.cases [140, 27] 34 (.cases [67, 13, 14, 6, 258, 172] 71 (.leaf
  [169, 170, 67, 13, 14, 6, 258, 172]) (.cases [] 22 (.cycle 20 [53, 168, 62]) (.leaf
  [34, 17, 104, 22, 54, 23, 101, 20, 24, 58, 25]))) (.cases [65, 27] 42 (.leaf
  [102, 22, 54, 23, 101, 20, 218, 24, 58, 41, 25]) (.cases [87, 28] 26 (.leaf [50, 31, 57, 41, 58])
  (.cases [] 28 (.leaf [37, 20, 218, 223, 41, 40, 101, 58]) (.leaf
  [32, 28, 114, 110, 41, 40, 101, 58]))))))) (.leaf [113, 29, 28, 77, 101, 58]))))) (.leaf
  [121, 117, 118, 119])) (.leaf [75, 27, 70, 28, 58])) (.leaf [66, 27, 28])

/-- some of the cases -/
def real6Case74 : SumTree :=
  .cases [161, 49] 38 (.cases [] 69 (.leaf [184, 117, 123, 118, 58, 119]) (.cases [] 55 (.cases []
  45 (.cases [97, 98, 99, 91] 97 (.cases [251, 89] 23 (.cases [] 34 (.cases
  [67, 13, 14, 6, 251, 89] 32 (.leaf [64, 13, 14, 6, 251, 89]) (.leaf
  [61, 62, 17, 104, 22, 54, 101, 20, 218, 58, 41])) (.cases [65, 27] 42 (.leaf
  [102, 22, 54, 23, 101, 20, 218, 24, 58, 41, 25]) (.cases [87, 28] 26 (.leaf [50, 31, 57, 41, 58])
  (.cases [] 28 (.leaf [37, 20, 218, 223, 41, 40, 101, 58]) (.leaf
  [32, 28, 114, 110, 41, 40, 101, 58]))))) (.leaf [113, 29, 28, 77, 101, 58])) (.cases [249, 6] 23
  (.cases [] 64 (.leaf [151, 278, 9, 56, 10, 244, 54, 20]) (.cases [] 72 (.cases [173, 89, 249, 6]
  28 (.cases [] 61 (.cycle 58 [149, 150]) (.cases [] 60 (.cases [141, 56] 43 (.cases [] 103 (.cases
  [] 113 (.cases [301, 9, 10] 56 (.leaf [136, 96, 89, 249, 6]) (.cycle 69 [173, 174])) (.cycle 17
  [268, 300, 12])) (.leaf [310, 267, 13, 232, 14, 10, 6])) (.leaf [88, 89, 249, 6])) (.cases
  [140, 27] 22 (.cases [53, 27] 42 (.leaf [102, 22, 54, 23, 101, 20, 24, 58, 25]) (.leaf
  [87, 28, 37, 20, 218, 223, 41, 57, 58])) (.cases
  [34, 17, 104, 22, 54, 23, 101, 20, 218, 24, 58, 41, 25] 95 (.cases [] 56 (.leaf
  [136, 96, 89, 249, 6]) (.cycle 69 [173, 174])) (.leaf [233, 6]))))) (.leaf
  [32, 28, 114, 110, 41, 57, 58])) (.cases [171, 172] 133 (.leaf
  [345, 243, 10, 244, 22, 54, 101, 20, 58]) (.cases [] 90 (.cycle 20 [253, 344, 62]) (.cases [] 28
  (.cases [] 78 (.cases [] 137 (.leaf [353]) (.cases [] 68 (.leaf [163, 56, 352]) (.cases [] 60
  (.leaf [141, 56, 162, 62, 17, 104, 22, 54, 101, 20, 58]) (.cases [140] 34 (.cases [67, 13, 14, 6]
  32 (.cases [64, 13, 14, 6] 53 (.leaf [124, 117, 118, 119]) (.cycle 58 [122, 194])) (.leaf
  [61, 62, 17, 104, 22, 54, 101, 20, 58])) (.cases [65, 27] 42 (.leaf
  [102, 22, 54, 23, 101, 20, 218, 24, 58, 41, 25]) (.leaf
  [87, 28, 37, 20, 218, 223, 41, 57, 58])))))) (.cycle 59 [193, 232, 285, 132, 117])) (.leaf
  [32, 28, 114, 110, 41, 57, 58])))))) (.leaf [113, 29, 28, 77, 101, 58]))) (.cases
  [94, 95, 96, 89] 23 (.cases [] 64 (.leaf [151, 278, 9, 56, 10, 244, 54, 20]) (.cases [] 78
  (.cases [] 117 (.leaf [312, 10, 244, 22, 54, 101, 20, 58]) (.cases [] 60 (.cases [141, 56] 91
  (.cycle 31 [252, 10, 311]) (.cases [] 76 (.cycle 26 [186, 166]) (.cases [] 51 (.cases [] 103
  (.cases [268, 9, 10] 68 (.cases [163, 56] 61 (.cycle 58 [149, 150]) (.leaf
  [142, 117, 129, 130, 58])) (.leaf [162, 62, 17, 104, 22, 54, 101, 20, 58])) (.cycle 30
  [141, 267, 232, 290])) (.cycle 25 [22, 264, 127, 185])))) (.cases [140] 34 (.cases
  [67, 13, 14, 6] 32 (.cases [64, 13, 14, 6] 53 (.leaf [124, 117, 118, 119]) (.cycle 58
  [122, 194])) (.leaf [61, 62, 17, 104, 22, 54, 101, 20, 58])) (.cases [65, 27] 42 (.leaf
  [102, 22, 54, 23, 101, 20, 218, 24, 58, 41, 25]) (.cases [87, 28] 26 (.leaf [50, 31, 57, 41, 58])
  (.cases [] 28 (.leaf [37, 20, 218, 223, 41, 40, 101, 58]) (.leaf
  [32, 28, 114, 110, 41, 40, 101, 58]))))))) (.leaf [193, 12, 232, 13, 10, 244, 14, 54, 6, 20])))
  (.leaf [113, 29, 28, 77, 101, 58]))) (.cases
  [131, 62, 17, 104, 22, 54, 23, 101, 20, 218, 24, 58, 41, 25] 43 (.cases [] 45 (.cases
  [97, 98, 99, 91] 56 (.leaf [136, 96, 89]) (.cases [] 100 (.cases [] 72 (.cycle 69 [173, 174])
  (.leaf [171, 260, 6])) (.leaf [258, 172]))) (.leaf [94, 95, 96, 89])) (.leaf [88, 89])))) (.leaf
  [75, 27, 70, 28, 58])

/-- some of the cases -/
def real6Case75 : SumTree :=
  .cases [156, 157, 158, 62, 17, 104, 22, 54, 23, 101, 20, 218, 24, 58, 41, 25] 97 (.leaf
  [251, 89]) (.leaf [249, 6])

/-- some of the cases -/
def real6Case76 : SumTree :=
  .cases [] 57 (.cycle 56 [265, 207]) (.cases [] 125 (.cycle 55 [134, 330]) (.cases [325, 44, 45]
  35 (.cases [] 82 (.cases [209, 45] 54 (.cases [] 92 (.leaf [245, 10, 240, 20, 223, 57, 58])
  (.cases [] 48 (.cases [108, 109, 325, 44, 45] 30 (.cycle 41 [108, 109, 325, 328, 48]) (.cases []
  44 (.cycle 35 [42, 93, 47]) (.cases [] 78 (.cases [] 38 (.cases [] 69 (.leaf
  [184, 117, 123, 118, 58, 119]) (.cases [] 73 (.cycle 40 [177, 178, 179]) (.cases
  [175, 176, 43, 44, 45] 23 (.cases [] 114 (.leaf [303, 278, 9, 56, 10, 244, 54, 20]) (.cases [] 45
  (.cases [97, 98, 99, 91] 64 (.cycle 59 [151, 348]) (.cases [] 117 (.leaf
  [312, 10, 244, 22, 54, 101, 20, 58]) (.cases [] 60 (.cases [141, 56] 91 (.cycle 31
  [252, 10, 311]) (.cases [] 76 (.cycle 26 [186, 166]) (.cases [] 51 (.cases [] 103 (.cases
  [268, 9, 10] 68 (.cases [163, 56] 61 (.cycle 58 [149, 150]) (.leaf [142, 117, 129, 130, 58]))
  (.leaf [162, 62, 17, 104, 22, 54, 101, 20, 58])) (.cycle 30 [141, 267, 232, 290])) (.cycle 25
  [22, 264, 127, 185])))) (.cases [140] 34 (.cases [67, 13, 14, 6] 32 (.cases [64, 13, 14, 6] 53
  (.leaf [124, 117, 118, 119]) (.cycle 58 [122, 194])) (.leaf
  [61, 62, 17, 104, 22, 54, 101, 20, 58])) (.cases [65, 27] 42 (.leaf
  [102, 22, 54, 23, 101, 20, 218, 24, 58, 41, 25]) (.cases [87, 28] 26 (.leaf [50, 31, 57, 41, 58])
  (.cases [] 28 (.leaf [37, 20, 218, 223, 41, 40, 101, 58]) (.leaf
  [32, 28, 114, 110, 41, 40, 101, 58])))))))) (.cases [94, 95, 96, 89] 28 (.cases [] 76 (.cycle 26
  [186, 166]) (.cases [] 53 (.cases [] 51 (.cases [] 34 (.cases [67, 13, 14, 6] 32 (.leaf
  [64, 13, 124, 14, 117, 6, 129, 130, 58]) (.leaf [61, 62, 17, 104, 22, 54, 101, 20, 218, 58, 41]))
  (.cases [65, 27] 42 (.leaf [102, 22, 54, 23, 101, 20, 218, 24, 58, 41, 25]) (.leaf
  [87, 28, 37, 20, 223, 57, 58]))) (.cycle 25 [22, 264, 127, 185])) (.cycle 58 [122, 194]))) (.leaf
  [32, 28, 110, 57, 58])))) (.leaf [113, 29, 28, 77, 101, 58])))) (.leaf [75, 27, 70, 28, 58]))
  (.leaf [193, 12, 232, 13, 10, 244, 14, 54, 6, 20])))) (.cases [] 38 (.cases [] 47 (.cycle 56
  [106, 107]) (.cases [105, 48, 49] 23 (.cases [] 78 (.cases [] 114 (.leaf
  [303, 278, 9, 56, 10, 244, 54, 20]) (.cases [] 66 (.cases [161, 49] 64 (.cycle 59 [151, 348])
  (.cases [] 61 (.cycle 58 [149, 150]) (.cases [] 60 (.cases [141, 56, 142, 117, 118, 119] 43
  (.cases [] 45 (.cases [97, 98, 99, 91] 103 (.cases [] 113 (.leaf [301, 9, 10]) (.cycle 17
  [268, 300, 12])) (.leaf [310, 267, 13, 232, 14, 10, 6])) (.leaf [94, 95, 96, 89])) (.leaf
  [88, 89])) (.cases [140] 34 (.cases [67, 13, 14, 6] 32 (.cases [64, 13, 14, 6] 53 (.leaf
  [124, 117, 118, 119]) (.cycle 58 [122, 194])) (.leaf [61, 62, 17, 104, 22, 54, 101, 20, 58]))
  (.cases [65, 27] 42 (.leaf [102, 22, 54, 23, 101, 20, 218, 24, 58, 41, 25]) (.cases [87, 28] 28
  (.leaf [37, 20, 218, 223, 41, 57, 58]) (.leaf [32, 28, 114, 110, 41, 57, 58]))))))) (.leaf [156,
  157, 209, 158, 45, 62, 17, 104, 22, 54, 23, 101, 20, 218, 24, 58, 41, 25]))) (.leaf
  [193, 12, 232, 13, 10, 244, 14, 54, 6, 20])) (.leaf [113, 29, 28, 77, 101, 58]))) (.leaf
  [75, 27, 70, 28, 58])))) (.leaf [121, 117, 118, 119])) (.cases [208, 157, 158, 62, 17, 104, 22,
  54, 23, 101, 20, 218, 24, 58, 41, 25] 97 (.leaf [251, 89]) (.leaf [249, 6]))) (.leaf
  [66, 27, 28])))

/-- some of the cases -/
def real6Case77 : SumTree :=
  .cases [46, 47, 48, 49, 108, 109] 78 (.cases [] 79 (.cases [] 114 (.leaf
  [303, 278, 9, 56, 18, 10, 19, 20, 21, 103, 41]) (.cases [] 42 (.cases [] 45 (.cases
  [97, 98, 99, 91] 64 (.cycle 59 [151, 348]) (.cases [] 60 (.cases [141, 56] 61 (.cycle 58
  [149, 150]) (.leaf [142, 117, 309, 129, 206, 130, 19, 58, 20, 21, 22, 103, 23, 41, 24, 25]))
  (.cases [140, 27] 34 (.cases [67, 13, 200, 14, 19, 6, 20, 21, 22, 103, 23, 41, 24, 25] 71 (.leaf
  [169, 170, 67, 13, 200, 14, 19, 6, 20, 21, 22, 23, 24, 25]) (.cases [] 97 (.leaf [251, 89])
  (.cases [] 22 (.cycle 20 [53, 168, 62]) (.cases [34, 17] 56 (.leaf [136, 96, 89, 249, 6]) (.cases
  [] 72 (.cycle 69 [173, 174]) (.leaf [171, 172])))))) (.cases [65] 71 (.cases [169, 170, 27, 28]
  28 (.cases [] 70 (.cases [165, 117, 309, 129, 206, 130, 19, 58, 20, 21, 22, 103, 23, 41, 24, 25]
  97 (.leaf [251, 89]) (.leaf [249, 6])) (.cases [164, 27, 28, 37, 20, 21, 22, 103, 23, 41, 24, 25]
  43 (.cases [] 101 (.leaf [263, 96, 89, 90, 91]) (.cases [] 97 (.cases [251, 89, 90, 91] 56
  (.cycle 65 [136, 262]) (.cases [] 100 (.cycle 9 [251, 174, 260]) (.leaf [258, 172]))) (.cases
  [249, 6] 56 (.cycle 65 [136, 262]) (.cases [] 100 (.cases [] 72 (.cycle 69 [173, 174]) (.leaf
  [171, 172, 260, 6])) (.leaf [258, 172]))))) (.leaf [88, 89]))) (.leaf
  [32, 28, 102, 22, 103, 23, 41, 24, 25])) (.leaf [198, 158, 62, 132, 17, 117, 309, 129, 206, 130,
  19, 58, 20, 21, 22, 103, 23, 41, 24, 25]))))) (.cases [94, 95, 96, 89] 53 (.cases [] 34 (.cases
  [67, 13, 124, 14, 117, 309, 6, 129, 206, 130, 19, 58, 20, 21, 22, 103, 23, 41, 24, 25] 97 (.leaf
  [251, 89]) (.leaf [249, 6])) (.cases [65] 71 (.cases [169, 170, 27, 28] 28 (.cases
  [37, 20, 21, 22, 103, 23, 41, 24, 25] 95 (.cases [250, 91] 70 (.leaf [165, 117, 309, 129, 206,
  130, 19, 58, 20, 21, 22, 103, 23, 41, 24, 25]) (.cases
  [164, 27, 28, 37, 20, 21, 22, 103, 23, 41, 24, 25] 100 (.cases [260, 6, 250, 91] 134 (.leaf
  [347, 95, 96, 89]) (.leaf [346, 27, 37, 20, 21, 22, 103, 23, 41, 24, 25])) (.leaf [258, 172])))
  (.cases [233, 6] 43 (.leaf [90, 233, 6]) (.cases [] 100 (.cases [] 72 (.cases [] 112 (.cases []
  56 (.cases [136, 96, 89] 135 (.cases [] 70 (.leaf [165, 117, 309, 129, 206, 130, 19, 58, 20, 21,
  22, 103, 23, 41, 24, 25]) (.leaf [164, 27, 28, 37, 20, 21, 22, 103, 23, 41, 24, 25])) (.leaf
  [349, 117, 309, 129, 206, 130, 19, 58, 20, 21, 22, 103, 23, 41, 24, 25])) (.cycle 48
  [174, 299, 88])) (.leaf [298, 260, 173, 6, 89])) (.leaf [171, 260, 6])) (.leaf [258, 172]))))
  (.leaf [32, 28, 102, 22, 103, 23, 41, 24, 25])) (.leaf [198, 158, 132, 117, 309, 129, 206, 130,
  19, 58, 20, 21, 22, 103, 23, 41, 24, 25]))) (.cycle 58 [122, 194]))) (.leaf
  [87, 28, 110, 57, 58]))) (.cycle 58 [309, 206, 199, 194])) (.leaf [193, 12, 232, 13, 10, 14, 6])

/-- some of the cases -/
def real6Case78 : SumTree :=
  .cases [42, 43, 44] 44 (.cycle 35 [42, 93, 47]) (.cases [] 78 (.cases [] 102 (.leaf [266, 210])
  (.cases [265, 45] 53 (.cases [] 42 (.cases [] 34 (.cases [67, 13, 124, 14, 117, 309, 6, 129, 206,
  130, 19, 58, 20, 21, 22, 103, 23, 41, 24, 25] 95 (.leaf [250, 91]) (.cases [233, 6] 43 (.leaf
  [90, 233, 6]) (.leaf [88, 89]))) (.cases [65] 71 (.cases [169, 170, 27, 28] 73 (.cycle 40
  [177, 178, 179]) (.cases [175, 176, 43, 44, 45] 101 (.leaf [263, 96, 89]) (.cases [] 45 (.cases
  [97, 98, 99, 91] 28 (.cases [37, 20, 21, 22, 103, 23, 41, 24, 25] 56 (.cycle 65 [136, 262])
  (.cases [] 100 (.cases [] 72 (.cycle 69 [173, 174]) (.leaf [171, 260, 6])) (.leaf [258, 172])))
  (.leaf [32, 102, 22, 103, 23, 41, 24, 25])) (.cases [94, 95, 96, 89] 84 (.cases [] 70 (.leaf
  [165, 117, 309, 118, 129, 206, 119, 130, 19, 58, 20, 21, 22, 23, 24, 25]) (.cases [164, 27, 28]
  97 (.cases [] 95 (.cases [250, 91] 43 (.leaf [90, 91]) (.leaf [88, 89])) (.leaf
  [233, 6, 251, 89])) (.leaf [249, 6]))) (.leaf [214, 27, 102, 22, 103, 23, 41, 24, 25]))))) (.leaf
  [198, 158, 62, 132, 17, 117, 309, 129, 206, 130, 19, 58, 20, 21, 22, 103, 23, 41, 24, 25])))
  (.leaf [87, 28, 114, 41])) (.cycle 58 [122, 194]))) (.leaf [193, 12, 232, 13, 10, 14, 6]))

/-- some of the cases -/
def real6Case79 : SumTree :=
  .cases [106, 49] 23 (.cases [] 47 (.cycle 56 [106, 107]) (.cases [105, 48, 49] 78 (.cases [] 79
  (.cases [] 114 (.leaf [303, 278, 9, 56, 18, 10, 19, 20, 21, 103, 41]) (.cases [] 42 (.cases [] 66
  (.cases [161, 49] 64 (.cycle 59 [151, 348]) (.cases [] 61 (.cycle 58 [149, 150]) (.cases [] 60
  (.leaf [141, 56, 142, 117, 309, 129, 206, 130, 19, 58, 20, 21, 22, 103, 23, 41, 24, 25]) (.cases
  [140, 27] 34 (.cases [67, 13, 200, 14, 19, 6, 20, 21, 22, 103, 23, 41, 24, 25] 71 (.leaf [169,
  170, 27, 67, 28, 13, 194, 200, 14, 117, 19, 6, 118, 129, 20, 21, 119, 130, 103, 58, 41]) (.cases
  [] 45 (.cases [97, 98, 99, 91] 22 (.cycle 20 [53, 168, 62]) (.leaf [34, 17])) (.leaf
  [94, 95, 96, 89]))) (.cases [65] 71 (.cases [169, 170, 27, 28] 28 (.cases [] 70 (.leaf [165, 117,
  309, 118, 129, 206, 119, 130, 19, 58, 20, 21, 22, 103, 23, 41, 24, 25]) (.cases
  [164, 27, 28, 37, 20, 21, 22, 103, 23, 41, 24, 25] 56 (.leaf [136, 96, 89]) (.cases [] 134 (.leaf
  [347, 95, 96, 89]) (.cases [] 45 (.cases [97, 98, 99] 43 (.cases [] 97 (.leaf
  [251, 89, 174, 90, 172, 91]) (.cases [249, 6] 100 (.cases [] 72 (.cycle 69 [173, 174]) (.leaf
  [171, 172, 260, 6])) (.leaf [258, 172]))) (.leaf [88, 89])) (.leaf
  [94, 95, 346, 96, 27, 89, 37, 20, 21, 22, 103, 23, 41, 24, 25]))))) (.leaf
  [32, 28, 102, 22, 103, 23, 41, 24, 25])) (.leaf [198, 158, 62, 132, 17, 117, 309, 129, 206, 130,
  19, 58, 20, 21, 22, 103, 23, 41, 24, 25])))))) (.leaf [156, 157, 158, 62, 132, 17, 117, 309, 118,
  129, 206, 119, 130, 19, 58, 20, 21, 22, 103, 23, 41, 24, 25])) (.leaf [87, 28, 110, 57, 58])))
  (.cycle 58 [309, 206, 199, 194])) (.leaf [193, 12, 232, 13, 10, 14, 6]))) (.leaf [113, 28])

/-- some of the cases -/
def real6Case80 : SumTree :=
  .cases [108, 109] 96 (.cycle 58 [309, 206, 19, 238, 281]) (.cases [] 23 (.cases [] 118 (.cases []
  60 (.cases [141, 56] 64 (.leaf [151, 278, 9, 56, 18, 10, 19, 20, 21, 103, 41]) (.cases [] 61
  (.cycle 58 [149, 150]) (.leaf [142, 117, 309, 131, 118, 129, 206, 62, 119, 130, 19, 17, 58, 20,
  21, 22, 23, 24, 25]))) (.cases [140] 30 (.cases [46, 47, 48, 49, 108, 109] 78 (.cases [] 79
  (.cases [] 42 (.cases [] 34 (.cases [67, 13, 200, 14, 19, 6, 20, 21, 22, 103, 23, 41, 24, 25] 43
  (.cases [] 56 (.leaf [136, 96, 89]) (.cases [] 72 (.cycle 69 [173, 174]) (.leaf [171, 172])))
  (.leaf [88, 89])) (.cases [65, 27] 22 (.cases [] 71 (.cases [169, 170, 27, 28] 75 (.cases [] 28
  (.leaf [37, 20, 21, 22, 103, 23, 41, 24, 25]) (.leaf [32, 28, 102, 22, 103, 23, 41, 24, 25]))
  (.leaf [187, 169])) (.cycle 45 [62, 53, 168])) (.cases
  [34, 17, 155, 19, 20, 21, 22, 103, 23, 41, 24, 25] 101 (.leaf [263, 96, 89]) (.cases [] 45
  (.cases [97, 98, 99] 43 (.cases [] 56 (.cycle 65 [136, 262]) (.cases [] 97 (.leaf
  [251, 89, 90, 174, 91, 172]) (.cases [249, 6] 100 (.cases [] 72 (.cycle 69 [173, 174]) (.leaf
  [171, 172, 260, 6])) (.leaf [258, 172])))) (.leaf [88, 89])) (.cases [94, 95, 96, 89] 97 (.cases
  [] 95 (.cases [250, 91] 43 (.leaf [90, 91]) (.leaf [88, 89])) (.leaf [233, 6, 251, 89])) (.leaf
  [249, 6])))))) (.leaf [87, 28, 110, 57, 58])) (.cycle 23 [199, 194, 272])) (.cycle 59
  [193, 316])) (.cases [42, 43, 44, 45] 44 (.cycle 35 [42, 93, 47]) (.cases [] 78 (.cases [] 32
  (.cycle 58 [131, 64, 194]) (.cases [] 42 (.cases [] 34 (.leaf [67, 13, 61, 14, 62, 6, 155, 19,
  20, 21, 22, 103, 23, 41, 24, 25]) (.cases [65, 27] 71 (.cases
  [169, 170, 27, 28, 102, 22, 103, 23, 41, 24, 25] 75 (.cases [] 73 (.cycle 40 [177, 178, 179])
  (.leaf [175, 176, 43, 44, 45])) (.leaf [187, 169])) (.cases [] 73 (.cycle 40 [177, 178, 179])
  (.cases [175, 176, 43, 44, 45] 22 (.cycle 45 [62, 53, 168]) (.leaf
  [34, 17, 155, 19, 20, 21, 22, 103, 23, 41, 24, 25]))))) (.leaf [87, 28, 110, 57, 58]))) (.cycle
  59 [193, 316]))))) (.leaf [315, 12, 232, 13, 10, 240, 14, 20, 21, 6, 103, 41])) (.leaf
  [113, 28]))

/-- some of the cases -/
def real6Case81 : SumTree :=
  .cases [106, 49] 23 (.cases [] 47 (.cycle 56 [106, 107]) (.cases [105, 48, 49] 90 (.cycle 58
  [131, 62, 253, 281]) (.cases [] 64 (.leaf [151, 278, 9, 56, 18, 10, 19, 20, 21, 103, 41]) (.cases
  [] 78 (.cases [] 79 (.cases [] 42 (.cases [] 60 (.cases [141, 56] 68 (.cycle 58 [131, 163, 150])
  (.leaf [162, 62, 17, 155, 19, 20, 21, 22, 103, 23, 41, 24, 25])) (.cases [140] 34 (.cases
  [67, 13, 200, 14, 19, 6, 20, 21, 22, 103, 23, 41, 24, 25] 43 (.cases [] 56 (.leaf [136, 96, 89])
  (.cases [] 72 (.cycle 69 [173, 174]) (.leaf [171, 172]))) (.leaf [88, 89])) (.cases [65, 27] 98
  (.cycle 55 [105, 256]) (.cases [255, 48, 49] 22 (.cases [] 71 (.cases [169, 170, 27] 75 (.cases
  [] 28 (.leaf [37, 20, 21, 22, 103, 23, 41, 24, 25]) (.leaf
  [32, 28, 102, 22, 103, 23, 41, 24, 25])) (.leaf [187, 169])) (.cycle 45 [62, 53, 168])) (.cases
  [34, 17, 155, 19, 20, 21, 22, 103, 23, 41, 24, 25] 56 (.leaf [136, 96, 89]) (.cases [] 45 (.cases
  [97, 98, 99] 43 (.cases [] 97 (.leaf [251, 89, 90, 91]) (.cases [249, 6] 100 (.cases [] 72
  (.cycle 69 [173, 174]) (.leaf [171, 260, 6])) (.leaf [258, 172]))) (.leaf [88, 89])) (.leaf
  [94, 95, 96, 89, 174, 172]))))))) (.leaf [87, 28, 110, 57, 58])) (.cycle 23 [199, 194, 272]))
  (.leaf [193, 12, 232, 13, 10, 246, 14, 17, 155, 6, 19, 20]))))) (.leaf [113, 28])

/-- some of the cases -/
def real6Case82 : SumTree :=
  .cases [97, 98, 99, 91] 60 (.cases [141, 56] 133 (.leaf
  [345, 243, 329, 10, 206, 19, 20, 21, 22, 103, 23, 41, 24, 25]) (.cases [] 90 (.cycle 20
  [253, 344, 62]) (.cases [] 91 (.leaf [252, 10, 246, 17]) (.cases [] 103 (.cases [268, 9, 10] 68
  (.leaf [163, 56, 18, 19, 213, 202, 20, 21, 126, 116, 103, 57, 117, 41, 58, 118, 119]) (.leaf
  [162, 62, 17, 155, 19, 20, 21, 22, 103, 23, 41, 24, 25])) (.cycle 30 [141, 267, 232, 290])))))
  (.cases [140, 27] 97 (.cases [251, 89] 76 (.cycle 26 [186, 166]) (.cases [] 53 (.cases [] 54
  (.cases [] 50 (.cases [] 34 (.leaf [67, 13, 124, 14, 117, 6, 251, 118, 89, 119]) (.cases [65, 27]
  22 (.cases [] 71 (.cases [169, 170, 27] 28 (.cases [37, 201, 20, 21, 202, 22, 103, 116, 23, 41,
  117, 24, 118, 25, 119] 51 (.leaf [129, 130, 58]) (.cases [] 52 (.cycle 59 [128, 127]) (.cycle 2
  [57, 120, 180]))) (.cycle 31 [28, 52, 32])) (.cycle 20 [53, 168, 62])) (.leaf [34, 17, 155, 19,
  202, 20, 21, 116, 22, 103, 117, 125, 23, 41, 118, 126, 24, 119, 57, 25, 58]))) (.cases
  [115, 116, 117, 123, 118, 58, 119] 43 (.cases [90, 91] 100 (.leaf [260, 6, 251, 89, 90, 91])
  (.leaf [258, 172])) (.leaf [88, 89]))) (.leaf
  [121, 117, 118, 185, 119, 22, 103, 23, 41, 24, 25])) (.cycle 58 [122, 194]))) (.cases [249, 6] 76
  (.cycle 26 [186, 166]) (.cases [] 72 (.cases [173, 89, 249, 6] 53 (.cases [] 54 (.cases [] 50
  (.cases [] 34 (.cases [67, 13, 14, 6] 32 (.cases [64, 13, 14, 6] 79 (.leaf
  [200, 19, 20, 21, 22, 103, 23, 41, 24, 25]) (.leaf
  [199, 13, 124, 14, 117, 125, 6, 118, 126, 119, 57, 58])) (.leaf
  [61, 62, 17, 155, 19, 20, 21, 22, 103, 23, 41, 24, 25])) (.cases [65, 27] 71 (.cases
  [169, 170, 27, 28] 28 (.cases [37, 20, 21, 22, 103, 23, 41, 24, 25] 56 (.leaf
  [136, 96, 89, 249, 6]) (.cycle 69 [173, 174])) (.cycle 31 [28, 52, 32])) (.cases [] 22 (.cycle 45
  [62, 53, 168]) (.leaf [34, 17, 155, 19, 202, 20, 21, 116, 22, 103, 117, 125, 23, 41, 118, 126,
  24, 119, 57, 25, 58])))) (.cases [115, 116, 117, 123, 118, 58, 119] 95 (.leaf [250, 91]) (.leaf
  [233, 6]))) (.leaf [121, 117, 118, 185, 119, 22, 103, 23, 41, 24, 25])) (.cycle 58 [122, 194]))
  (.cases [171, 172] 53 (.cases [] 54 (.cases [] 50 (.cases [] 34 (.cases [67, 13, 14, 6] 32 (.leaf
  [64, 13, 124, 14, 117, 125, 6, 118, 126, 119, 57, 58]) (.leaf
  [61, 62, 17, 155, 19, 20, 21, 22, 103, 23, 41, 24, 25])) (.cases [65, 27] 71 (.cases
  [169, 170, 27, 28] 28 (.cases [37, 201, 20, 21, 202, 22, 103, 116, 23, 41, 117, 24, 118, 25, 119]
  100 (.leaf [260, 6]) (.cases [258, 172] 112 (.leaf [299, 91]) (.leaf [298, 172]))) (.cycle 31
  [28, 52, 32])) (.cases [] 22 (.cycle 45 [62, 53, 168]) (.leaf [34, 17, 155, 19, 202, 20, 21, 116,
  22, 103, 117, 23, 41, 118, 24, 119, 25])))) (.cases [115, 116, 117, 123, 118, 58, 119] 94 (.cases
  [] 71 (.leaf [169, 170, 27, 28, 52, 20, 21, 22, 103, 23, 41, 24, 25]) (.cases [] 95 (.cases
  [250, 91] 22 (.cycle 20 [53, 168, 62]) (.leaf [34, 17])) (.cycle 54 [99, 261, 236]))) (.leaf
  [235, 14, 6]))) (.leaf [121, 117, 118, 185, 119, 22, 103, 23, 41, 24, 25])) (.cycle 58
  [122, 194])))))

/-- some of the cases -/
def real6Case83 : SumTree :=
  .cases [94, 95, 96, 89] 96 (.cycle 19 [238, 239, 19]) (.cases [] 76 (.cycle 26 [186, 166])
  (.cases [] 117 (.leaf [312, 10, 240, 20, 21, 22, 23, 24, 25]) (.cases [] 53 (.cases [] 54 (.cases
  [] 50 (.cases [] 60 (.cases [141, 56, 18, 202, 116, 117, 118, 119] 97 (.cases [] 103 (.cases
  [268, 9, 10] 68 (.leaf [163, 56, 18, 19, 20, 21, 22, 103, 23, 41, 24, 25]) (.leaf [162, 62, 17,
  155, 19, 202, 20, 21, 116, 22, 103, 117, 23, 41, 118, 24, 119, 25])) (.leaf
  [310, 267, 13, 232, 14, 10, 6])) (.leaf [249, 6])) (.cases [140] 34 (.cases [67, 13, 14, 6] 32
  (.leaf [64, 13, 124, 14, 117, 125, 6, 118, 126, 119, 57, 58]) (.leaf
  [61, 62, 17, 155, 19, 20, 21, 22, 103, 23, 41, 24, 25])) (.cases [65, 27] 22 (.cases [] 71
  (.cases [169, 170, 27] 28 (.cases [37, 201, 20, 21, 202, 22, 103, 116, 23, 41, 117, 24, 118, 25,
  119] 51 (.leaf [129, 130, 58]) (.cases [] 52 (.cycle 59 [128, 127]) (.cycle 2 [57, 120, 180])))
  (.cycle 31 [28, 52, 32])) (.cycle 20 [53, 168, 62])) (.leaf [34, 17, 155, 19, 202, 20, 21, 116,
  22, 103, 117, 125, 23, 41, 118, 126, 24, 119, 57, 25, 58])))) (.cases
  [115, 116, 117, 123, 118, 58, 119] 97 (.cases [] 59 (.leaf [138, 139]) (.cases [] 103 (.leaf
  [289, 268, 56, 9, 10]) (.cases [] 91 (.cycle 31 [252, 10, 311]) (.cases [] 28 (.cases [] 72
  (.cases [] 60 (.cycle 30 [141, 267, 232, 290]) (.cases [140] 32 (.leaf [64, 13, 14, 6]) (.cases
  [] 34 (.leaf [67, 13, 61, 14, 62, 6, 251, 155, 89, 19, 20, 21, 103, 41]) (.cases [65, 27] 22
  (.cases [53, 27, 37, 20, 21, 22, 103, 23, 41, 24, 25] 56 (.leaf [136, 96, 89]) (.cycle 48
  [174, 173])) (.leaf [34, 155, 19, 20, 21, 22, 103, 23, 41, 24, 25]))))) (.leaf [171, 172]))
  (.cycle 32 [52, 32, 28]))))) (.leaf [249, 6]))) (.leaf
  [121, 117, 118, 185, 119, 22, 103, 23, 41, 24, 25])) (.cycle 58 [122, 194]))))

/-- some of the cases -/
def real6Case84 : SumTree :=
  .cases [] 28 (.cycle 19 [20, 36, 37]) (.cases [32, 197, 28] 42 (.cases
  [102, 22, 103, 23, 41, 24, 25] 23 (.cases [] 54 (.cases [] 50 (.cases [] 45 (.cases
  [97, 98, 99, 91] 97 (.cases [251, 89] 100 (.cases [260, 6] 56 (.cases [136, 96, 89] 52 (.cases []
  70 (.cases [165, 117, 118, 119] 51 (.leaf [129, 130, 58]) (.cycle 59 [128, 127])) (.cases
  [164, 27, 28, 102, 22, 103, 23, 41, 24, 25] 51 (.leaf [129, 130, 58]) (.cycle 63 [127, 128])))
  (.cycle 2 [57, 120, 180])) (.cycle 69 [260, 251, 174])) (.cases [258, 172] 56 (.leaf
  [136, 96, 89]) (.cases [] 52 (.cases [] 72 (.cycle 69 [173, 174]) (.cases [171, 172] 51 (.leaf
  [129, 130, 58]) (.cycle 63 [127, 128]))) (.cycle 2 [57, 120, 180])))) (.cases [249, 6] 72 (.cases
  [] 101 (.leaf [263, 96, 89, 249, 6]) (.cases [] 56 (.cycle 65 [136, 262]) (.cycle 69
  [173, 174]))) (.cases [171, 172] 100 (.cases [260, 6] 95 (.leaf [250, 91]) (.cases [] 112 (.leaf
  [299, 91, 233, 6]) (.leaf [298, 172, 260, 6]))) (.cases [258, 172] 52 (.cases [] 70 (.cases
  [165, 117, 118, 119] 51 (.leaf [129, 130, 58]) (.cycle 59 [128, 127])) (.cases
  [164, 27, 28, 102, 22, 103, 23, 41, 24, 25] 95 (.cases [250, 91] 112 (.leaf [299, 91]) (.leaf
  [298, 172])) (.leaf [233, 6, 258, 172]))) (.cycle 2 [57, 120, 180]))))) (.cases [94, 95, 96, 89]
  70 (.cases [165, 117, 118, 119] 52 (.cases [] 51 (.cases [129, 130, 58] 97 (.cases [] 95 (.cases
  [250, 91] 43 (.leaf [90, 91]) (.leaf [88, 89])) (.leaf [233, 6, 251, 89])) (.leaf [249, 6]))
  (.cycle 59 [128, 127])) (.cycle 2 [57, 120, 180])) (.cases
  [164, 27, 28, 102, 22, 103, 23, 41, 24, 25] 52 (.cases [] 51 (.cases [129, 130, 58] 97 (.cases []
  95 (.cases [250, 91] 43 (.leaf [90, 91]) (.leaf [88, 89])) (.leaf [233, 6, 251, 89])) (.leaf
  [249, 6])) (.cycle 63 [127, 128])) (.cycle 2 [57, 120, 180])))) (.cases
  [115, 116, 117, 123, 118, 58, 119] 43 (.cases [] 45 (.cases [97, 98, 99, 91] 56 (.leaf
  [136, 96, 89]) (.cases [] 100 (.cases [] 72 (.cycle 69 [173, 174]) (.leaf [171, 260, 6])) (.leaf
  [258, 172]))) (.leaf [94, 95, 96, 89])) (.leaf [88, 89]))) (.leaf [121, 117, 118, 119])) (.cycle
  31 [102, 103, 113])) (.cases [87, 28] 23 (.cases [114, 110, 41, 57, 58] 43 (.cases [90, 91] 59
  (.cases [138, 139] 45 (.cases [97, 98, 99, 91] 46 (.leaf [101, 58]) (.cycle 25
  [87, 110, 57, 100])) (.leaf [94, 95, 96, 89])) (.leaf [137, 25])) (.leaf [88, 89])) (.cases
  [113, 29, 28, 83, 84, 85] 46 (.leaf [101, 58]) (.cases [] 45 (.cases [97, 98, 99, 91] 43 (.cases
  [] 35 (.cycle 25 [103, 29, 70, 100]) (.cases [66, 27, 83, 28, 84, 85] 38 (.cases [77, 23, 24, 25]
  51 (.leaf [129, 130, 58, 66, 27, 83, 28, 84, 85]) (.cases [127, 118, 119] 97 (.leaf
  [251, 89, 90, 91]) (.leaf [249, 6]))) (.leaf [75, 27, 83, 28, 84, 85]))) (.leaf [88, 89]))
  (.cases [94, 95, 96, 89] 35 (.cycle 25 [103, 29, 70, 100]) (.cases [66, 27, 83, 28, 84, 85] 38
  (.leaf [77, 23, 24, 25]) (.leaf [75, 27, 28])))))))

/-- some of the cases -/
def real6Case85 : SumTree :=
  .cases [141, 56] 68 (.leaf [163, 56, 18, 19, 213, 202, 20, 21, 126, 116, 103, 57, 117, 41, 58,
  118, 119]) (.leaf [162, 62, 17, 155, 19, 20, 21, 22, 103, 23, 41, 24, 25])

/-- some of the cases -/
def real6Case86 : SumTree :=
  .cases [161, 49] 24 (.cases [52, 20, 21, 22, 103, 23, 41, 24, 25] 96 (.cycle 19 [238, 239, 19])
  (.cases [] 78 (.cases [] 76 (.leaf [186, 117, 118, 119]) (.cases [] 53 (.cases [] 34 (.cases
  [67, 13, 14, 6] 32 (.cases [64, 13, 14, 6] 79 (.leaf [200, 19, 20, 21, 22, 103, 23, 41, 24, 25])
  (.leaf [199, 13, 124, 14, 117, 6, 118, 119])) (.leaf
  [61, 62, 155, 19, 20, 21, 22, 103, 23, 41, 24, 25])) (.cases [65, 27] 22 (.cases [] 71 (.cases
  [169, 170, 27, 28, 52, 20] 54 (.cases [] 28 (.cases [37, 201, 20, 21, 202, 22, 103, 116, 23, 41,
  117, 24, 118, 25, 119] 51 (.leaf [129, 130, 58]) (.cases [] 52 (.cycle 59 [128, 127]) (.cycle 33
  [120, 123]))) (.cycle 31 [28, 52, 32])) (.leaf
  [121, 117, 118, 185, 119, 22, 103, 23, 41, 24, 25])) (.cycle 20 [53, 168, 62])) (.leaf [34, 17,
  155, 19, 202, 20, 21, 116, 22, 103, 117, 23, 41, 118, 24, 119, 25]))) (.cycle 58 [122, 194])))
  (.cycle 58 [117, 193, 232, 237, 227]))) (.cases [] 28 (.cycle 19 [20, 36, 37]) (.cases
  [32, 197, 28] 123 (.cases [] 69 (.leaf [184, 117, 118, 119]) (.cases [] 42 (.cases
  [102, 22, 103, 23, 41, 24, 25] 54 (.cases [] 50 (.cases [] 45 (.cases [97, 98, 99, 91] 97 (.cases
  [251, 89] 52 (.cases [] 56 (.cases [136, 96, 89] 100 (.cases [260, 6] 51 (.leaf [129, 130, 58])
  (.cycle 63 [127, 128])) (.leaf [258, 172, 136, 96, 89])) (.cases [] 43 (.cases [90, 91] 72
  (.cycle 48 [174, 173]) (.cases [171, 172] 112 (.leaf [299, 91]) (.leaf [298, 172]))) (.leaf
  [88, 89, 174, 172]))) (.cycle 2 [57, 120, 180])) (.cases [249, 6] 43 (.cases [] 52 (.cases [] 101
  (.leaf [263, 96, 89, 249, 6]) (.cases [] 70 (.cases [165, 117, 118, 119] 51 (.leaf
  [129, 130, 58]) (.cycle 59 [128, 127])) (.cases [164, 27, 28, 102, 22, 103, 23, 41, 24, 25] 95
  (.cases [250, 91] 56 (.cycle 65 [136, 262]) (.cases [] 100 (.cases [] 72 (.cycle 69 [173, 174])
  (.leaf [171, 172, 260, 6])) (.leaf [258, 172]))) (.leaf [233, 6])))) (.cycle 2 [57, 120, 180]))
  (.leaf [88, 89, 249, 6]))) (.cases [94, 95, 96, 89] 97 (.cases [] 52 (.cases [] 70 (.cases
  [165, 117, 118, 119] 51 (.leaf [129, 130, 58]) (.cycle 59 [128, 127])) (.cases
  [164, 27, 28, 102, 22, 103, 23, 41, 24, 25] 95 (.cases [250] 43 (.leaf [90, 91]) (.cases [88, 89]
  56 (.cases [] 100 (.leaf [260, 6, 250, 88, 89]) (.leaf [258, 172, 136, 96, 89])) (.leaf
  [174, 172]))) (.leaf [233, 6, 251, 89]))) (.cycle 2 [57, 120, 180])) (.leaf [249, 6]))) (.leaf
  [115, 116, 117, 123, 118, 58, 119])) (.leaf [121, 117, 118, 119])) (.cases [87, 28] 76 (.cycle 26
  [186, 166]) (.cases [] 54 (.cases [] 23 (.cases [114, 110, 41, 57, 58] 97 (.leaf [251, 89])
  (.leaf [249, 6])) (.cases [113, 29, 28, 83, 84, 85] 132 (.cases [] 115 (.leaf [307]) (.cases []
  50 (.cases [] 46 (.leaf [101, 58, 306, 24, 25]) (.cases [] 52 (.cases [] 35 (.cycle 25
  [103, 29, 70, 100]) (.cases [] 38 (.cases [] 51 (.leaf [129, 130, 58, 66, 27, 83, 28, 84, 85])
  (.cycle 63 [127, 128])) (.leaf [75, 27, 83, 28, 84, 85]))) (.cycle 2 [57, 120, 180]))) (.leaf
  [115, 116, 117, 123, 118, 58, 119]))) (.leaf [343]))) (.leaf
  [121, 117, 118, 185, 119, 103, 87, 41, 28]))))) (.leaf [324, 117, 118, 119])))

/-- some of the cases -/
def real6Case87 : SumTree :=
  .cases [156, 157, 158, 62, 17, 155, 19, 202, 20, 21, 116, 22, 103, 117, 23, 41, 118, 24, 119, 25]
  70 (.cases [] 28 (.cases [] 32 (.leaf [64, 13, 14, 6]) (.cases [] 34 (.leaf [67, 13, 61, 14, 62,
  6, 17, 155, 19, 20, 21, 22, 103, 23, 41, 24, 25]) (.cases [65, 27] 71 (.leaf
  [169, 170, 27, 28, 37, 20, 21, 22, 103, 23, 41, 24, 25]) (.cases [] 22 (.cycle 45 [62, 53, 168])
  (.cases [34, 17, 155, 19, 202, 20, 21, 116, 22, 103, 117, 23, 41, 118, 24, 119, 25] 110 (.leaf
  [296, 89]) (.leaf [295, 6])))))) (.leaf [32, 197, 28, 165, 117, 118, 119])) (.leaf [164, 27, 28])

/-- some of the cases -/
def real6Case88 : SumTree :=
  .cases [108, 109, 325, 44, 45] 30 (.cycle 41 [108, 109, 325, 328, 48]) (.cases [] 44 (.cycle 35
  [42, 93, 47]) (.cases [] 60 (.cases [141, 56, 18, 19, 202, 20, 21, 116, 22, 103, 117, 23, 41,
  118, 24, 119, 25] 95 (.cases [250] 43 (.cases [] 45 (.cases [97, 98, 99, 91] 73 (.cycle 40
  [177, 178, 179]) (.cases [175, 176, 43, 44, 45] 103 (.leaf [268, 9, 10]) (.leaf
  [310, 267, 13, 232, 14, 10, 6]))) (.leaf [94, 95, 96, 89])) (.leaf [88, 89])) (.leaf [233, 6]))
  (.cases [140] 73 (.cycle 40 [177, 178, 179]) (.cases [175, 176, 43, 44, 45] 24 (.cases
  [52, 20, 21, 22, 103, 23, 41, 24, 25] 79 (.cases [] 34 (.leaf [67, 13, 200, 14, 19, 202, 6, 20,
  21, 116, 22, 103, 117, 23, 41, 118, 24, 119, 25]) (.cases [65, 27] 71 (.cases [169, 170, 27] 28
  (.cases [37, 201, 20, 21, 202, 22, 103, 116, 23, 41, 117, 24, 118, 25, 119] 56 (.leaf
  [136, 96, 89]) (.cases [] 100 (.cases [] 72 (.cycle 69 [173, 174]) (.leaf [171, 260, 6])) (.leaf
  [258, 172]))) (.cycle 31 [28, 52, 32])) (.cases [] 22 (.cycle 45 [62, 53, 168]) (.leaf [34, 17,
  155, 19, 202, 20, 21, 116, 22, 103, 117, 23, 41, 118, 24, 119, 25])))) (.leaf [199, 13, 14, 6]))
  (.cases [] 28 (.cycle 19 [20, 36, 37]) (.cases [32, 197, 28] 42 (.cases
  [102, 22, 103, 23, 41, 24, 25] 50 (.cases [] 101 (.leaf [263, 96, 89]) (.cases [] 45 (.cases
  [97, 98, 99, 91] 95 (.cases [] 43 (.cases [] 52 (.cases [] 70 (.cases [165, 117, 118, 119] 51
  (.leaf [129, 130, 58]) (.cycle 59 [128, 127])) (.cases
  [164, 27, 28, 102, 22, 103, 23, 41, 24, 25] 97 (.leaf [251, 89, 90, 91]) (.leaf
  [249, 6, 250, 91]))) (.cycle 2 [57, 120, 180])) (.leaf [88, 89])) (.leaf [233, 6])) (.cases
  [94, 95, 96, 89] 97 (.cases [] 95 (.cases [250] 43 (.leaf [90, 91]) (.cases [88, 89] 56 (.cycle
  65 [136, 262]) (.leaf [174, 172]))) (.leaf [233, 6, 251, 89])) (.leaf [249, 6])))) (.leaf
  [115, 116, 117, 118, 119])) (.cases [87, 28] 132 (.cases [] 46 (.leaf [101, 58]) (.cases [] 23
  (.cycle 25 [87, 110, 57, 100]) (.cases [113, 29, 28, 83, 84, 85] 110 (.leaf [296, 89]) (.cases
  [295, 6] 56 (.leaf [136, 96, 89, 295, 6]) (.cases [] 100 (.cases [] 72 (.cycle 69 [173, 174])
  (.leaf [171, 260, 6])) (.leaf [258, 172])))))) (.leaf [343]))))))))

/-- some of the cases -/
def real6Case89 : SumTree :=
  .cases [106, 49] 60 (.cases [141, 56] 68 (.leaf [163, 56, 18, 19, 213, 202, 20, 21, 126, 116,
  103, 57, 117, 41, 58, 118, 119]) (.leaf [162, 62, 17, 155, 19, 20, 21, 22, 103, 23, 41, 24, 25]))
  (.cases [140, 27] 47 (.cycle 56 [106, 107]) (.cases [105, 48, 49] 66 (.cases [161, 49] 22 (.cases
  [] 71 (.cases [169, 170, 27, 28] 28 (.leaf [37, 201, 20, 21, 202, 22, 103, 116, 23, 41, 117, 24,
  118, 25, 119]) (.cases [32, 28] 42 (.cases [102, 22, 103, 23, 41, 24, 25] 43 (.cases [] 45
  (.cases [97, 98, 99, 91] 56 (.leaf [136, 96, 89]) (.cases [] 100 (.cases [] 72 (.cycle 69
  [173, 174]) (.leaf [171, 260, 6])) (.leaf [258, 172]))) (.leaf [94, 95, 96, 89])) (.leaf
  [88, 89])) (.cases [87, 28] 46 (.leaf [101, 58]) (.cases [] 23 (.cycle 25 [87, 110, 57, 100])
  (.leaf [113, 29, 28, 83, 84, 85]))))) (.cycle 20 [53, 168, 62])) (.cases
  [34, 17, 155, 202, 116, 117, 118, 119] 24 (.cases [52, 20, 21, 22, 103, 23, 41, 24, 25] 130
  (.leaf [340, 14, 6]) (.cases [] 32 (.leaf [64, 13, 14, 339, 6]) (.cases [] 34 (.leaf [67, 13, 61,
  14, 62, 6, 17, 155, 19, 202, 20, 21, 116, 103, 117, 41, 118, 119]) (.leaf
  [65, 27, 34, 17, 155, 19, 20, 21, 22, 103, 23, 41, 24, 25])))) (.cycle 19 [20, 36, 34, 248])))
  (.cases [156, 157, 209, 158, 45, 62, 17, 155, 19, 202, 20, 21, 116, 22, 103, 117, 23, 41, 118,
  24, 119, 25] 71 (.leaf [169, 170, 27, 28]) (.cases [] 43 (.cases [] 45 (.cases [97, 98, 99, 91]
  22 (.cycle 45 [62, 53, 168]) (.cases [] 110 (.leaf [296, 89]) (.cases [295, 6] 56 (.leaf
  [136, 96, 89]) (.cases [] 24 (.cases [] 100 (.cases [] 72 (.cycle 69 [173, 174]) (.leaf
  [171, 260, 6])) (.leaf [258, 172])) (.cycle 19 [20, 36, 34, 248]))))) (.leaf [94, 95, 96, 89]))
  (.leaf [88, 89])))))

/-- some of the cases -/
def real6Case90 : SumTree :=
  .cases [208, 157, 158, 62, 17, 155, 19, 202, 20, 21, 116, 22, 103, 117, 23, 41, 118, 24, 119, 25]
  76 (.leaf [186, 117, 118, 119]) (.cases [] 54 (.cases [] 51 (.leaf [129, 130, 58]) (.cases [] 52
  (.cycle 59 [128, 127]) (.cycle 33 [120, 123]))) (.leaf
  [121, 117, 118, 185, 119, 22, 103, 23, 41, 24, 25]))

/-- some of the cases -/
def real6Case91 : SumTree :=
  .cases [67, 13, 14, 6, 251, 89] 79 (.cases [] 32 (.leaf [64, 13, 200, 14, 19, 213, 6, 251, 20,
  126, 89, 31, 86, 22, 23, 24, 25]) (.cases [61, 62, 17, 155, 19, 20] 51 (.leaf [129, 130, 58])
  (.leaf [127, 118, 119]))) (.leaf [199, 13, 14, 6, 251, 89])

/-- some of the cases -/
def real6Case92 : SumTree :=
  .cases [260, 6] 56 (.cases [136, 96, 89] 71 (.cases [169, 170, 27, 28] 55 (.cases [132] 101
  (.cases [263, 96, 89] 50 (.cases [] 28 (.cases [37, 201, 20] 80 (.cases [] 95 (.cases [] 52
  (.cases [] 51 (.cases [129, 130, 58] 70 (.leaf [165, 117, 205, 129, 206, 130, 19, 58, 20])
  (.cases [164, 27, 28, 37, 20] 43 (.leaf [90, 91]) (.cases [] 121 (.leaf
  [320, 86, 22, 23, 24, 25]) (.leaf [333, 130, 58])))) (.cycle 63 [127, 128])) (.leaf [120, 205]))
  (.leaf [233, 6, 251, 89])) (.leaf [202, 116, 117, 118, 119])) (.cases [32, 28] 52 (.cases [] 80
  (.cases [205, 206, 19, 20, 32, 28] 94 (.cases [] 95 (.cases [] 43 (.leaf [90, 91]) (.cases [] 116
  (.leaf [309, 206, 19, 20, 32, 28]) (.cycle 58 [205, 308]))) (.cycle 54 [99, 261, 236])) (.leaf
  [235, 14, 6])) (.cases [202, 116, 117, 118, 119] 95 (.cases [] 51 (.leaf [129, 130, 58]) (.cycle
  63 [127, 128])) (.leaf [233, 6, 251, 89]))) (.cycle 2 [57, 120, 180]))) (.leaf
  [115, 116, 117, 123, 118, 58, 119])) (.cycle 65 [136, 262])) (.cases
  [131, 62, 169, 17, 155, 170, 19, 27, 20, 28] 94 (.cases [] 75 (.cases [] 84 (.leaf [215, 19, 20])
  (.cases [214, 27, 28] 95 (.cases [] 43 (.leaf [90, 91]) (.leaf [88, 89])) (.cycle 54
  [99, 261, 236]))) (.cycle 45 [62, 155, 187])) (.leaf [235, 14, 6, 251, 89]))) (.cases [] 22
  (.cycle 45 [62, 53, 168]) (.cases [34, 17, 155, 19, 20] 101 (.leaf [263, 96, 89]) (.cycle 65
  [136, 262])))) (.cycle 69 [260, 251, 174])

/-- some of the cases -/
def real6Case93 : SumTree :=
  .cases [258, 172] 71 (.cases [169, 170, 27, 28] 85 (.cases [] 55 (.cases [132] 28 (.cases
  [37, 20] 50 (.cases [] 56 (.leaf [136, 96, 89]) (.cases [] 52 (.cases [] 131 (.cases [] 51
  (.cases [129, 130, 58] 128 (.cases [] 72 (.cycle 69 [173, 174]) (.cases [171, 172] 43 (.cases
  [90, 91] 112 (.leaf [299, 91]) (.cases [298, 172] 129 (.leaf [337, 338, 191]) (.cycle 76
  [336, 335]))) (.leaf [88, 89, 171, 172]))) (.cycle 72 [334, 342])) (.cycle 63 [127, 128])) (.leaf
  [341, 172])) (.cycle 2 [57, 120, 180]))) (.leaf [115, 116, 117, 123, 118, 58, 119])) (.cases
  [32, 197, 28] 50 (.cases [] 101 (.leaf [263, 96, 89]) (.cases [] 80 (.cases
  [205, 206, 19, 20, 32, 28] 43 (.cases [90, 91] 56 (.cycle 65 [136, 262]) (.cases [] 72 (.cycle 69
  [173, 174]) (.cases [171, 172] 112 (.leaf [299, 91]) (.leaf [298, 172])))) (.leaf [88, 89]))
  (.cases [202, 116, 117, 118, 119] 56 (.cycle 65 [136, 262]) (.cases [] 72 (.cycle 69 [173, 174])
  (.cases [171, 172] 52 (.cases [] 70 (.cases [165, 117, 118, 119] 51 (.leaf [129, 130, 58])
  (.cycle 59 [128, 127])) (.cases [164, 27, 28] 51 (.leaf [129, 130, 58]) (.cycle 63 [127, 128])))
  (.cycle 2 [57, 120, 180])))))) (.leaf [115, 116, 117, 123, 118, 58, 119]))) (.cases
  [131, 62, 169, 17, 155, 170, 19, 27, 20, 28] 75 (.cases [] 43 (.cases [90, 91] 28 (.leaf
  [37, 20, 218, 86, 22, 23, 24, 25]) (.leaf [32, 28])) (.leaf [88, 89])) (.cycle 45
  [62, 155, 187]))) (.cycle 12 [216, 217, 31])) (.cases [] 22 (.cycle 45 [62, 53, 168]) (.cases
  [34, 17, 155, 19, 20] 56 (.leaf [136, 96, 89]) (.cases [] 72 (.cycle 69 [173, 174]) (.cases
  [171, 172] 112 (.leaf [299, 91]) (.leaf [298, 172])))))

/-- some of the cases -/
def real6Case94 : SumTree :=
  .cases [141, 56, 18, 19, 20] 127 (.leaf [332, 243, 10]) (.cases [] 91 (.cycle 31 [283, 331, 27])
  (.cases [] 85 (.cases [] 103 (.cases [268, 9, 10] 68 (.leaf
  [163, 56, 18, 19, 20, 218, 86, 22, 23, 24, 25]) (.leaf [162, 62, 17, 155, 19, 20])) (.cycle 30
  [141, 267, 232, 290])) (.cycle 12 [216, 217, 31])))

/-- some of the cases -/
def real6Case95 : SumTree :=
  .cases [] 96 (.cycle 23 [19, 238, 329, 206]) (.cases [] 118 (.cases [] 56 (.cases
  [136, 96, 89, 249, 6] 50 (.cases [] 85 (.cases [] 78 (.cases [] 52 (.cases [] 80 (.cases [] 55
  (.cases [132, 205, 206, 19, 20] 84 (.cases [] 28 (.cases [] 53 (.cases [] 32 (.leaf [64, 13, 124,
  14, 205, 6, 206, 19, 20, 218, 86, 22, 23, 24, 25]) (.cases [] 34 (.leaf
  [67, 61, 132, 205, 206, 19, 20, 218, 86, 22, 23, 24, 25]) (.cases [65] 71 (.cases
  [169, 170, 27, 28] 70 (.leaf [165, 205, 206, 19, 20]) (.leaf [164, 27, 28, 37, 20])) (.leaf
  [198, 158, 62, 132, 17, 205, 206, 19, 20])))) (.cycle 58 [122, 194])) (.cycle 23 [19, 197, 215]))
  (.leaf [214, 27, 28])) (.leaf [131, 62, 17, 155, 19, 20])) (.cases [202, 116, 117, 118, 119] 51
  (.leaf [129, 130, 58]) (.cycle 63 [127, 128]))) (.cycle 2 [57, 120, 180])) (.cycle 59
  [193, 316])) (.cycle 12 [216, 217, 31])) (.leaf [115, 116, 117, 118, 119])) (.cycle 69
  [173, 174])) (.leaf [315, 12, 232, 13, 10, 14, 6]))

/-- some of the cases -/
def real6Case96 : SumTree :=
  .cases [171, 172] 100 (.cases [260, 6] 50 (.cases [] 85 (.cases [] 22 (.cases [] 71 (.cases
  [169, 170, 27, 28] 52 (.cases [] 51 (.cases [129, 130, 58] 80 (.cases [205, 206, 19, 20] 28
  (.cases [37, 20] 112 (.leaf [299, 91]) (.leaf [298, 172, 260, 6])) (.leaf [32, 28])) (.cases
  [202, 116, 117, 129, 130, 58] 84 (.leaf [215, 19, 202, 20, 116, 117, 129, 130, 58]) (.cases
  [214, 27, 28] 70 (.leaf [165, 117, 118, 129, 119, 130, 58]) (.leaf [164, 27, 28])))) (.cycle 63
  [127, 128])) (.cycle 2 [57, 120, 180])) (.cycle 20 [53, 168, 62])) (.cases [34, 17, 155] 24
  (.cases [52, 20] 130 (.leaf [340, 14, 6]) (.cases [] 79 (.cases [] 32 (.leaf
  [64, 13, 200, 14, 339, 19, 6, 20, 218, 86, 22, 23, 24, 25]) (.cases [] 34 (.leaf
  [67, 61, 62, 17, 155, 19, 20, 218, 86, 22, 23, 24, 25]) (.leaf [65, 27, 34, 17, 155, 19, 20])))
  (.leaf [199, 13, 14, 6]))) (.cycle 19 [20, 36, 34, 248]))) (.cycle 12 [216, 217, 31])) (.leaf
  [115, 116, 117, 123, 118, 58, 119])) (.cases [258, 172] 23 (.cases [] 34 (.cases
  [67, 13, 14, 6, 258, 172] 71 (.leaf [169, 170, 67, 13, 14, 6, 258, 172]) (.cases [] 22 (.cycle 20
  [53, 168, 62]) (.cases [34, 17, 155, 19, 20] 128 (.leaf [335, 338, 191]) (.leaf [334, 172]))))
  (.cases [65, 27] 71 (.cases [169, 170, 27, 28] 95 (.cases [250, 91] 50 (.cases [] 55 (.cases
  [132] 28 (.cases [37, 201, 20] 52 (.cases [] 80 (.cases [] 51 (.cases [129, 130, 58] 112 (.cases
  [299, 91] 70 (.leaf [165, 117, 205, 129, 206, 130, 19, 58, 20]) (.leaf [164, 27, 28, 37, 20]))
  (.cases [298, 172] 70 (.leaf [165, 117, 205, 129, 206, 130, 19, 58, 20]) (.leaf
  [164, 27, 28, 37, 20]))) (.cycle 63 [127, 128])) (.cases [202, 116, 117, 118, 119] 112 (.leaf
  [299, 91]) (.leaf [298, 172]))) (.cycle 2 [57, 120, 180])) (.cases [32, 28] 52 (.cases [] 80
  (.cases [205, 206, 19, 20, 32, 28, 114, 86, 22, 23, 24, 25] 112 (.leaf [299, 91]) (.leaf
  [298, 172])) (.cases [202, 116, 117, 118, 119] 112 (.cases [299, 91] 51 (.leaf [129, 130, 58])
  (.cycle 63 [127, 128])) (.cases [298, 172] 51 (.leaf [129, 130, 58]) (.cycle 63 [127, 128]))))
  (.cycle 2 [57, 120, 180]))) (.cases [131, 62, 169, 17, 155, 170, 19, 27, 20, 28] 75 (.cases [] 84
  (.leaf [215, 19, 20]) (.leaf [214, 27, 28])) (.cycle 45 [62, 155, 187]))) (.leaf
  [115, 116, 117, 123, 118, 58, 119])) (.cases [233, 6, 258, 172] 28 (.leaf [37, 20]) (.cases
  [32, 28] 128 (.cases [] 129 (.leaf [337, 338, 191]) (.cycle 65 [335, 336])) (.leaf [334, 172]))))
  (.cases [] 22 (.cycle 45 [62, 53, 168]) (.cases [34, 17, 155, 19, 20] 112 (.leaf [299, 91])
  (.leaf [298, 172]))))) (.leaf [113, 29, 28, 102, 70, 22, 58, 23, 24, 25]))

/-- some of the cases -/
def real6Case97 : SumTree :=
  .cases [141, 56, 18, 19, 20] 127 (.leaf [332, 243, 10]) (.cases [] 91 (.cycle 31 [283, 331, 27])
  (.cases [] 85 (.cases [] 103 (.cases [] 113 (.cases [301, 9, 10] 68 (.leaf
  [163, 56, 18, 19, 20, 218, 86, 22, 23, 24, 25]) (.leaf [162, 62, 17, 155, 19, 20])) (.cycle 17
  [268, 300, 12])) (.cycle 30 [141, 267, 232, 290])) (.cycle 12 [216, 217, 31])))

/-- some of the cases -/
def real6Case98 : SumTree :=
  .cases [140, 27] 51 (.cases [129, 130, 58] 34 (.cases [67, 13, 14, 6] 85 (.cases [] 32 (.cases
  [64, 13, 14, 6] 79 (.leaf [200, 19, 20, 218, 86, 22, 23, 24, 25]) (.leaf
  [199, 13, 194, 14, 117, 6, 129, 130, 58])) (.leaf
  [61, 62, 155, 19, 20, 218, 86, 22, 23, 24, 25])) (.cycle 12 [216, 217, 31])) (.cases [65, 27] 22
  (.cases [] 71 (.cases [169, 170, 27, 28] 55 (.cases [132] 80 (.cases [205, 206, 19, 20] 23
  (.cases [] 28 (.cases [] 70 (.cases [165, 117, 205, 118, 129, 206, 119, 130, 19, 58, 20] 97
  (.cases [] 95 (.cases [250, 91] 43 (.leaf [90, 91]) (.cases [88, 89] 56 (.cases [] 100 (.leaf
  [260, 6, 250, 91, 88, 89]) (.leaf [258, 172, 136, 96, 89])) (.leaf [174, 172]))) (.leaf
  [233, 6, 251, 89])) (.leaf [249, 6])) (.cases [164, 27, 28, 37, 20] 95 (.cases [250, 91] 97
  (.cases [] 72 (.cases [] 112 (.cases [] 100 (.cases [260, 6, 250, 91] 56 (.cases [] 101 (.cases
  [263, 96, 89] 121 (.leaf [320, 86, 22, 23, 24, 25]) (.leaf [333, 130, 58])) (.cycle 65
  [136, 262])) (.cycle 48 [174, 260, 251])) (.leaf [258, 172, 173, 299, 89, 91])) (.leaf
  [298, 173, 89])) (.leaf [171, 172])) (.leaf [249, 6, 250, 91])) (.cases [233, 6] 97 (.leaf
  [251, 89]) (.cases [249, 6] 43 (.leaf [90, 233, 6]) (.cases [] 56 (.leaf [136, 96, 89, 249, 6])
  (.leaf [174, 172])))))) (.cases [32, 28, 114, 86, 22, 23, 24, 25] 97 (.cases [] 95 (.cases
  [250, 91] 100 (.cases [260, 6] 116 (.leaf [309, 206, 19, 20, 32, 28, 114, 86, 22, 23, 24, 25])
  (.cycle 58 [205, 308])) (.leaf [258, 172])) (.leaf [233, 6, 251, 89])) (.leaf [249, 6]))) (.leaf
  [113, 28, 102, 22, 23, 24, 25])) (.cases [202, 116, 117, 118, 129, 119, 130, 58] 28 (.leaf
  [37, 201, 20, 202, 116, 117, 118, 129, 119, 130, 58]) (.cases [32, 197, 28] 97 (.cases [] 72
  (.cases [] 70 (.cases [165, 117, 118, 129, 119, 130, 58] 95 (.cases [] 43 (.leaf [90, 91])
  (.cases [] 56 (.cases [] 100 (.leaf [260, 6, 250, 91, 88, 89]) (.leaf [258, 172, 136, 96, 89]))
  (.cycle 48 [174, 173]))) (.leaf [233, 6, 251, 89])) (.cases [164, 27, 28] 95 (.cases [] 100
  (.cases [260, 6, 250, 91] 43 (.cases [] 56 (.leaf [136, 96, 89, 90, 91]) (.cycle 48
  [174, 260, 251])) (.leaf [88, 89])) (.leaf [258, 172, 173, 89])) (.leaf [233, 6, 251, 89])))
  (.leaf [171, 172])) (.leaf [249, 6])))) (.cases [131, 62, 169, 17, 155, 170, 19, 27, 20, 28] 75
  (.cases [] 21 (.cases [] 28 (.leaf [37, 20]) (.cases [32, 28] 23 (.leaf
  [114, 86, 22, 23, 24, 25]) (.cycle 12 [29, 30, 31]))) (.leaf [26, 27, 28, 102, 22, 23, 24, 25]))
  (.cycle 45 [62, 155, 187]))) (.cycle 20 [53, 168, 62])) (.cases [34, 17, 155, 19, 20] 97 (.cases
  [] 95 (.cases [250] 43 (.leaf [90, 91]) (.cases [88, 89] 56 (.cases [] 100 (.leaf
  [260, 6, 250, 88, 89]) (.leaf [258, 172, 136, 96, 89])) (.leaf [174, 172]))) (.leaf
  [233, 6, 251, 89])) (.leaf [249, 6])))) (.cases [] 50 (.cases [] 52 (.cycle 63 [127, 128])
  (.cycle 2 [57, 120, 180])) (.cases [115, 116, 117, 123, 118, 58, 119] 43 (.leaf [90, 91]) (.cases
  [] 22 (.cases [53, 27] 28 (.leaf [37, 20]) (.leaf [32, 28])) (.leaf [34, 17, 155, 19, 20]))))

/-- some of the cases -/
def real6Case99 : SumTree :=
  .cases [141, 56, 18, 19, 20] 127 (.leaf [332, 243, 10]) (.cases [] 91 (.cycle 31 [283, 331, 27])
  (.cases [] 85 (.cases [] 103 (.cases [268, 9, 10] 66 (.cases [] 68 (.leaf
  [163, 56, 18, 19, 20, 218, 86, 22, 23, 24, 25]) (.leaf [162, 62, 17, 155, 19, 20])) (.leaf
  [156, 157, 158, 62, 17, 155, 19, 20])) (.cycle 30 [141, 267, 232, 290])) (.cycle 12
  [216, 217, 31])))

/-- some of the cases -/
def real6Case100 : SumTree :=
  .cases [67, 13, 14, 6] 50 (.cases [] 32 (.cases [64, 13, 14, 6] 79 (.leaf
  [200, 19, 213, 20, 126, 31, 57, 86, 58, 22, 23, 24, 25]) (.cases [199, 13, 14, 6] 53 (.leaf
  [124, 117, 125, 118, 126, 119, 31, 86, 22, 23, 24, 25]) (.cycle 17 [194, 122]))) (.leaf
  [61, 62, 17, 155, 19, 20])) (.leaf [115, 116, 117, 123, 118, 58, 119])

/-- some of the cases -/
def real6Case101 : SumTree :=
  .cases [251, 89] 71 (.cases [169, 170, 27, 28] 85 (.cases [] 55 (.cases [132] 28 (.cases [37, 20]
  50 (.cases [] 52 (.cases [] 51 (.cases [129, 130, 58] 43 (.cases [90, 91] 66 (.cases [] 72
  (.cases [] 100 (.leaf [260, 6, 251, 89, 90, 91]) (.leaf [258, 172, 173, 89])) (.leaf [171, 172]))
  (.leaf [156, 157, 158, 62, 169, 17, 170, 27, 37, 20, 218, 86, 22, 23, 24, 25])) (.leaf [88, 89]))
  (.cycle 63 [127, 128])) (.cycle 2 [57, 120, 180])) (.leaf [115, 116, 117, 123, 118, 58, 119]))
  (.cases [32, 28] 50 (.cases [] 80 (.cases [205, 206, 19, 20, 32, 28] 21 (.cases [] 43 (.cases
  [90, 91] 23 (.cases [114, 86, 22, 23, 24, 25] 56 (.leaf [136, 96, 89, 90, 91]) (.leaf
  [174, 172])) (.cycle 12 [29, 30, 31])) (.leaf [88, 89])) (.leaf
  [26, 27, 70, 28, 102, 58, 22, 23, 24, 25])) (.cases [202, 116, 117, 118, 119] 23 (.cases [] 56
  (.cases [136, 96, 89] 52 (.cases [] 66 (.cases [] 100 (.cases [260, 6] 51 (.leaf [129, 130, 58])
  (.cycle 63 [127, 128])) (.leaf [258, 172, 136, 96, 89])) (.leaf [156, 157, 158, 62, 17, 155, 19,
  20, 32, 114, 86, 22, 23, 24, 25])) (.cycle 2 [57, 120, 180])) (.cases [174, 172] 66 (.cases [] 43
  (.cases [90, 91] 72 (.cycle 48 [174, 173]) (.cases [171, 172] 112 (.leaf [299, 91]) (.leaf
  [298, 172]))) (.leaf [88, 89, 174, 172])) (.leaf [156, 157, 158, 62, 155, 19, 20, 32, 28, 114,
  86, 22, 23, 24, 25]))) (.leaf [113, 28, 102, 22, 23, 24, 25]))) (.leaf
  [115, 116, 117, 123, 118, 58, 119]))) (.cases [131, 62, 169, 17, 155, 170, 19, 27, 20, 28] 75
  (.cases [] 84 (.leaf [215, 19, 20]) (.cases [214, 27, 28] 43 (.cases [90, 91] 28 (.cycle 23
  [214, 27, 201]) (.leaf [32, 28])) (.leaf [88, 89]))) (.cycle 45 [62, 155, 187]))) (.cycle 12
  [216, 217, 31])) (.cases [] 22 (.cycle 45 [62, 53, 168]) (.cases [34, 17, 155, 19, 20] 56 (.leaf
  [136, 96, 89]) (.leaf [174, 172])))

/-- some of the cases -/
def real6Case102 : SumTree :=
  .cases [249, 6] 71 (.cases [169, 170, 27, 28] 85 (.cases [] 55 (.cases [132] 28 (.cases
  [37, 201, 20] 50 (.cases [] 52 (.cases [] 101 (.leaf [263, 96, 89, 249, 6]) (.cases [] 80 (.cases
  [] 51 (.cases [129, 130, 58] 56 (.cycle 65 [136, 262]) (.cases [] 66 (.cases [] 100 (.cases [] 95
  (.cases [] 72 (.cycle 69 [173, 174]) (.leaf [171, 172, 260, 6])) (.cases [233, 6] 70 (.leaf
  [165, 117, 205, 129, 206, 130, 19, 58, 20]) (.leaf [164, 27, 28, 37, 20]))) (.leaf [258, 172]))
  (.leaf [156, 157, 158, 62, 169, 17, 170, 27, 37, 20, 218, 86, 22, 23, 24, 25]))) (.cycle 63
  [127, 128])) (.cases [202, 116, 117, 118, 119] 95 (.cases [250, 91] 56 (.cycle 65 [136, 262])
  (.cases [] 66 (.cases [] 100 (.cases [] 72 (.cycle 69 [173, 174]) (.leaf [171, 172, 260, 6]))
  (.leaf [258, 172])) (.leaf [156, 157, 158, 62, 169, 17, 170, 27, 28, 37, 201, 20, 202, 116, 117,
  125, 118, 126, 119, 31, 57, 41, 58]))) (.leaf [233, 6])))) (.cycle 2 [57, 120, 180])) (.leaf
  [115, 116, 117, 123, 118, 58, 119])) (.cases [32, 28] 50 (.cases [] 80 (.cases
  [205, 206, 19, 20, 32, 28] 21 (.cases [] 23 (.cases [114, 86, 22, 23, 24, 25] 56 (.leaf
  [136, 96, 249, 6]) (.cases [] 66 (.cases [] 100 (.cases [] 72 (.cycle 69 [173, 174]) (.leaf
  [171, 260, 6])) (.leaf [258, 172])) (.leaf [156, 157, 158, 62, 132, 17, 205, 206, 19, 20, 32,
  114, 86, 22, 23, 24, 25]))) (.cycle 12 [29, 30, 31])) (.leaf
  [26, 27, 70, 28, 102, 58, 22, 23, 24, 25])) (.cases [202, 116, 117, 118, 119] 43 (.cases [] 101
  (.leaf [263, 96, 89, 249, 6]) (.cases [] 51 (.cases [129, 130, 58] 95 (.cases [] 56 (.cycle 65
  [136, 262]) (.cases [] 66 (.cases [] 100 (.cases [] 72 (.cycle 69 [173, 174]) (.leaf
  [171, 172, 260, 6])) (.leaf [258, 172])) (.leaf [156, 157, 158, 62, 17, 155, 19, 202, 20, 32,
  116, 28, 125, 126, 31, 86, 22, 23, 24, 25]))) (.leaf [233, 6])) (.cases [] 52 (.cycle 63
  [127, 128]) (.cycle 2 [57, 120, 180])))) (.leaf [88, 89, 249, 6]))) (.leaf
  [115, 116, 117, 123, 118, 58, 119]))) (.cases [131, 62, 169, 17, 155, 170, 19, 27, 20, 28] 75
  (.cases [] 95 (.cases [250, 91] 28 (.leaf [37, 20, 218, 86, 22, 23, 24, 25]) (.leaf [32, 28]))
  (.leaf [233, 6])) (.cycle 45 [62, 155, 187]))) (.cycle 12 [216, 217, 31])) (.cases [] 22 (.cycle
  45 [62, 53, 168]) (.cases [34, 17, 155, 19, 20] 56 (.leaf [136, 96, 249, 6]) (.cases [] 100
  (.cases [] 72 (.cycle 69 [173, 174]) (.leaf [171, 260, 6])) (.leaf [258, 172]))))

/-- some of the cases -/
def real6Case103 : SumTree :=
  .cases [94, 95, 96, 89] 79 (.cases [] 34 (.cases [67, 13, 200, 14, 19, 6, 20] 71 (.leaf [169,
  170, 67, 13, 200, 14, 19, 213, 6, 20, 126, 31, 86, 22, 23, 24, 25]) (.cases [] 43 (.leaf
  [90, 91]) (.cases [] 22 (.cycle 20 [53, 168, 62]) (.leaf [34, 17])))) (.cases [65, 27] 71 (.cases
  [169, 170, 27, 28] 85 (.cases [] 55 (.cases [132] 28 (.cases [37, 201, 20] 50 (.cases [] 52
  (.cases [] 80 (.cases [] 51 (.cases [129, 130, 58] 97 (.cases [] 66 (.cases [] 72 (.cases [] 95
  (.cases [] 100 (.cases [260, 6, 250, 91] 70 (.leaf [165, 117, 205, 129, 206, 130, 19, 58, 20])
  (.leaf [164, 27, 28, 37, 20])) (.leaf [258, 172, 173, 89])) (.leaf [233, 6, 251, 89])) (.leaf
  [171, 172])) (.leaf [156, 157, 158, 62, 169, 17, 170, 27, 37, 20, 218, 86, 22, 23, 24, 25]))
  (.leaf [249, 6])) (.cycle 63 [127, 128])) (.cases [202, 116, 117, 118, 119] 97 (.cases [] 95
  (.cases [250, 91] 43 (.leaf [90, 91]) (.leaf [88, 89])) (.leaf [233, 6, 251, 89])) (.leaf
  [249, 6]))) (.cycle 2 [57, 120, 180])) (.leaf [115, 116, 117, 123, 118, 58, 119])) (.cases
  [32, 28] 50 (.cases [] 80 (.cases [205, 206, 19, 20, 32, 28] 21 (.cases [] 97 (.cases [] 95
  (.cases [] 23 (.cases [114, 86, 22, 23, 24, 25] 56 (.cases [136, 96, 89] 66 (.cases [] 100 (.leaf
  [260, 6]) (.leaf [258, 172, 136, 96, 89])) (.leaf [156, 157, 158, 62, 132, 17, 117, 205, 118,
  206, 119, 19, 20, 32, 28, 114, 110, 41, 57, 58])) (.leaf [174, 172])) (.cycle 12 [29, 30, 31]))
  (.leaf [233, 6, 251, 89])) (.leaf [249, 6])) (.leaf [26, 27, 70, 28, 102, 58, 22, 23, 24, 25]))
  (.cases [202, 116, 117, 118, 119] 51 (.cases [129, 130, 58] 97 (.cases [] 95 (.cases [250, 91] 43
  (.leaf [90, 91]) (.leaf [88, 89])) (.leaf [233, 6, 251, 89])) (.leaf [249, 6])) (.cases [] 52
  (.cycle 63 [127, 128]) (.cycle 2 [57, 120, 180])))) (.leaf [115, 116, 117, 123, 118, 58, 119])))
  (.cases [131, 62, 169, 17, 155, 170, 19, 27, 20, 28] 75 (.cases [] 84 (.leaf [215, 19, 20])
  (.cases [214, 27, 28] 97 (.cases [] 95 (.cases [250, 91] 43 (.leaf [90, 91]) (.leaf [88, 89]))
  (.leaf [233, 6, 251, 89])) (.leaf [249, 6]))) (.cycle 45 [62, 155, 187]))) (.cycle 12
  [216, 217, 31])) (.cases [] 22 (.cycle 45 [62, 53, 168]) (.cases [34, 17, 155, 19, 20] 56 (.cases
  [136, 96, 89] 100 (.leaf [260, 6]) (.leaf [258, 172, 136, 96, 89])) (.leaf [174, 172]))))) (.leaf
  [199, 13, 14, 6])

/-- some of the cases -/
def real6Case104 : SumTree :=
  .cases [] 54 (.cases [] 60 (.cases [141, 56, 18, 19, 20] 43 (.cases [] 45 (.cases
  [97, 98, 99, 91] 103 (.cases [] 113 (.leaf [301, 9, 10]) (.cycle 17 [268, 300, 12])) (.leaf
  [310, 267, 13, 232, 14, 10, 6])) (.leaf [94, 95, 96, 89])) (.leaf [88, 89])) (.cases [140] 34
  (.cases [67, 13, 14, 6] 32 (.cases [64, 13, 14, 6] 79 (.leaf
  [200, 19, 213, 20, 126, 31, 86, 22, 23, 24, 25]) (.cases [199, 13, 14, 6] 53 (.leaf
  [124, 117, 118, 119]) (.cycle 17 [194, 122]))) (.leaf [61, 62, 17, 155, 19, 20])) (.cases
  [65, 27] 73 (.cycle 40 [177, 178, 179]) (.cases [175, 176, 43, 44, 45] 22 (.cases [] 71 (.cases
  [169, 170, 27, 28] 55 (.cases [132] 28 (.cases [37, 201, 20] 50 (.cases [] 52 (.cases [] 80
  (.cases [] 51 (.cases [129, 130, 58] 56 (.leaf [136, 96, 89]) (.cases [] 45 (.cases
  [97, 98, 99, 91] 94 (.cases [] 95 (.cases [] 43 (.cases [] 97 (.leaf [251, 89, 90, 91]) (.cases
  [249, 6, 250, 91] 70 (.leaf [165, 117, 205, 129, 206, 130, 19, 58, 20]) (.leaf
  [164, 27, 28, 37, 20]))) (.leaf [88, 89])) (.cycle 54 [99, 261, 236])) (.leaf [235, 14, 6]))
  (.leaf [94, 95, 96, 89, 174, 172]))) (.cycle 63 [127, 128])) (.cases [202, 116, 117, 118, 119] 97
  (.leaf [251, 89]) (.cases [249, 6] 95 (.leaf [250, 91]) (.leaf [233, 6])))) (.cycle 2
  [57, 120, 180])) (.leaf [115, 116, 117, 123, 118, 58, 119])) (.cases [32, 197, 28] 50 (.cases []
  80 (.cases [205, 206, 19, 20, 32, 28] 43 (.cases [] 45 (.cases [97, 98, 99, 91] 23 (.cases
  [114, 86, 22, 23, 24, 25] 110 (.leaf [296, 89]) (.cases [295, 6] 56 (.leaf [136, 96, 89]) (.cases
  [] 100 (.cases [] 72 (.cycle 69 [173, 174]) (.leaf [171, 260, 6])) (.leaf [258, 172])))) (.leaf
  [113, 28, 102, 22, 23, 24, 25])) (.leaf [94, 95, 96, 89])) (.leaf [88, 89])) (.cases
  [202, 116, 117, 118, 119] 45 (.cases [97, 98, 99, 91] 95 (.cases [] 43 (.cases [] 52 (.cases []
  101 (.leaf [263, 96, 89, 90, 91]) (.cases [] 70 (.cases [165, 117, 118, 119] 51 (.leaf
  [129, 130, 58]) (.cycle 59 [128, 127])) (.cases [164, 27, 28] 56 (.cycle 65 [136, 262]) (.cases
  [] 112 (.cases [] 97 (.leaf [251, 89, 90, 174, 91, 172]) (.cases [249, 6] 100 (.cases [] 72
  (.cycle 69 [173, 174]) (.leaf [171, 172, 260, 6])) (.leaf [258, 172]))) (.leaf [298, 172])))))
  (.cycle 2 [57, 120, 180])) (.leaf [88, 89])) (.leaf [233, 6])) (.cases [94, 95, 96, 89] 97
  (.cases [] 95 (.cases [250, 91] 43 (.leaf [90, 91]) (.cases [88, 89] 56 (.cases [] 100 (.leaf
  [260, 6, 250, 91, 88, 89]) (.leaf [258, 172, 136, 96, 89])) (.leaf [174, 172]))) (.leaf
  [233, 6, 251, 89])) (.leaf [249, 6])))) (.leaf [115, 116, 117, 123, 118, 58, 119]))) (.cases
  [131, 62, 169, 17, 155, 170, 19, 27, 20, 28] 75 (.cases [] 43 (.cases [] 45 (.cases
  [97, 98, 99, 91] 28 (.leaf [37, 20]) (.leaf [32, 28])) (.leaf [94, 95, 96, 89])) (.leaf
  [88, 89])) (.cycle 45 [62, 155, 187]))) (.cycle 20 [53, 168, 62])) (.cases [34, 17, 155, 19, 20]
  97 (.leaf [251, 89]) (.leaf [249, 6])))))) (.leaf [121, 117, 118, 119])

/-- some of the cases -/
def real6Case105 : SumTree :=
  .cases [] 35 (.cases [] 118 (.cases [] 47 (.cycle 56 [106, 107]) (.cases [105, 48, 49] 78 (.cases
  [] 60 (.cases [141, 56, 18, 19, 20] 30 (.leaf [46, 47, 48, 49]) (.cases [42, 43, 44, 45] 55
  (.cases [] 80 (.cases [] 97 (.leaf [251, 89]) (.cases [249, 6] 95 (.leaf [250, 91]) (.leaf
  [233, 6]))) (.leaf [202, 116, 117, 118, 119])) (.leaf [131, 62, 17]))) (.cases [140] 34 (.cases
  [67, 13, 14, 6] 85 (.cases [] 32 (.cases [64, 13, 14, 6] 79 (.leaf
  [200, 19, 20, 218, 86, 22, 23, 24, 25]) (.cases [199, 13, 14, 6] 53 (.leaf [124, 117, 118, 119])
  (.cycle 17 [194, 122]))) (.leaf [61, 62, 17, 155, 19, 20, 218, 86, 22, 23, 24, 25])) (.cycle 12
  [216, 217, 31])) (.cases [65, 27] 22 (.cases [] 71 (.cases [169, 170, 27, 28] 66 (.cases
  [161, 49] 23 (.cases [] 82 (.cases [209, 45] 55 (.cases [132] 98 (.cycle 55 [105, 256]) (.cases
  [255] 28 (.cases [37, 20] 56 (.leaf [136, 96, 89]) (.cases [] 30 (.cases [46, 47, 48, 49] 126
  (.cases [] 97 (.leaf [251, 89, 174, 172]) (.cases [249, 6] 95 (.leaf [250, 91]) (.leaf
  [233, 6]))) (.cycle 35 [48, 327, 328])) (.cases [42, 43, 44, 45] 126 (.cycle 35
  [42, 43, 44, 326]) (.cases [] 43 (.cases [] 45 (.cases [97, 98, 99, 91] 100 (.cases [] 72 (.cycle
  69 [173, 174]) (.leaf [171, 260, 6])) (.leaf [258, 172])) (.leaf [94, 95, 96, 89])) (.leaf
  [88, 89]))))) (.cases [32, 28] 101 (.leaf [263, 96, 89]) (.cases [] 80 (.cases
  [205, 206, 19, 20, 32, 28, 114, 86, 22, 23, 24, 25] 30 (.leaf [46, 47, 48, 49]) (.leaf
  [42, 43, 44, 45])) (.cases [202, 116, 117, 118, 119] 56 (.cycle 65 [136, 262]) (.cases [] 30
  (.cases [46, 47, 48, 49] 126 (.cases [] 97 (.leaf [251, 89]) (.cases [249, 6] 95 (.leaf
  [250, 91]) (.leaf [233, 6]))) (.cycle 35 [48, 327, 328])) (.cases [42, 43, 44, 45] 126 (.cycle 35
  [42, 43, 44, 326]) (.cases [] 43 (.cases [] 45 (.cases [97, 98, 99, 91] 100 (.cases [] 72 (.cycle
  69 [173, 174]) (.leaf [171, 260, 6])) (.leaf [258, 172])) (.leaf [94, 95, 96, 89, 90, 91]))
  (.leaf [88, 89, 174, 172]))))))))) (.cases [131, 62, 169, 17, 155, 170, 19, 27, 20, 28] 30 (.leaf
  [46, 47, 48, 49]) (.leaf [42, 43, 44, 45]))) (.leaf
  [208, 157, 161, 158, 49, 62, 17, 155, 19, 20])) (.leaf [113, 28, 102, 22, 23, 24, 25])) (.cases
  [156, 157, 158, 62, 169, 17, 155, 170, 19, 27, 20, 28] 30 (.leaf
  [46, 47, 48, 156, 157, 158, 169]) (.cases [42, 43, 44, 45] 84 (.leaf [215, 19, 20]) (.cases
  [214, 27, 28] 97 (.leaf [251, 89]) (.leaf [249, 6]))))) (.cycle 20 [53, 168, 62])) (.cases
  [34, 17, 155, 19, 20] 30 (.leaf [46, 47, 48, 49]) (.cases [42, 43, 44, 45] 97 (.leaf [251, 89])
  (.leaf [249, 6])))))) (.cycle 59 [193, 316]))) (.leaf [315, 12, 232, 189, 13, 10, 20, 14, 6]))
  (.leaf [66, 27, 28, 102, 22, 23, 24, 25])

/-- some of the cases -/
def real6Case106 : SumTree :=
  .cases [141, 56, 18, 19, 20, 154, 17, 104, 22, 103, 23, 41, 24, 25] 30 (.cases [46, 47, 48, 49]
  97 (.leaf [251, 89]) (.cases [249, 6] 95 (.leaf [250, 91]) (.leaf [233, 6]))) (.leaf
  [42, 43, 44, 45])

/-- some of the cases -/
def real6Case107 : SumTree :=
  .cases [37, 20, 154, 17, 104, 22, 103, 23, 41, 24, 25] 76 (.leaf [186, 117, 118, 119]) (.cases []
  54 (.cases [] 24 (.cases [52, 20, 154, 17, 104, 22, 103, 23, 41, 24, 25] 48 (.cases [108, 109] 50
  (.cases [] 73 (.cases [] 52 (.cases [] 51 (.cases [129, 130, 58] 43 (.cases [] 44 (.cases
  [93, 47, 48, 49, 108, 109] 45 (.cases [97, 98, 99, 91] 110 (.leaf [296, 89]) (.leaf [295, 6]))
  (.leaf [94, 95, 96, 89])) (.cycle 40 [177, 178, 179])) (.leaf [88, 89])) (.cycle 63 [127, 128]))
  (.cycle 2 [57, 120, 180])) (.leaf [175, 176, 43, 44, 45])) (.leaf
  [115, 116, 117, 123, 118, 58, 119])) (.cases [106, 49] 50 (.cases [] 52 (.cases [] 51 (.cases
  [129, 130, 58] 56 (.leaf [136, 96, 89]) (.cases [] 45 (.cases [97, 98, 99, 91] 98 (.cases [] 47
  (.cycle 56 [106, 107]) (.cycle 55 [105, 256])) (.leaf [255, 48, 49])) (.leaf
  [94, 95, 96, 89, 174, 172]))) (.cycle 63 [127, 128])) (.cycle 2 [57, 120, 180])) (.leaf
  [115, 116, 117, 123, 118, 58, 119]))) (.cycle 31 [37, 20, 36])) (.leaf
  [121, 117, 118, 185, 119, 22, 103, 23, 41, 24, 25]))

/-- some of the cases -/
def real6Case108 : SumTree :=
  .cases [205, 206, 19, 20, 196, 32, 197, 28] 71 (.leaf [169]) (.cases
  [198, 158, 62, 17, 104, 22, 103, 23, 41, 24, 25] 46 (.leaf [101, 58]) (.cases [] 23 (.cases [] 52
  (.cases [] 42 (.cases [102, 22, 103, 23, 41, 24, 25] 51 (.leaf [129, 130, 58]) (.cycle 63
  [127, 128])) (.cycle 25 [87, 110, 57, 100])) (.leaf [120, 205])) (.cycle 45
  [62, 104, 103, 29, 168])))

/-- some of the cases -/
def real6Case109 : SumTree :=
  .cases [102, 22, 103, 23, 41, 24, 25] 123 (.cases [] 69 (.leaf [184, 117, 118, 119]) (.cases []
  22 (.cases [53, 27, 28, 102, 22, 103, 23, 41, 24, 25] 54 (.cases [] 71 (.cases [] 50 (.cases []
  48 (.cases [108, 109] 30 (.cases [46, 47, 48, 49, 108, 109] 52 (.cases [] 51 (.cases
  [129, 130, 58] 55 (.cases [132, 117, 118, 129, 119, 130, 58] 97 (.leaf [251, 89]) (.leaf
  [249, 6])) (.cases [131, 169, 170, 27, 28, 102, 22, 103, 23, 41, 24, 25] 97 (.leaf [251, 89])
  (.leaf [249, 6]))) (.cycle 63 [127, 128])) (.cycle 2 [57, 120, 180])) (.cases [42, 43, 44] 52
  (.cases [] 102 (.leaf [266, 210]) (.cases [265, 45] 51 (.cases [129, 130, 58] 97 (.leaf
  [251, 89]) (.leaf [249, 6])) (.cycle 63 [127, 128]))) (.cycle 2 [57, 120, 180]))) (.cases [] 47
  (.cycle 56 [106, 107]) (.cases [105, 48, 49] 52 (.cases [] 51 (.cases [129, 130, 58] 55 (.cases
  [132, 117, 118, 129, 119, 130, 58] 97 (.leaf [251, 89]) (.leaf [249, 6])) (.cases
  [131, 169, 170, 27, 28, 102, 22, 103, 23, 41, 24, 25] 97 (.leaf [251, 89]) (.leaf [249, 6])))
  (.cycle 63 [127, 128])) (.cycle 2 [57, 120, 180])))) (.cases [115, 116, 117, 123, 118, 58, 119]
  97 (.leaf [251, 89]) (.leaf [249, 6]))) (.cycle 20 [53, 168, 62])) (.leaf [121, 117, 118, 119]))
  (.cases [34, 17, 104, 22, 103, 23, 41, 24, 25] 76 (.cycle 26 [186, 166]) (.cases [] 54 (.cases []
  50 (.cases [] 48 (.cases [108, 109] 30 (.cases [46, 47, 48, 49, 108, 109] 51 (.cases
  [129, 130, 58] 101 (.leaf [263, 96, 89]) (.cases [] 45 (.cases [97, 98, 99, 91] 95 (.cases [] 43
  (.cases [] 70 (.cases [165, 117, 118, 129, 119, 130, 58] 97 (.leaf [251, 89, 90, 91]) (.leaf
  [249, 6, 250, 91])) (.cases [164, 27, 28, 34, 17, 104, 22, 103, 23, 41, 24, 25] 97 (.leaf
  [251, 89]) (.leaf [249, 6, 250, 91]))) (.leaf [88, 89])) (.leaf [233, 6])) (.cases
  [94, 95, 96, 89] 43 (.leaf [90, 91]) (.cases [] 56 (.cycle 65 [136, 262]) (.leaf [174, 172])))))
  (.cases [] 52 (.cycle 63 [127, 128]) (.cycle 2 [57, 120, 180]))) (.cases [] 44 (.cycle 35
  [42, 93, 47]) (.cases [] 52 (.cases [] 51 (.cases [129, 130, 58] 73 (.cycle 40 [177, 178, 179])
  (.leaf [175, 176, 43, 44, 45])) (.cycle 63 [127, 128])) (.cycle 2 [57, 120, 180])))) (.cases []
  47 (.cycle 56 [106, 107]) (.cases [] 98 (.cycle 55 [105, 256]) (.cases [255, 48, 49] 51 (.cases
  [129, 130, 58] 56 (.leaf [136, 96, 89]) (.cases [] 45 (.cases [97, 98, 99, 91] 70 (.cases
  [165, 117, 129, 130, 58] 97 (.leaf [251, 89]) (.leaf [249, 6])) (.leaf
  [164, 27, 28, 34, 17, 104, 22, 103, 23, 41, 24, 25])) (.leaf [94, 95, 96, 89, 174, 172])))
  (.cases [] 52 (.cycle 63 [127, 128]) (.cycle 2 [57, 120, 180])))))) (.cases
  [115, 116, 117, 123, 118, 58, 119] 30 (.cases [46, 47, 48, 49] 97 (.leaf [251, 89]) (.cases
  [249, 6] 95 (.leaf [250, 91]) (.leaf [233, 6]))) (.leaf [42, 43, 44, 45]))) (.leaf
  [121, 117, 118, 185, 119, 22, 103, 23, 41, 24, 25]))))) (.leaf [324, 117, 118, 119])

/-- some of the cases -/
def real6Case110 : SumTree :=
  .cases [87, 28] 69 (.leaf [184, 117, 118, 119]) (.cases [] 23 (.cases [114, 110, 41, 57, 58] 101
  (.leaf [263, 96, 89]) (.cases [] 46 (.cases [101, 58] 56 (.cycle 65 [136, 262]) (.cases [] 57
  (.cases [] 45 (.cases [97, 98, 99, 91] 30 (.cases [46, 47, 48, 49] 94 (.cases [] 97 (.leaf
  [251, 89]) (.cases [249, 6] 95 (.leaf [250, 91]) (.cycle 54 [99, 261, 236]))) (.leaf
  [235, 14, 6])) (.leaf [42, 43, 44, 45])) (.leaf [94, 95, 96, 89, 174, 172])) (.leaf
  [134, 44, 45]))) (.cycle 25 [87, 110, 57, 100]))) (.cases [113, 29, 28, 83, 84, 85] 76 (.cycle 26
  [186, 166]) (.cases [] 54 (.cases [] 50 (.cases [] 122 (.cases [323] 35 (.cases [70, 58] 56
  (.leaf [136, 96, 89]) (.cases [] 57 (.cases [] 46 (.cases [101, 58] 30 (.cases [46, 47, 48, 49]
  97 (.leaf [251, 89]) (.leaf [249, 6])) (.leaf [42, 43, 44, 45])) (.cycle 25 [103, 29, 70, 100]))
  (.leaf [134, 44, 45]))) (.cases [66, 27, 83, 28, 84, 85] 51 (.leaf
  [129, 130, 58, 66, 27, 83, 28, 84, 85]) (.cases [127, 118, 119] 38 (.cases [77, 23, 24, 25] 30
  (.cases [46, 47, 48, 49] 97 (.leaf [251, 89]) (.cases [249, 6] 95 (.leaf [250, 91]) (.leaf
  [233, 6]))) (.leaf [42, 43, 44, 45])) (.leaf [75, 27, 83, 28, 84, 85])))) (.cases [] 52 (.cases
  [] 51 (.leaf [129, 322, 17, 104, 103, 41, 113, 28]) (.cycle 63 [127, 128])) (.cycle 2
  [57, 120, 180]))) (.leaf [115, 116, 117, 123, 118, 58, 119])) (.leaf
  [121, 117, 118, 185, 119, 103, 41, 113, 28]))))

/-- some of the cases -/
def real6Case111 : SumTree :=
  .cases [141, 56, 18, 19, 20, 154, 17] 103 (.cases [] 28 (.cases [] 113 (.cases [301, 9, 10] 110
  (.leaf [296, 89]) (.cases [295, 6] 47 (.cases [] 24 (.cases [] 48 (.leaf [108, 109]) (.cycle 56
  [106, 107])) (.cycle 19 [20, 36, 37])) (.leaf [105, 48, 49]))) (.cycle 17 [268, 300, 12]))
  (.cycle 30 [141, 18, 19, 197])) (.leaf [310, 267, 200, 232, 19, 10, 20, 154, 17])

/-- some of the cases -/
def real6Case112 : SumTree :=
  .cases [67, 13, 200, 14, 19, 6, 20, 154, 17] 30 (.leaf [46, 47, 48, 49]) (.leaf [42, 43, 44, 45])

/-- some of the cases -/
def real6Case113 : SumTree :=
  .cases [37, 20, 154, 17] 54 (.cases [] 24 (.cases [52, 20, 154, 17] 48 (.cases [108, 109] 50
  (.cases [] 57 (.cases [] 52 (.cases [] 51 (.cases [129, 130, 58] 102 (.cases [] 30 (.cases
  [46, 47, 48, 49, 108, 109] 97 (.leaf [251, 89]) (.cases [249, 6] 95 (.leaf [250, 91]) (.leaf
  [233, 6]))) (.leaf [42, 43, 44, 266, 210])) (.cycle 56 [265, 207])) (.cycle 63 [127, 128]))
  (.cycle 2 [57, 120, 180])) (.leaf [134, 44, 45])) (.leaf [115, 116, 117, 123, 118, 58, 119]))
  (.cases [] 50 (.cases [] 47 (.cycle 56 [106, 107]) (.cases [105, 48, 49] 52 (.cases [] 51 (.cases
  [129, 130, 58] 97 (.leaf [251, 89]) (.cases [249, 6] 95 (.leaf [250, 91]) (.leaf [233, 6])))
  (.cycle 63 [127, 128])) (.cycle 2 [57, 120, 180]))) (.leaf [115, 116, 117, 123, 118, 58, 119])))
  (.cycle 31 [37, 20, 36])) (.leaf [121, 117, 118, 119])

/-- some of the cases -/
def real6Case114 : SumTree :=
  .cases [53, 27, 28] 71 (.cases [169] 80 (.leaf [272, 19, 196, 169]) (.cases [202, 116, 117] 48
  (.cases [108, 109] 54 (.cases [] 50 (.cases [] 30 (.cases [46, 47, 48, 49, 108, 109] 51 (.cases
  [129, 130, 58] 45 (.cases [97, 98, 99, 91] 43 (.cases [] 101 (.leaf [263, 96, 89, 90, 91])
  (.cases [] 55 (.cases [132, 117, 118, 129, 119, 130, 58] 56 (.cycle 65 [136, 262]) (.cases [] 100
  (.cases [] 72 (.cycle 69 [173, 174]) (.leaf [171, 260, 6])) (.leaf [258, 172]))) (.cases
  [131, 169, 170, 27, 28] 56 (.cycle 65 [136, 262]) (.cases [] 112 (.cases [] 97 (.cases [251, 89]
  100 (.cycle 9 [251, 174, 260]) (.leaf [258, 172, 299, 91])) (.cases [249, 6] 100 (.cases [] 72
  (.cycle 69 [173, 174]) (.leaf [171, 172, 260, 6])) (.leaf [258, 172]))) (.leaf [298, 172])))))
  (.leaf [88, 89])) (.cases [94, 95, 96, 89] 97 (.cases [] 95 (.cases [250, 91] 100 (.cases
  [260, 6, 250, 91] 119 (.cases [] 120 (.leaf [321, 117, 129, 130, 58]) (.cases [] 121 (.leaf
  [320, 86, 22, 23, 24, 25]) (.cases [] 55 (.leaf [132, 319]) (.leaf
  [131, 169, 318, 170, 95, 27, 96, 28, 89])))) (.leaf [317, 169, 170, 27, 28])) (.leaf [258, 172]))
  (.leaf [233, 6, 251, 89])) (.leaf [249, 6]))) (.cases [] 52 (.cycle 63 [127, 128]) (.cycle 2
  [57, 120, 180]))) (.cases [42, 43, 44] 44 (.cycle 35 [42, 93, 47]) (.cases [] 102 (.leaf
  [266, 210]) (.cases [265, 45] 52 (.cases [] 51 (.cases [129, 130, 58] 56 (.leaf [136, 96, 89])
  (.cases [] 45 (.cases [97, 98, 99, 91] 73 (.cycle 40 [177, 178, 179]) (.leaf
  [175, 176, 43, 44, 45])) (.leaf [94, 95, 96, 89, 174, 172]))) (.cycle 63 [127, 128])) (.cycle 2
  [57, 120, 180]))))) (.cases [115, 116, 117, 123, 118, 58, 119] 30 (.leaf
  [46, 47, 48, 49, 108, 109]) (.leaf [42, 43, 44, 45]))) (.leaf [121, 117, 118, 119])) (.cases
  [106, 49] 54 (.cases [] 50 (.cases [] 47 (.cycle 56 [106, 107]) (.cases [] 98 (.cycle 55
  [105, 256]) (.cases [255, 48, 49] 51 (.cases [129, 130, 58] 101 (.leaf [263, 96, 89]) (.cases []
  45 (.cases [97, 98, 99, 91] 95 (.cases [] 43 (.cases [] 56 (.cycle 65 [136, 262]) (.cases [] 112
  (.cases [] 55 (.cases [132, 117, 118, 129, 119, 130, 58] 97 (.leaf [251, 89, 90, 91]) (.leaf
  [249, 6, 250, 91])) (.cases [131, 169, 170, 27, 28] 97 (.leaf [251, 89, 90, 174, 91, 172])
  (.cases [249, 6] 100 (.cases [] 72 (.cycle 69 [173, 174]) (.leaf [171, 260, 6, 250, 91])) (.leaf
  [258, 172, 299, 91])))) (.leaf [298, 172]))) (.leaf [88, 89])) (.leaf [233, 6])) (.cases
  [94, 95, 96, 89] 43 (.leaf [90, 91]) (.cases [] 56 (.cycle 65 [136, 262]) (.leaf [174, 172])))))
  (.cases [] 52 (.cycle 63 [127, 128]) (.cycle 2 [57, 120, 180]))))) (.cases
  [115, 116, 117, 123, 118, 58, 119] 97 (.leaf [251, 89]) (.cases [249, 6] 95 (.leaf [250, 91])
  (.leaf [233, 6])))) (.leaf [121, 117, 118, 119])))) (.cycle 20 [53, 168, 62])

/-- some of the cases -/
def real6Case115 : SumTree :=
  .cases [34, 17] 54 (.cases [] 80 (.cases [205, 206, 19, 20, 32, 28, 34, 17] 30 (.cases
  [46, 47, 48, 49] 97 (.leaf [251, 89]) (.leaf [249, 6])) (.leaf [42, 43, 44, 45])) (.cases
  [202, 116, 117] 50 (.cases [] 48 (.cases [108, 109] 30 (.cases [46, 47, 48, 49, 108, 109] 51
  (.cases [129, 130, 58] 56 (.leaf [136, 96, 89]) (.cases [] 45 (.cases [97, 98, 99, 91] 95 (.cases
  [] 43 (.cases [] 70 (.cases [165, 117, 129, 130, 58] 97 (.leaf [251, 89, 90, 91]) (.leaf
  [249, 6, 250, 91])) (.cases [164, 27, 28, 34, 17] 97 (.leaf [251, 89, 90, 91]) (.leaf
  [249, 6, 250, 91]))) (.leaf [88, 89])) (.leaf [233, 6])) (.leaf [94, 95, 96, 89, 174, 172])))
  (.cases [] 52 (.cycle 63 [127, 128]) (.cycle 2 [57, 120, 180]))) (.cases [42, 43, 44] 52 (.cases
  [] 102 (.leaf [266, 210]) (.cases [265, 45] 51 (.cases [129, 130, 58] 97 (.leaf [251, 89]) (.leaf
  [249, 6])) (.cycle 63 [127, 128]))) (.cycle 2 [57, 120, 180]))) (.cases [] 47 (.cycle 56
  [106, 107]) (.cases [] 98 (.cycle 55 [105, 256]) (.cases [255, 48, 49] 52 (.cases [] 51 (.cases
  [129, 130, 58] 43 (.cases [] 45 (.cases [97, 98, 99, 91] 56 (.leaf [136, 96, 89]) (.cases [] 100
  (.cases [] 72 (.cycle 69 [173, 174]) (.leaf [171, 260, 6])) (.leaf [258, 172]))) (.leaf
  [94, 95, 96, 89])) (.leaf [88, 89])) (.cycle 63 [127, 128])) (.cycle 2 [57, 120, 180])))))
  (.cases [115, 116, 117, 123, 118, 58, 119] 30 (.cases [46, 47, 48, 49] 97 (.leaf [251, 89])
  (.leaf [249, 6])) (.leaf [42, 43, 44, 45])))) (.leaf [121, 117, 118, 119])

/-- some of the cases -/
def real6Case116 : SumTree :=
  .cases [] 96 (.cycle 23 [19, 238, 281, 272]) (.cases [] 78 (.cycle 23 [199, 194, 272]) (.leaf
  [193, 12, 232, 13, 10, 240, 14, 20, 154, 6, 17, 104, 22, 23, 24, 25]))

/-- some of the cases -/
def real6Case117 : SumTree :=
  .cases [] 22 (.cases [53, 27, 28, 102, 22, 23, 24, 25] 71 (.cases [] 41 (.cases [103, 41] 23
  (.cases [] 69 (.leaf [184, 117, 118, 119]) (.cases [] 17 (.cases [] 118 (.cases [] 78 (.cases []
  34 (.cases [67, 13, 14, 6] 76 (.cycle 26 [186, 166]) (.cases [] 54 (.cases [] 50 (.cases [] 45
  (.cases [97, 98, 99, 91] 53 (.leaf [124, 117, 125, 118, 126, 119, 57, 58]) (.cycle 17
  [194, 122])) (.cases [94, 95, 96, 89] 53 (.leaf [124, 117, 125, 118, 126, 119, 57, 58]) (.cycle
  17 [194, 122]))) (.cases [115, 116, 117, 123, 118, 58, 119] 30 (.cases [46, 47, 48, 49] 77 (.leaf
  [192, 6]) (.leaf [190, 191])) (.leaf [42, 43, 44, 45]))) (.leaf
  [121, 117, 118, 185, 119, 22, 103, 23, 41, 24, 25]))) (.cases
  [65, 27, 28, 102, 110, 22, 103, 57, 23, 41, 58, 24, 25] 30 (.cases [46, 47, 48, 49] 43 (.leaf
  [90, 91]) (.leaf [88, 89])) (.leaf [42, 43, 44, 45]))) (.cycle 59 [193, 316])) (.leaf
  [315, 189, 196, 169])) (.leaf [15, 12, 232, 33, 13, 10, 28, 14, 6]))) (.cycle 31
  [102, 103, 113])) (.cases [86, 22, 23, 24, 25] 91 (.leaf [252, 10]) (.cases [] 54 (.cases [] 17
  (.cases [] 118 (.cases [] 78 (.cases [] 50 (.cases [] 34 (.cases [67, 13, 14, 6] 53 (.leaf
  [124, 117, 125, 118, 126, 119, 31, 57, 86, 58, 22, 23, 24, 25]) (.cycle 17 [194, 122])) (.cases
  [65, 27, 28] 35 (.cases [] 53 (.cases [124, 117, 125, 118, 126, 119] 70 (.leaf
  [165, 117, 125, 118, 126, 119, 31, 57, 86, 58, 22, 23, 24, 25]) (.cases [164, 27, 28] 21 (.leaf
  [30, 31, 57, 86, 58, 22, 23, 24, 25]) (.leaf [26, 27, 70, 28, 102, 58, 22, 23, 24, 25]))) (.cycle
  58 [122, 194])) (.leaf [66, 27, 28, 102, 22, 23, 24, 25]))) (.cases
  [115, 116, 117, 123, 118, 58, 119] 30 (.cases [46, 47, 48, 49] 43 (.cases [] 45 (.cases
  [97, 98, 99, 91] 52 (.leaf [128, 130, 58]) (.cycle 58 [123, 120])) (.leaf [94, 95, 96, 89]))
  (.leaf [88, 89])) (.leaf [42, 43, 44, 45]))) (.cycle 59 [193, 316])) (.leaf
  [315, 189, 196, 169])) (.leaf [15, 12, 232, 13, 10, 247, 28, 14, 6])) (.leaf
  [121, 117, 118, 119])))) (.cycle 20 [53, 168, 62])) (.cases
  [34, 68, 17, 104, 64, 22, 13, 23, 14, 24, 6, 25] 69 (.leaf [184, 117, 118, 119]) (.cases [] 17
  (.cases [] 41 (.cases [103, 41] 76 (.cycle 26 [186, 166]) (.cases [] 54 (.cases [] 50 (.cases []
  78 (.cases [] 53 (.cases [124, 117, 125, 118, 126, 119, 57, 58] 30 (.cases [46, 47, 48, 49] 77
  (.leaf [192, 6]) (.leaf [190, 191])) (.leaf [42, 43, 44, 45])) (.cycle 17 [194, 122])) (.leaf
  [193, 232, 189, 10, 20, 32, 28, 34, 68, 17, 64, 13, 14, 6])) (.cases
  [115, 116, 117, 123, 118, 58, 119] 30 (.cases [46, 47, 48, 49] 77 (.leaf [192, 6]) (.cases
  [190, 191] 43 (.leaf [90, 91]) (.leaf [88, 89]))) (.leaf [42, 43, 44, 45]))) (.leaf
  [121, 117, 118, 185, 119, 22, 23, 24, 25]))) (.cases [86, 22, 23, 24, 25] 93 (.leaf
  [241, 242, 243, 10]) (.cases [] 96 (.cycle 23 [19, 238, 239]) (.cases [] 78 (.cases [] 53 (.leaf
  [124, 117, 118, 119]) (.cycle 17 [194, 122])) (.cycle 59 [193, 232, 237, 227, 117]))))) (.leaf
  [15, 12, 232, 33, 13, 10, 28, 14, 6])))

/-- some of the cases -/
def real6Case118 : SumTree :=
  .cases [87, 28] 91 (.leaf [252]) (.cases [] 93 (.cases [] 96 (.cases [302, 10] 41 (.cases [] 92
  (.leaf [245, 10, 247, 28]) (.cases [244, 22, 87, 103, 23, 28, 41, 24, 25] 81 (.leaf
  [204, 130, 58]) (.cases [] 115 (.leaf [307]) (.cases [] 46 (.leaf
  [101, 264, 58, 203, 306, 28, 24, 25]) (.cases [] 23 (.cycle 25 [87, 110, 57, 100]) (.cases
  [113, 28] 47 (.cases [] 48 (.leaf [108, 109]) (.cycle 56 [106, 107])) (.leaf [105, 48, 49])))))))
  (.leaf [86, 22, 87, 23, 28, 24, 25])) (.cycle 23 [241, 242, 243, 237])) (.cases [] 22 (.cases []
  71 (.cases [] 96 (.cycle 23 [19, 238, 313, 206]) (.cases [] 78 (.cases [] 41 (.cases [103, 41] 53
  (.cases [124, 117, 118, 119] 23 (.cases [114, 110, 41, 57, 58] 50 (.cases [] 69 (.leaf
  [184, 117, 125, 118, 126, 119, 57, 58]) (.cases [] 46 (.cases [101, 58] 76 (.cycle 26 [186, 166])
  (.cases [] 66 (.leaf [161, 49]) (.cases [] 82 (.leaf [209, 45]) (.cases [] 98 (.cases [] 51
  (.cases [129, 130, 58] 47 (.cases [] 30 (.cases [46, 47, 48] 48 (.leaf [108, 109]) (.cycle 56
  [106, 107])) (.leaf [42, 43, 44, 45, 208, 157, 158, 64, 13, 124, 14, 117, 6, 118, 129, 119, 130,
  58])) (.cycle 55 [105, 256])) (.cycle 25 [22, 264, 127, 185])) (.leaf [255, 48, 49, 156, 157,
  158, 62, 64, 17, 104, 13, 124, 22, 87, 14, 117, 101, 28, 6, 118, 58, 119]))))) (.cycle 25
  [87, 110, 57, 100]))) (.leaf [115, 116, 117, 118, 119])) (.cases [113, 29, 28] 69 (.leaf
  [184, 117, 118, 119]) (.cases [] 35 (.cases [70, 58] 54 (.cases [] 52 (.cases [] 46 (.cases
  [101, 58] 66 (.leaf [161, 49]) (.cases [] 82 (.leaf [209, 45]) (.cases [] 98 (.cases [] 51
  (.cases [129, 130, 58] 47 (.cases [] 30 (.cases [46, 47, 48] 48 (.leaf [108, 109]) (.cycle 56
  [106, 107])) (.leaf [42, 43, 44, 45, 208, 157, 158, 64, 13, 124, 14, 117, 6, 118, 129, 119, 130,
  58])) (.cycle 55 [105, 256])) (.cycle 63 [127, 128])) (.leaf [255, 48, 49, 156, 157, 158, 62, 64,
  17, 104, 13, 22, 103, 14, 101, 41, 113, 6, 58, 28])))) (.cycle 25 [103, 29, 70, 100])) (.cycle 33
  [120, 123])) (.leaf [121, 117, 118, 119])) (.cases [] 46 (.leaf [101, 58, 66, 27, 28]) (.cases []
  76 (.cycle 26 [186, 166]) (.cases [] 54 (.cases [] 51 (.leaf
  [129, 130, 58, 66, 100, 27, 103, 28, 41]) (.cases [] 50 (.cases [] 52 (.cycle 59 [128, 127])
  (.cycle 2 [57, 120, 180])) (.leaf [115, 116, 117, 123, 118, 58, 66, 119, 27, 83, 28, 84, 85])))
  (.leaf [121, 117, 118, 185, 119, 103, 41, 113, 28]))))))) (.cycle 58 [122, 194])) (.leaf
  [86, 22, 87, 23, 28, 24, 25])) (.leaf [193, 232, 240, 196, 169]))) (.cycle 20 [53, 168, 62]))
  (.cycle 20 [104, 87, 34])))

/-- some of the cases -/
def real6Case119 : SumTree :=
  .cases [61] 71 (.leaf [169]) (.cases [] 53 (.cases [124, 117, 118, 119] 28 (.cases [37, 201, 20,
  199, 13, 61, 124, 14, 62, 117, 6, 17, 104, 118, 22, 119, 23, 24, 25] 41 (.leaf [103, 41]) (.leaf
  [86, 22, 23, 24, 25])) (.cases [197] 34 (.cases [67, 13, 61, 124, 14, 62, 117, 6, 17, 104, 118,
  22, 119, 23, 24, 25] 76 (.leaf [186, 117, 118, 119]) (.cases [] 54 (.cases [] 50 (.cases
  [125, 126, 31, 57, 58] 41 (.cases [103, 41] 30 (.leaf [46, 47, 48, 49]) (.leaf [42, 43, 44, 45]))
  (.cases [86, 22, 23, 24, 25] 30 (.leaf [46, 47, 48, 49]) (.leaf [42, 43, 44, 45]))) (.cases
  [115, 116, 117, 123, 118, 58, 119] 45 (.cases [97, 98, 99, 91] 52 (.leaf [128, 130, 58]) (.cycle
  58 [123, 120])) (.leaf [94, 95, 96, 89]))) (.leaf [121, 117, 118, 119]))) (.cases
  [65, 27, 198, 28, 158, 62, 17, 104, 22, 23, 24, 25] 42 (.cases [102, 22, 23, 24, 25] 41 (.cases
  [103, 41] 55 (.leaf [132, 117, 118, 119]) (.cases [] 70 (.leaf [165, 117, 131, 118, 62, 119, 17])
  (.leaf [164, 27, 198, 102, 158, 22, 103, 62, 23, 41, 17, 24, 25]))) (.cases [86, 22, 23, 24, 25]
  43 (.cases [90, 91] 44 (.cases [93, 47, 48, 49] 45 (.cases [97, 98, 99, 91] 22 (.cycle 45
  [62, 53, 168]) (.leaf [34, 17])) (.leaf [94, 95, 96, 89])) (.leaf [92, 43, 44, 45])) (.leaf
  [88, 89]))) (.leaf [87, 28])))) (.cases [] 78 (.cycle 58 [122, 194]) (.leaf
  [193, 12, 232, 13, 61, 10, 14, 62, 6, 17, 104, 22, 23, 24, 25])))

/-- some of the cases -/
def real6Case120 : SumTree :=
  .cases [141, 56] 34 (.cases [67, 13, 14, 6] 103 (.cases [289, 56] 107 (.leaf
  [277, 278, 152, 9, 56, 102, 10, 82, 17]) (.cases [] 91 (.cases [] 117 (.cases [312, 10] 92
  (.cases [245, 10] 65 (.leaf [155, 19, 20]) (.cases [] 96 (.cases [] 20 (.leaf
  [54, 20, 154, 302, 17, 10]) (.cases [] 24 (.leaf [52, 21, 245]) (.cases [] 28 (.cycle 31
  [37, 20, 36]) (.cycle 30 [67, 268, 276, 197])))) (.leaf [240, 20, 154, 17]))) (.leaf
  [244, 22, 82, 23, 17, 24, 25])) (.cycle 31 [252, 10, 311])) (.cycle 30 [67, 268, 9, 290])))
  (.cases [310, 13, 14, 6] 68 (.cases [163, 56] 22 (.cycle 31 [102, 82, 314]) (.cases [] 29 (.leaf
  [35, 12, 232, 13, 10, 14, 6]) (.cycle 45 [163, 267, 33, 68]))) (.cases [] 17 (.cases [] 61
  (.cases [149, 56, 310, 267, 162, 13, 232, 189, 14, 10, 20, 6] 30 (.cases [46, 47, 48, 49] 86
  (.leaf [220, 31, 41]) (.leaf [219, 62, 17])) (.leaf [42, 43, 44, 45])) (.cases
  [142, 117, 118, 119] 91 (.cases [283] 117 (.cases [312, 10] 83 (.cases [] 65 (.leaf
  [155, 19, 20]) (.cases [] 93 (.cases [] 96 (.cases [] 92 (.cases [] 20 (.leaf
  [54, 20, 154, 302, 17, 10]) (.cases [] 24 (.leaf [52, 21, 245]) (.cases [] 28 (.cycle 31
  [37, 20, 36]) (.cycle 30 [141, 267, 189, 197])))) (.leaf [244, 22, 82, 23, 17, 24, 25])) (.leaf
  [237, 241])) (.cases [313, 206, 19, 20] 90 (.leaf [253, 313]) (.cases [] 108 (.cases [] 92 (.leaf
  [245, 10, 246, 292, 17, 41]) (.leaf [244, 82, 17])) (.leaf [280, 313]))))) (.cycle 2 [211, 212]))
  (.cycle 31 [252, 10, 311])) (.cycle 30 [141, 267, 232, 290]))) (.cases
  [15, 12, 232, 13, 10, 14, 6] 39 (.cases [] 36 (.cases [] 46 (.leaf [101, 58]) (.cases [] 90
  (.cycle 25 [82, 253, 297, 100]) (.cases [] 91 (.cases [] 117 (.cases [] 32 (.cases [] 92 (.cycle
  25 [245, 285, 64, 79]) (.leaf [244, 82, 17])) (.leaf [61, 62, 17])) (.cycle 15 [10, 311, 252]))
  (.cycle 13 [232, 290, 141, 267])))) (.cycle 26 [72, 13, 81])) (.leaf [80, 13, 14, 6]))))) (.cases
  [65, 27, 141, 102, 56, 22, 82, 23, 17, 24, 25] 90 (.leaf [288]) (.cases [] 65 (.leaf
  [155, 19, 20]) (.cases [] 92 (.leaf [245, 10, 246, 17]) (.cases [] 20 (.leaf [54, 20, 154, 17])
  (.cases [] 103 (.cases [] 113 (.cases [301, 9, 10] 24 (.leaf
  [52, 20, 21, 22, 82, 23, 17, 24, 25]) (.cases [] 107 (.leaf
  [277, 278, 152, 9, 56, 102, 10, 82, 17]) (.cases [] 117 (.leaf
  [312, 10, 244, 22, 82, 23, 17, 24, 25]) (.cases [] 91 (.cycle 31 [252, 10, 311]) (.cases [] 28
  (.cycle 31 [37, 20, 36]) (.cases [] 106 (.leaf
  [279, 243, 10, 247, 290, 102, 141, 22, 82, 56, 23, 17, 24, 25]) (.cases [] 79 (.leaf
  [200, 19, 20, 32, 197, 102, 141, 22, 82, 56, 23, 17, 24, 25]) (.cases [] 96 (.cycle 14
  [276, 238, 275, 268]) (.cycle 14 [9, 237, 199, 268]))))))))) (.cycle 17 [268, 300, 12])) (.cycle
  17 [65, 141, 310]))))))

/-- some of the cases -/
def real6Case121 : SumTree :=
  .cases [55, 56, 140, 27, 102, 22, 82, 103, 23, 17, 41, 24, 25] 90 (.leaf [288]) (.cases [] 96
  (.cases [302, 10] 107 (.leaf [277, 278, 9, 56, 140, 10, 27, 102, 82, 17]) (.cases [] 93 (.cases
  [] 109 (.cases [287, 242] 105 (.cases
  [274, 56, 140, 27, 28, 102, 22, 82, 103, 23, 17, 41, 24, 25] 103 (.cases [] 49 (.cases [] 113
  (.leaf [301, 276, 302, 238, 10, 274, 56, 140, 27, 102, 22, 82, 23, 17, 112, 24, 31, 25, 41])
  (.cycle 17 [268, 300, 12])) (.leaf [111, 17])) (.leaf [310, 13, 14, 6])) (.cases
  [273, 243, 284, 10, 116] 91 (.cases [252, 283, 10, 284, 116, 117, 118, 119] 106 (.cases [] 49
  (.cases [] 34 (.leaf [67, 13, 279, 14, 243, 297, 6, 10, 58]) (.cases [] 92 (.leaf
  [245, 10, 246, 17]) (.leaf [244, 22, 82, 23, 17, 112, 24, 31, 25, 41]))) (.cases [111, 17] 34
  (.leaf [67, 13, 279, 14, 243, 6, 10]) (.cases [] 92 (.leaf [245, 10, 292, 111, 17]) (.leaf
  [244, 22, 103, 23, 41, 111, 24, 17, 25])))) (.leaf [275, 13, 14, 6])) (.cases
  [247, 290, 28, 102, 22, 82, 103, 23, 17, 41, 24, 25] 30 (.cases [46, 47, 48, 49] 70 (.leaf
  [165, 117, 118, 119]) (.leaf [164, 27, 102, 22, 82, 103, 23, 17, 41, 24, 25])) (.leaf
  [42, 43, 44, 45])))) (.cycle 23 [241, 286])) (.cycle 19 [238, 239, 19]))) (.cases [] 103 (.cases
  [268, 9, 10] 79 (.leaf [200, 19, 55, 20, 56, 140, 27, 28, 102, 82, 17]) (.cycle 17
  [268, 9, 237, 199])) (.cycle 13 [232, 237, 55, 267])))

/-- some of the cases -/
def real6Case122 : SumTree :=
  .cases [18, 19, 20] 83 (.cases [] 34 (.cases [67, 13, 14, 6] 28 (.cases [201] 65 (.cases
  [155, 19, 213, 20, 126, 31, 41] 115 (.leaf [307]) (.cases [] 46 (.leaf [101, 58, 306, 24, 25])
  (.cases [] 88 (.cases [226, 19, 213, 20, 126, 31, 41] 26 (.leaf [50, 31, 41]) (.leaf
  [40, 23, 24, 25])) (.cycle 25 [82, 155, 225, 100])))) (.cases [] 24 (.cases [52, 20] 20 (.cases
  [54, 20, 154, 196, 17] 55 (.leaf [132, 117, 118, 119]) (.cases [] 46 (.leaf [101, 58]) (.cases []
  78 (.cases [] 76 (.leaf [186, 117, 131, 118, 62, 119, 17]) (.cases [] 37 (.cases [] 54 (.cases []
  80 (.cases [] 33 (.cycle 25 [54, 196, 69, 100]) (.cases [] 53 (.cases [124] 116 (.cases
  [309, 206] 88 (.leaf [226, 19, 213, 20, 154, 126, 17, 31, 41]) (.leaf
  [225, 63, 62, 76, 17, 23, 24, 25])) (.cycle 58 [205, 308])) (.cycle 58 [122, 194]))) (.cases []
  33 (.cycle 25 [54, 196, 69, 100]) (.cases [] 79 (.leaf
  [200, 202, 116, 123, 58, 63, 62, 76, 17, 23, 24, 25]) (.cases [199, 13, 14, 6] 53 (.leaf
  [124, 117, 123, 118, 58, 63, 119, 62, 17]) (.cycle 58 [122, 194]))))) (.leaf
  [121, 117, 118, 185, 119, 54, 20, 154, 17])) (.leaf [74, 62, 17]))) (.leaf
  [193, 12, 232, 13, 10, 14, 6])))) (.leaf [21, 22, 82, 103, 23, 17, 41, 24, 25])) (.cycle 31
  [37, 20, 36]))) (.cases [32, 197, 102, 67, 22, 82, 103, 13, 23, 17, 41, 14, 24, 6, 25] 115 (.leaf
  [307]) (.cases [] 93 (.leaf [241, 242, 243, 10]) (.cases [] 46 (.leaf [101, 58, 306, 24, 25])
  (.cases [] 96 (.cycle 23 [19, 238, 239]) (.cases [] 78 (.cases [] 76 (.leaf [186, 117, 118, 119])
  (.cases [] 54 (.cases [] 49 (.cases [] 27 (.cases [] 51 (.leaf [129, 130, 58, 38, 31, 41])
  (.cases [] 52 (.cycle 63 [127, 128]) (.cycle 33 [120, 123]))) (.cycle 25 [82, 112, 57, 100]))
  (.cases [111, 17] 53 (.leaf [124, 117, 118, 119]) (.cycle 58 [122, 194]))) (.leaf
  [121, 117, 118, 119]))) (.leaf [193, 232, 10, 240, 20, 32, 28, 102, 82, 17]))))))) (.cases
  [65, 27, 102, 22, 82, 103, 23, 17, 41, 24, 25] 79 (.cases [200, 19, 20] 28 (.cases [37, 201, 20]
  65 (.leaf [155, 19, 213, 20, 126, 31, 41]) (.cases [] 20 (.cases [54, 20, 154, 17] 97 (.leaf
  [251, 89]) (.leaf [249, 6])) (.cases [21, 22, 82, 103, 23, 17, 41, 24, 25] 80 (.cases [] 49
  (.cases [112, 31, 41] 47 (.cases [] 24 (.cases [52, 20, 21, 22, 82, 23, 17, 112, 24, 31, 25, 41]
  48 (.leaf [108, 109]) (.cycle 56 [106, 107])) (.cycle 31 [37, 20, 36])) (.leaf [105, 48, 49]))
  (.cases [] 70 (.leaf [165, 205, 206, 19, 20, 21, 22, 103, 23, 41, 111, 24, 17, 25]) (.leaf
  [164, 27, 37, 20, 21, 22, 103, 23, 111, 24, 17, 25]))) (.cases [202, 116, 117, 118, 119] 47
  (.cases [] 24 (.cases [52, 20, 21, 22, 82, 103, 23, 17, 41, 24, 25] 48 (.leaf [108, 109]) (.cycle
  56 [106, 107])) (.cycle 31 [37, 20, 36])) (.leaf [105, 48, 49]))))) (.cases
  [32, 28, 102, 22, 82, 103, 23, 17, 41, 24, 25] 51 (.leaf [129, 130, 58]) (.cases [127, 118, 119]
  30 (.cases [46, 47, 48, 49] 97 (.leaf [251, 89]) (.cases [249, 6] 95 (.leaf [250, 91]) (.leaf
  [233, 6]))) (.leaf [42, 43, 44, 45])))) (.leaf
  [199, 13, 65, 14, 27, 6, 28, 102, 22, 82, 23, 17, 24, 25]))) (.cycle 2 [211, 212])

/-- some of the cases -/
def real6Case123 : SumTree :=
  .cases [86, 22, 82, 23, 17, 24, 25] 30 (.cases [46, 47, 48, 49] 97 (.leaf [251, 89]) (.cases
  [249, 6] 95 (.leaf [250, 91]) (.leaf [233, 6]))) (.leaf [42, 43, 44, 45])

/-- some of the cases -/
def real6Case124 : SumTree :=
  .cases [55, 56] 22 (.cases [53, 27, 28] 71 (.cases [] 96 (.cases [] 92 (.cases [245] 90 (.leaf
  [253, 243, 284, 10, 116, 117, 129, 130, 58, 38, 31, 41]) (.leaf [285, 169])) (.cases [] 90
  (.cycle 15 [244, 82, 288]) (.cases [] 107 (.leaf [277, 9, 285, 169]) (.cases [] 114 (.leaf
  [303, 9, 285, 169]) (.cases [] 17 (.cases [] 64 (.leaf [151, 276, 302, 285, 169]) (.cases [] 105
  (.cases [] 103 (.cases [] 113 (.cases [301, 276, 20, 302, 238, 10, 244, 274, 22, 82, 56, 23, 17,
  53, 24, 27, 25, 28] 61 (.cycle 58 [149, 150]) (.leaf
  [142, 117, 118, 129, 119, 130, 58, 38, 31, 41])) (.cycle 17 [268, 300, 12])) (.cycle 19
  [238, 274, 267, 189])) (.leaf [273, 243, 284, 10, 244, 116, 22, 82, 117, 23, 17, 53, 129, 24, 27,
  130, 25, 28, 38, 31, 41]))) (.leaf [15, 232, 285, 169])))))) (.cases [] 103 (.cases [] 20 (.cases
  [54] 104 (.cycle 26 [270, 271, 22]) (.cases [] 65 (.cycle 25 [82, 155, 55, 269]) (.leaf
  [196, 169]))) (.cases [] 65 (.cycle 19 [21, 82, 248]) (.cases [] 64 (.leaf
  [151, 9, 240, 196, 169]) (.cases [] 113 (.cases [301, 9, 10, 240, 237, 20, 21, 55, 22, 82, 56,
  23, 17, 53, 24, 27, 25, 28] 61 (.cycle 58 [149, 150]) (.leaf
  [142, 117, 118, 129, 119, 130, 58, 38, 31, 41])) (.cycle 17 [268, 300, 12]))))) (.cycle 13
  [232, 237, 55, 267]))) (.cycle 20 [53, 168, 62])) (.cases [34, 17] 96 (.cases [] 91 (.leaf
  [252, 283, 10, 284, 116, 117, 118, 129, 119, 130, 38, 31, 41]) (.cases [] 92 (.cases
  [245, 10, 247, 28, 34, 17] 30 (.cases [46, 47, 48, 49] 97 (.leaf [251, 89]) (.cases [249, 6] 95
  (.leaf [250, 91]) (.leaf [233, 6]))) (.leaf [42, 43, 44, 45])) (.cases [] 107 (.leaf
  [277, 278, 9, 56, 10, 244, 87, 28]) (.cases [] 17 (.cases [] 105 (.cases [] 103 (.cases [] 106
  (.leaf [279, 243, 274, 10, 244, 56, 22, 87, 23, 28, 34, 24, 17, 25]) (.cycle 19
  [238, 275, 268, 276])) (.cycle 19 [238, 274, 267, 189])) (.leaf [273, 243, 284, 10, 244, 116, 22,
  87, 117, 23, 28, 34, 129, 24, 17, 130, 25, 58])) (.leaf
  [15, 12, 232, 13, 10, 244, 14, 87, 6, 28]))))) (.cases [] 103 (.cases [268, 9, 10] 87 (.leaf
  [222, 19, 55, 20, 56]) (.cases [] 20 (.cases [54, 20] 104 (.cycle 26 [270, 271, 22]) (.cases []
  28 (.cycle 25 [87, 201, 55, 269]) (.cases [32, 28, 34, 17] 113 (.leaf [301, 9, 10, 237, 55, 56])
  (.cycle 17 [268, 300, 12])))) (.cases [] 79 (.leaf [200, 19, 55, 20, 21, 56, 87, 34, 17]) (.cycle
  17 [268, 9, 237, 199])))) (.cycle 13 [232, 237, 55, 267])))

/-- some of the cases -/
def real6Case125 : SumTree :=
  .cases [37, 20] 48 (.cases [108, 109] 45 (.cases [97, 98, 99, 91] 57 (.cases [] 97 (.cases
  [251, 89] 72 (.cases [] 102 (.cases [] 30 (.cases [46, 47, 48, 108, 109] 43 (.cases [] 56 (.leaf
  [136, 96, 89, 90, 91]) (.cycle 48 [174, 173])) (.leaf [88, 89])) (.leaf [42, 43, 44, 266, 210]))
  (.cycle 56 [265, 207])) (.leaf [171, 172])) (.cases [249, 6] 56 (.leaf [136, 96, 89, 249, 6])
  (.cases [] 112 (.cases [] 100 (.cases [] 72 (.cycle 69 [173, 174]) (.leaf [171, 172, 260, 6]))
  (.leaf [258, 172, 299, 91])) (.leaf [298, 172])))) (.leaf [134, 44, 45])) (.cases
  [94, 95, 96, 89] 97 (.cases [] 57 (.cases [] 72 (.cases [] 102 (.cases [] 30 (.cases
  [46, 47, 48, 49, 108, 109] 95 (.cases [] 43 (.leaf [90, 91]) (.cases [] 56 (.cases [] 100 (.leaf
  [260, 6, 250, 88, 89]) (.leaf [258, 172, 136, 96, 89])) (.cycle 48 [174, 173]))) (.leaf
  [233, 6, 251, 89])) (.leaf [42, 43, 44, 266, 210])) (.cycle 56 [265, 207])) (.leaf [171, 172]))
  (.leaf [134, 44, 45])) (.leaf [249, 6]))) (.cases [] 47 (.cycle 56 [106, 107]) (.cases
  [105, 48, 49] 101 (.leaf [263, 96, 89]) (.cases [] 45 (.cases [97, 98, 99] 43 (.cases [] 56
  (.cycle 65 [136, 262]) (.cases [] 97 (.leaf [251, 89, 90, 174, 91, 172]) (.cases [249, 6] 100
  (.cases [] 72 (.cycle 69 [173, 174]) (.leaf [171, 172, 260, 6])) (.leaf [258, 172])))) (.leaf
  [88, 89])) (.cases [94, 95, 96, 89] 43 (.leaf [90, 91]) (.cases [] 56 (.cycle 65 [136, 262])
  (.leaf [174, 172]))))))

/-- some of the cases -/
def real6Case126 : SumTree :=
  .cases [32, 28] 48 (.cases [108, 109] 45 (.cases [97, 98, 99, 91] 57 (.cases [] 97 (.cases
  [251, 89] 72 (.cases [] 102 (.cases [] 30 (.cases [46, 47, 48, 108, 109] 43 (.cases [] 56 (.leaf
  [136, 96, 89, 90, 91]) (.cycle 48 [174, 173])) (.leaf [88, 89])) (.leaf [42, 43, 44, 266, 210]))
  (.cycle 56 [265, 207])) (.leaf [171, 172])) (.cases [249, 6] 56 (.leaf [136, 96, 89, 249, 6])
  (.cases [] 112 (.cases [] 100 (.cases [] 72 (.cycle 69 [173, 174]) (.leaf [171, 172, 260, 6]))
  (.leaf [258, 172, 299, 91])) (.leaf [298, 172])))) (.leaf [134, 44, 45])) (.cases
  [94, 95, 96, 89] 97 (.cases [] 57 (.cases [] 72 (.cases [] 102 (.cases [] 30 (.cases
  [46, 47, 48, 49, 108, 109] 95 (.cases [] 43 (.leaf [90, 91]) (.cases [] 56 (.cases [] 100 (.leaf
  [260, 6, 250, 88, 89]) (.leaf [258, 172, 136, 96, 89])) (.cycle 48 [174, 173]))) (.leaf
  [233, 6, 251, 89])) (.leaf [42, 43, 44, 266, 210])) (.cycle 56 [265, 207])) (.leaf [171, 172]))
  (.leaf [134, 44, 45])) (.leaf [249, 6]))) (.cases [] 47 (.cycle 56 [106, 107]) (.cases
  [105, 48, 49] 101 (.leaf [263, 96, 89]) (.cases [] 45 (.cases [97, 98, 99] 43 (.cases [] 56
  (.cycle 65 [136, 262]) (.cases [] 97 (.leaf [251, 89, 90, 174, 91, 172]) (.cases [249, 6] 100
  (.cases [] 72 (.cycle 69 [173, 174]) (.leaf [171, 172, 260, 6])) (.leaf [258, 172])))) (.leaf
  [88, 89])) (.cases [94, 95, 96, 89] 43 (.leaf [90, 91]) (.cases [] 56 (.cycle 65 [136, 262])
  (.leaf [174, 172]))))))

/-- some of the cases -/
def real6Case127 : SumTree :=
  .cases [34, 17, 155, 19, 20] 48 (.cases [108, 109] 57 (.cases [] 101 (.leaf [263, 96, 89])
  (.cases [] 45 (.cases [97, 98, 99, 91] 95 (.cases [] 43 (.cases [] 56 (.cycle 65 [136, 262])
  (.cases [] 102 (.cases [] 30 (.cases [46, 47, 48, 49, 108, 109] 97 (.leaf [251, 89, 90, 91])
  (.leaf [249, 6, 250, 91])) (.leaf [42, 43, 44, 266, 210])) (.cycle 56 [265, 207]))) (.leaf
  [88, 89])) (.leaf [233, 6])) (.cases [94, 95, 96, 89] 30 (.leaf [46, 47, 48, 49, 108, 109])
  (.leaf [42, 43, 44, 45])))) (.leaf [134, 44, 45])) (.cases [106, 49] 45 (.cases [97, 98, 99, 91]
  43 (.cases [] 97 (.cases [251, 89, 90, 91] 47 (.cycle 56 [106, 107]) (.leaf [105, 48, 49]))
  (.cases [249, 6] 98 (.cases [] 47 (.cycle 56 [106, 107]) (.cycle 55 [105, 256])) (.leaf
  [255, 48, 49]))) (.leaf [88, 89])) (.cases [94, 95, 96, 89] 47 (.cycle 56 [106, 107]) (.leaf
  [105, 48, 49])))

/-- some of the cases -/
def real6Case128 : SumTree :=
  .cases [196] 71 (.leaf [169]) (.cases [] 28 (.cases [37, 20, 154, 17] 45 (.cases [97, 98, 99, 91]
  43 (.cases [] 98 (.cases [] 48 (.cases [108, 109] 30 (.cases [46, 47, 48, 108, 109] 97 (.leaf
  [251, 89, 90, 91]) (.leaf [249, 6])) (.leaf [42, 43, 44, 45])) (.cases [] 47 (.cycle 56
  [106, 107]) (.cycle 55 [105, 256]))) (.leaf [255, 48, 49])) (.leaf [88, 89])) (.cases
  [94, 95, 96, 89] 30 (.cases [46, 47, 48, 49] 43 (.leaf [90, 91]) (.cases [] 47 (.cases [] 48
  (.leaf [108, 109]) (.cycle 56 [106, 107])) (.leaf [105, 48, 49]))) (.leaf [42, 43, 44, 45])))
  (.cases [32, 28] 22 (.cycle 45 [62, 53, 168]) (.cases [34, 17] 45 (.cases [97, 98, 99, 91] 43
  (.cases [] 98 (.cases [] 48 (.cases [108, 109] 30 (.cases [46, 47, 48, 108, 109] 97 (.leaf
  [251, 89, 90, 91]) (.leaf [249, 6])) (.leaf [42, 43, 44, 45])) (.cases [] 47 (.cycle 56
  [106, 107]) (.cycle 55 [105, 256]))) (.leaf [255, 48, 49])) (.leaf [88, 89])) (.cases
  [94, 95, 96, 89] 30 (.cases [46, 47, 48, 49] 43 (.leaf [90, 91]) (.cases [] 47 (.cases [] 48
  (.leaf [108, 109]) (.cycle 56 [106, 107])) (.leaf [105, 48, 49]))) (.leaf [42, 43, 44, 45])))))

/-- some of the cases -/
def real6Case129 : SumTree :=
  .cases [21, 22, 82, 87, 23, 17, 28, 24, 25] 93 (.leaf
  [241, 242, 243, 284, 10, 116, 117, 129, 130, 58, 38, 31, 41]) (.cases [] 21 (.cases [] 96 (.cycle
  23 [19, 238, 239]) (.cases [] 23 (.cases [] 78 (.cases [] 33 (.cases [] 53 (.cases [] 35 (.cases
  [] 22 (.cases [53, 27, 28] 32 (.leaf [64, 13, 124, 14, 117, 6, 118, 129, 119, 130, 58]) (.cases
  [] 71 (.cases [] 79 (.leaf [200, 19, 20, 21, 82, 17, 53, 27, 70, 28, 58, 38, 31, 41]) (.leaf
  [199, 61, 169])) (.cycle 20 [53, 168, 62]))) (.cases [34, 68, 17, 69, 58, 38, 31, 41] 30 (.cases
  [46, 47, 48, 49] 97 (.leaf [251, 89]) (.cases [249, 6] 95 (.leaf [250, 91]) (.leaf [233, 6])))
  (.leaf [42, 43, 44, 45]))) (.leaf [66, 27, 83, 28, 114, 84, 41, 85])) (.cycle 58 [122, 194]))
  (.leaf [63, 62, 17, 112, 31, 41])) (.leaf [193, 232, 10, 240, 20, 21, 82, 17])) (.cycle 2
  [31, 29, 30]))) (.leaf [26, 27, 83, 28, 84, 85]))

/-- some of the cases -/
def real6Case130 : SumTree :=
  .cases [55, 56] 96 (.cases [] 92 (.cases [245, 10] 49 (.cases [] 62 (.cases [] 76 (.cases [] 69
  (.cases [184, 117, 118, 119] 55 (.cases [] 90 (.cases
  [253, 243, 297, 10, 38, 121, 31, 117, 41, 118, 119] 70 (.cases [] 21 (.cases [] 23 (.cases [] 35
  (.cases [] 22 (.cases [53, 27, 28] 91 (.leaf
  [252, 283, 10, 297, 58, 38, 121, 31, 117, 41, 118, 119]) (.leaf
  [247, 290, 28, 70, 58, 38, 121, 31, 117, 41, 118, 119])) (.leaf
  [34, 17, 253, 243, 297, 10, 38, 121, 31, 117, 41, 118, 119])) (.leaf
  [66, 27, 165, 28, 114, 117, 41, 118, 119])) (.cycle 2 [31, 29, 30])) (.leaf
  [26, 27, 165, 28, 117, 118, 119])) (.leaf [164, 27, 28])) (.cases [285] 71 (.leaf [169]) (.cases
  [] 35 (.cases [] 91 (.leaf [252, 283, 10, 246, 297, 17, 58, 38, 121, 31, 117, 41, 118, 119])
  (.cases [247, 290, 28, 198, 70, 158, 58, 38, 121, 62, 31, 117, 17, 41, 118, 119] 30 (.cases
  [46, 47, 48, 49] 50 (.leaf [125, 126, 31, 41]) (.leaf [115, 116, 117, 118, 119])) (.leaf
  [42, 43, 44, 45]))) (.leaf [66, 27, 198, 28, 158, 62, 132, 17, 117, 118, 119])))) (.leaf
  [131, 62, 17, 112, 31, 41])) (.cycle 58 [166, 186])) (.leaf [185, 245])) (.cycle 6
  [143, 144, 84])) (.leaf [111, 17])) (.cases [] 105 (.cases [] 17 (.cases [] 103 (.cases [] 106
  (.leaf [279, 243, 274, 10, 244, 56, 82, 87, 17, 28]) (.cases [] 107 (.leaf
  [277, 278, 9, 56, 10, 244, 82, 17]) (.cycle 19 [238, 275, 268, 276]))) (.cycle 19
  [238, 274, 267, 189])) (.leaf [15, 12, 232, 13, 10, 244, 14, 82, 6, 17])) (.leaf
  [273, 243, 10, 244, 22, 82, 87, 23, 17, 28, 24, 25]))) (.cases [] 103 (.cases [268, 9, 10] 79
  (.cases [200, 19, 55, 20, 56] 55 (.cases [] 86 (.cases [] 104 (.cycle 26 [270, 271, 22]) (.cases
  [] 49 (.cases [] 76 (.cases [] 37 (.cases [] 50 (.cases [] 33 (.cases [] 20 (.cases [54, 20] 65
  (.cycle 25 [82, 155, 55, 269]) (.leaf [154, 196, 17, 69, 121, 117, 125, 118, 126, 119, 31, 41]))
  (.leaf [21, 22, 82, 87, 186, 17, 28, 117, 118, 119])) (.leaf
  [63, 62, 132, 76, 17, 117, 23, 118, 24, 119, 25])) (.cases [] 33 (.cases [] 20 (.cases [54, 20]
  65 (.cycle 25 [82, 155, 55, 269]) (.leaf
  [154, 196, 17, 69, 38, 31, 115, 41, 116, 117, 118, 119])) (.leaf
  [21, 22, 82, 87, 23, 17, 112, 28, 24, 31, 25, 41])) (.leaf
  [63, 62, 220, 17, 31, 115, 41, 116, 117, 118, 119]))) (.leaf
  [74, 62, 132, 220, 17, 117, 31, 41, 118, 119])) (.leaf [185, 82, 87, 17, 28])) (.cycle 2
  [31, 133, 220]))) (.leaf [219, 62, 132, 17, 117, 118, 119])) (.leaf [131, 62, 17])) (.cycle 17
  [268, 9, 237, 199])) (.cycle 13 [232, 237, 55, 267]))

/-- some of the cases -/
def real6Case131 : SumTree :=
  .cases [18, 19, 20] 20 (.cases [54, 20] 65 (.cases [155, 19, 20] 88 (.cases
  [226, 19, 213, 202, 20, 126, 116, 31, 117, 41, 118, 119] 84 (.cases [] 28 (.cases [] 33 (.cases
  [] 35 (.cases [] 22 (.leaf [53, 27, 70, 28, 226, 19, 213, 202, 20, 126, 116, 31, 117, 41, 118,
  119]) (.leaf [34, 68, 17, 69, 226, 19, 213, 202, 20, 126, 116, 31, 117, 41, 118, 119])) (.leaf
  [66, 27, 28, 37, 201, 202, 20, 116, 117, 118, 119])) (.leaf
  [63, 62, 17, 155, 19, 202, 20, 116, 117, 118, 119])) (.cycle 23 [19, 197, 215])) (.leaf
  [214, 27, 28])) (.cases [225, 58, 38, 121, 31, 117, 41, 118, 119] 23 (.cases [] 22 (.cases
  [53, 27, 28] 28 (.cases [37, 201, 20, 225, 58, 38, 121, 31, 117, 41, 118, 119] 50 (.leaf
  [125, 126, 31, 41]) (.leaf [115, 116, 117, 118, 119])) (.cases [32, 197, 28] 35 (.cases
  [70, 58, 38, 121, 31, 117, 41, 118, 119] 50 (.leaf [125, 126, 31, 41]) (.leaf
  [115, 116, 117, 118, 119])) (.leaf [66, 27, 28, 114, 41]))) (.leaf
  [34, 17, 155, 19, 225, 20, 58, 38, 121, 31, 117, 41, 118, 119])) (.leaf [113, 28]))) (.cases
  [196] 71 (.leaf [169]) (.cases [] 28 (.cases [37, 201, 20, 154, 17] 49 (.cases [] 88 (.leaf
  [226, 19, 202, 20, 154, 116, 17, 117, 118, 119]) (.cases
  [225, 58, 38, 121, 31, 117, 41, 118, 119] 30 (.cases [46, 47, 48, 49] 97 (.leaf [251, 89])
  (.cases [249, 6] 95 (.leaf [250, 91]) (.leaf [233, 6]))) (.leaf [42, 43, 44, 45]))) (.leaf
  [111, 17])) (.cases [32, 197, 28] 70 (.cases [] 49 (.cases [] 50 (.cases [] 35 (.cases
  [70, 58, 121, 117, 125, 118, 126, 119, 31, 41] 22 (.cycle 45 [62, 53, 168]) (.cases [34, 17] 110
  (.leaf [296, 89]) (.cases [295, 6] 47 (.cases [] 48 (.leaf [108, 109]) (.cycle 56 [106, 107]))
  (.leaf [105, 48, 49])))) (.leaf [66, 27, 198, 165, 28, 158, 117, 62, 118, 17, 119])) (.cases []
  35 (.cases [70, 58, 38, 31, 115, 41, 116, 117, 118, 119] 22 (.cycle 45 [62, 53, 168]) (.cases
  [34, 17] 110 (.leaf [296, 89]) (.cases [295, 6] 47 (.cases [] 48 (.leaf [108, 109]) (.cycle 56
  [106, 107])) (.leaf [105, 48, 49])))) (.leaf
  [66, 27, 198, 28, 158, 62, 17, 112, 115, 116, 117, 118, 119]))) (.leaf [111, 17])) (.leaf
  [164, 27, 198, 28, 158, 62, 17]))))) (.cases [21, 22, 82, 87, 23, 17, 28, 24, 25] 37 (.cases []
  22 (.cases [53, 27, 28] 46 (.leaf [101, 58, 121, 117, 118, 119]) (.cases [] 49 (.cases [] 50
  (.cases [125, 126, 31, 41] 23 (.cases [] 35 (.cycle 25 [82, 53, 70, 100]) (.cases
  [66, 27, 28, 114, 41] 38 (.cases [77, 23, 24, 25] 26 (.leaf [50, 31, 41]) (.leaf
  [40, 23, 24, 25])) (.leaf [75, 27, 28, 114, 41]))) (.leaf [113, 28])) (.cases
  [115, 116, 117, 118, 119] 76 (.cases [] 35 (.cycle 25 [82, 53, 70, 100]) (.cases [66, 27, 28] 38
  (.cases [77, 23, 24, 25] 69 (.leaf [184, 117, 118, 119]) (.cycle 58 [166, 186])) (.leaf
  [75, 27, 28]))) (.cycle 58 [117, 185, 82, 112, 167]))) (.leaf [111, 17, 53, 27, 28]))) (.cases
  [34, 17] 70 (.cases [] 21 (.cases [] 46 (.leaf [101, 58, 121, 117, 118, 119]) (.cases [] 23
  (.cases [] 33 (.cycle 25 [87, 68, 69, 100]) (.cases [63, 76, 23, 24, 25] 79 (.leaf
  [200, 19, 20, 21, 87, 28, 34, 114, 17, 41]) (.leaf [199, 13, 14, 6]))) (.cycle 2 [31, 29, 30])))
  (.leaf [26, 27, 165, 28, 34, 117, 17, 118, 119])) (.leaf [164, 27, 28, 34, 17]))) (.leaf
  [74, 62, 17]))

/-- some of the cases -/
def real6Case132 : SumTree :=
  .cases [53, 27, 28] 71 (.cases [] 49 (.cases [] 46 (.cases [] 26 (.cases [50, 31, 57, 41, 58] 96
  (.cases [] 92 (.cases [245] 90 (.cases [253, 243, 10] 23 (.cases [] 76 (.cases [] 38 (.cases []
  91 (.leaf [252, 283, 10, 284, 294, 116, 50, 117, 31, 57, 118, 41, 58, 119]) (.leaf
  [247, 290, 28, 77, 50, 186, 31, 57, 117, 41, 58, 118, 119])) (.leaf
  [75, 27, 83, 28, 114, 110, 84, 41, 57, 85, 58])) (.cycle 58 [117, 185, 82, 253, 281])) (.leaf
  [113, 29, 28, 83, 84, 85])) (.leaf [285, 169])) (.cases [] 90 (.cycle 15 [244, 82, 288]) (.cases
  [] 107 (.leaf [277, 9, 285, 169]) (.cases [] 17 (.cases [] 105 (.cases [] 103 (.cases [] 106
  (.leaf [279, 243, 274, 10, 244, 56, 22, 82, 50, 17, 53, 57, 27, 58, 28]) (.cycle 19
  [238, 275, 268, 276])) (.cycle 19 [238, 274, 267, 189])) (.leaf
  [273, 243, 10, 244, 22, 82, 50, 17, 53, 57, 27, 58, 28])) (.leaf [15, 232, 285, 169]))))) (.cases
  [] 103 (.cases [268, 9, 10] 20 (.cases [54] 104 (.cycle 26 [270, 271, 22]) (.cases [] 65 (.cycle
  25 [82, 155, 55, 269]) (.leaf [196, 169]))) (.cases [] 79 (.leaf
  [200, 19, 55, 21, 56, 22, 82, 50, 17, 53, 57, 27, 58, 28]) (.cycle 17 [268, 9, 237, 199])))
  (.cycle 13 [232, 237, 55, 267]))) (.cases [40, 101, 58] 104 (.leaf [270, 293]) (.cases [] 96
  (.cases [] 93 (.cases [] 109 (.cases [287, 242] 92 (.cases [245] 90 (.cases
  [253, 243, 284, 10, 116, 117, 118, 119] 91 (.cases [252, 283, 10, 284, 254, 116, 126, 117, 31,
  40, 118, 41, 23, 101, 119, 24, 58, 25] 50 (.leaf [125, 126, 40, 23, 101, 24, 58, 25]) (.cases
  [115, 116, 117, 118, 119] 97 (.leaf [251, 89]) (.leaf [249, 6]))) (.cases [247, 290, 28] 23
  (.cases [114, 110, 41, 40, 23, 101, 24, 58, 25] 30 (.cases [46, 47, 48, 49] 70 (.leaf
  [165, 117, 118, 119]) (.leaf [164, 27, 28, 114, 110, 41, 40, 23, 101, 24, 58, 25])) (.leaf
  [42, 43, 44, 45])) (.cases [113, 28] 54 (.cases [] 38 (.cases [] 108 (.cases
  [292, 113, 29, 28, 77, 23, 24, 25] 52 (.cases [] 76 (.leaf [186, 117, 118, 128, 119, 130, 58])
  (.cycle 58 [117, 185, 82, 253, 281])) (.cycle 33 [120, 123])) (.cycle 12 [280, 291, 31])) (.cases
  [75, 27, 83, 28, 84, 85] 50 (.leaf [125, 126, 31, 40, 41, 101, 75, 58, 27, 28]) (.leaf
  [115, 116, 117, 123, 118, 58, 119]))) (.leaf [121, 117, 118, 119])))) (.leaf [285, 169])) (.cases
  [] 105 (.cases [] 103 (.cases [] 68 (.cases [] 90 (.cycle 15 [244, 82, 288]) (.cases [] 107
  (.leaf [277, 9, 285, 169]) (.cases [] 106 (.leaf [279, 243, 10, 244, 285, 22, 82, 163, 101, 17,
  53, 56, 58, 27, 28]) (.cycle 75 [275, 268, 276, 238])))) (.cases [] 106 (.leaf
  [279, 274, 162, 169]) (.leaf [275, 289, 162, 169]))) (.cases [] 90 (.cycle 15 [244, 82, 288])
  (.cases [] 17 (.cycle 75 [274, 267, 189, 238]) (.leaf [15, 232, 285, 169])))) (.leaf [273, 243,
  10, 244, 22, 82, 23, 101, 17, 53, 24, 58, 27, 25, 28]))) (.cycle 23 [241, 286])) (.cycle 19
  [238, 239, 19])) (.cases [] 103 (.cases [268, 9, 10] 20 (.cases [54] 65 (.cycle 25
  [82, 155, 55, 269]) (.leaf [196, 169])) (.cases [] 79 (.leaf
  [200, 19, 55, 20, 21, 56, 22, 82, 101, 17, 53, 58, 27, 28]) (.cycle 17 [268, 9, 237, 199])))
  (.cycle 13 [232, 237, 55, 267]))))) (.cycle 2 [57, 100, 82, 112])) (.leaf [133, 169])) (.cycle 20
  [53, 168, 62])

/-- some of the cases -/
def real6Case133 : SumTree :=
  .cases [34, 17] 96 (.cases [] 92 (.cases [245, 10] 46 (.cases [264] 91 (.cases
  [252, 283, 10, 284, 116, 117, 118, 119] 62 (.cases [] 33 (.cases [] 90 (.cases [253, 243, 284,
  254, 10, 116, 126, 117, 31, 57, 118, 41, 58, 119] 30 (.cases [46, 47, 48, 49] 50 (.leaf
  [125, 126, 31, 57, 41, 58]) (.leaf [115, 116, 117, 118, 119])) (.leaf [42, 43, 44, 45])) (.cases
  [246, 285, 17, 69, 58] 54 (.cases [] 51 (.leaf [129, 130, 58]) (.cases [] 37 (.cases [76] 76
  (.cases [] 69 (.leaf [184, 117, 123, 118, 58, 119]) (.cycle 26 [186, 166])) (.cycle 26
  [264, 127, 185, 22])) (.leaf [74, 62, 69, 17, 58]))) (.leaf [121, 117, 118, 119]))) (.leaf
  [63, 62, 17])) (.cycle 6 [143, 144, 84])) (.cases [247, 28, 34, 68, 17] 23 (.cases
  [114, 110, 41, 57, 58] 62 (.cases [] 49 (.cases [112, 31, 41] 37 (.cases [76] 26 (.leaf
  [50, 31, 57, 41, 58]) (.cases [40, 23, 101, 24, 58, 25] 30 (.cases [46, 47, 48, 49] 97 (.leaf
  [251, 89]) (.leaf [249, 6])) (.leaf [42, 43, 44, 45]))) (.leaf
  [74, 62, 17, 112, 31, 57, 41, 58])) (.cases [111, 133, 17] 51 (.cases [129, 130, 58] 33 (.cases
  [] 26 (.leaf [50, 31, 111, 133, 17, 69, 58]) (.cases [40] 37 (.cases [76, 23, 101, 24, 58, 25] 30
  (.leaf [46, 47, 48, 49]) (.leaf [42, 43, 44, 45])) (.leaf [74, 62, 69, 17, 58]))) (.leaf
  [63, 62, 147, 17, 84, 85])) (.cases [127, 118, 119] 33 (.cases [] 37 (.leaf
  [76, 101, 264, 58, 127, 118, 119]) (.leaf [74, 147, 69, 84, 58, 85])) (.leaf [63, 62, 17]))))
  (.cycle 6 [143, 144, 84])) (.cases [113, 29, 28, 34, 68, 17] 33 (.leaf [69, 58]) (.cases [] 35
  (.leaf [70, 58, 63, 62, 17]) (.leaf [66, 27, 28, 34, 17]))))) (.cases
  [181, 100, 23, 87, 245, 24, 28, 34, 68, 10, 25, 17] 55 (.leaf [132, 117, 118, 119]) (.cases [] 50
  (.cases [] 108 (.cycle 2 [57, 100, 245, 282]) (.cycle 12 [280, 281, 125, 126, 31])) (.leaf
  [115, 116, 117, 131, 118, 62, 119, 17])))) (.cases [] 105 (.cases [] 106 (.leaf
  [279, 243, 274, 10, 244, 56, 22, 87, 23, 28, 34, 24, 17, 25]) (.cases [] 17 (.cases [] 103
  (.cases [] 107 (.leaf [277, 278, 9, 56, 10, 244, 87, 34, 17]) (.cycle 19 [238, 275, 268, 276]))
  (.cycle 19 [238, 274, 267, 189])) (.leaf [15, 12, 232, 13, 10, 244, 14, 87, 6, 34, 17]))) (.cases
  [273, 243, 10, 244, 22, 87, 23, 28, 34, 24, 17, 25] 97 (.leaf [251, 89]) (.leaf [249, 6]))))
  (.cases [] 103 (.cases [268, 9, 10] 80 (.cases [] 104 (.cycle 26 [270, 271, 22]) (.cases [] 92
  (.cycle 25 [245, 237, 55, 269]) (.cases [] 64 (.leaf
  [151, 9, 10, 240, 237, 244, 20, 55, 87, 56, 34, 17]) (.cycle 23 [55, 150, 272])))) (.cases [] 28
  (.leaf [37, 201, 20, 55, 202, 56, 116, 117, 118, 119]) (.cases [] 79 (.cases
  [200, 19, 55, 20, 56] 20 (.cases [54, 20, 32, 28] 104 (.cycle 26 [270, 271, 22]) (.cases [] 62
  (.cases [] 64 (.cycle 23 [202, 116, 117, 151, 9, 237]) (.cases [] 33 (.cases [] 60 (.cycle 25
  [54, 197, 141, 269]) (.cases [140, 27, 28, 34, 68, 17, 69, 58] 61 (.cycle 58 [149, 150]) (.leaf
  [142, 117, 118, 119]))) (.leaf [63, 62, 17]))) (.cycle 6 [143, 144, 84]))) (.leaf
  [21, 22, 87, 23, 28, 34, 24, 17, 25])) (.cycle 17 [268, 9, 237, 199])))) (.cycle 13
  [232, 237, 55, 267]))

/-- some of the cases -/
def real6Case134 : SumTree :=
  .cases [] 87 (.cases [222, 19, 20, 218, 223, 57, 41, 58] 56 (.leaf [136, 96, 89]) (.cases [] 57
  (.cases [] 45 (.cases [97, 98, 99, 91] 30 (.cases [46, 47, 48, 49] 97 (.leaf [251, 89]) (.leaf
  [249, 6])) (.leaf [42, 43, 44, 45])) (.leaf [94, 95, 96, 89, 174, 172])) (.leaf [134, 44, 45])))
  (.cases [221, 50, 31, 57, 41, 58] 48 (.cases [108, 109] 57 (.cases [] 101 (.leaf [263, 96, 89])
  (.cases [] 45 (.cases [97, 98, 99, 91] 95 (.cases [] 43 (.cases [] 56 (.cycle 65 [136, 262])
  (.cases [] 102 (.cases [] 30 (.cases [46, 47, 48, 49, 108, 109] 97 (.leaf [251, 89, 90, 91])
  (.leaf [249, 6, 250, 91])) (.leaf [42, 43, 44, 266, 210])) (.cycle 56 [265, 207]))) (.leaf
  [88, 89])) (.leaf [233, 6])) (.cases [94, 95, 96, 89] 30 (.leaf [46, 47, 48, 49, 108, 109])
  (.leaf [42, 43, 44, 45])))) (.leaf [134, 44, 45])) (.cases [106, 49] 45 (.cases [97, 98, 99, 91]
  43 (.cases [] 97 (.cases [251, 89, 90, 91] 47 (.cycle 56 [106, 107]) (.leaf [105, 48, 49]))
  (.cases [249, 6] 98 (.cases [] 47 (.cycle 56 [106, 107]) (.cycle 55 [105, 256])) (.leaf
  [255, 48, 49]))) (.leaf [88, 89])) (.cases [94, 95, 96, 89] 47 (.cycle 56 [106, 107]) (.leaf
  [105, 48, 49]))))

/-- some of the cases -/
def real6Case135 : SumTree :=
  .cases [40, 23, 101, 24, 58, 25] 48 (.cases [108, 109] 30 (.cases [46, 47, 48, 49, 108, 109] 45
  (.cases [97, 98, 99, 91] 43 (.cases [] 101 (.leaf [263, 96, 89, 90, 91]) (.cases [] 97 (.cases
  [251, 89, 90, 91] 56 (.cycle 65 [136, 262]) (.cases [] 100 (.cycle 9 [251, 174, 260]) (.leaf
  [258, 172]))) (.cases [249, 6] 56 (.cycle 65 [136, 262]) (.cases [] 100 (.cases [] 72 (.cycle 69
  [173, 174]) (.leaf [171, 172, 260, 6])) (.leaf [258, 172]))))) (.leaf [88, 89])) (.cases
  [94, 95, 96, 89] 97 (.cases [] 95 (.cases [250, 91] 100 (.cases [260, 6, 250] 43 (.leaf [90, 91])
  (.leaf [88, 89])) (.leaf [258, 172])) (.leaf [233, 6, 251, 89])) (.leaf [249, 6]))) (.cases
  [42, 43, 44] 44 (.cycle 35 [42, 93, 47]) (.cases [] 102 (.leaf [266, 210]) (.cases [265, 45] 101
  (.leaf [263, 96, 89]) (.cases [] 56 (.cycle 65 [136, 262]) (.cases [] 45 (.cases [97, 98, 99, 91]
  73 (.cycle 40 [177, 178, 179]) (.leaf [175, 176, 43, 44, 45])) (.leaf
  [94, 95, 96, 89, 174, 172]))))))) (.cases [] 47 (.cycle 56 [106, 107]) (.cases [105, 48, 49] 30
  (.cases [] 45 (.cases [97, 98, 99, 91] 43 (.cases [] 101 (.leaf [263, 96, 89, 90, 91]) (.cases []
  97 (.cases [251, 89, 90, 91] 56 (.cycle 65 [136, 262]) (.cases [] 100 (.cycle 9 [251, 174, 260])
  (.leaf [258, 172]))) (.cases [249, 6] 56 (.cycle 65 [136, 262]) (.cases [] 100 (.cases [] 72
  (.cycle 69 [173, 174]) (.leaf [171, 172, 260, 6])) (.leaf [258, 172]))))) (.leaf [88, 89]))
  (.cases [94, 95, 96, 89] 97 (.cases [] 95 (.cases [250, 91] 57 (.cases [] 100 (.cases [260, 6]
  102 (.leaf [266, 109, 105, 48, 49]) (.cycle 56 [265, 207])) (.leaf [258, 172])) (.leaf
  [134, 46, 47, 48, 49])) (.leaf [233, 6, 251, 89])) (.leaf [249, 6]))) (.leaf [42, 43, 44, 45])))

/-- some of the cases -/
def real6Case136 : SumTree :=
  .cases [77] 26 (.cases [50, 31, 57, 41, 58] 48 (.cases [108, 109] 57 (.cases [] 101 (.leaf
  [263, 96, 89]) (.cases [] 45 (.cases [97, 98, 99, 91] 95 (.cases [] 43 (.cases [] 56 (.cycle 65
  [136, 262]) (.cases [] 102 (.cases [] 30 (.cases [46, 47, 48, 49, 108, 109] 97 (.leaf
  [251, 89, 90, 91]) (.leaf [249, 6, 250, 91])) (.leaf [42, 43, 44, 266, 210])) (.cycle 56
  [265, 207]))) (.leaf [88, 89])) (.leaf [233, 6])) (.cases [94, 95, 96, 89] 30 (.leaf
  [46, 47, 48, 49, 108, 109]) (.leaf [42, 43, 44, 45])))) (.leaf [134, 44, 45])) (.cases [106, 49]
  45 (.cases [97, 98, 99, 91] 43 (.cases [] 97 (.cases [251, 89, 90, 91] 47 (.cycle 56 [106, 107])
  (.leaf [105, 48, 49])) (.cases [249, 6] 98 (.cases [] 47 (.cycle 56 [106, 107]) (.cycle 55
  [105, 256])) (.leaf [255, 48, 49]))) (.leaf [88, 89])) (.cases [94, 95, 96, 89] 47 (.cycle 56
  [106, 107]) (.leaf [105, 48, 49])))) (.cases [40, 23, 101, 24, 58, 25] 48 (.cases [108, 109] 30
  (.cases [46, 47, 48, 49, 108, 109] 45 (.cases [97, 98, 99, 91] 43 (.cases [] 101 (.leaf
  [263, 96, 89, 90, 91]) (.cases [] 97 (.cases [251, 89, 90, 91] 56 (.cycle 65 [136, 262]) (.cases
  [] 100 (.cycle 9 [251, 174, 260]) (.leaf [258, 172]))) (.cases [249, 6] 56 (.cycle 65 [136, 262])
  (.cases [] 100 (.cases [] 72 (.cycle 69 [173, 174]) (.leaf [171, 172, 260, 6])) (.leaf
  [258, 172]))))) (.leaf [88, 89])) (.cases [94, 95, 96, 89] 97 (.cases [] 95 (.cases [250, 91] 100
  (.cases [260, 6, 250] 43 (.leaf [90, 91]) (.leaf [88, 89])) (.leaf [258, 172])) (.leaf
  [233, 6, 251, 89])) (.leaf [249, 6]))) (.cases [42, 43, 44] 44 (.cycle 35 [42, 93, 47]) (.cases
  [] 102 (.leaf [266, 210]) (.cases [265, 45] 101 (.leaf [263, 96, 89]) (.cases [] 56 (.cycle 65
  [136, 262]) (.cases [] 45 (.cases [97, 98, 99, 91] 73 (.cycle 40 [177, 178, 179]) (.leaf
  [175, 176, 43, 44, 45])) (.leaf [94, 95, 96, 89, 174, 172]))))))) (.cases [] 47 (.cycle 56
  [106, 107]) (.cases [105, 48, 49] 30 (.cases [] 45 (.cases [97, 98, 99, 91] 43 (.cases [] 101
  (.leaf [263, 96, 89, 90, 91]) (.cases [] 97 (.cases [251, 89, 90, 91] 56 (.cycle 65 [136, 262])
  (.cases [] 100 (.cycle 9 [251, 174, 260]) (.leaf [258, 172]))) (.cases [249, 6] 56 (.cycle 65
  [136, 262]) (.cases [] 100 (.cases [] 72 (.cycle 69 [173, 174]) (.leaf [171, 172, 260, 6]))
  (.leaf [258, 172]))))) (.leaf [88, 89])) (.cases [94, 95, 96, 89] 97 (.cases [] 95 (.cases
  [250, 91] 57 (.cases [] 100 (.cases [260, 6] 102 (.leaf [266, 109, 105, 48, 49]) (.cycle 56
  [265, 207])) (.leaf [258, 172])) (.leaf [134, 46, 47, 48, 49])) (.leaf [233, 6, 251, 89])) (.leaf
  [249, 6]))) (.leaf [42, 43, 44, 45]))))

/-- some of the cases -/
def real6Case137 : SumTree :=
  .cases [75, 27, 83, 28, 114, 110, 84, 41, 57, 85, 58] 30 (.cases [46, 47, 48, 49] 97 (.leaf
  [251, 89]) (.cases [249, 6] 95 (.leaf [250, 91]) (.leaf [233, 6]))) (.leaf [42, 43, 44, 45])

/-- some of the cases -/
def real6Case138 : SumTree :=
  .cases [50, 31, 57, 41, 113, 29, 58, 28, 83, 84, 85] 30 (.cases [46, 47, 48, 49] 97 (.leaf
  [251, 89]) (.cases [249, 6] 95 (.leaf [250, 91]) (.leaf [233, 6]))) (.leaf [42, 43, 44, 45])

/-- some of the cases -/
def real6Case139 : SumTree :=
  .cases [77, 23, 101, 24, 58, 25] 48 (.cases [108, 109] 30 (.cases [46, 47, 48, 49, 108, 109] 45
  (.cases [97, 98, 99, 91] 43 (.cases [] 101 (.leaf [263, 96, 89, 90, 91]) (.cases [] 97 (.cases
  [251, 89, 90, 91] 56 (.cycle 65 [136, 262]) (.cases [] 100 (.cycle 9 [251, 174, 260]) (.leaf
  [258, 172]))) (.cases [249, 6] 56 (.cycle 65 [136, 262]) (.cases [] 100 (.cases [] 72 (.cycle 69
  [173, 174]) (.leaf [171, 172, 260, 6])) (.leaf [258, 172]))))) (.leaf [88, 89])) (.cases
  [94, 95, 96, 89] 97 (.cases [] 95 (.cases [250, 91] 100 (.cases [260, 6, 250] 43 (.leaf [90, 91])
  (.leaf [88, 89])) (.leaf [258, 172])) (.leaf [233, 6, 251, 89])) (.leaf [249, 6]))) (.cases
  [42, 43, 44] 44 (.cycle 35 [42, 93, 47]) (.cases [] 102 (.leaf [266, 210]) (.cases [265, 45] 101
  (.leaf [263, 96, 89]) (.cases [] 56 (.cycle 65 [136, 262]) (.cases [] 45 (.cases [97, 98, 99, 91]
  73 (.cycle 40 [177, 178, 179]) (.leaf [175, 176, 43, 44, 45])) (.leaf
  [94, 95, 96, 89, 174, 172]))))))) (.cases [] 47 (.cycle 56 [106, 107]) (.cases [105, 48, 49] 30
  (.cases [] 45 (.cases [97, 98, 99, 91] 43 (.cases [] 101 (.leaf [263, 96, 89, 90, 91]) (.cases []
  97 (.cases [251, 89, 90, 91] 56 (.cycle 65 [136, 262]) (.cases [] 100 (.cycle 9 [251, 174, 260])
  (.leaf [258, 172]))) (.cases [249, 6] 56 (.cycle 65 [136, 262]) (.cases [] 100 (.cases [] 72
  (.cycle 69 [173, 174]) (.leaf [171, 172, 260, 6])) (.leaf [258, 172]))))) (.leaf [88, 89]))
  (.cases [94, 95, 96, 89] 97 (.cases [] 95 (.cases [250, 91] 57 (.cases [] 100 (.cases [260, 6]
  102 (.leaf [266, 109, 105, 48, 49]) (.cycle 56 [265, 207])) (.leaf [258, 172])) (.leaf
  [134, 46, 47, 48, 49])) (.leaf [233, 6, 251, 89])) (.leaf [249, 6]))) (.leaf [42, 43, 44, 45])))

/-- some of the cases -/
def real6Case140 : SumTree :=
  .cases [75, 27, 83, 28, 84, 85] 70 (.leaf [165, 117, 118, 119]) (.cases [] 54 (.cases [] 69
  (.leaf [184, 117, 164, 123, 118, 27, 58, 119, 28]) (.cases [] 76 (.cycle 26 [186, 166]) (.cases
  [] 51 (.cases [129, 130, 58] 35 (.cases [70, 58] 98 (.cases [] 45 (.cases [97, 98, 99, 91] 47
  (.cases [] 48 (.cases [108, 109] 30 (.leaf [46, 47, 48, 49, 108, 109]) (.leaf [42, 43, 44, 45]))
  (.cycle 56 [106, 107])) (.cycle 55 [105, 256])) (.cases [94, 95, 96, 89] 30 (.cases
  [46, 47, 48, 49] 97 (.cases [] 95 (.cases [250, 91] 43 (.leaf [90, 91]) (.leaf [88, 89])) (.leaf
  [233, 6, 251, 89])) (.leaf [249, 6])) (.leaf [42, 43, 44, 45]))) (.leaf [255, 48, 49])) (.cases
  [66, 27, 83, 28, 84, 85] 98 (.cases [] 45 (.cases [97, 98, 99, 91] 47 (.cases [] 48 (.cases
  [108, 109] 30 (.leaf [46, 47, 48, 108, 109]) (.leaf [42, 43, 44, 45])) (.cycle 56 [106, 107]))
  (.cycle 55 [105, 256])) (.cases [94, 95, 96, 89] 30 (.cases [46, 47, 48, 49] 94 (.cases [] 95
  (.leaf [250, 91]) (.cycle 47 [261, 236, 99])) (.leaf [235, 14, 6])) (.leaf [42, 43, 44, 45])))
  (.leaf [255, 48, 49]))) (.cycle 26 [264, 127, 185, 22])))) (.leaf
  [121, 117, 164, 118, 27, 119, 28]))

/-- some of the cases -/
def real6Case141 : SumTree :=
  .cases [34, 17, 155, 19, 213, 20, 218, 223, 41] 87 (.cases [222, 19, 20, 218, 223, 57, 41, 58] 97
  (.leaf [251, 89]) (.leaf [249, 6])) (.cases [221] 26 (.cases [50, 31, 57, 41, 58] 98 (.cases []
  45 (.cases [97, 98, 99, 91] 47 (.cases [] 48 (.cases [108, 109] 30 (.leaf [46, 47, 48, 108, 109])
  (.leaf [42, 43, 44, 45])) (.cycle 56 [106, 107])) (.cycle 55 [105, 256])) (.cases
  [94, 95, 96, 89] 30 (.cases [46, 47, 48, 49] 94 (.cases [] 95 (.leaf [250, 91]) (.cycle 47
  [261, 236, 99])) (.leaf [235, 14, 6])) (.leaf [42, 43, 44, 45]))) (.leaf [255, 48, 49])) (.cases
  [40, 23, 101, 24, 58, 25] 48 (.cases [108, 109] 45 (.cases [97, 98, 99, 91] 43 (.cases [] 101
  (.leaf [263, 96, 89, 90, 91]) (.cases [] 97 (.cases [251, 89, 90, 91] 30 (.cases
  [46, 47, 48, 108, 109] 56 (.cycle 65 [136, 262]) (.leaf [174, 172])) (.leaf [42, 43, 44, 45]))
  (.cases [249, 6] 99 (.cases [] 56 (.cycle 65 [136, 262]) (.cases [] 100 (.cases [] 72 (.cycle 69
  [173, 174]) (.leaf [171, 172, 260, 6])) (.leaf [258, 172, 259, 126, 40, 23, 101, 24, 58, 25])))
  (.leaf [257])))) (.leaf [88, 89])) (.cases [94, 95, 96, 89] 30 (.cases [46, 47, 48, 49, 108, 109]
  94 (.cases [] 95 (.cases [250] 43 (.leaf [90, 91]) (.leaf [88, 89])) (.cycle 47 [261, 236, 99]))
  (.leaf [235, 14, 6])) (.leaf [42, 43, 44, 45]))) (.cases [] 47 (.cycle 56 [106, 107]) (.cases
  [105, 48, 49] 56 (.leaf [136, 96, 89]) (.cases [] 45 (.cases [97, 98, 99, 91] 99 (.cases [] 43
  (.cases [] 97 (.leaf [251, 89, 174, 90, 172, 91]) (.cases [249, 6] 100 (.cases [] 72 (.cycle 69
  [173, 174]) (.leaf [171, 260, 6])) (.leaf [258, 172, 259, 126, 40, 101, 58]))) (.leaf [88, 89]))
  (.leaf [257])) (.leaf [94, 95, 96, 89, 174, 172]))))))

/-- some of the cases -/
def real6Case142 : SumTree :=
  .cases [37, 20, 154, 196, 17] 46 (.cases [] 85 (.cases [218, 223, 41, 57, 58] 62 (.cases [] 49
  (.cases [112, 31, 41] 37 (.cases [76] 26 (.cases [50, 31, 57, 41, 58] 30 (.cases [46, 47, 48, 49]
  97 (.leaf [251, 89]) (.cases [249, 6] 95 (.leaf [250, 91]) (.leaf [233, 6]))) (.leaf
  [42, 43, 44, 45])) (.cases [40, 23, 101, 24, 58, 25] 98 (.cases [] 45 (.cases [97, 98, 99, 91] 47
  (.cases [] 48 (.cases [108, 109] 30 (.leaf [46, 47, 48, 49, 108, 109]) (.leaf [42, 43, 44, 45]))
  (.cycle 56 [106, 107])) (.cycle 55 [105, 256])) (.cases [94, 95, 96, 89] 30 (.cases
  [46, 47, 48, 49] 97 (.cases [] 95 (.cases [250, 91] 43 (.leaf [90, 91]) (.leaf [88, 89])) (.leaf
  [233, 6, 251, 89])) (.leaf [249, 6])) (.leaf [42, 43, 44, 45]))) (.leaf [255, 48, 49]))) (.cases
  [74, 62, 17, 112, 31, 57, 41, 58] 86 (.cases [] 97 (.leaf [251, 89]) (.leaf [249, 6])) (.cycle 45
  [62, 112, 219]))) (.cases [111, 133, 17] 33 (.cases [] 26 (.leaf
  [50, 31, 41, 111, 133, 17, 69, 58]) (.cases [40] 37 (.cases [76, 23, 101, 24, 58, 25] 56 (.leaf
  [136, 96, 89]) (.cases [] 57 (.cases [] 45 (.cases [97, 98, 99, 91] 30 (.cases [46, 47, 48, 49]
  97 (.leaf [251, 89]) (.leaf [249, 6])) (.leaf [42, 43, 44, 45])) (.leaf
  [94, 95, 96, 89, 174, 172])) (.leaf [134, 44, 45]))) (.leaf [74, 62, 147, 69, 17, 84, 58, 85])))
  (.cases [63, 62, 147, 17, 84, 85] 30 (.cases [46, 47, 48, 49] 97 (.leaf [251, 89]) (.leaf
  [249, 6])) (.leaf [42, 43, 44, 45])))) (.cycle 6 [143, 144, 84])) (.cycle 12 [216, 217, 31]))
  (.cycle 2 [57, 100, 87, 201, 213, 126])

/-- some of the cases -/
def real6Case143 : SumTree :=
  .cases [32, 28] 46 (.cases [] 22 (.cycle 45 [62, 53, 168]) (.cases [34, 68, 17] 62 (.cases [] 23
  (.cases [114, 110, 41, 57, 58] 49 (.cases [112, 31, 41] 37 (.cases [76] 26 (.cases
  [50, 31, 57, 41, 58] 30 (.cases [46, 47, 48, 49] 97 (.leaf [251, 89]) (.cases [249, 6] 95 (.leaf
  [250, 91]) (.leaf [233, 6]))) (.leaf [42, 43, 44, 45])) (.cases [40, 23, 101, 24, 58, 25] 98
  (.cases [] 45 (.cases [97, 98, 99, 91] 47 (.cases [] 48 (.cases [108, 109] 30 (.leaf
  [46, 47, 48, 49, 108, 109]) (.leaf [42, 43, 44, 45])) (.cycle 56 [106, 107])) (.cycle 55
  [105, 256])) (.cases [94, 95, 96, 89] 30 (.cases [46, 47, 48, 49] 97 (.cases [] 95 (.cases
  [250, 91] 43 (.leaf [90, 91]) (.leaf [88, 89])) (.leaf [233, 6, 251, 89])) (.leaf [249, 6]))
  (.leaf [42, 43, 44, 45]))) (.leaf [255, 48, 49]))) (.cases [74, 62, 17, 112, 31, 57, 41, 58] 86
  (.cases [] 97 (.leaf [251, 89]) (.leaf [249, 6])) (.cycle 45 [62, 112, 219]))) (.cases
  [111, 133, 17] 33 (.cases [] 26 (.leaf [50, 31, 41, 111, 133, 17, 69, 58]) (.cases [40] 37
  (.cases [76, 23, 101, 24, 58, 25] 56 (.leaf [136, 96, 89]) (.cases [] 57 (.cases [] 45 (.cases
  [97, 98, 99, 91] 30 (.cases [46, 47, 48, 49] 97 (.leaf [251, 89]) (.leaf [249, 6])) (.leaf
  [42, 43, 44, 45])) (.leaf [94, 95, 96, 89, 174, 172])) (.leaf [134, 44, 45]))) (.leaf
  [74, 62, 147, 69, 17, 84, 58, 85]))) (.cases [63, 62, 147, 17, 84, 85] 30 (.cases
  [46, 47, 48, 49] 97 (.leaf [251, 89]) (.leaf [249, 6])) (.leaf [42, 43, 44, 45])))) (.cases
  [113, 29, 28, 34, 68, 17] 35 (.cases [70, 58] 26 (.leaf [50, 31, 113, 28, 34, 17]) (.cases [40]
  33 (.cases [] 37 (.leaf [76, 23, 101, 24, 58, 25]) (.leaf [74, 62, 69, 17, 58])) (.leaf
  [63, 62, 147, 17, 84, 85]))) (.leaf [66, 27, 28, 34, 17]))) (.cycle 6 [143, 144, 84]))) (.cases
  [100, 54, 20] 23 (.cycle 31 [110, 57, 100, 87]) (.cases [113, 28] 62 (.cases [] 33 (.cycle 45
  [69, 100, 54, 197, 168]) (.leaf [63, 62, 147, 17, 84, 85])) (.cycle 6 [143, 144, 84])))

/-- some of the cases -/
def real6Case144 : SumTree :=
  .cases [21, 22, 82, 87, 23, 17, 28, 24, 25] 90 (.leaf [253, 243, 254, 10, 126, 57, 58]) (.cases
  [] 91 (.leaf [252, 10, 246, 17]) (.cases [] 80 (.leaf
  [205, 206, 19, 20, 21, 22, 82, 87, 23, 17, 28, 24, 25]) (.cases [] 41 (.cases [103] 79 (.cases
  [200, 19, 20, 21, 22, 82, 87, 103, 23, 17, 28, 41, 24, 25] 22 (.cases [53, 27, 28] 71 (.cases []
  46 (.leaf [101, 58]) (.cases [] 49 (.cycle 25 [82, 112, 57, 100]) (.leaf [133, 169]))) (.cycle 20
  [53, 168, 62])) (.cases [34, 17] 30 (.cases [46, 47, 48, 49] 97 (.leaf [251, 89]) (.cases
  [249, 6] 95 (.leaf [250, 91]) (.leaf [233, 6]))) (.leaf [42, 43, 44, 45]))) (.cases
  [199, 13, 14, 6] 65 (.cycle 19 [21, 82, 248]) (.cases [] 92 (.leaf [245, 10, 246, 247, 17, 28])
  (.cases [] 93 (.leaf [241, 242, 243, 10, 244, 22, 82, 87, 23, 17, 28, 24, 25]) (.cases [] 71
  (.cases [] 22 (.cases [53, 27, 28] 49 (.cases [112, 31, 57, 41, 58] 96 (.cycle 23 [19, 238, 239])
  (.cases [] 78 (.cases [] 32 (.cases [64, 13, 14, 6] 53 (.leaf [124, 117, 118, 119]) (.cycle 58
  [122, 194])) (.leaf [61, 169])) (.leaf [193, 232, 240, 196, 169]))) (.leaf [133, 169])) (.leaf
  [68, 169])) (.cases [] 22 (.cycle 20 [53, 168, 62]) (.cases [34, 68, 17] 54 (.cases [] 62 (.cases
  [] 23 (.cases [114, 110, 41] 55 (.leaf [132, 117, 123, 118, 58, 119]) (.cases [] 50 (.cases [] 96
  (.cycle 23 [19, 238, 239]) (.cases [] 78 (.cases [] 52 (.cases [] 51 (.cases [] 53 (.leaf
  [124, 117, 118, 129, 119, 130, 58]) (.cycle 58 [122, 194])) (.cycle 63 [127, 128])) (.cycle 2
  [57, 120, 180])) (.cycle 59 [193, 232, 237, 227, 117]))) (.leaf
  [115, 116, 123, 131, 58, 62, 17]))) (.cases [113, 28, 34, 68, 17, 147, 84, 85] 30 (.cases
  [46, 47, 48, 49] 94 (.leaf [236, 99, 91]) (.cases [] 95 (.cycle 18 [14, 234, 235]) (.cases [] 43
  (.cases [] 45 (.leaf [97, 98, 99, 91]) (.leaf [94, 95, 96, 89, 90, 233, 6])) (.leaf [88, 89]))))
  (.leaf [42, 43, 44, 45]))) (.cycle 6 [143, 144, 84])) (.leaf [121, 117, 118, 119])))))))) (.leaf
  [86, 82, 87, 17, 28]))))

/-- some of the cases -/
def real6Case145 : SumTree :=
  .cases [153, 12, 189, 13, 20, 14, 6] 34 (.cases [] 83 (.cases [] 40 (.cases [104, 22, 23, 24, 25]
  85 (.cases [218, 223, 41] 21 (.cases [] 28 (.cases [] 68 (.leaf [163, 56]) (.cases [] 51 (.cases
  [129, 130, 58] 30 (.cases [46, 47, 48, 49] 39 (.leaf [81, 23, 24, 25]) (.leaf [80, 13, 14, 6]))
  (.leaf [42, 43, 44, 45])) (.cases [127, 118, 119] 29 (.cases [] 42 (.cases [] 60 (.leaf
  [141, 56, 162, 62, 153, 12, 189, 13, 20, 14, 6]) (.cases [140, 27, 35, 102, 12, 189, 22, 13, 20,
  218, 23, 14, 41, 24, 6, 25] 30 (.cases [46, 47, 48, 49] 39 (.leaf [81, 23, 24, 25]) (.leaf
  [80, 13, 14, 6])) (.leaf [42, 43, 44, 45]))) (.leaf [87, 35])) (.leaf [33, 28, 37, 20])))) (.leaf
  [32, 197, 28, 30, 31, 41])) (.leaf [26, 27, 67, 28, 13, 14, 6])) (.cycle 12 [216, 217, 31]))
  (.leaf [82, 17, 153, 12, 189, 13, 20, 14, 6])) (.cycle 2 [211, 212])) (.leaf [65, 27, 28])

/-- some of the cases -/
def real6Case146 : SumTree :=
  .cases [35, 12, 189, 16, 13, 20, 17, 14, 6] 31 (.leaf [71, 58]) (.cases [] 42 (.cases
  [102, 22, 23, 24, 25] 51 (.leaf [129, 130, 59, 60, 13, 189, 16, 14, 20, 17, 6]) (.cases
  [127, 118, 119] 39 (.leaf [81, 23, 24, 25]) (.leaf [80, 13, 14, 6]))) (.leaf
  [87, 35, 12, 16, 13, 17, 14, 6]))

/-- some of the cases -/
def real6Case147 : SumTree :=
  .cases [104, 22, 54, 23, 20, 24, 25] 65 (.cases [] 83 (.cases [] 85 (.cases [218, 223, 41] 22
  (.cases [53, 27, 28] 42 (.cases [102, 22, 54, 23, 20, 218, 24, 41, 25] 43 (.cases [90, 91] 59
  (.leaf [138, 139]) (.cases [137, 25] 44 (.cases [93, 47, 48, 49] 45 (.cases [97, 98, 99, 91] 78
  (.leaf [194, 117, 118, 119]) (.leaf [193, 12, 16, 13, 17, 53, 14, 27, 6, 28, 102, 22, 54, 23, 20,
  24, 25])) (.leaf [94, 95, 96, 89])) (.leaf [92, 43, 44, 45]))) (.leaf [88, 89])) (.cases [87, 28]
  69 (.leaf [184, 117, 118, 119]) (.cases [] 28 (.cases [37, 20, 218, 223, 41] 89 (.cases [] 59
  (.cases [] 46 (.leaf [101, 58]) (.cases [] 88 (.cases [226] 87 (.leaf [222, 19, 20, 218, 41])
  (.cases [221, 23, 24, 25] 26 (.leaf [50, 31, 41]) (.leaf [40, 23, 24, 25, 138, 139]))) (.cycle 25
  [87, 201, 225, 100]))) (.cycle 66 [229, 230, 231])) (.leaf [228, 24, 25])) (.cases [32, 197, 28]
  46 (.leaf [101, 58]) (.cases [] 76 (.cycle 26 [186, 166]) (.cases [] 54 (.cases [] 80 (.cases []
  53 (.leaf [124, 205]) (.cases [] 51 (.cases [129, 130, 58, 181, 23, 24, 25] 30 (.cases
  [46, 47, 48, 49] 21 (.leaf [30, 31, 41]) (.leaf [26, 27, 28])) (.leaf [42, 43, 44, 45])) (.cases
  [] 31 (.cases [] 78 (.cycle 17 [194, 122]) (.cycle 63 [127, 193, 12, 195])) (.leaf
  [59, 60, 13, 16, 14, 17, 104, 6, 54, 20, 32, 28])))) (.cases [] 78 (.cases [] 35 (.cycle 25
  [54, 197, 70, 100]) (.cases [] 53 (.leaf [124, 117, 123, 118, 58, 66, 119, 27, 28]) (.cycle 58
  [122, 194]))) (.cycle 58 [117, 193, 16, 155, 227]))) (.leaf
  [121, 117, 118, 185, 119, 54, 20, 32, 28]))))))) (.cases
  [34, 17, 104, 22, 54, 23, 20, 218, 24, 41, 25] 46 (.leaf [101, 58]) (.cases [] 27 (.cases [] 51
  (.leaf [129, 130, 58, 38, 31, 41]) (.cases [127, 118, 119] 30 (.cases [46, 47, 48, 49] 77 (.leaf
  [192, 6]) (.cases [190, 191] 43 (.cases [90, 91] 59 (.leaf [138, 139]) (.leaf [137, 25])) (.leaf
  [88, 89]))) (.leaf [42, 43, 44, 45]))) (.cycle 25 [54, 223, 57, 100])))) (.cycle 12
  [216, 217, 31])) (.cycle 2 [211, 212])) (.cycle 20 [104, 54, 154])

/-- some of the cases -/
def real6Case148 : SumTree :=
  .cases [38, 31, 41] 51 (.cases [129, 130, 58, 38, 31, 41] 39 (.cases [] 85 (.cases [] 88 (.leaf
  [226, 19, 20, 218, 41]) (.cases [] 87 (.leaf [222, 19, 225, 20, 58, 38, 31, 41]) (.cases [] 35
  (.cases [] 38 (.cases [] 28 (.cases [37, 20] 36 (.cases [] 46 (.cases [] 65 (.cases [] 32 (.cases
  [] 34 (.cases [] 22 (.cycle 25 [82, 53, 67, 79]) (.cycle 25 [87, 68, 64, 79])) (.leaf
  [65, 27, 28, 37, 201, 20, 221, 23, 101, 24, 58, 25])) (.leaf
  [61, 62, 17, 155, 19, 221, 20, 101, 58, 38, 31, 41])) (.leaf [154, 17])) (.cycle 33
  [100, 87, 201, 225])) (.cycle 26 [72, 13, 81])) (.cases [32, 28] 73 (.cases [] 36 (.cases [] 46
  (.cases [] 22 (.cases [] 32 (.cases [] 34 (.cycle 25 [54, 197, 67, 79]) (.cases [65, 27, 28] 71
  (.cases [] 44 (.cases [93, 47, 48, 49] 45 (.cases [97, 98, 99, 91] 65 (.leaf [155, 19, 20])
  (.leaf [196, 169])) (.leaf [94, 95, 96, 89])) (.cycle 40 [177, 178, 179])) (.cycle 17
  [65, 168, 64]))) (.leaf [61, 62, 17, 53, 27, 77, 28, 101, 58, 38, 31, 41])) (.leaf [34, 17]))
  (.cycle 33 [100, 54, 197, 70])) (.cycle 26 [72, 13, 81])) (.leaf [175, 176, 43, 44, 45]))) (.leaf
  [75, 27, 70, 28, 58, 38, 31, 41])) (.leaf [66, 27, 28])))) (.leaf [224])) (.leaf
  [80, 13, 14, 6])) (.cases [] 52 (.cycle 63 [127, 128]) (.cases [120, 117, 118, 119] 49 (.cases []
  54 (.cycle 33 [120, 123]) (.cases [121, 117, 118, 119] 55 (.cases [] 70 (.cases [] 21 (.cases []
  23 (.cases [] 33 (.cases [] 65 (.cases [155, 19, 20] 35 (.cases [] 22 (.cases
  [53, 27, 70, 28, 58, 38, 121, 31, 117, 41, 118, 119] 30 (.leaf [46, 47, 48, 49]) (.leaf
  [42, 43, 44, 45])) (.leaf [34, 68, 17, 155, 69, 19, 38, 121, 20, 31, 117, 41, 118, 119])) (.leaf
  [66, 27, 165, 28, 114, 117, 41, 118, 119])) (.cases
  [154, 196, 17, 69, 58, 38, 121, 31, 117, 41, 118, 119] 30 (.leaf [46, 47, 48, 49]) (.leaf
  [42, 43, 44, 45]))) (.leaf [63, 62, 132, 17, 117, 118, 119])) (.cycle 2 [31, 29, 30])) (.leaf
  [26, 27, 165, 28, 117, 118, 119])) (.leaf [164, 27, 28])) (.leaf [131, 62, 17]))) (.leaf
  [111, 17])))

/-- some of the cases -/
def real6Case149 : SumTree :=
  .cases [57, 58] 46 (.cases [] 26 (.cases [50, 31, 57, 41, 58] 39 (.cases [] 86 (.cases [] 83
  (.cases [] 85 (.cases [] 37 (.cases [] 65 (.cases [] 22 (.cases [53, 27, 28] 36 (.cases [] 87
  (.leaf [222, 19, 20, 218, 223, 57, 41, 58]) (.cases [] 79 (.leaf
  [200, 19, 221, 20, 50, 31, 57, 41, 58]) (.cycle 25 [82, 155, 199, 79]))) (.cycle 26
  [72, 13, 81])) (.cases [34, 17, 155, 19, 20] 30 (.cases [46, 47, 48, 49] 77 (.leaf [192, 6])
  (.leaf [190, 191])) (.leaf [42, 43, 44, 45]))) (.cases [196] 71 (.leaf [169]) (.cases [] 36
  (.cases [] 79 (.leaf [200, 19, 20, 154, 196, 17, 76, 50, 57, 58]) (.cases [] 28 (.cycle 25
  [87, 201, 199, 79]) (.leaf [32, 197, 28, 198, 158, 62, 76, 17, 50, 31, 57, 41, 58]))) (.cycle 26
  [72, 13, 81])))) (.leaf [74, 62, 220, 17, 31, 57, 41, 58])) (.cycle 2 [31, 216, 217])) (.leaf
  [211])) (.leaf [219, 62, 17])) (.leaf [80, 13, 14, 6])) (.cases [40, 101, 58] 33 (.cases [] 65
  (.cases [155, 19, 20] 83 (.cases [] 22 (.cases [53, 27, 28] 31 (.cases [] 79 (.cases
  [200, 19, 213, 20, 126, 31, 40, 41, 23, 101, 24, 58, 25] 30 (.cases [46, 47, 48, 49] 84 (.cases
  [] 77 (.leaf [192, 6]) (.cases [190, 191] 45 (.cases [97, 98, 99, 91] 28 (.cases [] 85 (.leaf
  [218, 41]) (.cycle 2 [31, 216, 217])) (.cycle 23 [19, 197, 215])) (.leaf [94, 95, 96, 89])))
  (.leaf [214, 27, 28])) (.leaf [42, 43, 44, 45])) (.cases [] 28 (.leaf
  [37, 201, 20, 213, 199, 126, 13, 40, 14, 101, 6, 58]) (.cases [32, 28] 39 (.cases [] 36 (.cycle
  25 [82, 155, 199, 79]) (.cycle 26 [72, 13, 81])) (.leaf [80, 13, 71, 14, 58, 6])))) (.cycle 2
  [40, 101, 60, 16, 155, 213, 126])) (.cases [34, 17, 155, 19, 213, 20, 126, 31, 40, 41, 23, 101,
  24, 58, 25] 30 (.cases [46, 47, 48, 49] 77 (.leaf [192, 6]) (.leaf [190, 191])) (.leaf
  [42, 43, 44, 45]))) (.cycle 2 [211, 212])) (.cases [196] 71 (.leaf [169]) (.cases [] 31 (.cases
  [] 28 (.cases [37, 20, 154, 17] 39 (.cases [] 36 (.cases [] 37 (.cases [] 79 (.leaf
  [200, 19, 20, 154, 196, 17, 76, 101, 58]) (.cycle 25 [87, 201, 199, 79])) (.leaf
  [74, 62, 69, 17, 58])) (.cycle 26 [72, 13, 81])) (.leaf [80, 13, 14, 6])) (.cases
  [197, 198, 158, 62, 17] 39 (.cases [] 36 (.cases [] 37 (.cases [] 34 (.cycle 25
  [54, 197, 67, 79]) (.leaf [65, 27, 198, 28, 158, 62, 76, 17, 23, 101, 24, 58, 25])) (.leaf
  [74, 62, 69, 17, 58])) (.cycle 26 [72, 13, 81])) (.leaf [80, 13, 71, 14, 58, 6]))) (.cycle 33
  [60, 189, 196, 69])))) (.leaf [63, 62, 17]))) (.cases [100, 54, 82, 87, 20, 17, 28] 50 (.cases []
  52 (.cases [] 51 (.leaf [129, 130, 58, 100, 54, 82, 87, 20, 17, 28]) (.cycle 63 [127, 128]))
  (.cycle 2 [57, 120, 180])) (.leaf [115, 116, 117, 118, 119]))

/-- some of the cases -/
def real6Case150 : SumTree :=
  .cases [103, 41] 65 (.cases [155, 19, 20, 21, 22, 103, 23, 41, 24, 25] 38 (.cases [] 51 (.cases
  [129, 130, 58] 35 (.cases [] 22 (.cases [53, 27, 28] 71 (.cases [] 28 (.cases
  [37, 201, 20, 21, 22, 103, 23, 41, 24, 25] 57 (.cases [] 82 (.leaf [209, 207, 210]) (.cases [] 79
  (.leaf [200, 19, 20, 21, 22, 103, 23, 41, 24, 25]) (.cases [199, 13, 14, 6] 25 (.cases [51] 27
  (.leaf [38, 31, 41]) (.cases [57, 58] 30 (.leaf [46, 47, 48, 49]) (.leaf [42, 43, 44, 45, 207,
  208, 109, 157, 158, 169, 170, 27, 37, 201, 20, 21, 199, 22, 103, 13, 23, 41, 14, 24, 6, 25])))
  (.leaf [39, 13, 14, 6])))) (.leaf [134, 44, 45])) (.cases [32, 28] 80 (.cases
  [205, 206, 19, 20, 21, 32, 22, 103, 28, 23, 24, 25] 23 (.cases [] 79 (.leaf
  [200, 19, 20, 21, 32, 197, 103, 28, 70, 41, 58]) (.cases [199, 13, 14, 6] 42 (.leaf
  [102, 22, 103, 23, 41, 24, 25]) (.leaf [87, 28, 114, 41]))) (.leaf [113, 29, 28, 70, 58]))
  (.cases [202, 116, 117, 118, 129, 119, 130, 58] 23 (.cases [] 81 (.cases [] 42 (.leaf
  [102, 22, 103, 23, 41, 24, 25]) (.leaf [87, 28, 204, 130, 58])) (.leaf [203, 28, 114, 41]))
  (.leaf [113, 29, 28, 70, 58])))) (.cycle 20 [53, 168, 62])) (.cases
  [34, 17, 155, 19, 20, 21, 22, 103, 23, 41, 24, 25] 30 (.cases [46, 47, 48, 49] 77 (.leaf
  [192, 6]) (.leaf [190, 191])) (.leaf [42, 43, 44, 45]))) (.leaf [66, 27, 77, 28, 23, 24, 25]))
  (.cases [127, 118, 119] 22 (.cases [53, 27] 78 (.cases [] 28 (.cases
  [37, 201, 20, 21, 22, 103, 23, 41, 24, 25] 79 (.leaf [200, 19, 20, 21, 22, 103, 23, 41, 24, 25])
  (.cases [199, 13, 14, 6] 53 (.leaf [124, 117, 118, 119]) (.cycle 17 [194, 122]))) (.cases
  [32, 28] 53 (.cases [124, 117, 118, 119] 23 (.cases [] 42 (.cases [102, 22, 103, 23, 41, 24, 25]
  30 (.cases [46, 47, 48, 49] 77 (.leaf [192, 6]) (.leaf [190, 191])) (.leaf [42, 43, 44, 45]))
  (.leaf [87, 28, 114, 41])) (.leaf [113, 28])) (.cycle 17 [194, 122]))) (.leaf
  [193, 12, 16, 13, 17, 155, 14, 19, 6, 20, 21, 22, 23, 24, 25])) (.cases
  [34, 17, 155, 19, 20, 21, 22, 103, 23, 41, 24, 25] 31 (.cases [] 78 (.cases [] 79 (.leaf
  [200, 19, 20, 21, 22, 103, 23, 41, 24, 25]) (.leaf [199, 13, 194, 14, 117, 6, 118, 119])) (.cycle
  63 [127, 193, 12, 195])) (.leaf [59, 60, 13, 33, 14, 34, 6, 17, 155, 19, 20, 21, 103, 41]))))
  (.leaf [75, 27, 28])) (.cases [154, 196, 17] 24 (.cases [52, 20, 21, 154, 22, 17, 23, 24, 25] 40
  (.cases [104, 22, 103, 23, 41, 24, 25] 51 (.leaf [129, 130, 58]) (.cases [127, 118, 119] 30
  (.leaf [46, 47, 48, 49]) (.leaf [42, 43, 44, 45]))) (.leaf [82, 17])) (.cases [] 28 (.cycle 19
  [20, 36, 37]) (.cases [32, 197, 28] 78 (.cases [] 53 (.cases [124, 117, 118, 119] 42 (.cases
  [102, 22, 103, 23, 41, 24, 25] 55 (.cases [] 31 (.cases [] 32 (.cases [] 34 (.cases [] 71 (.leaf
  [169, 170, 27, 67, 102, 13, 124, 22, 103, 14, 117, 23, 41, 6, 118, 24, 119, 25]) (.leaf
  [198, 158, 62, 64, 17, 13, 124, 71, 14, 117, 58, 6, 118, 119])) (.leaf
  [65, 27, 28, 102, 22, 23, 24, 25])) (.leaf [61, 62, 132, 17, 117, 118, 119])) (.leaf [59, 60, 13,
  124, 189, 14, 117, 20, 154, 32, 17, 28, 6, 118, 119])) (.leaf [131, 62, 17])) (.cases [87, 28] 22
  (.cases [] 40 (.cases [104, 22, 103, 87, 23, 41, 28, 24, 25] 30 (.cases [46, 47, 48, 49] 77
  (.leaf [192, 6]) (.cases [190, 191] 43 (.leaf [90, 91]) (.leaf [88, 89]))) (.leaf
  [42, 43, 44, 45])) (.leaf [82, 17, 53, 27, 28])) (.leaf [34, 17]))) (.cycle 17 [194, 122]))
  (.cases [193, 12, 189, 13, 20, 21, 154, 32, 14, 22, 103, 17, 28, 6, 23, 24, 25] 49 (.cases [] 40
  (.cases [104, 22, 103, 23, 41, 24, 25] 42 (.cases [102, 22, 103, 23, 41, 24, 25] 51 (.leaf
  [129, 130, 58]) (.leaf [127, 118, 193, 119, 12, 189, 13, 20, 154, 32, 14, 17, 28, 102, 6, 103,
  41])) (.leaf [87, 28])) (.leaf [82, 17, 112, 31, 41])) (.leaf [111, 17])))))

/-- some of the cases -/
def real6Case151 : SumTree :=
  .cases [86, 22, 23, 24, 25] 49 (.cases [] 27 (.cases [38, 31, 41, 86, 22, 23, 24, 25] 31 (.cases
  [] 53 (.leaf [124, 117, 118, 119]) (.cases [] 51 (.leaf
  [129, 130, 58, 38, 31, 86, 22, 23, 24, 25]) (.cases [] 78 (.cycle 17 [194, 122]) (.cycle 63
  [127, 193, 12, 195])))) (.leaf [59, 60, 13, 189, 14, 20, 6])) (.cases [57, 58] 54 (.cases [] 50
  (.cases [] 25 (.cases [] 78 (.cases [] 53 (.leaf
  [124, 117, 125, 118, 126, 119, 31, 57, 86, 58, 22, 23, 24, 25]) (.cycle 17 [194, 122])) (.cases
  [193, 12, 189, 16, 13, 51, 20, 17, 14, 31, 57, 6, 41, 86, 58, 22, 23, 24, 25] 30 (.leaf
  [46, 47, 48, 49]) (.leaf [42, 43, 44, 45]))) (.cases [39, 13, 14, 6] 43 (.cases [90, 91] 44
  (.cases [93, 47, 48, 49] 45 (.cases [97, 98, 99, 91] 31 (.leaf [71, 58]) (.cycle 2
  [57, 60, 16, 112])) (.leaf [94, 95, 96, 89])) (.leaf [92, 43, 44, 45])) (.leaf [88, 89])))
  (.cases [115, 116, 117, 123, 118, 58, 119] 30 (.cases [46, 47, 48, 49] 77 (.leaf [192, 6])
  (.cases [190, 191] 45 (.leaf [97, 98, 99, 91]) (.leaf [94, 95, 96, 89]))) (.leaf
  [42, 43, 44, 45]))) (.leaf [121, 117, 118, 119]))) (.leaf [111, 17])

/-- some of the cases -/
def real6Case152 : SumTree :=
  .cases [129, 130, 58, 38, 31, 41] 19 (.cases [55, 56] 31 (.cases [71, 58, 38, 31, 41] 68 (.leaf
  [163, 56]) (.cases [] 29 (.cases [] 42 (.cases [] 60 (.leaf [141, 56, 162, 62, 17, 153, 104, 12,
  22, 13, 71, 23, 14, 58, 24, 6, 25]) (.leaf [140, 27, 35, 102, 12, 22, 13, 71, 23, 14, 58, 38, 24,
  6, 31, 25, 41])) (.leaf [87, 35])) (.leaf [33, 28]))) (.cases [59, 13, 14, 6] 26 (.cases [] 60
  (.cases [141, 56] 67 (.cases [] 25 (.cases [] 39 (.leaf [81, 23, 50, 24, 31, 25, 41]) (.cases []
  46 (.leaf [101, 58, 59, 13, 51, 14, 31, 6, 41]) (.leaf
  [181, 23, 24, 80, 25, 13, 51, 14, 31, 6, 41]))) (.leaf [39, 13, 14, 6])) (.leaf [159, 6]))
  (.cases [140, 27] 42 (.cases [102, 22, 23, 50, 24, 31, 25, 41] 30 (.cases [46, 47, 48, 49] 39
  (.leaf [81, 23, 50, 24, 31, 25, 41]) (.leaf [80, 13, 14, 6])) (.leaf [42, 43, 44, 45])) (.cases
  [87, 28] 30 (.cases [46, 47, 48, 49] 39 (.leaf [81, 23, 50, 24, 31, 25, 41]) (.leaf
  [80, 13, 14, 6])) (.leaf [42, 43, 44, 45])))) (.leaf [40, 23, 24, 25]))) (.cases [18, 19, 20] 67
  (.cases [] 24 (.leaf [52, 20, 15, 12, 13, 14, 6]) (.cases [36] 25 (.cases [] 22 (.cases [53, 27]
  29 (.leaf [35, 12, 13, 51, 14, 31, 6, 41]) (.cases [33, 28] 30 (.leaf [46, 47, 48, 49]) (.leaf
  [42, 43, 44, 45]))) (.leaf [34, 153, 104, 12, 22, 13, 51, 23, 14, 31, 24, 6, 41, 25])) (.leaf
  [39, 13, 14, 6]))) (.leaf [159, 6]))

/-- some of the cases -/
def real6Case153 : SumTree :=
  .cases [] 52 (.cycle 63 [127, 128]) (.cases [] 54 (.cycle 33 [120, 123]) (.cases
  [121, 117, 118, 119] 34 (.cases [] 38 (.cases [] 53 (.cases [124, 117, 118, 119] 75 (.leaf
  [188, 19, 20, 15, 12, 13, 124, 14, 117, 6, 118, 119]) (.cases [] 65 (.cycle 20 [155, 187, 62])
  (.cases [] 68 (.leaf [163, 56]) (.cases [] 19 (.cases [55, 56] 29 (.cases [] 42 (.cases [] 60
  (.leaf [141, 56, 162, 62, 153, 12, 13, 124, 14, 117, 6, 118, 119]) (.leaf [140, 27, 35, 102, 12,
  22, 13, 124, 23, 14, 117, 24, 6, 118, 25, 119])) (.leaf [87, 35])) (.leaf [33, 28])) (.leaf [18,
  19, 20, 154, 153, 104, 12, 22, 13, 124, 23, 14, 117, 24, 6, 118, 25, 119]))))) (.cases
  [122, 13, 14, 6] 70 (.cases [] 21 (.cases [] 23 (.cases [] 50 (.cases [125, 126, 31, 41] 26
  (.cases [50, 31, 41] 25 (.cases [] 69 (.leaf [184, 117, 122, 118, 13, 51, 119, 14, 31, 6, 41])
  (.cases [166, 23, 24, 25] 39 (.leaf [81, 23, 50, 24, 31, 25, 41]) (.leaf
  [80, 13, 51, 14, 31, 6, 41]))) (.leaf [39, 13, 14, 6])) (.cases [40, 23, 24, 25] 39 (.cases [] 25
  (.leaf [51, 31, 40, 41, 23, 24, 25]) (.leaf [39, 13, 14, 81, 6, 23, 24, 25])) (.leaf
  [80, 13, 14, 6]))) (.cases [115, 116, 117, 122, 118, 13, 119, 14, 6] 39 (.leaf [81, 23, 24, 25])
  (.cases [] 75 (.leaf [188, 19, 20, 21, 22, 23, 80, 13, 14, 6]) (.cases [] 36 (.cycle 17
  [78, 23, 80]) (.cases [] 65 (.cycle 20 [155, 187, 62]) (.cases [] 76 (.cases [] 24 (.leaf [52,
  20, 154, 17, 104, 22, 23, 73, 186, 24, 145, 117, 25, 41, 118, 119]) (.cases [] 68 (.leaf
  [163, 56]) (.cases [] 26 (.leaf [50, 115, 116, 117, 122, 118, 13, 119, 14, 6]) (.cases [] 29
  (.cases [] 42 (.cases [] 71 (.leaf [169, 170, 27, 102, 22, 23, 186, 24, 80, 117, 25, 13, 118, 14,
  119, 6]) (.cases [] 22 (.cycle 20 [53, 168, 62]) (.cases [] 28 (.cycle 31 [37, 20, 36]) (.cases
  [] 19 (.cases [55, 56] 60 (.leaf [141, 56, 162, 62, 17, 104, 22, 23, 73, 24, 80, 13, 145, 25, 14,
  41, 6]) (.leaf [140, 27, 34, 104, 22, 23, 186, 24, 80, 117, 25, 13, 118, 14, 119, 6])) (.leaf
  [18, 19, 20, 32, 34, 17, 104, 22, 23, 73, 24, 80, 145, 25, 13, 41, 14, 6]))))) (.leaf [87, 35]))
  (.cycle 2 [40, 73, 33, 110]))))) (.leaf [185, 22, 23, 24, 80, 13, 25, 14, 6]))))))) (.cycle 2
  [31, 29, 30])) (.leaf [26, 27, 165, 28, 117, 122, 118, 13, 119, 14, 6])) (.leaf
  [164, 27, 83, 67, 28, 84, 13, 85, 14, 6]))) (.leaf [75, 27, 67, 28, 13, 14, 6])) (.leaf
  [65, 27, 28])))

/-- some of the cases -/
def real6Case154 : SumTree :=
  .cases [108, 109] 34 (.cases [] 53 (.leaf [124, 117, 118, 119]) (.cases [] 50 (.cases [] 55
  (.cases [] 30 (.cases [46, 47, 48, 49, 108, 109] 45 (.cases [97, 98, 99, 91] 23 (.cases [] 51
  (.cases [129, 130, 58] 31 (.cases [71, 58] 68 (.leaf [163, 56]) (.cases [] 29 (.cases [] 60
  (.leaf [141, 56, 162, 62, 17, 153, 12, 13, 71, 14, 58, 6]) (.leaf
  [140, 27, 35, 12, 13, 71, 14, 81, 23, 58, 6, 24, 25])) (.leaf [33, 28, 114, 41]))) (.cases
  [59, 13, 79, 14, 81, 23, 103, 6, 24, 41, 25] 74 (.leaf [183, 56]) (.cases [] 68 (.leaf
  [163, 56, 182, 99, 91]) (.cases [] 60 (.leaf
  [141, 56, 162, 62, 132, 17, 117, 129, 130, 58, 59, 13, 14, 6]) (.cases [140, 27] 29 (.leaf
  [35, 12, 13, 79, 14, 81, 23, 103, 6, 24, 41, 25]) (.cycle 33 [60, 33, 110, 57])))))) (.cases []
  52 (.cycle 63 [127, 128]) (.cycle 2 [57, 120, 180]))) (.cycle 17 [79, 103, 29, 67])) (.cases
  [94, 95, 96, 89] 23 (.cases [] 51 (.cases [129, 130, 58] 68 (.leaf [163, 56]) (.cases [] 29
  (.cases [] 60 (.leaf [141, 56, 162, 62, 132, 17, 153, 117, 12, 129, 13, 130, 14, 58, 6]) (.leaf
  [140, 27, 35, 12, 13, 79, 14, 81, 23, 103, 6, 24, 41, 25])) (.leaf
  [33, 28, 114, 110, 41, 57, 58]))) (.cases [127, 118, 119] 68 (.leaf [163, 56]) (.cases [] 29
  (.cases [] 60 (.leaf [141, 56, 162, 62, 17, 153, 12, 13, 79, 14, 103, 6, 41]) (.leaf
  [140, 27, 35, 12, 13, 79, 14, 81, 23, 103, 6, 24, 41, 25])) (.leaf
  [33, 28, 114, 110, 41, 57, 58])))) (.cycle 17 [79, 103, 29, 67]))) (.cases [] 44 (.cycle 35
  [42, 93, 47]) (.cases [] 23 (.cases [] 73 (.cycle 40 [177, 178, 179]) (.cases
  [175, 176, 43, 44, 45] 68 (.leaf [163, 56]) (.cases [] 29 (.cases [] 60 (.leaf
  [141, 56, 162, 62, 132, 17, 153, 117, 12, 118, 13, 119, 14, 6]) (.leaf
  [140, 27, 35, 12, 13, 14, 81, 23, 6, 24, 25])) (.leaf [33, 28, 110, 57, 58])))) (.cycle 17
  [79, 103, 29, 67])))) (.cases [131, 62, 17, 153, 12, 13, 79, 14, 81, 23, 103, 6, 24, 41, 25] 43
  (.cases [90, 91] 44 (.cases [93, 47, 48, 108, 109] 63 (.cases [] 56 (.leaf [136, 96, 89]) (.cases
  [] 72 (.cycle 69 [173, 174]) (.leaf [171, 172]))) (.cycle 13 [12, 79, 148])) (.leaf
  [92, 43, 44, 45])) (.leaf [88, 89]))) (.cases [115, 116, 117, 118, 119] 70 (.cases [] 21 (.cases
  [] 23 (.cases [] 68 (.leaf [163, 56]) (.cases [] 54 (.cases [123, 58] 29 (.cases [] 71 (.leaf
  [169, 170, 27, 35, 12, 13, 79, 14, 103, 6, 41]) (.cases [] 22 (.cycle 20 [53, 168, 62]) (.cases
  [] 60 (.leaf [141, 56, 162, 62, 17, 153, 12, 13, 14, 6]) (.leaf
  [140, 27, 34, 17, 153, 12, 13, 79, 14, 103, 6, 41])))) (.leaf [33, 28, 110, 115, 116, 117, 122,
  123, 118, 13, 58, 119, 14, 6])) (.leaf [121, 117, 122, 118, 13, 79, 119, 14, 103, 6, 41])))
  (.cycle 12 [29, 30, 31])) (.leaf [26, 27, 165, 28, 117, 118, 119])) (.leaf
  [164, 27, 67, 28, 13, 14, 81, 6, 23, 24, 25])))) (.leaf [65, 27, 83, 28, 84, 85])

/-- some of the cases -/
def real6Case155 : SumTree :=
  .cases [] 34 (.cases [] 47 (.cycle 56 [106, 107]) (.cases [105, 48, 49] 66 (.cases [161, 49] 23
  (.cases [] 55 (.cases [] 45 (.cases [97, 98, 99, 91] 51 (.cases [129, 130, 58] 68 (.leaf
  [163, 56]) (.cases [] 29 (.cases [] 60 (.leaf [141, 56, 162, 62, 132, 17, 153, 117, 12, 129, 13,
  130, 14, 58, 6]) (.leaf [140, 27, 35, 12, 13, 79, 14, 81, 23, 103, 6, 24, 41, 25])) (.leaf
  [33, 28, 114, 110, 41, 57, 58]))) (.cases [127, 118, 119] 68 (.leaf [163, 56]) (.cases [] 29
  (.cases [] 60 (.leaf [141, 56, 162, 62, 17, 153, 12, 13, 79, 14, 103, 6, 41]) (.leaf
  [140, 27, 35, 12, 13, 79, 14, 81, 23, 103, 6, 24, 41, 25])) (.leaf [33, 28, 110, 57, 58]))))
  (.cases [94, 95, 96, 89] 68 (.leaf [163, 56]) (.cases [] 29 (.cases [] 60 (.leaf
  [141, 56, 162, 62, 132, 17, 153, 117, 12, 118, 13, 119, 14, 6]) (.leaf
  [140, 27, 35, 12, 13, 79, 14, 81, 23, 103, 6, 24, 41, 25])) (.leaf [33, 28, 110, 57, 58]))))
  (.leaf [131, 62, 17, 153, 12, 13, 79, 14, 81, 23, 103, 6, 24, 41, 25])) (.cycle 17
  [79, 103, 29, 67])) (.cases [156, 157, 158, 62, 17, 153, 12, 13, 79, 14, 81, 23, 103, 6, 24, 41,
  25] 59 (.leaf [138, 139]) (.leaf [137, 25])))) (.leaf [65, 27, 77, 28, 23, 24, 25])

/-- some of the cases -/
def real6Case156 : SumTree :=
  .cases [86, 22, 23, 24, 25] 21 (.cases [] 23 (.cases [] 68 (.leaf [163, 56]) (.cases [] 60 (.leaf
  [141, 162, 62, 153, 12, 145, 13, 86, 14, 22, 6, 23, 24, 25]) (.cases [140, 27] 29 (.leaf
  [35, 12, 145, 13, 86, 14, 22, 6, 23, 24, 25]) (.leaf [33, 28, 114, 86, 22, 23, 24, 25]))))
  (.cycle 12 [29, 30, 31])) (.leaf [26, 27, 28])

/-- some of the cases -/
def real6Case157 : SumTree :=
  .cases [108, 109] 53 (.leaf [124, 117, 118, 119]) (.cases [] 38 (.cases [] 69 (.leaf
  [184, 117, 122, 118, 13, 119, 14, 6]) (.cases [] 50 (.cases [] 55 (.cases [] 30 (.cases
  [46, 47, 48, 49, 108, 109] 45 (.cases [97, 98, 99, 91] 23 (.cases [] 25 (.leaf
  [51, 31, 57, 41, 58]) (.cases [] 51 (.cases [129, 130, 58] 46 (.cases [101, 58] 68 (.leaf
  [163, 56]) (.cases [] 26 (.leaf [50, 57, 39, 58, 13, 14, 6]) (.cases [] 29 (.cases [] 42 (.cases
  [] 60 (.leaf [141, 56, 162, 62, 17, 104, 22, 23, 101, 80, 13, 58, 14, 6]) (.leaf
  [140, 27, 102, 22, 23, 101, 24, 80, 13, 58, 25, 14, 6])) (.leaf [87, 35])) (.cycle 26
  [73, 33, 110, 40])))) (.cases [181, 100, 23, 73, 24, 80, 13, 145, 25, 14, 41, 6] 74 (.leaf
  [183, 56]) (.cases [] 63 (.cycle 26 [73, 146, 22]) (.cases [] 68 (.leaf [163, 56, 182, 99, 91])
  (.cases [] 60 (.leaf [141, 56, 162, 62, 132, 17, 117, 129, 130, 58, 181, 23, 80, 13, 14, 6])
  (.cases [140, 27] 29 (.cases [] 42 (.leaf [102, 22, 148, 23, 145, 24, 80, 13, 41, 25, 14, 6])
  (.leaf [87, 35])) (.cycle 33 [181, 73, 33, 110, 57]))))))) (.cases [] 52 (.cycle 63 [127, 128])
  (.cycle 2 [57, 120, 180])))) (.cycle 26 [73, 145, 29, 77])) (.cases [94, 95, 96, 89] 23 (.cases
  [] 25 (.leaf [51, 57, 58]) (.cases [] 26 (.leaf [50, 57, 39, 58, 13, 14, 6]) (.cases [] 51
  (.cases [129, 130, 58] 68 (.leaf [163, 56]) (.cases [] 29 (.cases [] 42 (.cases [] 60 (.leaf
  [141, 56, 162, 62, 132, 104, 117, 22, 129, 23, 130, 80, 13, 58, 14, 6]) (.leaf
  [140, 27, 102, 22, 23, 73, 24, 80, 13, 145, 25, 14, 41, 6])) (.leaf [87, 35])) (.cycle 26
  [73, 33, 110, 40]))) (.cases [127, 118, 119] 68 (.leaf [163, 56]) (.cases [] 29 (.cases [] 42
  (.cases [] 60 (.leaf [141, 56, 162, 62, 17, 104, 22, 23, 80, 13, 14, 6]) (.leaf
  [140, 27, 102, 22, 23, 73, 24, 80, 13, 145, 25, 14, 41, 6])) (.leaf [87, 35])) (.cycle 26
  [73, 33, 110, 40])))))) (.cycle 26 [73, 145, 29, 77]))) (.cases [] 44 (.cycle 35 [42, 93, 47])
  (.cases [] 23 (.cases [] 25 (.leaf [51, 31, 57, 41, 58]) (.cases [] 73 (.cycle 40
  [177, 178, 179]) (.cases [175, 176, 43, 44, 45] 68 (.leaf [163, 56]) (.cases [] 26 (.leaf
  [50, 57, 39, 58, 13, 14, 6]) (.cases [] 29 (.cases [] 42 (.cases [] 60 (.leaf
  [141, 56, 162, 62, 17, 104, 22, 23, 80, 13, 14, 6]) (.leaf
  [140, 27, 102, 22, 23, 24, 80, 13, 25, 14, 6])) (.leaf [87, 35])) (.cycle 26
  [73, 33, 110, 40])))))) (.cycle 26 [73, 145, 29, 77])))) (.cases
  [131, 62, 17, 104, 22, 23, 73, 24, 80, 13, 145, 25, 14, 41, 6] 43 (.cases [90, 91] 44 (.cases
  [93, 47, 48, 108, 109] 63 (.cycle 25 [22, 73, 146]) (.cases [] 56 (.leaf [136, 96, 89]) (.cases
  [] 72 (.cycle 69 [173, 174]) (.leaf [171, 172])))) (.leaf [92, 43, 44, 45])) (.leaf [88, 89])))
  (.cases [115, 116, 117, 118, 119] 70 (.cases [] 21 (.cases [] 23 (.cases [] 68 (.leaf [163, 56])
  (.cases [] 54 (.cases [123, 58] 29 (.cases [] 42 (.cases [] 71 (.leaf
  [169, 170, 27, 102, 22, 23, 24, 80, 25, 13, 14, 6]) (.cases [] 22 (.cycle 20 [53, 168, 62])
  (.cases [] 60 (.leaf [141, 56, 162, 62, 17, 104, 22, 23, 80, 13, 14, 6]) (.leaf
  [140, 27, 34, 17, 104, 22, 23, 80, 13, 14, 6])))) (.leaf [87, 35])) (.cycle 26
  [73, 33, 110, 167, 166])) (.leaf [121, 117, 166, 118, 23, 119, 80, 13, 14, 6]))) (.cycle 12
  [29, 30, 31])) (.leaf [26, 27, 165, 28, 117, 118, 119])) (.leaf
  [164, 27, 77, 28, 23, 80, 13, 14, 6])))) (.leaf [75, 27, 67, 28, 13, 14, 6]))

/-- some of the cases -/
def real6Case158 : SumTree :=
  .cases [] 38 (.cases [] 47 (.cycle 56 [106, 107]) (.cases [105, 48, 49] 66 (.cases [161, 49] 23
  (.cases [] 25 (.leaf [51, 31, 57, 41, 58]) (.cases [] 55 (.cases [] 45 (.cases [97, 98, 99, 91]
  26 (.leaf [50, 57, 39, 58, 13, 14, 6]) (.cases [] 51 (.cases [129, 130, 58] 68 (.leaf [163, 56])
  (.cases [] 29 (.cases [] 42 (.cases [] 60 (.leaf [141, 56, 162, 62, 132, 104, 117, 22, 129, 23,
  130, 80, 13, 58, 14, 6]) (.leaf [140, 27, 102, 22, 23, 73, 24, 80, 13, 145, 25, 14, 41, 6]))
  (.leaf [87, 35])) (.cycle 26 [73, 33, 110, 40]))) (.cases [127, 118, 119] 68 (.leaf [163, 56])
  (.cases [] 29 (.cases [] 42 (.cases [] 60 (.leaf [141, 56, 162, 62, 132, 17, 104, 117, 22, 118,
  23, 119, 80, 13, 14, 6]) (.leaf [140, 27, 102, 22, 23, 73, 24, 80, 13, 145, 25, 14, 41, 6]))
  (.leaf [87, 35])) (.cycle 26 [73, 33, 110, 40]))))) (.cases [94, 95, 96, 89] 68 (.leaf [163, 56])
  (.cases [] 26 (.leaf [50, 57, 39, 58, 13, 14, 6]) (.cases [] 29 (.cases [] 42 (.cases [] 60
  (.leaf [141, 56, 162, 62, 17, 104, 22, 23, 80, 13, 14, 6]) (.leaf
  [140, 27, 102, 22, 23, 73, 24, 80, 13, 145, 25, 14, 41, 6])) (.leaf [87, 35])) (.cycle 26
  [73, 33, 110, 40]))))) (.leaf [131, 62, 17, 104, 22, 23, 73, 24, 80, 13, 145, 25, 14, 41, 6])))
  (.cycle 26 [73, 145, 29, 77])) (.cases [156, 157, 158, 62, 17, 104, 22, 23, 73, 24, 80, 13, 145,
  25, 14, 41, 6] 67 (.leaf [160, 139]) (.leaf [159, 6])))) (.leaf [75, 27, 67, 28, 13, 14, 6])

/-- some of the cases -/
def real6Case159 : SumTree :=
  .cases [18, 19, 20] 24 (.leaf [52, 20, 15, 21, 12, 22, 13, 23, 14, 24, 6, 25]) (.cases [] 28
  (.cycle 19 [20, 36, 37]) (.cases [32] 29 (.cases [35, 12, 145, 13, 14, 6] 42 (.cases [] 41
  (.cases [] 22 (.cases [53, 27, 35, 102, 12, 145, 22, 13, 41, 23, 14, 24, 6, 25] 47 (.cases [] 48
  (.leaf [108, 109]) (.cycle 56 [106, 107])) (.leaf [105, 48, 49])) (.leaf
  [34, 17, 153, 104, 12, 145, 22, 13, 41, 23, 14, 24, 6, 25])) (.leaf [86, 22, 23, 24, 25])) (.leaf
  [87, 35])) (.cases [33, 28] 42 (.leaf [102, 22, 23, 24, 25]) (.cases [] 41 (.cases [] 65 (.leaf
  [155, 19, 20, 15, 12, 145, 33, 13, 41, 28, 14, 6]) (.cases [154, 17, 153, 104, 12, 145, 33, 22,
  13, 41, 28, 23, 14, 24, 6, 25] 39 (.leaf [81, 23, 24, 25]) (.leaf [80, 13, 14, 6]))) (.leaf
  [86, 22, 87, 23, 28, 24, 25])))))

/-- some of the cases -/
def real6Case160 : SumTree :=
  .cases [82, 17, 153, 12, 145, 13, 41, 14, 6] 23 (.cases [] 29 (.cases [] 42 (.leaf
  [102, 82, 17, 153, 12, 145, 13, 41, 14, 6]) (.cases [87, 28] 22 (.leaf
  [53, 27, 28, 35, 12, 145, 13, 41, 14, 6]) (.leaf [34, 17, 153, 12, 145, 13, 41, 14, 6]))) (.leaf
  [33, 28, 114, 41])) (.leaf [113, 28])

/-- some of the cases -/
def real6Case161 : SumTree :=
  .cases [35, 12, 16, 13, 17, 14, 6] 41 (.cases [] 42 (.cases [102, 22, 23, 24, 25] 60 (.cases
  [141, 56] 40 (.leaf [104, 22, 23, 24, 25]) (.cases [] 61 (.cases [] 64 (.leaf
  [151, 152, 9, 35, 10, 12, 16, 13, 17, 14, 6]) (.cycle 58 [149, 150])) (.cases
  [142, 117, 118, 119] 36 (.cases [78, 79, 23, 82, 24, 17, 25] 62 (.cases [] 32 (.cases [] 26
  (.leaf [50, 31, 41]) (.cases [] 27 (.cases [38, 31, 40, 41, 23, 24, 25] 30 (.cases [46, 47, 48]
  63 (.cases [] 47 (.cases [] 48 (.leaf [108, 109]) (.cycle 56 [106, 107])) (.leaf [105, 48, 49]))
  (.cycle 13 [12, 79, 148])) (.leaf [42, 43, 44, 45])) (.cases [] 25 (.leaf [51, 31, 57, 41, 58])
  (.cases [] 49 (.cycle 17 [79, 82, 112, 39]) (.cycle 17 [79, 103, 133, 64]))))) (.leaf
  [61, 62, 147, 17, 84, 85])) (.cycle 6 [143, 144, 84])) (.cases [72, 73, 13, 16, 14, 17, 6] 62
  (.cases [] 32 (.cases [] 37 (.cases [] 25 (.leaf [51, 31, 41]) (.cases [] 27 (.cases
  [38, 31, 39, 41, 13, 14, 6] 30 (.cases [46, 47, 48] 63 (.cycle 25 [22, 73, 146]) (.cases [] 47
  (.cases [] 48 (.leaf [108, 109]) (.cycle 56 [106, 107])) (.leaf [105, 48, 49]))) (.leaf
  [42, 43, 44, 45])) (.cases [] 26 (.leaf [50, 39, 57, 13, 58, 14, 6]) (.cases [] 49 (.cycle 26
  [73, 16, 112, 40]) (.cycle 26 [73, 145, 133, 76]))))) (.leaf [74, 62, 64, 17, 13, 14, 6])) (.leaf
  [61, 62, 17])) (.cycle 6 [143, 144, 84]))))) (.leaf
  [140, 27, 35, 102, 12, 16, 22, 13, 17, 23, 14, 24, 6, 25])) (.leaf
  [87, 35, 12, 16, 13, 17, 14, 6])) (.leaf [86, 22, 23, 24, 25])

/-- some of the cases -/
def real6Case162 : SumTree :=
  .cases [104, 22, 103, 23, 41, 24, 25] 22 (.cases [53, 27, 28] 42 (.cases
  [102, 22, 103, 23, 41, 24, 25] 43 (.cases [] 45 (.cases [97, 98, 99, 91] 31 (.leaf [71, 58])
  (.leaf [59, 60, 13, 16, 14, 17, 53, 6, 27, 28, 102, 22, 103, 23, 41, 24, 25])) (.leaf
  [94, 95, 96, 89])) (.leaf [88, 89])) (.cases [87, 28] 23 (.cases [114, 41] 30 (.cases
  [46, 47, 48, 49] 43 (.cases [90, 91] 59 (.leaf [138, 139]) (.leaf [137, 25])) (.leaf [88, 89]))
  (.leaf [42, 43, 44, 45])) (.cases [113, 29, 28, 83, 84, 85] 30 (.leaf [46, 47, 48, 49]) (.leaf
  [42, 43, 44, 45])))) (.cases [34, 68, 17, 104, 22, 103, 23, 41, 24, 25] 56 (.leaf [136, 96, 89])
  (.cases [] 57 (.cases [] 32 (.cases [] 33 (.cases [69, 58] 27 (.cases [] 58 (.leaf [135, 31, 41])
  (.cases [] 26 (.leaf [50, 31, 41]) (.cases [] 51 (.leaf [129, 130, 58, 38, 31, 41]) (.cases
  [127, 118, 119] 30 (.cases [46, 47, 48, 49] 43 (.cases [] 45 (.leaf [97, 98, 99, 91]) (.leaf
  [94, 95, 96, 89])) (.leaf [88, 89])) (.leaf [42, 43, 44, 45]))))) (.leaf [57, 58])) (.leaf
  [63, 62, 64, 17, 104, 13, 103, 14, 41, 6])) (.leaf [61, 62, 17, 104, 22, 23, 24, 25])) (.leaf
  [134, 44, 45])))

/-- some of the cases -/
def real6Case163 : SumTree :=
  .cases [79, 82, 87, 17, 28] 39 (.cases [81] 31 (.cases [71, 58] 51 (.cases [129, 130, 58] 33
  (.cases [] 27 (.cases [38, 31, 41] 21 (.cases [] 23 (.cases [] 37 (.cases [] 35 (.cases [] 22
  (.cases [] 34 (.cycle 17 [79, 82, 53, 67]) (.leaf [65, 27, 70, 28, 58, 38, 31, 41])) (.cases []
  46 (.cases [] 32 (.cycle 17 [79, 87, 68, 64]) (.leaf [61, 62, 76, 17, 101, 58, 38, 31, 41]))
  (.cycle 33 [100, 87, 68, 69]))) (.leaf [66, 27, 28, 114, 41])) (.leaf
  [74, 62, 69, 17, 38, 31, 41])) (.cycle 2 [31, 29, 30])) (.leaf [26, 27, 28])) (.cases [57, 58] 49
  (.cases [] 35 (.cases [] 26 (.cases [50, 31, 41] 21 (.cases [] 23 (.cases [] 37 (.cases [] 22
  (.cases [] 38 (.cases [] 34 (.cycle 17 [79, 82, 53, 67]) (.leaf
  [65, 27, 77, 28, 50, 31, 57, 41, 58])) (.leaf [75, 27, 28, 114, 110, 57, 41, 58])) (.cases [] 32
  (.cycle 17 [79, 87, 68, 64]) (.leaf [61, 62, 76, 17, 50, 31, 57, 41, 58]))) (.leaf
  [74, 62, 17, 112, 31, 57, 41, 58])) (.cycle 2 [31, 29, 30])) (.leaf [26, 27, 70, 28, 58]))
  (.cases [40, 23, 24, 25] 46 (.cases [] 23 (.cases [] 32 (.cases [] 22 (.cases [] 34 (.cycle 17
  [79, 82, 53, 67]) (.leaf [65, 27, 28, 110, 40, 23, 101, 24, 58, 25])) (.cycle 17
  [79, 87, 68, 64])) (.leaf [61, 62, 17, 112, 40, 23, 101, 24, 58, 25])) (.leaf
  [113, 29, 28, 70, 58])) (.cycle 2 [57, 100, 82, 112]))) (.leaf [66, 27, 28])) (.leaf
  [111, 133, 17, 69, 58]))) (.leaf [63, 62, 17])) (.cases [] 52 (.cycle 63 [127, 128]) (.cases
  [120, 117, 118, 119] 49 (.cases [] 27 (.cases [38, 31, 41] 33 (.cases [] 50 (.cases [] 55 (.cases
  [] 32 (.cases [] 22 (.cases [53, 27, 28] 54 (.cycle 33 [120, 123]) (.cases
  [121, 117, 125, 118, 126, 119, 31, 41] 30 (.cases [46, 47, 48, 49] 43 (.leaf [90, 91]) (.leaf
  [88, 89])) (.leaf [42, 43, 44, 45]))) (.cycle 17 [79, 87, 68, 64])) (.leaf
  [61, 62, 69, 132, 17, 58, 117, 118, 119])) (.cycle 33 [120, 131, 69])) (.cases
  [115, 116, 117, 118, 119] 43 (.cases [] 45 (.cases [97, 98, 99, 91] 46 (.leaf
  [101, 58, 38, 31, 115, 41, 116, 117, 118, 119]) (.leaf [100, 82, 87, 17, 28])) (.leaf
  [94, 95, 96, 89])) (.leaf [88, 89]))) (.leaf [63, 62, 17, 112, 31, 41])) (.cases
  [57, 58, 120, 117, 118, 119] 43 (.cases [90, 91] 44 (.cases [93, 47, 48, 49] 45 (.cases
  [97, 98, 99, 91] 22 (.leaf [53, 27, 28]) (.leaf [34, 17])) (.leaf [94, 95, 96, 89])) (.leaf
  [92, 43, 44, 45])) (.leaf [88, 89]))) (.leaf [111, 17])))) (.cases
  [59, 13, 51, 79, 14, 81, 31, 82, 87, 6, 41, 17, 28] 50 (.cases [] 51 (.leaf
  [129, 130, 59, 13, 51, 79, 14, 31, 82, 17, 6, 41]) (.cases [] 52 (.cycle 63 [127, 128]) (.cases
  [120, 117, 118, 119] 22 (.cases [] 34 (.cycle 17 [79, 82, 53, 67]) (.cases [65, 27, 28] 38 (.leaf
  [77, 23, 24, 25]) (.leaf [75, 27, 83, 28, 84, 85]))) (.cases [34, 17] 53 (.leaf
  [124, 117, 125, 118, 126, 119, 31, 41]) (.cases [] 54 (.cycle 33 [120, 123]) (.leaf
  [121, 117, 122, 118, 13, 51, 79, 119, 31, 14, 87, 41, 6, 28])))))) (.cases
  [115, 116, 117, 118, 119] 30 (.cases [46, 47, 48, 49] 43 (.leaf [90, 91]) (.leaf [88, 89]))
  (.leaf [42, 43, 44, 45])))) (.cycle 27 [80, 78, 23])

/-- some of the cases -/
def real6Case164 : SumTree :=
  .cases [72, 73, 13, 51, 16, 33, 14, 31, 17, 28, 6, 41] 49 (.cases [] 39 (.cycle 26 [72, 13, 81])
  (.cases [80, 13, 51, 14, 31, 6, 41] 21 (.cases [] 31 (.leaf [71, 58]) (.cases [] 23 (.cases [] 32
  (.cases [] 33 (.cases [] 37 (.cases [] 34 (.cases [] 35 (.cases [] 38 (.cases [] 22 (.cycle 13
  [16, 53, 70, 60]) (.cycle 13 [33, 68, 69, 60])) (.leaf
  [75, 27, 70, 28, 59, 60, 13, 16, 14, 17, 6])) (.leaf [66, 27, 67, 28, 13, 51, 14, 31, 6, 41]))
  (.leaf [65, 27, 28, 114, 41])) (.leaf [74, 62, 69, 17, 58, 59, 13, 14, 6])) (.leaf
  [63, 62, 64, 17, 13, 51, 14, 31, 6, 41])) (.leaf [61, 62, 17])) (.cycle 2 [31, 29, 30]))) (.leaf
  [26, 27, 28]))) (.leaf [111, 17])

/-- some of the cases -/
def real6Case165 : SumTree :=
  .cases [39, 13, 14, 6] 27 (.cases [38, 31, 39, 41, 13, 14, 6] 31 (.cycle 33 [38, 39, 71]) (.cases
  [60, 16, 33, 17, 28] 49 (.cases [] 34 (.cases [] 41 (.cases [] 22 (.cases [53, 27, 28] 42 (.leaf
  [102, 22, 23, 24, 25]) (.cases [] 40 (.leaf [104, 22, 87, 23, 28, 24, 25]) (.cases [] 36 (.cycle
  2 [39, 79, 82, 112]) (.cases [73, 16, 17] 23 (.cases [] 35 (.cycle 13 [16, 53, 70, 60]) (.leaf
  [66, 27, 28, 114, 110, 41, 39, 13, 14, 6])) (.leaf [113, 29, 28, 67, 13, 14, 6]))))) (.cases
  [34, 17] 40 (.leaf [104, 22, 23, 24, 25]) (.cases [] 42 (.leaf [102, 82, 17, 112, 39, 13, 14, 6])
  (.cases [] 36 (.cycle 2 [39, 79, 82, 112]) (.cases [] 37 (.cycle 26 [73, 33, 68, 76]) (.leaf
  [74, 62, 17, 112, 31, 39, 41, 13, 14, 6])))))) (.leaf [86, 22, 23, 24, 25])) (.leaf
  [65, 27, 28])) (.leaf [111, 17]))) (.cases [57, 58] 26 (.cases
  [50, 31, 39, 57, 41, 13, 58, 14, 6] 31 (.cases [71, 58] 36 (.cycle 26 [50, 39, 78]) (.leaf
  [73, 16, 33, 17, 28])) (.leaf [59, 60, 13, 16, 14, 17, 6])) (.cases [40] 31 (.cases [71, 58] 36
  (.cases [78, 79, 23, 24, 25] 33 (.cases [] 39 (.cases [81, 23, 24, 25] 40 (.cases
  [104, 22, 23, 24, 25] 34 (.cases [] 22 (.cases [53, 27, 28] 41 (.cases [103, 41] 46 (.leaf
  [101, 58]) (.cases [] 23 (.cases [] 42 (.leaf [102, 22, 103, 23, 41, 24, 25]) (.cycle 25
  [87, 110, 39, 71, 100])) (.cycle 25 [103, 29, 67, 71, 100]))) (.leaf [86, 22, 23, 24, 25]))
  (.cases [34, 17, 104, 22, 23, 24, 25] 47 (.cases [] 48 (.leaf [108, 109]) (.cycle 56 [106, 107]))
  (.leaf [105, 48, 49]))) (.leaf [65, 27, 28])) (.cases [82, 17] 35 (.cases [] 38 (.cases [] 41
  (.cases [] 22 (.cases [] 34 (.cycle 17 [79, 82, 53, 67]) (.leaf [65, 27, 70, 28, 58])) (.cases []
  42 (.leaf [102, 82, 103, 17, 41]) (.cases [87, 28, 34, 17] 43 (.cases [90, 91] 44 (.cases
  [93, 47, 48, 49] 45 (.cases [97, 98, 99, 91] 46 (.leaf [101, 58]) (.cycle 33 [100, 87, 68, 69]))
  (.leaf [94, 95, 96, 89])) (.leaf [92, 43, 44, 45])) (.leaf [88, 89])))) (.leaf [86, 82, 17]))
  (.leaf [75, 27, 70, 28, 58])) (.leaf [66, 27, 83, 28, 84, 85]))) (.cycle 17 [78, 23, 80])) (.leaf
  [63, 62, 17])) (.cases [72, 73, 13, 71, 16, 33, 14, 58, 17, 28, 6] 32 (.cases [] 37 (.cases [] 34
  (.cases [] 38 (.cases [] 22 (.cycle 26 [73, 16, 53, 77]) (.cycle 26 [73, 33, 68, 76])) (.leaf
  [75, 27, 67, 28, 13, 14, 6])) (.leaf [65, 27, 28])) (.leaf [74, 62, 64, 17, 13, 14, 6])) (.leaf
  [61, 62, 17]))) (.cases [59, 60, 13, 16, 33, 14, 17, 28, 6] 32 (.cases [] 33 (.cases [] 34
  (.cases [] 35 (.cases [] 22 (.cycle 33 [60, 16, 53, 70]) (.cycle 33 [60, 33, 68, 69])) (.leaf
  [66, 27, 67, 28, 13, 14, 6])) (.leaf [65, 27, 28])) (.leaf [63, 62, 64, 17, 13, 14, 6])) (.leaf
  [61, 62, 17]))))

/-- some of the cases -/
def real6Case166 : SumTree :=
  .cases [18, 19, 20, 15, 12, 16, 13, 17, 14, 6] 20 (.leaf [54, 15, 12, 16, 13, 17, 14, 6]) (.cases
  [21, 22, 23, 24, 25] 21 (.cases [] 22 (.leaf [53, 27, 28]) (.cases [] 23 (.cases [] 24 (.leaf
  [52, 20, 15, 12, 16, 13, 17, 14, 6]) (.cases [] 25 (.leaf [51, 31, 41]) (.cases [] 26 (.leaf
  [50, 39, 13, 14, 6]) (.cases [] 27 (.cases [38, 31, 39, 40, 41, 13, 23, 14, 24, 6, 25] 30 (.leaf
  [46, 47, 48, 49]) (.leaf [42, 43, 44, 45])) (.cases [] 28 (.cycle 19 [20, 36, 37]) (.cases [32]
  29 (.leaf [35, 12, 16, 13, 17, 14, 6]) (.leaf [33, 28, 34, 17]))))))) (.cycle 12 [29, 30, 31])))
  (.leaf [26, 27, 28]))

/-- all cases -/
def real6Cases : SumTree :=
  .cases [] 0 (.leaf [385]) (.cases [] 1 (.leaf [384]) (.cases [] 2 (.cases [] 3 (.leaf [383])
  (.cases [] 4 (.cases [] 5 (.cases [] 6 (.leaf [382]) (.cases [] 7 (.cases [] 8 (.leaf [380, 381])
  (.cases [5, 6] 9 (.leaf [379]) (.cases [] 10 (.leaf [378]) (.cases [] 11 (.cases [] 12 (.leaf
  [377, 293]) (.cases [] 13 (.leaf [376, 293]) (.cases [] 14 (.cases [] 15 (.cases
  [369, 278, 152, 56] 96 (.leaf [302, 369, 293]) (.cases [] 107 real6Case0 (.cases [276, 20] 16
  real6Case1 (.cases [11, 12, 13, 14, 6] 32 (.cases [64, 13, 14, 6] 68 (.cases [163, 56] 40 (.cases
  [104, 22, 23, 24, 25] 103 real6Case2 (.cases [310, 13, 14, 6] 17 real6Case3 real6Case4)) (.cases
  [82, 17] 20 (.cases [54, 20] 17 (.cases [] 65 real6Case5 real6Case6) (.leaf [15, 12, 13, 14, 6]))
  real6Case7)) (.cases [162, 62, 64, 17, 13, 14, 6] 71 (.leaf [169]) (.cases [] 103 (.cycle 22
  [162, 64, 289]) (.cases [] 33 (.cases [69, 58] 113 (.cycle 14 [278, 267, 301]) (.cases [300] 61
  real6Case8 (.cases [142, 117, 118, 119] 25 real6Case9 real6Case10))) real6Case11)))) (.cases
  [61, 62, 17] 71 (.leaf [169]) (.cases [] 113 (.cases [301, 278, 152, 276, 56, 20] 53 (.cases
  [124, 117, 118, 119] 68 (.cases [163, 56] 103 (.cases [] 111 real6Case12 (.cases [358, 58] 138
  real6Case13 real6Case14)) (.cycle 13 [12, 61, 163, 267])) (.cases [162, 62, 17] 61 real6Case15
  (.cases [142, 117, 118, 119] 20 real6Case16 real6Case17))) real6Case18) (.cases
  [300, 12, 13, 61, 14, 62, 6, 17] 29 (.leaf [35, 12, 13, 61, 14, 62, 6, 17]) (.cases [33] 17
  (.cases [189, 20] 20 (.cases [54, 20] 42 real6Case19 real6Case20) real6Case21) (.leaf
  [15, 12, 33, 13, 61, 28, 14, 62, 6, 17]))))))))) (.cases [9, 10] 16 (.cases [232, 10] 40 (.cases
  [104, 22, 23, 24, 25] 104 (.leaf [270, 293]) (.cases [] 27 (.cases [38, 31, 41] 83 (.cases [] 108
  (.cases [] 51 (.cases [129, 130, 58, 38, 31, 41] 85 (.cases [] 19 (.cases [55, 56] 25 (.cases []
  96 (.cases [302, 10] 41 (.cases [] 93 (.cases [] 109 (.cases [287, 242] 105 real6Case22
  real6Case23) (.cycle 23 [241, 286])) (.cycle 19 [238, 239, 19])) (.leaf [86, 22, 23, 24, 25]))
  real6Case24) (.leaf [39, 13, 14, 6])) (.cases [18, 19, 20] 41 (.cases [] 65 (.cases [155, 19, 20]
  93 (.leaf [241]) (.cases [] 20 (.cases [54, 20] 96 (.leaf [238, 313]) (.cases [] 46 real6Case25
  real6Case26)) (.cases [21, 22, 23, 24, 25] 80 (.cases [] 116 (.cases
  [309, 206, 19, 20, 21, 22, 23, 24, 25] 26 real6Case27 (.cases [40, 23, 24, 25] 96 (.cycle 58
  [309, 206, 19, 238, 281]) (.cases [] 48 real6Case28 real6Case29))) (.cycle 58 [205, 308]))
  real6Case30))) (.cases [154, 17, 104, 22, 23, 24, 25] 60 (.leaf
  [141, 56, 18, 19, 20, 154, 17, 104, 22, 23, 24, 25]) (.cases [140] 79 real6Case31 real6Case32)))
  (.leaf [86, 22, 23, 24, 25]))) (.leaf [224])) (.cases [] 52 (.cycle 63 [127, 128]) (.cases [] 54
  (.cycle 33 [120, 123]) (.cases [121, 117, 118, 119] 80 (.leaf [205]) (.cases [] 78 (.cases [] 69
  (.cases [184, 117, 118, 119] 41 (.cases [] 26 (.cases [50, 31, 41] 19 (.cases [55, 56] 96
  real6Case33 real6Case34) real6Case35) (.cases [40, 23, 184, 24, 117, 25, 118, 119] 46 (.cycle 33
  [38, 40, 101]) (.cases [] 19 (.cases [55, 56] 96 real6Case36 real6Case37) (.cases [18, 19, 20] 79
  real6Case38 real6Case39)))) (.leaf [86, 22, 184])) (.cases [] 76 (.cycle 58 [166, 186]) (.cases
  [185] 92 (.leaf [245]) (.cases [] 139 (.cycle 59 [185, 364]) (.cases [361, 22, 23, 24, 25] 50
  (.cases [125, 126, 31, 41] 25 (.cases [] 19 (.cases [55, 56] 96 (.cases [302, 238, 10] 105
  real6Case40 (.cases [273, 243, 10] 55 (.cases [] 33 real6Case41 (.leaf
  [63, 62, 132, 17, 104, 117, 22, 118, 23, 119, 24, 25])) (.leaf
  [131, 62, 17, 104, 22, 23, 24, 25]))) real6Case42) (.cases [18, 19, 20] 79 (.cases [200, 19, 20]
  109 (.leaf [287]) (.cases [] 93 (.cycle 23 [241, 286]) (.cases [] 124 (.cycle 75 [313, 354])
  (.cases [] 65 (.cases [155, 19, 20] 38 (.cases [] 102 (.cases [266, 109] 30 (.cases
  [46, 47, 48, 49] 41 (.cases [] 48 real6Case43 real6Case44) (.leaf [86, 22, 23, 24, 25])) (.leaf
  [42, 43, 44, 266, 210])) real6Case45) (.leaf [75, 27, 28])) real6Case46)))) real6Case47)) (.cycle
  2 [39, 194, 180])) (.cases [115, 116, 117, 118, 361, 119, 22, 23, 24, 25] 41 (.cases [103, 41] 49
  (.cases [] 85 (.cases [] 19 real6Case48 (.cases [18, 19, 20] 33 (.cases [] 60 real6Case49 (.cases
  [140, 27] 79 (.cases [200, 19, 20] 23 (.cases [] 34 real6Case50 (.cases [65, 27] 65 real6Case51
  real6Case52)) (.leaf [113, 28])) real6Case53)) (.leaf
  [63, 62, 17, 104, 22, 103, 23, 41, 24, 25]))) (.cycle 12 [216, 217, 31])) (.cycle 25
  [103, 111, 104])) real6Case54)))))) (.leaf [193, 232])))))) (.leaf [305])) (.leaf [211])) (.cases
  [57, 58] 111 (.leaf [304, 293]) (.cases [] 19 (.cases [55, 56] 96 (.cases [302, 10] 93 (.cases []
  65 (.leaf [155, 241]) (.cases [] 109 (.cases [287, 242] 105 (.cases [274, 56] 68 (.cases
  [163, 56] 102 (.cases [266, 109] 30 (.cases [46, 47, 48, 49] 48 real6Case55 (.cases [] 47 (.cycle
  56 [106, 107]) (.cases [] 98 (.cycle 55 [105, 256]) (.cases [255, 48, 49] 45 real6Case56
  real6Case57)))) (.leaf [42, 43, 44, 266, 210])) (.cases [] 57 (.cycle 56 [265, 207]) (.cases []
  125 (.cycle 55 [134, 330]) (.cases [325, 44, 45] 48 real6Case58 real6Case59)))) real6Case60)
  (.cases [273, 243, 284, 10, 116, 117] 107 (.leaf [277, 278, 273]) (.cases [] 92 real6Case61
  (.cases [] 90 (.cases [253, 243, 284, 10, 244, 116, 22, 117, 23, 118, 24, 119, 25] 41 (.cases
  [103, 41] 48 real6Case62 real6Case63) (.cases [86, 22, 23, 24, 25] 18 (.leaf
  [153, 12, 145, 232, 13, 86, 10, 14, 22, 6, 23, 24, 25]) (.cases [] 42 (.cases [] 48 real6Case64
  real6Case65) (.leaf [87, 28])))) (.cases [246, 285, 17, 104, 22, 23, 24, 25] 60 real6Case66
  (.cases [140, 27] 41 real6Case67 real6Case68)))))) (.cycle 23 [241, 286]))) (.cycle 19
  [238, 239, 19])) (.cases [] 103 (.cases [] 79 (.cases [200, 19, 55, 20, 56] 83 (.cases [] 113
  (.cases [301, 9, 10] 20 real6Case69 real6Case70) (.cycle 17 [268, 300, 12])) (.cycle 2
  [211, 212])) (.cycle 17 [268, 9, 237, 199])) (.cycle 13 [232, 237, 55, 267]))) (.cases
  [18, 19, 20] 83 (.cases [] 65 (.cases [155, 19, 20] 93 (.leaf [241]) (.cases [] 17 (.cases [] 124
  (.cycle 75 [313, 354]) (.cases [] 20 (.cases [54, 20] 96 (.leaf [238, 313]) (.cases [] 85 (.cases
  [218, 223, 41, 57, 58] 136 (.cases [] 39 (.cases [] 36 (.cases [] 46 (.cases [101, 58] 102
  (.cases [266, 109] 30 (.cases [46, 47, 48, 49] 48 (.cases [108, 109] 45 (.cases [97, 98, 99, 91]
  35 (.cases [] 54 (.cases [] 92 (.leaf [245, 10, 240, 20, 223, 57, 58]) (.cases [] 97 real6Case71
  real6Case72)) (.leaf [121, 117, 118, 119])) (.leaf [66, 27, 28])) real6Case73) (.cases [] 47
  (.cycle 56 [106, 107]) (.cases [105, 48, 49] 35 (.cases [] 54 (.cases [] 92 (.leaf
  [245, 10, 240, 20, 223, 57, 58]) (.cases [] 66 real6Case74 real6Case75)) (.leaf
  [121, 117, 118, 119])) (.leaf [66, 27, 28])))) (.leaf [42, 43, 44, 266, 210])) real6Case76)
  (.cycle 25 [54, 223, 57, 100])) (.cycle 26 [72, 13, 81])) (.leaf [80, 13, 14, 351, 6])) (.leaf
  [350, 14, 6])) (.cycle 12 [216, 217, 31]))) (.cases [21, 22, 23, 24, 25] 41 (.cases [103, 41] 80
  (.cases [] 52 (.cases [] 51 (.cases [129, 130, 58] 116 (.cases
  [309, 206, 19, 20, 21, 22, 103, 23, 41, 24, 25] 55 (.cases
  [132, 309, 206, 19, 20, 21, 22, 103, 23, 41, 24, 25] 96 (.cycle 58 [309, 206, 19, 238, 284, 116])
  (.cases [] 48 (.cases [108, 109] 23 (.cases [] 30 real6Case77 real6Case78) (.leaf [113, 28]))
  real6Case79)) (.cases [131, 62, 17] 48 real6Case80 real6Case81)) (.cycle 58 [205, 308])) (.cycle
  63 [127, 128])) (.leaf [120, 205])) (.cases [202, 116, 117, 118, 119] 102 (.cases [266, 109] 30
  (.cases [46, 47, 48, 49] 48 (.cases [108, 109] 18 (.leaf [153, 12, 232, 189, 13, 10, 20, 14, 6])
  (.cases [] 24 (.cases [52, 20, 21, 22, 103, 23, 41, 24, 25] 78 (.cases [] 123 (.cases [] 69
  (.leaf [184, 117, 118, 119]) (.cases [] 45 real6Case82 real6Case83)) (.leaf
  [324, 117, 118, 119])) (.cycle 58 [117, 193, 16, 155, 227])) real6Case84)) (.cases [] 47 (.cycle
  56 [106, 107]) (.cases [105, 48, 49] 60 real6Case85 (.cases [140] 66 real6Case86 real6Case87))))
  (.leaf [42, 43, 44, 266, 210])) (.cases [] 57 (.cycle 56 [265, 207]) (.cases [] 125 (.cycle 55
  [134, 330]) (.cases [325, 44, 45] 82 (.cases [209, 45] 48 real6Case88 real6Case89)
  real6Case90))))) (.cases [86, 22, 23, 24, 25] 102 (.cases [266, 109] 30 (.cases [46, 47, 48, 49]
  48 (.cases [108, 109] 42 (.cases [] 45 (.cases [97, 98, 99, 91] 97 (.cases [251, 89] 54 (.cases
  [] 34 real6Case91 (.cases [65, 27] 100 real6Case92 real6Case93)) (.leaf [121, 117, 118, 119]))
  (.cases [249, 6] 35 (.cases [] 54 (.cases [] 60 real6Case94 (.cases [140, 27] 72 real6Case95
  real6Case96)) (.leaf [121, 117, 118, 119])) (.leaf [66, 27, 28, 102, 22, 23, 24, 25]))) (.cases
  [94, 95, 96, 89] 96 (.cycle 23 [19, 238, 329, 206]) (.cases [] 78 (.cases [] 54 (.cases [] 60
  real6Case97 real6Case98) (.leaf [121, 117, 118, 119])) (.leaf
  [193, 12, 232, 13, 10, 240, 14, 20, 6])))) (.leaf [87, 28])) (.cases [106, 49] 42 (.cases [] 47
  (.cycle 56 [106, 107]) (.cases [] 98 (.cycle 55 [105, 256]) (.cases [255, 48, 49] 35 (.cases []
  54 (.cases [] 118 (.cases [] 60 real6Case99 (.cases [140, 27] 45 (.cases [97, 98, 99, 91] 78
  (.cases [] 34 real6Case100 (.cases [65, 27] 97 real6Case101 real6Case102)) (.cycle 59
  [193, 316])) real6Case103)) (.leaf [315, 12, 232, 13, 10, 14, 6])) (.leaf [121, 117, 118, 119]))
  (.leaf [66, 27, 28, 102, 22, 23, 24, 25])))) (.leaf [87, 28]))) (.leaf [42, 43, 44, 266, 210]))
  (.cases [] 57 (.cycle 56 [265, 207]) (.cases [134, 44, 45] 42 (.cases [] 125 (.cycle 55
  [134, 330]) (.cases [325, 44, 45] 48 (.cases [108, 109, 325, 44, 45] 30 (.cycle 41
  [108, 109, 325, 328, 48]) (.cases [] 44 (.cycle 35 [42, 93, 47]) (.cases [] 96 (.cycle 23
  [19, 238, 329, 206]) (.cases [] 78 (.cases [] 35 real6Case104 (.leaf
  [66, 27, 28, 102, 22, 23, 24, 25])) (.leaf [193, 12, 232, 13, 10, 240, 14, 20, 6])))))
  real6Case105)) (.leaf [87, 28]))))))) (.leaf [15, 232]))) (.cases [154, 17, 104, 22, 23, 24, 25]
  79 (.cases [200, 19, 20, 154, 196, 17, 104, 22, 23, 24, 25] 41 (.cases [103, 41] 60 real6Case106
  (.cases [140] 34 (.leaf [67, 13, 200, 14, 19, 6, 20, 154, 17, 104, 22, 103, 23, 41, 24, 25])
  (.cases [65, 27] 28 real6Case107 (.cases [32, 197, 28] 80 real6Case108 (.cases [202, 116, 117] 42
  real6Case109 real6Case110))))) (.cases [86, 22, 23, 24, 25] 60 real6Case111 (.cases [140] 34
  real6Case112 (.cases [65, 27] 28 real6Case113 (.cases [32, 197, 28] 22 real6Case114
  real6Case115))))) (.cases [199, 13, 14, 6] 80 real6Case116 (.cases [] 60 (.leaf [141, 56, 18, 19,
  199, 20, 154, 13, 17, 104, 14, 22, 6, 23, 24, 25]) (.cases [140, 27] 32 (.cases [64, 13, 14, 6]
  24 (.leaf [52, 20, 154, 196, 17, 104, 64, 22, 13, 23, 14, 24, 6, 25]) (.cases [] 28 (.cycle 19
  [20, 36, 37]) (.cases [32] 29 (.leaf [35, 232]) (.cases [] 42 real6Case117 real6Case118))))
  real6Case119))))) (.cycle 2 [211, 212])))))) (.cases [82, 17] 42 (.cases
  [102, 22, 82, 23, 17, 24, 25] 60 real6Case120 (.cases [140, 27, 102, 22, 82, 23, 17, 24, 25] 41
  (.cases [103] 108 (.cases [] 19 real6Case121 real6Case122) (.leaf [305])) real6Case123)) (.cases
  [87, 28] 27 (.cases [38, 31, 41] 83 (.cases [] 51 (.cases [129, 130, 58, 38, 31, 41] 111 (.leaf
  [304, 293]) (.cases [] 19 real6Case124 (.cases [18, 19, 20] 49 (.cases [] 20 (.cases [54, 20] 65
  (.cases [155, 19, 20] 22 (.cases [53, 27, 28] 28 real6Case125 real6Case126) real6Case127)
  real6Case128) real6Case129) (.leaf [111, 17])))) (.cases [] 52 (.cycle 63 [127, 128]) (.cases []
  54 (.cycle 33 [120, 123]) (.cases [121, 117, 118, 119] 80 (.leaf [205]) (.cases [] 19
  real6Case130 real6Case131))))) (.leaf [211])) (.cases [57, 58] 19 (.cases [55, 56] 22
  real6Case132 real6Case133) (.cases [18, 19, 20] 83 (.cases [] 20 (.cases [54, 20] 65 (.cases
  [155, 19, 20] 46 (.cases [] 85 (.cases [218] 22 (.cases [53, 27, 28] 28 (.cases
  [37, 201, 20, 218, 223, 41] 26 real6Case134 real6Case135) (.cases [32, 197, 28] 23 (.cases
  [114, 110, 41] 38 real6Case136 real6Case137) (.cases [113, 29, 28] 26 real6Case138 (.cases
  [40, 101, 58] 38 real6Case139 real6Case140)))) real6Case141) (.cycle 12 [216, 217, 31])) (.cycle
  2 [57, 100, 82, 155, 217])) (.cases [196] 71 (.leaf [169]) (.cases [] 28 real6Case142
  real6Case143))) real6Case144) (.cycle 2 [211, 212])))))) (.cases [11, 12, 13, 14, 6] 17 (.cases
  [189, 20] 18 real6Case145 (.cases [16, 17] 29 real6Case146 (.cases [33] 20 (.cases [54, 20] 40
  real6Case147 (.cases [82, 17] 42 (.leaf [102, 22, 54, 82, 23, 20, 17, 24, 25]) (.cases [87, 28]
  27 real6Case148 real6Case149))) (.cases [21] 41 real6Case150 real6Case151)))) (.cases
  [15, 12, 13, 14, 6] 18 (.cases [153, 12, 145, 13, 14, 6] 40 (.cases [104, 22, 23, 24, 25] 20
  (.leaf [54, 15]) (.cases [] 27 (.cases [38, 31, 41] 51 real6Case152 real6Case153) (.cases
  [57, 58] 19 (.cases [55, 56] 39 (.cases [81, 23, 24, 25] 36 (.cases [79] 41 (.cases [103, 41] 38
  (.cases [] 48 real6Case154 real6Case155) (.leaf [75, 27, 28])) real6Case156) (.cycle 17
  [13, 81, 72])) (.cases [80, 13, 14, 6] 36 (.cycle 26 [23, 80, 78]) (.cases [73, 145, 41] 34
  (.cases [] 48 real6Case157 real6Case158) (.leaf [65, 27, 28])))) real6Case159))) real6Case160)
  (.cases [16, 17] 19 (.cases [55, 56] 29 real6Case161 (.cases [33, 28] 25 (.cases [51, 31, 41] 41
  (.cases [] 40 real6Case162 (.cases [] 42 (.leaf [102, 22, 82, 23, 17, 24, 25]) (.cases [] 36
  real6Case163 real6Case164))) (.leaf [86, 22, 23, 24, 25])) real6Case165)) real6Case166)))))
  (.leaf [8])))) (.leaf [7]))))) (.leaf [4]))) (.leaf [2, 3])) (.leaf [1]))) (.leaf [0])))

theorem real6_part0 : real6Cases.checkAt real6Arcs 365 real6Choices.length
    [true]
    [] real6Times 0 = true := by decide +kernel

theorem real6_part1 : real6Cases.checkAt real6Arcs 365 real6Choices.length
    [false, true]
    [] real6Times 0 = true := by decide +kernel

theorem real6_part2 : real6Cases.checkAt real6Arcs 365 real6Choices.length
    [false, false, true, true]
    [] real6Times 0 = true := by decide +kernel

theorem real6_part3 : real6Cases.checkAt real6Arcs 365 real6Choices.length
    [false, false, true, false, true, true, true]
    [] real6Times 0 = true := by decide +kernel

theorem real6_part4 : real6Cases.checkAt real6Arcs 365 real6Choices.length
    [false, false, true, false, true, true, false, true, true]
    [] real6Times 0 = true := by decide +kernel

theorem real6_part5 : real6Cases.checkAt real6Arcs 365 real6Choices.length
    [false, false, true, false, true, true, false, true, false, true]
    [] real6Times 0 = true := by decide +kernel

theorem real6_part6 : real6Cases.checkAt real6Arcs 365 real6Choices.length
    [false, false, true, false, true, true, false, true, false, false, true]
    [] real6Times 0 = true := by decide +kernel

theorem real6_part7 : real6Cases.checkAt real6Arcs 365 real6Choices.length
    [false, false, true, false, true, true, false, true, false, false, false, true, true]
    [] real6Times 0 = true := by decide +kernel

theorem real6_part8 : real6Cases.checkAt real6Arcs 365 real6Choices.length
    [false, false, true, false, true, true, false, true, false, false, false, true, false, true]
    [] real6Times 0 = true := by decide +kernel

theorem real6_part9 : real6Cases.checkAt real6Arcs 365 real6Choices.length
    [false, false, true, false, true, true, false, true, false, false, false, true, false, false,
    true, true]
    [] real6Times 0 = true := by decide +kernel

theorem real6_part10 : real6Cases.checkAt real6Arcs 365 real6Choices.length
    [false, false, true, false, true, true, false, true, false, false, false, true, false, false,
    true, false, true, true, true]
    [] real6Times 0 = true := by decide +kernel

theorem real6_part11 : real6Cases.checkAt real6Arcs 365 real6Choices.length
    [false, false, true, false, true, true, false, true, false, false, false, true, false, false,
    true, false, true, true, false, true, true, true, true]
    [] real6Times 0 = true := by decide +kernel

theorem real6_part12 : real6Cases.checkAt real6Arcs 365 real6Choices.length
    [false, false, true, false, true, true, false, true, false, false, false, true, false, false,
    true, false, true, true, false, true, true, true, false]
    [] real6Times 0 = true := by decide +kernel

theorem real6_part13 : real6Cases.checkAt real6Arcs 365 real6Choices.length
    [false, false, true, false, true, true, false, true, false, false, false, true, false, false,
    true, false, true, true, false, true, true, false]
    [] real6Times 0 = true := by decide +kernel

theorem real6_part14 : real6Cases.checkAt real6Arcs 365 real6Choices.length
    [false, false, true, false, true, true, false, true, false, false, false, true, false, false,
    true, false, true, true, false, true, false]
    [] real6Times 0 = true := by decide +kernel

theorem real6_part15 : real6Cases.checkAt real6Arcs 365 real6Choices.length
    [false, false, true, false, true, true, false, true, false, false, false, true, false, false,
    true, false, true, true, false, false, true]
    [] real6Times 0 = true := by decide +kernel

theorem real6_part16 : real6Cases.checkAt real6Arcs 365 real6Choices.length
    [false, false, true, false, true, true, false, true, false, false, false, true, false, false,
    true, false, true, true, false, false, false, true]
    [] real6Times 0 = true := by decide +kernel

theorem real6_part17 : real6Cases.checkAt real6Arcs 365 real6Choices.length
    [false, false, true, false, true, true, false, true, false, false, false, true, false, false,
    true, false, true, true, false, false, false, false, true, true, true]
    [] real6Times 0 = true := by decide +kernel

theorem real6_part18 : real6Cases.checkAt real6Arcs 365 real6Choices.length
    [false, false, true, false, true, true, false, true, false, false, false, true, false, false,
    true, false, true, true, false, false, false, false, true, true, false, true, true]
    [] real6Times 0 = true := by decide +kernel

theorem real6_part19 : real6Cases.checkAt real6Arcs 365 real6Choices.length
    [false, false, true, false, true, true, false, true, false, false, false, true, false, false,
    true, false, true, true, false, false, false, false, true, true, false, true, false, true]
    [] real6Times 0 = true := by decide +kernel

theorem real6_part20 : real6Cases.checkAt real6Arcs 365 real6Choices.length
    [false, false, true, false, true, true, false, true, false, false, false, true, false, false,
    true, false, true, true, false, false, false, false, true, true, false, true, false, false,
    true]
    [] real6Times 0 = true := by decide +kernel

theorem real6_part21 : real6Cases.checkAt real6Arcs 365 real6Choices.length
    [false, false, true, false, true, true, false, true, false, false, false, true, false, false,
    true, false, true, true, false, false, false, false, true, true, false, true, false, false,
    false]
    [] real6Times 0 = true := by decide +kernel

theorem real6_part22 : real6Cases.checkAt real6Arcs 365 real6Choices.length
    [false, false, true, false, true, true, false, true, false, false, false, true, false, false,
    true, false, true, true, false, false, false, false, true, true, false, false]
    [] real6Times 0 = true := by decide +kernel

theorem real6_part23 : real6Cases.checkAt real6Arcs 365 real6Choices.length
    [false, false, true, false, true, true, false, true, false, false, false, true, false, false,
    true, false, true, true, false, false, false, false, true, false]
    [] real6Times 0 = true := by decide +kernel

theorem real6_part24 : real6Cases.checkAt real6Arcs 365 real6Choices.length
    [false, false, true, false, true, true, false, true, false, false, false, true, false, false,
    true, false, true, true, false, false, false, false, false]
    [] real6Times 0 = true := by decide +kernel

theorem real6_part25 : real6Cases.checkAt real6Arcs 365 real6Choices.length
    [false, false, true, false, true, true, false, true, false, false, false, true, false, false,
    true, false, true, false, true]
    [] real6Times 0 = true := by decide +kernel

theorem real6_part26 : real6Cases.checkAt real6Arcs 365 real6Choices.length
    [false, false, true, false, true, true, false, true, false, false, false, true, false, false,
    true, false, true, false, false]
    [] real6Times 0 = true := by decide +kernel

theorem real6_part27 : real6Cases.checkAt real6Arcs 365 real6Choices.length
    [false, false, true, false, true, true, false, true, false, false, false, true, false, false,
    true, false, false]
    [] real6Times 0 = true := by decide +kernel

theorem real6_part28 : real6Cases.checkAt real6Arcs 365 real6Choices.length
    [false, false, true, false, true, true, false, true, false, false, false, true, false, false,
    false]
    [] real6Times 0 = true := by decide +kernel

theorem real6_part29 : real6Cases.checkAt real6Arcs 365 real6Choices.length
    [false, false, true, false, true, true, false, true, false, false, false, false]
    [] real6Times 0 = true := by decide +kernel

theorem real6_part30 : real6Cases.checkAt real6Arcs 365 real6Choices.length
    [false, false, true, false, true, true, false, false]
    [] real6Times 0 = true := by decide +kernel

theorem real6_part31 : real6Cases.checkAt real6Arcs 365 real6Choices.length
    [false, false, true, false, true, false]
    [] real6Times 0 = true := by decide +kernel

theorem real6_part32 : real6Cases.checkAt real6Arcs 365 real6Choices.length
    [false, false, true, false, false]
    [] real6Times 0 = true := by decide +kernel

theorem real6_part33 : real6Cases.checkAt real6Arcs 365 real6Choices.length
    [false, false, false]
    [] real6Times 0 = true := by decide +kernel

theorem real6_cases : real6Cases.check real6Arcs 365 real6Choices.length [] real6Times 0 = true :=
  SumTree.join (path := []) real6_part0 (SumTree.join real6_part1 (SumTree.join (SumTree.join
  real6_part2 (SumTree.join (SumTree.join (SumTree.join real6_part3 (SumTree.join (SumTree.join
  real6_part4 (SumTree.join real6_part5 (SumTree.join real6_part6 (SumTree.join (SumTree.join
  real6_part7 (SumTree.join real6_part8 (SumTree.join (SumTree.join real6_part9 (SumTree.join
  (SumTree.join (SumTree.join real6_part10 (SumTree.join (SumTree.join (SumTree.join (SumTree.join
  real6_part11 real6_part12) real6_part13) real6_part14) (SumTree.join real6_part15 (SumTree.join
  real6_part16 (SumTree.join (SumTree.join (SumTree.join real6_part17 (SumTree.join (SumTree.join
  real6_part18 (SumTree.join real6_part19 (SumTree.join real6_part20 real6_part21))) real6_part22))
  real6_part23) real6_part24))))) (SumTree.join real6_part25 real6_part26)) real6_part27))
  real6_part28))) real6_part29)))) real6_part30)) real6_part31) real6_part32)) real6_part33))

theorem real6_choices : real6Choices.all (CodedNet.Choice.ok net netSpecial real6Plan) = true := by
  decide +kernel

theorem real6_arcs : real6Arcs.toList.all
    (net.arcOK netSpecial real6Plan real6Nodes real6Choices) = true := by decide +kernel

theorem real6_times : net.startOK real6Plan real6Nodes 10 40 real6Times = true := by decide +kernel

end Verif.Real
