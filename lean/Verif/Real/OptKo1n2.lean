import Verif.Proofs.PlanSum
import Verif.Proofs.PlanAgain
import Verif.Real.PlanKo1

/-!
# The sheet of `Verif.Real.Ko1` with given delays: a plan, and that no plan is better

Generated; see `CodedNet.Item` and `Verif/Proofs/SumTree.lean`. Case 1,
`disturbances[2]`, of `/repo/solve_KO_GLC_problems.py`, line 106;
`d_max` is 40. The sum of the delays that count is 12/4.
-/

namespace Verif.Real

set_option maxRecDepth 100000

/-- the given delays -/
def ko1n2Delays : List (Int × ℚ) := [
  (6401, 3), (4604, 13)]

/-- the plan, items by sections -/
def ko1n2Plan : CodedNet.Plan := [
  (train_ko1_2, [
   ⟨0, 2, 0, (some 14), true, false, 0, 0, 0,
    none,
    (some ⟨1, [83, 101, 84, 121], [9, 19, 8, 8], 4, [5, 8]⟩), [], [61, 64, 69, 71, 87, 92], [0]⟩,
   ⟨0, 2, 1, (some 1), true, false, 6, 6, 60,
    (some ⟨0, 4, 0, [83, 101, 84, 121]⟩),
    (some ⟨2, [77, 144, 119, 40, 86, 142, 87, 126, 30, 90, 91, 92, 93, 127], [15, 14, 8, 14, 13, 13, 7, 9, 15, 13, 9, 5, 7, 20], 16, [31, 33, 41]⟩), [5, 8], [16, 2], [4]⟩,
   ⟨0, 2, 2, (some 35), false, true, 22, 22, 220,
    (some ⟨1, 22, 60, [77, 144, 119, 40, 86, 142, 87, 126, 30, 90, 91, 92, 93, 127]⟩),
    none, [31, 33, 41], [], [22]⟩]),
  (train_ko1_4602, [
   ⟨1, 4602, 0, (some 10), true, false, 7, 7, 70,
    none,
    (some ⟨1, [83, 101, 84, 121], [9, 12, 6, 7], 3, [5, 8]⟩), [], [66, 68, 71, 87, 92], [7]⟩,
   ⟨1, 4602, 1, (some 1), true, false, 13, 13, 130,
    (some ⟨0, 10, 70, [83, 101, 84, 121]⟩),
    (some ⟨2, [77, 144, 119, 40, 86, 142, 87, 126, 30, 90, 91, 92, 93, 127], [11, 9, 8, 7, 13, 7, 7, 9, 15, 13, 9, 5, 7, 20], 14, [31, 34, 43]⟩), [5, 8], [16, 2], [10]⟩,
   ⟨1, 4602, 2, (some 38), true, false, 32, 32, 320,
    (some ⟨1, 27, 130, [77, 144, 119, 40, 86, 142, 87, 126, 30, 90, 91, 92, 93, 127]⟩),
    none, [31, 34, 43], [], [27]⟩]),
  (train_ko1_4, [
   ⟨2, 4, 0, (some 14), true, false, 10, 10, 100,
    none,
    (some ⟨1, [83, 101, 84, 121], [9, 19, 8, 8], 4, [5, 8]⟩), [], [61, 64, 69, 71, 87, 92], [10]⟩,
   ⟨2, 4, 1, (some 1), true, false, 16, 16, 160,
    (some ⟨0, 14, 100, [83, 101, 84, 121]⟩),
    (some ⟨2, [77, 144, 119, 40, 86, 142, 87, 126, 30, 90, 91, 92, 93, 127], [15, 14, 8, 14, 13, 13, 7, 9, 15, 13, 9, 5, 7, 20], 16, [31, 33, 41]⟩), [5, 8], [16, 2], [14]⟩,
   ⟨2, 4, 2, (some 35), false, true, 32, 32, 320,
    (some ⟨1, 32, 160, [77, 144, 119, 40, 86, 142, 87, 126, 30, 90, 91, 92, 93, 127]⟩),
    none, [31, 33, 41], [], [32]⟩]),
  (train_ko1_102, [
   ⟨3, 102, 0, (some 16), true, false, 45, 45, 450,
    none,
    (some ⟨1, [83, 101, 84, 121], [9, 19, 8, 10], 5, [5, 8, 9]⟩), [], [62, 64, 69, 71, 87, 92], [45]⟩,
   ⟨3, 102, 1, (some 3), true, false, 53, 53, 530,
    (some ⟨0, 50, 450, [83, 101, 84, 121]⟩),
    none, [5, 8, 9], [], [50]⟩]),
  (train_ko1_6, [
   ⟨4, 6, 0, (some 14), true, false, 20, 20, 200,
    none,
    (some ⟨1, [83, 101, 84, 121], [9, 19, 8, 8], 4, [5, 8]⟩), [], [61, 64, 69, 71, 87, 92], [20]⟩,
   ⟨4, 6, 1, (some 1), true, false, 26, 26, 260,
    (some ⟨0, 24, 200, [83, 101, 84, 121]⟩),
    (some ⟨2, [77, 144, 119, 40, 86, 142, 87, 126, 30, 90, 91, 92, 93, 127], [15, 14, 8, 14, 13, 13, 7, 9, 15, 13, 9, 5, 7, 20], 16, [31, 33, 41]⟩), [5, 8], [16, 2], [24]⟩,
   ⟨4, 6, 2, (some 35), false, true, 42, 42, 420,
    (some ⟨1, 42, 260, [77, 144, 119, 40, 86, 142, 87, 126, 30, 90, 91, 92, 93, 127]⟩),
    none, [31, 33, 41], [], [42]⟩]),
  (train_ko1_8, [
   ⟨5, 8, 0, (some 14), true, false, 30, 30, 300,
    none,
    (some ⟨1, [83, 101, 84, 121], [9, 19, 8, 8], 4, [5, 8]⟩), [], [61, 64, 69, 71, 87, 92], [30]⟩,
   ⟨5, 8, 1, (some 1), true, false, 36, 36, 360,
    (some ⟨0, 34, 300, [83, 101, 84, 121]⟩),
    (some ⟨2, [77, 144, 119, 40, 86, 142, 87, 126, 30, 90, 91, 92, 93, 127], [15, 14, 8, 14, 13, 13, 7, 9, 15, 13, 9, 5, 7, 20], 16, [31, 33, 41]⟩), [5, 8], [16, 2], [34]⟩,
   ⟨5, 8, 2, (some 35), false, true, 52, 52, 520,
    (some ⟨1, 52, 360, [77, 144, 119, 40, 86, 142, 87, 126, 30, 90, 91, 92, 93, 127]⟩),
    none, [31, 33, 41], [], [52]⟩]),
  (train_ko1_4604, [
   ⟨6, 4604, 0, (some 10), true, false, 50, 50, 500,
    none,
    (some ⟨1, [83, 101, 84, 121], [9, 12, 6, 7], 3, [5, 8]⟩), [], [66, 68, 71, 87, 92], [50]⟩,
   ⟨6, 4604, 1, (some 1), true, false, 55, 55, 550,
    (some ⟨0, 53, 500, [83, 101, 84, 121]⟩),
    (some ⟨2, [77, 144, 119, 40, 86, 142, 87, 126, 30, 90, 91, 92, 93, 127], [11, 9, 8, 7, 13, 7, 7, 9, 15, 13, 9, 5, 7, 20], 14, [31, 34, 43]⟩), [5, 8], [16, 2], [53]⟩,
   ⟨6, 4604, 2, (some 38), true, false, 70, 70, 700,
    (some ⟨1, 69, 550, [77, 144, 119, 40, 86, 142, 87, 126, 30, 90, 91, 92, 93, 127]⟩),
    none, [31, 34, 43], [], [69]⟩]),
  (train_ko1_10, [
   ⟨7, 10, 0, (some 14), true, false, 40, 40, 400,
    none,
    (some ⟨1, [83, 101, 84, 121], [9, 19, 8, 8], 4, [5, 8]⟩), [], [61, 64, 69, 71, 87, 92], [40]⟩,
   ⟨7, 10, 1, (some 1), true, false, 46, 46, 460,
    (some ⟨0, 44, 400, [83, 101, 84, 121]⟩),
    (some ⟨2, [77, 144, 119, 40, 86, 142, 87, 126, 30, 90, 91, 92, 93, 127], [15, 14, 8, 14, 13, 13, 7, 9, 15, 13, 9, 5, 7, 20], 16, [31, 33, 41]⟩), [5, 8], [16, 2], [44]⟩,
   ⟨7, 10, 2, (some 35), false, true, 62, 62, 620,
    (some ⟨1, 62, 460, [77, 144, 119, 40, 86, 142, 87, 126, 30, 90, 91, 92, 93, 127]⟩),
    none, [31, 33, 41], [], [62]⟩]),
  (train_ko1_12, [
   ⟨8, 12, 0, (some 14), true, false, 50, 52, 520,
    none,
    (some ⟨1, [83, 101, 84, 121], [9, 19, 8, 8], 4, [5, 8]⟩), [], [61, 64, 69, 71, 87, 92], [50]⟩,
   ⟨8, 12, 1, (some 1), true, false, 56, 58, 580,
    (some ⟨0, 56, 520, [83, 101, 84, 121]⟩),
    (some ⟨2, [77, 144, 119, 40, 86, 142, 87, 126, 30, 90, 91, 92, 93, 127], [15, 14, 8, 14, 13, 13, 7, 9, 15, 13, 9, 5, 7, 20], 16, [31, 33, 41]⟩), [5, 8], [16, 2], [56]⟩,
   ⟨8, 12, 2, (some 35), false, true, 72, 74, 740,
    (some ⟨1, 74, 580, [77, 144, 119, 40, 86, 142, 87, 126, 30, 90, 91, 92, 93, 127]⟩),
    none, [31, 33, 41], [], [74]⟩]),
  (train_ko1_1, [
   ⟨9, 1, 2, (some 34), true, false, -7, -7, -70,
    none,
    (some ⟨1, [78, 79, 80, 81, 120, 31, 94, 95, 143, 128, 41, 85, 145, 125], [18, 7, 6, 8, 12, 20, 23, 5, 19, 11, 16, 11, 17, 9], 18, [17, 19]⟩), [], [30, 22], [-7]⟩,
   ⟨9, 1, 1, (some 2), true, false, 15, 15, 150,
    (some ⟨2, 11, -70, [78, 79, 80, 81, 120, 31, 94, 95, 143, 128, 41, 85, 145, 125]⟩),
    (some ⟨0, [76, 130, 133, 122], [8, 12, 22, 10], 5, [82, 84, 86, 89, 91]⟩), [17, 19], [9, 7, 6], [11]⟩,
   ⟨9, 1, 0, (some 15), false, true, 20, 20, 200,
    (some ⟨1, 20, 150, [76, 130, 133, 122]⟩),
    none, [82, 84, 86, 89, 91], [], [20]⟩]),
  (train_ko1_101, [
   ⟨10, 101, 1, (some 4), true, false, 21, 21, 210,
    none,
    (some ⟨0, [76, 130, 133, 122], [8, 12, 22, 10], 5, [82, 84, 86, 89, 91]⟩), [], [7, 6], [21]⟩,
   ⟨10, 101, 0, (some 39), false, true, 26, 26, 260,
    (some ⟨1, 26, 210, [76, 130, 133, 122]⟩),
    none, [82, 84, 86, 89, 91], [], [26]⟩]),
  (train_ko1_3, [
   ⟨11, 3, 2, (some 34), true, false, 3, 3, 30,
    none,
    (some ⟨1, [78, 79, 80, 81, 120, 31, 94, 95, 143, 128, 41, 85, 145, 125], [18, 7, 6, 8, 12, 20, 23, 5, 19, 11, 16, 11, 17, 9], 18, [17, 19]⟩), [], [30, 22], [3]⟩,
   ⟨11, 3, 1, (some 2), true, false, 25, 25, 250,
    (some ⟨2, 21, 30, [78, 79, 80, 81, 120, 31, 94, 95, 143, 128, 41, 85, 145, 125]⟩),
    (some ⟨0, [76, 130, 133, 122], [8, 12, 22, 10], 5, [82, 84, 86, 89, 91]⟩), [17, 19], [9, 7, 6], [21]⟩,
   ⟨11, 3, 0, (some 15), false, true, 30, 30, 300,
    (some ⟨1, 30, 250, [76, 130, 133, 122]⟩),
    none, [82, 84, 86, 89, 91], [], [30]⟩]),
  (train_ko1_6401, [
   ⟨12, 6401, 2, (some 33), true, false, 17, 17, 170,
    none,
    (some ⟨1, [78, 79, 80, 81, 120, 31, 94, 95, 143, 128, 41, 85, 145, 125], [18, 7, 6, 8, 12, 20, 23, 5, 9, 11, 6, 11, 7, 9], 15, [17, 19]⟩), [], [36, 30, 22], [17]⟩,
   ⟨12, 6401, 1, (some 2), true, false, 32, 32, 320,
    (some ⟨2, 32, 170, [78, 79, 80, 81, 120, 31, 94, 95, 143, 128, 41, 85, 145, 125]⟩),
    (some ⟨0, [76, 130, 133, 122], [6, 10, 12, 10], 4, [81, 85, 88, 91]⟩), [17, 19], [9, 7, 6], [32]⟩,
   ⟨12, 6401, 0, (some 13), false, true, 36, 36, 360,
    (some ⟨1, 36, 320, [76, 130, 133, 122]⟩),
    none, [81, 85, 88, 91], [], [36]⟩]),
  (train_ko1_5, [
   ⟨13, 5, 2, (some 34), true, false, 18, 21, 210,
    none,
    (some ⟨1, [78, 79, 80, 81, 120, 31, 94, 95, 143, 128, 41, 85, 145, 125], [18, 7, 6, 8, 12, 20, 23, 5, 19, 11, 16, 11, 17, 9], 18, [17, 19]⟩), [], [30, 22], [18]⟩,
   ⟨13, 5, 1, (some 2), true, false, 40, 41, 410,
    (some ⟨2, 39, 210, [78, 79, 80, 81, 120, 31, 94, 95, 143, 128, 41, 85, 145, 125]⟩),
    (some ⟨0, [76, 130, 133, 122], [8, 12, 22, 10], 5, [82, 84, 86, 89, 91]⟩), [17, 19], [9, 7, 6], [39]⟩,
   ⟨13, 5, 0, (some 15), false, true, 45, 46, 460,
    (some ⟨1, 46, 410, [76, 130, 133, 122]⟩),
    none, [82, 84, 86, 89, 91], [], [46]⟩]),
  (train_ko1_7, [
   ⟨14, 7, 2, (some 34), true, false, 23, 25, 250,
    none,
    (some ⟨1, [78, 79, 80, 81, 120, 31, 94, 95, 143, 128, 41, 85, 145, 125], [18, 7, 6, 8, 12, 20, 23, 5, 19, 11, 16, 11, 17, 9], 18, [17, 19]⟩), [], [30, 22], [23]⟩,
   ⟨14, 7, 1, (some 2), true, false, 45, 45, 450,
    (some ⟨2, 43, 250, [78, 79, 80, 81, 120, 31, 94, 95, 143, 128, 41, 85, 145, 125]⟩),
    (some ⟨0, [76, 130, 133, 122], [8, 12, 22, 10], 5, [82, 84, 86, 89, 91]⟩), [17, 19], [9, 7, 6], [43]⟩,
   ⟨14, 7, 0, (some 15), false, true, 50, 50, 500,
    (some ⟨1, 50, 450, [76, 130, 133, 122]⟩),
    none, [82, 84, 86, 89, 91], [], [50]⟩]),
  (train_ko1_103, [
   ⟨15, 103, 1, (some 4), true, false, 51, 51, 510,
    none,
    (some ⟨0, [76, 130, 133, 122], [8, 12, 22, 10], 5, [82, 84, 86, 89, 91]⟩), [], [7, 6], [51]⟩,
   ⟨15, 103, 0, (some 39), false, true, 56, 56, 560,
    (some ⟨1, 56, 510, [76, 130, 133, 122]⟩),
    none, [82, 84, 86, 89, 91], [], [56]⟩]),
  (train_ko1_9, [
   ⟨16, 9, 2, (some 34), true, false, 33, 33, 330,
    none,
    (some ⟨1, [78, 79, 80, 81, 120, 31, 94, 95, 143, 128, 41, 85, 145, 125], [18, 7, 6, 8, 12, 20, 23, 5, 19, 11, 16, 11, 17, 9], 18, [17, 19]⟩), [], [30, 22], [33]⟩,
   ⟨16, 9, 1, (some 2), true, false, 55, 55, 550,
    (some ⟨2, 51, 330, [78, 79, 80, 81, 120, 31, 94, 95, 143, 128, 41, 85, 145, 125]⟩),
    (some ⟨0, [76, 130, 133, 122], [8, 12, 22, 10], 5, [82, 84, 86, 89, 91]⟩), [17, 19], [9, 7, 6], [51]⟩,
   ⟨16, 9, 0, (some 15), false, true, 60, 60, 600,
    (some ⟨1, 60, 550, [76, 130, 133, 122]⟩),
    none, [82, 84, 86, 89, 91], [], [60]⟩]),
  (train_ko1_6403, [
   ⟨17, 6403, 2, (some 33), true, false, 44, 44, 440,
    none,
    (some ⟨1, [78, 79, 80, 81, 120, 31, 94, 95, 143, 128, 41, 85, 145, 125], [18, 7, 6, 8, 12, 20, 23, 5, 9, 11, 6, 11, 7, 9], 15, [17, 19]⟩), [], [36, 30, 22], [44]⟩,
   ⟨17, 6403, 1, (some 2), true, false, 59, 59, 590,
    (some ⟨2, 59, 440, [78, 79, 80, 81, 120, 31, 94, 95, 143, 128, 41, 85, 145, 125]⟩),
    (some ⟨0, [76, 130, 133, 122], [6, 10, 12, 10], 4, [81, 85, 88, 91]⟩), [17, 19], [9, 7, 6], [59]⟩,
   ⟨17, 6403, 0, (some 13), false, true, 63, 63, 630,
    (some ⟨1, 63, 590, [76, 130, 133, 122]⟩),
    none, [81, 85, 88, 91], [], [63]⟩]),
  (train_ko1_11, [
   ⟨18, 11, 2, (some 34), true, false, 48, 48, 480,
    none,
    (some ⟨1, [78, 79, 80, 81, 120, 31, 94, 95, 143, 128, 41, 85, 145, 125], [18, 7, 6, 8, 12, 20, 23, 5, 19, 11, 16, 11, 17, 9], 18, [17, 19]⟩), [], [30, 22], [48]⟩,
   ⟨18, 11, 1, (some 2), true, false, 70, 70, 700,
    (some ⟨2, 66, 480, [78, 79, 80, 81, 120, 31, 94, 95, 143, 128, 41, 85, 145, 125]⟩),
    (some ⟨0, [76, 130, 133, 122], [8, 12, 22, 10], 5, [82, 84, 86, 89, 91]⟩), [17, 19], [9, 7, 6], [66]⟩,
   ⟨18, 11, 0, (some 15), false, true, 75, 75, 750,
    (some ⟨1, 75, 700, [76, 130, 133, 122]⟩),
    none, [82, 84, 86, 89, 91], [], [75]⟩]),
  (train_ko1_14, [
   ⟨19, 14, 0, (some 14), true, false, 60, 60, 600,
    none,
    (some ⟨1, [83, 101, 84, 121], [9, 19, 8, 8], 4, [5, 8]⟩), [], [61, 64, 69, 71, 87, 92], [60]⟩,
   ⟨19, 14, 1, (some 1), true, false, 66, 66, 660,
    (some ⟨0, 64, 600, [83, 101, 84, 121]⟩),
    (some ⟨2, [77, 144, 119, 40, 86, 142, 87, 126, 30, 90, 91, 92, 93, 127], [15, 14, 8, 14, 13, 13, 7, 9, 15, 13, 9, 5, 7, 20], 16, [31, 33, 41]⟩), [5, 8], [16, 2], [64]⟩,
   ⟨19, 14, 2, (some 35), false, true, 82, 82, 820,
    (some ⟨1, 82, 660, [77, 144, 119, 40, 86, 142, 87, 126, 30, 90, 91, 92, 93, 127]⟩),
    none, [31, 33, 41], [], [82]⟩]),
  (train_ko1_4606, [
   ⟨20, 4606, 0, (some 10), true, false, 67, 67, 670,
    none,
    (some ⟨1, [83, 101, 84, 121], [9, 12, 6, 7], 3, [5, 8]⟩), [], [66, 68, 71, 87, 92], [67]⟩,
   ⟨20, 4606, 1, (some 1), true, false, 73, 73, 730,
    (some ⟨0, 70, 670, [83, 101, 84, 121]⟩),
    (some ⟨2, [77, 144, 119, 40, 86, 142, 87, 126, 30, 90, 91, 92, 93, 127], [11, 9, 8, 7, 13, 7, 7, 9, 15, 13, 9, 5, 7, 20], 14, [31, 34, 43]⟩), [5, 8], [16, 2], [70]⟩,
   ⟨20, 4606, 2, (some 38), true, false, 92, 92, 920,
    (some ⟨1, 87, 730, [77, 144, 119, 40, 86, 142, 87, 126, 30, 90, 91, 92, 93, 127]⟩),
    none, [31, 34, 43], [], [87]⟩]),
  (train_ko1_16, [
   ⟨21, 16, 0, (some 14), true, false, 70, 70, 700,
    none,
    (some ⟨1, [83, 101, 84, 121], [9, 19, 8, 8], 4, [5, 8]⟩), [], [61, 64, 69, 71, 87, 92], [70]⟩,
   ⟨21, 16, 1, (some 1), true, false, 76, 76, 760,
    (some ⟨0, 74, 700, [83, 101, 84, 121]⟩),
    (some ⟨2, [77, 144, 119, 40, 86, 142, 87, 126, 30, 90, 91, 92, 93, 127], [15, 14, 8, 14, 13, 13, 7, 9, 15, 13, 9, 5, 7, 20], 16, [31, 33, 41]⟩), [5, 8], [16, 2], [74]⟩,
   ⟨21, 16, 2, (some 35), false, true, 92, 92, 920,
    (some ⟨1, 92, 760, [77, 144, 119, 40, 86, 142, 87, 126, 30, 90, 91, 92, 93, 127]⟩),
    none, [31, 33, 41], [], [92]⟩]),
  (train_ko1_106, [
   ⟨22, 106, 0, (some 16), true, false, 75, 75, 750,
    none,
    (some ⟨1, [83, 101, 84, 121], [9, 19, 8, 10], 5, [5, 8, 9]⟩), [], [62, 64, 69, 71, 87, 92], [75]⟩,
   ⟨22, 106, 1, (some 3), true, false, 83, 83, 830,
    (some ⟨0, 80, 750, [83, 101, 84, 121]⟩),
    none, [5, 8, 9], [], [80]⟩]),
  (train_ko1_18, [
   ⟨23, 18, 0, (some 14), true, false, 80, 80, 800,
    none,
    (some ⟨1, [83, 101, 84, 121], [9, 19, 8, 8], 4, [5, 8]⟩), [], [61, 64, 69, 71, 87, 92], [80]⟩,
   ⟨23, 18, 1, (some 1), true, false, 86, 86, 860,
    (some ⟨0, 84, 800, [83, 101, 84, 121]⟩),
    (some ⟨2, [77, 144, 119, 40, 86, 142, 87, 126, 30, 90, 91, 92, 93, 127], [15, 14, 8, 14, 13, 13, 7, 9, 15, 13, 9, 5, 7, 20], 16, [31, 33, 41]⟩), [5, 8], [16, 2], [84]⟩,
   ⟨23, 18, 2, (some 35), false, true, 102, 102, 1020,
    (some ⟨1, 102, 860, [77, 144, 119, 40, 86, 142, 87, 126, 30, 90, 91, 92, 93, 127]⟩),
    none, [31, 33, 41], [], [102]⟩]),
  (train_ko1_20, [
   ⟨24, 20, 0, (some 14), true, false, 90, 90, 900,
    none,
    (some ⟨1, [83, 101, 84, 121], [9, 19, 8, 8], 4, [5, 8]⟩), [], [61, 64, 69, 71, 87, 92], [90]⟩,
   ⟨24, 20, 1, (some 1), true, false, 96, 96, 960,
    (some ⟨0, 94, 900, [83, 101, 84, 121]⟩),
    (some ⟨2, [77, 144, 119, 40, 86, 142, 87, 126, 30, 90, 91, 92, 93, 127], [15, 14, 8, 14, 13, 13, 7, 9, 15, 13, 9, 5, 7, 20], 16, [31, 33, 41]⟩), [5, 8], [16, 2], [94]⟩,
   ⟨24, 20, 2, (some 35), false, true, 112, 112, 1120,
    (some ⟨1, 112, 960, [77, 144, 119, 40, 86, 142, 87, 126, 30, 90, 91, 92, 93, 127]⟩),
    none, [31, 33, 41], [], [112]⟩]),
  (train_ko1_4608, [
   ⟨25, 4608, 0, (some 10), true, false, 97, 97, 970,
    none,
    (some ⟨1, [83, 101, 84, 121], [9, 12, 6, 7], 3, [5, 8]⟩), [], [66, 68, 71, 87, 92], [97]⟩,
   ⟨25, 4608, 1, (some 1), true, false, 103, 103, 1030,
    (some ⟨0, 100, 970, [83, 101, 84, 121]⟩),
    (some ⟨2, [77, 144, 119, 40, 86, 142, 87, 126, 30, 90, 91, 92, 93, 127], [11, 9, 8, 7, 13, 7, 7, 9, 15, 13, 9, 5, 7, 20], 14, [31, 34, 43]⟩), [5, 8], [16, 2], [100]⟩,
   ⟨25, 4608, 2, (some 38), true, false, 122, 122, 1220,
    (some ⟨1, 117, 1030, [77, 144, 119, 40, 86, 142, 87, 126, 30, 90, 91, 92, 93, 127]⟩),
    none, [31, 34, 43], [], [117]⟩]),
  (train_ko1_22, [
   ⟨26, 22, 0, (some 14), true, false, 100, 100, 1000,
    none,
    (some ⟨1, [83, 101, 84, 121], [9, 19, 8, 8], 4, [5, 8]⟩), [], [61, 64, 69, 71, 87, 92], [100]⟩,
   ⟨26, 22, 1, (some 1), true, false, 106, 106, 1060,
    (some ⟨0, 104, 1000, [83, 101, 84, 121]⟩),
    (some ⟨2, [77, 144, 119, 40, 86, 142, 87, 126, 30, 90, 91, 92, 93, 127], [15, 14, 8, 14, 13, 13, 7, 9, 15, 13, 9, 5, 7, 20], 16, [31, 33, 41]⟩), [5, 8], [16, 2], [104]⟩,
   ⟨26, 22, 2, (some 35), false, true, 122, 122, 1220,
    (some ⟨1, 122, 1060, [77, 144, 119, 40, 86, 142, 87, 126, 30, 90, 91, 92, 93, 127]⟩),
    none, [31, 33, 41], [], [122]⟩]),
  (train_ko1_108, [
   ⟨27, 108, 0, (some 16), true, false, 105, 105, 1050,
    none,
    (some ⟨1, [83, 101, 84, 121], [9, 19, 8, 10], 5, [5, 8, 9]⟩), [], [62, 64, 69, 71, 87, 92], [105]⟩,
   ⟨27, 108, 1, (some 3), true, false, 113, 113, 1130,
    (some ⟨0, 110, 1050, [83, 101, 84, 121]⟩),
    none, [5, 8, 9], [], [110]⟩]),
  (train_ko1_24, [
   ⟨28, 24, 0, (some 14), true, false, 110, 110, 1100,
    none,
    (some ⟨1, [83, 101, 84, 121], [9, 19, 8, 8], 4, [5, 8]⟩), [], [61, 64, 69, 71, 87, 92], [110]⟩,
   ⟨28, 24, 1, (some 1), true, false, 116, 116, 1160,
    (some ⟨0, 114, 1100, [83, 101, 84, 121]⟩),
    (some ⟨2, [77, 144, 119, 40, 86, 142, 87, 126, 30, 90, 91, 92, 93, 127], [15, 14, 8, 14, 13, 13, 7, 9, 15, 13, 9, 5, 7, 20], 16, [31, 33, 41]⟩), [5, 8], [16, 2], [114]⟩,
   ⟨28, 24, 2, (some 35), false, true, 132, 132, 1320,
    (some ⟨1, 132, 1160, [77, 144, 119, 40, 86, 142, 87, 126, 30, 90, 91, 92, 93, 127]⟩),
    none, [31, 33, 41], [], [132]⟩]),
  (train_ko1_13, [
   ⟨29, 13, 2, (some 34), true, false, 53, 53, 530,
    none,
    (some ⟨1, [78, 79, 80, 81, 120, 31, 94, 95, 143, 128, 41, 85, 145, 125], [18, 7, 6, 8, 12, 20, 23, 5, 19, 11, 16, 11, 17, 9], 18, [17, 19]⟩), [], [30, 22], [53]⟩,
   ⟨29, 13, 1, (some 2), true, false, 75, 75, 750,
    (some ⟨2, 71, 530, [78, 79, 80, 81, 120, 31, 94, 95, 143, 128, 41, 85, 145, 125]⟩),
    (some ⟨0, [76, 130, 133, 122], [8, 12, 22, 10], 5, [82, 84, 86, 89, 91]⟩), [17, 19], [9, 7, 6], [71]⟩,
   ⟨29, 13, 0, (some 15), false, true, 80, 80, 800,
    (some ⟨1, 80, 750, [76, 130, 133, 122]⟩),
    none, [82, 84, 86, 89, 91], [], [80]⟩]),
  (train_ko1_105, [
   ⟨30, 105, 1, (some 4), true, false, 81, 81, 810,
    none,
    (some ⟨0, [76, 130, 133, 122], [8, 12, 22, 10], 5, [82, 84, 86, 89, 91]⟩), [], [7, 6], [81]⟩,
   ⟨30, 105, 0, (some 39), false, true, 86, 86, 860,
    (some ⟨1, 86, 810, [76, 130, 133, 122]⟩),
    none, [82, 84, 86, 89, 91], [], [86]⟩]),
  (train_ko1_15, [
   ⟨31, 15, 2, (some 34), true, false, 63, 63, 630,
    none,
    (some ⟨1, [78, 79, 80, 81, 120, 31, 94, 95, 143, 128, 41, 85, 145, 125], [18, 7, 6, 8, 12, 20, 23, 5, 19, 11, 16, 11, 17, 9], 18, [17, 19]⟩), [], [30, 22], [63]⟩,
   ⟨31, 15, 1, (some 2), true, false, 85, 85, 850,
    (some ⟨2, 81, 630, [78, 79, 80, 81, 120, 31, 94, 95, 143, 128, 41, 85, 145, 125]⟩),
    (some ⟨0, [76, 130, 133, 122], [8, 12, 22, 10], 5, [82, 84, 86, 89, 91]⟩), [17, 19], [9, 7, 6], [81]⟩,
   ⟨31, 15, 0, (some 15), false, true, 90, 90, 900,
    (some ⟨1, 90, 850, [76, 130, 133, 122]⟩),
    none, [82, 84, 86, 89, 91], [], [90]⟩]),
  (train_ko1_6405, [
   ⟨32, 6405, 2, (some 33), true, false, 74, 74, 740,
    none,
    (some ⟨1, [78, 79, 80, 81, 120, 31, 94, 95, 143, 128, 41, 85, 145, 125], [18, 7, 6, 8, 12, 20, 23, 5, 9, 11, 6, 11, 7, 9], 15, [17, 19]⟩), [], [36, 30, 22], [74]⟩,
   ⟨32, 6405, 1, (some 2), true, false, 89, 89, 890,
    (some ⟨2, 89, 740, [78, 79, 80, 81, 120, 31, 94, 95, 143, 128, 41, 85, 145, 125]⟩),
    (some ⟨0, [76, 130, 133, 122], [6, 10, 12, 10], 4, [81, 85, 88, 91]⟩), [17, 19], [9, 7, 6], [89]⟩,
   ⟨32, 6405, 0, (some 13), false, true, 93, 93, 930,
    (some ⟨1, 93, 890, [76, 130, 133, 122]⟩),
    none, [81, 85, 88, 91], [], [93]⟩]),
  (train_ko1_17, [
   ⟨33, 17, 2, (some 34), true, false, 78, 78, 780,
    none,
    (some ⟨1, [78, 79, 80, 81, 120, 31, 94, 95, 143, 128, 41, 85, 145, 125], [18, 7, 6, 8, 12, 20, 23, 5, 19, 11, 16, 11, 17, 9], 18, [17, 19]⟩), [], [30, 22], [78]⟩,
   ⟨33, 17, 1, (some 2), true, false, 100, 100, 1000,
    (some ⟨2, 96, 780, [78, 79, 80, 81, 120, 31, 94, 95, 143, 128, 41, 85, 145, 125]⟩),
    (some ⟨0, [76, 130, 133, 122], [8, 12, 22, 10], 5, [82, 84, 86, 89, 91]⟩), [17, 19], [9, 7, 6], [96]⟩,
   ⟨33, 17, 0, (some 15), false, true, 105, 105, 1050,
    (some ⟨1, 105, 1000, [76, 130, 133, 122]⟩),
    none, [82, 84, 86, 89, 91], [], [105]⟩]),
  (train_ko1_21, [
   ⟨34, 21, 2, (some 34), true, false, 83, 83, 830,
    none,
    (some ⟨1, [78, 79, 80, 81, 120, 31, 94, 95, 143, 128, 41, 85, 145, 125], [18, 7, 6, 8, 12, 20, 23, 5, 19, 11, 16, 11, 17, 9], 18, [17, 19]⟩), [], [30, 22], [83]⟩,
   ⟨34, 21, 1, (some 2), true, false, 105, 105, 1050,
    (some ⟨2, 101, 830, [78, 79, 80, 81, 120, 31, 94, 95, 143, 128, 41, 85, 145, 125]⟩),
    (some ⟨0, [76, 130, 133, 122], [8, 12, 22, 10], 5, [82, 84, 86, 89, 91]⟩), [17, 19], [9, 7, 6], [101]⟩,
   ⟨34, 21, 0, (some 15), false, true, 110, 110, 1100,
    (some ⟨1, 110, 1050, [76, 130, 133, 122]⟩),
    none, [82, 84, 86, 89, 91], [], [110]⟩]),
  (train_ko1_107, [
   ⟨35, 107, 1, (some 4), true, false, 111, 111, 1110,
    none,
    (some ⟨0, [76, 130, 133, 122], [8, 12, 22, 10], 5, [82, 84, 86, 89, 91]⟩), [], [7, 6], [111]⟩,
   ⟨35, 107, 0, (some 39), false, true, 116, 116, 1160,
    (some ⟨1, 116, 1110, [76, 130, 133, 122]⟩),
    none, [82, 84, 86, 89, 91], [], [116]⟩]),
  (train_ko1_23, [
   ⟨36, 23, 2, (some 34), true, false, 93, 93, 930,
    none,
    (some ⟨1, [78, 79, 80, 81, 120, 31, 94, 95, 143, 128, 41, 85, 145, 125], [18, 7, 6, 8, 12, 20, 23, 5, 19, 11, 16, 11, 17, 9], 18, [17, 19]⟩), [], [30, 22], [93]⟩,
   ⟨36, 23, 1, (some 2), true, false, 115, 115, 1150,
    (some ⟨2, 111, 930, [78, 79, 80, 81, 120, 31, 94, 95, 143, 128, 41, 85, 145, 125]⟩),
    (some ⟨0, [76, 130, 133, 122], [8, 12, 22, 10], 5, [82, 84, 86, 89, 91]⟩), [17, 19], [9, 7, 6], [111]⟩,
   ⟨36, 23, 0, (some 15), false, true, 120, 120, 1200,
    (some ⟨1, 120, 1150, [76, 130, 133, 122]⟩),
    none, [82, 84, 86, 89, 91], [], [120]⟩]),
  (train_ko1_6407, [
   ⟨37, 6407, 2, (some 33), true, false, 104, 104, 1040,
    none,
    (some ⟨1, [78, 79, 80, 81, 120, 31, 94, 95, 143, 128, 41, 85, 145, 125], [18, 7, 6, 8, 12, 20, 23, 5, 9, 11, 6, 11, 7, 9], 15, [17, 19]⟩), [], [36, 30, 22], [104]⟩,
   ⟨37, 6407, 1, (some 2), true, false, 119, 119, 1190,
    (some ⟨2, 119, 1040, [78, 79, 80, 81, 120, 31, 94, 95, 143, 128, 41, 85, 145, 125]⟩),
    (some ⟨0, [76, 130, 133, 122], [6, 10, 12, 10], 4, [81, 85, 88, 91]⟩), [17, 19], [9, 7, 6], [119]⟩,
   ⟨37, 6407, 0, (some 13), false, true, 123, 123, 1230,
    (some ⟨1, 123, 1190, [76, 130, 133, 122]⟩),
    none, [81, 85, 88, 91], [], [123]⟩]),
  (train_ko1_25, [
   ⟨38, 25, 2, (some 34), true, false, 108, 108, 1080,
    none,
    (some ⟨1, [78, 79, 80, 81, 120, 31, 94, 95, 143, 128, 41, 85, 145, 125], [18, 7, 6, 8, 12, 20, 23, 5, 19, 11, 16, 11, 17, 9], 18, [17, 19]⟩), [], [30, 22], [108]⟩,
   ⟨38, 25, 1, (some 2), true, false, 130, 130, 1300,
    (some ⟨2, 126, 1080, [78, 79, 80, 81, 120, 31, 94, 95, 143, 128, 41, 85, 145, 125]⟩),
    (some ⟨0, [76, 130, 133, 122], [8, 12, 22, 10], 5, [82, 84, 86, 89, 91]⟩), [17, 19], [9, 7, 6], [126]⟩,
   ⟨38, 25, 0, (some 15), false, true, 135, 135, 1350,
    (some ⟨1, 135, 1300, [76, 130, 133, 122]⟩),
    none, [82, 84, 86, 89, 91], [], [135]⟩]),
  (train_ko1_26, [
   ⟨39, 26, 0, (some 14), true, false, 120, 120, 1200,
    none,
    (some ⟨1, [83, 101, 84, 121], [9, 19, 8, 8], 4, [5, 8]⟩), [], [61, 64, 69, 71, 87, 92], [120]⟩,
   ⟨39, 26, 1, (some 1), true, false, 126, 126, 1260,
    (some ⟨0, 124, 1200, [83, 101, 84, 121]⟩),
    (some ⟨2, [77, 144, 119, 40, 86, 142, 87, 126, 30, 90, 91, 92, 93, 127], [15, 14, 8, 14, 13, 13, 7, 9, 15, 13, 9, 5, 7, 20], 16, [31, 33, 41]⟩), [5, 8], [16, 2], [124]⟩,
   ⟨39, 26, 2, (some 35), false, true, 142, 142, 1420,
    (some ⟨1, 142, 1260, [77, 144, 119, 40, 86, 142, 87, 126, 30, 90, 91, 92, 93, 127]⟩),
    none, [31, 33, 41], [], [142]⟩]),
  (train_ko1_4610, [
   ⟨40, 4610, 0, (some 10), true, false, 127, 127, 1270,
    none,
    (some ⟨1, [83, 101, 84, 121], [9, 12, 6, 7], 3, [5, 8]⟩), [], [66, 68, 71, 87, 92], [127]⟩,
   ⟨40, 4610, 1, (some 1), true, false, 133, 133, 1330,
    (some ⟨0, 130, 1270, [83, 101, 84, 121]⟩),
    (some ⟨2, [77, 144, 119, 40, 86, 142, 87, 126, 30, 90, 91, 92, 93, 127], [11, 9, 8, 7, 13, 7, 7, 9, 15, 13, 9, 5, 7, 20], 14, [31, 34, 43]⟩), [5, 8], [16, 2], [130]⟩,
   ⟨40, 4610, 2, (some 38), true, false, 152, 152, 1520,
    (some ⟨1, 147, 1330, [77, 144, 119, 40, 86, 142, 87, 126, 30, 90, 91, 92, 93, 127]⟩),
    none, [31, 34, 43], [], [147]⟩]),
  (train_ko1_28, [
   ⟨41, 28, 0, (some 14), true, false, 130, 130, 1300,
    none,
    (some ⟨1, [83, 101, 84, 121], [9, 19, 8, 8], 4, [5, 8]⟩), [], [61, 64, 69, 71, 87, 92], [130]⟩,
   ⟨41, 28, 1, (some 1), true, false, 136, 136, 1360,
    (some ⟨0, 134, 1300, [83, 101, 84, 121]⟩),
    (some ⟨2, [77, 144, 119, 40, 86, 142, 87, 126, 30, 90, 91, 92, 93, 127], [15, 14, 8, 14, 13, 13, 7, 9, 15, 13, 9, 5, 7, 20], 16, [31, 33, 41]⟩), [5, 8], [16, 2], [134]⟩,
   ⟨41, 28, 2, (some 35), false, true, 152, 152, 1520,
    (some ⟨1, 152, 1360, [77, 144, 119, 40, 86, 142, 87, 126, 30, 90, 91, 92, 93, 127]⟩),
    none, [31, 33, 41], [], [152]⟩]),
  (train_ko1_112, [
   ⟨42, 112, 0, (some 16), true, false, 135, 135, 1350,
    none,
    (some ⟨1, [83, 101, 84, 121], [9, 19, 8, 10], 5, [5, 8, 9]⟩), [], [62, 64, 69, 71, 87, 92], [135]⟩,
   ⟨42, 112, 1, (some 3), true, false, 143, 143, 1430,
    (some ⟨0, 140, 1350, [83, 101, 84, 121]⟩),
    none, [5, 8, 9], [], [140]⟩]),
  (train_ko1_30, [
   ⟨43, 30, 0, (some 14), true, false, 140, 140, 1400,
    none,
    (some ⟨1, [83, 101, 84, 121], [9, 19, 8, 8], 4, [5, 8]⟩), [], [61, 64, 69, 71, 87, 92], [140]⟩,
   ⟨43, 30, 1, (some 1), true, false, 146, 146, 1460,
    (some ⟨0, 144, 1400, [83, 101, 84, 121]⟩),
    (some ⟨2, [77, 144, 119, 40, 86, 142, 87, 126, 30, 90, 91, 92, 93, 127], [15, 14, 8, 14, 13, 13, 7, 9, 15, 13, 9, 5, 7, 20], 16, [31, 33, 41]⟩), [5, 8], [16, 2], [144]⟩,
   ⟨43, 30, 2, (some 35), false, true, 162, 162, 1620,
    (some ⟨1, 162, 1460, [77, 144, 119, 40, 86, 142, 87, 126, 30, 90, 91, 92, 93, 127]⟩),
    none, [31, 33, 41], [], [162]⟩]),
  (train_ko1_32, [
   ⟨44, 32, 0, (some 14), true, false, 150, 150, 1500,
    none,
    (some ⟨1, [83, 101, 84, 121], [9, 19, 8, 8], 4, [5, 8]⟩), [], [61, 64, 69, 71, 87, 92], [150]⟩,
   ⟨44, 32, 1, (some 1), true, false, 156, 156, 1560,
    (some ⟨0, 154, 1500, [83, 101, 84, 121]⟩),
    (some ⟨2, [77, 144, 119, 40, 86, 142, 87, 126, 30, 90, 91, 92, 93, 127], [15, 14, 8, 14, 13, 13, 7, 9, 15, 13, 9, 5, 7, 20], 16, [31, 33, 41]⟩), [5, 8], [16, 2], [154]⟩,
   ⟨44, 32, 2, (some 35), false, true, 172, 172, 1720,
    (some ⟨1, 172, 1560, [77, 144, 119, 40, 86, 142, 87, 126, 30, 90, 91, 92, 93, 127]⟩),
    none, [31, 33, 41], [], [172]⟩]),
  (train_ko1_4612, [
   ⟨45, 4612, 0, (some 10), true, false, 157, 157, 1570,
    none,
    (some ⟨1, [83, 101, 84, 121], [9, 12, 6, 7], 3, [5, 8]⟩), [], [66, 68, 71, 87, 92], [157]⟩,
   ⟨45, 4612, 1, (some 1), true, false, 163, 163, 1630,
    (some ⟨0, 160, 1570, [83, 101, 84, 121]⟩),
    (some ⟨2, [77, 144, 119, 40, 86, 142, 87, 126, 30, 90, 91, 92, 93, 127], [11, 9, 8, 7, 13, 7, 7, 9, 15, 13, 9, 5, 7, 20], 14, [31, 34, 43]⟩), [5, 8], [16, 2], [160]⟩,
   ⟨45, 4612, 2, (some 38), true, false, 182, 182, 1820,
    (some ⟨1, 177, 1630, [77, 144, 119, 40, 86, 142, 87, 126, 30, 90, 91, 92, 93, 127]⟩),
    none, [31, 34, 43], [], [177]⟩]),
  (train_ko1_34, [
   ⟨46, 34, 0, (some 14), true, false, 160, 160, 1600,
    none,
    (some ⟨1, [83, 101, 84, 121], [9, 19, 8, 8], 4, [5, 8]⟩), [], [61, 64, 69, 71, 87, 92], [160]⟩,
   ⟨46, 34, 1, (some 1), true, false, 166, 166, 1660,
    (some ⟨0, 164, 1600, [83, 101, 84, 121]⟩),
    (some ⟨2, [77, 144, 119, 40, 86, 142, 87, 126, 30, 90, 91, 92, 93, 127], [15, 14, 8, 14, 13, 13, 7, 9, 15, 13, 9, 5, 7, 20], 16, [31, 33, 41]⟩), [5, 8], [16, 2], [164]⟩,
   ⟨46, 34, 2, (some 35), false, true, 182, 182, 1820,
    (some ⟨1, 182, 1660, [77, 144, 119, 40, 86, 142, 87, 126, 30, 90, 91, 92, 93, 127]⟩),
    none, [31, 33, 41], [], [182]⟩]),
  (train_ko1_114, [
   ⟨47, 114, 0, (some 16), true, false, 165, 165, 1650,
    none,
    (some ⟨1, [83, 101, 84, 121], [9, 19, 8, 10], 5, [5, 8, 9]⟩), [], [62, 64, 69, 71, 87, 92], [165]⟩,
   ⟨47, 114, 1, (some 3), true, false, 173, 173, 1730,
    (some ⟨0, 170, 1650, [83, 101, 84, 121]⟩),
    none, [5, 8, 9], [], [170]⟩]),
  (train_ko1_36, [
   ⟨48, 36, 0, (some 14), true, false, 170, 170, 1700,
    none,
    (some ⟨1, [83, 101, 84, 121], [9, 19, 8, 8], 4, [5, 8]⟩), [], [61, 64, 69, 71, 87, 92], [170]⟩,
   ⟨48, 36, 1, (some 1), true, false, 176, 176, 1760,
    (some ⟨0, 174, 1700, [83, 101, 84, 121]⟩),
    (some ⟨2, [77, 144, 119, 40, 86, 142, 87, 126, 30, 90, 91, 92, 93, 127], [15, 14, 8, 14, 13, 13, 7, 9, 15, 13, 9, 5, 7, 20], 16, [31, 33, 41]⟩), [5, 8], [16, 2], [174]⟩,
   ⟨48, 36, 2, (some 35), false, true, 192, 192, 1920,
    (some ⟨1, 192, 1760, [77, 144, 119, 40, 86, 142, 87, 126, 30, 90, 91, 92, 93, 127]⟩),
    none, [31, 33, 41], [], [192]⟩]),
  (train_ko1_27, [
   ⟨49, 27, 2, (some 34), true, false, 113, 113, 1130,
    none,
    (some ⟨1, [78, 79, 80, 81, 120, 31, 94, 95, 143, 128, 41, 85, 145, 125], [18, 7, 6, 8, 12, 20, 23, 5, 19, 11, 16, 11, 17, 9], 18, [17, 19]⟩), [], [30, 22], [113]⟩,
   ⟨49, 27, 1, (some 2), true, false, 135, 135, 1350,
    (some ⟨2, 131, 1130, [78, 79, 80, 81, 120, 31, 94, 95, 143, 128, 41, 85, 145, 125]⟩),
    (some ⟨0, [76, 130, 133, 122], [8, 12, 22, 10], 5, [82, 84, 86, 89, 91]⟩), [17, 19], [9, 7, 6], [131]⟩,
   ⟨49, 27, 0, (some 15), false, true, 140, 140, 1400,
    (some ⟨1, 140, 1350, [76, 130, 133, 122]⟩),
    none, [82, 84, 86, 89, 91], [], [140]⟩]),
  (train_ko1_111, [
   ⟨50, 111, 1, (some 4), true, false, 141, 141, 1410,
    none,
    (some ⟨0, [76, 130, 133, 122], [8, 12, 22, 10], 5, [82, 84, 86, 89, 91]⟩), [], [7, 6], [141]⟩,
   ⟨50, 111, 0, (some 39), false, true, 146, 146, 1460,
    (some ⟨1, 146, 1410, [76, 130, 133, 122]⟩),
    none, [82, 84, 86, 89, 91], [], [146]⟩]),
  (train_ko1_31, [
   ⟨51, 31, 2, (some 34), true, false, 123, 123, 1230,
    none,
    (some ⟨1, [78, 79, 80, 81, 120, 31, 94, 95, 143, 128, 41, 85, 145, 125], [18, 7, 6, 8, 12, 20, 23, 5, 19, 11, 16, 11, 17, 9], 18, [17, 19]⟩), [], [30, 22], [123]⟩,
   ⟨51, 31, 1, (some 2), true, false, 145, 145, 1450,
    (some ⟨2, 141, 1230, [78, 79, 80, 81, 120, 31, 94, 95, 143, 128, 41, 85, 145, 125]⟩),
    (some ⟨0, [76, 130, 133, 122], [8, 12, 22, 10], 5, [82, 84, 86, 89, 91]⟩), [17, 19], [9, 7, 6], [141]⟩,
   ⟨51, 31, 0, (some 15), false, true, 150, 150, 1500,
    (some ⟨1, 150, 1450, [76, 130, 133, 122]⟩),
    none, [82, 84, 86, 89, 91], [], [150]⟩]),
  (train_ko1_6411, [
   ⟨52, 6411, 2, (some 33), true, false, 134, 134, 1340,
    none,
    (some ⟨1, [78, 79, 80, 81, 120, 31, 94, 95, 143, 128, 41, 85, 145, 125], [18, 7, 6, 8, 12, 20, 23, 5, 9, 11, 6, 11, 7, 9], 15, [17, 19]⟩), [], [36, 30, 22], [134]⟩,
   ⟨52, 6411, 1, (some 2), true, false, 149, 149, 1490,
    (some ⟨2, 149, 1340, [78, 79, 80, 81, 120, 31, 94, 95, 143, 128, 41, 85, 145, 125]⟩),
    (some ⟨0, [76, 130, 133, 122], [6, 10, 12, 10], 4, [81, 85, 88, 91]⟩), [17, 19], [9, 7, 6], [149]⟩,
   ⟨52, 6411, 0, (some 13), false, true, 153, 153, 1530,
    (some ⟨1, 153, 1490, [76, 130, 133, 122]⟩),
    none, [81, 85, 88, 91], [], [153]⟩]),
  (train_ko1_33, [
   ⟨53, 33, 2, (some 34), true, false, 138, 138, 1380,
    none,
    (some ⟨1, [78, 79, 80, 81, 120, 31, 94, 95, 143, 128, 41, 85, 145, 125], [18, 7, 6, 8, 12, 20, 23, 5, 19, 11, 16, 11, 17, 9], 18, [17, 19]⟩), [], [30, 22], [138]⟩,
   ⟨53, 33, 1, (some 2), true, false, 160, 160, 1600,
    (some ⟨2, 156, 1380, [78, 79, 80, 81, 120, 31, 94, 95, 143, 128, 41, 85, 145, 125]⟩),
    (some ⟨0, [76, 130, 133, 122], [8, 12, 22, 10], 5, [82, 84, 86, 89, 91]⟩), [17, 19], [9, 7, 6], [156]⟩,
   ⟨53, 33, 0, (some 15), false, true, 165, 165, 1650,
    (some ⟨1, 165, 1600, [76, 130, 133, 122]⟩),
    none, [82, 84, 86, 89, 91], [], [165]⟩]),
  (train_ko1_35, [
   ⟨54, 35, 2, (some 34), true, false, 143, 143, 1430,
    none,
    (some ⟨1, [78, 79, 80, 81, 120, 31, 94, 95, 143, 128, 41, 85, 145, 125], [18, 7, 6, 8, 12, 20, 23, 5, 19, 11, 16, 11, 17, 9], 18, [17, 19]⟩), [], [30, 22], [143]⟩,
   ⟨54, 35, 1, (some 2), true, false, 165, 165, 1650,
    (some ⟨2, 161, 1430, [78, 79, 80, 81, 120, 31, 94, 95, 143, 128, 41, 85, 145, 125]⟩),
    (some ⟨0, [76, 130, 133, 122], [8, 12, 22, 10], 5, [82, 84, 86, 89, 91]⟩), [17, 19], [9, 7, 6], [161]⟩,
   ⟨54, 35, 0, (some 15), false, true, 170, 170, 1700,
    (some ⟨1, 170, 1650, [76, 130, 133, 122]⟩),
    none, [82, 84, 86, 89, 91], [], [170]⟩]),
  (train_ko1_113, [
   ⟨55, 113, 1, (some 4), true, false, 171, 171, 1710,
    none,
    (some ⟨0, [76, 130, 133, 122], [8, 12, 22, 10], 5, [82, 84, 86, 89, 91]⟩), [], [7, 6], [171]⟩,
   ⟨55, 113, 0, (some 39), false, true, 176, 176, 1760,
    (some ⟨1, 176, 1710, [76, 130, 133, 122]⟩),
    none, [82, 84, 86, 89, 91], [], [176]⟩]),
  (train_ko1_37, [
   ⟨56, 37, 2, (some 34), true, false, 153, 153, 1530,
    none,
    (some ⟨1, [78, 79, 80, 81, 120, 31, 94, 95, 143, 128, 41, 85, 145, 125], [18, 7, 6, 8, 12, 20, 23, 5, 19, 11, 16, 11, 17, 9], 18, [17, 19]⟩), [], [30, 22], [153]⟩,
   ⟨56, 37, 1, (some 2), true, false, 175, 175, 1750,
    (some ⟨2, 171, 1530, [78, 79, 80, 81, 120, 31, 94, 95, 143, 128, 41, 85, 145, 125]⟩),
    (some ⟨0, [76, 130, 133, 122], [8, 12, 22, 10], 5, [82, 84, 86, 89, 91]⟩), [17, 19], [9, 7, 6], [171]⟩,
   ⟨56, 37, 0, (some 15), false, true, 180, 180, 1800,
    (some ⟨1, 180, 1750, [76, 130, 133, 122]⟩),
    none, [82, 84, 86, 89, 91], [], [180]⟩]),
  (train_ko1_6413, [
   ⟨57, 6413, 2, (some 33), true, false, 164, 164, 1640,
    none,
    (some ⟨1, [78, 79, 80, 81, 120, 31, 94, 95, 143, 128, 41, 85, 145, 125], [18, 7, 6, 8, 12, 20, 23, 5, 9, 11, 6, 11, 7, 9], 15, [17, 19]⟩), [], [36, 30, 22], [164]⟩,
   ⟨57, 6413, 1, (some 2), true, false, 179, 179, 1790,
    (some ⟨2, 179, 1640, [78, 79, 80, 81, 120, 31, 94, 95, 143, 128, 41, 85, 145, 125]⟩),
    (some ⟨0, [76, 130, 133, 122], [6, 10, 12, 10], 4, [81, 85, 88, 91]⟩), [17, 19], [9, 7, 6], [179]⟩,
   ⟨57, 6413, 0, (some 13), false, true, 183, 183, 1830,
    (some ⟨1, 183, 1790, [76, 130, 133, 122]⟩),
    none, [81, 85, 88, 91], [], [183]⟩]),
  (train_ko1_41, [
   ⟨58, 41, 2, (some 34), true, false, 168, 168, 1680,
    none,
    (some ⟨1, [78, 79, 80, 81, 120, 31, 94, 95, 143, 128, 41, 85, 145, 125], [18, 7, 6, 8, 12, 20, 23, 5, 19, 11, 16, 11, 17, 9], 18, [17, 19]⟩), [], [30, 22], [168]⟩,
   ⟨58, 41, 1, (some 2), true, false, 190, 190, 1900,
    (some ⟨2, 186, 1680, [78, 79, 80, 81, 120, 31, 94, 95, 143, 128, 41, 85, 145, 125]⟩),
    (some ⟨0, [76, 130, 133, 122], [8, 12, 22, 10], 5, [82, 84, 86, 89, 91]⟩), [17, 19], [9, 7, 6], [186]⟩,
   ⟨58, 41, 0, (some 15), false, true, 195, 195, 1950,
    (some ⟨1, 195, 1900, [76, 130, 133, 122]⟩),
    none, [82, 84, 86, 89, 91], [], [195]⟩])]

theorem ko1n2Plan_sections : ko1n2Plan.map Prod.fst = ko1 := rfl

theorem ko1n2Plan_ok : netKo.PlanOK "14:00" ko1n2Delays 40 netKoSpecial ko1n2Plan :=
  ko1Plan_ok.again rfl (by decide +kernel) (by decide +kernel) (by decide +kernel) (by decide +kernel)

theorem ko1n2_cost : netKo.costOK ko1n2Plan 12 = true := by decide +kernel

/-- the departures: train and station -/
def ko1n2Nodes : List (Nat × Nat) := [
  (6, 0), (8, 0), (8, 1), (12, 2), (13, 2), (13, 1), (12, 1), (6, 1), (6, 2)]

/-- the choices -/
def ko1n2Choices : List CodedNet.Choice := [
  .first 8 6 0, .first 13 12 2]

/-- the inequalities -/
def ko1n2Arcs : ArcTree :=
  .node ⟨.follow, 2, 1, 2, 2, 0, false⟩ (.node ⟨.run, 0, 2, 3, 6, 0, false⟩ (.node
  ⟨.run, 0, 5, 6, 20, 0, false⟩ (.node ⟨.run, 0, 1, 8, 5, 0, false⟩ .none .none) .none) (.node
  ⟨.run, 0, 4, 7, 15, 0, false⟩ .none .none)) (.node ⟨.follow, 4, 4, 5, 4, 0, false⟩ (.node
  ⟨.follow, 3, 5, 4, 5, 0, false⟩ (.node ⟨.run, 0, 8, 9, 15, 0, false⟩ .none .none) .none) (.node
  ⟨.follow, 1, 2, 1, 3, 0, false⟩ .none .none))

/-- the bounds of the departures -/
def ko1n2Times : TimeTree :=
  .node 7 0 7 (.node 57 0 97 (.node 63 4 103 (.node 39 6 79 .none .none) .none) (.node 25 0 65
  (.node 77 6 117 .none .none) .none)) (.node 57 0 97 (.node 24 0 64 (.node 62 0 102 .none .none)
  .none) (.node 47 4 87 .none .none))

/-- some of the cases -/
def ko1n2Case0 : SumTree :=
  .cases [] 0 (.leaf [6, 7, 8]) (.cases [0, 1] 1 (.leaf [4, 5]) (.leaf [2, 3]))

/-- all cases -/
def ko1n2Cases : SumTree :=
  ko1n2Case0

theorem ko1n2_cases : ko1n2Cases.check ko1n2Arcs 12 ko1n2Choices.length [] ko1n2Times 0 = true := by
  decide +kernel

theorem ko1n2_choices : ko1n2Choices.all (CodedNet.Choice.ok netKo netKoSpecial ko1n2Plan) = true := by
  decide +kernel

theorem ko1n2_arcs : ko1n2Arcs.toList.all
    (netKo.arcOK netKoSpecial ko1n2Plan ko1n2Nodes ko1n2Choices) = true := by decide +kernel

theorem ko1n2_times : netKo.startOK ko1n2Plan ko1n2Nodes 7 40 ko1n2Times = true := by decide +kernel

end Verif.Real
