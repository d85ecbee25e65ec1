import Verif.Proofs.PlanSum
import Verif.Proofs.PlanAgain
import Verif.Real.PlanKo1

/-!
# The sheet of `Verif.Real.Ko1` with given delays: a plan, and that no plan is better

Generated; see `CodedNet.Item` and `Verif/Proofs/SumTree.lean`. Case 1,
`disturbances[3]`, of `/repo/solve_KO_GLC_problems.py`, line 107;
`d_max` is 40. The sum of the delays that count is 84/4.
-/

namespace Verif.Real

set_option maxRecDepth 100000

/-- the given delays -/
def ko1n3Delays : List (Int × ℚ) := [
  (1, 2), (3, 2), (5, 7)]

/-- the plan, items by sections -/
def ko1n3Plan : CodedNet.Plan := [
  (train_ko1_2, [
   ⟨0, 2, 0, (some 14), true, false, 0, 0, 0,
    none,
    (some ⟨1, [83, 101, 84, 121], [9, 19, 8, 8], 4, [5, 8]⟩), [], [61, 64, 69, 71, 87, 92], [0]⟩,
   ⟨0, 2, 1, (some 1), true, false, 6, 6, 60,
    (some ⟨0, 4, 0, [83, 101, 84, 121]⟩),
    (some ⟨2, [77, 144, 119, 40, 86, 142, 87, 126, 30, 90, 91, 92, 93, 127], [15, 14, 8, 14, 13, 13, 7, 9, 15, 13, 9, 5, 7, 20], 16, [31, 33, 41]⟩), [5, 8], [16, 2], [4]⟩,
   ⟨0, 2, 2, (some 35), false, true, 22, 22, 220,
    (some ⟨1, 22, 60, [77, 144, 119, 40, 86, 142, 87, 126, 30, 90, 91, 92, 93, 127]⟩),
    none, [31, 33, 41], [], [22]⟩]),
  (train_ko1_4602, [
   ⟨1, 4602, 0, (some 10), true, false, 7, 7, 70,
    none,
    (some ⟨1, [83, 101, 84, 121], [9, 12, 6, 7], 3, [5, 8]⟩), [], [66, 68, 71, 87, 92], [7]⟩,
   ⟨1, 4602, 1, (some 1), true, false, 13, 13, 130,
    (some ⟨0, 10, 70, [83, 101, 84, 121]⟩),
    (some ⟨2, [77, 144, 119, 40, 86, 142, 87, 126, 30, 90, 91, 92, 93, 127], [11, 9, 8, 7, 13, 7, 7, 9, 15, 13, 9, 5, 7, 20], 14, [31, 34, 43]⟩), [5, 8], [16, 2], [10]⟩,
   ⟨1, 4602, 2, (some 38), true, false, 32, 32, 320,
    (some ⟨1, 27, 130, [77, 144, 119, 40, 86, 142, 87, 126, 30, 90, 91, 92, 93, 127]⟩),
    none, [31, 34, 43], [], [27]⟩]),
  (train_ko1_4, [
   ⟨2, 4, 0, (some 14), true, false, 10, 10, 100,
    none,
    (some ⟨1, [83, 101, 84, 121], [9, 19, 8, 8], 4, [5, 8]⟩), [], [61, 64, 69, 71, 87, 92], [10]⟩,
   ⟨2, 4, 1, (some 1), true, false, 16, 16, 160,
    (some ⟨0, 14, 100, [83, 101, 84, 121]⟩),
    (some ⟨2, [77, 144, 119, 40, 86, 142, 87, 126, 30, 90, 91, 92, 93, 127], [15, 14, 8, 14, 13, 13, 7, 9, 15, 13, 9, 5, 7, 20], 16, [31, 33, 41]⟩), [5, 8], [16, 2], [14]⟩,
   ⟨2, 4, 2, (some 35), false, true, 32, 32, 320,
    (some ⟨1, 32, 160, [77, 144, 119, 40, 86, 142, 87, 126, 30, 90, 91, 92, 93, 127]⟩),
    none, [31, 33, 41], [], [32]⟩]),
  (train_ko1_102, [
   ⟨3, 102, 0, (some 16), true, false, 45, 45, 450,
    none,
    (some ⟨1, [83, 101, 84, 121], [9, 19, 8, 10], 5, [5, 8, 9]⟩), [], [62, 64, 69, 71, 87, 92], [45]⟩,
   ⟨3, 102, 1, (some 3), true, false, 53, 53, 530,
    (some ⟨0, 50, 450, [83, 101, 84, 121]⟩),
    none, [5, 8, 9], [], [50]⟩]),
  (train_ko1_6, [
   ⟨4, 6, 0, (some 14), true, false, 20, 20, 200,
    none,
    (some ⟨1, [83, 101, 84, 121], [9, 19, 8, 8], 4, [5, 8]⟩), [], [61, 64, 69, 71, 87, 92], [20]⟩,
   ⟨4, 6, 1, (some 1), true, false, 26, 26, 260,
    (some ⟨0, 24, 200, [83, 101, 84, 121]⟩),
    (some ⟨2, [77, 144, 119, 40, 86, 142, 87, 126, 30, 90, 91, 92, 93, 127], [15, 14, 8, 14, 13, 13, 7, 9, 15, 13, 9, 5, 7, 20], 16, [31, 33, 41]⟩), [5, 8], [16, 2], [24]⟩,
   ⟨4, 6, 2, (some 35), false, true, 42, 42, 420,
    (some ⟨1, 42, 260, [77, 144, 119, 40, 86, 142, 87, 126, 30, 90, 91, 92, 93, 127]⟩),
    none, [31, 33, 41], [], [42]⟩]),
  (train_ko1_8, [
   ⟨5, 8, 0, (some 14), true, false, 30, 30, 300,
    none,
    (some ⟨1, [83, 101, 84, 121], [9, 19, 8, 8], 4, [5, 8]⟩), [], [61, 64, 69, 71, 87, 92], [30]⟩,
   ⟨5, 8, 1, (some 1), true, false, 36, 36, 360,
    (some ⟨0, 34, 300, [83, 101, 84, 121]⟩),
    (some ⟨2, [77, 144, 119, 40, 86, 142, 87, 126, 30, 90, 91, 92, 93, 127], [15, 14, 8, 14, 13, 13, 7, 9, 15, 13, 9, 5, 7, 20], 16, [31, 33, 41]⟩), [5, 8], [16, 2], [34]⟩,
   ⟨5, 8, 2, (some 35), false, true, 52, 52, 520,
    (some ⟨1, 52, 360, [77, 144, 119, 40, 86, 142, 87, 126, 30, 90, 91, 92, 93, 127]⟩),
    none, [31, 33, 41], [], [52]⟩]),
  (train_ko1_4604, [
   ⟨6, 4604, 0, (some 10), true, false, 37, 37, 370,
    none,
    (some ⟨1, [83, 101, 84, 121], [9, 12, 6, 7], 3, [5, 8]⟩), [], [66, 68, 71, 87, 92], [37]⟩,
   ⟨6, 4604, 1, (some 1), true, false, 43, 43, 430,
    (some ⟨0, 40, 370, [83, 101, 84, 121]⟩),
    (some ⟨2, [77, 144, 119, 40, 86, 142, 87, 126, 30, 90, 91, 92, 93, 127], [11, 9, 8, 7, 13, 7, 7, 9, 15, 13, 9, 5, 7, 20], 14, [31, 34, 43]⟩), [5, 8], [16, 2], [40]⟩,
   ⟨6, 4604, 2, (some 38), true, false, 62, 62, 620,
    (some ⟨1, 57, 430, [77, 144, 119, 40, 86, 142, 87, 126, 30, 90, 91, 92, 93, 127]⟩),
    none, [31, 34, 43], [], [57]⟩]),
  (train_ko1_10, [
   ⟨7, 10, 0, (some 14), true, false, 40, 40, 400,
    none,
    (some ⟨1, [83, 101, 84, 121], [9, 19, 8, 8], 4, [5, 8]⟩), [], [61, 64, 69, 71, 87, 92], [40]⟩,
   ⟨7, 10, 1, (some 1), true, false, 46, 46, 460,
    (some ⟨0, 44, 400, [83, 101, 84, 121]⟩),
    (some ⟨2, [77, 144, 119, 40, 86, 142, 87, 126, 30, 90, 91, 92, 93, 127], [15, 14, 8, 14, 13, 13, 7, 9, 15, 13, 9, 5, 7, 20], 16, [31, 33, 41]⟩), [5, 8], [16, 2], [44]⟩,
   ⟨7, 10, 2, (some 35), false, true, 62, 62, 620,
    (some ⟨1, 62, 460, [77, 144, 119, 40, 86, 142, 87, 126, 30, 90, 91, 92, 93, 127]⟩),
    none, [31, 33, 41], [], [62]⟩]),
  (train_ko1_12, [
   ⟨8, 12, 0, (some 14), true, false, 50, 50, 500,
    none,
    (some ⟨1, [83, 101, 84, 121], [9, 19, 8, 8], 4, [5, 8]⟩), [], [61, 64, 69, 71, 87, 92], [50]⟩,
   ⟨8, 12, 1, (some 1), true, false, 56, 56, 560,
    (some ⟨0, 54, 500, [83, 101, 84, 121]⟩),
    (some ⟨2, [77, 144, 119, 40, 86, 142, 87, 126, 30, 90, 91, 92, 93, 127], [15, 14, 8, 14, 13, 13, 7, 9, 15, 13, 9, 5, 7, 20], 16, [31, 33, 41]⟩), [5, 8], [16, 2], [54]⟩,
   ⟨8, 12, 2, (some 35), false, true, 72, 72, 720,
    (some ⟨1, 72, 560, [77, 144, 119, 40, 86, 142, 87, 126, 30, 90, 91, 92, 93, 127]⟩),
    none, [31, 33, 41], [], [72]⟩]),
  (train_ko1_1, [
   ⟨9, 1, 2, (some 34), true, false, -5, -5, -50,
    none,
    (some ⟨1, [78, 79, 80, 81, 120, 31, 94, 95, 143, 128, 41, 85, 145, 125], [18, 7, 6, 8, 12, 20, 23, 5, 19, 11, 16, 11, 17, 9], 18, [17, 19]⟩), [], [30, 22], [-5]⟩,
   ⟨9, 1, 1, (some 2), true, false, 15, 15, 150,
    (some ⟨2, 13, -50, [78, 79, 80, 81, 120, 31, 94, 95, 143, 128, 41, 85, 145, 125]⟩),
    (some ⟨0, [76, 130, 133, 122], [8, 12, 22, 10], 5, [82, 84, 86, 89, 91]⟩), [17, 19], [9, 7, 6], [13]⟩,
   ⟨9, 1, 0, (some 15), false, true, 20, 20, 200,
    (some ⟨1, 20, 150, [76, 130, 133, 122]⟩),
    none, [82, 84, 86, 89, 91], [], [20]⟩]),
  (train_ko1_101, [
   ⟨10, 101, 1, (some 4), true, false, 23, 23, 230,
    none,
    (some ⟨0, [76, 130, 133, 122], [8, 12, 22, 10], 5, [82, 84, 86, 89, 91]⟩), [], [7, 6], [23]⟩,
   ⟨10, 101, 0, (some 39), false, true, 28, 28, 280,
    (some ⟨1, 28, 230, [76, 130, 133, 122]⟩),
    none, [82, 84, 86, 89, 91], [], [28]⟩]),
  (train_ko1_3, [
   ⟨11, 3, 2, (some 34), true, false, 5, 5, 50,
    none,
    (some ⟨1, [78, 79, 80, 81, 120, 31, 94, 95, 143, 128, 41, 85, 145, 125], [18, 7, 6, 8, 12, 20, 23, 5, 19, 11, 16, 11, 17, 9], 18, [17, 19]⟩), [], [30, 22], [5]⟩,
   ⟨11, 3, 1, (some 2), true, false, 25, 26, 260,
    (some ⟨2, 23, 50, [78, 79, 80, 81, 120, 31, 94, 95, 143, 128, 41, 85, 145, 125]⟩),
    (some ⟨0, [76, 130, 133, 122], [8, 12, 22, 10], 5, [82, 84, 86, 89, 91]⟩), [17, 19], [9, 7, 6], [23]⟩,
   ⟨11, 3, 0, (some 15), false, true, 30, 31, 310,
    (some ⟨1, 31, 260, [76, 130, 133, 122]⟩),
    none, [82, 84, 86, 89, 91], [], [31]⟩]),
  (train_ko1_6401, [
   ⟨12, 6401, 2, (some 33), true, false, 16, 16, 160,
    none,
    (some ⟨1, [78, 79, 80, 81, 120, 31, 94, 95, 143, 128, 41, 85, 145, 125], [18, 7, 6, 8, 12, 20, 23, 5, 9, 11, 6, 11, 7, 9], 15, [17, 19]⟩), [], [36, 30, 22], [16]⟩,
   ⟨12, 6401, 1, (some 2), true, false, 31, 31, 310,
    (some ⟨2, 31, 160, [78, 79, 80, 81, 120, 31, 94, 95, 143, 128, 41, 85, 145, 125]⟩),
    (some ⟨0, [76, 130, 133, 122], [6, 10, 12, 10], 4, [81, 85, 88, 91]⟩), [17, 19], [9, 7, 6], [31]⟩,
   ⟨12, 6401, 0, (some 13), false, true, 35, 35, 350,
    (some ⟨1, 35, 310, [76, 130, 133, 122]⟩),
    none, [81, 85, 88, 91], [], [35]⟩]),
  (train_ko1_5, [
   ⟨13, 5, 2, (some 34), true, false, 25, 27, 270,
    none,
    (some ⟨1, [78, 79, 80, 81, 120, 31, 94, 95, 143, 128, 41, 85, 145, 125], [18, 7, 6, 8, 12, 20, 23, 5, 19, 11, 16, 11, 17, 9], 18, [17, 19]⟩), [], [30, 22], [25]⟩,
   ⟨13, 5, 1, (some 2), true, false, 45, 48, 480,
    (some ⟨2, 45, 270, [78, 79, 80, 81, 120, 31, 94, 95, 143, 128, 41, 85, 145, 125]⟩),
    (some ⟨0, [76, 130, 133, 122], [8, 12, 22, 10], 5, [82, 84, 86, 89, 91]⟩), [17, 19], [9, 7, 6], [45]⟩,
   ⟨13, 5, 0, (some 15), false, true, 50, 53, 530,
    (some ⟨1, 53, 480, [76, 130, 133, 122]⟩),
    none, [82, 84, 86, 89, 91], [], [53]⟩]),
  (train_ko1_7, [
   ⟨14, 7, 2, (some 34), true, false, 23, 23, 230,
    none,
    (some ⟨1, [78, 79, 80, 81, 120, 31, 94, 95, 143, 128, 41, 85, 145, 125], [18, 7, 6, 8, 12, 20, 23, 5, 19, 11, 16, 11, 17, 9], 18, [17, 19]⟩), [], [30, 22], [23]⟩,
   ⟨14, 7, 1, (some 2), true, false, 45, 45, 450,
    (some ⟨2, 41, 230, [78, 79, 80, 81, 120, 31, 94, 95, 143, 128, 41, 85, 145, 125]⟩),
    (some ⟨0, [76, 130, 133, 122], [8, 12, 22, 10], 5, [82, 84, 86, 89, 91]⟩), [17, 19], [9, 7, 6], [41]⟩,
   ⟨14, 7, 0, (some 15), false, true, 50, 50, 500,
    (some ⟨1, 50, 450, [76, 130, 133, 122]⟩),
    none, [82, 84, 86, 89, 91], [], [50]⟩]),
  (train_ko1_103, [
   ⟨15, 103, 1, (some 4), true, false, 53, 53, 530,
    none,
    (some ⟨0, [76, 130, 133, 122], [8, 12, 22, 10], 5, [82, 84, 86, 89, 91]⟩), [], [7, 6], [53]⟩,
   ⟨15, 103, 0, (some 39), false, true, 58, 58, 580,
    (some ⟨1, 58, 530, [76, 130, 133, 122]⟩),
    none, [82, 84, 86, 89, 91], [], [58]⟩]),
  (train_ko1_9, [
   ⟨16, 9, 2, (some 34), true, false, 33, 33, 330,
    none,
    (some ⟨1, [78, 79, 80, 81, 120, 31, 94, 95, 143, 128, 41, 85, 145, 125], [18, 7, 6, 8, 12, 20, 23, 5, 19, 11, 16, 11, 17, 9], 18, [17, 19]⟩), [], [30, 22], [33]⟩,
   ⟨16, 9, 1, (some 2), true, false, 55, 56, 560,
    (some ⟨2, 51, 330, [78, 79, 80, 81, 120, 31, 94, 95, 143, 128, 41, 85, 145, 125]⟩),
    (some ⟨0, [76, 130, 133, 122], [8, 12, 22, 10], 5, [82, 84, 86, 89, 91]⟩), [17, 19], [9, 7, 6], [51]⟩,
   ⟨16, 9, 0, (some 15), false, true, 60, 61, 610,
    (some ⟨1, 61, 560, [76, 130, 133, 122]⟩),
    none, [82, 84, 86, 89, 91], [], [61]⟩]),
  (train_ko1_6403, [
   ⟨17, 6403, 2, (some 33), true, false, 46, 46, 460,
    none,
    (some ⟨1, [78, 79, 80, 81, 120, 31, 94, 95, 143, 128, 41, 85, 145, 125], [18, 7, 6, 8, 12, 20, 23, 5, 9, 11, 6, 11, 7, 9], 15, [17, 19]⟩), [], [36, 30, 22], [46]⟩,
   ⟨17, 6403, 1, (some 2), true, false, 61, 61, 610,
    (some ⟨2, 61, 460, [78, 79, 80, 81, 120, 31, 94, 95, 143, 128, 41, 85, 145, 125]⟩),
    (some ⟨0, [76, 130, 133, 122], [6, 10, 12, 10], 4, [81, 85, 88, 91]⟩), [17, 19], [9, 7, 6], [61]⟩,
   ⟨17, 6403, 0, (some 13), false, true, 65, 65, 650,
    (some ⟨1, 65, 610, [76, 130, 133, 122]⟩),
    none, [81, 85, 88, 91], [], [65]⟩]),
  (train_ko1_11, [
   ⟨18, 11, 2, (some 34), true, false, 50, 50, 500,
    none,
    (some ⟨1, [78, 79, 80, 81, 120, 31, 94, 95, 143, 128, 41, 85, 145, 125], [18, 7, 6, 8, 12, 20, 23, 5, 19, 11, 16, 11, 17, 9], 18, [17, 19]⟩), [], [30, 22], [50]⟩,
   ⟨18, 11, 1, (some 2), true, false, 70, 70, 700,
    (some ⟨2, 68, 500, [78, 79, 80, 81, 120, 31, 94, 95, 143, 128, 41, 85, 145, 125]⟩),
    (some ⟨0, [76, 130, 133, 122], [8, 12, 22, 10], 5, [82, 84, 86, 89, 91]⟩), [17, 19], [9, 7, 6], [68]⟩,
   ⟨18, 11, 0, (some 15), false, true, 75, 75, 750,
    (some ⟨1, 75, 700, [76, 130, 133, 122]⟩),
    none, [82, 84, 86, 89, 91], [], [75]⟩]),
  (train_ko1_14, [
   ⟨19, 14, 0, (some 14), true, false, 60, 60, 600,
    none,
    (some ⟨1, [83, 101, 84, 121], [9, 19, 8, 8], 4, [5, 8]⟩), [], [61, 64, 69, 71, 87, 92], [60]⟩,
   ⟨19, 14, 1, (some 1), true, false, 66, 66, 660,
    (some ⟨0, 64, 600, [83, 101, 84, 121]⟩),
    (some ⟨2, [77, 144, 119, 40, 86, 142, 87, 126, 30, 90, 91, 92, 93, 127], [15, 14, 8, 14, 13, 13, 7, 9, 15, 13, 9, 5, 7, 20], 16, [31, 33, 41]⟩), [5, 8], [16, 2], [64]⟩,
   ⟨19, 14, 2, (some 35), false, true, 82, 82, 820,
    (some ⟨1, 82, 660, [77, 144, 119, 40, 86, 142, 87, 126, 30, 90, 91, 92, 93, 127]⟩),
    none, [31, 33, 41], [], [82]⟩]),
  (train_ko1_4606, [
   ⟨20, 4606, 0, (some 10), true, false, 67, 67, 670,
    none,
    (some ⟨1, [83, 101, 84, 121], [9, 12, 6, 7], 3, [5, 8]⟩), [], [66, 68, 71, 87, 92], [67]⟩,
   ⟨20, 4606, 1, (some 1), true, false, 73, 73, 730,
    (some ⟨0, 70, 670, [83, 101, 84, 121]⟩),
    (some ⟨2, [77, 144, 119, 40, 86, 142, 87, 126, 30, 90, 91, 92, 93, 127], [11, 9, 8, 7, 13, 7, 7, 9, 15, 13, 9, 5, 7, 20], 14, [31, 34, 43]⟩), [5, 8], [16, 2], [70]⟩,
   ⟨20, 4606, 2, (some 38), true, false, 92, 92, 920,
    (some ⟨1, 87, 730, [77, 144, 119, 40, 86, 142, 87, 126, 30, 90, 91, 92, 93, 127]⟩),
    none, [31, 34, 43], [], [87]⟩]),
  (train_ko1_16, [
   ⟨21, 16, 0, (some 14), true, false, 70, 70, 700,
    none,
    (some ⟨1, [83, 101, 84, 121], [9, 19, 8, 8], 4, [5, 8]⟩), [], [61, 64, 69, 71, 87, 92], [70]⟩,
   ⟨21, 16, 1, (some 1), true, false, 76, 76, 760,
    (some ⟨0, 74, 700, [83, 101, 84, 121]⟩),
    (some ⟨2, [77, 144, 119, 40, 86, 142, 87, 126, 30, 90, 91, 92, 93, 127], [15, 14, 8, 14, 13, 13, 7, 9, 15, 13, 9, 5, 7, 20], 16, [31, 33, 41]⟩), [5, 8], [16, 2], [74]⟩,
   ⟨21, 16, 2, (some 35), false, true, 92, 92, 920,
    (some ⟨1, 92, 760, [77, 144, 119, 40, 86, 142, 87, 126, 30, 90, 91, 92, 93, 127]⟩),
    none, [31, 33, 41], [], [92]⟩]),
  (train_ko1_106, [
   ⟨22, 106, 0, (some 16), true, false, 75, 75, 750,
    none,
    (some ⟨1, [83, 101, 84, 121], [9, 19, 8, 10], 5, [5, 8, 9]⟩), [], [62, 64, 69, 71, 87, 92], [75]⟩,
   ⟨22, 106, 1, (some 3), true, false, 83, 83, 830,
    (some ⟨0, 80, 750, [83, 101, 84, 121]⟩),
    none, [5, 8, 9], [], [80]⟩]),
  (train_ko1_18, [
   ⟨23, 18, 0, (some 14), true, false, 80, 80, 800,
    none,
    (some ⟨1, [83, 101, 84, 121], [9, 19, 8, 8], 4, [5, 8]⟩), [], [61, 64, 69, 71, 87, 92], [80]⟩,
   ⟨23, 18, 1, (some 1), true, false, 86, 86, 860,
    (some ⟨0, 84, 800, [83, 101, 84, 121]⟩),
    (some ⟨2, [77, 144, 119, 40, 86, 142, 87, 126, 30, 90, 91, 92, 93, 127], [15, 14, 8, 14, 13, 13, 7, 9, 15, 13, 9, 5, 7, 20], 16, [31, 33, 41]⟩), [5, 8], [16, 2], [84]⟩,
   ⟨23, 18, 2, (some 35), false, true, 102, 102, 1020,
    (some ⟨1, 102, 860, [77, 144, 119, 40, 86, 142, 87, 126, 30, 90, 91, 92, 93, 127]⟩),
    none, [31, 33, 41], [], [102]⟩]),
  (train_ko1_20, [
   ⟨24, 20, 0, (some 14), true, false, 90, 90, 900,
    none,
    (some ⟨1, [83, 101, 84, 121], [9, 19, 8, 8], 4, [5, 8]⟩), [], [61, 64, 69, 71, 87, 92], [90]⟩,
   ⟨24, 20, 1, (some 1), true, false, 96, 96, 960,
    (some ⟨0, 94, 900, [83, 101, 84, 121]⟩),
    (some ⟨2, [77, 144, 119, 40, 86, 142, 87, 126, 30, 90, 91, 92, 93, 127], [15, 14, 8, 14, 13, 13, 7, 9, 15, 13, 9, 5, 7, 20], 16, [31, 33, 41]⟩), [5, 8], [16, 2], [94]⟩,
   ⟨24, 20, 2, (some 35), false, true, 112, 112, 1120,
    (some ⟨1, 112, 960, [77, 144, 119, 40, 86, 142, 87, 126, 30, 90, 91, 92, 93, 127]⟩),
    none, [31, 33, 41], [], [112]⟩]),
  (train_ko1_4608, [
   ⟨25, 4608, 0, (some 10), true, false, 97, 97, 970,
    none,
    (some ⟨1, [83, 101, 84, 121], [9, 12, 6, 7], 3, [5, 8]⟩), [], [66, 68, 71, 87, 92], [97]⟩,
   ⟨25, 4608, 1, (some 1), true, false, 103, 103, 1030,
    (some ⟨0, 100, 970, [83, 101, 84, 121]⟩),
    (some ⟨2, [77, 144, 119, 40, 86, 142, 87, 126, 30, 90, 91, 92, 93, 127], [11, 9, 8, 7, 13, 7, 7, 9, 15, 13, 9, 5, 7, 20], 14, [31, 34, 43]⟩), [5, 8], [16, 2], [100]⟩,
   ⟨25, 4608, 2, (some 38), true, false, 122, 122, 1220,
    (some ⟨1, 117, 1030, [77, 144, 119, 40, 86, 142, 87, 126, 30, 90, 91, 92, 93, 127]⟩),
    none, [31, 34, 43], [], [117]⟩]),
  (train_ko1_22, [
   ⟨26, 22, 0, (some 14), true, false, 100, 100, 1000,
    none,
    (some ⟨1, [83, 101, 84, 121], [9, 19, 8, 8], 4, [5, 8]⟩), [], [61, 64, 69, 71, 87, 92], [100]⟩,
   ⟨26, 22, 1, (some 1), true, false, 106, 106, 1060,
    (some ⟨0, 104, 1000, [83, 101, 84, 121]⟩),
    (some ⟨2, [77, 144, 119, 40, 86, 142, 87, 126, 30, 90, 91, 92, 93, 127], [15, 14, 8, 14, 13, 13, 7, 9, 15, 13, 9, 5, 7, 20], 16, [31, 33, 41]⟩), [5, 8], [16, 2], [104]⟩,
   ⟨26, 22, 2, (some 35), false, true, 122, 122, 1220,
    (some ⟨1, 122, 1060, [77, 144, 119, 40, 86, 142, 87, 126, 30, 90, 91, 92, 93, 127]⟩),
    none, [31, 33, 41], [], [122]⟩]),
  (train_ko1_108, [
   ⟨27, 108, 0, (some 16), true, false, 105, 105, 1050,
    none,
    (some ⟨1, [83, 101, 84, 121], [9, 19, 8, 10], 5, [5, 8, 9]⟩), [], [62, 64, 69, 71, 87, 92], [105]⟩,
   ⟨27, 108, 1, (some 3), true, false, 113, 113, 1130,
    (some ⟨0, 110, 1050, [83, 101, 84, 121]⟩),
    none, [5, 8, 9], [], [110]⟩]),
  (train_ko1_24, [
   ⟨28, 24, 0, (some 14), true, false, 110, 110, 1100,
    none,
    (some ⟨1, [83, 101, 84, 121], [9, 19, 8, 8], 4, [5, 8]⟩), [], [61, 64, 69, 71, 87, 92], [110]⟩,
   ⟨28, 24, 1, (some 1), true, false, 116, 116, 1160,
    (some ⟨0, 114, 1100, [83, 101, 84, 121]⟩),
    (some ⟨2, [77, 144, 119, 40, 86, 142, 87, 126, 30, 90, 91, 92, 93, 127], [15, 14, 8, 14, 13, 13, 7, 9, 15, 13, 9, 5, 7, 20], 16, [31, 33, 41]⟩), [5, 8], [16, 2], [114]⟩,
   ⟨28, 24, 2, (some 35), false, true, 132, 132, 1320,
    (some ⟨1, 132, 1160, [77, 144, 119, 40, 86, 142, 87, 126, 30, 90, 91, 92, 93, 127]⟩),
    none, [31, 33, 41], [], [132]⟩]),
  (train_ko1_13, [
   ⟨29, 13, 2, (some 34), true, false, 55, 55, 550,
    none,
    (some ⟨1, [78, 79, 80, 81, 120, 31, 94, 95, 143, 128, 41, 85, 145, 125], [18, 7, 6, 8, 12, 20, 23, 5, 19, 11, 16, 11, 17, 9], 18, [17, 19]⟩), [], [30, 22], [55]⟩,
   ⟨29, 13, 1, (some 2), true, false, 75, 75, 750,
    (some ⟨2, 73, 550, [78, 79, 80, 81, 120, 31, 94, 95, 143, 128, 41, 85, 145, 125]⟩),
    (some ⟨0, [76, 130, 133, 122], [8, 12, 22, 10], 5, [82, 84, 86, 89, 91]⟩), [17, 19], [9, 7, 6], [73]⟩,
   ⟨29, 13, 0, (some 15), false, true, 80, 80, 800,
    (some ⟨1, 80, 750, [76, 130, 133, 122]⟩),
    none, [82, 84, 86, 89, 91], [], [80]⟩]),
  (train_ko1_105, [
   ⟨30, 105, 1, (some 4), true, false, 88, 88, 880,
    none,
    (some ⟨0, [76, 130, 133, 122], [8, 12, 22, 10], 5, [82, 84, 86, 89, 91]⟩), [], [7, 6], [88]⟩,
   ⟨30, 105, 0, (some 39), false, true, 93, 93, 930,
    (some ⟨1, 93, 880, [76, 130, 133, 122]⟩),
    none, [82, 84, 86, 89, 91], [], [93]⟩]),
  (train_ko1_15, [
   ⟨31, 15, 2, (some 34), true, false, 70, 70, 700,
    none,
    (some ⟨1, [78, 79, 80, 81, 120, 31, 94, 95, 143, 128, 41, 85, 145, 125], [18, 7, 6, 8, 12, 20, 23, 5, 19, 11, 16, 11, 17, 9], 18, [17, 19]⟩), [], [30, 22], [70]⟩,
   ⟨31, 15, 1, (some 2), true, false, 90, 91, 910,
    (some ⟨2, 88, 700, [78, 79, 80, 81, 120, 31, 94, 95, 143, 128, 41, 85, 145, 125]⟩),
    (some ⟨0, [76, 130, 133, 122], [8, 12, 22, 10], 5, [82, 84, 86, 89, 91]⟩), [17, 19], [9, 7, 6], [88]⟩,
   ⟨31, 15, 0, (some 15), false, true, 95, 96, 960,
    (some ⟨1, 96, 910, [76, 130, 133, 122]⟩),
    none, [82, 84, 86, 89, 91], [], [96]⟩]),
  (train_ko1_6405, [
   ⟨32, 6405, 2, (some 33), true, false, 81, 81, 810,
    none,
    (some ⟨1, [78, 79, 80, 81, 120, 31, 94, 95, 143, 128, 41, 85, 145, 125], [18, 7, 6, 8, 12, 20, 23, 5, 9, 11, 6, 11, 7, 9], 15, [17, 19]⟩), [], [36, 30, 22], [81]⟩,
   ⟨32, 6405, 1, (some 2), true, false, 96, 96, 960,
    (some ⟨2, 96, 810, [78, 79, 80, 81, 120, 31, 94, 95, 143, 128, 41, 85, 145, 125]⟩),
    (some ⟨0, [76, 130, 133, 122], [6, 10, 12, 10], 4, [81, 85, 88, 91]⟩), [17, 19], [9, 7, 6], [96]⟩,
   ⟨32, 6405, 0, (some 13), false, true, 100, 100, 1000,
    (some ⟨1, 100, 960, [76, 130, 133, 122]⟩),
    none, [81, 85, 88, 91], [], [100]⟩]),
  (train_ko1_17, [
   ⟨33, 17, 2, (some 34), true, false, 78, 85, 850,
    none,
    (some ⟨1, [78, 79, 80, 81, 120, 31, 94, 95, 143, 128, 41, 85, 145, 125], [18, 7, 6, 8, 12, 20, 23, 5, 19, 11, 16, 11, 17, 9], 18, [17, 19]⟩), [], [30, 22], [78]⟩,
   ⟨33, 17, 1, (some 2), true, false, 100, 105, 1050,
    (some ⟨2, 103, 850, [78, 79, 80, 81, 120, 31, 94, 95, 143, 128, 41, 85, 145, 125]⟩),
    (some ⟨0, [76, 130, 133, 122], [8, 12, 22, 10], 5, [82, 84, 86, 89, 91]⟩), [17, 19], [9, 7, 6], [103]⟩,
   ⟨33, 17, 0, (some 15), false, true, 105, 110, 1100,
    (some ⟨1, 110, 1050, [76, 130, 133, 122]⟩),
    none, [82, 84, 86, 89, 91], [], [110]⟩]),
  (train_ko1_21, [
   ⟨34, 21, 2, (some 34), true, false, 85, 89, 890,
    none,
    (some ⟨1, [78, 79, 80, 81, 120, 31, 94, 95, 143, 128, 41, 85, 145, 125], [18, 7, 6, 8, 12, 20, 23, 5, 19, 11, 16, 11, 17, 9], 18, [17, 19]⟩), [], [30, 22], [85]⟩,
   ⟨34, 21, 1, (some 2), true, false, 105, 109, 1090,
    (some ⟨2, 107, 890, [78, 79, 80, 81, 120, 31, 94, 95, 143, 128, 41, 85, 145, 125]⟩),
    (some ⟨0, [76, 130, 133, 122], [8, 12, 22, 10], 5, [82, 84, 86, 89, 91]⟩), [17, 19], [9, 7, 6], [107]⟩,
   ⟨34, 21, 0, (some 15), false, true, 110, 114, 1140,
    (some ⟨1, 114, 1090, [76, 130, 133, 122]⟩),
    none, [82, 84, 86, 89, 91], [], [114]⟩]),
  (train_ko1_107, [
   ⟨35, 107, 1, (some 4), true, false, 111, 112, 1120,
    none,
    (some ⟨0, [76, 130, 133, 122], [8, 12, 22, 10], 5, [82, 84, 86, 89, 91]⟩), [], [7, 6], [111]⟩,
   ⟨35, 107, 0, (some 39), false, true, 116, 117, 1170,
    (some ⟨1, 117, 1120, [76, 130, 133, 122]⟩),
    none, [82, 84, 86, 89, 91], [], [117]⟩]),
  (train_ko1_23, [
   ⟨36, 23, 2, (some 34), true, false, 95, 95, 950,
    none,
    (some ⟨1, [78, 79, 80, 81, 120, 31, 94, 95, 143, 128, 41, 85, 145, 125], [18, 7, 6, 8, 12, 20, 23, 5, 19, 11, 16, 11, 17, 9], 18, [17, 19]⟩), [], [30, 22], [95]⟩,
   ⟨36, 23, 1, (some 2), true, false, 115, 115, 1150,
    (some ⟨2, 113, 950, [78, 79, 80, 81, 120, 31, 94, 95, 143, 128, 41, 85, 145, 125]⟩),
    (some ⟨0, [76, 130, 133, 122], [8, 12, 22, 10], 5, [82, 84, 86, 89, 91]⟩), [17, 19], [9, 7, 6], [113]⟩,
   ⟨36, 23, 0, (some 15), false, true, 120, 120, 1200,
    (some ⟨1, 120, 1150, [76, 130, 133, 122]⟩),
    none, [82, 84, 86, 89, 91], [], [120]⟩]),
  (train_ko1_6407, [
   ⟨37, 6407, 2, (some 33), true, false, 104, 104, 1040,
    none,
    (some ⟨1, [78, 79, 80, 81, 120, 31, 94, 95, 143, 128, 41, 85, 145, 125], [18, 7, 6, 8, 12, 20, 23, 5, 9, 11, 6, 11, 7, 9], 15, [17, 19]⟩), [], [36, 30, 22], [104]⟩,
   ⟨37, 6407, 1, (some 2), true, false, 119, 119, 1190,
    (some ⟨2, 119, 1040, [78, 79, 80, 81, 120, 31, 94, 95, 143, 128, 41, 85, 145, 125]⟩),
    (some ⟨0, [76, 130, 133, 122], [6, 10, 12, 10], 4, [81, 85, 88, 91]⟩), [17, 19], [9, 7, 6], [119]⟩,
   ⟨37, 6407, 0, (some 13), false, true, 123, 123, 1230,
    (some ⟨1, 123, 1190, [76, 130, 133, 122]⟩),
    none, [81, 85, 88, 91], [], [123]⟩]),
  (train_ko1_25, [
   ⟨38, 25, 2, (some 34), true, false, 115, 117, 1170,
    none,
    (some ⟨1, [78, 79, 80, 81, 120, 31, 94, 95, 143, 128, 41, 85, 145, 125], [18, 7, 6, 8, 12, 20, 23, 5, 19, 11, 16, 11, 17, 9], 18, [17, 19]⟩), [], [30, 22], [115]⟩,
   ⟨38, 25, 1, (some 2), true, false, 135, 138, 1380,
    (some ⟨2, 135, 1170, [78, 79, 80, 81, 120, 31, 94, 95, 143, 128, 41, 85, 145, 125]⟩),
    (some ⟨0, [76, 130, 133, 122], [8, 12, 22, 10], 5, [82, 84, 86, 89, 91]⟩), [17, 19], [9, 7, 6], [135]⟩,
   ⟨38, 25, 0, (some 15), false, true, 140, 143, 1430,
    (some ⟨1, 143, 1380, [76, 130, 133, 122]⟩),
    none, [82, 84, 86, 89, 91], [], [143]⟩]),
  (train_ko1_26, [
   ⟨39, 26, 0, (some 14), true, false, 120, 120, 1200,
    none,
    (some ⟨1, [83, 101, 84, 121], [9, 19, 8, 8], 4, [5, 8]⟩), [], [61, 64, 69, 71, 87, 92], [120]⟩,
   ⟨39, 26, 1, (some 1), true, false, 126, 126, 1260,
    (some ⟨0, 124, 1200, [83, 101, 84, 121]⟩),
    (some ⟨2, [77, 144, 119, 40, 86, 142, 87, 126, 30, 90, 91, 92, 93, 127], [15, 14, 8, 14, 13, 13, 7, 9, 15, 13, 9, 5, 7, 20], 16, [31, 33, 41]⟩), [5, 8], [16, 2], [124]⟩,
   ⟨39, 26, 2, (some 35), false, true, 142, 142, 1420,
    (some ⟨1, 142, 1260, [77, 144, 119, 40, 86, 142, 87, 126, 30, 90, 91, 92, 93, 127]⟩),
    none, [31, 33, 41], [], [142]⟩]),
  (train_ko1_4610, [
   ⟨40, 4610, 0, (some 10), true, false, 127, 127, 1270,
    none,
    (some ⟨1, [83, 101, 84, 121], [9, 12, 6, 7], 3, [5, 8]⟩), [], [66, 68, 71, 87, 92], [127]⟩,
   ⟨40, 4610, 1, (some 1), true, false, 133, 133, 1330,
    (some ⟨0, 130, 1270, [83, 101, 84, 121]⟩),
    (some ⟨2, [77, 144, 119, 40, 86, 142, 87, 126, 30, 90, 91, 92, 93, 127], [11, 9, 8, 7, 13, 7, 7, 9, 15, 13, 9, 5, 7, 20], 14, [31, 34, 43]⟩), [5, 8], [16, 2], [130]⟩,
   ⟨40, 4610, 2, (some 38), true, false, 152, 152, 1520,
    (some ⟨1, 147, 1330, [77, 144, 119, 40, 86, 142, 87, 126, 30, 90, 91, 92, 93, 127]⟩),
    none, [31, 34, 43], [], [147]⟩]),
  (train_ko1_28, [
   ⟨41, 28, 0, (some 14), true, false, 130, 130, 1300,
    none,
    (some ⟨1, [83, 101, 84, 121], [9, 19, 8, 8], 4, [5, 8]⟩), [], [61, 64, 69, 71, 87, 92], [130]⟩,
   ⟨41, 28, 1, (some 1), true, false, 136, 136, 1360,
    (some ⟨0, 134, 1300, [83, 101, 84, 121]⟩),
    (some ⟨2, [77, 144, 119, 40, 86, 142, 87, 126, 30, 90, 91, 92, 93, 127], [15, 14, 8, 14, 13, 13, 7, 9, 15, 13, 9, 5, 7, 20], 16, [31, 33, 41]⟩), [5, 8], [16, 2], [134]⟩,
   ⟨41, 28, 2, (some 35), false, true, 152, 152, 1520,
    (some ⟨1, 152, 1360, [77, 144, 119, 40, 86, 142, 87, 126, 30, 90, 91, 92, 93, 127]⟩),
    none, [31, 33, 41], [], [152]⟩]),
  (train_ko1_112, [
   ⟨42, 112, 0, (some 16), true, false, 135, 135, 1350,
    none,
    (some ⟨1, [83, 101, 84, 121], [9, 19, 8, 10], 5, [5, 8, 9]⟩), [], [62, 64, 69, 71, 87, 92], [135]⟩,
   ⟨42, 112, 1, (some 3), true, false, 143, 143, 1430,
    (some ⟨0, 140, 1350, [83, 101, 84, 121]⟩),
    none, [5, 8, 9], [], [140]⟩]),
  (train_ko1_30, [
   ⟨43, 30, 0, (some 14), true, false, 140, 140, 1400,
    none,
    (some ⟨1, [83, 101, 84, 121], [9, 19, 8, 8], 4, [5, 8]⟩), [], [61, 64, 69, 71, 87, 92], [140]⟩,
   ⟨43, 30, 1, (some 1), true, false, 146, 146, 1460,
    (some ⟨0, 144, 1400, [83, 101, 84, 121]⟩),
    (some ⟨2, [77, 144, 119, 40, 86, 142, 87, 126, 30, 90, 91, 92, 93, 127], [15, 14, 8, 14, 13, 13, 7, 9, 15, 13, 9, 5, 7, 20], 16, [31, 33, 41]⟩), [5, 8], [16, 2], [144]⟩,
   ⟨43, 30, 2, (some 35), false, true, 162, 162, 1620,
    (some ⟨1, 162, 1460, [77, 144, 119, 40, 86, 142, 87, 126, 30, 90, 91, 92, 93, 127]⟩),
    none, [31, 33, 41], [], [162]⟩]),
  (train_ko1_32, [
   ⟨44, 32, 0, (some 14), true, false, 150, 150, 1500,
    none,
    (some ⟨1, [83, 101, 84, 121], [9, 19, 8, 8], 4, [5, 8]⟩), [], [61, 64, 69, 71, 87, 92], [150]⟩,
   ⟨44, 32, 1, (some 1), true, false, 156, 156, 1560,
    (some ⟨0, 154, 1500, [83, 101, 84, 121]⟩),
    (some ⟨2, [77, 144, 119, 40, 86, 142, 87, 126, 30, 90, 91, 92, 93, 127], [15, 14, 8, 14, 13, 13, 7, 9, 15, 13, 9, 5, 7, 20], 16, [31, 33, 41]⟩), [5, 8], [16, 2], [154]⟩,
   ⟨44, 32, 2, (some 35), false, true, 172, 172, 1720,
    (some ⟨1, 172, 1560, [77, 144, 119, 40, 86, 142, 87, 126, 30, 90, 91, 92, 93, 127]⟩),
    none, [31, 33, 41], [], [172]⟩]),
  (train_ko1_4612, [
   ⟨45, 4612, 0, (some 10), true, false, 157, 157, 1570,
    none,
    (some ⟨1, [83, 101, 84, 121], [9, 12, 6, 7], 3, [5, 8]⟩), [], [66, 68, 71, 87, 92], [157]⟩,
   ⟨45, 4612, 1, (some 1), true, false, 163, 163, 1630,
    (some ⟨0, 160, 1570, [83, 101, 84, 121]⟩),
    (some ⟨2, [77, 144, 119, 40, 86, 142, 87, 126, 30, 90, 91, 92, 93, 127], [11, 9, 8, 7, 13, 7, 7, 9, 15, 13, 9, 5, 7, 20], 14, [31, 34, 43]⟩), [5, 8], [16, 2], [160]⟩,
   ⟨45, 4612, 2, (some 38), true, false, 182, 182, 1820,
    (some ⟨1, 177, 1630, [77, 144, 119, 40, 86, 142, 87, 126, 30, 90, 91, 92, 93, 127]⟩),
    none, [31, 34, 43], [], [177]⟩]),
  (train_ko1_34, [
   ⟨46, 34, 0, (some 14), true, false, 160, 160, 1600,
    none,
    (some ⟨1, [83, 101, 84, 121], [9, 19, 8, 8], 4, [5, 8]⟩), [], [61, 64, 69, 71, 87, 92], [160]⟩,
   ⟨46, 34, 1, (some 1), true, false, 166, 166, 1660,
    (some ⟨0, 164, 1600, [83, 101, 84, 121]⟩),
    (some ⟨2, [77, 144, 119, 40, 86, 142, 87, 126, 30, 90, 91, 92, 93, 127], [15, 14, 8, 14, 13, 13, 7, 9, 15, 13, 9, 5, 7, 20], 16, [31, 33, 41]⟩), [5, 8], [16, 2], [164]⟩,
   ⟨46, 34, 2, (some 35), false, true, 182, 182, 1820,
    (some ⟨1, 182, 1660, [77, 144, 119, 40, 86, 142, 87, 126, 30, 90, 91, 92, 93, 127]⟩),
    none, [31, 33, 41], [], [182]⟩]),
  (train_ko1_114, [
   ⟨47, 114, 0, (some 16), true, false, 165, 166, 1660,
    none,
    (some ⟨1, [83, 101, 84, 121], [9, 19, 8, 10], 5, [5, 8, 9]⟩), [], [62, 64, 69, 71, 87, 92], [165]⟩,
   ⟨47, 114, 1, (some 3), true, false, 173, 173, 1730,
    (some ⟨0, 171, 1660, [83, 101, 84, 121]⟩),
    none, [5, 8, 9], [], [171]⟩]),
  (train_ko1_36, [
   ⟨48, 36, 0, (some 14), true, false, 170, 170, 1700,
    none,
    (some ⟨1, [83, 101, 84, 121], [9, 19, 8, 8], 4, [5, 8]⟩), [], [61, 64, 69, 71, 87, 92], [170]⟩,
   ⟨48, 36, 1, (some 1), true, false, 176, 176, 1760,
    (some ⟨0, 174, 1700, [83, 101, 84, 121]⟩),
    (some ⟨2, [77, 144, 119, 40, 86, 142, 87, 126, 30, 90, 91, 92, 93, 127], [15, 14, 8, 14, 13, 13, 7, 9, 15, 13, 9, 5, 7, 20], 16, [31, 33, 41]⟩), [5, 8], [16, 2], [174]⟩,
   ⟨48, 36, 2, (some 35), false, true, 192, 192, 1920,
    (some ⟨1, 192, 1760, [77, 144, 119, 40, 86, 142, 87, 126, 30, 90, 91, 92, 93, 127]⟩),
    none, [31, 33, 41], [], [192]⟩]),
  (train_ko1_27, [
   ⟨49, 27, 2, (some 34), true, false, 113, 113, 1130,
    none,
    (some ⟨1, [78, 79, 80, 81, 120, 31, 94, 95, 143, 128, 41, 85, 145, 125], [18, 7, 6, 8, 12, 20, 23, 5, 19, 11, 16, 11, 17, 9], 18, [17, 19]⟩), [], [30, 22], [113]⟩,
   ⟨49, 27, 1, (some 2), true, false, 135, 135, 1350,
    (some ⟨2, 131, 1130, [78, 79, 80, 81, 120, 31, 94, 95, 143, 128, 41, 85, 145, 125]⟩),
    (some ⟨0, [76, 130, 133, 122], [8, 12, 22, 10], 5, [82, 84, 86, 89, 91]⟩), [17, 19], [9, 7, 6], [131]⟩,
   ⟨49, 27, 0, (some 15), false, true, 140, 140, 1400,
    (some ⟨1, 140, 1350, [76, 130, 133, 122]⟩),
    none, [82, 84, 86, 89, 91], [], [140]⟩]),
  (train_ko1_111, [
   ⟨50, 111, 1, (some 4), true, false, 143, 143, 1430,
    none,
    (some ⟨0, [76, 130, 133, 122], [8, 12, 22, 10], 5, [82, 84, 86, 89, 91]⟩), [], [7, 6], [143]⟩,
   ⟨50, 111, 0, (some 39), false, true, 148, 148, 1480,
    (some ⟨1, 148, 1430, [76, 130, 133, 122]⟩),
    none, [82, 84, 86, 89, 91], [], [148]⟩]),
  (train_ko1_31, [
   ⟨51, 31, 2, (some 34), true, false, 125, 125, 1250,
    none,
    (some ⟨1, [78, 79, 80, 81, 120, 31, 94, 95, 143, 128, 41, 85, 145, 125], [18, 7, 6, 8, 12, 20, 23, 5, 19, 11, 16, 11, 17, 9], 18, [17, 19]⟩), [], [30, 22], [125]⟩,
   ⟨51, 31, 1, (some 2), true, false, 145, 146, 1460,
    (some ⟨2, 143, 1250, [78, 79, 80, 81, 120, 31, 94, 95, 143, 128, 41, 85, 145, 125]⟩),
    (some ⟨0, [76, 130, 133, 122], [8, 12, 22, 10], 5, [82, 84, 86, 89, 91]⟩), [17, 19], [9, 7, 6], [143]⟩,
   ⟨51, 31, 0, (some 15), false, true, 150, 151, 1510,
    (some ⟨1, 151, 1460, [76, 130, 133, 122]⟩),
    none, [82, 84, 86, 89, 91], [], [151]⟩]),
  (train_ko1_6411, [
   ⟨52, 6411, 2, (some 33), true, false, 136, 136, 1360,
    none,
    (some ⟨1, [78, 79, 80, 81, 120, 31, 94, 95, 143, 128, 41, 85, 145, 125], [18, 7, 6, 8, 12, 20, 23, 5, 9, 11, 6, 11, 7, 9], 15, [17, 19]⟩), [], [36, 30, 22], [136]⟩,
   ⟨52, 6411, 1, (some 2), true, false, 151, 151, 1510,
    (some ⟨2, 151, 1360, [78, 79, 80, 81, 120, 31, 94, 95, 143, 128, 41, 85, 145, 125]⟩),
    (some ⟨0, [76, 130, 133, 122], [6, 10, 12, 10], 4, [81, 85, 88, 91]⟩), [17, 19], [9, 7, 6], [151]⟩,
   ⟨52, 6411, 0, (some 13), false, true, 155, 155, 1550,
    (some ⟨1, 155, 1510, [76, 130, 133, 122]⟩),
    none, [81, 85, 88, 91], [], [155]⟩]),
  (train_ko1_33, [
   ⟨53, 33, 2, (some 34), true, false, 140, 140, 1400,
    none,
    (some ⟨1, [78, 79, 80, 81, 120, 31, 94, 95, 143, 128, 41, 85, 145, 125], [18, 7, 6, 8, 12, 20, 23, 5, 19, 11, 16, 11, 17, 9], 18, [17, 19]⟩), [], [30, 22], [140]⟩,
   ⟨53, 33, 1, (some 2), true, false, 160, 160, 1600,
    (some ⟨2, 158, 1400, [78, 79, 80, 81, 120, 31, 94, 95, 143, 128, 41, 85, 145, 125]⟩),
    (some ⟨0, [76, 130, 133, 122], [8, 12, 22, 10], 5, [82, 84, 86, 89, 91]⟩), [17, 19], [9, 7, 6], [158]⟩,
   ⟨53, 33, 0, (some 15), false, true, 165, 165, 1650,
    (some ⟨1, 165, 1600, [76, 130, 133, 122]⟩),
    none, [82, 84, 86, 89, 91], [], [165]⟩]),
  (train_ko1_35, [
   ⟨54, 35, 2, (some 34), true, false, 150, 150, 1500,
    none,
    (some ⟨1, [78, 79, 80, 81, 120, 31, 94, 95, 143, 128, 41, 85, 145, 125], [18, 7, 6, 8, 12, 20, 23, 5, 19, 11, 16, 11, 17, 9], 18, [17, 19]⟩), [], [30, 22], [150]⟩,
   ⟨54, 35, 1, (some 2), true, false, 170, 170, 1700,
    (some ⟨2, 168, 1500, [78, 79, 80, 81, 120, 31, 94, 95, 143, 128, 41, 85, 145, 125]⟩),
    (some ⟨0, [76, 130, 133, 122], [8, 12, 22, 10], 5, [82, 84, 86, 89, 91]⟩), [17, 19], [9, 7, 6], [168]⟩,
   ⟨54, 35, 0, (some 15), false, true, 175, 175, 1750,
    (some ⟨1, 175, 1700, [76, 130, 133, 122]⟩),
    none, [82, 84, 86, 89, 91], [], [175]⟩]),
  (train_ko1_113, [
   ⟨55, 113, 1, (some 4), true, false, 173, 173, 1730,
    none,
    (some ⟨0, [76, 130, 133, 122], [8, 12, 22, 10], 5, [82, 84, 86, 89, 91]⟩), [], [7, 6], [173]⟩,
   ⟨55, 113, 0, (some 39), false, true, 178, 178, 1780,
    (some ⟨1, 178, 1730, [76, 130, 133, 122]⟩),
    none, [82, 84, 86, 89, 91], [], [178]⟩]),
  (train_ko1_37, [
   ⟨56, 37, 2, (some 34), true, false, 153, 154, 1540,
    none,
    (some ⟨1, [78, 79, 80, 81, 120, 31, 94, 95, 143, 128, 41, 85, 145, 125], [18, 7, 6, 8, 12, 20, 23, 5, 19, 11, 16, 11, 17, 9], 18, [17, 19]⟩), [], [30, 22], [153]⟩,
   ⟨56, 37, 1, (some 2), true, false, 175, 176, 1760,
    (some ⟨2, 172, 1540, [78, 79, 80, 81, 120, 31, 94, 95, 143, 128, 41, 85, 145, 125]⟩),
    (some ⟨0, [76, 130, 133, 122], [8, 12, 22, 10], 5, [82, 84, 86, 89, 91]⟩), [17, 19], [9, 7, 6], [172]⟩,
   ⟨56, 37, 0, (some 15), false, true, 180, 181, 1810,
    (some ⟨1, 181, 1760, [76, 130, 133, 122]⟩),
    none, [82, 84, 86, 89, 91], [], [181]⟩]),
  (train_ko1_6413, [
   ⟨57, 6413, 2, (some 33), true, false, 166, 166, 1660,
    none,
    (some ⟨1, [78, 79, 80, 81, 120, 31, 94, 95, 143, 128, 41, 85, 145, 125], [18, 7, 6, 8, 12, 20, 23, 5, 9, 11, 6, 11, 7, 9], 15, [17, 19]⟩), [], [36, 30, 22], [166]⟩,
   ⟨57, 6413, 1, (some 2), true, false, 181, 181, 1810,
    (some ⟨2, 181, 1660, [78, 79, 80, 81, 120, 31, 94, 95, 143, 128, 41, 85, 145, 125]⟩),
    (some ⟨0, [76, 130, 133, 122], [6, 10, 12, 10], 4, [81, 85, 88, 91]⟩), [17, 19], [9, 7, 6], [181]⟩,
   ⟨57, 6413, 0, (some 13), false, true, 185, 185, 1850,
    (some ⟨1, 185, 1810, [76, 130, 133, 122]⟩),
    none, [81, 85, 88, 91], [], [185]⟩]),
  (train_ko1_41, [
   ⟨58, 41, 2, (some 34), true, false, 170, 170, 1700,
    none,
    (some ⟨1, [78, 79, 80, 81, 120, 31, 94, 95, 143, 128, 41, 85, 145, 125], [18, 7, 6, 8, 12, 20, 23, 5, 19, 11, 16, 11, 17, 9], 18, [17, 19]⟩), [], [30, 22], [170]⟩,
   ⟨58, 41, 1, (some 2), true, false, 190, 190, 1900,
    (some ⟨2, 188, 1700, [78, 79, 80, 81, 120, 31, 94, 95, 143, 128, 41, 85, 145, 125]⟩),
    (some ⟨0, [76, 130, 133, 122], [8, 12, 22, 10], 5, [82, 84, 86, 89, 91]⟩), [17, 19], [9, 7, 6], [188]⟩,
   ⟨58, 41, 0, (some 15), false, true, 195, 195, 1950,
    (some ⟨1, 195, 1900, [76, 130, 133, 122]⟩),
    none, [82, 84, 86, 89, 91], [], [195]⟩])]

theorem ko1n3Plan_sections : ko1n3Plan.map Prod.fst = ko1 := rfl

theorem ko1n3Plan_ok : netKo.PlanOK "14:00" ko1n3Delays 40 netKoSpecial ko1n3Plan :=
  ko1Plan_ok.again rfl (by decide +kernel) (by decide +kernel) (by decide +kernel) (by decide +kernel)

theorem ko1n3_cost : netKo.costOK ko1n3Plan 84 = true := by decide +kernel

/-- the departures: train and station -/
def ko1n3Nodes : List (Nat × Nat) := [
  (34, 2), (36, 2), (14, 1), (13, 1), (36, 1), (49, 1), (38, 1), (32, 2), (33, 2), (33, 1),
  (34, 1), (12, 1), (10, 1), (17, 1), (15, 1), (32, 1), (30, 1), (52, 1), (50, 1), (57, 1),
  (55, 1), (11, 1), (16, 1), (31, 1), (35, 1), (51, 1), (56, 1), (49, 2), (38, 2), (14, 2), (13, 2)]

/-- the choices -/
def ko1n3Choices : List CodedNet.Choice := [
  .first 13 14 2, .first 33 34 2, .first 34 36 2, .first 38 49 2, .first 13 14 1, .first 34 32 1,
  .first 34 36 1, .first 38 49 1, .first 33 32 2, .first 10 12 1, .first 15 17 1, .first 30 32 1,
  .first 50 52 1, .first 55 57 1, .first 10 11 1, .first 15 16 1, .first 30 31 1, .first 35 34 1,
  .first 50 51 1, .first 55 56 1, .first 34 32 2, .first 33 32 1]

/-- the inequalities -/
def ko1n3Arcs : ArcTree :=
  .node ⟨.track, 4, 1, 0, 0, 78, false⟩ (.node ⟨.track, 6, 2, 0, 0, 85, false⟩ (.node
  ⟨.track, 14, 5, 1, 0, 18, false⟩ (.node ⟨.run, 0, 9, 10, 20, 0, false⟩ (.node
  ⟨.follow, 30, 22, 13, 3, 0, false⟩ (.node ⟨.follow, 43, 10, 16, 4, 0, false⟩ .none .none) .none)
  (.node ⟨.follow, 38, 26, 19, 3, 0, false⟩ (.node ⟨.follow, 11, 11, 16, 4, 0, false⟩ .none .none)
  .none)) (.node ⟨.follow, 22, 14, 15, 2, 0, false⟩ (.node ⟨.follow, 31, 15, 23, 3, 0, false⟩
  (.node ⟨.track, 12, 16, 1, 0, 18, false⟩ .none .none) .none) (.node
  ⟨.follow, 35, 25, 11, 3, 0, false⟩ (.node ⟨.track, 7, 29, 0, 0, 113, false⟩ .none .none) .none)))
  (.node ⟨.follow, 16, 6, 7, 3, 0, false⟩ (.node ⟨.run, 0, 1, 11, 20, 0, false⟩ (.node
  ⟨.follow, 29, 13, 22, 3, 0, false⟩ (.node ⟨.follow, 42, 8, 1, 4, 0, false⟩ .none .none) .none)
  (.node ⟨.follow, 40, 27, 21, 3, 0, false⟩ (.node ⟨.run, 0, 31, 4, 20, 0, false⟩ .none .none)
  .none)) (.node ⟨.follow, 26, 18, 19, 2, 0, false⟩ (.node ⟨.follow, 33, 17, 24, 3, 0, false⟩
  (.node ⟨.run, 0, 29, 7, 20, 0, false⟩ .none .none) .none) (.node ⟨.run, 0, 8, 16, 15, 0, false⟩
  .none .none)))) (.node ⟨.follow, 10, 3, 4, 3, 0, false⟩ (.node ⟨.track, 5, 1, 0, 0, 95, false⟩
  (.node ⟨.follow, 3, 9, 1, 4, 0, false⟩ (.node ⟨.follow, 19, 13, 12, 4, 0, false⟩ (.node
  ⟨.track, 43, 10, 8, 0, 15, false⟩ .none .none) .none) (.node ⟨.follow, 37, 19, 26, 3, 0, false⟩
  (.node ⟨.follow, 2, 30, 31, 4, 0, false⟩ .none .none) .none)) (.node
  ⟨.follow, 24, 16, 17, 2, 0, false⟩ (.node ⟨.follow, 34, 24, 17, 3, 0, false⟩ (.node
  ⟨.follow, 8, 28, 29, 4, 0, false⟩ .none .none) .none) (.node ⟨.follow, 17, 9, 8, 5, 0, false⟩
  (.node ⟨.track, 1, 31, 0, 0, 23, false⟩ .none .none) .none))) (.node
  ⟨.follow, 18, 8, 9, 4, 0, false⟩ (.node ⟨.follow, 20, 12, 13, 2, 0, false⟩ (.node
  ⟨.follow, 32, 23, 15, 3, 0, false⟩ (.node ⟨.follow, 41, 1, 8, 5, 0, false⟩ .none .none) .none)
  (.node ⟨.follow, 39, 21, 27, 3, 0, false⟩ (.node ⟨.track, 9, 4, 30, 0, 18, false⟩ .none .none)
  .none)) (.node ⟨.follow, 28, 20, 21, 2, 0, false⟩ (.node ⟨.follow, 36, 11, 25, 3, 0, false⟩
  (.node ⟨.track, 15, 7, 28, 0, 18, false⟩ .none .none) .none) (.node
  ⟨.track, 44, 16, 9, 0, 18, false⟩ .none .none))))

/-- the bounds of the departures -/
def ko1n3Times : TimeTree :=
  .node 5 0 5 (.node 90 0 130 (.node 50 4 90 (.node 140 4 180 (.node 58 4 98 (.node 30 0 70 .none
  .none) .none) (.node 60 4 100 .none .none)) (.node 110 4 150 (.node 148 4 188 .none .none) (.node
  180 4 220 .none .none))) (.node 120 4 160 (.node 83 0 123 (.node 93 4 133 .none .none) (.node 116
  4 156 .none .none)) (.node 28 4 68 (.node 178 4 218 .none .none) (.node 120 0 160 .none .none))))
  (.node 100 0 140 (.node 50 4 90 (.node 86 0 126 (.node 101 6 141 .none .none) (.node 95 4 135
  .none .none)) (.node 36 6 76 (.node 186 6 226 .none .none) (.node 118 0 158 .none .none))) (.node
  140 4 180 (.node 105 4 145 (.node 156 6 196 .none .none) (.node 150 4 190 .none .none)) (.node 66
  6 106 (.node 30 4 70 .none .none) (.node 28 0 68 .none .none))))

/-- some of the cases -/
def ko1n3Case0 : SumTree :=
  .cases [] 0 (.leaf [44]) (.cases [] 1 (.cases [] 2 (.cases [] 3 (.leaf [43]) (.cases [] 4 (.cycle
  30 [40, 41, 42]) (.cases [2] 5 (.leaf [39]) (.cases [] 6 (.cases [] 7 (.cycle 28 [36, 37, 38])
  (.cases [5] 8 (.cases [] 20 (.cycle 1 [34, 29, 35]) (.cases [] 21 (.leaf [31, 32, 33, 9]) (.cycle
  9 [28, 29, 30]))) (.cases [6, 7, 8, 9] 9 (.cases [] 10 (.cases [] 11 (.cases [] 12 (.cases [] 13
  (.cases [] 14 (.cases [17] 15 (.cases [19] 16 (.cases [21] 17 (.leaf [27]) (.cases [22] 18
  (.cases [24] 19 (.leaf [26]) (.leaf [25])) (.leaf [23]))) (.leaf [20])) (.leaf [18])) (.leaf
  [15, 16])) (.leaf [14])) (.leaf [13])) (.leaf [12])) (.leaf [11])) (.leaf [10])))) (.leaf
  [3, 4]))))) (.leaf [1])) (.leaf [0]))

/-- all cases -/
def ko1n3Cases : SumTree :=
  ko1n3Case0

theorem ko1n3_cases : ko1n3Cases.check ko1n3Arcs 84 ko1n3Choices.length [] ko1n3Times 0 = true := by
  decide +kernel

theorem ko1n3_choices : ko1n3Choices.all (CodedNet.Choice.ok netKo netKoSpecial ko1n3Plan) = true := by
  decide +kernel

theorem ko1n3_arcs : ko1n3Arcs.toList.all
    (netKo.arcOK netKoSpecial ko1n3Plan ko1n3Nodes ko1n3Choices) = true := by decide +kernel

theorem ko1n3_times : netKo.startOK ko1n3Plan ko1n3Nodes 5 40 ko1n3Times = true := by decide +kernel

end Verif.Real
