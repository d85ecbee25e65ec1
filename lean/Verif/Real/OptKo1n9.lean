import Verif.Proofs.PlanSum
import Verif.Proofs.PlanAgain
import Verif.Real.PlanKo1

/-!
# The sheet of `Verif.Real.Ko1` with given delays: a plan, and that no plan is better

Generated; see `CodedNet.Item` and `Verif/Proofs/SumTree.lean`. Case 1,
`disturbances[9]`, of `/repo/solve_KO_GLC_problems.py`, line 113;
`d_max` is 40. The sum of the delays that count is 242/4.
-/

namespace Verif.Real

set_option maxRecDepth 100000

/-- the given delays -/
def ko1n9Delays : List (Int × ℚ) := [
  (2, 3), (4602, 1), (4, 10), (102, 2), (6, 15), (8, 7), (4604, 4), (10, 1), (12, 7), (1, 10),
  (101, 8), (3, 2), (6401, 6), (5, 15), (7, 1), (103, 30), (9, 7), (6403, 8)]

/-- the plan, items by sections -/
def ko1n9Plan : CodedNet.Plan := [
  (train_ko1_2, [
   ⟨0, 2, 0, (some 14), true, false, 3, 3, 30,
    none,
    (some ⟨1, [83, 101, 84, 121], [9, 19, 8, 8], 4, [5, 8]⟩), [], [61, 64, 69, 71, 87, 92], [3]⟩,
   ⟨0, 2, 1, (some 1), true, false, 9, 9, 90,
    (some ⟨0, 7, 30, [83, 101, 84, 121]⟩),
    (some ⟨2, [77, 144, 119, 40, 86, 142, 87, 126, 30, 90, 91, 92, 93, 127], [15, 14, 8, 14, 13, 13, 7, 9, 15, 13, 9, 5, 7, 20], 16, [31, 33, 41]⟩), [5, 8], [16, 2], [7]⟩,
   ⟨0, 2, 2, (some 35), false, true, 25, 25, 250,
    (some ⟨1, 25, 90, [77, 144, 119, 40, 86, 142, 87, 126, 30, 90, 91, 92, 93, 127]⟩),
    none, [31, 33, 41], [], [25]⟩]),
  (train_ko1_4602, [
   ⟨1, 4602, 0, (some 10), true, false, 11, 11, 110,
    none,
    (some ⟨1, [83, 101, 84, 121], [9, 12, 6, 7], 3, [5, 8]⟩), [], [66, 68, 71, 87, 92], [11]⟩,
   ⟨1, 4602, 1, (some 1), true, false, 16, 16, 160,
    (some ⟨0, 14, 110, [83, 101, 84, 121]⟩),
    (some ⟨2, [77, 144, 119, 40, 86, 142, 87, 126, 30, 90, 91, 92, 93, 127], [11, 9, 8, 7, 13, 7, 7, 9, 15, 13, 9, 5, 7, 20], 14, [31, 34, 43]⟩), [5, 8], [16, 2], [14]⟩,
   ⟨1, 4602, 2, (some 38), true, false, 32, 32, 320,
    (some ⟨1, 30, 160, [77, 144, 119, 40, 86, 142, 87, 126, 30, 90, 91, 92, 93, 127]⟩),
    none, [31, 34, 43], [], [30]⟩]),
  (train_ko1_4, [
   ⟨2, 4, 0, (some 14), true, false, 20, 20, 200,
    none,
    (some ⟨1, [83, 101, 84, 121], [9, 19, 8, 8], 4, [5, 8]⟩), [], [61, 64, 69, 71, 87, 92], [20]⟩,
   ⟨2, 4, 1, (some 1), true, false, 26, 26, 260,
    (some ⟨0, 24, 200, [83, 101, 84, 121]⟩),
    (some ⟨2, [77, 144, 119, 40, 86, 142, 87, 126, 30, 90, 91, 92, 93, 127], [15, 14, 8, 14, 13, 13, 7, 9, 15, 13, 9, 5, 7, 20], 16, [31, 33, 41]⟩), [5, 8], [16, 2], [24]⟩,
   ⟨2, 4, 2, (some 35), false, true, 42, 42, 420,
    (some ⟨1, 42, 260, [77, 144, 119, 40, 86, 142, 87, 126, 30, 90, 91, 92, 93, 127]⟩),
    none, [31, 33, 41], [], [42]⟩]),
  (train_ko1_102, [
   ⟨3, 102, 0, (some 16), true, false, 50, 53, 530,
    none,
    (some ⟨1, [83, 101, 84, 121], [9, 19, 8, 10], 5, [5, 8, 9]⟩), [], [62, 64, 69, 71, 87, 92], [50]⟩,
   ⟨3, 102, 1, (some 3), true, false, 57, 60, 600,
    (some ⟨0, 58, 530, [83, 101, 84, 121]⟩),
    none, [5, 8, 9], [], [58]⟩]),
  (train_ko1_6, [
   ⟨4, 6, 0, (some 14), true, false, 35, 35, 350,
    none,
    (some ⟨1, [83, 101, 84, 121], [9, 19, 8, 8], 4, [5, 8]⟩), [], [61, 64, 69, 71, 87, 92], [35]⟩,
   ⟨4, 6, 1, (some 1), true, false, 41, 41, 410,
    (some ⟨0, 39, 350, [83, 101, 84, 121]⟩),
    (some ⟨2, [77, 144, 119, 40, 86, 142, 87, 126, 30, 90, 91, 92, 93, 127], [15, 14, 8, 14, 13, 13, 7, 9, 15, 13, 9, 5, 7, 20], 16, [31, 33, 41]⟩), [5, 8], [16, 2], [39]⟩,
   ⟨4, 6, 2, (some 35), false, true, 57, 57, 570,
    (some ⟨1, 57, 410, [77, 144, 119, 40, 86, 142, 87, 126, 30, 90, 91, 92, 93, 127]⟩),
    none, [31, 33, 41], [], [57]⟩]),
  (train_ko1_8, [
   ⟨5, 8, 0, (some 14), true, false, 37, 38, 380,
    none,
    (some ⟨1, [83, 101, 84, 121], [9, 19, 8, 8], 4, [5, 8]⟩), [], [61, 64, 69, 71, 87, 92], [37]⟩,
   ⟨5, 8, 1, (some 1), true, false, 43, 44, 440,
    (some ⟨0, 42, 380, [83, 101, 84, 121]⟩),
    (some ⟨2, [77, 144, 119, 40, 86, 142, 87, 126, 30, 90, 91, 92, 93, 127], [15, 14, 8, 14, 13, 13, 7, 9, 15, 13, 9, 5, 7, 20], 16, [31, 33, 41]⟩), [5, 8], [16, 2], [42]⟩,
   ⟨5, 8, 2, (some 35), false, true, 59, 60, 600,
    (some ⟨1, 60, 440, [77, 144, 119, 40, 86, 142, 87, 126, 30, 90, 91, 92, 93, 127]⟩),
    none, [31, 33, 41], [], [60]⟩]),
  (train_ko1_4604, [
   ⟨6, 4604, 0, (some 10), true, false, 51, 51, 510,
    none,
    (some ⟨1, [83, 101, 84, 121], [9, 12, 6, 7], 3, [5, 8]⟩), [], [66, 68, 71, 87, 92], [51]⟩,
   ⟨6, 4604, 1, (some 1), true, false, 56, 56, 560,
    (some ⟨0, 54, 510, [83, 101, 84, 121]⟩),
    (some ⟨2, [77, 144, 119, 40, 86, 142, 87, 126, 30, 90, 91, 92, 93, 127], [11, 9, 8, 7, 13, 7, 7, 9, 15, 13, 9, 5, 7, 20], 14, [31, 34, 43]⟩), [5, 8], [16, 2], [54]⟩,
   ⟨6, 4604, 2, (some 38), true, false, 71, 71, 710,
    (some ⟨1, 70, 560, [77, 144, 119, 40, 86, 142, 87, 126, 30, 90, 91, 92, 93, 127]⟩),
    none, [31, 34, 43], [], [70]⟩]),
  (train_ko1_10, [
   ⟨7, 10, 0, (some 14), true, false, 41, 41, 410,
    none,
    (some ⟨1, [83, 101, 84, 121], [9, 19, 8, 8], 4, [5, 8]⟩), [], [61, 64, 69, 71, 87, 92], [41]⟩,
   ⟨7, 10, 1, (some 1), true, false, 47, 47, 470,
    (some ⟨0, 45, 410, [83, 101, 84, 121]⟩),
    (some ⟨2, [77, 144, 119, 40, 86, 142, 87, 126, 30, 90, 91, 92, 93, 127], [15, 14, 8, 14, 13, 13, 7, 9, 15, 13, 9, 5, 7, 20], 16, [31, 33, 41]⟩), [5, 8], [16, 2], [45]⟩,
   ⟨7, 10, 2, (some 35), false, true, 63, 63, 630,
    (some ⟨1, 63, 470, [77, 144, 119, 40, 86, 142, 87, 126, 30, 90, 91, 92, 93, 127]⟩),
    none, [31, 33, 41], [], [63]⟩]),
  (train_ko1_12, [
   ⟨8, 12, 0, (some 14), true, false, 60, 60, 600,
    none,
    (some ⟨1, [83, 101, 84, 121], [9, 19, 8, 8], 4, [5, 8]⟩), [], [61, 64, 69, 71, 87, 92], [60]⟩,
   ⟨8, 12, 1, (some 1), true, false, 66, 66, 660,
    (some ⟨0, 64, 600, [83, 101, 84, 121]⟩),
    (some ⟨2, [77, 144, 119, 40, 86, 142, 87, 126, 30, 90, 91, 92, 93, 127], [15, 14, 8, 14, 13, 13, 7, 9, 15, 13, 9, 5, 7, 20], 16, [31, 33, 41]⟩), [5, 8], [16, 2], [64]⟩,
   ⟨8, 12, 2, (some 35), false, true, 82, 82, 820,
    (some ⟨1, 82, 660, [77, 144, 119, 40, 86, 142, 87, 126, 30, 90, 91, 92, 93, 127]⟩),
    none, [31, 33, 41], [], [82]⟩]),
  (train_ko1_1, [
   ⟨9, 1, 2, (some 34), true, false, 3, 3, 30,
    none,
    (some ⟨1, [78, 79, 80, 81, 120, 31, 94, 95, 143, 128, 41, 85, 145, 125], [18, 7, 6, 8, 12, 20, 23, 5, 19, 11, 16, 11, 17, 9], 18, [17, 19]⟩), [], [30, 22], [3]⟩,
   ⟨9, 1, 1, (some 2), true, false, 23, 23, 230,
    (some ⟨2, 21, 30, [78, 79, 80, 81, 120, 31, 94, 95, 143, 128, 41, 85, 145, 125]⟩),
    (some ⟨0, [76, 130, 133, 122], [8, 12, 22, 10], 5, [82, 84, 86, 89, 91]⟩), [17, 19], [9, 7, 6], [21]⟩,
   ⟨9, 1, 0, (some 15), false, true, 28, 28, 280,
    (some ⟨1, 28, 230, [76, 130, 133, 122]⟩),
    none, [82, 84, 86, 89, 91], [], [28]⟩]),
  (train_ko1_101, [
   ⟨10, 101, 1, (some 4), true, false, 39, 39, 390,
    none,
    (some ⟨0, [76, 130, 133, 122], [8, 12, 22, 10], 5, [82, 84, 86, 89, 91]⟩), [], [7, 6], [39]⟩,
   ⟨10, 101, 0, (some 39), false, true, 44, 44, 440,
    (some ⟨1, 44, 390, [76, 130, 133, 122]⟩),
    none, [82, 84, 86, 89, 91], [], [44]⟩]),
  (train_ko1_3, [
   ⟨11, 3, 2, (some 34), true, false, 5, 7, 70,
    none,
    (some ⟨1, [78, 79, 80, 81, 120, 31, 94, 95, 143, 128, 41, 85, 145, 125], [18, 7, 6, 8, 12, 20, 23, 5, 19, 11, 16, 11, 17, 9], 18, [17, 19]⟩), [], [30, 22], [5]⟩,
   ⟨11, 3, 1, (some 2), true, false, 25, 27, 270,
    (some ⟨2, 25, 70, [78, 79, 80, 81, 120, 31, 94, 95, 143, 128, 41, 85, 145, 125]⟩),
    (some ⟨0, [76, 130, 133, 122], [8, 12, 22, 10], 5, [82, 84, 86, 89, 91]⟩), [17, 19], [9, 7, 6], [25]⟩,
   ⟨11, 3, 0, (some 15), false, true, 30, 32, 320,
    (some ⟨1, 32, 270, [76, 130, 133, 122]⟩),
    none, [82, 84, 86, 89, 91], [], [32]⟩]),
  (train_ko1_6401, [
   ⟨12, 6401, 2, (some 33), true, false, 30, 30, 300,
    none,
    (some ⟨1, [78, 79, 80, 81, 120, 31, 94, 95, 143, 128, 41, 85, 145, 125], [18, 7, 6, 8, 12, 20, 23, 5, 9, 11, 6, 11, 7, 9], 15, [17, 19]⟩), [], [36, 30, 22], [30]⟩,
   ⟨12, 6401, 1, (some 2), true, false, 45, 49, 490,
    (some ⟨2, 45, 300, [78, 79, 80, 81, 120, 31, 94, 95, 143, 128, 41, 85, 145, 125]⟩),
    (some ⟨0, [76, 130, 133, 122], [6, 10, 12, 10], 4, [81, 85, 88, 91]⟩), [17, 19], [9, 7, 6], [45]⟩,
   ⟨12, 6401, 0, (some 13), false, true, 49, 53, 530,
    (some ⟨1, 53, 490, [76, 130, 133, 122]⟩),
    none, [81, 85, 88, 91], [], [53]⟩]),
  (train_ko1_5, [
   ⟨13, 5, 2, (some 34), true, false, 33, 34, 340,
    none,
    (some ⟨1, [78, 79, 80, 81, 120, 31, 94, 95, 143, 128, 41, 85, 145, 125], [18, 7, 6, 8, 12, 20, 23, 5, 19, 11, 16, 11, 17, 9], 18, [17, 19]⟩), [], [30, 22], [33]⟩,
   ⟨13, 5, 1, (some 2), true, false, 53, 54, 540,
    (some ⟨2, 52, 340, [78, 79, 80, 81, 120, 31, 94, 95, 143, 128, 41, 85, 145, 125]⟩),
    (some ⟨0, [76, 130, 133, 122], [8, 12, 22, 10], 5, [82, 84, 86, 89, 91]⟩), [17, 19], [9, 7, 6], [52]⟩,
   ⟨13, 5, 0, (some 15), false, true, 58, 59, 590,
    (some ⟨1, 59, 540, [76, 130, 133, 122]⟩),
    none, [82, 84, 86, 89, 91], [], [59]⟩]),
  (train_ko1_7, [
   ⟨14, 7, 2, (some 34), true, false, 24, 24, 240,
    none,
    (some ⟨1, [78, 79, 80, 81, 120, 31, 94, 95, 143, 128, 41, 85, 145, 125], [18, 7, 6, 8, 12, 20, 23, 5, 19, 11, 16, 11, 17, 9], 18, [17, 19]⟩), [], [30, 22], [24]⟩,
   ⟨14, 7, 1, (some 2), true, false, 45, 45, 450,
    (some ⟨2, 42, 240, [78, 79, 80, 81, 120, 31, 94, 95, 143, 128, 41, 85, 145, 125]⟩),
    (some ⟨0, [76, 130, 133, 122], [8, 12, 22, 10], 5, [82, 84, 86, 89, 91]⟩), [17, 19], [9, 7, 6], [42]⟩,
   ⟨14, 7, 0, (some 15), false, true, 50, 50, 500,
    (some ⟨1, 50, 450, [76, 130, 133, 122]⟩),
    none, [82, 84, 86, 89, 91], [], [50]⟩]),
  (train_ko1_103, [
   ⟨15, 103, 1, (some 4), true, false, 83, 85, 850,
    none,
    (some ⟨0, [76, 130, 133, 122], [8, 12, 22, 10], 5, [82, 84, 86, 89, 91]⟩), [], [7, 6], [83]⟩,
   ⟨15, 103, 0, (some 39), false, true, 88, 90, 900,
    (some ⟨1, 90, 850, [76, 130, 133, 122]⟩),
    none, [82, 84, 86, 89, 91], [], [90]⟩]),
  (train_ko1_9, [
   ⟨16, 9, 2, (some 34), true, false, 40, 40, 400,
    none,
    (some ⟨1, [78, 79, 80, 81, 120, 31, 94, 95, 143, 128, 41, 85, 145, 125], [18, 7, 6, 8, 12, 20, 23, 5, 19, 11, 16, 11, 17, 9], 18, [17, 19]⟩), [], [30, 22], [40]⟩,
   ⟨16, 9, 1, (some 2), true, false, 60, 60, 600,
    (some ⟨2, 58, 400, [78, 79, 80, 81, 120, 31, 94, 95, 143, 128, 41, 85, 145, 125]⟩),
    (some ⟨0, [76, 130, 133, 122], [8, 12, 22, 10], 5, [82, 84, 86, 89, 91]⟩), [17, 19], [9, 7, 6], [58]⟩,
   ⟨16, 9, 0, (some 15), false, true, 65, 65, 650,
    (some ⟨1, 65, 600, [76, 130, 133, 122]⟩),
    none, [82, 84, 86, 89, 91], [], [65]⟩]),
  (train_ko1_6403, [
   ⟨17, 6403, 2, (some 33), true, false, 54, 54, 540,
    none,
    (some ⟨1, [78, 79, 80, 81, 120, 31, 94, 95, 143, 128, 41, 85, 145, 125], [18, 7, 6, 8, 12, 20, 23, 5, 9, 11, 6, 11, 7, 9], 15, [17, 19]⟩), [], [36, 30, 22], [54]⟩,
   ⟨17, 6403, 1, (some 2), true, false, 69, 69, 690,
    (some ⟨2, 69, 540, [78, 79, 80, 81, 120, 31, 94, 95, 143, 128, 41, 85, 145, 125]⟩),
    (some ⟨0, [76, 130, 133, 122], [6, 10, 12, 10], 4, [81, 85, 88, 91]⟩), [17, 19], [9, 7, 6], [69]⟩,
   ⟨17, 6403, 0, (some 13), false, true, 73, 73, 730,
    (some ⟨1, 73, 690, [76, 130, 133, 122]⟩),
    none, [81, 85, 88, 91], [], [73]⟩]),
  (train_ko1_11, [
   ⟨18, 11, 2, (some 34), true, false, 58, 62, 620,
    none,
    (some ⟨1, [78, 79, 80, 81, 120, 31, 94, 95, 143, 128, 41, 85, 145, 125], [18, 7, 6, 8, 12, 20, 23, 5, 19, 11, 16, 11, 17, 9], 18, [17, 19]⟩), [], [30, 22], [58]⟩,
   ⟨18, 11, 1, (some 2), true, false, 78, 82, 820,
    (some ⟨2, 80, 620, [78, 79, 80, 81, 120, 31, 94, 95, 143, 128, 41, 85, 145, 125]⟩),
    (some ⟨0, [76, 130, 133, 122], [8, 12, 22, 10], 5, [82, 84, 86, 89, 91]⟩), [17, 19], [9, 7, 6], [80]⟩,
   ⟨18, 11, 0, (some 15), false, true, 83, 87, 870,
    (some ⟨1, 87, 820, [76, 130, 133, 122]⟩),
    none, [82, 84, 86, 89, 91], [], [87]⟩]),
  (train_ko1_14, [
   ⟨19, 14, 0, (some 14), true, false, 70, 70, 700,
    none,
    (some ⟨1, [83, 101, 84, 121], [9, 19, 8, 8], 4, [5, 8]⟩), [], [61, 64, 69, 71, 87, 92], [70]⟩,
   ⟨19, 14, 1, (some 1), true, false, 76, 76, 760,
    (some ⟨0, 74, 700, [83, 101, 84, 121]⟩),
    (some ⟨2, [77, 144, 119, 40, 86, 142, 87, 126, 30, 90, 91, 92, 93, 127], [15, 14, 8, 14, 13, 13, 7, 9, 15, 13, 9, 5, 7, 20], 16, [31, 33, 41]⟩), [5, 8], [16, 2], [74]⟩,
   ⟨19, 14, 2, (some 35), false, true, 92, 92, 920,
    (some ⟨1, 92, 760, [77, 144, 119, 40, 86, 142, 87, 126, 30, 90, 91, 92, 93, 127]⟩),
    none, [31, 33, 41], [], [92]⟩]),
  (train_ko1_4606, [
   ⟨20, 4606, 0, (some 10), true, false, 82, 82, 820,
    none,
    (some ⟨1, [83, 101, 84, 121], [9, 12, 6, 7], 3, [5, 8]⟩), [], [66, 68, 71, 87, 92], [82]⟩,
   ⟨20, 4606, 1, (some 1), true, false, 87, 87, 870,
    (some ⟨0, 85, 820, [83, 101, 84, 121]⟩),
    (some ⟨2, [77, 144, 119, 40, 86, 142, 87, 126, 30, 90, 91, 92, 93, 127], [11, 9, 8, 7, 13, 7, 7, 9, 15, 13, 9, 5, 7, 20], 14, [31, 34, 43]⟩), [5, 8], [16, 2], [85]⟩,
   ⟨20, 4606, 2, (some 38), true, false, 102, 102, 1020,
    (some ⟨1, 101, 870, [77, 144, 119, 40, 86, 142, 87, 126, 30, 90, 91, 92, 93, 127]⟩),
    none, [31, 34, 43], [], [101]⟩]),
  (train_ko1_16, [
   ⟨21, 16, 0, (some 14), true, false, 85, 85, 850,
    none,
    (some ⟨1, [83, 101, 84, 121], [9, 19, 8, 8], 4, [5, 8]⟩), [], [61, 64, 69, 71, 87, 92], [85]⟩,
   ⟨21, 16, 1, (some 1), true, false, 91, 91, 910,
    (some ⟨0, 89, 850, [83, 101, 84, 121]⟩),
    (some ⟨2, [77, 144, 119, 40, 86, 142, 87, 126, 30, 90, 91, 92, 93, 127], [15, 14, 8, 14, 13, 13, 7, 9, 15, 13, 9, 5, 7, 20], 16, [31, 33, 41]⟩), [5, 8], [16, 2], [89]⟩,
   ⟨21, 16, 2, (some 35), false, true, 107, 107, 1070,
    (some ⟨1, 107, 910, [77, 144, 119, 40, 86, 142, 87, 126, 30, 90, 91, 92, 93, 127]⟩),
    none, [31, 33, 41], [], [107]⟩]),
  (train_ko1_106, [
   ⟨22, 106, 0, (some 16), true, false, 90, 91, 910,
    none,
    (some ⟨1, [83, 101, 84, 121], [9, 19, 8, 10], 5, [5, 8, 9]⟩), [], [62, 64, 69, 71, 87, 92], [90]⟩,
   ⟨22, 106, 1, (some 3), true, false, 97, 98, 980,
    (some ⟨0, 96, 910, [83, 101, 84, 121]⟩),
    none, [5, 8, 9], [], [96]⟩]),
  (train_ko1_18, [
   ⟨23, 18, 0, (some 14), true, false, 87, 88, 880,
    none,
    (some ⟨1, [83, 101, 84, 121], [9, 19, 8, 8], 4, [5, 8]⟩), [], [61, 64, 69, 71, 87, 92], [87]⟩,
   ⟨23, 18, 1, (some 1), true, false, 93, 94, 940,
    (some ⟨0, 92, 880, [83, 101, 84, 121]⟩),
    (some ⟨2, [77, 144, 119, 40, 86, 142, 87, 126, 30, 90, 91, 92, 93, 127], [15, 14, 8, 14, 13, 13, 7, 9, 15, 13, 9, 5, 7, 20], 16, [31, 33, 41]⟩), [5, 8], [16, 2], [92]⟩,
   ⟨23, 18, 2, (some 35), false, true, 109, 110, 1100,
    (some ⟨1, 110, 940, [77, 144, 119, 40, 86, 142, 87, 126, 30, 90, 91, 92, 93, 127]⟩),
    none, [31, 33, 41], [], [110]⟩]),
  (train_ko1_20, [
   ⟨24, 20, 0, (some 14), true, false, 90, 94, 940,
    none,
    (some ⟨1, [83, 101, 84, 121], [9, 19, 8, 8], 4, [5, 8]⟩), [], [61, 64, 69, 71, 87, 92], [90]⟩,
   ⟨24, 20, 1, (some 1), true, false, 96, 100, 1000,
    (some ⟨0, 98, 940, [83, 101, 84, 121]⟩),
    (some ⟨2, [77, 144, 119, 40, 86, 142, 87, 126, 30, 90, 91, 92, 93, 127], [15, 14, 8, 14, 13, 13, 7, 9, 15, 13, 9, 5, 7, 20], 16, [31, 33, 41]⟩), [5, 8], [16, 2], [98]⟩,
   ⟨24, 20, 2, (some 35), false, true, 112, 116, 1160,
    (some ⟨1, 116, 1000, [77, 144, 119, 40, 86, 142, 87, 126, 30, 90, 91, 92, 93, 127]⟩),
    none, [31, 33, 41], [], [116]⟩]),
  (train_ko1_4608, [
   ⟨25, 4608, 0, (some 10), true, false, 104, 104, 1040,
    none,
    (some ⟨1, [83, 101, 84, 121], [9, 12, 6, 7], 3, [5, 8]⟩), [], [66, 68, 71, 87, 92], [104]⟩,
   ⟨25, 4608, 1, (some 1), true, false, 109, 109, 1090,
    (some ⟨0, 107, 1040, [83, 101, 84, 121]⟩),
    (some ⟨2, [77, 144, 119, 40, 86, 142, 87, 126, 30, 90, 91, 92, 93, 127], [11, 9, 8, 7, 13, 7, 7, 9, 15, 13, 9, 5, 7, 20], 14, [31, 34, 43]⟩), [5, 8], [16, 2], [107]⟩,
   ⟨25, 4608, 2, (some 38), true, false, 124, 124, 1240,
    (some ⟨1, 123, 1090, [77, 144, 119, 40, 86, 142, 87, 126, 30, 90, 91, 92, 93, 127]⟩),
    none, [31, 34, 43], [], [123]⟩]),
  (train_ko1_22, [
   ⟨26, 22, 0, (some 14), true, false, 103, 106, 1060,
    none,
    (some ⟨1, [83, 101, 84, 121], [9, 19, 8, 8], 4, [5, 8]⟩), [], [61, 64, 69, 71, 87, 92], [103]⟩,
   ⟨26, 22, 1, (some 1), true, false, 109, 112, 1120,
    (some ⟨0, 110, 1060, [83, 101, 84, 121]⟩),
    (some ⟨2, [77, 144, 119, 40, 86, 142, 87, 126, 30, 90, 91, 92, 93, 127], [15, 14, 8, 14, 13, 13, 7, 9, 15, 13, 9, 5, 7, 20], 16, [31, 33, 41]⟩), [5, 8], [16, 2], [110]⟩,
   ⟨26, 22, 2, (some 35), false, true, 125, 128, 1280,
    (some ⟨1, 128, 1120, [77, 144, 119, 40, 86, 142, 87, 126, 30, 90, 91, 92, 93, 127]⟩),
    none, [31, 33, 41], [], [128]⟩]),
  (train_ko1_108, [
   ⟨27, 108, 0, (some 16), true, false, 112, 112, 1120,
    none,
    (some ⟨1, [83, 101, 84, 121], [9, 19, 8, 10], 5, [5, 8, 9]⟩), [], [62, 64, 69, 71, 87, 92], [112]⟩,
   ⟨27, 108, 1, (some 3), true, false, 119, 119, 1190,
    (some ⟨0, 117, 1120, [83, 101, 84, 121]⟩),
    none, [5, 8, 9], [], [117]⟩]),
  (train_ko1_24, [
   ⟨28, 24, 0, (some 14), true, false, 120, 120, 1200,
    none,
    (some ⟨1, [83, 101, 84, 121], [9, 19, 8, 8], 4, [5, 8]⟩), [], [61, 64, 69, 71, 87, 92], [120]⟩,
   ⟨28, 24, 1, (some 1), true, false, 126, 126, 1260,
    (some ⟨0, 124, 1200, [83, 101, 84, 121]⟩),
    (some ⟨2, [77, 144, 119, 40, 86, 142, 87, 126, 30, 90, 91, 92, 93, 127], [15, 14, 8, 14, 13, 13, 7, 9, 15, 13, 9, 5, 7, 20], 16, [31, 33, 41]⟩), [5, 8], [16, 2], [124]⟩,
   ⟨28, 24, 2, (some 35), false, true, 142, 142, 1420,
    (some ⟨1, 142, 1260, [77, 144, 119, 40, 86, 142, 87, 126, 30, 90, 91, 92, 93, 127]⟩),
    none, [31, 33, 41], [], [142]⟩]),
  (train_ko1_13, [
   ⟨29, 13, 2, (some 34), true, false, 55, 58, 580,
    none,
    (some ⟨1, [78, 79, 80, 81, 120, 31, 94, 95, 143, 128, 41, 85, 145, 125], [18, 7, 6, 8, 12, 20, 23, 5, 19, 11, 16, 11, 17, 9], 18, [17, 19]⟩), [], [30, 22], [55]⟩,
   ⟨29, 13, 1, (some 2), true, false, 75, 78, 780,
    (some ⟨2, 76, 580, [78, 79, 80, 81, 120, 31, 94, 95, 143, 128, 41, 85, 145, 125]⟩),
    (some ⟨0, [76, 130, 133, 122], [8, 12, 22, 10], 5, [82, 84, 86, 89, 91]⟩), [17, 19], [9, 7, 6], [76]⟩,
   ⟨29, 13, 0, (some 15), false, true, 80, 83, 830,
    (some ⟨1, 83, 780, [76, 130, 133, 122]⟩),
    none, [82, 84, 86, 89, 91], [], [83]⟩]),
  (train_ko1_105, [
   ⟨30, 105, 1, (some 4), true, false, 96, 96, 960,
    none,
    (some ⟨0, [76, 130, 133, 122], [8, 12, 22, 10], 5, [82, 84, 86, 89, 91]⟩), [], [7, 6], [96]⟩,
   ⟨30, 105, 0, (some 39), false, true, 101, 101, 1010,
    (some ⟨1, 101, 960, [76, 130, 133, 122]⟩),
    none, [82, 84, 86, 89, 91], [], [101]⟩]),
  (train_ko1_15, [
   ⟨31, 15, 2, (some 34), true, false, 78, 78, 780,
    none,
    (some ⟨1, [78, 79, 80, 81, 120, 31, 94, 95, 143, 128, 41, 85, 145, 125], [18, 7, 6, 8, 12, 20, 23, 5, 19, 11, 16, 11, 17, 9], 18, [17, 19]⟩), [], [30, 22], [78]⟩,
   ⟨31, 15, 1, (some 2), true, false, 98, 99, 990,
    (some ⟨2, 96, 780, [78, 79, 80, 81, 120, 31, 94, 95, 143, 128, 41, 85, 145, 125]⟩),
    (some ⟨0, [76, 130, 133, 122], [8, 12, 22, 10], 5, [82, 84, 86, 89, 91]⟩), [17, 19], [9, 7, 6], [96]⟩,
   ⟨31, 15, 0, (some 15), false, true, 103, 104, 1040,
    (some ⟨1, 104, 990, [76, 130, 133, 122]⟩),
    none, [82, 84, 86, 89, 91], [], [104]⟩]),
  (train_ko1_6405, [
   ⟨32, 6405, 2, (some 33), true, false, 89, 89, 890,
    none,
    (some ⟨1, [78, 79, 80, 81, 120, 31, 94, 95, 143, 128, 41, 85, 145, 125], [18, 7, 6, 8, 12, 20, 23, 5, 9, 11, 6, 11, 7, 9], 15, [17, 19]⟩), [], [36, 30, 22], [89]⟩,
   ⟨32, 6405, 1, (some 2), true, false, 104, 106, 1060,
    (some ⟨2, 104, 890, [78, 79, 80, 81, 120, 31, 94, 95, 143, 128, 41, 85, 145, 125]⟩),
    (some ⟨0, [76, 130, 133, 122], [6, 10, 12, 10], 4, [81, 85, 88, 91]⟩), [17, 19], [9, 7, 6], [104]⟩,
   ⟨32, 6405, 0, (some 13), false, true, 108, 110, 1100,
    (some ⟨1, 110, 1060, [76, 130, 133, 122]⟩),
    none, [81, 85, 88, 91], [], [110]⟩]),
  (train_ko1_17, [
   ⟨33, 17, 2, (some 34), true, false, 79, 82, 820,
    none,
    (some ⟨1, [78, 79, 80, 81, 120, 31, 94, 95, 143, 128, 41, 85, 145, 125], [18, 7, 6, 8, 12, 20, 23, 5, 19, 11, 16, 11, 17, 9], 18, [17, 19]⟩), [], [30, 22], [79]⟩,
   ⟨33, 17, 1, (some 2), true, false, 100, 102, 1020,
    (some ⟨2, 100, 820, [78, 79, 80, 81, 120, 31, 94, 95, 143, 128, 41, 85, 145, 125]⟩),
    (some ⟨0, [76, 130, 133, 122], [8, 12, 22, 10], 5, [82, 84, 86, 89, 91]⟩), [17, 19], [9, 7, 6], [100]⟩,
   ⟨33, 17, 0, (some 15), false, true, 105, 107, 1070,
    (some ⟨1, 107, 1020, [76, 130, 133, 122]⟩),
    none, [82, 84, 86, 89, 91], [], [107]⟩]),
  (train_ko1_21, [
   ⟨34, 21, 2, (some 34), true, false, 93, 93, 930,
    none,
    (some ⟨1, [78, 79, 80, 81, 120, 31, 94, 95, 143, 128, 41, 85, 145, 125], [18, 7, 6, 8, 12, 20, 23, 5, 19, 11, 16, 11, 17, 9], 18, [17, 19]⟩), [], [30, 22], [93]⟩,
   ⟨34, 21, 1, (some 2), true, false, 113, 115, 1150,
    (some ⟨2, 111, 930, [78, 79, 80, 81, 120, 31, 94, 95, 143, 128, 41, 85, 145, 125]⟩),
    (some ⟨0, [76, 130, 133, 122], [8, 12, 22, 10], 5, [82, 84, 86, 89, 91]⟩), [17, 19], [9, 7, 6], [111]⟩,
   ⟨34, 21, 0, (some 15), false, true, 118, 120, 1200,
    (some ⟨1, 120, 1150, [76, 130, 133, 122]⟩),
    none, [82, 84, 86, 89, 91], [], [120]⟩]),
  (train_ko1_107, [
   ⟨35, 107, 1, (some 4), true, false, 112, 112, 1120,
    none,
    (some ⟨0, [76, 130, 133, 122], [8, 12, 22, 10], 5, [82, 84, 86, 89, 91]⟩), [], [7, 6], [112]⟩,
   ⟨35, 107, 0, (some 39), false, true, 117, 117, 1170,
    (some ⟨1, 117, 1120, [76, 130, 133, 122]⟩),
    none, [82, 84, 86, 89, 91], [], [117]⟩]),
  (train_ko1_23, [
   ⟨36, 23, 2, (some 34), true, false, 95, 97, 970,
    none,
    (some ⟨1, [78, 79, 80, 81, 120, 31, 94, 95, 143, 128, 41, 85, 145, 125], [18, 7, 6, 8, 12, 20, 23, 5, 19, 11, 16, 11, 17, 9], 18, [17, 19]⟩), [], [30, 22], [95]⟩,
   ⟨36, 23, 1, (some 2), true, false, 115, 118, 1180,
    (some ⟨2, 115, 970, [78, 79, 80, 81, 120, 31, 94, 95, 143, 128, 41, 85, 145, 125]⟩),
    (some ⟨0, [76, 130, 133, 122], [8, 12, 22, 10], 5, [82, 84, 86, 89, 91]⟩), [17, 19], [9, 7, 6], [115]⟩,
   ⟨36, 23, 0, (some 15), false, true, 120, 123, 1230,
    (some ⟨1, 123, 1180, [76, 130, 133, 122]⟩),
    none, [82, 84, 86, 89, 91], [], [123]⟩]),
  (train_ko1_6407, [
   ⟨37, 6407, 2, (some 33), true, false, 105, 105, 1050,
    none,
    (some ⟨1, [78, 79, 80, 81, 120, 31, 94, 95, 143, 128, 41, 85, 145, 125], [18, 7, 6, 8, 12, 20, 23, 5, 9, 11, 6, 11, 7, 9], 15, [17, 19]⟩), [], [36, 30, 22], [105]⟩,
   ⟨37, 6407, 1, (some 2), true, false, 120, 122, 1220,
    (some ⟨2, 120, 1050, [78, 79, 80, 81, 120, 31, 94, 95, 143, 128, 41, 85, 145, 125]⟩),
    (some ⟨0, [76, 130, 133, 122], [6, 10, 12, 10], 4, [81, 85, 88, 91]⟩), [17, 19], [9, 7, 6], [120]⟩,
   ⟨37, 6407, 0, (some 13), false, true, 124, 126, 1260,
    (some ⟨1, 126, 1220, [76, 130, 133, 122]⟩),
    none, [81, 85, 88, 91], [], [126]⟩]),
  (train_ko1_25, [
   ⟨38, 25, 2, (some 34), true, false, 123, 123, 1230,
    none,
    (some ⟨1, [78, 79, 80, 81, 120, 31, 94, 95, 143, 128, 41, 85, 145, 125], [18, 7, 6, 8, 12, 20, 23, 5, 19, 11, 16, 11, 17, 9], 18, [17, 19]⟩), [], [30, 22], [123]⟩,
   ⟨38, 25, 1, (some 2), true, false, 143, 143, 1430,
    (some ⟨2, 141, 1230, [78, 79, 80, 81, 120, 31, 94, 95, 143, 128, 41, 85, 145, 125]⟩),
    (some ⟨0, [76, 130, 133, 122], [8, 12, 22, 10], 5, [82, 84, 86, 89, 91]⟩), [17, 19], [9, 7, 6], [141]⟩,
   ⟨38, 25, 0, (some 15), false, true, 148, 148, 1480,
    (some ⟨1, 148, 1430, [76, 130, 133, 122]⟩),
    none, [82, 84, 86, 89, 91], [], [148]⟩]),
  (train_ko1_26, [
   ⟨39, 26, 0, (some 14), true, false, 135, 135, 1350,
    none,
    (some ⟨1, [83, 101, 84, 121], [9, 19, 8, 8], 4, [5, 8]⟩), [], [61, 64, 69, 71, 87, 92], [135]⟩,
   ⟨39, 26, 1, (some 1), true, false, 141, 141, 1410,
    (some ⟨0, 139, 1350, [83, 101, 84, 121]⟩),
    (some ⟨2, [77, 144, 119, 40, 86, 142, 87, 126, 30, 90, 91, 92, 93, 127], [15, 14, 8, 14, 13, 13, 7, 9, 15, 13, 9, 5, 7, 20], 16, [31, 33, 41]⟩), [5, 8], [16, 2], [139]⟩,
   ⟨39, 26, 2, (some 35), false, true, 157, 157, 1570,
    (some ⟨1, 157, 1410, [77, 144, 119, 40, 86, 142, 87, 126, 30, 90, 91, 92, 93, 127]⟩),
    none, [31, 33, 41], [], [157]⟩]),
  (train_ko1_4610, [
   ⟨40, 4610, 0, (some 10), true, false, 128, 128, 1280,
    none,
    (some ⟨1, [83, 101, 84, 121], [9, 12, 6, 7], 3, [5, 8]⟩), [], [66, 68, 71, 87, 92], [128]⟩,
   ⟨40, 4610, 1, (some 1), true, false, 133, 133, 1330,
    (some ⟨0, 131, 1280, [83, 101, 84, 121]⟩),
    (some ⟨2, [77, 144, 119, 40, 86, 142, 87, 126, 30, 90, 91, 92, 93, 127], [11, 9, 8, 7, 13, 7, 7, 9, 15, 13, 9, 5, 7, 20], 14, [31, 34, 43]⟩), [5, 8], [16, 2], [131]⟩,
   ⟨40, 4610, 2, (some 38), true, false, 152, 152, 1520,
    (some ⟨1, 147, 1330, [77, 144, 119, 40, 86, 142, 87, 126, 30, 90, 91, 92, 93, 127]⟩),
    none, [31, 34, 43], [], [147]⟩]),
  (train_ko1_28, [
   ⟨41, 28, 0, (some 14), true, false, 137, 138, 1380,
    none,
    (some ⟨1, [83, 101, 84, 121], [9, 19, 8, 8], 4, [5, 8]⟩), [], [61, 64, 69, 71, 87, 92], [137]⟩,
   ⟨41, 28, 1, (some 1), true, false, 143, 144, 1440,
    (some ⟨0, 142, 1380, [83, 101, 84, 121]⟩),
    (some ⟨2, [77, 144, 119, 40, 86, 142, 87, 126, 30, 90, 91, 92, 93, 127], [15, 14, 8, 14, 13, 13, 7, 9, 15, 13, 9, 5, 7, 20], 16, [31, 33, 41]⟩), [5, 8], [16, 2], [142]⟩,
   ⟨41, 28, 2, (some 35), false, true, 159, 160, 1600,
    (some ⟨1, 160, 1440, [77, 144, 119, 40, 86, 142, 87, 126, 30, 90, 91, 92, 93, 127]⟩),
    none, [31, 33, 41], [], [160]⟩]),
  (train_ko1_112, [
   ⟨42, 112, 0, (some 16), true, false, 145, 145, 1450,
    none,
    (some ⟨1, [83, 101, 84, 121], [9, 19, 8, 10], 5, [5, 8, 9]⟩), [], [62, 64, 69, 71, 87, 92], [145]⟩,
   ⟨42, 112, 1, (some 3), true, false, 152, 152, 1520,
    (some ⟨0, 150, 1450, [83, 101, 84, 121]⟩),
    none, [5, 8, 9], [], [150]⟩]),
  (train_ko1_30, [
   ⟨43, 30, 0, (some 14), true, false, 140, 141, 1410,
    none,
    (some ⟨1, [83, 101, 84, 121], [9, 19, 8, 8], 4, [5, 8]⟩), [], [61, 64, 69, 71, 87, 92], [140]⟩,
   ⟨43, 30, 1, (some 1), true, false, 146, 147, 1470,
    (some ⟨0, 145, 1410, [83, 101, 84, 121]⟩),
    (some ⟨2, [77, 144, 119, 40, 86, 142, 87, 126, 30, 90, 91, 92, 93, 127], [15, 14, 8, 14, 13, 13, 7, 9, 15, 13, 9, 5, 7, 20], 16, [31, 33, 41]⟩), [5, 8], [16, 2], [145]⟩,
   ⟨43, 30, 2, (some 35), false, true, 162, 163, 1630,
    (some ⟨1, 163, 1470, [77, 144, 119, 40, 86, 142, 87, 126, 30, 90, 91, 92, 93, 127]⟩),
    none, [31, 33, 41], [], [163]⟩]),
  (train_ko1_32, [
   ⟨44, 32, 0, (some 14), true, false, 153, 153, 1530,
    none,
    (some ⟨1, [83, 101, 84, 121], [9, 19, 8, 8], 4, [5, 8]⟩), [], [61, 64, 69, 71, 87, 92], [153]⟩,
   ⟨44, 32, 1, (some 1), true, false, 159, 159, 1590,
    (some ⟨0, 157, 1530, [83, 101, 84, 121]⟩),
    (some ⟨2, [77, 144, 119, 40, 86, 142, 87, 126, 30, 90, 91, 92, 93, 127], [15, 14, 8, 14, 13, 13, 7, 9, 15, 13, 9, 5, 7, 20], 16, [31, 33, 41]⟩), [5, 8], [16, 2], [157]⟩,
   ⟨44, 32, 2, (some 35), false, true, 175, 175, 1750,
    (some ⟨1, 175, 1590, [77, 144, 119, 40, 86, 142, 87, 126, 30, 90, 91, 92, 93, 127]⟩),
    none, [31, 33, 41], [], [175]⟩]),
  (train_ko1_4612, [
   ⟨45, 4612, 0, (some 10), true, false, 167, 167, 1670,
    none,
    (some ⟨1, [83, 101, 84, 121], [9, 12, 6, 7], 3, [5, 8]⟩), [], [66, 68, 71, 87, 92], [167]⟩,
   ⟨45, 4612, 1, (some 1), true, false, 172, 172, 1720,
    (some ⟨0, 170, 1670, [83, 101, 84, 121]⟩),
    (some ⟨2, [77, 144, 119, 40, 86, 142, 87, 126, 30, 90, 91, 92, 93, 127], [11, 9, 8, 7, 13, 7, 7, 9, 15, 13, 9, 5, 7, 20], 14, [31, 34, 43]⟩), [5, 8], [16, 2], [170]⟩,
   ⟨45, 4612, 2, (some 38), true, false, 187, 187, 1870,
    (some ⟨1, 186, 1720, [77, 144, 119, 40, 86, 142, 87, 126, 30, 90, 91, 92, 93, 127]⟩),
    none, [31, 34, 43], [], [186]⟩]),
  (train_ko1_34, [
   ⟨46, 34, 0, (some 14), true, false, 170, 170, 1700,
    none,
    (some ⟨1, [83, 101, 84, 121], [9, 19, 8, 8], 4, [5, 8]⟩), [], [61, 64, 69, 71, 87, 92], [170]⟩,
   ⟨46, 34, 1, (some 1), true, false, 176, 176, 1760,
    (some ⟨0, 174, 1700, [83, 101, 84, 121]⟩),
    (some ⟨2, [77, 144, 119, 40, 86, 142, 87, 126, 30, 90, 91, 92, 93, 127], [15, 14, 8, 14, 13, 13, 7, 9, 15, 13, 9, 5, 7, 20], 16, [31, 33, 41]⟩), [5, 8], [16, 2], [174]⟩,
   ⟨46, 34, 2, (some 35), false, true, 192, 192, 1920,
    (some ⟨1, 192, 1760, [77, 144, 119, 40, 86, 142, 87, 126, 30, 90, 91, 92, 93, 127]⟩),
    none, [31, 33, 41], [], [192]⟩]),
  (train_ko1_114, [
   ⟨47, 114, 0, (some 16), true, false, 175, 175, 1750,
    none,
    (some ⟨1, [83, 101, 84, 121], [9, 19, 8, 10], 5, [5, 8, 9]⟩), [], [62, 64, 69, 71, 87, 92], [175]⟩,
   ⟨47, 114, 1, (some 3), true, false, 182, 182, 1820,
    (some ⟨0, 180, 1750, [83, 101, 84, 121]⟩),
    none, [5, 8, 9], [], [180]⟩]),
  (train_ko1_36, [
   ⟨48, 36, 0, (some 14), true, false, 185, 185, 1850,
    none,
    (some ⟨1, [83, 101, 84, 121], [9, 19, 8, 8], 4, [5, 8]⟩), [], [61, 64, 69, 71, 87, 92], [185]⟩,
   ⟨48, 36, 1, (some 1), true, false, 191, 191, 1910,
    (some ⟨0, 189, 1850, [83, 101, 84, 121]⟩),
    (some ⟨2, [77, 144, 119, 40, 86, 142, 87, 126, 30, 90, 91, 92, 93, 127], [15, 14, 8, 14, 13, 13, 7, 9, 15, 13, 9, 5, 7, 20], 16, [31, 33, 41]⟩), [5, 8], [16, 2], [189]⟩,
   ⟨48, 36, 2, (some 35), false, true, 207, 207, 2070,
    (some ⟨1, 207, 1910, [77, 144, 119, 40, 86, 142, 87, 126, 30, 90, 91, 92, 93, 127]⟩),
    none, [31, 33, 41], [], [207]⟩]),
  (train_ko1_27, [
   ⟨49, 27, 2, (some 34), true, false, 114, 114, 1140,
    none,
    (some ⟨1, [78, 79, 80, 81, 120, 31, 94, 95, 143, 128, 41, 85, 145, 125], [18, 7, 6, 8, 12, 20, 23, 5, 19, 11, 16, 11, 17, 9], 18, [17, 19]⟩), [], [30, 22], [114]⟩,
   ⟨49, 27, 1, (some 2), true, false, 135, 135, 1350,
    (some ⟨2, 132, 1140, [78, 79, 80, 81, 120, 31, 94, 95, 143, 128, 41, 85, 145, 125]⟩),
    (some ⟨0, [76, 130, 133, 122], [8, 12, 22, 10], 5, [82, 84, 86, 89, 91]⟩), [17, 19], [9, 7, 6], [132]⟩,
   ⟨49, 27, 0, (some 15), false, true, 140, 140, 1400,
    (some ⟨1, 140, 1350, [76, 130, 133, 122]⟩),
    none, [82, 84, 86, 89, 91], [], [140]⟩]),
  (train_ko1_111, [
   ⟨50, 111, 1, (some 4), true, false, 151, 151, 1510,
    none,
    (some ⟨0, [76, 130, 133, 122], [8, 12, 22, 10], 5, [82, 84, 86, 89, 91]⟩), [], [7, 6], [151]⟩,
   ⟨50, 111, 0, (some 39), false, true, 156, 156, 1560,
    (some ⟨1, 156, 1510, [76, 130, 133, 122]⟩),
    none, [82, 84, 86, 89, 91], [], [156]⟩]),
  (train_ko1_31, [
   ⟨51, 31, 2, (some 34), true, false, 133, 133, 1330,
    none,
    (some ⟨1, [78, 79, 80, 81, 120, 31, 94, 95, 143, 128, 41, 85, 145, 125], [18, 7, 6, 8, 12, 20, 23, 5, 19, 11, 16, 11, 17, 9], 18, [17, 19]⟩), [], [30, 22], [133]⟩,
   ⟨51, 31, 1, (some 2), true, false, 153, 154, 1540,
    (some ⟨2, 151, 1330, [78, 79, 80, 81, 120, 31, 94, 95, 143, 128, 41, 85, 145, 125]⟩),
    (some ⟨0, [76, 130, 133, 122], [8, 12, 22, 10], 5, [82, 84, 86, 89, 91]⟩), [17, 19], [9, 7, 6], [151]⟩,
   ⟨51, 31, 0, (some 15), false, true, 158, 159, 1590,
    (some ⟨1, 159, 1540, [76, 130, 133, 122]⟩),
    none, [82, 84, 86, 89, 91], [], [159]⟩]),
  (train_ko1_6411, [
   ⟨52, 6411, 2, (some 33), true, false, 144, 145, 1450,
    none,
    (some ⟨1, [78, 79, 80, 81, 120, 31, 94, 95, 143, 128, 41, 85, 145, 125], [18, 7, 6, 8, 12, 20, 23, 5, 9, 11, 6, 11, 7, 9], 15, [17, 19]⟩), [], [36, 30, 22], [144]⟩,
   ⟨52, 6411, 1, (some 2), true, false, 159, 164, 1640,
    (some ⟨2, 160, 1450, [78, 79, 80, 81, 120, 31, 94, 95, 143, 128, 41, 85, 145, 125]⟩),
    (some ⟨0, [76, 130, 133, 122], [6, 10, 12, 10], 4, [81, 85, 88, 91]⟩), [17, 19], [9, 7, 6], [160]⟩,
   ⟨52, 6411, 0, (some 13), false, true, 163, 168, 1680,
    (some ⟨1, 168, 1640, [76, 130, 133, 122]⟩),
    none, [81, 85, 88, 91], [], [168]⟩]),
  (train_ko1_33, [
   ⟨53, 33, 2, (some 34), true, false, 140, 140, 1400,
    none,
    (some ⟨1, [78, 79, 80, 81, 120, 31, 94, 95, 143, 128, 41, 85, 145, 125], [18, 7, 6, 8, 12, 20, 23, 5, 19, 11, 16, 11, 17, 9], 18, [17, 19]⟩), [], [30, 22], [140]⟩,
   ⟨53, 33, 1, (some 2), true, false, 160, 160, 1600,
    (some ⟨2, 158, 1400, [78, 79, 80, 81, 120, 31, 94, 95, 143, 128, 41, 85, 145, 125]⟩),
    (some ⟨0, [76, 130, 133, 122], [8, 12, 22, 10], 5, [82, 84, 86, 89, 91]⟩), [17, 19], [9, 7, 6], [158]⟩,
   ⟨53, 33, 0, (some 15), false, true, 165, 165, 1650,
    (some ⟨1, 165, 1600, [76, 130, 133, 122]⟩),
    none, [82, 84, 86, 89, 91], [], [165]⟩]),
  (train_ko1_35, [
   ⟨54, 35, 2, (some 34), true, false, 158, 158, 1580,
    none,
    (some ⟨1, [78, 79, 80, 81, 120, 31, 94, 95, 143, 128, 41, 85, 145, 125], [18, 7, 6, 8, 12, 20, 23, 5, 19, 11, 16, 11, 17, 9], 18, [17, 19]⟩), [], [30, 22], [158]⟩,
   ⟨54, 35, 1, (some 2), true, false, 178, 179, 1790,
    (some ⟨2, 176, 1580, [78, 79, 80, 81, 120, 31, 94, 95, 143, 128, 41, 85, 145, 125]⟩),
    (some ⟨0, [76, 130, 133, 122], [8, 12, 22, 10], 5, [82, 84, 86, 89, 91]⟩), [17, 19], [9, 7, 6], [176]⟩,
   ⟨54, 35, 0, (some 15), false, true, 183, 184, 1840,
    (some ⟨1, 184, 1790, [76, 130, 133, 122]⟩),
    none, [82, 84, 86, 89, 91], [], [184]⟩]),
  (train_ko1_113, [
   ⟨55, 113, 1, (some 4), true, false, 173, 173, 1730,
    none,
    (some ⟨0, [76, 130, 133, 122], [8, 12, 22, 10], 5, [82, 84, 86, 89, 91]⟩), [], [7, 6], [173]⟩,
   ⟨55, 113, 0, (some 39), false, true, 178, 178, 1780,
    (some ⟨1, 178, 1730, [76, 130, 133, 122]⟩),
    none, [82, 84, 86, 89, 91], [], [178]⟩]),
  (train_ko1_37, [
   ⟨56, 37, 2, (some 34), true, false, 154, 154, 1540,
    none,
    (some ⟨1, [78, 79, 80, 81, 120, 31, 94, 95, 143, 128, 41, 85, 145, 125], [18, 7, 6, 8, 12, 20, 23, 5, 19, 11, 16, 11, 17, 9], 18, [17, 19]⟩), [], [30, 22], [154]⟩,
   ⟨56, 37, 1, (some 2), true, false, 175, 176, 1760,
    (some ⟨2, 172, 1540, [78, 79, 80, 81, 120, 31, 94, 95, 143, 128, 41, 85, 145, 125]⟩),
    (some ⟨0, [76, 130, 133, 122], [8, 12, 22, 10], 5, [82, 84, 86, 89, 91]⟩), [17, 19], [9, 7, 6], [172]⟩,
   ⟨56, 37, 0, (some 15), false, true, 180, 181, 1810,
    (some ⟨1, 181, 1760, [76, 130, 133, 122]⟩),
    none, [82, 84, 86, 89, 91], [], [181]⟩]),
  (train_ko1_6413, [
   ⟨57, 6413, 2, (some 33), true, false, 166, 166, 1660,
    none,
    (some ⟨1, [78, 79, 80, 81, 120, 31, 94, 95, 143, 128, 41, 85, 145, 125], [18, 7, 6, 8, 12, 20, 23, 5, 9, 11, 6, 11, 7, 9], 15, [17, 19]⟩), [], [36, 30, 22], [166]⟩,
   ⟨57, 6413, 1, (some 2), true, false, 181, 183, 1830,
    (some ⟨2, 181, 1660, [78, 79, 80, 81, 120, 31, 94, 95, 143, 128, 41, 85, 145, 125]⟩),
    (some ⟨0, [76, 130, 133, 122], [6, 10, 12, 10], 4, [81, 85, 88, 91]⟩), [17, 19], [9, 7, 6], [181]⟩,
   ⟨57, 6413, 0, (some 13), false, true, 185, 187, 1870,
    (some ⟨1, 187, 1830, [76, 130, 133, 122]⟩),
    none, [81, 85, 88, 91], [], [187]⟩]),
  (train_ko1_41, [
   ⟨58, 41, 2, (some 34), true, false, 178, 178, 1780,
    none,
    (some ⟨1, [78, 79, 80, 81, 120, 31, 94, 95, 143, 128, 41, 85, 145, 125], [18, 7, 6, 8, 12, 20, 23, 5, 19, 11, 16, 11, 17, 9], 18, [17, 19]⟩), [], [30, 22], [178]⟩,
   ⟨58, 41, 1, (some 2), true, false, 198, 198, 1980,
    (some ⟨2, 196, 1780, [78, 79, 80, 81, 120, 31, 94, 95, 143, 128, 41, 85, 145, 125]⟩),
    (some ⟨0, [76, 130, 133, 122], [8, 12, 22, 10], 5, [82, 84, 86, 89, 91]⟩), [17, 19], [9, 7, 6], [196]⟩,
   ⟨58, 41, 0, (some 15), false, true, 203, 203, 2030,
    (some ⟨1, 203, 1980, [76, 130, 133, 122]⟩),
    none, [82, 84, 86, 89, 91], [], [203]⟩])]

theorem ko1n9Plan_sections : ko1n9Plan.map Prod.fst = ko1 := rfl

theorem ko1n9Plan_ok : netKo.PlanOK "14:00" ko1n9Delays 40 netKoSpecial ko1n9Plan :=
  ko1Plan_ok.again rfl (by decide +kernel) (by decide +kernel) (by decide +kernel) (by decide +kernel)

theorem ko1n9_cost : netKo.costOK ko1n9Plan 242 = true := by decide +kernel

/-- the departures: train and station -/
def ko1n9Nodes : List (Nat × Nat) := [
  (5, 0), (4, 0), (5, 1), (23, 0), (21, 0), (23, 1), (24, 0), (24, 1), (41, 0), (39, 0), (41, 1),
  (43, 0), (43, 1), (11, 2), (9, 2), (11, 1), (29, 2), (18, 2), (18, 1), (33, 2), (31, 2), (33, 1),
  (34, 2), (36, 2), (36, 1), (22, 0), (22, 1), (32, 2), (14, 1), (12, 1), (32, 1), (17, 2),
  (29, 1), (25, 0), (26, 0), (26, 1), (52, 2), (53, 2), (53, 1), (16, 1), (34, 1), (35, 1),
  (56, 1), (55, 1), (16, 2), (12, 2), (13, 2), (13, 1), (37, 2), (37, 1), (52, 1), (50, 1), (6, 0),
  (3, 0), (3, 1), (6, 1), (6, 2), (31, 1), (30, 1), (51, 1), (54, 1), (57, 1), (57, 2), (54, 2),
  (15, 1), (27, 0), (27, 1), (25, 1), (25, 2), (17, 1), (14, 2), (56, 2)]

/-- the choices -/
def ko1n9Choices : List CodedNet.Choice := [
  .first 4 5 0, .first 21 23 0, .first 23 24 0, .first 39 41 0, .first 41 43 0, .first 4 5 1,
  .first 21 23 1, .first 23 24 1, .first 39 41 1, .first 41 43 1, .first 9 11 2, .first 13 14 2,
  .first 18 29 2, .first 31 33 2, .first 33 34 2, .first 34 36 2, .first 54 56 2, .first 22 23 0,
  .first 34 36 1, .first 54 56 1, .first 12 14 2, .first 33 32 2, .first 12 14 1, .first 33 32 1,
  .first 29 17 2, .first 26 25 1, .first 26 25 0, .first 53 52 2, .first 12 16 1, .first 35 34 1,
  .first 55 56 1, .first 12 16 2, .first 13 12 2, .first 36 37 2, .first 36 37 1, .first 50 52 1,
  .first 35 36 1, .first 22 24 0, .first 3 6 0, .first 30 31 1, .first 50 51 1, .first 55 54 1,
  .first 13 12 1, .first 54 57 1, .first 54 57 2, .first 30 32 1, .first 30 33 1, .first 55 57 1,
  .first 15 18 1, .first 53 52 1, .first 35 37 1, .against 27 36 0 1, .first 29 17 1,
  .first 15 17 1, .first 18 17 2, .first 18 17 1]

/-- the inequalities -/
def ko1n9Arcs : ArcTree :=
  .node ⟨.track, 2, 1, 0, 0, 35, false⟩ (.node ⟨.follow, 1, 2, 1, 3, 0, false⟩ (.node
  ⟨.track, 4, 4, 0, 0, 85, false⟩ (.node ⟨.follow, 5, 4, 7, 3, 0, false⟩ (.node
  ⟨.track, 12, 3, 2, 0, 4, false⟩ (.node ⟨.run, 0, 24, 25, 20, 0, false⟩ (.node
  ⟨.follow, 74, 25, 42, 3, 0, false⟩ (.node ⟨.follow, 112, 70, 19, 2, 0, false⟩ .none .none) .none)
  (.node ⟨.follow, 94, 22, 59, 3, 0, false⟩ .none .none)) (.node ⟨.follow, 56, 37, 38, 4, 0, false⟩
  (.node ⟨.follow, 63, 46, 45, 4, 0, false⟩ .none .none) (.node ⟨.track, 52, 68, 35, 0, 4, false⟩
  .none .none))) (.node ⟨.follow, 26, 17, 18, 4, 0, false⟩ (.node
  ⟨.track, 48, 31, 20, 0, 18, false⟩ (.node ⟨.follow, 73, 42, 25, 3, 0, false⟩ (.node
  ⟨.track, 5, 4, 0, 0, 90, false⟩ .none .none) .none) (.node ⟨.follow, 55, 38, 37, 5, 0, false⟩
  .none .none)) (.node ⟨.follow, 66, 46, 47, 4, 0, false⟩ (.node ⟨.run, 0, 64, 61, 20, 0, false⟩
  .none .none) (.node ⟨.track, 106, 70, 17, 0, 18, false⟩ .none .none)))) (.node
  ⟨.run, 0, 9, 11, 6, 0, false⟩ (.node ⟨.track, 20, 13, 9, 0, 4, false⟩ (.node
  ⟨.follow, 44, 28, 20, 4, 0, false⟩ (.node ⟨.follow, 77, 54, 53, 3, 0, false⟩ (.node
  ⟨.track, 24, 71, 0, 0, 33, false⟩ .none .none) .none) (.node ⟨.follow, 97, 65, 19, 3, 0, false⟩
  .none .none)) (.node ⟨.follow, 62, 43, 44, 3, 0, false⟩ (.node ⟨.follow, 61, 44, 43, 3, 0, false⟩
  .none .none) (.node ⟨.run, 0, 68, 69, 15, 0, false⟩ .none .none))) (.node
  ⟨.run, 0, 20, 22, 20, 0, false⟩ (.node ⟨.follow, 50, 32, 17, 4, 0, false⟩ (.node
  ⟨.follow, 81, 52, 60, 3, 0, false⟩ .none .none) (.node ⟨.follow, 102, 50, 42, 2, 0, false⟩ .none
  .none)) (.node ⟨.follow, 67, 24, 49, 5, 0, false⟩ (.node ⟨.follow, 87, 61, 62, 4, 0, false⟩ .none
  .none) (.node ⟨.follow, 109, 18, 32, 5, 0, false⟩ .none .none))))) (.node
  ⟨.run, 0, 4, 6, 6, 0, false⟩ (.node ⟨.track, 8, 9, 0, 0, 135, false⟩ (.node
  ⟨.track, 16, 8, 4, 0, 4, false⟩ (.node ⟨.run, 0, 26, 27, 7, 0, false⟩ (.node
  ⟨.follow, 78, 53, 54, 2, 0, false⟩ (.node ⟨.follow, 42, 71, 46, 5, 0, false⟩ .none .none) .none)
  (.node ⟨.follow, 93, 59, 22, 3, 0, false⟩ .none .none)) (.node ⟨.follow, 58, 40, 30, 4, 0, false⟩
  (.node ⟨.track, 86, 30, 47, 0, 18, false⟩ .none .none) (.node ⟨.run, 0, 34, 68, 5, 0, false⟩
  .none .none))) (.node ⟨.track, 28, 20, 0, 0, 78, false⟩ (.node ⟨.run, 0, 28, 31, 15, 0, false⟩
  (.node ⟨.follow, 79, 59, 58, 3, 0, false⟩ (.node ⟨.track, 25, 18, 0, 0, 55, false⟩ .none .none)
  .none) (.node ⟨.track, 100, 51, 38, 0, 18, false⟩ .none .none)) (.node
  ⟨.follow, 68, 49, 24, 4, 0, false⟩ (.node ⟨.follow, 89, 64, 63, 5, 0, false⟩ .none .none) (.node
  ⟨.follow, 110, 32, 18, 4, 0, false⟩ .none .none)))) (.node ⟨.follow, 9, 9, 12, 3, 0, false⟩
  (.node ⟨.follow, 21, 15, 14, 4, 0, false⟩ (.node ⟨.track, 31, 23, 0, 0, 95, false⟩ (.node
  ⟨.run, 0, 56, 57, 15, 0, false⟩ (.node ⟨.track, 34, 72, 0, 0, 158, false⟩ .none .none) .none)
  (.node ⟨.follow, 71, 52, 51, 4, 0, false⟩ .none .none)) (.node ⟨.run, 0, 46, 30, 15, 0, false⟩
  (.node ⟨.follow, 88, 62, 61, 2, 0, false⟩ .none .none) (.node ⟨.follow, 49, 17, 32, 5, 0, false⟩
  .none .none))) (.node ⟨.track, 32, 24, 0, 0, 93, false⟩ (.node ⟨.follow, 54, 34, 35, 2, 0, false⟩
  (.node ⟨.follow, 83, 44, 61, 3, 0, false⟩ .none .none) (.node ⟨.leave, 104, 25, 66, 0, 4, false⟩
  .none .none)) (.node ⟨.follow, 69, 25, 50, 4, 0, false⟩ (.node ⟨.follow, 37, 41, 25, 3, 0, false⟩
  .none .none) (.node ⟨.follow, 107, 65, 70, 4, 0, false⟩ .none .none)))))) (.node
  ⟨.run, 0, 1, 3, 6, 0, false⟩ (.node ⟨.follow, 3, 5, 4, 3, 0, false⟩ (.node
  ⟨.run, 0, 7, 8, 6, 0, false⟩ (.node ⟨.track, 14, 6, 5, 0, 4, false⟩ (.node
  ⟨.follow, 36, 4, 26, 3, 0, false⟩ (.node ⟨.follow, 76, 7, 26, 3, 0, false⟩ (.node
  ⟨.track, 45, 30, 71, 0, 18, false⟩ .none .none) .none) (.node ⟨.follow, 91, 59, 31, 4, 0, false⟩
  .none .none)) (.node ⟨.run, 0, 38, 39, 20, 0, false⟩ (.node ⟨.run, 0, 45, 40, 20, 0, false⟩ .none
  .none) (.node ⟨.follow, 53, 35, 34, 3, 0, false⟩ .none .none))) (.node
  ⟨.run, 0, 18, 19, 20, 0, false⟩ (.node ⟨.follow, 43, 20, 28, 5, 0, false⟩ (.node
  ⟨.follow, 80, 58, 59, 3, 0, false⟩ (.node ⟨.track, 33, 64, 0, 0, 154, false⟩ .none .none) .none)
  (.node ⟨.run, 0, 37, 51, 15, 0, false⟩ .none .none)) (.node ⟨.run, 0, 47, 48, 20, 0, false⟩
  (.node ⟨.track, 88, 62, 64, 0, 18, false⟩ .none .none) (.node ⟨.follow, 105, 33, 70, 4, 0, false⟩
  .none .none)))) (.node ⟨.track, 10, 12, 0, 0, 137, false⟩ (.node ⟨.track, 22, 14, 0, 0, 3, false⟩
  (.node ⟨.follow, 29, 20, 23, 4, 0, false⟩ (.node ⟨.run, 0, 53, 56, 5, 0, false⟩ (.node
  ⟨.track, 39, 61, 72, 0, 18, false⟩ .none .none) .none) (.node ⟨.follow, 95, 44, 62, 4, 0, false⟩
  .none .none)) (.node ⟨.follow, 64, 45, 46, 5, 0, false⟩ (.node ⟨.follow, 40, 43, 61, 3, 0, false⟩
  .none .none) (.node ⟨.follow, 100, 51, 39, 2, 0, false⟩ .none .none))) (.node
  ⟨.track, 30, 23, 0, 0, 79, false⟩ (.node ⟨.run, 0, 17, 33, 20, 0, false⟩ (.node
  ⟨.follow, 84, 61, 44, 3, 0, false⟩ .none .none) (.node ⟨.follow, 101, 42, 50, 4, 0, false⟩ .none
  .none)) (.node ⟨.run, 0, 49, 50, 15, 0, false⟩ (.node ⟨.follow, 59, 42, 41, 3, 0, false⟩ .none
  .none) (.node ⟨.follow, 111, 19, 70, 4, 0, false⟩ .none .none))))) (.node
  ⟨.track, 6, 7, 0, 0, 87, false⟩ (.node ⟨.follow, 7, 10, 9, 3, 0, false⟩ (.node
  ⟨.track, 18, 11, 10, 0, 4, false⟩ (.node ⟨.track, 38, 25, 23, 0, 18, false⟩ (.node
  ⟨.run, 0, 54, 55, 7, 0, false⟩ (.node ⟨.follow, 41, 46, 71, 4, 0, false⟩ .none .none) .none)
  (.node ⟨.follow, 96, 62, 44, 2, 0, false⟩ .none .none)) (.node ⟨.follow, 60, 41, 42, 3, 0, false⟩
  (.node ⟨.follow, 85, 48, 30, 4, 0, false⟩ .none .none) (.node ⟨.follow, 51, 36, 68, 5, 0, false⟩
  .none .none))) (.node ⟨.follow, 27, 21, 20, 4, 0, false⟩ (.node
  ⟨.follow, 47, 22, 31, 4, 0, false⟩ (.node ⟨.follow, 82, 60, 52, 3, 0, false⟩ (.node
  ⟨.track, 23, 47, 0, 0, 24, false⟩ .none .none) .none) (.node ⟨.follow, 99, 39, 51, 4, 0, false⟩
  .none .none)) (.node ⟨.track, 70, 50, 24, 0, 18, false⟩ (.node ⟨.run, 0, 63, 62, 15, 0, false⟩
  .none .none) (.node ⟨.track, 112, 70, 18, 0, 18, false⟩ .none .none)))) (.node
  ⟨.run, 0, 12, 13, 6, 0, false⟩ (.node ⟨.run, 0, 14, 16, 20, 0, false⟩ (.node
  ⟨.follow, 46, 29, 30, 4, 0, false⟩ (.node ⟨.follow, 75, 26, 7, 3, 0, false⟩ (.node
  ⟨.follow, 35, 26, 4, 3, 0, false⟩ .none .none) .none) (.node ⟨.follow, 98, 19, 65, 3, 0, false⟩
  .none .none)) (.node ⟨.track, 57, 30, 45, 0, 18, false⟩ (.node ⟨.follow, 90, 63, 64, 4, 0, false⟩
  .none .none) (.node ⟨.run, 0, 32, 70, 15, 0, false⟩ .none .none))) (.node
  ⟨.follow, 31, 23, 24, 4, 0, false⟩ (.node ⟨.run, 0, 35, 36, 6, 0, false⟩ (.node
  ⟨.follow, 65, 47, 46, 5, 0, false⟩ .none .none) (.node ⟨.run, 0, 66, 67, 7, 0, false⟩ .none
  .none)) (.node ⟨.follow, 72, 51, 52, 2, 0, false⟩ (.node ⟨.follow, 92, 31, 59, 2, 0, false⟩ .none
  .none) (.node ⟨.follow, 108, 70, 65, 2, 0, false⟩ .none .none))))))

/-- the bounds of the departures -/
def ko1n9Times : TimeTree :=
  .node 0 0 0 (.node 37 0 77 (.node 43 4 83 (.node 90 0 130 (.node 3 0 43 (.node 104 6 144 (.node
  166 0 206 .none .none) .none) (.node 33 0 73 .none .none)) (.node 93 0 133 (.node 160 4 200
  (.node 24 0 64 .none .none) .none) (.node 57 4 97 .none .none))) (.node 143 4 183 (.node 78 4 118
  (.node 103 0 143 (.node 119 4 159 .none .none) .none) (.node 159 6 199 .none .none)) (.node 97 4
  137 (.node 175 4 215 .none .none) (.node 96 4 136 .none .none)))) (.node 85 0 125 (.node 137 0
  177 (.node 55 0 95 (.node 75 4 115 (.node 83 4 123 .none .none) .none) (.node 105 0 145 .none
  .none)) (.node 115 4 155 (.node 113 4 153 .none .none) (.node 71 6 111 .none .none))) (.node 146
  4 186 (.node 78 0 118 (.node 144 0 184 (.node 124 6 164 .none .none) .none) (.node 51 0 91 .none
  .none)) (.node 45 4 85 (.node 40 0 80 .none .none) (.node 178 4 218 .none .none))))) (.node 35 0
  75 (.node 87 0 127 (.node 96 4 136 (.node 25 4 65 (.node 54 0 94 (.node 158 0 198 .none .none)
  .none) (.node 53 4 93 .none .none)) (.node 95 0 135 (.node 60 4 100 (.node 154 0 194 .none .none)
  .none) (.node 56 0 96 .none .none))) (.node 140 0 180 (.node 79 0 119 (.node 109 4 149 (.node 109
  0 149 .none .none) .none) (.node 151 4 191 .none .none)) (.node 89 0 129 (.node 173 4 213 .none
  .none) (.node 153 4 193 .none .none)))) (.node 93 4 133 (.node 135 0 175 (.node 58 0 98 (.node
  104 0 144 (.node 112 0 152 .none .none) .none) (.node 120 6 160 .none .none)) (.node 90 0 130
  (.node 112 4 152 .none .none) (.node 98 4 138 .none .none))) (.node 5 0 45 (.node 100 4 140
  (.node 140 0 180 (.node 69 6 109 .none .none) .none) (.node 50 0 90 .none .none)) (.node 45 6 85
  (.node 30 0 70 .none .none) (.node 181 6 221 .none .none)))))

/-- some of the cases -/
def ko1n9Case0 : SumTree :=
  .cases [114, 115] 29 (.cases [92, 93] 55 (.cases [124] 49 (.leaf [106]) (.cases [] 27 (.cycle 51
  [105, 103, 104]) (.leaf [47, 48]))) (.cases [127] 33 (.cases [] 54 (.cycle 70 [122, 123, 118])
  (.cases [121, 24] 27 (.cases [103, 104] 37 (.cases [70, 8] 48 (.cases [99] 34 (.leaf [61])
  (.cycle 50 [58, 59, 60])) (.leaf [102])) (.cases [64, 33] 48 (.cases [99] 34 (.leaf [61]) (.cycle
  50 [58, 59, 60])) (.leaf [102]))) (.leaf [47, 48]))) (.leaf [57, 31]))) (.cases [50] 53 (.leaf
  [125]) (.cases [] 33 (.cases [] 54 (.cases [] 55 (.cases [124, 126] 39 (.cases [] 36 (.cases [71]
  34 (.leaf [61]) (.cycle 50 [58, 59, 60])) (.leaf [63])) (.leaf [72])) (.cycle 70
  [122, 123, 118])) (.cases [121, 24] 49 (.leaf [106]) (.cases [] 27 (.cycle 51 [105, 103, 104])
  (.leaf [47, 48])))) (.leaf [57, 31])))

/-- some of the cases -/
def ko1n9Case1 : SumTree :=
  .cases [] 26 (.cycle 68 [111, 112, 113]) (.cases [45, 46] 29 (.cases [92, 93] 27 (.cases [] 49
  (.cases [106] 53 (.leaf [125]) (.cases [] 33 (.cases [] 54 (.cases [] 37 (.cases [70, 8] 55
  (.leaf [124, 126]) (.cycle 70 [122, 123, 118])) (.cases [64, 33] 55 (.leaf [124, 126]) (.cycle 70
  [122, 123, 118]))) (.cases [121, 24] 39 (.cases [73] 34 (.cases [61] 40 (.leaf [75]) (.leaf
  [74])) (.cycle 50 [58, 59, 60])) (.leaf [72]))) (.leaf [57, 31]))) (.cycle 38 [103, 104, 105]))
  (.cases [47, 48] 53 (.leaf [125]) (.cases [] 35 (.cases [] 33 (.cases [] 54 (.cases [] 37 (.cases
  [70, 8] 55 (.leaf [124, 126]) (.cycle 70 [122, 123, 118])) (.cases [64, 33] 55 (.leaf [124, 126])
  (.cycle 70 [122, 123, 118]))) (.cases [121, 24] 39 (.cases [73] 34 (.cases [61] 40 (.leaf [75])
  (.leaf [74])) (.cycle 50 [58, 59, 60])) (.leaf [72]))) (.leaf [57, 31])) (.leaf [62])))) (.cases
  [50] 27 (.cases [] 49 (.cases [106] 53 (.leaf [125]) (.cases [] 45 (.cases [] 46 (.cases [] 54
  (.cases [] 37 (.cases [70, 8] 55 (.leaf [124]) (.cycle 70 [122, 123, 118])) (.cases [64, 33] 55
  (.leaf [124]) (.cycle 70 [122, 123, 118]))) (.cases [121, 24] 48 (.cases [99] 39 (.cases [] 36
  (.leaf [71]) (.leaf [63])) (.leaf [72, 97])) (.leaf [102]))) (.leaf [95, 96])) (.leaf [94])))
  (.cycle 38 [103, 104, 105])) (.cases [47, 48] 53 (.leaf [125]) (.cases [] 45 (.cases [] 46
  (.cases [] 54 (.cases [] 37 (.cases [70, 8] 55 (.leaf [124]) (.cycle 70 [122, 123, 118])) (.cases
  [64, 33] 55 (.leaf [124]) (.cycle 70 [122, 123, 118]))) (.cases [121, 24] 48 (.cases [99] 39
  (.cases [] 36 (.leaf [71]) (.leaf [63])) (.leaf [72, 97])) (.leaf [102]))) (.leaf [95, 96]))
  (.leaf [94])))))

/-- some of the cases -/
def ko1n9Case2 : SumTree :=
  .cases [61] 27 (.cases [] 49 (.cases [106] 42 (.leaf [82]) (.cases [] 45 (.cases [] 44 (.cases []
  32 (.cycle 47 [78, 53, 81]) (.cases [55, 56] 43 (.cases [91] 46 (.cases [] 47 (.cases [] 48
  (.cases [99] 39 (.cases [73] 40 (.cases [75] 41 (.cases [] 30 (.leaf [83, 84, 91]) (.leaf [51]))
  (.leaf [76])) (.leaf [74])) (.leaf [72, 97, 42])) (.cases [102] 41 (.cases [] 37 (.cases [70, 8]
  39 (.cases [] 40 (.cases [75] 30 (.leaf [83, 84, 91]) (.leaf [51])) (.leaf [74])) (.leaf
  [72, 97, 42])) (.cases [64, 33] 39 (.cases [73] 40 (.cases [] 30 (.leaf [83, 84, 91]) (.leaf
  [51, 77])) (.leaf [74])) (.leaf [72, 97, 42]))) (.leaf [76, 100]))) (.leaf [98])) (.leaf
  [95, 96])) (.cycle 62 [88, 89, 90]))) (.leaf [86, 87])) (.leaf [94]))) (.cycle 38
  [103, 104, 105])) (.cases [47, 48] 42 (.leaf [82]) (.cases [] 44 (.cases [] 32 (.cycle 47
  [78, 53, 81]) (.cases [55, 56] 35 (.cases [] 47 (.cases [] 39 (.cases [73] 48 (.cases [99] 40
  (.cases [] 41 (.cases [] 43 (.cases [] 30 (.leaf [83, 84, 91]) (.leaf [51])) (.cycle 62
  [88, 89, 90])) (.leaf [76])) (.leaf [74])) (.cases [] 41 (.cases [] 37 (.cases [70, 8] 40 (.cases
  [75] 43 (.cases [] 30 (.leaf [83, 84, 91]) (.leaf [51])) (.cycle 62 [88, 89, 90])) (.leaf
  [74, 101])) (.cases [64, 33] 40 (.cases [75] 43 (.cases [] 30 (.leaf [83, 84, 91]) (.leaf [51]))
  (.cycle 62 [88, 89, 90])) (.leaf [74, 101]))) (.leaf [76, 100]))) (.cases [72] 40 (.cases [] 41
  (.cases [] 43 (.cases [] 30 (.leaf [83, 84, 91]) (.leaf [51])) (.cycle 62 [88, 89, 90])) (.leaf
  [76])) (.leaf [74]))) (.leaf [98])) (.leaf [62]))) (.leaf [86, 87])))

/-- some of the cases -/
def ko1n9Case3 : SumTree :=
  .cases [] 33 (.cycle 50 [58, 59, 60]) (.cases [57, 31] 44 (.cases [] 48 (.cases [99] 49 (.leaf
  [106]) (.cases [] 27 (.cycle 51 [105, 103, 104]) (.leaf [47, 48]))) (.cases [102] 47 (.cases []
  37 (.cases [70, 8] 49 (.leaf [106]) (.cases [116] 41 (.cases [] 43 (.cases [] 30 (.leaf
  [83, 84, 91]) (.leaf [51, 77, 91])) (.cycle 62 [88, 89, 90])) (.leaf [76, 100]))) (.cases
  [64, 33] 49 (.leaf [106]) (.cases [116] 41 (.cases [] 43 (.cases [] 30 (.leaf [83, 84, 91])
  (.leaf [51, 77, 91])) (.cycle 62 [88, 89, 90])) (.leaf [76, 100])))) (.leaf [98]))) (.leaf
  [86, 87]))

/-- some of the cases -/
def ko1n9Case4 : SumTree :=
  .cases [50] 28 (.cases [] 27 (.cases [] 49 (.cases [106] 31 (.cases [] 32 (.cases [78, 79, 80] 42
  (.leaf [82]) (.cycle 47 [78, 53, 81])) (.cases [55, 56] 30 (.cases [83, 84] 45 (.cases [] 33
  (.cases [] 44 (.cases [] 43 (.cases [91] 46 (.cases [] 37 (.cases [70, 8] 39 (.cases [73] 36
  (.cases [71] 34 (.leaf [61]) (.cycle 50 [58, 59, 60])) (.leaf [63])) (.leaf [72, 97, 42]))
  (.cases [64, 33] 39 (.cases [73] 36 (.cases [71] 34 (.leaf [61]) (.cycle 50 [58, 59, 60])) (.leaf
  [63])) (.leaf [72, 97, 42]))) (.leaf [95, 96])) (.cycle 62 [88, 89, 90])) (.leaf [86, 87]))
  (.leaf [57, 31])) (.leaf [94])) (.cases [51] 45 (.cases [] 46 (.cases [] 33 (.cases [] 37 (.cases
  [70, 8] 39 (.cases [73] 36 (.cases [71] 34 (.leaf [61]) (.cycle 50 [58, 59, 60])) (.leaf [63]))
  (.leaf [72, 97, 42])) (.cases [64, 33] 39 (.cases [73] 36 (.cases [71] 34 (.leaf [61]) (.cycle 50
  [58, 59, 60])) (.leaf [63])) (.leaf [72, 97, 42]))) (.leaf [57, 31])) (.leaf [95, 96])) (.leaf
  [94])))) (.cycle 45 [52, 53, 54])) (.cycle 38 [103, 104, 105])) (.cases [47, 48] 31 (.cases [] 32
  (.cases [78, 79, 80] 42 (.leaf [82]) (.cycle 47 [78, 53, 81])) (.cases [55, 56] 45 (.cases [] 33
  (.cases [] 44 (.cases [] 34 (.cases [61] 43 (.cases [91] 46 (.cases [] 48 (.cases [99] 39 (.cases
  [73] 36 (.leaf [71, 61]) (.leaf [63])) (.leaf [72, 97, 42])) (.cases [102] 50 (.cases [] 37
  (.cases [70, 8] 39 (.cases [] 36 (.leaf [71, 61]) (.leaf [63, 108])) (.leaf [72, 97, 42]))
  (.cases [64, 33] 39 (.cases [] 36 (.leaf [71, 61]) (.leaf [63, 108])) (.leaf [72, 97, 42])))
  (.leaf [107]))) (.leaf [95, 96])) (.cycle 62 [88, 89, 90])) (.cycle 50 [58, 59, 60])) (.leaf
  [86, 87])) (.leaf [57, 31])) (.leaf [94]))) (.cycle 45 [52, 53, 54]))) (.leaf [49])

/-- some of the cases -/
def ko1n9Case5 : SumTree :=
  .cases [92, 93] 34 (.cases [61] 31 (.cases [] 30 (.cases [83, 84] 32 (.cases [78, 79, 80] 42
  (.leaf [82]) (.cycle 47 [78, 53, 81])) (.cases [55, 56] 43 (.cases [91] 45 (.cases [] 39 (.cases
  [73] 40 (.cases [75] 38 (.cases [67, 68, 69] 37 (.cases [70, 8] 48 (.leaf [99]) (.leaf [102]))
  (.cases [64, 33] 48 (.leaf [99]) (.leaf [102]))) (.cases [65, 66] 37 (.cases [70, 8] 48 (.leaf
  [99]) (.leaf [102])) (.cases [64, 33] 48 (.leaf [99]) (.leaf [102])))) (.cases [74] 48 (.leaf
  [99]) (.cases [102] 51 (.cases [] 38 (.leaf [67, 68, 69]) (.leaf [65, 66])) (.leaf [109, 110]))))
  (.cases [72] 40 (.cases [75] 48 (.leaf [99]) (.cases [] 46 (.leaf [97, 42]) (.leaf [95, 96])))
  (.leaf [74]))) (.leaf [94])) (.cases [] 37 (.cases [70, 8] 44 (.cycle 62 [88, 89, 90]) (.leaf
  [86, 87])) (.cases [64, 33] 44 (.cycle 62 [88, 89, 90]) (.leaf [86, 87]))))) (.cases [51] 42
  (.leaf [82]) (.cases [] 44 (.cases [] 32 (.cycle 47 [78, 53, 81]) (.cases [55, 56] 39 (.cases
  [73] 41 (.cases [77] 43 (.leaf [91]) (.cycle 62 [88, 89, 90])) (.cases [76] 47 (.leaf [100])
  (.cases [98] 48 (.leaf [99]) (.cases [102] 40 (.cases [75] 43 (.leaf [91, 98]) (.cycle 62
  [88, 89, 90])) (.leaf [74]))))) (.cases [72] 40 (.cases [75] 43 (.cases [91] 38 (.leaf
  [67, 68, 69]) (.leaf [65, 66])) (.cycle 62 [88, 89, 90])) (.leaf [74])))) (.leaf [86, 87]))))
  (.cycle 45 [52, 53, 54])) (.cases [] 33 (.cycle 50 [58, 59, 60]) (.cases [57, 31] 45 (.cases []
  46 (.cases [] 41 (.cases [] 44 (.cases [] 37 (.cases [70, 8] 39 (.cases [73] 43 (.cases [] 30
  (.leaf [83, 84, 91]) (.leaf [51, 77])) (.cycle 62 [88, 89, 90])) (.leaf [72, 97, 42])) (.cases
  [64, 33] 39 (.cases [73] 43 (.cases [] 30 (.leaf [83, 84, 91]) (.leaf [51, 77])) (.cycle 62
  [88, 89, 90])) (.leaf [72, 97, 42]))) (.leaf [86, 87])) (.leaf [76])) (.leaf [95, 96])) (.leaf
  [94])))

/-- some of the cases -/
def ko1n9Case6 : SumTree :=
  .cases [50] 30 (.cases [83, 84] 31 (.cases [] 43 (.cases [91] 32 (.cases [78, 79, 80] 42 (.leaf
  [82]) (.cycle 47 [78, 53, 81])) (.cases [55, 56] 45 (.cases [] 33 (.cases [] 34 (.cases [61] 36
  (.cases [71, 61] 37 (.cases [70, 8] 38 (.leaf [67, 68, 69]) (.leaf [65, 66])) (.cases [64, 33] 38
  (.leaf [67, 68, 69]) (.leaf [65, 66]))) (.cases [63] 46 (.cases [] 37 (.cases [70, 8] 48 (.leaf
  [99]) (.cases [] 39 (.cases [73] 50 (.leaf [108]) (.leaf [107])) (.leaf [72, 97, 42]))) (.cases
  [64, 33] 48 (.leaf [99]) (.cases [] 39 (.cases [73] 50 (.leaf [108]) (.leaf [107])) (.leaf
  [72, 97, 42])))) (.leaf [95, 96]))) (.cycle 50 [58, 59, 60])) (.leaf [57, 31])) (.leaf [94])))
  (.cases [85] 33 (.cases [] 44 (.cycle 62 [88, 89, 90]) (.cases [86, 87] 39 (.cases [73] 36
  (.cases [71] 34 (.leaf [61]) (.cycle 50 [58, 59, 60])) (.leaf [63])) (.leaf [72]))) (.leaf
  [57, 31]))) (.cycle 45 [52, 53, 54])) (.cases [51] 31 (.cases [] 32 (.cases [78, 79, 80] 42
  (.leaf [82]) (.cycle 47 [78, 53, 81])) (.cases [55, 56] 33 (.cases [] 44 (.cases [] 34 (.cases
  [61] 43 (.cases [91] 41 (.cases [77, 91] 38 (.leaf [67, 68, 69]) (.leaf [65, 66])) (.cases [76]
  37 (.cases [70, 8] 38 (.leaf [67, 68, 69]) (.leaf [65, 66])) (.cases [64, 33] 38 (.leaf
  [67, 68, 69]) (.leaf [65, 66])))) (.cycle 62 [88, 89, 90])) (.cycle 50 [58, 59, 60])) (.leaf
  [86, 87])) (.leaf [57, 31]))) (.cycle 45 [52, 53, 54]))

/-- some of the cases -/
def ko1n9Case7 : SumTree :=
  .cases [92, 93] 34 (.cases [61] 31 (.cases [] 30 (.cases [83, 84] 32 (.cases [78, 79, 80] 42
  (.leaf [82]) (.cycle 47 [78, 53, 81])) (.cases [55, 56] 43 (.cases [91] 45 (.cases [] 35 (.cases
  [] 39 (.cases [73] 40 (.cases [75] 38 (.cases [67, 68, 69] 37 (.cases [70, 8] 48 (.leaf [99])
  (.leaf [102])) (.cases [64, 33] 48 (.leaf [99]) (.leaf [102]))) (.cases [65, 66] 37 (.cases
  [70, 8] 48 (.leaf [99]) (.leaf [102])) (.cases [64, 33] 48 (.leaf [99]) (.leaf [102])))) (.cases
  [74, 101] 38 (.leaf [67, 68, 69]) (.leaf [65, 66]))) (.cases [72] 46 (.leaf [97, 42]) (.leaf
  [95, 96]))) (.leaf [62])) (.leaf [94])) (.cases [] 37 (.cases [70, 8] 44 (.cycle 62 [88, 89, 90])
  (.leaf [86, 87])) (.cases [64, 33] 44 (.cycle 62 [88, 89, 90]) (.leaf [86, 87]))))) (.cases [51]
  42 (.leaf [82]) (.cases [] 45 (.cases [] 44 (.cases [] 32 (.cycle 47 [78, 53, 81]) (.cases
  [55, 56] 35 (.cases [] 39 (.cases [73] 41 (.cases [77] 43 (.leaf [91]) (.cycle 62 [88, 89, 90]))
  (.cases [76] 47 (.leaf [100]) (.cases [98] 48 (.leaf [99]) (.cases [] 40 (.cases [75] 43 (.leaf
  [91, 98]) (.cycle 62 [88, 89, 90])) (.leaf [74]))))) (.cases [72] 46 (.leaf [97, 42]) (.leaf
  [95, 96]))) (.leaf [62]))) (.leaf [86, 87])) (.leaf [94])))) (.cycle 45 [52, 53, 54])) (.cases []
  33 (.cycle 50 [58, 59, 60]) (.cases [57, 31] 45 (.cases [] 46 (.cases [] 41 (.cases [] 44 (.cases
  [] 37 (.cases [70, 8] 39 (.cases [73] 43 (.cases [] 30 (.leaf [83, 84, 91]) (.leaf [51, 77]))
  (.cycle 62 [88, 89, 90])) (.leaf [72, 97, 42])) (.cases [64, 33] 39 (.cases [73] 43 (.cases [] 30
  (.leaf [83, 84, 91]) (.leaf [51, 77])) (.cycle 62 [88, 89, 90])) (.leaf [72, 97, 42]))) (.leaf
  [86, 87])) (.leaf [76])) (.leaf [95, 96])) (.leaf [94])))

/-- some of the cases -/
def ko1n9Case8 : SumTree :=
  .cases [50] 30 (.cases [83, 84] 31 (.cases [] 43 (.cases [91] 32 (.cases [78, 79, 80] 42 (.leaf
  [82]) (.cycle 47 [78, 53, 81])) (.cases [55, 56] 33 (.cases [] 34 (.cases [61] 35 (.cases [] 36
  (.cases [71, 61] 39 (.cases [73] 40 (.cases [75] 38 (.leaf [67, 68, 69]) (.leaf [65, 66])) (.leaf
  [74])) (.leaf [72])) (.cases [63] 37 (.cases [70, 8] 38 (.leaf [67, 68, 69]) (.leaf [65, 66]))
  (.cases [64, 33] 38 (.leaf [67, 68, 69]) (.leaf [65, 66])))) (.leaf [62])) (.cycle 50
  [58, 59, 60])) (.leaf [57, 31]))) (.cases [85] 33 (.cases [] 44 (.cycle 62 [88, 89, 90]) (.cases
  [86, 87] 39 (.cases [73] 36 (.cases [71] 34 (.leaf [61]) (.cycle 50 [58, 59, 60])) (.leaf [63]))
  (.leaf [72]))) (.leaf [57, 31]))) (.cycle 45 [52, 53, 54])) (.cases [51] 31 (.cases [] 32 (.cases
  [78, 79, 80] 42 (.leaf [82]) (.cycle 47 [78, 53, 81])) (.cases [55, 56] 33 (.cases [] 34 (.cases
  [61] 35 (.cases [] 36 (.cases [71, 61] 39 (.cases [73] 40 (.cases [75] 41 (.leaf [77]) (.leaf
  [76])) (.leaf [74])) (.leaf [72])) (.cases [63] 37 (.cases [70, 8] 38 (.leaf [67, 68, 69]) (.leaf
  [65, 66])) (.cases [64, 33] 38 (.leaf [67, 68, 69]) (.leaf [65, 66])))) (.leaf [62])) (.cycle 50
  [58, 59, 60])) (.leaf [57, 31]))) (.cycle 45 [52, 53, 54]))

/-- all cases -/
def ko1n9Cases : SumTree :=
  .cases [] 0 (.cases [1, 2] 1 (.cases [4, 5] 2 (.cases [7, 8] 3 (.cases [10, 11] 4 (.cases
  [13, 14] 5 (.cases [] 6 (.cases [] 7 (.cases [] 8 (.cases [] 9 (.cases [] 10 (.cases [21, 22] 11
  (.leaf [138]) (.cases [] 12 (.leaf [137]) (.cases [23, 24] 13 (.cases [26, 27] 14 (.cases [] 15
  (.cases [30, 31] 16 (.leaf [136]) (.cases [] 17 (.leaf [134, 135]) (.cases [32, 33] 18 (.cases []
  19 (.leaf [132, 133]) (.cases [] 20 (.leaf [130, 131]) (.cases [] 21 (.cases [] 22 (.cycle 30
  [128, 129, 53]) (.cases [38] 23 (.cases [42] 24 (.cases [117] 52 (.cases [120] 25 ko1n9Case0
  ko1n9Case1) (.cycle 17 [117, 118, 119])) (.cases [43, 44, 23, 24] 25 (.cases [114, 115] 29
  (.cases [92, 93] 34 ko1n9Case2 ko1n9Case3) ko1n9Case4) (.cases [] 26 (.cycle 68 [111, 112, 113])
  (.cases [45, 46] 27 (.cases [] 49 (.cases [106] 28 (.cases [] 29 ko1n9Case5 ko1n9Case6) (.leaf
  [49])) (.cycle 38 [103, 104, 105])) (.cases [47, 48] 28 (.cases [] 29 ko1n9Case7 ko1n9Case8)
  (.leaf [49])))))) (.cycle 31 [39, 40, 41]))) (.leaf [35, 36, 37])))) (.cycle 23 [30, 31, 34]))))
  (.leaf [29])) (.leaf [28])) (.leaf [25])))) (.leaf [20])) (.cycle 9 [13, 14, 19])) (.cycle 10
  [10, 11, 18])) (.cycle 4 [7, 8, 17])) (.cycle 5 [4, 5, 16])) (.cycle 2 [1, 2, 15])) (.leaf [12]))
  (.leaf [9])) (.leaf [6])) (.leaf [3])) (.leaf [0])

theorem ko1n9_cases : ko1n9Cases.check ko1n9Arcs 242 ko1n9Choices.length [] ko1n9Times 0 = true := by
  decide +kernel

theorem ko1n9_choices : ko1n9Choices.all (CodedNet.Choice.ok netKo netKoSpecial ko1n9Plan) = true := by
  decide +kernel

theorem ko1n9_arcs : ko1n9Arcs.toList.all
    (netKo.arcOK netKoSpecial ko1n9Plan ko1n9Nodes ko1n9Choices) = true := by decide +kernel

theorem ko1n9_times : netKo.startOK ko1n9Plan ko1n9Nodes 0 40 ko1n9Times = true := by decide +kernel

end Verif.Real
