import Verif.Proofs.PlanSum
import Verif.Proofs.PlanAgain
import Verif.Real.PlanKo1

/-!
# The sheet of `Verif.Real.Ko1` with given delays: a plan, and that no plan is better

Generated; see `CodedNet.Item` and `Verif/Proofs/SumTree.lean`. Case 1,
`disturbances[5]`, of `/repo/solve_KO_GLC_problems.py`, line 109;
`d_max` is 40. The sum of the delays that count is 142/4.
-/

namespace Verif.Real

set_option maxRecDepth 100000

/-- the given delays -/
def ko1n5Delays : List (Int × ℚ) := [
  (1, 5), (2, 3), (3, 7), (4, 2), (5, 1), (6401, 2)]

/-- the plan, items by sections -/
def ko1n5Plan : CodedNet.Plan := [
  (train_ko1_2, [
   ⟨0, 2, 0, (some 14), true, false, 3, 3, 30,
    none,
    (some ⟨1, [83, 101, 84, 121], [9, 19, 8, 8], 4, [5, 8]⟩), [], [61, 64, 69, 71, 87, 92], [3]⟩,
   ⟨0, 2, 1, (some 1), true, false, 9, 9, 90,
    (some ⟨0, 7, 30, [83, 101, 84, 121]⟩),
    (some ⟨2, [77, 144, 119, 40, 86, 142, 87, 126, 30, 90, 91, 92, 93, 127], [15, 14, 8, 14, 13, 13, 7, 9, 15, 13, 9, 5, 7, 20], 16, [31, 33, 41]⟩), [5, 8], [16, 2], [7]⟩,
   ⟨0, 2, 2, (some 35), false, true, 25, 25, 250,
    (some ⟨1, 25, 90, [77, 144, 119, 40, 86, 142, 87, 126, 30, 90, 91, 92, 93, 127]⟩),
    none, [31, 33, 41], [], [25]⟩]),
  (train_ko1_4602, [
   ⟨1, 4602, 0, (some 10), true, false, 10, 10, 100,
    none,
    (some ⟨1, [83, 101, 84, 121], [9, 12, 6, 7], 3, [5, 8]⟩), [], [66, 68, 71, 87, 92], [10]⟩,
   ⟨1, 4602, 1, (some 1), true, false, 15, 15, 150,
    (some ⟨0, 13, 100, [83, 101, 84, 121]⟩),
    (some ⟨2, [77, 144, 119, 40, 86, 142, 87, 126, 30, 90, 91, 92, 93, 127], [11, 9, 8, 7, 13, 7, 7, 9, 15, 13, 9, 5, 7, 20], 14, [31, 34, 43]⟩), [5, 8], [16, 2], [13]⟩,
   ⟨1, 4602, 2, (some 38), true, false, 32, 32, 320,
    (some ⟨1, 29, 150, [77, 144, 119, 40, 86, 142, 87, 126, 30, 90, 91, 92, 93, 127]⟩),
    none, [31, 34, 43], [], [29]⟩]),
  (train_ko1_4, [
   ⟨2, 4, 0, (some 14), true, false, 12, 12, 120,
    none,
    (some ⟨1, [83, 101, 84, 121], [9, 19, 8, 8], 4, [5, 8]⟩), [], [61, 64, 69, 71, 87, 92], [12]⟩,
   ⟨2, 4, 1, (some 1), true, false, 18, 18, 180,
    (some ⟨0, 16, 120, [83, 101, 84, 121]⟩),
    (some ⟨2, [77, 144, 119, 40, 86, 142, 87, 126, 30, 90, 91, 92, 93, 127], [15, 14, 8, 14, 13, 13, 7, 9, 15, 13, 9, 5, 7, 20], 16, [31, 33, 41]⟩), [5, 8], [16, 2], [16]⟩,
   ⟨2, 4, 2, (some 35), false, true, 34, 34, 340,
    (some ⟨1, 34, 180, [77, 144, 119, 40, 86, 142, 87, 126, 30, 90, 91, 92, 93, 127]⟩),
    none, [31, 33, 41], [], [34]⟩]),
  (train_ko1_102, [
   ⟨3, 102, 0, (some 16), true, false, 48, 48, 480,
    none,
    (some ⟨1, [83, 101, 84, 121], [9, 19, 8, 10], 5, [5, 8, 9]⟩), [], [62, 64, 69, 71, 87, 92], [48]⟩,
   ⟨3, 102, 1, (some 3), true, false, 55, 55, 550,
    (some ⟨0, 53, 480, [83, 101, 84, 121]⟩),
    none, [5, 8, 9], [], [53]⟩]),
  (train_ko1_6, [
   ⟨4, 6, 0, (some 14), true, false, 20, 20, 200,
    none,
    (some ⟨1, [83, 101, 84, 121], [9, 19, 8, 8], 4, [5, 8]⟩), [], [61, 64, 69, 71, 87, 92], [20]⟩,
   ⟨4, 6, 1, (some 1), true, false, 26, 26, 260,
    (some ⟨0, 24, 200, [83, 101, 84, 121]⟩),
    (some ⟨2, [77, 144, 119, 40, 86, 142, 87, 126, 30, 90, 91, 92, 93, 127], [15, 14, 8, 14, 13, 13, 7, 9, 15, 13, 9, 5, 7, 20], 16, [31, 33, 41]⟩), [5, 8], [16, 2], [24]⟩,
   ⟨4, 6, 2, (some 35), false, true, 42, 42, 420,
    (some ⟨1, 42, 260, [77, 144, 119, 40, 86, 142, 87, 126, 30, 90, 91, 92, 93, 127]⟩),
    none, [31, 33, 41], [], [42]⟩]),
  (train_ko1_8, [
   ⟨5, 8, 0, (some 14), true, false, 30, 30, 300,
    none,
    (some ⟨1, [83, 101, 84, 121], [9, 19, 8, 8], 4, [5, 8]⟩), [], [61, 64, 69, 71, 87, 92], [30]⟩,
   ⟨5, 8, 1, (some 1), true, false, 36, 36, 360,
    (some ⟨0, 34, 300, [83, 101, 84, 121]⟩),
    (some ⟨2, [77, 144, 119, 40, 86, 142, 87, 126, 30, 90, 91, 92, 93, 127], [15, 14, 8, 14, 13, 13, 7, 9, 15, 13, 9, 5, 7, 20], 16, [31, 33, 41]⟩), [5, 8], [16, 2], [34]⟩,
   ⟨5, 8, 2, (some 35), false, true, 52, 52, 520,
    (some ⟨1, 52, 360, [77, 144, 119, 40, 86, 142, 87, 126, 30, 90, 91, 92, 93, 127]⟩),
    none, [31, 33, 41], [], [52]⟩]),
  (train_ko1_4604, [
   ⟨6, 4604, 0, (some 10), true, false, 39, 39, 390,
    none,
    (some ⟨1, [83, 101, 84, 121], [9, 12, 6, 7], 3, [5, 8]⟩), [], [66, 68, 71, 87, 92], [39]⟩,
   ⟨6, 4604, 1, (some 1), true, false, 44, 44, 440,
    (some ⟨0, 42, 390, [83, 101, 84, 121]⟩),
    (some ⟨2, [77, 144, 119, 40, 86, 142, 87, 126, 30, 90, 91, 92, 93, 127], [11, 9, 8, 7, 13, 7, 7, 9, 15, 13, 9, 5, 7, 20], 14, [31, 34, 43]⟩), [5, 8], [16, 2], [42]⟩,
   ⟨6, 4604, 2, (some 38), true, false, 62, 62, 620,
    (some ⟨1, 58, 440, [77, 144, 119, 40, 86, 142, 87, 126, 30, 90, 91, 92, 93, 127]⟩),
    none, [31, 34, 43], [], [58]⟩]),
  (train_ko1_10, [
   ⟨7, 10, 0, (some 14), true, false, 40, 41, 410,
    none,
    (some ⟨1, [83, 101, 84, 121], [9, 19, 8, 8], 4, [5, 8]⟩), [], [61, 64, 69, 71, 87, 92], [40]⟩,
   ⟨7, 10, 1, (some 1), true, false, 46, 47, 470,
    (some ⟨0, 45, 410, [83, 101, 84, 121]⟩),
    (some ⟨2, [77, 144, 119, 40, 86, 142, 87, 126, 30, 90, 91, 92, 93, 127], [15, 14, 8, 14, 13, 13, 7, 9, 15, 13, 9, 5, 7, 20], 16, [31, 33, 41]⟩), [5, 8], [16, 2], [45]⟩,
   ⟨7, 10, 2, (some 35), false, true, 62, 63, 630,
    (some ⟨1, 63, 470, [77, 144, 119, 40, 86, 142, 87, 126, 30, 90, 91, 92, 93, 127]⟩),
    none, [31, 33, 41], [], [63]⟩]),
  (train_ko1_12, [
   ⟨8, 12, 0, (some 14), true, false, 53, 53, 530,
    none,
    (some ⟨1, [83, 101, 84, 121], [9, 19, 8, 8], 4, [5, 8]⟩), [], [61, 64, 69, 71, 87, 92], [53]⟩,
   ⟨8, 12, 1, (some 1), true, false, 59, 59, 590,
    (some ⟨0, 57, 530, [83, 101, 84, 121]⟩),
    (some ⟨2, [77, 144, 119, 40, 86, 142, 87, 126, 30, 90, 91, 92, 93, 127], [15, 14, 8, 14, 13, 13, 7, 9, 15, 13, 9, 5, 7, 20], 16, [31, 33, 41]⟩), [5, 8], [16, 2], [57]⟩,
   ⟨8, 12, 2, (some 35), false, true, 75, 75, 750,
    (some ⟨1, 75, 590, [77, 144, 119, 40, 86, 142, 87, 126, 30, 90, 91, 92, 93, 127]⟩),
    none, [31, 33, 41], [], [75]⟩]),
  (train_ko1_1, [
   ⟨9, 1, 2, (some 34), true, false, -2, -2, -20,
    none,
    (some ⟨1, [78, 79, 80, 81, 120, 31, 94, 95, 143, 128, 41, 85, 145, 125], [18, 7, 6, 8, 12, 20, 23, 5, 19, 11, 16, 11, 17, 9], 18, [17, 19]⟩), [], [30, 22], [-2]⟩,
   ⟨9, 1, 1, (some 2), true, false, 18, 18, 180,
    (some ⟨2, 16, -20, [78, 79, 80, 81, 120, 31, 94, 95, 143, 128, 41, 85, 145, 125]⟩),
    (some ⟨0, [76, 130, 133, 122], [8, 12, 22, 10], 5, [82, 84, 86, 89, 91]⟩), [17, 19], [9, 7, 6], [16]⟩,
   ⟨9, 1, 0, (some 15), false, true, 23, 23, 230,
    (some ⟨1, 23, 180, [76, 130, 133, 122]⟩),
    none, [82, 84, 86, 89, 91], [], [23]⟩]),
  (train_ko1_101, [
   ⟨10, 101, 1, (some 4), true, false, 26, 26, 260,
    none,
    (some ⟨0, [76, 130, 133, 122], [8, 12, 22, 10], 5, [82, 84, 86, 89, 91]⟩), [], [7, 6], [26]⟩,
   ⟨10, 101, 0, (some 39), false, true, 31, 31, 310,
    (some ⟨1, 31, 260, [76, 130, 133, 122]⟩),
    none, [82, 84, 86, 89, 91], [], [31]⟩]),
  (train_ko1_3, [
   ⟨11, 3, 2, (some 34), true, false, 10, 10, 100,
    none,
    (some ⟨1, [78, 79, 80, 81, 120, 31, 94, 95, 143, 128, 41, 85, 145, 125], [18, 7, 6, 8, 12, 20, 23, 5, 19, 11, 16, 11, 17, 9], 18, [17, 19]⟩), [], [30, 22], [10]⟩,
   ⟨11, 3, 1, (some 2), true, false, 30, 30, 300,
    (some ⟨2, 28, 100, [78, 79, 80, 81, 120, 31, 94, 95, 143, 128, 41, 85, 145, 125]⟩),
    (some ⟨0, [76, 130, 133, 122], [8, 12, 22, 10], 5, [82, 84, 86, 89, 91]⟩), [17, 19], [9, 7, 6], [28]⟩,
   ⟨11, 3, 0, (some 15), false, true, 35, 35, 350,
    (some ⟨1, 35, 300, [76, 130, 133, 122]⟩),
    none, [82, 84, 86, 89, 91], [], [35]⟩]),
  (train_ko1_6401, [
   ⟨12, 6401, 2, (some 33), true, false, 21, 25, 250,
    none,
    (some ⟨1, [78, 79, 80, 81, 120, 31, 94, 95, 143, 128, 41, 85, 145, 125], [18, 7, 6, 8, 12, 20, 23, 5, 9, 11, 6, 11, 7, 9], 15, [17, 19]⟩), [], [36, 30, 22], [21]⟩,
   ⟨12, 6401, 1, (some 2), true, false, 36, 44, 440,
    (some ⟨2, 40, 250, [78, 79, 80, 81, 120, 31, 94, 95, 143, 128, 41, 85, 145, 125]⟩),
    (some ⟨0, [76, 130, 133, 122], [6, 10, 12, 10], 4, [81, 85, 88, 91]⟩), [17, 19], [9, 7, 6], [40]⟩,
   ⟨12, 6401, 0, (some 13), false, true, 40, 48, 480,
    (some ⟨1, 48, 440, [76, 130, 133, 122]⟩),
    none, [81, 85, 88, 91], [], [48]⟩]),
  (train_ko1_5, [
   ⟨13, 5, 2, (some 34), true, false, 19, 19, 190,
    none,
    (some ⟨1, [78, 79, 80, 81, 120, 31, 94, 95, 143, 128, 41, 85, 145, 125], [18, 7, 6, 8, 12, 20, 23, 5, 19, 11, 16, 11, 17, 9], 18, [17, 19]⟩), [], [30, 22], [19]⟩,
   ⟨13, 5, 1, (some 2), true, false, 40, 40, 400,
    (some ⟨2, 37, 190, [78, 79, 80, 81, 120, 31, 94, 95, 143, 128, 41, 85, 145, 125]⟩),
    (some ⟨0, [76, 130, 133, 122], [8, 12, 22, 10], 5, [82, 84, 86, 89, 91]⟩), [17, 19], [9, 7, 6], [37]⟩,
   ⟨13, 5, 0, (some 15), false, true, 45, 45, 450,
    (some ⟨1, 45, 400, [76, 130, 133, 122]⟩),
    none, [82, 84, 86, 89, 91], [], [45]⟩]),
  (train_ko1_7, [
   ⟨14, 7, 2, (some 34), true, false, 23, 29, 290,
    none,
    (some ⟨1, [78, 79, 80, 81, 120, 31, 94, 95, 143, 128, 41, 85, 145, 125], [18, 7, 6, 8, 12, 20, 23, 5, 19, 11, 16, 11, 17, 9], 18, [17, 19]⟩), [], [30, 22], [23]⟩,
   ⟨14, 7, 1, (some 2), true, false, 45, 49, 490,
    (some ⟨2, 47, 290, [78, 79, 80, 81, 120, 31, 94, 95, 143, 128, 41, 85, 145, 125]⟩),
    (some ⟨0, [76, 130, 133, 122], [8, 12, 22, 10], 5, [82, 84, 86, 89, 91]⟩), [17, 19], [9, 7, 6], [47]⟩,
   ⟨14, 7, 0, (some 15), false, true, 50, 54, 540,
    (some ⟨1, 54, 490, [76, 130, 133, 122]⟩),
    none, [82, 84, 86, 89, 91], [], [54]⟩]),
  (train_ko1_103, [
   ⟨15, 103, 1, (some 4), true, false, 58, 58, 580,
    none,
    (some ⟨0, [76, 130, 133, 122], [8, 12, 22, 10], 5, [82, 84, 86, 89, 91]⟩), [], [7, 6], [58]⟩,
   ⟨15, 103, 0, (some 39), false, true, 63, 63, 630,
    (some ⟨1, 63, 580, [76, 130, 133, 122]⟩),
    none, [82, 84, 86, 89, 91], [], [63]⟩]),
  (train_ko1_9, [
   ⟨16, 9, 2, (some 34), true, false, 33, 33, 330,
    none,
    (some ⟨1, [78, 79, 80, 81, 120, 31, 94, 95, 143, 128, 41, 85, 145, 125], [18, 7, 6, 8, 12, 20, 23, 5, 19, 11, 16, 11, 17, 9], 18, [17, 19]⟩), [], [30, 22], [33]⟩,
   ⟨16, 9, 1, (some 2), true, false, 55, 55, 550,
    (some ⟨2, 51, 330, [78, 79, 80, 81, 120, 31, 94, 95, 143, 128, 41, 85, 145, 125]⟩),
    (some ⟨0, [76, 130, 133, 122], [8, 12, 22, 10], 5, [82, 84, 86, 89, 91]⟩), [17, 19], [9, 7, 6], [51]⟩,
   ⟨16, 9, 0, (some 15), false, true, 60, 60, 600,
    (some ⟨1, 60, 550, [76, 130, 133, 122]⟩),
    none, [82, 84, 86, 89, 91], [], [60]⟩]),
  (train_ko1_6403, [
   ⟨17, 6403, 2, (some 33), true, false, 51, 51, 510,
    none,
    (some ⟨1, [78, 79, 80, 81, 120, 31, 94, 95, 143, 128, 41, 85, 145, 125], [18, 7, 6, 8, 12, 20, 23, 5, 9, 11, 6, 11, 7, 9], 15, [17, 19]⟩), [], [36, 30, 22], [51]⟩,
   ⟨17, 6403, 1, (some 2), true, false, 66, 66, 660,
    (some ⟨2, 66, 510, [78, 79, 80, 81, 120, 31, 94, 95, 143, 128, 41, 85, 145, 125]⟩),
    (some ⟨0, [76, 130, 133, 122], [6, 10, 12, 10], 4, [81, 85, 88, 91]⟩), [17, 19], [9, 7, 6], [66]⟩,
   ⟨17, 6403, 0, (some 13), false, true, 70, 70, 700,
    (some ⟨1, 70, 660, [76, 130, 133, 122]⟩),
    none, [81, 85, 88, 91], [], [70]⟩]),
  (train_ko1_11, [
   ⟨18, 11, 2, (some 34), true, false, 53, 55, 550,
    none,
    (some ⟨1, [78, 79, 80, 81, 120, 31, 94, 95, 143, 128, 41, 85, 145, 125], [18, 7, 6, 8, 12, 20, 23, 5, 19, 11, 16, 11, 17, 9], 18, [17, 19]⟩), [], [30, 22], [53]⟩,
   ⟨18, 11, 1, (some 2), true, false, 73, 75, 750,
    (some ⟨2, 73, 550, [78, 79, 80, 81, 120, 31, 94, 95, 143, 128, 41, 85, 145, 125]⟩),
    (some ⟨0, [76, 130, 133, 122], [8, 12, 22, 10], 5, [82, 84, 86, 89, 91]⟩), [17, 19], [9, 7, 6], [73]⟩,
   ⟨18, 11, 0, (some 15), false, true, 78, 80, 800,
    (some ⟨1, 80, 750, [76, 130, 133, 122]⟩),
    none, [82, 84, 86, 89, 91], [], [80]⟩]),
  (train_ko1_14, [
   ⟨19, 14, 0, (some 14), true, false, 62, 62, 620,
    none,
    (some ⟨1, [83, 101, 84, 121], [9, 19, 8, 8], 4, [5, 8]⟩), [], [61, 64, 69, 71, 87, 92], [62]⟩,
   ⟨19, 14, 1, (some 1), true, false, 68, 68, 680,
    (some ⟨0, 66, 620, [83, 101, 84, 121]⟩),
    (some ⟨2, [77, 144, 119, 40, 86, 142, 87, 126, 30, 90, 91, 92, 93, 127], [15, 14, 8, 14, 13, 13, 7, 9, 15, 13, 9, 5, 7, 20], 16, [31, 33, 41]⟩), [5, 8], [16, 2], [66]⟩,
   ⟨19, 14, 2, (some 35), false, true, 84, 84, 840,
    (some ⟨1, 84, 680, [77, 144, 119, 40, 86, 142, 87, 126, 30, 90, 91, 92, 93, 127]⟩),
    none, [31, 33, 41], [], [84]⟩]),
  (train_ko1_4606, [
   ⟨20, 4606, 0, (some 10), true, false, 67, 67, 670,
    none,
    (some ⟨1, [83, 101, 84, 121], [9, 12, 6, 7], 3, [5, 8]⟩), [], [66, 68, 71, 87, 92], [67]⟩,
   ⟨20, 4606, 1, (some 1), true, false, 73, 73, 730,
    (some ⟨0, 70, 670, [83, 101, 84, 121]⟩),
    (some ⟨2, [77, 144, 119, 40, 86, 142, 87, 126, 30, 90, 91, 92, 93, 127], [11, 9, 8, 7, 13, 7, 7, 9, 15, 13, 9, 5, 7, 20], 14, [31, 34, 43]⟩), [5, 8], [16, 2], [70]⟩,
   ⟨20, 4606, 2, (some 38), true, false, 92, 92, 920,
    (some ⟨1, 87, 730, [77, 144, 119, 40, 86, 142, 87, 126, 30, 90, 91, 92, 93, 127]⟩),
    none, [31, 34, 43], [], [87]⟩]),
  (train_ko1_16, [
   ⟨21, 16, 0, (some 14), true, false, 70, 70, 700,
    none,
    (some ⟨1, [83, 101, 84, 121], [9, 19, 8, 8], 4, [5, 8]⟩), [], [61, 64, 69, 71, 87, 92], [70]⟩,
   ⟨21, 16, 1, (some 1), true, false, 76, 76, 760,
    (some ⟨0, 74, 700, [83, 101, 84, 121]⟩),
    (some ⟨2, [77, 144, 119, 40, 86, 142, 87, 126, 30, 90, 91, 92, 93, 127], [15, 14, 8, 14, 13, 13, 7, 9, 15, 13, 9, 5, 7, 20], 16, [31, 33, 41]⟩), [5, 8], [16, 2], [74]⟩,
   ⟨21, 16, 2, (some 35), false, true, 92, 92, 920,
    (some ⟨1, 92, 760, [77, 144, 119, 40, 86, 142, 87, 126, 30, 90, 91, 92, 93, 127]⟩),
    none, [31, 33, 41], [], [92]⟩]),
  (train_ko1_106, [
   ⟨22, 106, 0, (some 16), true, false, 75, 76, 760,
    none,
    (some ⟨1, [83, 101, 84, 121], [9, 19, 8, 10], 5, [5, 8, 9]⟩), [], [62, 64, 69, 71, 87, 92], [75]⟩,
   ⟨22, 106, 1, (some 3), true, false, 83, 83, 830,
    (some ⟨0, 81, 760, [83, 101, 84, 121]⟩),
    none, [5, 8, 9], [], [81]⟩]),
  (train_ko1_18, [
   ⟨23, 18, 0, (some 14), true, false, 80, 80, 800,
    none,
    (some ⟨1, [83, 101, 84, 121], [9, 19, 8, 8], 4, [5, 8]⟩), [], [61, 64, 69, 71, 87, 92], [80]⟩,
   ⟨23, 18, 1, (some 1), true, false, 86, 86, 860,
    (some ⟨0, 84, 800, [83, 101, 84, 121]⟩),
    (some ⟨2, [77, 144, 119, 40, 86, 142, 87, 126, 30, 90, 91, 92, 93, 127], [15, 14, 8, 14, 13, 13, 7, 9, 15, 13, 9, 5, 7, 20], 16, [31, 33, 41]⟩), [5, 8], [16, 2], [84]⟩,
   ⟨23, 18, 2, (some 35), false, true, 102, 102, 1020,
    (some ⟨1, 102, 860, [77, 144, 119, 40, 86, 142, 87, 126, 30, 90, 91, 92, 93, 127]⟩),
    none, [31, 33, 41], [], [102]⟩]),
  (train_ko1_20, [
   ⟨24, 20, 0, (some 14), true, false, 90, 90, 900,
    none,
    (some ⟨1, [83, 101, 84, 121], [9, 19, 8, 8], 4, [5, 8]⟩), [], [61, 64, 69, 71, 87, 92], [90]⟩,
   ⟨24, 20, 1, (some 1), true, false, 96, 96, 960,
    (some ⟨0, 94, 900, [83, 101, 84, 121]⟩),
    (some ⟨2, [77, 144, 119, 40, 86, 142, 87, 126, 30, 90, 91, 92, 93, 127], [15, 14, 8, 14, 13, 13, 7, 9, 15, 13, 9, 5, 7, 20], 16, [31, 33, 41]⟩), [5, 8], [16, 2], [94]⟩,
   ⟨24, 20, 2, (some 35), false, true, 112, 112, 1120,
    (some ⟨1, 112, 960, [77, 144, 119, 40, 86, 142, 87, 126, 30, 90, 91, 92, 93, 127]⟩),
    none, [31, 33, 41], [], [112]⟩]),
  (train_ko1_4608, [
   ⟨25, 4608, 0, (some 10), true, false, 97, 97, 970,
    none,
    (some ⟨1, [83, 101, 84, 121], [9, 12, 6, 7], 3, [5, 8]⟩), [], [66, 68, 71, 87, 92], [97]⟩,
   ⟨25, 4608, 1, (some 1), true, false, 103, 103, 1030,
    (some ⟨0, 100, 970, [83, 101, 84, 121]⟩),
    (some ⟨2, [77, 144, 119, 40, 86, 142, 87, 126, 30, 90, 91, 92, 93, 127], [11, 9, 8, 7, 13, 7, 7, 9, 15, 13, 9, 5, 7, 20], 14, [31, 34, 43]⟩), [5, 8], [16, 2], [100]⟩,
   ⟨25, 4608, 2, (some 38), true, false, 122, 122, 1220,
    (some ⟨1, 117, 1030, [77, 144, 119, 40, 86, 142, 87, 126, 30, 90, 91, 92, 93, 127]⟩),
    none, [31, 34, 43], [], [117]⟩]),
  (train_ko1_22, [
   ⟨26, 22, 0, (some 14), true, false, 103, 103, 1030,
    none,
    (some ⟨1, [83, 101, 84, 121], [9, 19, 8, 8], 4, [5, 8]⟩), [], [61, 64, 69, 71, 87, 92], [103]⟩,
   ⟨26, 22, 1, (some 1), true, false, 109, 109, 1090,
    (some ⟨0, 107, 1030, [83, 101, 84, 121]⟩),
    (some ⟨2, [77, 144, 119, 40, 86, 142, 87, 126, 30, 90, 91, 92, 93, 127], [15, 14, 8, 14, 13, 13, 7, 9, 15, 13, 9, 5, 7, 20], 16, [31, 33, 41]⟩), [5, 8], [16, 2], [107]⟩,
   ⟨26, 22, 2, (some 35), false, true, 125, 125, 1250,
    (some ⟨1, 125, 1090, [77, 144, 119, 40, 86, 142, 87, 126, 30, 90, 91, 92, 93, 127]⟩),
    none, [31, 33, 41], [], [125]⟩]),
  (train_ko1_108, [
   ⟨27, 108, 0, (some 16), true, false, 105, 106, 1060,
    none,
    (some ⟨1, [83, 101, 84, 121], [9, 19, 8, 10], 5, [5, 8, 9]⟩), [], [62, 64, 69, 71, 87, 92], [105]⟩,
   ⟨27, 108, 1, (some 3), true, false, 113, 113, 1130,
    (some ⟨0, 111, 1060, [83, 101, 84, 121]⟩),
    none, [5, 8, 9], [], [111]⟩]),
  (train_ko1_24, [
   ⟨28, 24, 0, (some 14), true, false, 112, 112, 1120,
    none,
    (some ⟨1, [83, 101, 84, 121], [9, 19, 8, 8], 4, [5, 8]⟩), [], [61, 64, 69, 71, 87, 92], [112]⟩,
   ⟨28, 24, 1, (some 1), true, false, 118, 118, 1180,
    (some ⟨0, 116, 1120, [83, 101, 84, 121]⟩),
    (some ⟨2, [77, 144, 119, 40, 86, 142, 87, 126, 30, 90, 91, 92, 93, 127], [15, 14, 8, 14, 13, 13, 7, 9, 15, 13, 9, 5, 7, 20], 16, [31, 33, 41]⟩), [5, 8], [16, 2], [116]⟩,
   ⟨28, 24, 2, (some 35), false, true, 134, 134, 1340,
    (some ⟨1, 134, 1180, [77, 144, 119, 40, 86, 142, 87, 126, 30, 90, 91, 92, 93, 127]⟩),
    none, [31, 33, 41], [], [134]⟩]),
  (train_ko1_13, [
   ⟨29, 13, 2, (some 34), true, false, 60, 60, 600,
    none,
    (some ⟨1, [78, 79, 80, 81, 120, 31, 94, 95, 143, 128, 41, 85, 145, 125], [18, 7, 6, 8, 12, 20, 23, 5, 19, 11, 16, 11, 17, 9], 18, [17, 19]⟩), [], [30, 22], [60]⟩,
   ⟨29, 13, 1, (some 2), true, false, 80, 80, 800,
    (some ⟨2, 78, 600, [78, 79, 80, 81, 120, 31, 94, 95, 143, 128, 41, 85, 145, 125]⟩),
    (some ⟨0, [76, 130, 133, 122], [8, 12, 22, 10], 5, [82, 84, 86, 89, 91]⟩), [17, 19], [9, 7, 6], [78]⟩,
   ⟨29, 13, 0, (some 15), false, true, 85, 85, 850,
    (some ⟨1, 85, 800, [76, 130, 133, 122]⟩),
    none, [82, 84, 86, 89, 91], [], [85]⟩]),
  (train_ko1_105, [
   ⟨30, 105, 1, (some 4), true, false, 82, 83, 830,
    none,
    (some ⟨0, [76, 130, 133, 122], [8, 12, 22, 10], 5, [82, 84, 86, 89, 91]⟩), [], [7, 6], [82]⟩,
   ⟨30, 105, 0, (some 39), false, true, 87, 88, 880,
    (some ⟨1, 88, 830, [76, 130, 133, 122]⟩),
    none, [82, 84, 86, 89, 91], [], [88]⟩]),
  (train_ko1_15, [
   ⟨31, 15, 2, (some 34), true, false, 64, 64, 640,
    none,
    (some ⟨1, [78, 79, 80, 81, 120, 31, 94, 95, 143, 128, 41, 85, 145, 125], [18, 7, 6, 8, 12, 20, 23, 5, 19, 11, 16, 11, 17, 9], 18, [17, 19]⟩), [], [30, 22], [64]⟩,
   ⟨31, 15, 1, (some 2), true, false, 85, 86, 860,
    (some ⟨2, 82, 640, [78, 79, 80, 81, 120, 31, 94, 95, 143, 128, 41, 85, 145, 125]⟩),
    (some ⟨0, [76, 130, 133, 122], [8, 12, 22, 10], 5, [82, 84, 86, 89, 91]⟩), [17, 19], [9, 7, 6], [82]⟩,
   ⟨31, 15, 0, (some 15), false, true, 90, 91, 910,
    (some ⟨1, 91, 860, [76, 130, 133, 122]⟩),
    none, [82, 84, 86, 89, 91], [], [91]⟩]),
  (train_ko1_6405, [
   ⟨32, 6405, 2, (some 33), true, false, 75, 75, 750,
    none,
    (some ⟨1, [78, 79, 80, 81, 120, 31, 94, 95, 143, 128, 41, 85, 145, 125], [18, 7, 6, 8, 12, 20, 23, 5, 9, 11, 6, 11, 7, 9], 15, [17, 19]⟩), [], [36, 30, 22], [75]⟩,
   ⟨32, 6405, 1, (some 2), true, false, 90, 90, 900,
    (some ⟨2, 90, 750, [78, 79, 80, 81, 120, 31, 94, 95, 143, 128, 41, 85, 145, 125]⟩),
    (some ⟨0, [76, 130, 133, 122], [6, 10, 12, 10], 4, [81, 85, 88, 91]⟩), [17, 19], [9, 7, 6], [90]⟩,
   ⟨32, 6405, 0, (some 13), false, true, 94, 94, 940,
    (some ⟨1, 94, 900, [76, 130, 133, 122]⟩),
    none, [81, 85, 88, 91], [], [94]⟩]),
  (train_ko1_17, [
   ⟨33, 17, 2, (some 34), true, false, 78, 79, 790,
    none,
    (some ⟨1, [78, 79, 80, 81, 120, 31, 94, 95, 143, 128, 41, 85, 145, 125], [18, 7, 6, 8, 12, 20, 23, 5, 19, 11, 16, 11, 17, 9], 18, [17, 19]⟩), [], [30, 22], [78]⟩,
   ⟨33, 17, 1, (some 2), true, false, 100, 100, 1000,
    (some ⟨2, 97, 790, [78, 79, 80, 81, 120, 31, 94, 95, 143, 128, 41, 85, 145, 125]⟩),
    (some ⟨0, [76, 130, 133, 122], [8, 12, 22, 10], 5, [82, 84, 86, 89, 91]⟩), [17, 19], [9, 7, 6], [97]⟩,
   ⟨33, 17, 0, (some 15), false, true, 105, 105, 1050,
    (some ⟨1, 105, 1000, [76, 130, 133, 122]⟩),
    none, [82, 84, 86, 89, 91], [], [105]⟩]),
  (train_ko1_21, [
   ⟨34, 21, 2, (some 34), true, false, 88, 88, 880,
    none,
    (some ⟨1, [78, 79, 80, 81, 120, 31, 94, 95, 143, 128, 41, 85, 145, 125], [18, 7, 6, 8, 12, 20, 23, 5, 19, 11, 16, 11, 17, 9], 18, [17, 19]⟩), [], [30, 22], [88]⟩,
   ⟨34, 21, 1, (some 2), true, false, 108, 108, 1080,
    (some ⟨2, 106, 880, [78, 79, 80, 81, 120, 31, 94, 95, 143, 128, 41, 85, 145, 125]⟩),
    (some ⟨0, [76, 130, 133, 122], [8, 12, 22, 10], 5, [82, 84, 86, 89, 91]⟩), [17, 19], [9, 7, 6], [106]⟩,
   ⟨34, 21, 0, (some 15), false, true, 113, 113, 1130,
    (some ⟨1, 113, 1080, [76, 130, 133, 122]⟩),
    none, [82, 84, 86, 89, 91], [], [113]⟩]),
  (train_ko1_107, [
   ⟨35, 107, 1, (some 4), true, false, 111, 111, 1110,
    none,
    (some ⟨0, [76, 130, 133, 122], [8, 12, 22, 10], 5, [82, 84, 86, 89, 91]⟩), [], [7, 6], [111]⟩,
   ⟨35, 107, 0, (some 39), false, true, 116, 116, 1160,
    (some ⟨1, 116, 1110, [76, 130, 133, 122]⟩),
    none, [82, 84, 86, 89, 91], [], [116]⟩]),
  (train_ko1_23, [
   ⟨36, 23, 2, (some 34), true, false, 100, 100, 1000,
    none,
    (some ⟨1, [78, 79, 80, 81, 120, 31, 94, 95, 143, 128, 41, 85, 145, 125], [18, 7, 6, 8, 12, 20, 23, 5, 19, 11, 16, 11, 17, 9], 18, [17, 19]⟩), [], [30, 22], [100]⟩,
   ⟨36, 23, 1, (some 2), true, false, 120, 120, 1200,
    (some ⟨2, 118, 1000, [78, 79, 80, 81, 120, 31, 94, 95, 143, 128, 41, 85, 145, 125]⟩),
    (some ⟨0, [76, 130, 133, 122], [8, 12, 22, 10], 5, [82, 84, 86, 89, 91]⟩), [17, 19], [9, 7, 6], [118]⟩,
   ⟨36, 23, 0, (some 15), false, true, 125, 125, 1250,
    (some ⟨1, 125, 1200, [76, 130, 133, 122]⟩),
    none, [82, 84, 86, 89, 91], [], [125]⟩]),
  (train_ko1_6407, [
   ⟨37, 6407, 2, (some 33), true, false, 104, 105, 1050,
    none,
    (some ⟨1, [78, 79, 80, 81, 120, 31, 94, 95, 143, 128, 41, 85, 145, 125], [18, 7, 6, 8, 12, 20, 23, 5, 9, 11, 6, 11, 7, 9], 15, [17, 19]⟩), [], [36, 30, 22], [104]⟩,
   ⟨37, 6407, 1, (some 2), true, false, 119, 124, 1240,
    (some ⟨2, 120, 1050, [78, 79, 80, 81, 120, 31, 94, 95, 143, 128, 41, 85, 145, 125]⟩),
    (some ⟨0, [76, 130, 133, 122], [6, 10, 12, 10], 4, [81, 85, 88, 91]⟩), [17, 19], [9, 7, 6], [120]⟩,
   ⟨37, 6407, 0, (some 13), false, true, 123, 128, 1280,
    (some ⟨1, 128, 1240, [76, 130, 133, 122]⟩),
    none, [81, 85, 88, 91], [], [128]⟩]),
  (train_ko1_25, [
   ⟨38, 25, 2, (some 34), true, false, 109, 109, 1090,
    none,
    (some ⟨1, [78, 79, 80, 81, 120, 31, 94, 95, 143, 128, 41, 85, 145, 125], [18, 7, 6, 8, 12, 20, 23, 5, 19, 11, 16, 11, 17, 9], 18, [17, 19]⟩), [], [30, 22], [109]⟩,
   ⟨38, 25, 1, (some 2), true, false, 130, 130, 1300,
    (some ⟨2, 127, 1090, [78, 79, 80, 81, 120, 31, 94, 95, 143, 128, 41, 85, 145, 125]⟩),
    (some ⟨0, [76, 130, 133, 122], [8, 12, 22, 10], 5, [82, 84, 86, 89, 91]⟩), [17, 19], [9, 7, 6], [127]⟩,
   ⟨38, 25, 0, (some 15), false, true, 135, 135, 1350,
    (some ⟨1, 135, 1300, [76, 130, 133, 122]⟩),
    none, [82, 84, 86, 89, 91], [], [135]⟩]),
  (train_ko1_26, [
   ⟨39, 26, 0, (some 14), true, false, 120, 120, 1200,
    none,
    (some ⟨1, [83, 101, 84, 121], [9, 19, 8, 8], 4, [5, 8]⟩), [], [61, 64, 69, 71, 87, 92], [120]⟩,
   ⟨39, 26, 1, (some 1), true, false, 126, 126, 1260,
    (some ⟨0, 124, 1200, [83, 101, 84, 121]⟩),
    (some ⟨2, [77, 144, 119, 40, 86, 142, 87, 126, 30, 90, 91, 92, 93, 127], [15, 14, 8, 14, 13, 13, 7, 9, 15, 13, 9, 5, 7, 20], 16, [31, 33, 41]⟩), [5, 8], [16, 2], [124]⟩,
   ⟨39, 26, 2, (some 35), false, true, 142, 142, 1420,
    (some ⟨1, 142, 1260, [77, 144, 119, 40, 86, 142, 87, 126, 30, 90, 91, 92, 93, 127]⟩),
    none, [31, 33, 41], [], [142]⟩]),
  (train_ko1_4610, [
   ⟨40, 4610, 0, (some 10), true, false, 127, 127, 1270,
    none,
    (some ⟨1, [83, 101, 84, 121], [9, 12, 6, 7], 3, [5, 8]⟩), [], [66, 68, 71, 87, 92], [127]⟩,
   ⟨40, 4610, 1, (some 1), true, false, 133, 133, 1330,
    (some ⟨0, 130, 1270, [83, 101, 84, 121]⟩),
    (some ⟨2, [77, 144, 119, 40, 86, 142, 87, 126, 30, 90, 91, 92, 93, 127], [11, 9, 8, 7, 13, 7, 7, 9, 15, 13, 9, 5, 7, 20], 14, [31, 34, 43]⟩), [5, 8], [16, 2], [130]⟩,
   ⟨40, 4610, 2, (some 38), true, false, 152, 152, 1520,
    (some ⟨1, 147, 1330, [77, 144, 119, 40, 86, 142, 87, 126, 30, 90, 91, 92, 93, 127]⟩),
    none, [31, 34, 43], [], [147]⟩]),
  (train_ko1_28, [
   ⟨41, 28, 0, (some 14), true, false, 130, 130, 1300,
    none,
    (some ⟨1, [83, 101, 84, 121], [9, 19, 8, 8], 4, [5, 8]⟩), [], [61, 64, 69, 71, 87, 92], [130]⟩,
   ⟨41, 28, 1, (some 1), true, false, 136, 136, 1360,
    (some ⟨0, 134, 1300, [83, 101, 84, 121]⟩),
    (some ⟨2, [77, 144, 119, 40, 86, 142, 87, 126, 30, 90, 91, 92, 93, 127], [15, 14, 8, 14, 13, 13, 7, 9, 15, 13, 9, 5, 7, 20], 16, [31, 33, 41]⟩), [5, 8], [16, 2], [134]⟩,
   ⟨41, 28, 2, (some 35), false, true, 152, 152, 1520,
    (some ⟨1, 152, 1360, [77, 144, 119, 40, 86, 142, 87, 126, 30, 90, 91, 92, 93, 127]⟩),
    none, [31, 33, 41], [], [152]⟩]),
  (train_ko1_112, [
   ⟨42, 112, 0, (some 16), true, false, 138, 138, 1380,
    none,
    (some ⟨1, [83, 101, 84, 121], [9, 19, 8, 10], 5, [5, 8, 9]⟩), [], [62, 64, 69, 71, 87, 92], [138]⟩,
   ⟨42, 112, 1, (some 3), true, false, 145, 145, 1450,
    (some ⟨0, 143, 1380, [83, 101, 84, 121]⟩),
    none, [5, 8, 9], [], [143]⟩]),
  (train_ko1_30, [
   ⟨43, 30, 0, (some 14), true, false, 140, 141, 1410,
    none,
    (some ⟨1, [83, 101, 84, 121], [9, 19, 8, 8], 4, [5, 8]⟩), [], [61, 64, 69, 71, 87, 92], [140]⟩,
   ⟨43, 30, 1, (some 1), true, false, 146, 147, 1470,
    (some ⟨0, 145, 1410, [83, 101, 84, 121]⟩),
    (some ⟨2, [77, 144, 119, 40, 86, 142, 87, 126, 30, 90, 91, 92, 93, 127], [15, 14, 8, 14, 13, 13, 7, 9, 15, 13, 9, 5, 7, 20], 16, [31, 33, 41]⟩), [5, 8], [16, 2], [145]⟩,
   ⟨43, 30, 2, (some 35), false, true, 162, 163, 1630,
    (some ⟨1, 163, 1470, [77, 144, 119, 40, 86, 142, 87, 126, 30, 90, 91, 92, 93, 127]⟩),
    none, [31, 33, 41], [], [163]⟩]),
  (train_ko1_32, [
   ⟨44, 32, 0, (some 14), true, false, 153, 153, 1530,
    none,
    (some ⟨1, [83, 101, 84, 121], [9, 19, 8, 8], 4, [5, 8]⟩), [], [61, 64, 69, 71, 87, 92], [153]⟩,
   ⟨44, 32, 1, (some 1), true, false, 159, 159, 1590,
    (some ⟨0, 157, 1530, [83, 101, 84, 121]⟩),
    (some ⟨2, [77, 144, 119, 40, 86, 142, 87, 126, 30, 90, 91, 92, 93, 127], [15, 14, 8, 14, 13, 13, 7, 9, 15, 13, 9, 5, 7, 20], 16, [31, 33, 41]⟩), [5, 8], [16, 2], [157]⟩,
   ⟨44, 32, 2, (some 35), false, true, 175, 175, 1750,
    (some ⟨1, 175, 1590, [77, 144, 119, 40, 86, 142, 87, 126, 30, 90, 91, 92, 93, 127]⟩),
    none, [31, 33, 41], [], [175]⟩]),
  (train_ko1_4612, [
   ⟨45, 4612, 0, (some 10), true, false, 160, 160, 1600,
    none,
    (some ⟨1, [83, 101, 84, 121], [9, 12, 6, 7], 3, [5, 8]⟩), [], [66, 68, 71, 87, 92], [160]⟩,
   ⟨45, 4612, 1, (some 1), true, false, 165, 165, 1650,
    (some ⟨0, 163, 1600, [83, 101, 84, 121]⟩),
    (some ⟨2, [77, 144, 119, 40, 86, 142, 87, 126, 30, 90, 91, 92, 93, 127], [11, 9, 8, 7, 13, 7, 7, 9, 15, 13, 9, 5, 7, 20], 14, [31, 34, 43]⟩), [5, 8], [16, 2], [163]⟩,
   ⟨45, 4612, 2, (some 38), true, false, 182, 182, 1820,
    (some ⟨1, 179, 1650, [77, 144, 119, 40, 86, 142, 87, 126, 30, 90, 91, 92, 93, 127]⟩),
    none, [31, 34, 43], [], [179]⟩]),
  (train_ko1_34, [
   ⟨46, 34, 0, (some 14), true, false, 162, 162, 1620,
    none,
    (some ⟨1, [83, 101, 84, 121], [9, 19, 8, 8], 4, [5, 8]⟩), [], [61, 64, 69, 71, 87, 92], [162]⟩,
   ⟨46, 34, 1, (some 1), true, false, 168, 168, 1680,
    (some ⟨0, 166, 1620, [83, 101, 84, 121]⟩),
    (some ⟨2, [77, 144, 119, 40, 86, 142, 87, 126, 30, 90, 91, 92, 93, 127], [15, 14, 8, 14, 13, 13, 7, 9, 15, 13, 9, 5, 7, 20], 16, [31, 33, 41]⟩), [5, 8], [16, 2], [166]⟩,
   ⟨46, 34, 2, (some 35), false, true, 184, 184, 1840,
    (some ⟨1, 184, 1680, [77, 144, 119, 40, 86, 142, 87, 126, 30, 90, 91, 92, 93, 127]⟩),
    none, [31, 33, 41], [], [184]⟩]),
  (train_ko1_114, [
   ⟨47, 114, 0, (some 16), true, false, 167, 167, 1670,
    none,
    (some ⟨1, [83, 101, 84, 121], [9, 19, 8, 10], 5, [5, 8, 9]⟩), [], [62, 64, 69, 71, 87, 92], [167]⟩,
   ⟨47, 114, 1, (some 3), true, false, 174, 174, 1740,
    (some ⟨0, 172, 1670, [83, 101, 84, 121]⟩),
    none, [5, 8, 9], [], [172]⟩]),
  (train_ko1_36, [
   ⟨48, 36, 0, (some 14), true, false, 170, 170, 1700,
    none,
    (some ⟨1, [83, 101, 84, 121], [9, 19, 8, 8], 4, [5, 8]⟩), [], [61, 64, 69, 71, 87, 92], [170]⟩,
   ⟨48, 36, 1, (some 1), true, false, 176, 176, 1760,
    (some ⟨0, 174, 1700, [83, 101, 84, 121]⟩),
    (some ⟨2, [77, 144, 119, 40, 86, 142, 87, 126, 30, 90, 91, 92, 93, 127], [15, 14, 8, 14, 13, 13, 7, 9, 15, 13, 9, 5, 7, 20], 16, [31, 33, 41]⟩), [5, 8], [16, 2], [174]⟩,
   ⟨48, 36, 2, (some 35), false, true, 192, 192, 1920,
    (some ⟨1, 192, 1760, [77, 144, 119, 40, 86, 142, 87, 126, 30, 90, 91, 92, 93, 127]⟩),
    none, [31, 33, 41], [], [192]⟩]),
  (train_ko1_27, [
   ⟨49, 27, 2, (some 34), true, false, 113, 113, 1130,
    none,
    (some ⟨1, [78, 79, 80, 81, 120, 31, 94, 95, 143, 128, 41, 85, 145, 125], [18, 7, 6, 8, 12, 20, 23, 5, 19, 11, 16, 11, 17, 9], 18, [17, 19]⟩), [], [30, 22], [113]⟩,
   ⟨49, 27, 1, (some 2), true, false, 135, 135, 1350,
    (some ⟨2, 131, 1130, [78, 79, 80, 81, 120, 31, 94, 95, 143, 128, 41, 85, 145, 125]⟩),
    (some ⟨0, [76, 130, 133, 122], [8, 12, 22, 10], 5, [82, 84, 86, 89, 91]⟩), [17, 19], [9, 7, 6], [131]⟩,
   ⟨49, 27, 0, (some 15), false, true, 140, 140, 1400,
    (some ⟨1, 140, 1350, [76, 130, 133, 122]⟩),
    none, [82, 84, 86, 89, 91], [], [140]⟩]),
  (train_ko1_111, [
   ⟨50, 111, 1, (some 4), true, false, 146, 146, 1460,
    none,
    (some ⟨0, [76, 130, 133, 122], [8, 12, 22, 10], 5, [82, 84, 86, 89, 91]⟩), [], [7, 6], [146]⟩,
   ⟨50, 111, 0, (some 39), false, true, 151, 151, 1510,
    (some ⟨1, 151, 1460, [76, 130, 133, 122]⟩),
    none, [82, 84, 86, 89, 91], [], [151]⟩]),
  (train_ko1_31, [
   ⟨51, 31, 2, (some 34), true, false, 128, 128, 1280,
    none,
    (some ⟨1, [78, 79, 80, 81, 120, 31, 94, 95, 143, 128, 41, 85, 145, 125], [18, 7, 6, 8, 12, 20, 23, 5, 19, 11, 16, 11, 17, 9], 18, [17, 19]⟩), [], [30, 22], [128]⟩,
   ⟨51, 31, 1, (some 2), true, false, 148, 149, 1490,
    (some ⟨2, 146, 1280, [78, 79, 80, 81, 120, 31, 94, 95, 143, 128, 41, 85, 145, 125]⟩),
    (some ⟨0, [76, 130, 133, 122], [8, 12, 22, 10], 5, [82, 84, 86, 89, 91]⟩), [17, 19], [9, 7, 6], [146]⟩,
   ⟨51, 31, 0, (some 15), false, true, 153, 154, 1540,
    (some ⟨1, 154, 1490, [76, 130, 133, 122]⟩),
    none, [82, 84, 86, 89, 91], [], [154]⟩]),
  (train_ko1_6411, [
   ⟨52, 6411, 2, (some 33), true, false, 139, 139, 1390,
    none,
    (some ⟨1, [78, 79, 80, 81, 120, 31, 94, 95, 143, 128, 41, 85, 145, 125], [18, 7, 6, 8, 12, 20, 23, 5, 9, 11, 6, 11, 7, 9], 15, [17, 19]⟩), [], [36, 30, 22], [139]⟩,
   ⟨52, 6411, 1, (some 2), true, false, 154, 154, 1540,
    (some ⟨2, 154, 1390, [78, 79, 80, 81, 120, 31, 94, 95, 143, 128, 41, 85, 145, 125]⟩),
    (some ⟨0, [76, 130, 133, 122], [6, 10, 12, 10], 4, [81, 85, 88, 91]⟩), [17, 19], [9, 7, 6], [154]⟩,
   ⟨52, 6411, 0, (some 13), false, true, 158, 158, 1580,
    (some ⟨1, 158, 1540, [76, 130, 133, 122]⟩),
    none, [81, 85, 88, 91], [], [158]⟩]),
  (train_ko1_33, [
   ⟨53, 33, 2, (some 34), true, false, 145, 148, 1480,
    none,
    (some ⟨1, [78, 79, 80, 81, 120, 31, 94, 95, 143, 128, 41, 85, 145, 125], [18, 7, 6, 8, 12, 20, 23, 5, 19, 11, 16, 11, 17, 9], 18, [17, 19]⟩), [], [30, 22], [145]⟩,
   ⟨53, 33, 1, (some 2), true, false, 165, 168, 1680,
    (some ⟨2, 166, 1480, [78, 79, 80, 81, 120, 31, 94, 95, 143, 128, 41, 85, 145, 125]⟩),
    (some ⟨0, [76, 130, 133, 122], [8, 12, 22, 10], 5, [82, 84, 86, 89, 91]⟩), [17, 19], [9, 7, 6], [166]⟩,
   ⟨53, 33, 0, (some 15), false, true, 170, 173, 1730,
    (some ⟨1, 173, 1680, [76, 130, 133, 122]⟩),
    none, [82, 84, 86, 89, 91], [], [173]⟩]),
  (train_ko1_35, [
   ⟨54, 35, 2, (some 34), true, false, 144, 144, 1440,
    none,
    (some ⟨1, [78, 79, 80, 81, 120, 31, 94, 95, 143, 128, 41, 85, 145, 125], [18, 7, 6, 8, 12, 20, 23, 5, 19, 11, 16, 11, 17, 9], 18, [17, 19]⟩), [], [30, 22], [144]⟩,
   ⟨54, 35, 1, (some 2), true, false, 165, 165, 1650,
    (some ⟨2, 162, 1440, [78, 79, 80, 81, 120, 31, 94, 95, 143, 128, 41, 85, 145, 125]⟩),
    (some ⟨0, [76, 130, 133, 122], [8, 12, 22, 10], 5, [82, 84, 86, 89, 91]⟩), [17, 19], [9, 7, 6], [162]⟩,
   ⟨54, 35, 0, (some 15), false, true, 170, 170, 1700,
    (some ⟨1, 170, 1650, [76, 130, 133, 122]⟩),
    none, [82, 84, 86, 89, 91], [], [170]⟩]),
  (train_ko1_113, [
   ⟨55, 113, 1, (some 4), true, false, 178, 178, 1780,
    none,
    (some ⟨0, [76, 130, 133, 122], [8, 12, 22, 10], 5, [82, 84, 86, 89, 91]⟩), [], [7, 6], [178]⟩,
   ⟨55, 113, 0, (some 39), false, true, 183, 183, 1830,
    (some ⟨1, 183, 1780, [76, 130, 133, 122]⟩),
    none, [82, 84, 86, 89, 91], [], [183]⟩]),
  (train_ko1_37, [
   ⟨56, 37, 2, (some 34), true, false, 153, 153, 1530,
    none,
    (some ⟨1, [78, 79, 80, 81, 120, 31, 94, 95, 143, 128, 41, 85, 145, 125], [18, 7, 6, 8, 12, 20, 23, 5, 19, 11, 16, 11, 17, 9], 18, [17, 19]⟩), [], [30, 22], [153]⟩,
   ⟨56, 37, 1, (some 2), true, false, 175, 175, 1750,
    (some ⟨2, 171, 1530, [78, 79, 80, 81, 120, 31, 94, 95, 143, 128, 41, 85, 145, 125]⟩),
    (some ⟨0, [76, 130, 133, 122], [8, 12, 22, 10], 5, [82, 84, 86, 89, 91]⟩), [17, 19], [9, 7, 6], [171]⟩,
   ⟨56, 37, 0, (some 15), false, true, 180, 180, 1800,
    (some ⟨1, 180, 1750, [76, 130, 133, 122]⟩),
    none, [82, 84, 86, 89, 91], [], [180]⟩]),
  (train_ko1_6413, [
   ⟨57, 6413, 2, (some 33), true, false, 171, 171, 1710,
    none,
    (some ⟨1, [78, 79, 80, 81, 120, 31, 94, 95, 143, 128, 41, 85, 145, 125], [18, 7, 6, 8, 12, 20, 23, 5, 9, 11, 6, 11, 7, 9], 15, [17, 19]⟩), [], [36, 30, 22], [171]⟩,
   ⟨57, 6413, 1, (some 2), true, false, 186, 186, 1860,
    (some ⟨2, 186, 1710, [78, 79, 80, 81, 120, 31, 94, 95, 143, 128, 41, 85, 145, 125]⟩),
    (some ⟨0, [76, 130, 133, 122], [6, 10, 12, 10], 4, [81, 85, 88, 91]⟩), [17, 19], [9, 7, 6], [186]⟩,
   ⟨57, 6413, 0, (some 13), false, true, 190, 190, 1900,
    (some ⟨1, 190, 1860, [76, 130, 133, 122]⟩),
    none, [81, 85, 88, 91], [], [190]⟩]),
  (train_ko1_41, [
   ⟨58, 41, 2, (some 34), true, false, 173, 175, 1750,
    none,
    (some ⟨1, [78, 79, 80, 81, 120, 31, 94, 95, 143, 128, 41, 85, 145, 125], [18, 7, 6, 8, 12, 20, 23, 5, 19, 11, 16, 11, 17, 9], 18, [17, 19]⟩), [], [30, 22], [173]⟩,
   ⟨58, 41, 1, (some 2), true, false, 193, 195, 1950,
    (some ⟨2, 193, 1750, [78, 79, 80, 81, 120, 31, 94, 95, 143, 128, 41, 85, 145, 125]⟩),
    (some ⟨0, [76, 130, 133, 122], [8, 12, 22, 10], 5, [82, 84, 86, 89, 91]⟩), [17, 19], [9, 7, 6], [193]⟩,
   ⟨58, 41, 0, (some 15), false, true, 198, 200, 2000,
    (some ⟨1, 200, 1950, [76, 130, 133, 122]⟩),
    none, [82, 84, 86, 89, 91], [], [200]⟩])]

theorem ko1n5Plan_sections : ko1n5Plan.map Prod.fst = ko1 := rfl

theorem ko1n5Plan_ok : netKo.PlanOK "14:00" ko1n5Delays 40 netKoSpecial ko1n5Plan :=
  ko1Plan_ok.again rfl (by decide +kernel) (by decide +kernel) (by decide +kernel) (by decide +kernel)

theorem ko1n5_cost : netKo.costOK ko1n5Plan 142 = true := by decide +kernel

/-- the departures: train and station -/
def ko1n5Nodes : List (Nat × Nat) := [
  (14, 2), (31, 2), (38, 2), (49, 2), (54, 2), (53, 2), (53, 1), (31, 1), (29, 2), (12, 2),
  (13, 2), (12, 1), (13, 1), (17, 2), (18, 2), (18, 1), (57, 2), (58, 2), (58, 1), (37, 2),
  (36, 2), (36, 1), (38, 1), (49, 1), (14, 1), (29, 1), (30, 1), (37, 1), (32, 1), (6, 0), (7, 0),
  (7, 1), (43, 0), (42, 0), (42, 1), (43, 1), (6, 1), (6, 2), (51, 1), (50, 1), (57, 1), (17, 1)]

/-- the choices -/
def ko1n5Choices : List CodedNet.Choice := [
  .first 13 14 2, .first 29 31 2, .first 36 38 2, .first 38 49 2, .first 53 54 2, .first 29 31 1,
  .first 53 54 1, .first 13 12 2, .first 13 12 1, .first 29 17 1, .first 29 17 2, .first 18 17 2,
  .first 58 57 2, .first 36 37 2, .first 12 14 1, .first 30 29 1, .first 30 31 1, .first 12 14 2,
  .first 36 37 1, .first 30 32 1, .first 7 6 0, .first 42 43 0, .first 7 6 1, .first 50 51 1,
  .first 18 17 1]

/-- the inequalities -/
def ko1n5Arcs : ArcTree :=
  .node ⟨.track, 2, 1, 0, 0, 19, false⟩ (.node ⟨.track, 4, 2, 0, 0, 60, false⟩ (.node
  ⟨.track, 8, 4, 0, 0, 109, false⟩ (.node ⟨.track, 3, 9, 0, 0, 64, false⟩ (.node
  ⟨.follow, 24, 14, 15, 4, 0, false⟩ (.node ⟨.follow, 36, 1, 10, 5, 0, false⟩ (.node
  ⟨.follow, 21, 9, 14, 5, 0, false⟩ .none .none) .none) (.node ⟨.run, 0, 30, 37, 5, 0, false⟩ .none
  .none)) (.node ⟨.follow, 7, 3, 4, 4, 0, false⟩ (.node ⟨.follow, 40, 29, 27, 2, 0, false⟩ .none
  .none) (.node ⟨.follow, 23, 15, 14, 5, 0, false⟩ .none .none))) (.node
  ⟨.run, 0, 10, 12, 15, 0, false⟩ (.node ⟨.follow, 28, 20, 21, 4, 0, false⟩ (.node
  ⟨.follow, 27, 21, 20, 5, 0, false⟩ (.node ⟨.track, 9, 6, 0, 0, 144, false⟩ .none .none) .none)
  (.node ⟨.track, 46, 37, 31, 0, 4, false⟩ .none .none)) (.node ⟨.follow, 32, 26, 27, 3, 0, false⟩
  (.node ⟨.run, 0, 34, 35, 7, 0, false⟩ .none .none) (.node ⟨.follow, 3, 9, 2, 4, 0, false⟩ .none
  .none)))) (.node ⟨.run, 0, 6, 7, 20, 0, false⟩ (.node ⟨.track, 1, 11, 0, 0, 23, false⟩ (.node
  ⟨.follow, 26, 17, 18, 4, 0, false⟩ (.node ⟨.run, 0, 1, 25, 20, 0, false⟩ (.node
  ⟨.follow, 19, 26, 42, 4, 0, false⟩ .none .none) .none) (.node ⟨.follow, 48, 39, 40, 3, 0, false⟩
  .none .none)) (.node ⟨.follow, 30, 25, 12, 4, 0, false⟩ (.node ⟨.run, 0, 31, 32, 6, 0, false⟩
  .none .none) (.node ⟨.follow, 22, 14, 9, 4, 0, false⟩ .none .none))) (.node
  ⟨.follow, 17, 13, 12, 4, 0, false⟩ (.node ⟨.follow, 5, 21, 3, 4, 0, false⟩ (.node
  ⟨.track, 38, 28, 21, 0, 18, false⟩ .none .none) (.node ⟨.follow, 25, 18, 17, 5, 0, false⟩ .none
  .none)) (.node ⟨.follow, 33, 27, 8, 3, 0, false⟩ (.node ⟨.run, 0, 33, 36, 6, 0, false⟩ .none
  .none) (.node ⟨.track, 50, 42, 15, 0, 18, false⟩ .none .none))))) (.node
  ⟨.track, 6, 3, 0, 0, 100, false⟩ (.node ⟨.follow, 10, 5, 6, 4, 0, false⟩ (.node
  ⟨.follow, 16, 10, 11, 4, 0, false⟩ (.node ⟨.run, 0, 15, 16, 20, 0, false⟩ (.node
  ⟨.follow, 35, 10, 1, 4, 0, false⟩ (.node ⟨.track, 20, 42, 9, 0, 18, false⟩ .none .none) .none)
  (.node ⟨.run, 0, 37, 38, 15, 0, false⟩ .none .none)) (.node ⟨.run, 0, 4, 24, 20, 0, false⟩ (.node
  ⟨.follow, 42, 30, 31, 2, 0, false⟩ .none .none) (.node ⟨.run, 0, 14, 42, 15, 0, false⟩ .none
  .none))) (.node ⟨.track, 18, 12, 11, 0, 18, false⟩ (.node ⟨.run, 0, 21, 22, 20, 0, false⟩ (.node
  ⟨.run, 0, 20, 28, 15, 0, false⟩ .none .none) (.node ⟨.follow, 45, 32, 37, 5, 0, false⟩ .none
  .none)) (.node ⟨.follow, 34, 8, 27, 3, 0, false⟩ (.node ⟨.follow, 43, 34, 33, 3, 0, false⟩ .none
  .none) (.node ⟨.run, 0, 2, 8, 20, 0, false⟩ .none .none)))) (.node
  ⟨.track, 12, 8, 9, 0, 18, false⟩ (.node ⟨.follow, 15, 11, 10, 5, 0, false⟩ (.node
  ⟨.run, 0, 18, 19, 20, 0, false⟩ (.node ⟨.follow, 31, 27, 26, 3, 0, false⟩ (.node
  ⟨.track, 13, 7, 5, 0, 18, false⟩ .none .none) .none) (.node ⟨.follow, 47, 40, 39, 3, 0, false⟩
  .none .none)) (.node ⟨.follow, 29, 12, 25, 2, 0, false⟩ (.node ⟨.follow, 44, 33, 34, 3, 0, false⟩
  .none .none) (.node ⟨.run, 0, 9, 26, 20, 0, false⟩ .none .none))) (.node
  ⟨.track, 17, 13, 10, 0, 15, false⟩ (.node ⟨.run, 0, 3, 23, 20, 0, false⟩ (.node
  ⟨.follow, 37, 22, 28, 4, 0, false⟩ .none .none) (.node ⟨.run, 0, 17, 41, 15, 0, false⟩ .none
  .none)) (.node ⟨.track, 29, 12, 1, 0, 18, false⟩ (.node ⟨.follow, 41, 31, 30, 3, 0, false⟩ .none
  .none) (.node ⟨.follow, 49, 16, 42, 4, 0, false⟩ .none .none)))))

/-- the bounds of the departures -/
def ko1n5Times : TimeTree :=
  .node 2 0 2 (.node 25 0 65 (.node 111 0 151 (.node 167 4 207 (.node 55 0 95 (.node 42 0 82 .none
  .none) .none) (.node 132 4 172 (.node 150 4 190 .none .none) .none)) (.node 21 0 61 (.node 195 4
  235 (.node 147 4 187 .none .none) .none) (.node 84 4 124 .none .none))) (.node 146 0 186 (.node
  62 0 102 (.node 173 0 213 (.node 142 0 182 .none .none) .none) (.node 47 4 87 (.node 188 6 228
  .none .none) .none)) (.node 42 4 82 (.node 102 0 142 (.node 46 0 86 .none .none) .none) (.node 92
  6 132 .none .none)))) (.node 66 0 106 (.node 115 0 155 (.node 87 4 127 (.node 75 4 115 (.node 48
  4 88 .none .none) .none) (.node 137 4 177 (.node 148 4 188 .none .none) .none)) (.node 38 6 78
  (.node 106 0 146 (.node 148 4 188 .none .none) .none) (.node 121 6 161 .none .none))) (.node 147
  0 187 (.node 23 0 63 (.node 175 0 215 (.node 140 0 180 .none .none) .none) (.node 82 4 122 (.node
  68 6 108 .none .none) .none)) (.node 53 0 93 (.node 122 4 162 (.node 64 6 104 .none .none) .none)
  (.node 41 0 81 .none .none))))

/-- some of the cases -/
def ko1n5Case0 : SumTree :=
  .cases [] 0 (.cases [] 1 (.cases [] 2 (.cases [] 3 (.cases [] 4 (.leaf [67]) (.cases [4, 5] 5
  (.cases [] 6 (.cycle 5 [4, 5, 66]) (.cases [] 7 (.cases [] 8 (.cases [13, 14] 9 (.leaf [65])
  (.cases [] 10 (.cycle 9 [63, 56, 64]) (.cases [] 11 (.cases [55, 56, 57, 58, 59, 60] 14 (.cases
  [26] 24 (.leaf [62]) (.cycle 15 [55, 56, 61])) (.leaf [25])) (.cases [15, 16] 12 (.cases [53, 54]
  13 (.cases [35, 36] 14 (.cases [26] 18 (.leaf [38]) (.cycle 21 [35, 36, 37])) (.leaf [25]))
  (.leaf [19, 20])) (.cases [17, 18] 13 (.cases [] 18 (.cases [38] 19 (.cases [] 17 (.cases
  [32, 33] 21 (.cases [44, 45] 22 (.leaf [52, 48]) (.cases [] 15 (.leaf [34]) (.cases [27] 16
  (.cases [29] 23 (.cases [50] 20 (.cycle 31 [46, 47, 51]) (.leaf [40, 41])) (.leaf [49])) (.leaf
  [28])))) (.leaf [42, 43])) (.cases [] 14 (.cycle 12 [30, 31, 11]) (.cases [25] 20 (.leaf
  [46, 47, 48]) (.cases [40, 41] 21 (.leaf [44, 45]) (.leaf [42, 43]))))) (.leaf [39])) (.cycle 21
  [35, 36, 37])) (.cases [19, 20, 21, 22, 23, 24] 14 (.cases [26] 15 (.leaf [34]) (.cases [27] 16
  (.cases [29] 17 (.leaf [32, 33]) (.cycle 12 [30, 31, 11])) (.leaf [28]))) (.leaf [25])))))))
  (.cycle 11 [10, 11, 12])) (.leaf [8, 9]))) (.leaf [6, 7]))) (.leaf [3])) (.leaf [2])) (.leaf
  [1])) (.leaf [0])

/-- all cases -/
def ko1n5Cases : SumTree :=
  ko1n5Case0

theorem ko1n5_cases : ko1n5Cases.check ko1n5Arcs 142 ko1n5Choices.length [] ko1n5Times 0 = true := by
  decide +kernel

theorem ko1n5_choices : ko1n5Choices.all (CodedNet.Choice.ok netKo netKoSpecial ko1n5Plan) = true := by
  decide +kernel

theorem ko1n5_arcs : ko1n5Arcs.toList.all
    (netKo.arcOK netKoSpecial ko1n5Plan ko1n5Nodes ko1n5Choices) = true := by decide +kernel

theorem ko1n5_times : netKo.startOK ko1n5Plan ko1n5Nodes 2 40 ko1n5Times = true := by decide +kernel

end Verif.Real
