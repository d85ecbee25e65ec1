import Verif.Proofs.PlanSum
import Verif.Proofs.PlanAgain
import Verif.Real.PlanKo1

/-!
# The sheet of `Verif.Real.Ko1` with given delays: a plan, and that no plan is better

Generated; see `CodedNet.Item` and `Verif/Proofs/SumTree.lean`. Case 1,
`disturbances[7]`, of `/repo/solve_KO_GLC_problems.py`, line 111;
`d_max` is 40. The sum of the delays that count is 162/4.
-/

namespace Verif.Real

set_option maxRecDepth 100000

/-- the given delays -/
def ko1n7Delays : List (Int × ℚ) := [
  (1, 5), (11, 3), (21, 3), (25, 2), (2, 4), (4, 6), (6, 6), (8, 3), (10, 3), (22, 6), (24, 1)]

/-- the plan, items by sections -/
def ko1n7Plan : CodedNet.Plan := [
  (train_ko1_2, [
   ⟨0, 2, 0, (some 14), true, false, 4, 4, 40,
    none,
    (some ⟨1, [83, 101, 84, 121], [9, 19, 8, 8], 4, [5, 8]⟩), [], [61, 64, 69, 71, 87, 92], [4]⟩,
   ⟨0, 2, 1, (some 1), true, false, 10, 10, 100,
    (some ⟨0, 8, 40, [83, 101, 84, 121]⟩),
    (some ⟨2, [77, 144, 119, 40, 86, 142, 87, 126, 30, 90, 91, 92, 93, 127], [15, 14, 8, 14, 13, 13, 7, 9, 15, 13, 9, 5, 7, 20], 16, [31, 33, 41]⟩), [5, 8], [16, 2], [8]⟩,
   ⟨0, 2, 2, (some 35), false, true, 26, 26, 260,
    (some ⟨1, 26, 100, [77, 144, 119, 40, 86, 142, 87, 126, 30, 90, 91, 92, 93, 127]⟩),
    none, [31, 33, 41], [], [26]⟩]),
  (train_ko1_4602, [
   ⟨1, 4602, 0, (some 10), true, false, 11, 11, 110,
    none,
    (some ⟨1, [83, 101, 84, 121], [9, 12, 6, 7], 3, [5, 8]⟩), [], [66, 68, 71, 87, 92], [11]⟩,
   ⟨1, 4602, 1, (some 1), true, false, 16, 16, 160,
    (some ⟨0, 14, 110, [83, 101, 84, 121]⟩),
    (some ⟨2, [77, 144, 119, 40, 86, 142, 87, 126, 30, 90, 91, 92, 93, 127], [11, 9, 8, 7, 13, 7, 7, 9, 15, 13, 9, 5, 7, 20], 14, [31, 34, 43]⟩), [5, 8], [16, 2], [14]⟩,
   ⟨1, 4602, 2, (some 38), true, false, 32, 32, 320,
    (some ⟨1, 30, 160, [77, 144, 119, 40, 86, 142, 87, 126, 30, 90, 91, 92, 93, 127]⟩),
    none, [31, 34, 43], [], [30]⟩]),
  (train_ko1_4, [
   ⟨2, 4, 0, (some 14), true, false, 16, 16, 160,
    none,
    (some ⟨1, [83, 101, 84, 121], [9, 19, 8, 8], 4, [5, 8]⟩), [], [61, 64, 69, 71, 87, 92], [16]⟩,
   ⟨2, 4, 1, (some 1), true, false, 22, 22, 220,
    (some ⟨0, 20, 160, [83, 101, 84, 121]⟩),
    (some ⟨2, [77, 144, 119, 40, 86, 142, 87, 126, 30, 90, 91, 92, 93, 127], [15, 14, 8, 14, 13, 13, 7, 9, 15, 13, 9, 5, 7, 20], 16, [31, 33, 41]⟩), [5, 8], [16, 2], [20]⟩,
   ⟨2, 4, 2, (some 35), false, true, 38, 38, 380,
    (some ⟨1, 38, 220, [77, 144, 119, 40, 86, 142, 87, 126, 30, 90, 91, 92, 93, 127]⟩),
    none, [31, 33, 41], [], [38]⟩]),
  (train_ko1_102, [
   ⟨3, 102, 0, (some 16), true, false, 49, 49, 490,
    none,
    (some ⟨1, [83, 101, 84, 121], [9, 19, 8, 10], 5, [5, 8, 9]⟩), [], [62, 64, 69, 71, 87, 92], [49]⟩,
   ⟨3, 102, 1, (some 3), true, false, 56, 56, 560,
    (some ⟨0, 54, 490, [83, 101, 84, 121]⟩),
    none, [5, 8, 9], [], [54]⟩]),
  (train_ko1_6, [
   ⟨4, 6, 0, (some 14), true, false, 26, 26, 260,
    none,
    (some ⟨1, [83, 101, 84, 121], [9, 19, 8, 8], 4, [5, 8]⟩), [], [61, 64, 69, 71, 87, 92], [26]⟩,
   ⟨4, 6, 1, (some 1), true, false, 32, 32, 320,
    (some ⟨0, 30, 260, [83, 101, 84, 121]⟩),
    (some ⟨2, [77, 144, 119, 40, 86, 142, 87, 126, 30, 90, 91, 92, 93, 127], [15, 14, 8, 14, 13, 13, 7, 9, 15, 13, 9, 5, 7, 20], 16, [31, 33, 41]⟩), [5, 8], [16, 2], [30]⟩,
   ⟨4, 6, 2, (some 35), false, true, 48, 48, 480,
    (some ⟨1, 48, 320, [77, 144, 119, 40, 86, 142, 87, 126, 30, 90, 91, 92, 93, 127]⟩),
    none, [31, 33, 41], [], [48]⟩]),
  (train_ko1_8, [
   ⟨5, 8, 0, (some 14), true, false, 33, 33, 330,
    none,
    (some ⟨1, [83, 101, 84, 121], [9, 19, 8, 8], 4, [5, 8]⟩), [], [61, 64, 69, 71, 87, 92], [33]⟩,
   ⟨5, 8, 1, (some 1), true, false, 39, 39, 390,
    (some ⟨0, 37, 330, [83, 101, 84, 121]⟩),
    (some ⟨2, [77, 144, 119, 40, 86, 142, 87, 126, 30, 90, 91, 92, 93, 127], [15, 14, 8, 14, 13, 13, 7, 9, 15, 13, 9, 5, 7, 20], 16, [31, 33, 41]⟩), [5, 8], [16, 2], [37]⟩,
   ⟨5, 8, 2, (some 35), false, true, 55, 55, 550,
    (some ⟨1, 55, 390, [77, 144, 119, 40, 86, 142, 87, 126, 30, 90, 91, 92, 93, 127]⟩),
    none, [31, 33, 41], [], [55]⟩]),
  (train_ko1_4604, [
   ⟨6, 4604, 0, (some 10), true, false, 43, 43, 430,
    none,
    (some ⟨1, [83, 101, 84, 121], [9, 12, 6, 7], 3, [5, 8]⟩), [], [66, 68, 71, 87, 92], [43]⟩,
   ⟨6, 4604, 1, (some 1), true, false, 48, 48, 480,
    (some ⟨0, 46, 430, [83, 101, 84, 121]⟩),
    (some ⟨2, [77, 144, 119, 40, 86, 142, 87, 126, 30, 90, 91, 92, 93, 127], [11, 9, 8, 7, 13, 7, 7, 9, 15, 13, 9, 5, 7, 20], 14, [31, 34, 43]⟩), [5, 8], [16, 2], [46]⟩,
   ⟨6, 4604, 2, (some 38), true, false, 63, 63, 630,
    (some ⟨1, 62, 480, [77, 144, 119, 40, 86, 142, 87, 126, 30, 90, 91, 92, 93, 127]⟩),
    none, [31, 34, 43], [], [62]⟩]),
  (train_ko1_10, [
   ⟨7, 10, 0, (some 14), true, false, 43, 45, 450,
    none,
    (some ⟨1, [83, 101, 84, 121], [9, 19, 8, 8], 4, [5, 8]⟩), [], [61, 64, 69, 71, 87, 92], [43]⟩,
   ⟨7, 10, 1, (some 1), true, false, 49, 51, 510,
    (some ⟨0, 49, 450, [83, 101, 84, 121]⟩),
    (some ⟨2, [77, 144, 119, 40, 86, 142, 87, 126, 30, 90, 91, 92, 93, 127], [15, 14, 8, 14, 13, 13, 7, 9, 15, 13, 9, 5, 7, 20], 16, [31, 33, 41]⟩), [5, 8], [16, 2], [49]⟩,
   ⟨7, 10, 2, (some 35), false, true, 65, 67, 670,
    (some ⟨1, 67, 510, [77, 144, 119, 40, 86, 142, 87, 126, 30, 90, 91, 92, 93, 127]⟩),
    none, [31, 33, 41], [], [67]⟩]),
  (train_ko1_12, [
   ⟨8, 12, 0, (some 14), true, false, 54, 54, 540,
    none,
    (some ⟨1, [83, 101, 84, 121], [9, 19, 8, 8], 4, [5, 8]⟩), [], [61, 64, 69, 71, 87, 92], [54]⟩,
   ⟨8, 12, 1, (some 1), true, false, 60, 60, 600,
    (some ⟨0, 58, 540, [83, 101, 84, 121]⟩),
    (some ⟨2, [77, 144, 119, 40, 86, 142, 87, 126, 30, 90, 91, 92, 93, 127], [15, 14, 8, 14, 13, 13, 7, 9, 15, 13, 9, 5, 7, 20], 16, [31, 33, 41]⟩), [5, 8], [16, 2], [58]⟩,
   ⟨8, 12, 2, (some 35), false, true, 76, 76, 760,
    (some ⟨1, 76, 600, [77, 144, 119, 40, 86, 142, 87, 126, 30, 90, 91, 92, 93, 127]⟩),
    none, [31, 33, 41], [], [76]⟩]),
  (train_ko1_1, [
   ⟨9, 1, 2, (some 34), true, false, -2, -2, -20,
    none,
    (some ⟨1, [78, 79, 80, 81, 120, 31, 94, 95, 143, 128, 41, 85, 145, 125], [18, 7, 6, 8, 12, 20, 23, 5, 19, 11, 16, 11, 17, 9], 18, [17, 19]⟩), [], [30, 22], [-2]⟩,
   ⟨9, 1, 1, (some 2), true, false, 18, 18, 180,
    (some ⟨2, 16, -20, [78, 79, 80, 81, 120, 31, 94, 95, 143, 128, 41, 85, 145, 125]⟩),
    (some ⟨0, [76, 130, 133, 122], [8, 12, 22, 10], 5, [82, 84, 86, 89, 91]⟩), [17, 19], [9, 7, 6], [16]⟩,
   ⟨9, 1, 0, (some 15), false, true, 23, 23, 230,
    (some ⟨1, 23, 180, [76, 130, 133, 122]⟩),
    none, [82, 84, 86, 89, 91], [], [23]⟩]),
  (train_ko1_101, [
   ⟨10, 101, 1, (some 4), true, false, 26, 28, 280,
    none,
    (some ⟨0, [76, 130, 133, 122], [8, 12, 22, 10], 5, [82, 84, 86, 89, 91]⟩), [], [7, 6], [26]⟩,
   ⟨10, 101, 0, (some 39), false, true, 31, 33, 330,
    (some ⟨1, 33, 280, [76, 130, 133, 122]⟩),
    none, [82, 84, 86, 89, 91], [], [33]⟩]),
  (train_ko1_3, [
   ⟨11, 3, 2, (some 34), true, false, 3, 3, 30,
    none,
    (some ⟨1, [78, 79, 80, 81, 120, 31, 94, 95, 143, 128, 41, 85, 145, 125], [18, 7, 6, 8, 12, 20, 23, 5, 19, 11, 16, 11, 17, 9], 18, [17, 19]⟩), [], [30, 22], [3]⟩,
   ⟨11, 3, 1, (some 2), true, false, 25, 25, 250,
    (some ⟨2, 21, 30, [78, 79, 80, 81, 120, 31, 94, 95, 143, 128, 41, 85, 145, 125]⟩),
    (some ⟨0, [76, 130, 133, 122], [8, 12, 22, 10], 5, [82, 84, 86, 89, 91]⟩), [17, 19], [9, 7, 6], [21]⟩,
   ⟨11, 3, 0, (some 15), false, true, 30, 30, 300,
    (some ⟨1, 30, 250, [76, 130, 133, 122]⟩),
    none, [82, 84, 86, 89, 91], [], [30]⟩]),
  (train_ko1_6401, [
   ⟨12, 6401, 2, (some 33), true, false, 19, 19, 190,
    none,
    (some ⟨1, [78, 79, 80, 81, 120, 31, 94, 95, 143, 128, 41, 85, 145, 125], [18, 7, 6, 8, 12, 20, 23, 5, 9, 11, 6, 11, 7, 9], 15, [17, 19]⟩), [], [36, 30, 22], [19]⟩,
   ⟨12, 6401, 1, (some 2), true, false, 34, 34, 340,
    (some ⟨2, 34, 190, [78, 79, 80, 81, 120, 31, 94, 95, 143, 128, 41, 85, 145, 125]⟩),
    (some ⟨0, [76, 130, 133, 122], [6, 10, 12, 10], 4, [81, 85, 88, 91]⟩), [17, 19], [9, 7, 6], [34]⟩,
   ⟨12, 6401, 0, (some 13), false, true, 38, 38, 380,
    (some ⟨1, 38, 340, [76, 130, 133, 122]⟩),
    none, [81, 85, 88, 91], [], [38]⟩]),
  (train_ko1_5, [
   ⟨13, 5, 2, (some 34), true, false, 18, 23, 230,
    none,
    (some ⟨1, [78, 79, 80, 81, 120, 31, 94, 95, 143, 128, 41, 85, 145, 125], [18, 7, 6, 8, 12, 20, 23, 5, 19, 11, 16, 11, 17, 9], 18, [17, 19]⟩), [], [30, 22], [18]⟩,
   ⟨13, 5, 1, (some 2), true, false, 40, 43, 430,
    (some ⟨2, 41, 230, [78, 79, 80, 81, 120, 31, 94, 95, 143, 128, 41, 85, 145, 125]⟩),
    (some ⟨0, [76, 130, 133, 122], [8, 12, 22, 10], 5, [82, 84, 86, 89, 91]⟩), [17, 19], [9, 7, 6], [41]⟩,
   ⟨13, 5, 0, (some 15), false, true, 45, 48, 480,
    (some ⟨1, 48, 430, [76, 130, 133, 122]⟩),
    none, [82, 84, 86, 89, 91], [], [48]⟩]),
  (train_ko1_7, [
   ⟨14, 7, 2, (some 34), true, false, 23, 27, 270,
    none,
    (some ⟨1, [78, 79, 80, 81, 120, 31, 94, 95, 143, 128, 41, 85, 145, 125], [18, 7, 6, 8, 12, 20, 23, 5, 19, 11, 16, 11, 17, 9], 18, [17, 19]⟩), [], [30, 22], [23]⟩,
   ⟨14, 7, 1, (some 2), true, false, 45, 47, 470,
    (some ⟨2, 45, 270, [78, 79, 80, 81, 120, 31, 94, 95, 143, 128, 41, 85, 145, 125]⟩),
    (some ⟨0, [76, 130, 133, 122], [8, 12, 22, 10], 5, [82, 84, 86, 89, 91]⟩), [17, 19], [9, 7, 6], [45]⟩,
   ⟨14, 7, 0, (some 15), false, true, 50, 52, 520,
    (some ⟨1, 52, 470, [76, 130, 133, 122]⟩),
    none, [82, 84, 86, 89, 91], [], [52]⟩]),
  (train_ko1_103, [
   ⟨15, 103, 1, (some 4), true, false, 51, 51, 510,
    none,
    (some ⟨0, [76, 130, 133, 122], [8, 12, 22, 10], 5, [82, 84, 86, 89, 91]⟩), [], [7, 6], [51]⟩,
   ⟨15, 103, 0, (some 39), false, true, 56, 56, 560,
    (some ⟨1, 56, 510, [76, 130, 133, 122]⟩),
    none, [82, 84, 86, 89, 91], [], [56]⟩]),
  (train_ko1_9, [
   ⟨16, 9, 2, (some 34), true, false, 33, 33, 330,
    none,
    (some ⟨1, [78, 79, 80, 81, 120, 31, 94, 95, 143, 128, 41, 85, 145, 125], [18, 7, 6, 8, 12, 20, 23, 5, 19, 11, 16, 11, 17, 9], 18, [17, 19]⟩), [], [30, 22], [33]⟩,
   ⟨16, 9, 1, (some 2), true, false, 55, 55, 550,
    (some ⟨2, 51, 330, [78, 79, 80, 81, 120, 31, 94, 95, 143, 128, 41, 85, 145, 125]⟩),
    (some ⟨0, [76, 130, 133, 122], [8, 12, 22, 10], 5, [82, 84, 86, 89, 91]⟩), [17, 19], [9, 7, 6], [51]⟩,
   ⟨16, 9, 0, (some 15), false, true, 60, 60, 600,
    (some ⟨1, 60, 550, [76, 130, 133, 122]⟩),
    none, [82, 84, 86, 89, 91], [], [60]⟩]),
  (train_ko1_6403, [
   ⟨17, 6403, 2, (some 33), true, false, 44, 44, 440,
    none,
    (some ⟨1, [78, 79, 80, 81, 120, 31, 94, 95, 143, 128, 41, 85, 145, 125], [18, 7, 6, 8, 12, 20, 23, 5, 9, 11, 6, 11, 7, 9], 15, [17, 19]⟩), [], [36, 30, 22], [44]⟩,
   ⟨17, 6403, 1, (some 2), true, false, 59, 59, 590,
    (some ⟨2, 59, 440, [78, 79, 80, 81, 120, 31, 94, 95, 143, 128, 41, 85, 145, 125]⟩),
    (some ⟨0, [76, 130, 133, 122], [6, 10, 12, 10], 4, [81, 85, 88, 91]⟩), [17, 19], [9, 7, 6], [59]⟩,
   ⟨17, 6403, 0, (some 13), false, true, 63, 63, 630,
    (some ⟨1, 63, 590, [76, 130, 133, 122]⟩),
    none, [81, 85, 88, 91], [], [63]⟩]),
  (train_ko1_11, [
   ⟨18, 11, 2, (some 34), true, false, 56, 57, 570,
    none,
    (some ⟨1, [78, 79, 80, 81, 120, 31, 94, 95, 143, 128, 41, 85, 145, 125], [18, 7, 6, 8, 12, 20, 23, 5, 19, 11, 16, 11, 17, 9], 18, [17, 19]⟩), [], [30, 22], [56]⟩,
   ⟨18, 11, 1, (some 2), true, false, 76, 78, 780,
    (some ⟨2, 75, 570, [78, 79, 80, 81, 120, 31, 94, 95, 143, 128, 41, 85, 145, 125]⟩),
    (some ⟨0, [76, 130, 133, 122], [8, 12, 22, 10], 5, [82, 84, 86, 89, 91]⟩), [17, 19], [9, 7, 6], [75]⟩,
   ⟨18, 11, 0, (some 15), false, true, 81, 83, 830,
    (some ⟨1, 83, 780, [76, 130, 133, 122]⟩),
    none, [82, 84, 86, 89, 91], [], [83]⟩]),
  (train_ko1_14, [
   ⟨19, 14, 0, (some 14), true, false, 66, 66, 660,
    none,
    (some ⟨1, [83, 101, 84, 121], [9, 19, 8, 8], 4, [5, 8]⟩), [], [61, 64, 69, 71, 87, 92], [66]⟩,
   ⟨19, 14, 1, (some 1), true, false, 72, 72, 720,
    (some ⟨0, 70, 660, [83, 101, 84, 121]⟩),
    (some ⟨2, [77, 144, 119, 40, 86, 142, 87, 126, 30, 90, 91, 92, 93, 127], [15, 14, 8, 14, 13, 13, 7, 9, 15, 13, 9, 5, 7, 20], 16, [31, 33, 41]⟩), [5, 8], [16, 2], [70]⟩,
   ⟨19, 14, 2, (some 35), false, true, 88, 88, 880,
    (some ⟨1, 88, 720, [77, 144, 119, 40, 86, 142, 87, 126, 30, 90, 91, 92, 93, 127]⟩),
    none, [31, 33, 41], [], [88]⟩]),
  (train_ko1_4606, [
   ⟨20, 4606, 0, (some 10), true, false, 73, 73, 730,
    none,
    (some ⟨1, [83, 101, 84, 121], [9, 12, 6, 7], 3, [5, 8]⟩), [], [66, 68, 71, 87, 92], [73]⟩,
   ⟨20, 4606, 1, (some 1), true, false, 78, 78, 780,
    (some ⟨0, 76, 730, [83, 101, 84, 121]⟩),
    (some ⟨2, [77, 144, 119, 40, 86, 142, 87, 126, 30, 90, 91, 92, 93, 127], [11, 9, 8, 7, 13, 7, 7, 9, 15, 13, 9, 5, 7, 20], 14, [31, 34, 43]⟩), [5, 8], [16, 2], [76]⟩,
   ⟨20, 4606, 2, (some 38), true, false, 93, 93, 930,
    (some ⟨1, 92, 780, [77, 144, 119, 40, 86, 142, 87, 126, 30, 90, 91, 92, 93, 127]⟩),
    none, [31, 34, 43], [], [92]⟩]),
  (train_ko1_16, [
   ⟨21, 16, 0, (some 14), true, false, 76, 76, 760,
    none,
    (some ⟨1, [83, 101, 84, 121], [9, 19, 8, 8], 4, [5, 8]⟩), [], [61, 64, 69, 71, 87, 92], [76]⟩,
   ⟨21, 16, 1, (some 1), true, false, 82, 82, 820,
    (some ⟨0, 80, 760, [83, 101, 84, 121]⟩),
    (some ⟨2, [77, 144, 119, 40, 86, 142, 87, 126, 30, 90, 91, 92, 93, 127], [15, 14, 8, 14, 13, 13, 7, 9, 15, 13, 9, 5, 7, 20], 16, [31, 33, 41]⟩), [5, 8], [16, 2], [80]⟩,
   ⟨21, 16, 2, (some 35), false, true, 98, 98, 980,
    (some ⟨1, 98, 820, [77, 144, 119, 40, 86, 142, 87, 126, 30, 90, 91, 92, 93, 127]⟩),
    none, [31, 33, 41], [], [98]⟩]),
  (train_ko1_106, [
   ⟨22, 106, 0, (some 16), true, false, 81, 81, 810,
    none,
    (some ⟨1, [83, 101, 84, 121], [9, 19, 8, 10], 5, [5, 8, 9]⟩), [], [62, 64, 69, 71, 87, 92], [81]⟩,
   ⟨22, 106, 1, (some 3), true, false, 88, 88, 880,
    (some ⟨0, 86, 810, [83, 101, 84, 121]⟩),
    none, [5, 8, 9], [], [86]⟩]),
  (train_ko1_18, [
   ⟨23, 18, 0, (some 14), true, false, 83, 84, 840,
    none,
    (some ⟨1, [83, 101, 84, 121], [9, 19, 8, 8], 4, [5, 8]⟩), [], [61, 64, 69, 71, 87, 92], [83]⟩,
   ⟨23, 18, 1, (some 1), true, false, 89, 90, 900,
    (some ⟨0, 88, 840, [83, 101, 84, 121]⟩),
    (some ⟨2, [77, 144, 119, 40, 86, 142, 87, 126, 30, 90, 91, 92, 93, 127], [15, 14, 8, 14, 13, 13, 7, 9, 15, 13, 9, 5, 7, 20], 16, [31, 33, 41]⟩), [5, 8], [16, 2], [88]⟩,
   ⟨23, 18, 2, (some 35), false, true, 105, 106, 1060,
    (some ⟨1, 106, 900, [77, 144, 119, 40, 86, 142, 87, 126, 30, 90, 91, 92, 93, 127]⟩),
    none, [31, 33, 41], [], [106]⟩]),
  (train_ko1_20, [
   ⟨24, 20, 0, (some 14), true, false, 90, 90, 900,
    none,
    (some ⟨1, [83, 101, 84, 121], [9, 19, 8, 8], 4, [5, 8]⟩), [], [61, 64, 69, 71, 87, 92], [90]⟩,
   ⟨24, 20, 1, (some 1), true, false, 96, 96, 960,
    (some ⟨0, 94, 900, [83, 101, 84, 121]⟩),
    (some ⟨2, [77, 144, 119, 40, 86, 142, 87, 126, 30, 90, 91, 92, 93, 127], [15, 14, 8, 14, 13, 13, 7, 9, 15, 13, 9, 5, 7, 20], 16, [31, 33, 41]⟩), [5, 8], [16, 2], [94]⟩,
   ⟨24, 20, 2, (some 35), false, true, 112, 112, 1120,
    (some ⟨1, 112, 960, [77, 144, 119, 40, 86, 142, 87, 126, 30, 90, 91, 92, 93, 127]⟩),
    none, [31, 33, 41], [], [112]⟩]),
  (train_ko1_4608, [
   ⟨25, 4608, 0, (some 10), true, false, 100, 100, 1000,
    none,
    (some ⟨1, [83, 101, 84, 121], [9, 12, 6, 7], 3, [5, 8]⟩), [], [66, 68, 71, 87, 92], [100]⟩,
   ⟨25, 4608, 1, (some 1), true, false, 105, 105, 1050,
    (some ⟨0, 103, 1000, [83, 101, 84, 121]⟩),
    (some ⟨2, [77, 144, 119, 40, 86, 142, 87, 126, 30, 90, 91, 92, 93, 127], [11, 9, 8, 7, 13, 7, 7, 9, 15, 13, 9, 5, 7, 20], 14, [31, 34, 43]⟩), [5, 8], [16, 2], [103]⟩,
   ⟨25, 4608, 2, (some 38), true, false, 122, 122, 1220,
    (some ⟨1, 119, 1050, [77, 144, 119, 40, 86, 142, 87, 126, 30, 90, 91, 92, 93, 127]⟩),
    none, [31, 34, 43], [], [119]⟩]),
  (train_ko1_22, [
   ⟨26, 22, 0, (some 14), true, false, 110, 111, 1110,
    none,
    (some ⟨1, [83, 101, 84, 121], [9, 19, 8, 8], 4, [5, 8]⟩), [], [61, 64, 69, 71, 87, 92], [110]⟩,
   ⟨26, 22, 1, (some 1), true, false, 116, 117, 1170,
    (some ⟨0, 115, 1110, [83, 101, 84, 121]⟩),
    (some ⟨2, [77, 144, 119, 40, 86, 142, 87, 126, 30, 90, 91, 92, 93, 127], [15, 14, 8, 14, 13, 13, 7, 9, 15, 13, 9, 5, 7, 20], 16, [31, 33, 41]⟩), [5, 8], [16, 2], [115]⟩,
   ⟨26, 22, 2, (some 35), false, true, 132, 133, 1330,
    (some ⟨1, 133, 1170, [77, 144, 119, 40, 86, 142, 87, 126, 30, 90, 91, 92, 93, 127]⟩),
    none, [31, 33, 41], [], [133]⟩]),
  (train_ko1_108, [
   ⟨27, 108, 0, (some 16), true, false, 108, 108, 1080,
    none,
    (some ⟨1, [83, 101, 84, 121], [9, 19, 8, 10], 5, [5, 8, 9]⟩), [], [62, 64, 69, 71, 87, 92], [108]⟩,
   ⟨27, 108, 1, (some 3), true, false, 115, 115, 1150,
    (some ⟨0, 113, 1080, [83, 101, 84, 121]⟩),
    none, [5, 8, 9], [], [113]⟩]),
  (train_ko1_24, [
   ⟨28, 24, 0, (some 14), true, false, 117, 117, 1170,
    none,
    (some ⟨1, [83, 101, 84, 121], [9, 19, 8, 8], 4, [5, 8]⟩), [], [61, 64, 69, 71, 87, 92], [117]⟩,
   ⟨28, 24, 1, (some 1), true, false, 123, 123, 1230,
    (some ⟨0, 121, 1170, [83, 101, 84, 121]⟩),
    (some ⟨2, [77, 144, 119, 40, 86, 142, 87, 126, 30, 90, 91, 92, 93, 127], [15, 14, 8, 14, 13, 13, 7, 9, 15, 13, 9, 5, 7, 20], 16, [31, 33, 41]⟩), [5, 8], [16, 2], [121]⟩,
   ⟨28, 24, 2, (some 35), false, true, 139, 139, 1390,
    (some ⟨1, 139, 1230, [77, 144, 119, 40, 86, 142, 87, 126, 30, 90, 91, 92, 93, 127]⟩),
    none, [31, 33, 41], [], [139]⟩]),
  (train_ko1_13, [
   ⟨29, 13, 2, (some 34), true, false, 53, 53, 530,
    none,
    (some ⟨1, [78, 79, 80, 81, 120, 31, 94, 95, 143, 128, 41, 85, 145, 125], [18, 7, 6, 8, 12, 20, 23, 5, 19, 11, 16, 11, 17, 9], 18, [17, 19]⟩), [], [30, 22], [53]⟩,
   ⟨29, 13, 1, (some 2), true, false, 75, 75, 750,
    (some ⟨2, 71, 530, [78, 79, 80, 81, 120, 31, 94, 95, 143, 128, 41, 85, 145, 125]⟩),
    (some ⟨0, [76, 130, 133, 122], [8, 12, 22, 10], 5, [82, 84, 86, 89, 91]⟩), [17, 19], [9, 7, 6], [71]⟩,
   ⟨29, 13, 0, (some 15), false, true, 80, 80, 800,
    (some ⟨1, 80, 750, [76, 130, 133, 122]⟩),
    none, [82, 84, 86, 89, 91], [], [80]⟩]),
  (train_ko1_105, [
   ⟨30, 105, 1, (some 4), true, false, 81, 81, 810,
    none,
    (some ⟨0, [76, 130, 133, 122], [8, 12, 22, 10], 5, [82, 84, 86, 89, 91]⟩), [], [7, 6], [81]⟩,
   ⟨30, 105, 0, (some 39), false, true, 86, 86, 860,
    (some ⟨1, 86, 810, [76, 130, 133, 122]⟩),
    none, [82, 84, 86, 89, 91], [], [86]⟩]),
  (train_ko1_15, [
   ⟨31, 15, 2, (some 34), true, false, 63, 63, 630,
    none,
    (some ⟨1, [78, 79, 80, 81, 120, 31, 94, 95, 143, 128, 41, 85, 145, 125], [18, 7, 6, 8, 12, 20, 23, 5, 19, 11, 16, 11, 17, 9], 18, [17, 19]⟩), [], [30, 22], [63]⟩,
   ⟨31, 15, 1, (some 2), true, false, 85, 85, 850,
    (some ⟨2, 81, 630, [78, 79, 80, 81, 120, 31, 94, 95, 143, 128, 41, 85, 145, 125]⟩),
    (some ⟨0, [76, 130, 133, 122], [8, 12, 22, 10], 5, [82, 84, 86, 89, 91]⟩), [17, 19], [9, 7, 6], [81]⟩,
   ⟨31, 15, 0, (some 15), false, true, 90, 90, 900,
    (some ⟨1, 90, 850, [76, 130, 133, 122]⟩),
    none, [82, 84, 86, 89, 91], [], [90]⟩]),
  (train_ko1_6405, [
   ⟨32, 6405, 2, (some 33), true, false, 74, 74, 740,
    none,
    (some ⟨1, [78, 79, 80, 81, 120, 31, 94, 95, 143, 128, 41, 85, 145, 125], [18, 7, 6, 8, 12, 20, 23, 5, 9, 11, 6, 11, 7, 9], 15, [17, 19]⟩), [], [36, 30, 22], [74]⟩,
   ⟨32, 6405, 1, (some 2), true, false, 89, 89, 890,
    (some ⟨2, 89, 740, [78, 79, 80, 81, 120, 31, 94, 95, 143, 128, 41, 85, 145, 125]⟩),
    (some ⟨0, [76, 130, 133, 122], [6, 10, 12, 10], 4, [81, 85, 88, 91]⟩), [17, 19], [9, 7, 6], [89]⟩,
   ⟨32, 6405, 0, (some 13), false, true, 93, 93, 930,
    (some ⟨1, 93, 890, [76, 130, 133, 122]⟩),
    none, [81, 85, 88, 91], [], [93]⟩]),
  (train_ko1_17, [
   ⟨33, 17, 2, (some 34), true, false, 78, 78, 780,
    none,
    (some ⟨1, [78, 79, 80, 81, 120, 31, 94, 95, 143, 128, 41, 85, 145, 125], [18, 7, 6, 8, 12, 20, 23, 5, 19, 11, 16, 11, 17, 9], 18, [17, 19]⟩), [], [30, 22], [78]⟩,
   ⟨33, 17, 1, (some 2), true, false, 100, 100, 1000,
    (some ⟨2, 96, 780, [78, 79, 80, 81, 120, 31, 94, 95, 143, 128, 41, 85, 145, 125]⟩),
    (some ⟨0, [76, 130, 133, 122], [8, 12, 22, 10], 5, [82, 84, 86, 89, 91]⟩), [17, 19], [9, 7, 6], [96]⟩,
   ⟨33, 17, 0, (some 15), false, true, 105, 105, 1050,
    (some ⟨1, 105, 1000, [76, 130, 133, 122]⟩),
    none, [82, 84, 86, 89, 91], [], [105]⟩]),
  (train_ko1_21, [
   ⟨34, 21, 2, (some 34), true, false, 91, 91, 910,
    none,
    (some ⟨1, [78, 79, 80, 81, 120, 31, 94, 95, 143, 128, 41, 85, 145, 125], [18, 7, 6, 8, 12, 20, 23, 5, 19, 11, 16, 11, 17, 9], 18, [17, 19]⟩), [], [30, 22], [91]⟩,
   ⟨34, 21, 1, (some 2), true, false, 111, 111, 1110,
    (some ⟨2, 109, 910, [78, 79, 80, 81, 120, 31, 94, 95, 143, 128, 41, 85, 145, 125]⟩),
    (some ⟨0, [76, 130, 133, 122], [8, 12, 22, 10], 5, [82, 84, 86, 89, 91]⟩), [17, 19], [9, 7, 6], [109]⟩,
   ⟨34, 21, 0, (some 15), false, true, 116, 116, 1160,
    (some ⟨1, 116, 1110, [76, 130, 133, 122]⟩),
    none, [82, 84, 86, 89, 91], [], [116]⟩]),
  (train_ko1_107, [
   ⟨35, 107, 1, (some 4), true, false, 111, 114, 1140,
    none,
    (some ⟨0, [76, 130, 133, 122], [8, 12, 22, 10], 5, [82, 84, 86, 89, 91]⟩), [], [7, 6], [111]⟩,
   ⟨35, 107, 0, (some 39), false, true, 116, 119, 1190,
    (some ⟨1, 119, 1140, [76, 130, 133, 122]⟩),
    none, [82, 84, 86, 89, 91], [], [119]⟩]),
  (train_ko1_23, [
   ⟨36, 23, 2, (some 34), true, false, 93, 95, 950,
    none,
    (some ⟨1, [78, 79, 80, 81, 120, 31, 94, 95, 143, 128, 41, 85, 145, 125], [18, 7, 6, 8, 12, 20, 23, 5, 19, 11, 16, 11, 17, 9], 18, [17, 19]⟩), [], [30, 22], [93]⟩,
   ⟨36, 23, 1, (some 2), true, false, 115, 117, 1170,
    (some ⟨2, 113, 950, [78, 79, 80, 81, 120, 31, 94, 95, 143, 128, 41, 85, 145, 125]⟩),
    (some ⟨0, [76, 130, 133, 122], [8, 12, 22, 10], 5, [82, 84, 86, 89, 91]⟩), [17, 19], [9, 7, 6], [113]⟩,
   ⟨36, 23, 0, (some 15), false, true, 120, 122, 1220,
    (some ⟨1, 122, 1170, [76, 130, 133, 122]⟩),
    none, [82, 84, 86, 89, 91], [], [122]⟩]),
  (train_ko1_6407, [
   ⟨37, 6407, 2, (some 33), true, false, 104, 104, 1040,
    none,
    (some ⟨1, [78, 79, 80, 81, 120, 31, 94, 95, 143, 128, 41, 85, 145, 125], [18, 7, 6, 8, 12, 20, 23, 5, 9, 11, 6, 11, 7, 9], 15, [17, 19]⟩), [], [36, 30, 22], [104]⟩,
   ⟨37, 6407, 1, (some 2), true, false, 119, 121, 1210,
    (some ⟨2, 119, 1040, [78, 79, 80, 81, 120, 31, 94, 95, 143, 128, 41, 85, 145, 125]⟩),
    (some ⟨0, [76, 130, 133, 122], [6, 10, 12, 10], 4, [81, 85, 88, 91]⟩), [17, 19], [9, 7, 6], [119]⟩,
   ⟨37, 6407, 0, (some 13), false, true, 123, 125, 1250,
    (some ⟨1, 125, 1210, [76, 130, 133, 122]⟩),
    none, [81, 85, 88, 91], [], [125]⟩]),
  (train_ko1_25, [
   ⟨38, 25, 2, (some 34), true, false, 110, 110, 1100,
    none,
    (some ⟨1, [78, 79, 80, 81, 120, 31, 94, 95, 143, 128, 41, 85, 145, 125], [18, 7, 6, 8, 12, 20, 23, 5, 19, 11, 16, 11, 17, 9], 18, [17, 19]⟩), [], [30, 22], [110]⟩,
   ⟨38, 25, 1, (some 2), true, false, 130, 130, 1300,
    (some ⟨2, 128, 1100, [78, 79, 80, 81, 120, 31, 94, 95, 143, 128, 41, 85, 145, 125]⟩),
    (some ⟨0, [76, 130, 133, 122], [8, 12, 22, 10], 5, [82, 84, 86, 89, 91]⟩), [17, 19], [9, 7, 6], [128]⟩,
   ⟨38, 25, 0, (some 15), false, true, 135, 135, 1350,
    (some ⟨1, 135, 1300, [76, 130, 133, 122]⟩),
    none, [82, 84, 86, 89, 91], [], [135]⟩]),
  (train_ko1_26, [
   ⟨39, 26, 0, (some 14), true, false, 126, 126, 1260,
    none,
    (some ⟨1, [83, 101, 84, 121], [9, 19, 8, 8], 4, [5, 8]⟩), [], [61, 64, 69, 71, 87, 92], [126]⟩,
   ⟨39, 26, 1, (some 1), true, false, 132, 132, 1320,
    (some ⟨0, 130, 1260, [83, 101, 84, 121]⟩),
    (some ⟨2, [77, 144, 119, 40, 86, 142, 87, 126, 30, 90, 91, 92, 93, 127], [15, 14, 8, 14, 13, 13, 7, 9, 15, 13, 9, 5, 7, 20], 16, [31, 33, 41]⟩), [5, 8], [16, 2], [130]⟩,
   ⟨39, 26, 2, (some 35), false, true, 148, 148, 1480,
    (some ⟨1, 148, 1320, [77, 144, 119, 40, 86, 142, 87, 126, 30, 90, 91, 92, 93, 127]⟩),
    none, [31, 33, 41], [], [148]⟩]),
  (train_ko1_4610, [
   ⟨40, 4610, 0, (some 10), true, false, 130, 130, 1300,
    none,
    (some ⟨1, [83, 101, 84, 121], [9, 12, 6, 7], 3, [5, 8]⟩), [], [66, 68, 71, 87, 92], [130]⟩,
   ⟨40, 4610, 1, (some 1), true, false, 135, 137, 1370,
    (some ⟨0, 133, 1300, [83, 101, 84, 121]⟩),
    (some ⟨2, [77, 144, 119, 40, 86, 142, 87, 126, 30, 90, 91, 92, 93, 127], [11, 9, 8, 7, 13, 7, 7, 9, 15, 13, 9, 5, 7, 20], 14, [31, 34, 43]⟩), [5, 8], [16, 2], [133]⟩,
   ⟨40, 4610, 2, (some 38), true, false, 152, 152, 1520,
    (some ⟨1, 151, 1370, [77, 144, 119, 40, 86, 142, 87, 126, 30, 90, 91, 92, 93, 127]⟩),
    none, [31, 34, 43], [], [151]⟩]),
  (train_ko1_28, [
   ⟨41, 28, 0, (some 14), true, false, 133, 133, 1330,
    none,
    (some ⟨1, [83, 101, 84, 121], [9, 19, 8, 8], 4, [5, 8]⟩), [], [61, 64, 69, 71, 87, 92], [133]⟩,
   ⟨41, 28, 1, (some 1), true, false, 139, 139, 1390,
    (some ⟨0, 137, 1330, [83, 101, 84, 121]⟩),
    (some ⟨2, [77, 144, 119, 40, 86, 142, 87, 126, 30, 90, 91, 92, 93, 127], [15, 14, 8, 14, 13, 13, 7, 9, 15, 13, 9, 5, 7, 20], 16, [31, 33, 41]⟩), [5, 8], [16, 2], [137]⟩,
   ⟨41, 28, 2, (some 35), false, true, 155, 155, 1550,
    (some ⟨1, 155, 1390, [77, 144, 119, 40, 86, 142, 87, 126, 30, 90, 91, 92, 93, 127]⟩),
    none, [31, 33, 41], [], [155]⟩]),
  (train_ko1_112, [
   ⟨42, 112, 0, (some 16), true, false, 139, 139, 1390,
    none,
    (some ⟨1, [83, 101, 84, 121], [9, 19, 8, 10], 5, [5, 8, 9]⟩), [], [62, 64, 69, 71, 87, 92], [139]⟩,
   ⟨42, 112, 1, (some 3), true, false, 146, 146, 1460,
    (some ⟨0, 144, 1390, [83, 101, 84, 121]⟩),
    none, [5, 8, 9], [], [144]⟩]),
  (train_ko1_30, [
   ⟨43, 30, 0, (some 14), true, false, 140, 142, 1420,
    none,
    (some ⟨1, [83, 101, 84, 121], [9, 19, 8, 8], 4, [5, 8]⟩), [], [61, 64, 69, 71, 87, 92], [140]⟩,
   ⟨43, 30, 1, (some 1), true, false, 146, 148, 1480,
    (some ⟨0, 146, 1420, [83, 101, 84, 121]⟩),
    (some ⟨2, [77, 144, 119, 40, 86, 142, 87, 126, 30, 90, 91, 92, 93, 127], [15, 14, 8, 14, 13, 13, 7, 9, 15, 13, 9, 5, 7, 20], 16, [31, 33, 41]⟩), [5, 8], [16, 2], [146]⟩,
   ⟨43, 30, 2, (some 35), false, true, 162, 164, 1640,
    (some ⟨1, 164, 1480, [77, 144, 119, 40, 86, 142, 87, 126, 30, 90, 91, 92, 93, 127]⟩),
    none, [31, 33, 41], [], [164]⟩]),
  (train_ko1_32, [
   ⟨44, 32, 0, (some 14), true, false, 154, 154, 1540,
    none,
    (some ⟨1, [83, 101, 84, 121], [9, 19, 8, 8], 4, [5, 8]⟩), [], [61, 64, 69, 71, 87, 92], [154]⟩,
   ⟨44, 32, 1, (some 1), true, false, 160, 160, 1600,
    (some ⟨0, 158, 1540, [83, 101, 84, 121]⟩),
    (some ⟨2, [77, 144, 119, 40, 86, 142, 87, 126, 30, 90, 91, 92, 93, 127], [15, 14, 8, 14, 13, 13, 7, 9, 15, 13, 9, 5, 7, 20], 16, [31, 33, 41]⟩), [5, 8], [16, 2], [158]⟩,
   ⟨44, 32, 2, (some 35), false, true, 176, 176, 1760,
    (some ⟨1, 176, 1600, [77, 144, 119, 40, 86, 142, 87, 126, 30, 90, 91, 92, 93, 127]⟩),
    none, [31, 33, 41], [], [176]⟩]),
  (train_ko1_4612, [
   ⟨45, 4612, 0, (some 10), true, false, 161, 161, 1610,
    none,
    (some ⟨1, [83, 101, 84, 121], [9, 12, 6, 7], 3, [5, 8]⟩), [], [66, 68, 71, 87, 92], [161]⟩,
   ⟨45, 4612, 1, (some 1), true, false, 166, 166, 1660,
    (some ⟨0, 164, 1610, [83, 101, 84, 121]⟩),
    (some ⟨2, [77, 144, 119, 40, 86, 142, 87, 126, 30, 90, 91, 92, 93, 127], [11, 9, 8, 7, 13, 7, 7, 9, 15, 13, 9, 5, 7, 20], 14, [31, 34, 43]⟩), [5, 8], [16, 2], [164]⟩,
   ⟨45, 4612, 2, (some 38), true, false, 182, 182, 1820,
    (some ⟨1, 180, 1660, [77, 144, 119, 40, 86, 142, 87, 126, 30, 90, 91, 92, 93, 127]⟩),
    none, [31, 34, 43], [], [180]⟩]),
  (train_ko1_34, [
   ⟨46, 34, 0, (some 14), true, false, 166, 166, 1660,
    none,
    (some ⟨1, [83, 101, 84, 121], [9, 19, 8, 8], 4, [5, 8]⟩), [], [61, 64, 69, 71, 87, 92], [166]⟩,
   ⟨46, 34, 1, (some 1), true, false, 172, 172, 1720,
    (some ⟨0, 170, 1660, [83, 101, 84, 121]⟩),
    (some ⟨2, [77, 144, 119, 40, 86, 142, 87, 126, 30, 90, 91, 92, 93, 127], [15, 14, 8, 14, 13, 13, 7, 9, 15, 13, 9, 5, 7, 20], 16, [31, 33, 41]⟩), [5, 8], [16, 2], [170]⟩,
   ⟨46, 34, 2, (some 35), false, true, 188, 188, 1880,
    (some ⟨1, 188, 1720, [77, 144, 119, 40, 86, 142, 87, 126, 30, 90, 91, 92, 93, 127]⟩),
    none, [31, 33, 41], [], [188]⟩]),
  (train_ko1_114, [
   ⟨47, 114, 0, (some 16), true, false, 171, 171, 1710,
    none,
    (some ⟨1, [83, 101, 84, 121], [9, 19, 8, 10], 5, [5, 8, 9]⟩), [], [62, 64, 69, 71, 87, 92], [171]⟩,
   ⟨47, 114, 1, (some 3), true, false, 178, 178, 1780,
    (some ⟨0, 176, 1710, [83, 101, 84, 121]⟩),
    none, [5, 8, 9], [], [176]⟩]),
  (train_ko1_36, [
   ⟨48, 36, 0, (some 14), true, false, 176, 176, 1760,
    none,
    (some ⟨1, [83, 101, 84, 121], [9, 19, 8, 8], 4, [5, 8]⟩), [], [61, 64, 69, 71, 87, 92], [176]⟩,
   ⟨48, 36, 1, (some 1), true, false, 182, 182, 1820,
    (some ⟨0, 180, 1760, [83, 101, 84, 121]⟩),
    (some ⟨2, [77, 144, 119, 40, 86, 142, 87, 126, 30, 90, 91, 92, 93, 127], [15, 14, 8, 14, 13, 13, 7, 9, 15, 13, 9, 5, 7, 20], 16, [31, 33, 41]⟩), [5, 8], [16, 2], [180]⟩,
   ⟨48, 36, 2, (some 35), false, true, 198, 198, 1980,
    (some ⟨1, 198, 1820, [77, 144, 119, 40, 86, 142, 87, 126, 30, 90, 91, 92, 93, 127]⟩),
    none, [31, 33, 41], [], [198]⟩]),
  (train_ko1_27, [
   ⟨49, 27, 2, (some 34), true, false, 113, 114, 1140,
    none,
    (some ⟨1, [78, 79, 80, 81, 120, 31, 94, 95, 143, 128, 41, 85, 145, 125], [18, 7, 6, 8, 12, 20, 23, 5, 19, 11, 16, 11, 17, 9], 18, [17, 19]⟩), [], [30, 22], [113]⟩,
   ⟨49, 27, 1, (some 2), true, false, 135, 135, 1350,
    (some ⟨2, 132, 1140, [78, 79, 80, 81, 120, 31, 94, 95, 143, 128, 41, 85, 145, 125]⟩),
    (some ⟨0, [76, 130, 133, 122], [8, 12, 22, 10], 5, [82, 84, 86, 89, 91]⟩), [17, 19], [9, 7, 6], [132]⟩,
   ⟨49, 27, 0, (some 15), false, true, 140, 140, 1400,
    (some ⟨1, 140, 1350, [76, 130, 133, 122]⟩),
    none, [82, 84, 86, 89, 91], [], [140]⟩]),
  (train_ko1_111, [
   ⟨50, 111, 1, (some 4), true, false, 149, 151, 1510,
    none,
    (some ⟨0, [76, 130, 133, 122], [8, 12, 22, 10], 5, [82, 84, 86, 89, 91]⟩), [], [7, 6], [149]⟩,
   ⟨50, 111, 0, (some 39), false, true, 154, 156, 1560,
    (some ⟨1, 156, 1510, [76, 130, 133, 122]⟩),
    none, [82, 84, 86, 89, 91], [], [156]⟩]),
  (train_ko1_31, [
   ⟨51, 31, 2, (some 34), true, false, 128, 128, 1280,
    none,
    (some ⟨1, [78, 79, 80, 81, 120, 31, 94, 95, 143, 128, 41, 85, 145, 125], [18, 7, 6, 8, 12, 20, 23, 5, 19, 11, 16, 11, 17, 9], 18, [17, 19]⟩), [], [30, 22], [128]⟩,
   ⟨51, 31, 1, (some 2), true, false, 148, 148, 1480,
    (some ⟨2, 146, 1280, [78, 79, 80, 81, 120, 31, 94, 95, 143, 128, 41, 85, 145, 125]⟩),
    (some ⟨0, [76, 130, 133, 122], [8, 12, 22, 10], 5, [82, 84, 86, 89, 91]⟩), [17, 19], [9, 7, 6], [146]⟩,
   ⟨51, 31, 0, (some 15), false, true, 153, 153, 1530,
    (some ⟨1, 153, 1480, [76, 130, 133, 122]⟩),
    none, [82, 84, 86, 89, 91], [], [153]⟩]),
  (train_ko1_6411, [
   ⟨52, 6411, 2, (some 33), true, false, 142, 145, 1450,
    none,
    (some ⟨1, [78, 79, 80, 81, 120, 31, 94, 95, 143, 128, 41, 85, 145, 125], [18, 7, 6, 8, 12, 20, 23, 5, 9, 11, 6, 11, 7, 9], 15, [17, 19]⟩), [], [36, 30, 22], [142]⟩,
   ⟨52, 6411, 1, (some 2), true, false, 157, 164, 1640,
    (some ⟨2, 160, 1450, [78, 79, 80, 81, 120, 31, 94, 95, 143, 128, 41, 85, 145, 125]⟩),
    (some ⟨0, [76, 130, 133, 122], [6, 10, 12, 10], 4, [81, 85, 88, 91]⟩), [17, 19], [9, 7, 6], [160]⟩,
   ⟨52, 6411, 0, (some 13), false, true, 161, 168, 1680,
    (some ⟨1, 168, 1640, [76, 130, 133, 122]⟩),
    none, [81, 85, 88, 91], [], [168]⟩]),
  (train_ko1_33, [
   ⟨53, 33, 2, (some 34), true, false, 138, 138, 1380,
    none,
    (some ⟨1, [78, 79, 80, 81, 120, 31, 94, 95, 143, 128, 41, 85, 145, 125], [18, 7, 6, 8, 12, 20, 23, 5, 19, 11, 16, 11, 17, 9], 18, [17, 19]⟩), [], [30, 22], [138]⟩,
   ⟨53, 33, 1, (some 2), true, false, 160, 160, 1600,
    (some ⟨2, 156, 1380, [78, 79, 80, 81, 120, 31, 94, 95, 143, 128, 41, 85, 145, 125]⟩),
    (some ⟨0, [76, 130, 133, 122], [8, 12, 22, 10], 5, [82, 84, 86, 89, 91]⟩), [17, 19], [9, 7, 6], [156]⟩,
   ⟨53, 33, 0, (some 15), false, true, 165, 165, 1650,
    (some ⟨1, 165, 1600, [76, 130, 133, 122]⟩),
    none, [82, 84, 86, 89, 91], [], [165]⟩]),
  (train_ko1_35, [
   ⟨54, 35, 2, (some 34), true, false, 143, 149, 1490,
    none,
    (some ⟨1, [78, 79, 80, 81, 120, 31, 94, 95, 143, 128, 41, 85, 145, 125], [18, 7, 6, 8, 12, 20, 23, 5, 19, 11, 16, 11, 17, 9], 18, [17, 19]⟩), [], [30, 22], [143]⟩,
   ⟨54, 35, 1, (some 2), true, false, 165, 169, 1690,
    (some ⟨2, 167, 1490, [78, 79, 80, 81, 120, 31, 94, 95, 143, 128, 41, 85, 145, 125]⟩),
    (some ⟨0, [76, 130, 133, 122], [8, 12, 22, 10], 5, [82, 84, 86, 89, 91]⟩), [17, 19], [9, 7, 6], [167]⟩,
   ⟨54, 35, 0, (some 15), false, true, 170, 174, 1740,
    (some ⟨1, 174, 1690, [76, 130, 133, 122]⟩),
    none, [82, 84, 86, 89, 91], [], [174]⟩]),
  (train_ko1_113, [
   ⟨55, 113, 1, (some 4), true, false, 171, 172, 1720,
    none,
    (some ⟨0, [76, 130, 133, 122], [8, 12, 22, 10], 5, [82, 84, 86, 89, 91]⟩), [], [7, 6], [171]⟩,
   ⟨55, 113, 0, (some 39), false, true, 176, 177, 1770,
    (some ⟨1, 177, 1720, [76, 130, 133, 122]⟩),
    none, [82, 84, 86, 89, 91], [], [177]⟩]),
  (train_ko1_37, [
   ⟨56, 37, 2, (some 34), true, false, 153, 153, 1530,
    none,
    (some ⟨1, [78, 79, 80, 81, 120, 31, 94, 95, 143, 128, 41, 85, 145, 125], [18, 7, 6, 8, 12, 20, 23, 5, 19, 11, 16, 11, 17, 9], 18, [17, 19]⟩), [], [30, 22], [153]⟩,
   ⟨56, 37, 1, (some 2), true, false, 175, 175, 1750,
    (some ⟨2, 171, 1530, [78, 79, 80, 81, 120, 31, 94, 95, 143, 128, 41, 85, 145, 125]⟩),
    (some ⟨0, [76, 130, 133, 122], [8, 12, 22, 10], 5, [82, 84, 86, 89, 91]⟩), [17, 19], [9, 7, 6], [171]⟩,
   ⟨56, 37, 0, (some 15), false, true, 180, 180, 1800,
    (some ⟨1, 180, 1750, [76, 130, 133, 122]⟩),
    none, [82, 84, 86, 89, 91], [], [180]⟩]),
  (train_ko1_6413, [
   ⟨57, 6413, 2, (some 33), true, false, 164, 164, 1640,
    none,
    (some ⟨1, [78, 79, 80, 81, 120, 31, 94, 95, 143, 128, 41, 85, 145, 125], [18, 7, 6, 8, 12, 20, 23, 5, 9, 11, 6, 11, 7, 9], 15, [17, 19]⟩), [], [36, 30, 22], [164]⟩,
   ⟨57, 6413, 1, (some 2), true, false, 179, 179, 1790,
    (some ⟨2, 179, 1640, [78, 79, 80, 81, 120, 31, 94, 95, 143, 128, 41, 85, 145, 125]⟩),
    (some ⟨0, [76, 130, 133, 122], [6, 10, 12, 10], 4, [81, 85, 88, 91]⟩), [17, 19], [9, 7, 6], [179]⟩,
   ⟨57, 6413, 0, (some 13), false, true, 183, 183, 1830,
    (some ⟨1, 183, 1790, [76, 130, 133, 122]⟩),
    none, [81, 85, 88, 91], [], [183]⟩]),
  (train_ko1_41, [
   ⟨58, 41, 2, (some 34), true, false, 173, 173, 1730,
    none,
    (some ⟨1, [78, 79, 80, 81, 120, 31, 94, 95, 143, 128, 41, 85, 145, 125], [18, 7, 6, 8, 12, 20, 23, 5, 19, 11, 16, 11, 17, 9], 18, [17, 19]⟩), [], [30, 22], [173]⟩,
   ⟨58, 41, 1, (some 2), true, false, 193, 193, 1930,
    (some ⟨2, 191, 1730, [78, 79, 80, 81, 120, 31, 94, 95, 143, 128, 41, 85, 145, 125]⟩),
    (some ⟨0, [76, 130, 133, 122], [8, 12, 22, 10], 5, [82, 84, 86, 89, 91]⟩), [17, 19], [9, 7, 6], [191]⟩,
   ⟨58, 41, 0, (some 15), false, true, 198, 198, 1980,
    (some ⟨1, 198, 1930, [76, 130, 133, 122]⟩),
    none, [82, 84, 86, 89, 91], [], [198]⟩])]

theorem ko1n7Plan_sections : ko1n7Plan.map Prod.fst = ko1 := rfl

theorem ko1n7Plan_ok : netKo.PlanOK "14:00" ko1n7Delays 40 netKoSpecial ko1n7Plan :=
  ko1Plan_ok.again rfl (by decide +kernel) (by decide +kernel) (by decide +kernel) (by decide +kernel)

theorem ko1n7_cost : netKo.costOK ko1n7Plan 162 = true := by decide +kernel

/-- the departures: train and station -/
def ko1n7Nodes : List (Nat × Nat) := [
  (14, 2), (36, 2), (38, 2), (49, 2), (54, 2), (56, 2), (29, 1), (18, 1), (36, 1), (34, 2),
  (56, 1), (52, 2), (53, 2), (52, 1), (53, 1), (12, 2), (13, 2), (13, 1), (14, 1), (34, 1),
  (35, 1), (6, 0), (7, 0), (7, 1), (11, 1), (10, 1), (54, 1), (37, 2), (38, 1), (55, 1), (43, 0),
  (42, 0), (42, 1), (37, 1), (23, 0), (22, 0), (22, 1), (23, 1), (26, 0), (27, 0), (27, 1),
  (26, 1), (43, 1), (51, 1), (50, 1), (6, 1), (6, 2), (49, 1), (12, 1), (29, 2), (18, 2)]

/-- the choices -/
def ko1n7Choices : List CodedNet.Choice := [
  .first 13 14 2, .first 18 29 2, .first 34 36 2, .first 36 38 2, .first 38 49 2, .first 53 54 2,
  .first 54 56 2, .first 18 29 1, .first 34 36 1, .first 54 56 1, .first 53 52 2, .first 53 52 1,
  .first 13 12 2, .first 35 34 1, .first 7 6 1, .first 7 6 0, .first 10 11 1, .first 54 52 1,
  .first 54 52 2, .first 36 37 2, .first 55 54 1, .first 42 43 0, .first 35 37 1, .first 35 36 1,
  .first 22 23 0, .first 27 26 0, .first 36 37 1, .first 50 51 1, .against 27 36 0 1,
  .against 42 51 0 1, .first 13 12 1, .first 12 14 1, .first 12 14 2]

/-- the inequalities -/
def ko1n7Arcs : ArcTree :=
  .node ⟨.track, 2, 1, 0, 0, 18, false⟩ (.node ⟨.track, 6, 2, 0, 0, 91, false⟩ (.node
  ⟨.track, 10, 4, 0, 0, 110, false⟩ (.node ⟨.track, 18, 9, 10, 0, 18, false⟩ (.node
  ⟨.track, 24, 14, 13, 0, 18, false⟩ (.node ⟨.run, 0, 3, 29, 20, 0, false⟩ (.node
  ⟨.run, 0, 22, 46, 5, 0, false⟩ .none .none) .none) (.node ⟨.track, 54, 34, 2, 0, 18, false⟩
  (.node ⟨.track, 61, 18, 16, 0, 15, false⟩ .none .none) .none)) (.node
  ⟨.follow, 32, 22, 23, 2, 0, false⟩ (.node ⟨.follow, 50, 35, 36, 3, 0, false⟩ (.node
  ⟨.leave, 58, 9, 40, 0, 4, false⟩ .none .none) .none) (.node ⟨.follow, 41, 30, 27, 3, 0, false⟩
  (.node ⟨.track, 3, 51, 0, 0, 53, false⟩ .none .none) .none))) (.node
  ⟨.follow, 22, 12, 13, 4, 0, false⟩ (.node ⟨.run, 0, 17, 18, 20, 0, false⟩ (.node
  ⟨.follow, 46, 34, 21, 2, 0, false⟩ (.node ⟨.follow, 17, 20, 9, 3, 0, false⟩ .none .none) .none)
  (.node ⟨.follow, 43, 32, 31, 3, 0, false⟩ (.node ⟨.follow, 65, 16, 1, 4, 0, false⟩ .none .none)
  .none)) (.node ⟨.run, 0, 5, 27, 20, 0, false⟩ (.node ⟨.follow, 52, 39, 40, 3, 0, false⟩ (.node
  ⟨.follow, 25, 17, 16, 5, 0, false⟩ .none .none) .none) (.node ⟨.follow, 35, 27, 14, 4, 0, false⟩
  .none .none)))) (.node ⟨.track, 14, 6, 0, 0, 143, false⟩ (.node ⟨.track, 20, 11, 5, 0, 18, false⟩
  (.node ⟨.track, 23, 15, 12, 0, 15, false⟩ (.node ⟨.follow, 44, 31, 32, 3, 0, false⟩ (.node
  ⟨.run, 0, 46, 47, 15, 0, false⟩ .none .none) .none) (.node ⟨.run, 0, 28, 34, 15, 0, false⟩ (.node
  ⟨.track, 63, 49, 1, 0, 18, false⟩ .none .none) .none)) (.node ⟨.follow, 34, 25, 26, 3, 0, false⟩
  (.node ⟨.follow, 49, 36, 35, 3, 0, false⟩ (.node ⟨.come, 57, 40, 9, 6, 0, false⟩ .none .none)
  .none) (.node ⟨.track, 36, 14, 5, 0, 18, false⟩ .none .none))) (.node
  ⟨.follow, 21, 13, 12, 5, 0, false⟩ (.node ⟨.run, 0, 1, 19, 20, 0, false⟩ (.node
  ⟨.follow, 45, 21, 34, 4, 0, false⟩ (.node ⟨.run, 0, 4, 48, 20, 0, false⟩ .none .none) .none)
  (.node ⟨.follow, 56, 44, 45, 3, 0, false⟩ (.node ⟨.run, 0, 51, 8, 20, 0, false⟩ .none .none)
  .none)) (.node ⟨.run, 0, 2, 9, 20, 0, false⟩ (.node ⟨.follow, 51, 40, 39, 3, 0, false⟩ (.node
  ⟨.track, 62, 49, 17, 0, 18, false⟩ .none .none) .none) (.node ⟨.track, 30, 46, 23, 0, 4, false⟩
  .none .none))))) (.node ⟨.track, 8, 3, 0, 0, 93, false⟩ (.node ⟨.track, 12, 5, 0, 0, 138, false⟩
  (.node ⟨.track, 5, 10, 0, 0, 93, false⟩ (.node ⟨.follow, 23, 15, 14, 4, 0, false⟩ (.node
  ⟨.follow, 42, 27, 30, 3, 0, false⟩ (.node ⟨.follow, 29, 24, 46, 5, 0, false⟩ .none .none) .none)
  (.node ⟨.follow, 39, 2, 28, 5, 0, false⟩ (.node ⟨.follow, 64, 19, 49, 4, 0, false⟩ .none .none)
  .none)) (.node ⟨.run, 0, 23, 24, 6, 0, false⟩ (.node ⟨.run, 0, 36, 37, 7, 0, false⟩ (.node
  ⟨.leave, 60, 44, 32, 0, 4, false⟩ .none .none) .none) (.node ⟨.follow, 19, 27, 11, 3, 0, false⟩
  .none .none))) (.node ⟨.track, 11, 13, 0, 0, 143, false⟩ (.node ⟨.follow, 1, 17, 1, 4, 0, false⟩
  (.node ⟨.follow, 48, 9, 21, 3, 0, false⟩ (.node ⟨.follow, 9, 3, 4, 4, 0, false⟩ .none .none)
  .none) (.node ⟨.run, 0, 31, 43, 6, 0, false⟩ (.node ⟨.follow, 4, 50, 51, 4, 0, false⟩ .none
  .none) .none)) (.node ⟨.follow, 40, 28, 2, 4, 0, false⟩ (.node ⟨.run, 0, 40, 41, 7, 0, false⟩
  (.node ⟨.run, 0, 16, 49, 15, 0, false⟩ .none .none) .none) (.node
  ⟨.follow, 33, 26, 25, 3, 0, false⟩ .none .none)))) (.node ⟨.follow, 16, 7, 8, 3, 0, false⟩ (.node
  ⟨.track, 13, 5, 0, 0, 153, false⟩ (.node ⟨.follow, 26, 16, 17, 4, 0, false⟩ (.node
  ⟨.run, 0, 32, 33, 7, 0, false⟩ (.node ⟨.follow, 27, 21, 20, 3, 0, false⟩ .none .none) .none)
  (.node ⟨.follow, 53, 9, 34, 4, 0, false⟩ (.node ⟨.follow, 66, 1, 16, 5, 0, false⟩ .none .none)
  .none)) (.node ⟨.follow, 38, 12, 5, 4, 0, false⟩ (.node ⟨.run, 0, 35, 38, 6, 0, false⟩ (.node
  ⟨.come, 59, 32, 44, 6, 0, false⟩ .none .none) .none) (.node ⟨.follow, 37, 5, 12, 5, 0, false⟩
  .none .none))) (.node ⟨.run, 0, 12, 14, 15, 0, false⟩ (.node ⟨.follow, 28, 20, 21, 3, 0, false⟩
  (.node ⟨.follow, 47, 21, 9, 3, 0, false⟩ (.node ⟨.follow, 36, 14, 27, 2, 0, false⟩ .none .none)
  .none) (.node ⟨.follow, 55, 45, 44, 3, 0, false⟩ (.node ⟨.track, 15, 8, 50, 0, 18, false⟩ .none
  .none) .none)) (.node ⟨.follow, 7, 2, 3, 4, 0, false⟩ (.node ⟨.run, 0, 39, 42, 6, 0, false⟩
  (.node ⟨.follow, 61, 18, 49, 4, 0, false⟩ .none .none) .none) (.node
  ⟨.follow, 31, 23, 22, 3, 0, false⟩ .none .none)))))

/-- the bounds of the departures -/
def ko1n7Times : TimeTree :=
  .node 2 0 2 (.node 25 0 65 (.node 112 0 152 (.node 77 4 117 (.node 162 4 202 (.node 142 0 182
  .none .none) (.node 65 6 105 .none .none)) (.node 45 0 85 (.node 112 0 152 .none .none) .none))
  (.node 177 4 217 (.node 47 4 87 (.node 85 0 125 .none .none) (.node 58 0 98 .none .none)) (.node
  167 4 207 (.node 148 4 188 .none .none) .none))) (.node 145 0 185 (.node 117 4 157 (.node 20 0 60
  (.node 148 4 188 .none .none) (.node 36 6 76 .none .none)) (.node 27 4 67 (.node 117 4 157 .none
  .none) .none)) (.node 140 0 180 (.node 113 4 153 (.node 90 4 130 .none .none) .none) (.node 132 4
  172 (.node 151 4 191 .none .none) .none)))) (.node 95 0 135 (.node 115 0 155 (.node 78 4 118
  (.node 21 0 61 (.node 141 0 181 .none .none) (.node 137 4 177 .none .none)) (.node 51 4 91 (.node
  110 0 150 .none .none) .none)) (.node 144 0 184 (.node 113 4 153 (.node 83 0 123 .none .none)
  .none) (.node 106 0 146 (.node 150 4 190 .none .none) .none))) (.node 155 0 195 (.node 93 0 133
  (.node 42 4 82 (.node 121 6 161 .none .none) (.node 55 0 95 .none .none)) (.node 28 4 68 (.node
  118 4 158 .none .none) .none)) (.node 159 6 199 (.node 45 0 85 (.node 91 4 131 .none .none)
  .none) (.node 173 4 213 (.node 50 0 90 .none .none) .none))))

/-- some of the cases -/
def ko1n7Case0 : SumTree :=
  .cases [] 30 (.cases [78, 79] 31 (.cases [] 32 (.cases [83, 21] 14 (.leaf [64, 65]) (.cases [] 20
  (.leaf [55]) (.cases [] 18 (.cases [] 17 (.cases [59] 15 (.cycle 46 [61, 62, 63]) (.leaf
  [23, 24])) (.cycle 14 [57, 58, 14])) (.cases [26, 27, 32] 15 (.cycle 46 [61, 62, 63]) (.cases
  [23, 24] 24 (.cases [41, 42] 25 (.leaf [45, 46]) (.leaf [43, 44])) (.leaf [39, 40])))))) (.cycle
  49 [81, 82, 76])) (.cases [80] 14 (.leaf [64, 65]) (.cases [] 17 (.leaf [59]) (.cases [70] 15
  (.cycle 46 [61, 62, 63]) (.cases [23, 24] 25 (.cases [45, 46] 21 (.leaf [51, 52]) (.leaf
  [33, 34])) (.leaf [43, 44])))))) (.cycle 17 [75, 76, 77])

/-- some of the cases -/
def ko1n7Case1 : SumTree :=
  .cases [66, 67] 26 (.cases [50] 14 (.cases [64, 65] 17 (.leaf [59]) (.cases [70] 28 (.cases [] 29
  (.cases [] 25 (.cases [45, 46] 21 (.cases [51, 52] 16 (.leaf [60]) (.leaf [25])) (.leaf
  [33, 34, 74])) (.leaf [43, 73, 50])) (.leaf [72, 34])) (.leaf [71, 44]))) (.cases [] 15 (.cycle
  46 [61, 62, 63]) (.cases [23, 24] 17 (.cases [59] 21 (.cases [51, 52] 24 (.cases [41, 42] 25
  (.cases [45, 46] 16 (.leaf [60]) (.leaf [25])) (.leaf [43, 44])) (.leaf [39, 40])) (.cases
  [33, 34] 24 (.cases [41, 42] 25 (.leaf [45, 46]) (.leaf [43, 44])) (.leaf [39, 40]))) (.cases []
  18 (.cycle 14 [57, 58, 14]) (.cases [26, 27] 21 (.cases [51, 52] 16 (.cases [60] 25 (.cases
  [45, 46] 27 (.leaf [54]) (.leaf [53])) (.leaf [43, 44])) (.cases [25] 24 (.cases [41, 42] 25
  (.cases [45, 46] 27 (.leaf [54]) (.cases [53] 20 (.leaf [55]) (.leaf [32]))) (.leaf [43, 44]))
  (.leaf [39, 40]))) (.cases [33, 34] 25 (.cases [45, 46] 16 (.leaf [60]) (.cases [25] 27 (.leaf
  [54]) (.leaf [53]))) (.leaf [43, 44]))))))) (.cases [] 17 (.cases [59] 19 (.cycle 34
  [47, 48, 49]) (.leaf [28, 29])) (.cases [] 18 (.cycle 14 [57, 58, 14]) (.cases [26, 27] 19
  (.cycle 34 [47, 48, 49]) (.leaf [28, 29, 30, 31, 68, 69]))))

/-- some of the cases -/
def ko1n7Case2 : SumTree :=
  .cases [64, 65] 17 (.cases [59] 24 (.cases [41, 42] 25 (.cases [45, 46] 21 (.leaf [51, 52])
  (.leaf [33, 34])) (.leaf [43, 44])) (.leaf [39, 40])) (.cases [] 18 (.cycle 14 [57, 58, 14])
  (.cases [26, 27] 22 (.cases [] 21 (.cases [51, 52] 25 (.cases [45, 46] 16 (.leaf [60]) (.cases
  [25] 23 (.leaf [38]) (.leaf [36]))) (.leaf [43, 44])) (.cases [33, 34] 25 (.cases [45, 46] 16
  (.leaf [60]) (.leaf [25])) (.leaf [43, 44]))) (.leaf [35])))

/-- some of the cases -/
def ko1n7Case3 : SumTree :=
  .cases [] 15 (.cycle 46 [61, 62, 63]) (.cases [23, 24] 16 (.cases [60] 21 (.cases [51, 52] 19
  (.cases [] 17 (.cases [59] 25 (.cases [45, 46] 23 (.cases [38] 26 (.leaf [50]) (.cycle 34
  [47, 48, 49])) (.leaf [36])) (.leaf [43, 44])) (.cases [] 18 (.cycle 14 [57, 58, 14]) (.cases
  [26, 27] 23 (.cases [38] 26 (.cases [50] 25 (.cases [45, 46] 27 (.leaf [54]) (.leaf [53])) (.leaf
  [43, 44])) (.cycle 34 [47, 48, 49])) (.cases [36] 25 (.cases [45, 46] 22 (.leaf [37]) (.leaf
  [35])) (.leaf [43, 44]))))) (.leaf [28, 29])) (.cases [33, 34] 19 (.cases [] 17 (.cases [59] 25
  (.cases [45, 46] 23 (.leaf [38]) (.leaf [36])) (.leaf [43, 44])) (.cases [] 18 (.cycle 14
  [57, 58, 14]) (.cases [26, 27] 22 (.cases [] 26 (.cases [] 23 (.cases [38, 50] 24 (.leaf
  [41, 42]) (.leaf [39, 40])) (.leaf [36, 37])) (.cycle 34 [47, 48, 49])) (.leaf [35])))) (.leaf
  [28, 29]))) (.cases [25] 17 (.cases [59] 19 (.cases [] 21 (.cases [51, 52] 22 (.cases [] 23
  (.cases [38] 24 (.cases [41, 42] 25 (.cases [45, 46] 26 (.leaf [50]) (.cycle 34 [47, 48, 49]))
  (.leaf [43, 44])) (.leaf [39, 40])) (.leaf [36, 37])) (.leaf [35])) (.cases [33, 34] 25 (.cases
  [45, 46] 23 (.cases [38] 26 (.leaf [50]) (.cycle 34 [47, 48, 49])) (.leaf [36])) (.leaf
  [43, 44]))) (.leaf [28, 29])) (.cases [] 18 (.cycle 14 [57, 58, 14]) (.cases [26, 27] 19 (.cases
  [] 20 (.cases [55, 56] 25 (.cases [45, 46] 21 (.cases [51, 52] 23 (.leaf [38]) (.leaf [36]))
  (.leaf [33, 34])) (.leaf [43, 44])) (.cases [32] 21 (.cases [51, 52] 23 (.cases [38] 26 (.cases
  [50] 24 (.cases [41, 42] 25 (.cases [45, 46] 27 (.leaf [54]) (.leaf [53])) (.leaf [43, 44]))
  (.leaf [39, 40])) (.cycle 34 [47, 48, 49])) (.cases [36] 24 (.cases [41, 42] 25 (.cases [45, 46]
  22 (.leaf [37]) (.leaf [35])) (.leaf [43, 44])) (.leaf [39, 40]))) (.cases [33, 34] 22 (.cases []
  23 (.cases [38] 24 (.cases [41, 42] 25 (.cases [45, 46] 26 (.leaf [50]) (.cycle 34 [47, 48, 49]))
  (.leaf [43, 44])) (.leaf [39, 40])) (.leaf [36, 37])) (.leaf [35])))) (.leaf
  [28, 29, 30, 31])))))

/-- all cases -/
def ko1n7Cases : SumTree :=
  .cases [] 0 (.cases [] 1 (.leaf [87]) (.cases [] 2 (.cases [] 3 (.cases [] 4 (.cases [] 5 (.cases
  [] 6 (.cases [] 7 (.cycle 50 [84, 85, 86]) (.cases [6] 8 (.cases [] 9 (.cases [] 10 (.cases [] 11
  (.cases [16, 17] 12 ko1n7Case0 (.cases [18, 19, 20, 21] 13 ko1n7Case1 (.cases [22] 14 ko1n7Case2
  ko1n7Case3))) (.cycle 13 [13, 14, 15])) (.leaf [11, 12])) (.leaf [9, 10])) (.leaf [7, 8])))
  (.leaf [5])) (.leaf [4])) (.leaf [3])) (.leaf [2])) (.leaf [1]))) (.leaf [0])

theorem ko1n7_cases : ko1n7Cases.check ko1n7Arcs 162 ko1n7Choices.length [] ko1n7Times 0 = true := by
  decide +kernel

theorem ko1n7_choices : ko1n7Choices.all (CodedNet.Choice.ok netKo netKoSpecial ko1n7Plan) = true := by
  decide +kernel

theorem ko1n7_arcs : ko1n7Arcs.toList.all
    (netKo.arcOK netKoSpecial ko1n7Plan ko1n7Nodes ko1n7Choices) = true := by decide +kernel

theorem ko1n7_times : netKo.startOK ko1n7Plan ko1n7Nodes 2 40 ko1n7Times = true := by decide +kernel

end Verif.Real
