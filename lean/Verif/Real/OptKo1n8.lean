import Verif.Proofs.PlanSum
import Verif.Proofs.PlanAgain
import Verif.Real.PlanKo1

/-!
# The sheet of `Verif.Real.Ko1` with given delays: a plan, and that no plan is better

Generated; see `CodedNet.Item` and `Verif/Proofs/SumTree.lean`. Case 1,
`disturbances[8]`, of `/repo/solve_KO_GLC_problems.py`, line 112;
`d_max` is 40. The sum of the delays that count is 342/4.
-/

namespace Verif.Real

set_option maxRecDepth 100000

/-- the given delays -/
def ko1n8Delays : List (Int × ℚ) := [
  (1, 3), (2, 5), (3, 7), (4, 25), (5, 8), (6, 12), (7, 17), (23, 4), (25, 3), (24, 8), (10, 4),
  (6401, 3), (6403, 7), (101, 8)]

/-- the plan, items by sections -/
def ko1n8Plan : CodedNet.Plan := [
  (train_ko1_2, [
   ⟨0, 2, 0, (some 14), true, false, 5, 5, 50,
    none,
    (some ⟨1, [83, 101, 84, 121], [9, 19, 8, 8], 4, [5, 8]⟩), [], [61, 64, 69, 71, 87, 92], [5]⟩,
   ⟨0, 2, 1, (some 1), true, false, 11, 11, 110,
    (some ⟨0, 9, 50, [83, 101, 84, 121]⟩),
    (some ⟨2, [77, 144, 119, 40, 86, 142, 87, 126, 30, 90, 91, 92, 93, 127], [15, 14, 8, 14, 13, 13, 7, 9, 15, 13, 9, 5, 7, 20], 16, [31, 33, 41]⟩), [5, 8], [16, 2], [9]⟩,
   ⟨0, 2, 2, (some 35), false, true, 27, 27, 270,
    (some ⟨1, 27, 110, [77, 144, 119, 40, 86, 142, 87, 126, 30, 90, 91, 92, 93, 127]⟩),
    none, [31, 33, 41], [], [27]⟩]),
  (train_ko1_4602, [
   ⟨1, 4602, 0, (some 10), true, false, 12, 12, 120,
    none,
    (some ⟨1, [83, 101, 84, 121], [9, 12, 6, 7], 3, [5, 8]⟩), [], [66, 68, 71, 87, 92], [12]⟩,
   ⟨1, 4602, 1, (some 1), true, false, 17, 17, 170,
    (some ⟨0, 15, 120, [83, 101, 84, 121]⟩),
    (some ⟨2, [77, 144, 119, 40, 86, 142, 87, 126, 30, 90, 91, 92, 93, 127], [11, 9, 8, 7, 13, 7, 7, 9, 15, 13, 9, 5, 7, 20], 14, [31, 34, 43]⟩), [5, 8], [16, 2], [15]⟩,
   ⟨1, 4602, 2, (some 38), true, false, 32, 32, 320,
    (some ⟨1, 31, 170, [77, 144, 119, 40, 86, 142, 87, 126, 30, 90, 91, 92, 93, 127]⟩),
    none, [31, 34, 43], [], [31]⟩]),
  (train_ko1_4, [
   ⟨2, 4, 0, (some 14), true, false, 35, 36, 360,
    none,
    (some ⟨1, [83, 101, 84, 121], [9, 19, 8, 8], 4, [5, 8]⟩), [], [61, 64, 69, 71, 87, 92], [35]⟩,
   ⟨2, 4, 1, (some 1), true, false, 41, 42, 420,
    (some ⟨0, 40, 360, [83, 101, 84, 121]⟩),
    (some ⟨2, [77, 144, 119, 40, 86, 142, 87, 126, 30, 90, 91, 92, 93, 127], [15, 14, 8, 14, 13, 13, 7, 9, 15, 13, 9, 5, 7, 20], 16, [31, 33, 41]⟩), [5, 8], [16, 2], [40]⟩,
   ⟨2, 4, 2, (some 35), false, true, 57, 58, 580,
    (some ⟨1, 58, 420, [77, 144, 119, 40, 86, 142, 87, 126, 30, 90, 91, 92, 93, 127]⟩),
    none, [31, 33, 41], [], [58]⟩]),
  (train_ko1_102, [
   ⟨3, 102, 0, (some 16), true, false, 50, 51, 510,
    none,
    (some ⟨1, [83, 101, 84, 121], [9, 19, 8, 10], 5, [5, 8, 9]⟩), [], [62, 64, 69, 71, 87, 92], [50]⟩,
   ⟨3, 102, 1, (some 3), true, false, 57, 58, 580,
    (some ⟨0, 56, 510, [83, 101, 84, 121]⟩),
    none, [5, 8, 9], [], [56]⟩]),
  (train_ko1_6, [
   ⟨4, 6, 0, (some 14), true, false, 32, 33, 330,
    none,
    (some ⟨1, [83, 101, 84, 121], [9, 19, 8, 8], 4, [5, 8]⟩), [], [61, 64, 69, 71, 87, 92], [32]⟩,
   ⟨4, 6, 1, (some 1), true, false, 38, 39, 390,
    (some ⟨0, 37, 330, [83, 101, 84, 121]⟩),
    (some ⟨2, [77, 144, 119, 40, 86, 142, 87, 126, 30, 90, 91, 92, 93, 127], [15, 14, 8, 14, 13, 13, 7, 9, 15, 13, 9, 5, 7, 20], 16, [31, 33, 41]⟩), [5, 8], [16, 2], [37]⟩,
   ⟨4, 6, 2, (some 35), false, true, 54, 55, 550,
    (some ⟨1, 55, 390, [77, 144, 119, 40, 86, 142, 87, 126, 30, 90, 91, 92, 93, 127]⟩),
    none, [31, 33, 41], [], [55]⟩]),
  (train_ko1_8, [
   ⟨5, 8, 0, (some 14), true, false, 30, 30, 300,
    none,
    (some ⟨1, [83, 101, 84, 121], [9, 19, 8, 8], 4, [5, 8]⟩), [], [61, 64, 69, 71, 87, 92], [30]⟩,
   ⟨5, 8, 1, (some 1), true, false, 36, 36, 360,
    (some ⟨0, 34, 300, [83, 101, 84, 121]⟩),
    (some ⟨2, [77, 144, 119, 40, 86, 142, 87, 126, 30, 90, 91, 92, 93, 127], [15, 14, 8, 14, 13, 13, 7, 9, 15, 13, 9, 5, 7, 20], 16, [31, 33, 41]⟩), [5, 8], [16, 2], [34]⟩,
   ⟨5, 8, 2, (some 35), false, true, 52, 52, 520,
    (some ⟨1, 52, 360, [77, 144, 119, 40, 86, 142, 87, 126, 30, 90, 91, 92, 93, 127]⟩),
    none, [31, 33, 41], [], [52]⟩]),
  (train_ko1_4604, [
   ⟨6, 4604, 0, (some 10), true, false, 62, 62, 620,
    none,
    (some ⟨1, [83, 101, 84, 121], [9, 12, 6, 7], 3, [5, 8]⟩), [], [66, 68, 71, 87, 92], [62]⟩,
   ⟨6, 4604, 1, (some 1), true, false, 67, 67, 670,
    (some ⟨0, 65, 620, [83, 101, 84, 121]⟩),
    (some ⟨2, [77, 144, 119, 40, 86, 142, 87, 126, 30, 90, 91, 92, 93, 127], [11, 9, 8, 7, 13, 7, 7, 9, 15, 13, 9, 5, 7, 20], 14, [31, 34, 43]⟩), [5, 8], [16, 2], [65]⟩,
   ⟨6, 4604, 2, (some 38), true, false, 82, 82, 820,
    (some ⟨1, 81, 670, [77, 144, 119, 40, 86, 142, 87, 126, 30, 90, 91, 92, 93, 127]⟩),
    none, [31, 34, 43], [], [81]⟩]),
  (train_ko1_10, [
   ⟨7, 10, 0, (some 14), true, false, 44, 44, 440,
    none,
    (some ⟨1, [83, 101, 84, 121], [9, 19, 8, 8], 4, [5, 8]⟩), [], [61, 64, 69, 71, 87, 92], [44]⟩,
   ⟨7, 10, 1, (some 1), true, false, 50, 50, 500,
    (some ⟨0, 48, 440, [83, 101, 84, 121]⟩),
    (some ⟨2, [77, 144, 119, 40, 86, 142, 87, 126, 30, 90, 91, 92, 93, 127], [15, 14, 8, 14, 13, 13, 7, 9, 15, 13, 9, 5, 7, 20], 16, [31, 33, 41]⟩), [5, 8], [16, 2], [48]⟩,
   ⟨7, 10, 2, (some 35), false, true, 66, 66, 660,
    (some ⟨1, 66, 500, [77, 144, 119, 40, 86, 142, 87, 126, 30, 90, 91, 92, 93, 127]⟩),
    none, [31, 33, 41], [], [66]⟩]),
  (train_ko1_12, [
   ⟨8, 12, 0, (some 14), true, false, 55, 55, 550,
    none,
    (some ⟨1, [83, 101, 84, 121], [9, 19, 8, 8], 4, [5, 8]⟩), [], [61, 64, 69, 71, 87, 92], [55]⟩,
   ⟨8, 12, 1, (some 1), true, false, 61, 61, 610,
    (some ⟨0, 59, 550, [83, 101, 84, 121]⟩),
    (some ⟨2, [77, 144, 119, 40, 86, 142, 87, 126, 30, 90, 91, 92, 93, 127], [15, 14, 8, 14, 13, 13, 7, 9, 15, 13, 9, 5, 7, 20], 16, [31, 33, 41]⟩), [5, 8], [16, 2], [59]⟩,
   ⟨8, 12, 2, (some 35), false, true, 77, 77, 770,
    (some ⟨1, 77, 610, [77, 144, 119, 40, 86, 142, 87, 126, 30, 90, 91, 92, 93, 127]⟩),
    none, [31, 33, 41], [], [77]⟩]),
  (train_ko1_1, [
   ⟨9, 1, 2, (some 34), true, false, -4, -4, -40,
    none,
    (some ⟨1, [78, 79, 80, 81, 120, 31, 94, 95, 143, 128, 41, 85, 145, 125], [18, 7, 6, 8, 12, 20, 23, 5, 19, 11, 16, 11, 17, 9], 18, [17, 19]⟩), [], [30, 22], [-4]⟩,
   ⟨9, 1, 1, (some 2), true, false, 16, 16, 160,
    (some ⟨2, 14, -40, [78, 79, 80, 81, 120, 31, 94, 95, 143, 128, 41, 85, 145, 125]⟩),
    (some ⟨0, [76, 130, 133, 122], [8, 12, 22, 10], 5, [82, 84, 86, 89, 91]⟩), [17, 19], [9, 7, 6], [14]⟩,
   ⟨9, 1, 0, (some 15), false, true, 21, 21, 210,
    (some ⟨1, 21, 160, [76, 130, 133, 122]⟩),
    none, [82, 84, 86, 89, 91], [], [21]⟩]),
  (train_ko1_101, [
   ⟨10, 101, 1, (some 4), true, false, 32, 33, 330,
    none,
    (some ⟨0, [76, 130, 133, 122], [8, 12, 22, 10], 5, [82, 84, 86, 89, 91]⟩), [], [7, 6], [32]⟩,
   ⟨10, 101, 0, (some 39), false, true, 37, 38, 380,
    (some ⟨1, 38, 330, [76, 130, 133, 122]⟩),
    none, [82, 84, 86, 89, 91], [], [38]⟩]),
  (train_ko1_3, [
   ⟨11, 3, 2, (some 34), true, false, 10, 10, 100,
    none,
    (some ⟨1, [78, 79, 80, 81, 120, 31, 94, 95, 143, 128, 41, 85, 145, 125], [18, 7, 6, 8, 12, 20, 23, 5, 19, 11, 16, 11, 17, 9], 18, [17, 19]⟩), [], [30, 22], [10]⟩,
   ⟨11, 3, 1, (some 2), true, false, 30, 30, 300,
    (some ⟨2, 28, 100, [78, 79, 80, 81, 120, 31, 94, 95, 143, 128, 41, 85, 145, 125]⟩),
    (some ⟨0, [76, 130, 133, 122], [8, 12, 22, 10], 5, [82, 84, 86, 89, 91]⟩), [17, 19], [9, 7, 6], [28]⟩,
   ⟨11, 3, 0, (some 15), false, true, 35, 35, 350,
    (some ⟨1, 35, 300, [76, 130, 133, 122]⟩),
    none, [82, 84, 86, 89, 91], [], [35]⟩]),
  (train_ko1_6401, [
   ⟨12, 6401, 2, (some 33), true, false, 20, 20, 200,
    none,
    (some ⟨1, [78, 79, 80, 81, 120, 31, 94, 95, 143, 128, 41, 85, 145, 125], [18, 7, 6, 8, 12, 20, 23, 5, 9, 11, 6, 11, 7, 9], 15, [17, 19]⟩), [], [36, 30, 22], [20]⟩,
   ⟨12, 6401, 1, (some 2), true, false, 35, 37, 370,
    (some ⟨2, 35, 200, [78, 79, 80, 81, 120, 31, 94, 95, 143, 128, 41, 85, 145, 125]⟩),
    (some ⟨0, [76, 130, 133, 122], [6, 10, 12, 10], 4, [81, 85, 88, 91]⟩), [17, 19], [9, 7, 6], [35]⟩,
   ⟨12, 6401, 0, (some 13), false, true, 39, 41, 410,
    (some ⟨1, 41, 370, [76, 130, 133, 122]⟩),
    none, [81, 85, 88, 91], [], [41]⟩]),
  (train_ko1_5, [
   ⟨13, 5, 2, (some 34), true, false, 26, 26, 260,
    none,
    (some ⟨1, [78, 79, 80, 81, 120, 31, 94, 95, 143, 128, 41, 85, 145, 125], [18, 7, 6, 8, 12, 20, 23, 5, 19, 11, 16, 11, 17, 9], 18, [17, 19]⟩), [], [30, 22], [26]⟩,
   ⟨13, 5, 1, (some 2), true, false, 46, 46, 460,
    (some ⟨2, 44, 260, [78, 79, 80, 81, 120, 31, 94, 95, 143, 128, 41, 85, 145, 125]⟩),
    (some ⟨0, [76, 130, 133, 122], [8, 12, 22, 10], 5, [82, 84, 86, 89, 91]⟩), [17, 19], [9, 7, 6], [44]⟩,
   ⟨13, 5, 0, (some 15), false, true, 51, 51, 510,
    (some ⟨1, 51, 460, [76, 130, 133, 122]⟩),
    none, [82, 84, 86, 89, 91], [], [51]⟩]),
  (train_ko1_7, [
   ⟨14, 7, 2, (some 34), true, false, 40, 40, 400,
    none,
    (some ⟨1, [78, 79, 80, 81, 120, 31, 94, 95, 143, 128, 41, 85, 145, 125], [18, 7, 6, 8, 12, 20, 23, 5, 19, 11, 16, 11, 17, 9], 18, [17, 19]⟩), [], [30, 22], [40]⟩,
   ⟨14, 7, 1, (some 2), true, false, 60, 61, 610,
    (some ⟨2, 58, 400, [78, 79, 80, 81, 120, 31, 94, 95, 143, 128, 41, 85, 145, 125]⟩),
    (some ⟨0, [76, 130, 133, 122], [8, 12, 22, 10], 5, [82, 84, 86, 89, 91]⟩), [17, 19], [9, 7, 6], [58]⟩,
   ⟨14, 7, 0, (some 15), false, true, 65, 66, 660,
    (some ⟨1, 66, 610, [76, 130, 133, 122]⟩),
    none, [82, 84, 86, 89, 91], [], [66]⟩]),
  (train_ko1_103, [
   ⟨15, 103, 1, (some 4), true, false, 58, 58, 580,
    none,
    (some ⟨0, [76, 130, 133, 122], [8, 12, 22, 10], 5, [82, 84, 86, 89, 91]⟩), [], [7, 6], [58]⟩,
   ⟨15, 103, 0, (some 39), false, true, 63, 63, 630,
    (some ⟨1, 63, 580, [76, 130, 133, 122]⟩),
    none, [82, 84, 86, 89, 91], [], [63]⟩]),
  (train_ko1_9, [
   ⟨16, 9, 2, (some 34), true, false, 33, 33, 330,
    none,
    (some ⟨1, [78, 79, 80, 81, 120, 31, 94, 95, 143, 128, 41, 85, 145, 125], [18, 7, 6, 8, 12, 20, 23, 5, 19, 11, 16, 11, 17, 9], 18, [17, 19]⟩), [], [30, 22], [33]⟩,
   ⟨16, 9, 1, (some 2), true, false, 55, 55, 550,
    (some ⟨2, 51, 330, [78, 79, 80, 81, 120, 31, 94, 95, 143, 128, 41, 85, 145, 125]⟩),
    (some ⟨0, [76, 130, 133, 122], [8, 12, 22, 10], 5, [82, 84, 86, 89, 91]⟩), [17, 19], [9, 7, 6], [51]⟩,
   ⟨16, 9, 0, (some 15), false, true, 60, 60, 600,
    (some ⟨1, 60, 550, [76, 130, 133, 122]⟩),
    none, [82, 84, 86, 89, 91], [], [60]⟩]),
  (train_ko1_6403, [
   ⟨17, 6403, 2, (some 33), true, false, 58, 58, 580,
    none,
    (some ⟨1, [78, 79, 80, 81, 120, 31, 94, 95, 143, 128, 41, 85, 145, 125], [18, 7, 6, 8, 12, 20, 23, 5, 9, 11, 6, 11, 7, 9], 15, [17, 19]⟩), [], [36, 30, 22], [58]⟩,
   ⟨17, 6403, 1, (some 2), true, false, 73, 75, 750,
    (some ⟨2, 73, 580, [78, 79, 80, 81, 120, 31, 94, 95, 143, 128, 41, 85, 145, 125]⟩),
    (some ⟨0, [76, 130, 133, 122], [6, 10, 12, 10], 4, [81, 85, 88, 91]⟩), [17, 19], [9, 7, 6], [73]⟩,
   ⟨17, 6403, 0, (some 13), false, true, 77, 79, 790,
    (some ⟨1, 79, 750, [76, 130, 133, 122]⟩),
    none, [81, 85, 88, 91], [], [79]⟩]),
  (train_ko1_11, [
   ⟨18, 11, 2, (some 34), true, false, 51, 51, 510,
    none,
    (some ⟨1, [78, 79, 80, 81, 120, 31, 94, 95, 143, 128, 41, 85, 145, 125], [18, 7, 6, 8, 12, 20, 23, 5, 19, 11, 16, 11, 17, 9], 18, [17, 19]⟩), [], [30, 22], [51]⟩,
   ⟨18, 11, 1, (some 2), true, false, 71, 71, 710,
    (some ⟨2, 69, 510, [78, 79, 80, 81, 120, 31, 94, 95, 143, 128, 41, 85, 145, 125]⟩),
    (some ⟨0, [76, 130, 133, 122], [8, 12, 22, 10], 5, [82, 84, 86, 89, 91]⟩), [17, 19], [9, 7, 6], [69]⟩,
   ⟨18, 11, 0, (some 15), false, true, 76, 76, 760,
    (some ⟨1, 76, 710, [76, 130, 133, 122]⟩),
    none, [82, 84, 86, 89, 91], [], [76]⟩]),
  (train_ko1_14, [
   ⟨19, 14, 0, (some 14), true, false, 85, 87, 870,
    none,
    (some ⟨1, [83, 101, 84, 121], [9, 19, 8, 8], 4, [5, 8]⟩), [], [61, 64, 69, 71, 87, 92], [85]⟩,
   ⟨19, 14, 1, (some 1), true, false, 91, 93, 930,
    (some ⟨0, 91, 870, [83, 101, 84, 121]⟩),
    (some ⟨2, [77, 144, 119, 40, 86, 142, 87, 126, 30, 90, 91, 92, 93, 127], [15, 14, 8, 14, 13, 13, 7, 9, 15, 13, 9, 5, 7, 20], 16, [31, 33, 41]⟩), [5, 8], [16, 2], [91]⟩,
   ⟨19, 14, 2, (some 35), false, true, 107, 109, 1090,
    (some ⟨1, 109, 930, [77, 144, 119, 40, 86, 142, 87, 126, 30, 90, 91, 92, 93, 127]⟩),
    none, [31, 33, 41], [], [109]⟩]),
  (train_ko1_4606, [
   ⟨20, 4606, 0, (some 10), true, false, 79, 79, 790,
    none,
    (some ⟨1, [83, 101, 84, 121], [9, 12, 6, 7], 3, [5, 8]⟩), [], [66, 68, 71, 87, 92], [79]⟩,
   ⟨20, 4606, 1, (some 1), true, false, 84, 84, 840,
    (some ⟨0, 82, 790, [83, 101, 84, 121]⟩),
    (some ⟨2, [77, 144, 119, 40, 86, 142, 87, 126, 30, 90, 91, 92, 93, 127], [11, 9, 8, 7, 13, 7, 7, 9, 15, 13, 9, 5, 7, 20], 14, [31, 34, 43]⟩), [5, 8], [16, 2], [82]⟩,
   ⟨20, 4606, 2, (some 38), true, false, 99, 99, 990,
    (some ⟨1, 98, 840, [77, 144, 119, 40, 86, 142, 87, 126, 30, 90, 91, 92, 93, 127]⟩),
    none, [31, 34, 43], [], [98]⟩]),
  (train_ko1_16, [
   ⟨21, 16, 0, (some 14), true, false, 82, 84, 840,
    none,
    (some ⟨1, [83, 101, 84, 121], [9, 19, 8, 8], 4, [5, 8]⟩), [], [61, 64, 69, 71, 87, 92], [82]⟩,
   ⟨21, 16, 1, (some 1), true, false, 88, 90, 900,
    (some ⟨0, 88, 840, [83, 101, 84, 121]⟩),
    (some ⟨2, [77, 144, 119, 40, 86, 142, 87, 126, 30, 90, 91, 92, 93, 127], [15, 14, 8, 14, 13, 13, 7, 9, 15, 13, 9, 5, 7, 20], 16, [31, 33, 41]⟩), [5, 8], [16, 2], [88]⟩,
   ⟨21, 16, 2, (some 35), false, true, 104, 106, 1060,
    (some ⟨1, 106, 900, [77, 144, 119, 40, 86, 142, 87, 126, 30, 90, 91, 92, 93, 127]⟩),
    none, [31, 33, 41], [], [106]⟩]),
  (train_ko1_106, [
   ⟨22, 106, 0, (some 16), true, false, 87, 93, 930,
    none,
    (some ⟨1, [83, 101, 84, 121], [9, 19, 8, 10], 5, [5, 8, 9]⟩), [], [62, 64, 69, 71, 87, 92], [87]⟩,
   ⟨22, 106, 1, (some 3), true, false, 94, 100, 1000,
    (some ⟨0, 98, 930, [83, 101, 84, 121]⟩),
    none, [5, 8, 9], [], [98]⟩]),
  (train_ko1_18, [
   ⟨23, 18, 0, (some 14), true, false, 80, 81, 810,
    none,
    (some ⟨1, [83, 101, 84, 121], [9, 19, 8, 8], 4, [5, 8]⟩), [], [61, 64, 69, 71, 87, 92], [80]⟩,
   ⟨23, 18, 1, (some 1), true, false, 86, 87, 870,
    (some ⟨0, 85, 810, [83, 101, 84, 121]⟩),
    (some ⟨2, [77, 144, 119, 40, 86, 142, 87, 126, 30, 90, 91, 92, 93, 127], [15, 14, 8, 14, 13, 13, 7, 9, 15, 13, 9, 5, 7, 20], 16, [31, 33, 41]⟩), [5, 8], [16, 2], [85]⟩,
   ⟨23, 18, 2, (some 35), false, true, 102, 103, 1030,
    (some ⟨1, 103, 870, [77, 144, 119, 40, 86, 142, 87, 126, 30, 90, 91, 92, 93, 127]⟩),
    none, [31, 33, 41], [], [103]⟩]),
  (train_ko1_20, [
   ⟨24, 20, 0, (some 14), true, false, 90, 90, 900,
    none,
    (some ⟨1, [83, 101, 84, 121], [9, 19, 8, 8], 4, [5, 8]⟩), [], [61, 64, 69, 71, 87, 92], [90]⟩,
   ⟨24, 20, 1, (some 1), true, false, 96, 96, 960,
    (some ⟨0, 94, 900, [83, 101, 84, 121]⟩),
    (some ⟨2, [77, 144, 119, 40, 86, 142, 87, 126, 30, 90, 91, 92, 93, 127], [15, 14, 8, 14, 13, 13, 7, 9, 15, 13, 9, 5, 7, 20], 16, [31, 33, 41]⟩), [5, 8], [16, 2], [94]⟩,
   ⟨24, 20, 2, (some 35), false, true, 112, 112, 1120,
    (some ⟨1, 112, 960, [77, 144, 119, 40, 86, 142, 87, 126, 30, 90, 91, 92, 93, 127]⟩),
    none, [31, 33, 41], [], [112]⟩]),
  (train_ko1_4608, [
   ⟨25, 4608, 0, (some 10), true, false, 97, 97, 970,
    none,
    (some ⟨1, [83, 101, 84, 121], [9, 12, 6, 7], 3, [5, 8]⟩), [], [66, 68, 71, 87, 92], [97]⟩,
   ⟨25, 4608, 1, (some 1), true, false, 103, 103, 1030,
    (some ⟨0, 100, 970, [83, 101, 84, 121]⟩),
    (some ⟨2, [77, 144, 119, 40, 86, 142, 87, 126, 30, 90, 91, 92, 93, 127], [11, 9, 8, 7, 13, 7, 7, 9, 15, 13, 9, 5, 7, 20], 14, [31, 34, 43]⟩), [5, 8], [16, 2], [100]⟩,
   ⟨25, 4608, 2, (some 38), true, false, 122, 122, 1220,
    (some ⟨1, 117, 1030, [77, 144, 119, 40, 86, 142, 87, 126, 30, 90, 91, 92, 93, 127]⟩),
    none, [31, 34, 43], [], [117]⟩]),
  (train_ko1_22, [
   ⟨26, 22, 0, (some 14), true, false, 105, 105, 1050,
    none,
    (some ⟨1, [83, 101, 84, 121], [9, 19, 8, 8], 4, [5, 8]⟩), [], [61, 64, 69, 71, 87, 92], [105]⟩,
   ⟨26, 22, 1, (some 1), true, false, 111, 111, 1110,
    (some ⟨0, 109, 1050, [83, 101, 84, 121]⟩),
    (some ⟨2, [77, 144, 119, 40, 86, 142, 87, 126, 30, 90, 91, 92, 93, 127], [15, 14, 8, 14, 13, 13, 7, 9, 15, 13, 9, 5, 7, 20], 16, [31, 33, 41]⟩), [5, 8], [16, 2], [109]⟩,
   ⟨26, 22, 2, (some 35), false, true, 127, 127, 1270,
    (some ⟨1, 127, 1110, [77, 144, 119, 40, 86, 142, 87, 126, 30, 90, 91, 92, 93, 127]⟩),
    none, [31, 33, 41], [], [127]⟩]),
  (train_ko1_108, [
   ⟨27, 108, 0, (some 16), true, false, 105, 108, 1080,
    none,
    (some ⟨1, [83, 101, 84, 121], [9, 19, 8, 10], 5, [5, 8, 9]⟩), [], [62, 64, 69, 71, 87, 92], [105]⟩,
   ⟨27, 108, 1, (some 3), true, false, 113, 115, 1150,
    (some ⟨0, 113, 1080, [83, 101, 84, 121]⟩),
    none, [5, 8, 9], [], [113]⟩]),
  (train_ko1_24, [
   ⟨28, 24, 0, (some 14), true, false, 143, 143, 1430,
    none,
    (some ⟨1, [83, 101, 84, 121], [9, 19, 8, 8], 4, [5, 8]⟩), [], [61, 64, 69, 71, 87, 92], [143]⟩,
   ⟨28, 24, 1, (some 1), true, false, 149, 149, 1490,
    (some ⟨0, 147, 1430, [83, 101, 84, 121]⟩),
    (some ⟨2, [77, 144, 119, 40, 86, 142, 87, 126, 30, 90, 91, 92, 93, 127], [15, 14, 8, 14, 13, 13, 7, 9, 15, 13, 9, 5, 7, 20], 16, [31, 33, 41]⟩), [5, 8], [16, 2], [147]⟩,
   ⟨28, 24, 2, (some 35), false, true, 165, 165, 1650,
    (some ⟨1, 165, 1490, [77, 144, 119, 40, 86, 142, 87, 126, 30, 90, 91, 92, 93, 127]⟩),
    none, [31, 33, 41], [], [165]⟩]),
  (train_ko1_13, [
   ⟨29, 13, 2, (some 34), true, false, 60, 62, 620,
    none,
    (some ⟨1, [78, 79, 80, 81, 120, 31, 94, 95, 143, 128, 41, 85, 145, 125], [18, 7, 6, 8, 12, 20, 23, 5, 19, 11, 16, 11, 17, 9], 18, [17, 19]⟩), [], [30, 22], [60]⟩,
   ⟨29, 13, 1, (some 2), true, false, 80, 82, 820,
    (some ⟨2, 80, 620, [78, 79, 80, 81, 120, 31, 94, 95, 143, 128, 41, 85, 145, 125]⟩),
    (some ⟨0, [76, 130, 133, 122], [8, 12, 22, 10], 5, [82, 84, 86, 89, 91]⟩), [17, 19], [9, 7, 6], [80]⟩,
   ⟨29, 13, 0, (some 15), false, true, 85, 87, 870,
    (some ⟨1, 87, 820, [76, 130, 133, 122]⟩),
    none, [82, 84, 86, 89, 91], [], [87]⟩]),
  (train_ko1_105, [
   ⟨30, 105, 1, (some 4), true, false, 89, 89, 890,
    none,
    (some ⟨0, [76, 130, 133, 122], [8, 12, 22, 10], 5, [82, 84, 86, 89, 91]⟩), [], [7, 6], [89]⟩,
   ⟨30, 105, 0, (some 39), false, true, 94, 94, 940,
    (some ⟨1, 94, 890, [76, 130, 133, 122]⟩),
    none, [82, 84, 86, 89, 91], [], [94]⟩]),
  (train_ko1_15, [
   ⟨31, 15, 2, (some 34), true, false, 71, 71, 710,
    none,
    (some ⟨1, [78, 79, 80, 81, 120, 31, 94, 95, 143, 128, 41, 85, 145, 125], [18, 7, 6, 8, 12, 20, 23, 5, 19, 11, 16, 11, 17, 9], 18, [17, 19]⟩), [], [30, 22], [71]⟩,
   ⟨31, 15, 1, (some 2), true, false, 91, 92, 920,
    (some ⟨2, 89, 710, [78, 79, 80, 81, 120, 31, 94, 95, 143, 128, 41, 85, 145, 125]⟩),
    (some ⟨0, [76, 130, 133, 122], [8, 12, 22, 10], 5, [82, 84, 86, 89, 91]⟩), [17, 19], [9, 7, 6], [89]⟩,
   ⟨31, 15, 0, (some 15), false, true, 96, 97, 970,
    (some ⟨1, 97, 920, [76, 130, 133, 122]⟩),
    none, [82, 84, 86, 89, 91], [], [97]⟩]),
  (train_ko1_6405, [
   ⟨32, 6405, 2, (some 33), true, false, 82, 82, 820,
    none,
    (some ⟨1, [78, 79, 80, 81, 120, 31, 94, 95, 143, 128, 41, 85, 145, 125], [18, 7, 6, 8, 12, 20, 23, 5, 9, 11, 6, 11, 7, 9], 15, [17, 19]⟩), [], [36, 30, 22], [82]⟩,
   ⟨32, 6405, 1, (some 2), true, false, 97, 97, 970,
    (some ⟨2, 97, 820, [78, 79, 80, 81, 120, 31, 94, 95, 143, 128, 41, 85, 145, 125]⟩),
    (some ⟨0, [76, 130, 133, 122], [6, 10, 12, 10], 4, [81, 85, 88, 91]⟩), [17, 19], [9, 7, 6], [97]⟩,
   ⟨32, 6405, 0, (some 13), false, true, 101, 101, 1010,
    (some ⟨1, 101, 970, [76, 130, 133, 122]⟩),
    none, [81, 85, 88, 91], [], [101]⟩]),
  (train_ko1_17, [
   ⟨33, 17, 2, (some 34), true, false, 95, 95, 950,
    none,
    (some ⟨1, [78, 79, 80, 81, 120, 31, 94, 95, 143, 128, 41, 85, 145, 125], [18, 7, 6, 8, 12, 20, 23, 5, 19, 11, 16, 11, 17, 9], 18, [17, 19]⟩), [], [30, 22], [95]⟩,
   ⟨33, 17, 1, (some 2), true, false, 115, 115, 1150,
    (some ⟨2, 113, 950, [78, 79, 80, 81, 120, 31, 94, 95, 143, 128, 41, 85, 145, 125]⟩),
    (some ⟨0, [76, 130, 133, 122], [8, 12, 22, 10], 5, [82, 84, 86, 89, 91]⟩), [17, 19], [9, 7, 6], [113]⟩,
   ⟨33, 17, 0, (some 15), false, true, 120, 120, 1200,
    (some ⟨1, 120, 1150, [76, 130, 133, 122]⟩),
    none, [82, 84, 86, 89, 91], [], [120]⟩]),
  (train_ko1_21, [
   ⟨34, 21, 2, (some 34), true, false, 86, 86, 860,
    none,
    (some ⟨1, [78, 79, 80, 81, 120, 31, 94, 95, 143, 128, 41, 85, 145, 125], [18, 7, 6, 8, 12, 20, 23, 5, 19, 11, 16, 11, 17, 9], 18, [17, 19]⟩), [], [30, 22], [86]⟩,
   ⟨34, 21, 1, (some 2), true, false, 106, 106, 1060,
    (some ⟨2, 104, 860, [78, 79, 80, 81, 120, 31, 94, 95, 143, 128, 41, 85, 145, 125]⟩),
    (some ⟨0, [76, 130, 133, 122], [8, 12, 22, 10], 5, [82, 84, 86, 89, 91]⟩), [17, 19], [9, 7, 6], [104]⟩,
   ⟨34, 21, 0, (some 15), false, true, 111, 111, 1110,
    (some ⟨1, 111, 1060, [76, 130, 133, 122]⟩),
    none, [82, 84, 86, 89, 91], [], [111]⟩]),
  (train_ko1_107, [
   ⟨35, 107, 1, (some 4), true, false, 128, 128, 1280,
    none,
    (some ⟨0, [76, 130, 133, 122], [8, 12, 22, 10], 5, [82, 84, 86, 89, 91]⟩), [], [7, 6], [128]⟩,
   ⟨35, 107, 0, (some 39), false, true, 133, 133, 1330,
    (some ⟨1, 133, 1280, [76, 130, 133, 122]⟩),
    none, [82, 84, 86, 89, 91], [], [133]⟩]),
  (train_ko1_23, [
   ⟨36, 23, 2, (some 34), true, false, 104, 104, 1040,
    none,
    (some ⟨1, [78, 79, 80, 81, 120, 31, 94, 95, 143, 128, 41, 85, 145, 125], [18, 7, 6, 8, 12, 20, 23, 5, 19, 11, 16, 11, 17, 9], 18, [17, 19]⟩), [], [30, 22], [104]⟩,
   ⟨36, 23, 1, (some 2), true, false, 124, 124, 1240,
    (some ⟨2, 122, 1040, [78, 79, 80, 81, 120, 31, 94, 95, 143, 128, 41, 85, 145, 125]⟩),
    (some ⟨0, [76, 130, 133, 122], [8, 12, 22, 10], 5, [82, 84, 86, 89, 91]⟩), [17, 19], [9, 7, 6], [122]⟩,
   ⟨36, 23, 0, (some 15), false, true, 129, 129, 1290,
    (some ⟨1, 129, 1240, [76, 130, 133, 122]⟩),
    none, [82, 84, 86, 89, 91], [], [129]⟩]),
  (train_ko1_6407, [
   ⟨37, 6407, 2, (some 33), true, false, 121, 124, 1240,
    none,
    (some ⟨1, [78, 79, 80, 81, 120, 31, 94, 95, 143, 128, 41, 85, 145, 125], [18, 7, 6, 8, 12, 20, 23, 5, 9, 11, 6, 11, 7, 9], 15, [17, 19]⟩), [], [36, 30, 22], [121]⟩,
   ⟨37, 6407, 1, (some 2), true, false, 136, 143, 1430,
    (some ⟨2, 139, 1240, [78, 79, 80, 81, 120, 31, 94, 95, 143, 128, 41, 85, 145, 125]⟩),
    (some ⟨0, [76, 130, 133, 122], [6, 10, 12, 10], 4, [81, 85, 88, 91]⟩), [17, 19], [9, 7, 6], [139]⟩,
   ⟨37, 6407, 0, (some 13), false, true, 140, 147, 1470,
    (some ⟨1, 147, 1430, [76, 130, 133, 122]⟩),
    none, [81, 85, 88, 91], [], [147]⟩]),
  (train_ko1_25, [
   ⟨38, 25, 2, (some 34), true, false, 119, 119, 1190,
    none,
    (some ⟨1, [78, 79, 80, 81, 120, 31, 94, 95, 143, 128, 41, 85, 145, 125], [18, 7, 6, 8, 12, 20, 23, 5, 19, 11, 16, 11, 17, 9], 18, [17, 19]⟩), [], [30, 22], [119]⟩,
   ⟨38, 25, 1, (some 2), true, false, 139, 139, 1390,
    (some ⟨2, 137, 1190, [78, 79, 80, 81, 120, 31, 94, 95, 143, 128, 41, 85, 145, 125]⟩),
    (some ⟨0, [76, 130, 133, 122], [8, 12, 22, 10], 5, [82, 84, 86, 89, 91]⟩), [17, 19], [9, 7, 6], [137]⟩,
   ⟨38, 25, 0, (some 15), false, true, 144, 144, 1440,
    (some ⟨1, 144, 1390, [76, 130, 133, 122]⟩),
    none, [82, 84, 86, 89, 91], [], [144]⟩]),
  (train_ko1_26, [
   ⟨39, 26, 0, (some 14), true, false, 132, 137, 1370,
    none,
    (some ⟨1, [83, 101, 84, 121], [9, 19, 8, 8], 4, [5, 8]⟩), [], [61, 64, 69, 71, 87, 92], [132]⟩,
   ⟨39, 26, 1, (some 1), true, false, 138, 143, 1430,
    (some ⟨0, 141, 1370, [83, 101, 84, 121]⟩),
    (some ⟨2, [77, 144, 119, 40, 86, 142, 87, 126, 30, 90, 91, 92, 93, 127], [15, 14, 8, 14, 13, 13, 7, 9, 15, 13, 9, 5, 7, 20], 16, [31, 33, 41]⟩), [5, 8], [16, 2], [141]⟩,
   ⟨39, 26, 2, (some 35), false, true, 154, 159, 1590,
    (some ⟨1, 159, 1430, [77, 144, 119, 40, 86, 142, 87, 126, 30, 90, 91, 92, 93, 127]⟩),
    none, [31, 33, 41], [], [159]⟩]),
  (train_ko1_4610, [
   ⟨40, 4610, 0, (some 10), true, false, 131, 133, 1330,
    none,
    (some ⟨1, [83, 101, 84, 121], [9, 12, 6, 7], 3, [5, 8]⟩), [], [66, 68, 71, 87, 92], [131]⟩,
   ⟨40, 4610, 1, (some 1), true, false, 136, 141, 1410,
    (some ⟨0, 136, 1330, [83, 101, 84, 121]⟩),
    (some ⟨2, [77, 144, 119, 40, 86, 142, 87, 126, 30, 90, 91, 92, 93, 127], [11, 9, 8, 7, 13, 7, 7, 9, 15, 13, 9, 5, 7, 20], 14, [31, 34, 43]⟩), [5, 8], [16, 2], [136]⟩,
   ⟨40, 4610, 2, (some 38), true, false, 152, 156, 1560,
    (some ⟨1, 155, 1410, [77, 144, 119, 40, 86, 142, 87, 126, 30, 90, 91, 92, 93, 127]⟩),
    none, [31, 34, 43], [], [155]⟩]),
  (train_ko1_28, [
   ⟨41, 28, 0, (some 14), true, false, 130, 130, 1300,
    none,
    (some ⟨1, [83, 101, 84, 121], [9, 19, 8, 8], 4, [5, 8]⟩), [], [61, 64, 69, 71, 87, 92], [130]⟩,
   ⟨41, 28, 1, (some 1), true, false, 136, 136, 1360,
    (some ⟨0, 134, 1300, [83, 101, 84, 121]⟩),
    (some ⟨2, [77, 144, 119, 40, 86, 142, 87, 126, 30, 90, 91, 92, 93, 127], [15, 14, 8, 14, 13, 13, 7, 9, 15, 13, 9, 5, 7, 20], 16, [31, 33, 41]⟩), [5, 8], [16, 2], [134]⟩,
   ⟨41, 28, 2, (some 35), false, true, 152, 152, 1520,
    (some ⟨1, 152, 1360, [77, 144, 119, 40, 86, 142, 87, 126, 30, 90, 91, 92, 93, 127]⟩),
    none, [31, 33, 41], [], [152]⟩]),
  (train_ko1_112, [
   ⟨42, 112, 0, (some 16), true, false, 140, 146, 1460,
    none,
    (some ⟨1, [83, 101, 84, 121], [9, 19, 8, 10], 5, [5, 8, 9]⟩), [], [62, 64, 69, 71, 87, 92], [140]⟩,
   ⟨42, 112, 1, (some 3), true, false, 147, 153, 1530,
    (some ⟨0, 151, 1460, [83, 101, 84, 121]⟩),
    none, [5, 8, 9], [], [151]⟩]),
  (train_ko1_30, [
   ⟨43, 30, 0, (some 14), true, false, 140, 140, 1400,
    none,
    (some ⟨1, [83, 101, 84, 121], [9, 19, 8, 8], 4, [5, 8]⟩), [], [61, 64, 69, 71, 87, 92], [140]⟩,
   ⟨43, 30, 1, (some 1), true, false, 146, 146, 1460,
    (some ⟨0, 144, 1400, [83, 101, 84, 121]⟩),
    (some ⟨2, [77, 144, 119, 40, 86, 142, 87, 126, 30, 90, 91, 92, 93, 127], [15, 14, 8, 14, 13, 13, 7, 9, 15, 13, 9, 5, 7, 20], 16, [31, 33, 41]⟩), [5, 8], [16, 2], [144]⟩,
   ⟨43, 30, 2, (some 35), false, true, 162, 162, 1620,
    (some ⟨1, 162, 1460, [77, 144, 119, 40, 86, 142, 87, 126, 30, 90, 91, 92, 93, 127]⟩),
    none, [31, 33, 41], [], [162]⟩]),
  (train_ko1_32, [
   ⟨44, 32, 0, (some 14), true, false, 155, 155, 1550,
    none,
    (some ⟨1, [83, 101, 84, 121], [9, 19, 8, 8], 4, [5, 8]⟩), [], [61, 64, 69, 71, 87, 92], [155]⟩,
   ⟨44, 32, 1, (some 1), true, false, 161, 161, 1610,
    (some ⟨0, 159, 1550, [83, 101, 84, 121]⟩),
    (some ⟨2, [77, 144, 119, 40, 86, 142, 87, 126, 30, 90, 91, 92, 93, 127], [15, 14, 8, 14, 13, 13, 7, 9, 15, 13, 9, 5, 7, 20], 16, [31, 33, 41]⟩), [5, 8], [16, 2], [159]⟩,
   ⟨44, 32, 2, (some 35), false, true, 177, 177, 1770,
    (some ⟨1, 177, 1610, [77, 144, 119, 40, 86, 142, 87, 126, 30, 90, 91, 92, 93, 127]⟩),
    none, [31, 33, 41], [], [177]⟩]),
  (train_ko1_4612, [
   ⟨45, 4612, 0, (some 10), true, false, 162, 162, 1620,
    none,
    (some ⟨1, [83, 101, 84, 121], [9, 12, 6, 7], 3, [5, 8]⟩), [], [66, 68, 71, 87, 92], [162]⟩,
   ⟨45, 4612, 1, (some 1), true, false, 167, 167, 1670,
    (some ⟨0, 165, 1620, [83, 101, 84, 121]⟩),
    (some ⟨2, [77, 144, 119, 40, 86, 142, 87, 126, 30, 90, 91, 92, 93, 127], [11, 9, 8, 7, 13, 7, 7, 9, 15, 13, 9, 5, 7, 20], 14, [31, 34, 43]⟩), [5, 8], [16, 2], [165]⟩,
   ⟨45, 4612, 2, (some 38), true, false, 182, 182, 1820,
    (some ⟨1, 181, 1670, [77, 144, 119, 40, 86, 142, 87, 126, 30, 90, 91, 92, 93, 127]⟩),
    none, [31, 34, 43], [], [181]⟩]),
  (train_ko1_34, [
   ⟨46, 34, 0, (some 14), true, false, 185, 185, 1850,
    none,
    (some ⟨1, [83, 101, 84, 121], [9, 19, 8, 8], 4, [5, 8]⟩), [], [61, 64, 69, 71, 87, 92], [185]⟩,
   ⟨46, 34, 1, (some 1), true, false, 191, 191, 1910,
    (some ⟨0, 189, 1850, [83, 101, 84, 121]⟩),
    (some ⟨2, [77, 144, 119, 40, 86, 142, 87, 126, 30, 90, 91, 92, 93, 127], [15, 14, 8, 14, 13, 13, 7, 9, 15, 13, 9, 5, 7, 20], 16, [31, 33, 41]⟩), [5, 8], [16, 2], [189]⟩,
   ⟨46, 34, 2, (some 35), false, true, 207, 207, 2070,
    (some ⟨1, 207, 1910, [77, 144, 119, 40, 86, 142, 87, 126, 30, 90, 91, 92, 93, 127]⟩),
    none, [31, 33, 41], [], [207]⟩]),
  (train_ko1_114, [
   ⟨47, 114, 0, (some 16), true, false, 190, 190, 1900,
    none,
    (some ⟨1, [83, 101, 84, 121], [9, 19, 8, 10], 5, [5, 8, 9]⟩), [], [62, 64, 69, 71, 87, 92], [190]⟩,
   ⟨47, 114, 1, (some 3), true, false, 197, 197, 1970,
    (some ⟨0, 195, 1900, [83, 101, 84, 121]⟩),
    none, [5, 8, 9], [], [195]⟩]),
  (train_ko1_36, [
   ⟨48, 36, 0, (some 14), true, false, 182, 182, 1820,
    none,
    (some ⟨1, [83, 101, 84, 121], [9, 19, 8, 8], 4, [5, 8]⟩), [], [61, 64, 69, 71, 87, 92], [182]⟩,
   ⟨48, 36, 1, (some 1), true, false, 188, 188, 1880,
    (some ⟨0, 186, 1820, [83, 101, 84, 121]⟩),
    (some ⟨2, [77, 144, 119, 40, 86, 142, 87, 126, 30, 90, 91, 92, 93, 127], [15, 14, 8, 14, 13, 13, 7, 9, 15, 13, 9, 5, 7, 20], 16, [31, 33, 41]⟩), [5, 8], [16, 2], [186]⟩,
   ⟨48, 36, 2, (some 35), false, true, 204, 204, 2040,
    (some ⟨1, 204, 1880, [77, 144, 119, 40, 86, 142, 87, 126, 30, 90, 91, 92, 93, 127]⟩),
    none, [31, 33, 41], [], [204]⟩]),
  (train_ko1_27, [
   ⟨49, 27, 2, (some 34), true, false, 130, 132, 1320,
    none,
    (some ⟨1, [78, 79, 80, 81, 120, 31, 94, 95, 143, 128, 41, 85, 145, 125], [18, 7, 6, 8, 12, 20, 23, 5, 19, 11, 16, 11, 17, 9], 18, [17, 19]⟩), [], [30, 22], [130]⟩,
   ⟨49, 27, 1, (some 2), true, false, 150, 152, 1520,
    (some ⟨2, 150, 1320, [78, 79, 80, 81, 120, 31, 94, 95, 143, 128, 41, 85, 145, 125]⟩),
    (some ⟨0, [76, 130, 133, 122], [8, 12, 22, 10], 5, [82, 84, 86, 89, 91]⟩), [17, 19], [9, 7, 6], [150]⟩,
   ⟨49, 27, 0, (some 15), false, true, 155, 157, 1570,
    (some ⟨1, 157, 1520, [76, 130, 133, 122]⟩),
    none, [82, 84, 86, 89, 91], [], [157]⟩]),
  (train_ko1_111, [
   ⟨50, 111, 1, (some 4), true, false, 144, 145, 1450,
    none,
    (some ⟨0, [76, 130, 133, 122], [8, 12, 22, 10], 5, [82, 84, 86, 89, 91]⟩), [], [7, 6], [144]⟩,
   ⟨50, 111, 0, (some 39), false, true, 149, 150, 1500,
    (some ⟨1, 150, 1450, [76, 130, 133, 122]⟩),
    none, [82, 84, 86, 89, 91], [], [150]⟩]),
  (train_ko1_31, [
   ⟨51, 31, 2, (some 34), true, false, 126, 128, 1280,
    none,
    (some ⟨1, [78, 79, 80, 81, 120, 31, 94, 95, 143, 128, 41, 85, 145, 125], [18, 7, 6, 8, 12, 20, 23, 5, 19, 11, 16, 11, 17, 9], 18, [17, 19]⟩), [], [30, 22], [126]⟩,
   ⟨51, 31, 1, (some 2), true, false, 146, 148, 1480,
    (some ⟨2, 146, 1280, [78, 79, 80, 81, 120, 31, 94, 95, 143, 128, 41, 85, 145, 125]⟩),
    (some ⟨0, [76, 130, 133, 122], [8, 12, 22, 10], 5, [82, 84, 86, 89, 91]⟩), [17, 19], [9, 7, 6], [146]⟩,
   ⟨51, 31, 0, (some 15), false, true, 151, 153, 1530,
    (some ⟨1, 153, 1480, [76, 130, 133, 122]⟩),
    none, [82, 84, 86, 89, 91], [], [153]⟩]),
  (train_ko1_6411, [
   ⟨52, 6411, 2, (some 33), true, false, 137, 137, 1370,
    none,
    (some ⟨1, [78, 79, 80, 81, 120, 31, 94, 95, 143, 128, 41, 85, 145, 125], [18, 7, 6, 8, 12, 20, 23, 5, 9, 11, 6, 11, 7, 9], 15, [17, 19]⟩), [], [36, 30, 22], [137]⟩,
   ⟨52, 6411, 1, (some 2), true, false, 152, 156, 1560,
    (some ⟨2, 152, 1370, [78, 79, 80, 81, 120, 31, 94, 95, 143, 128, 41, 85, 145, 125]⟩),
    (some ⟨0, [76, 130, 133, 122], [6, 10, 12, 10], 4, [81, 85, 88, 91]⟩), [17, 19], [9, 7, 6], [152]⟩,
   ⟨52, 6411, 0, (some 13), false, true, 156, 160, 1600,
    (some ⟨1, 160, 1560, [76, 130, 133, 122]⟩),
    none, [81, 85, 88, 91], [], [160]⟩]),
  (train_ko1_33, [
   ⟨53, 33, 2, (some 34), true, false, 145, 145, 1450,
    none,
    (some ⟨1, [78, 79, 80, 81, 120, 31, 94, 95, 143, 128, 41, 85, 145, 125], [18, 7, 6, 8, 12, 20, 23, 5, 19, 11, 16, 11, 17, 9], 18, [17, 19]⟩), [], [30, 22], [145]⟩,
   ⟨53, 33, 1, (some 2), true, false, 165, 165, 1650,
    (some ⟨2, 163, 1450, [78, 79, 80, 81, 120, 31, 94, 95, 143, 128, 41, 85, 145, 125]⟩),
    (some ⟨0, [76, 130, 133, 122], [8, 12, 22, 10], 5, [82, 84, 86, 89, 91]⟩), [17, 19], [9, 7, 6], [163]⟩,
   ⟨53, 33, 0, (some 15), false, true, 170, 170, 1700,
    (some ⟨1, 170, 1650, [76, 130, 133, 122]⟩),
    none, [82, 84, 86, 89, 91], [], [170]⟩]),
  (train_ko1_35, [
   ⟨54, 35, 2, (some 34), true, false, 151, 151, 1510,
    none,
    (some ⟨1, [78, 79, 80, 81, 120, 31, 94, 95, 143, 128, 41, 85, 145, 125], [18, 7, 6, 8, 12, 20, 23, 5, 19, 11, 16, 11, 17, 9], 18, [17, 19]⟩), [], [30, 22], [151]⟩,
   ⟨54, 35, 1, (some 2), true, false, 171, 171, 1710,
    (some ⟨2, 169, 1510, [78, 79, 80, 81, 120, 31, 94, 95, 143, 128, 41, 85, 145, 125]⟩),
    (some ⟨0, [76, 130, 133, 122], [8, 12, 22, 10], 5, [82, 84, 86, 89, 91]⟩), [17, 19], [9, 7, 6], [169]⟩,
   ⟨54, 35, 0, (some 15), false, true, 176, 176, 1760,
    (some ⟨1, 176, 1710, [76, 130, 133, 122]⟩),
    none, [82, 84, 86, 89, 91], [], [176]⟩]),
  (train_ko1_113, [
   ⟨55, 113, 1, (some 4), true, false, 178, 178, 1780,
    none,
    (some ⟨0, [76, 130, 133, 122], [8, 12, 22, 10], 5, [82, 84, 86, 89, 91]⟩), [], [7, 6], [178]⟩,
   ⟨55, 113, 0, (some 39), false, true, 183, 183, 1830,
    (some ⟨1, 183, 1780, [76, 130, 133, 122]⟩),
    none, [82, 84, 86, 89, 91], [], [183]⟩]),
  (train_ko1_37, [
   ⟨56, 37, 2, (some 34), true, false, 170, 170, 1700,
    none,
    (some ⟨1, [78, 79, 80, 81, 120, 31, 94, 95, 143, 128, 41, 85, 145, 125], [18, 7, 6, 8, 12, 20, 23, 5, 19, 11, 16, 11, 17, 9], 18, [17, 19]⟩), [], [30, 22], [170]⟩,
   ⟨56, 37, 1, (some 2), true, false, 190, 190, 1900,
    (some ⟨2, 188, 1700, [78, 79, 80, 81, 120, 31, 94, 95, 143, 128, 41, 85, 145, 125]⟩),
    (some ⟨0, [76, 130, 133, 122], [8, 12, 22, 10], 5, [82, 84, 86, 89, 91]⟩), [17, 19], [9, 7, 6], [188]⟩,
   ⟨56, 37, 0, (some 15), false, true, 195, 195, 1950,
    (some ⟨1, 195, 1900, [76, 130, 133, 122]⟩),
    none, [82, 84, 86, 89, 91], [], [195]⟩]),
  (train_ko1_6413, [
   ⟨57, 6413, 2, (some 33), true, false, 171, 175, 1750,
    none,
    (some ⟨1, [78, 79, 80, 81, 120, 31, 94, 95, 143, 128, 41, 85, 145, 125], [18, 7, 6, 8, 12, 20, 23, 5, 9, 11, 6, 11, 7, 9], 15, [17, 19]⟩), [], [36, 30, 22], [171]⟩,
   ⟨57, 6413, 1, (some 2), true, false, 186, 194, 1940,
    (some ⟨2, 190, 1750, [78, 79, 80, 81, 120, 31, 94, 95, 143, 128, 41, 85, 145, 125]⟩),
    (some ⟨0, [76, 130, 133, 122], [6, 10, 12, 10], 4, [81, 85, 88, 91]⟩), [17, 19], [9, 7, 6], [190]⟩,
   ⟨57, 6413, 0, (some 13), false, true, 190, 198, 1980,
    (some ⟨1, 198, 1940, [76, 130, 133, 122]⟩),
    none, [81, 85, 88, 91], [], [198]⟩]),
  (train_ko1_41, [
   ⟨58, 41, 2, (some 34), true, false, 171, 179, 1790,
    none,
    (some ⟨1, [78, 79, 80, 81, 120, 31, 94, 95, 143, 128, 41, 85, 145, 125], [18, 7, 6, 8, 12, 20, 23, 5, 19, 11, 16, 11, 17, 9], 18, [17, 19]⟩), [], [30, 22], [171]⟩,
   ⟨58, 41, 1, (some 2), true, false, 191, 199, 1990,
    (some ⟨2, 197, 1790, [78, 79, 80, 81, 120, 31, 94, 95, 143, 128, 41, 85, 145, 125]⟩),
    (some ⟨0, [76, 130, 133, 122], [8, 12, 22, 10], 5, [82, 84, 86, 89, 91]⟩), [17, 19], [9, 7, 6], [197]⟩,
   ⟨58, 41, 0, (some 15), false, true, 196, 204, 2040,
    (some ⟨1, 204, 1990, [76, 130, 133, 122]⟩),
    none, [82, 84, 86, 89, 91], [], [204]⟩])]

theorem ko1n8Plan_sections : ko1n8Plan.map Prod.fst = ko1 := rfl

theorem ko1n8Plan_ok : netKo.PlanOK "14:00" ko1n8Delays 40 netKoSpecial ko1n8Plan :=
  ko1Plan_ok.again rfl (by decide +kernel) (by decide +kernel) (by decide +kernel) (by decide +kernel)

theorem ko1n8_cost : netKo.costOK ko1n8Plan 342 = true := by decide +kernel

/-- the departures: train and station -/
def ko1n8Nodes : List (Nat × Nat) := [
  (5, 0), (4, 0), (4, 1), (2, 0), (2, 1), (24, 0), (23, 0), (21, 0), (21, 1), (19, 0), (19, 1),
  (41, 0), (39, 0), (39, 1), (40, 0), (24, 1), (40, 1), (41, 1), (40, 2), (13, 2), (29, 2),
  (52, 2), (51, 2), (58, 2), (56, 2), (58, 1), (51, 1), (38, 2), (52, 1), (17, 2), (18, 2),
  (57, 2), (57, 1), (56, 1), (17, 1), (18, 1), (37, 2), (38, 1), (49, 2), (49, 1), (20, 0),
  (23, 1), (43, 0), (42, 0), (42, 1), (22, 0), (22, 1), (50, 1), (29, 1), (12, 2), (11, 2),
  (11, 1), (13, 1), (12, 1), (10, 1), (32, 1), (30, 1), (14, 1), (15, 1), (31, 1), (28, 0),
  (28, 1), (27, 0), (26, 0), (26, 1), (16, 1), (3, 0), (3, 1), (27, 1), (43, 1), (20, 1), (20, 2),
  (37, 1), (16, 2), (14, 2)]

/-- the choices -/
def ko1n8Choices : List CodedNet.Choice := [
  .first 2 4 0, .first 4 5 0, .first 19 21 0, .first 19 24 0, .first 21 23 0, .first 28 43 0,
  .first 39 41 0, .first 41 40 0, .first 2 4 1, .first 4 5 1, .first 19 21 1, .first 19 24 1,
  .first 21 23 1, .first 28 43 1, .first 39 41 1, .first 41 40 1, .first 11 13 2, .first 14 16 2,
  .first 18 29 2, .first 37 52 2, .first 38 51 2, .first 49 51 2, .first 56 58 2, .first 14 16 1,
  .first 38 51 1, .first 49 51 1, .first 51 52 1, .first 18 17 2, .first 56 57 2, .first 56 57 1,
  .first 18 17 1, .first 38 37 2, .first 23 20 0, .first 42 43 0, .first 39 40 1, .first 22 19 0,
  .first 50 38 1, .first 50 51 1, .first 29 17 2, .first 49 52 1, .first 49 52 2, .first 11 12 2,
  .first 58 57 1, .first 58 57 2, .first 11 12 1, .first 22 24 0, .first 10 11 1, .first 10 12 1,
  .first 30 32 1, .first 15 14 1, .first 30 31 1, .first 50 52 1, .first 50 49 1, .first 29 17 1,
  .against 22 32 0 1, .against 42 51 0 1, .first 27 26 0, .first 42 28 0, .against 3 16 0 1,
  .against 22 31 0 1, .against 42 38 0 1, .first 23 20 1, .first 21 20 1, .first 19 20 1,
  .first 22 20 0, .first 24 20 1, .first 38 37 1, .first 51 37 2, .first 51 37 1,
  .against 42 37 0 1, .first 50 37 1, .first 15 16 1, .against 42 49 0 1, .first 49 37 1,
  .first 49 37 2, .first 37 52 1]

/-- the inequalities -/
def ko1n8Arcs : ArcTree :=
  .node ⟨.follow, 4, 1, 2, 3, 0, false⟩ (.node ⟨.run, 0, 2, 3, 6, 0, false⟩ (.node
  ⟨.run, 0, 4, 5, 6, 0, false⟩ (.node ⟨.follow, 6, 8, 10, 3, 0, false⟩ (.node
  ⟨.follow, 15, 12, 15, 3, 0, false⟩ (.node ⟨.follow, 56, 30, 31, 4, 0, false⟩ (.node
  ⟨.follow, 82, 22, 39, 4, 0, false⟩ (.node ⟨.follow, 28, 70, 62, 3, 0, false⟩ .none .none) .none)
  (.node ⟨.follow, 105, 48, 40, 3, 0, false⟩ (.node ⟨.leave, 146, 40, 44, 0, 4, false⟩ .none .none)
  .none)) (.node ⟨.follow, 44, 23, 39, 4, 0, false⟩ (.node ⟨.track, 86, 33, 24, 0, 18, false⟩
  (.node ⟨.follow, 129, 46, 41, 3, 0, false⟩ .none .none) .none) (.node
  ⟨.follow, 49, 38, 27, 3, 0, false⟩ (.node ⟨.track, 36, 74, 0, 0, 40, false⟩ .none .none) .none)))
  (.node ⟨.track, 42, 23, 0, 0, 119, false⟩ (.node ⟨.track, 62, 35, 31, 0, 18, false⟩ (.node
  ⟨.run, 0, 50, 54, 15, 0, false⟩ (.node ⟨.track, 126, 71, 8, 0, 4, false⟩ .none .none) .none)
  (.node ⟨.leave, 112, 27, 44, 0, 4, false⟩ (.node ⟨.follow, 147, 40, 73, 4, 0, false⟩ .none .none)
  .none)) (.node ⟨.run, 0, 44, 45, 7, 0, false⟩ (.node ⟨.follow, 104, 29, 48, 2, 0, false⟩ (.node
  ⟨.follow, 136, 37, 23, 4, 0, false⟩ .none .none) .none) (.node ⟨.follow, 71, 46, 10, 3, 0, false⟩
  (.node ⟨.track, 17, 5, 2, 0, 4, false⟩ .none .none) .none)))) (.node
  ⟨.follow, 16, 15, 12, 2, 0, false⟩ (.node ⟨.run, 0, 17, 19, 15, 0, false⟩ (.node
  ⟨.follow, 57, 25, 32, 5, 0, false⟩ (.node ⟨.run, 0, 20, 53, 20, 0, false⟩ (.node
  ⟨.follow, 65, 7, 41, 3, 0, false⟩ .none .none) .none) (.node ⟨.follow, 80, 29, 40, 2, 0, false⟩
  (.node ⟨.follow, 137, 27, 73, 4, 0, false⟩ .none .none) .none)) (.node
  ⟨.run, 0, 7, 42, 6, 0, false⟩ (.node ⟨.follow, 100, 58, 59, 3, 0, false⟩ (.node
  ⟨.follow, 63, 28, 37, 5, 0, false⟩ .none .none) .none) (.node ⟨.come, 117, 67, 66, 6, 0, false⟩
  (.node ⟨.track, 27, 62, 43, 0, 4, false⟩ .none .none) .none))) (.node
  ⟨.track, 50, 27, 28, 0, 18, false⟩ (.node ⟨.follow, 64, 37, 28, 4, 0, false⟩ (.node
  ⟨.follow, 95, 55, 54, 4, 0, false⟩ (.node ⟨.run, 0, 71, 72, 15, 0, false⟩ .none .none) .none)
  (.node ⟨.run, 0, 61, 62, 6, 0, false⟩ (.node ⟨.follow, 7, 10, 6, 3, 0, false⟩ .none .none)
  .none)) (.node ⟨.follow, 74, 38, 48, 3, 0, false⟩ (.node ⟨.follow, 81, 39, 22, 5, 0, false⟩
  (.node ⟨.follow, 141, 48, 73, 4, 0, false⟩ .none .none) .none) (.node
  ⟨.follow, 69, 14, 17, 5, 0, false⟩ (.node ⟨.track, 5, 10, 0, 0, 82, false⟩ .none .none)
  .none))))) (.node ⟨.follow, 10, 7, 8, 3, 0, false⟩ (.node ⟨.follow, 14, 12, 13, 3, 0, false⟩
  (.node ⟨.track, 32, 17, 12, 0, 4, false⟩ (.node ⟨.follow, 58, 32, 25, 4, 0, false⟩ (.node
  ⟨.run, 0, 51, 52, 20, 0, false⟩ (.node ⟨.track, 12, 43, 0, 0, 143, false⟩ .none .none) .none)
  (.node ⟨.track, 108, 35, 21, 0, 18, false⟩ (.node ⟨.track, 137, 27, 37, 0, 15, false⟩ .none
  .none) .none)) (.node ⟨.run, 0, 39, 40, 20, 0, false⟩ (.node ⟨.follow, 85, 26, 33, 4, 0, false⟩
  (.node ⟨.follow, 132, 71, 16, 2, 0, false⟩ .none .none) .none) (.node
  ⟨.leave, 118, 66, 67, 0, 4, false⟩ (.node ⟨.track, 35, 75, 0, 0, 33, false⟩ .none .none) .none)))
  (.node ⟨.follow, 45, 25, 24, 4, 0, false⟩ (.node ⟨.run, 0, 30, 35, 15, 0, false⟩ (.node
  ⟨.follow, 94, 52, 55, 3, 0, false⟩ (.node ⟨.follow, 125, 9, 71, 5, 0, false⟩ .none .none) .none)
  (.node ⟨.come, 111, 44, 27, 6, 0, false⟩ (.node ⟨.track, 152, 29, 37, 0, 15, false⟩ .none .none)
  .none)) (.node ⟨.follow, 72, 10, 46, 3, 0, false⟩ (.node ⟨.follow, 89, 52, 54, 4, 0, false⟩
  (.node ⟨.follow, 144, 66, 59, 3, 0, false⟩ .none .none) .none) (.node
  ⟨.leave, 120, 60, 46, 0, 4, false⟩ (.node ⟨.track, 11, 61, 0, 0, 140, false⟩ .none .none)
  .none)))) (.node ⟨.track, 24, 16, 10, 0, 4, false⟩ (.node ⟨.track, 38, 21, 0, 0, 51, false⟩
  (.node ⟨.track, 60, 33, 25, 0, 18, false⟩ (.node ⟨.track, 90, 54, 51, 0, 18, false⟩ (.node
  ⟨.track, 124, 71, 7, 0, 4, false⟩ .none .none) .none) (.node ⟨.follow, 52, 27, 40, 3, 0, false⟩
  (.node ⟨.track, 148, 73, 39, 0, 18, false⟩ .none .none) .none)) (.node
  ⟨.follow, 22, 9, 11, 3, 0, false⟩ (.node ⟨.follow, 102, 60, 57, 3, 0, false⟩ (.node
  ⟨.track, 134, 73, 28, 0, 18, false⟩ .none .none) .none) (.node
  ⟨.follow, 114, 64, 63, 3, 0, false⟩ (.node ⟨.track, 21, 11, 8, 0, 4, false⟩ .none .none) .none)))
  (.node ⟨.track, 54, 29, 23, 0, 18, false⟩ (.node ⟨.follow, 41, 28, 23, 4, 0, false⟩ (.node
  ⟨.follow, 91, 46, 6, 3, 0, false⟩ (.node ⟨.track, 128, 71, 10, 0, 4, false⟩ .none .none) .none)
  (.node ⟨.run, 0, 64, 65, 6, 0, false⟩ (.node ⟨.track, 51, 40, 23, 0, 18, false⟩ .none .none)
  .none)) (.node ⟨.follow, 78, 30, 21, 4, 0, false⟩ (.node ⟨.follow, 79, 40, 29, 4, 0, false⟩
  (.node ⟨.track, 138, 73, 23, 0, 18, false⟩ .none .none) .none) (.node
  ⟨.follow, 67, 44, 43, 3, 0, false⟩ (.node ⟨.track, 1, 4, 0, 0, 32, false⟩ .none .none)
  .none)))))) (.node ⟨.follow, 2, 2, 4, 3, 0, false⟩ (.node ⟨.track, 8, 6, 0, 0, 85, false⟩ (.node
  ⟨.run, 0, 10, 11, 6, 0, false⟩ (.node ⟨.run, 0, 15, 17, 5, 0, false⟩ (.node
  ⟨.track, 37, 31, 0, 0, 60, false⟩ (.node ⟨.follow, 84, 50, 51, 4, 0, false⟩ (.node
  ⟨.leave, 122, 38, 44, 0, 4, false⟩ .none .none) .none) (.node ⟨.follow, 77, 21, 30, 5, 0, false⟩
  (.node ⟨.come, 139, 44, 73, 6, 0, false⟩ .none .none) .none)) (.node
  ⟨.follow, 53, 27, 29, 4, 0, false⟩ (.node ⟨.follow, 87, 24, 32, 5, 0, false⟩ (.node
  ⟨.follow, 127, 11, 71, 5, 0, false⟩ .none .none) .none) (.node ⟨.follow, 86, 33, 26, 2, 0, false⟩
  (.node ⟨.track, 43, 39, 0, 0, 126, false⟩ .none .none) .none))) (.node
  ⟨.track, 46, 24, 0, 0, 170, false⟩ (.node ⟨.follow, 55, 31, 30, 5, 0, false⟩ (.node
  ⟨.follow, 92, 6, 46, 3, 0, false⟩ (.node ⟨.track, 6, 8, 0, 0, 85, false⟩ .none .none) .none)
  (.node ⟨.follow, 116, 61, 44, 3, 0, false⟩ (.node ⟨.follow, 39, 37, 22, 4, 0, false⟩ .none .none)
  .none)) (.node ⟨.follow, 70, 17, 14, 2, 0, false⟩ (.node ⟨.follow, 103, 48, 29, 4, 0, false⟩
  (.node ⟨.follow, 142, 73, 48, 2, 0, false⟩ .none .none) .none) (.node
  ⟨.follow, 23, 11, 16, 3, 0, false⟩ (.node ⟨.track, 13, 13, 0, 0, 130, false⟩ .none .none)
  .none)))) (.node ⟨.track, 14, 12, 0, 0, 132, false⟩ (.node ⟨.track, 34, 20, 0, 0, 10, false⟩
  (.node ⟨.run, 0, 32, 33, 15, 0, false⟩ (.node ⟨.follow, 88, 32, 24, 4, 0, false⟩ (.node
  ⟨.run, 0, 41, 71, 5, 0, false⟩ .none .none) .none) (.node ⟨.follow, 75, 48, 27, 3, 0, false⟩
  (.node ⟨.follow, 150, 37, 39, 4, 0, false⟩ .none .none) .none)) (.node
  ⟨.follow, 26, 42, 9, 3, 0, false⟩ (.node ⟨.follow, 99, 59, 58, 3, 0, false⟩ (.node
  ⟨.run, 0, 37, 73, 15, 0, false⟩ .none .none) .none) (.node ⟨.follow, 97, 57, 56, 4, 0, false⟩
  (.node ⟨.track, 25, 9, 7, 0, 4, false⟩ .none .none) .none))) (.node
  ⟨.track, 41, 28, 0, 0, 126, false⟩ (.node ⟨.run, 0, 28, 38, 20, 0, false⟩ (.node
  ⟨.follow, 93, 55, 52, 3, 0, false⟩ (.node ⟨.follow, 128, 71, 11, 2, 0, false⟩ .none .none) .none)
  (.node ⟨.follow, 113, 63, 64, 3, 0, false⟩ (.node ⟨.track, 147, 40, 37, 0, 15, false⟩ .none
  .none) .none)) (.node ⟨.follow, 76, 27, 48, 3, 0, false⟩ (.node ⟨.run, 0, 22, 29, 15, 0, false⟩
  (.node ⟨.follow, 138, 73, 27, 2, 0, false⟩ .none .none) .none) (.node
  ⟨.follow, 90, 54, 52, 2, 0, false⟩ (.node ⟨.track, 3, 2, 0, 0, 30, false⟩ .none .none) .none)))))
  (.node ⟨.run, 0, 8, 9, 6, 0, false⟩ (.node ⟨.run, 0, 13, 14, 6, 0, false⟩ (.node
  ⟨.follow, 31, 18, 17, 5, 0, false⟩ (.node ⟨.track, 45, 25, 0, 0, 171, false⟩ (.node
  ⟨.follow, 33, 51, 20, 4, 0, false⟩ (.node ⟨.come, 121, 44, 38, 6, 0, false⟩ .none .none) .none)
  (.node ⟨.follow, 107, 49, 35, 4, 0, false⟩ (.node ⟨.follow, 135, 23, 37, 5, 0, false⟩ .none
  .none) .none)) (.node ⟨.follow, 66, 41, 7, 2, 0, false⟩ (.node ⟨.follow, 98, 56, 57, 2, 0, false⟩
  (.node ⟨.follow, 131, 16, 71, 5, 0, false⟩ .none .none) .none) (.node
  ⟨.run, 0, 67, 68, 7, 0, false⟩ (.node ⟨.track, 29, 14, 12, 0, 4, false⟩ .none .none) .none)))
  (.node ⟨.run, 0, 24, 26, 20, 0, false⟩ (.node ⟨.follow, 61, 36, 35, 4, 0, false⟩ (.node
  ⟨.follow, 96, 54, 55, 2, 0, false⟩ (.node ⟨.track, 125, 9, 41, 0, 3, false⟩ .none .none) .none)
  (.node ⟨.follow, 115, 44, 61, 3, 0, false⟩ (.node ⟨.follow, 151, 73, 29, 2, 0, false⟩ .none
  .none) .none)) (.node ⟨.run, 0, 46, 47, 7, 0, false⟩ (.node ⟨.track, 80, 29, 39, 0, 18, false⟩
  (.node ⟨.follow, 143, 59, 66, 3, 0, false⟩ .none .none) .none) (.node
  ⟨.come, 119, 46, 60, 6, 0, false⟩ (.node ⟨.track, 9, 8, 0, 0, 80, false⟩ .none .none) .none))))
  (.node ⟨.track, 7, 10, 0, 0, 90, false⟩ (.node ⟨.track, 40, 22, 0, 0, 121, false⟩ (.node
  ⟨.follow, 59, 34, 33, 4, 0, false⟩ (.node ⟨.follow, 83, 51, 50, 5, 0, false⟩ (.node
  ⟨.follow, 123, 42, 71, 5, 0, false⟩ .none .none) .none) (.node ⟨.leave, 110, 56, 46, 0, 4, false⟩
  (.node ⟨.follow, 149, 39, 37, 5, 0, false⟩ .none .none) .none)) (.node
  ⟨.follow, 68, 43, 44, 3, 0, false⟩ (.node ⟨.follow, 101, 57, 60, 3, 0, false⟩ (.node
  ⟨.follow, 133, 38, 73, 4, 0, false⟩ .none .none) .none) (.node ⟨.run, 0, 63, 69, 7, 0, false⟩
  (.node ⟨.track, 19, 3, 1, 0, 4, false⟩ .none .none) .none))) (.node
  ⟨.track, 44, 23, 0, 0, 130, false⟩ (.node ⟨.run, 0, 23, 27, 20, 0, false⟩ (.node
  ⟨.run, 0, 6, 16, 6, 0, false⟩ (.node ⟨.follow, 130, 41, 46, 2, 0, false⟩ .none .none) .none)
  (.node ⟨.follow, 73, 48, 38, 3, 0, false⟩ (.node ⟨.track, 47, 58, 74, 0, 18, false⟩ .none .none)
  .none)) (.node ⟨.run, 0, 21, 49, 20, 0, false⟩ (.node ⟨.follow, 106, 40, 48, 3, 0, false⟩ (.node
  ⟨.leave, 140, 73, 44, 0, 4, false⟩ .none .none) .none) (.node ⟨.run, 0, 43, 70, 6, 0, false⟩
  .none .none))))))

/-- the bounds of the departures -/
def ko1n8Times : TimeTree :=
  .node 4 0 4 (.node 34 0 74 (.node 42 4 82 (.node 84 0 124 (.node 135 0 175 (.node 55 0 95 (.node
  109 0 149 .none .none) .none) (.node 98 4 138 .none .none)) (.node 130 0 170 (.node 134 0 174
  (.node 88 0 128 .none .none) .none) (.node 36 4 76 .none .none))) (.node 95 4 135 (.node 156 6
  196 (.node 77 6 117 (.node 54 0 94 .none .none) .none) (.node 14 0 54 .none .none)) (.node 150 4
  190 (.node 144 0 184 (.node 44 0 84 .none .none) .none) (.node 62 4 102 .none .none)))) (.node 45
  4 85 (.node 92 4 132 (.node 140 0 180 (.node 190 6 230 (.node 115 4 155 .none .none) .none)
  (.node 84 4 124 .none .none)) (.node 174 0 214 (.node 83 0 123 (.node 140 6 180 .none .none)
  .none) (.node 93 4 133 .none .none))) (.node 136 0 176 (.node 64 0 104 (.node 125 0 165 (.node
  117 4 157 .none .none) .none) (.node 50 4 90 .none .none)) (.node 156 6 196 (.node 151 4 191
  .none .none) (.node 147 0 187 .none .none))))) (.node 36 0 76 (.node 39 0 79 (.node 86 0 126
  (.node 100 4 140 (.node 175 0 215 (.node 109 0 149 .none .none) .none) (.node 148 4 188 .none
  .none)) (.node 175 0 215 (.node 154 4 194 (.node 103 6 143 .none .none) .none) (.node 101 6 141
  .none .none))) (.node 134 0 174 (.node 30 0 70 (.node 75 4 115 (.node 61 4 101 .none .none)
  .none) (.node 34 4 74 .none .none)) (.node 123 0 163 (.node 144 0 184 .none .none) (.node 95 4
  135 .none .none)))) (.node 94 0 134 (.node 89 0 129 (.node 140 4 180 (.node 194 4 234 (.node 59 4
  99 .none .none) .none) (.node 24 0 64 .none .none)) (.node 195 4 235 (.node 90 4 130 (.node 37 0
  77 .none .none) .none) (.node 64 4 104 .none .none))) (.node 142 4 182 (.node 141 0 181 (.node
  143 4 183 (.node 150 4 190 .none .none) .none) (.node 39 6 79 .none .none)) (.node 62 0 102
  (.node 91 0 131 .none .none) (.node 153 4 193 .none .none)))))

/-- some of the cases -/
def ko1n8Case0 : SumTree :=
  .cases [119, 8, 120, 144, 139] 53 (.leaf [98]) (.cases [] 73 (.leaf [167]) (.cases [] 33 (.cases
  [125, 126, 127] 70 (.leaf [155]) (.cases [152] 68 (.leaf [163]) (.cases [] 38 (.cycle 21
  [96, 41, 97]) (.cases [61, 62] 67 (.cycle 23 [162, 148, 157]) (.cases [151, 46, 47, 49] 58 (.leaf
  [115]) (.leaf [113, 114])))))) (.cases [54, 55] 68 (.leaf [163]) (.cases [] 69 (.leaf
  [160, 157, 30]) (.cases [] 43 (.cases [] 65 (.cases [146, 139] 70 (.leaf [155, 156]) (.cases []
  42 (.leaf [81]) (.cycle 33 [79, 80, 36]))) (.cases [145] 70 (.leaf [155, 156]) (.cases [152] 42
  (.leaf [81]) (.cycle 33 [79, 80, 36])))) (.cases [68, 26] 70 (.leaf [155, 156]) (.cases [] 38
  (.cycle 21 [96, 41, 97]) (.cases [61, 62] 67 (.cycle 23 [162, 148, 157]) (.leaf
  [151, 46, 47, 49])))))))))

/-- some of the cases -/
def ko1n8Case1 : SumTree :=
  .cases [162] 68 (.cases [163] 73 (.cases [167, 172, 168, 92] 65 (.leaf [146, 139]) (.cases [145]
  34 (.leaf [123, 19]) (.leaf [56]))) (.cases [] 74 (.cycle 73 [165, 166, 148]) (.cases [164, 49]
  39 (.leaf [93]) (.cases [] 40 (.cycle 39 [91, 92, 90]) (.cases [63, 49] 45 (.cases [77, 78] 56
  (.leaf [108, 109]) (.leaf [117, 118])) (.leaf [72, 58])))))) (.cycle 23 [162, 148, 157])

/-- some of the cases -/
def ko1n8Case2 : SumTree :=
  .cases [151, 46, 47, 49] 68 (.cycle 37 [151, 46, 161]) (.cases [] 70 (.cases
  [155, 156, 157, 48, 47, 49] 65 (.leaf [146, 139]) (.cases [145] 34 (.leaf [123, 19]) (.leaf
  [56]))) (.cases [152] 65 (.cases [146, 139] 53 (.leaf [98]) (.cases [] 41 (.cases [] 33 (.cases
  [125, 126, 127] 38 (.cycle 21 [96, 41, 97]) (.cases [61, 62] 40 (.cases [] 39 (.leaf [93])
  (.cycle 29 [90, 91, 92])) (.leaf [63, 49]))) (.cases [54, 55] 43 (.cases [] 34 (.cases [123, 19]
  39 (.leaf [93]) (.cases [99] 37 (.cases [] 42 (.leaf [81]) (.cycle 33 [79, 80, 36])) (.leaf
  [60]))) (.cases [56] 44 (.cases [] 38 (.cycle 21 [96, 41, 97]) (.cases [61, 62] 46 (.leaf [76])
  (.cases [73] 47 (.cases [75] 49 (.leaf [84]) (.leaf [83])) (.leaf [74])))) (.cycle 54
  [69, 70, 71]))) (.cases [68, 26] 39 (.leaf [93]) (.cases [99] 37 (.cases [] 40 (.cycle 29
  [90, 91, 92]) (.leaf [63, 49])) (.leaf [60]))))) (.leaf [64, 65]))) (.cases [145] 33 (.cases
  [125, 126, 127] 53 (.leaf [98]) (.cases [] 41 (.cases [] 43 (.cases [] 34 (.cases [123, 19] 39
  (.leaf [93]) (.cases [99] 37 (.cases [] 42 (.leaf [81]) (.cycle 33 [79, 80, 36])) (.leaf [60])))
  (.cases [56] 44 (.cases [] 38 (.cycle 21 [96, 41, 97]) (.cases [61, 62] 46 (.leaf [76]) (.cases
  [73] 47 (.cases [75] 49 (.leaf [84]) (.leaf [83])) (.leaf [74])))) (.cycle 54 [69, 70, 71])))
  (.cases [68, 26] 39 (.leaf [93]) (.cases [99] 37 (.cases [] 40 (.cycle 29 [90, 91, 92]) (.leaf
  [63, 49])) (.leaf [60])))) (.leaf [64, 65]))) (.cases [54, 55] 53 (.leaf [98]) (.cases [] 38
  (.cycle 21 [96, 41, 97]) (.cases [61, 62] 39 (.cases [93] 42 (.leaf [81]) (.cases [112] 34 (.leaf
  [123, 19]) (.leaf [56]))) (.cases [99] 43 (.cases [] 34 (.cases [123, 19] 46 (.leaf [76]) (.cases
  [73] 47 (.cases [75] 49 (.leaf [84]) (.leaf [83])) (.leaf [74]))) (.cases [56] 37 (.cases [] 42
  (.leaf [81]) (.cycle 33 [79, 80, 36])) (.leaf [60]))) (.cases [68, 26] 34 (.leaf [123, 19])
  (.cases [56] 46 (.leaf [76]) (.leaf [73]))))))))))

/-- some of the cases -/
def ko1n8Case3 : SumTree :=
  .cases [140, 141, 120, 171] 64 (.leaf [143, 132, 141, 14]) (.cases [142] 35 (.leaf [119, 14])
  (.cases [57, 58] 33 (.cases [125, 126, 127] 53 (.leaf [98]) (.cases [] 34 (.cases [123, 19] 70
  (.leaf [155]) (.cases [152] 68 (.leaf [163]) (.cases [] 38 (.cycle 21 [96, 41, 97]) (.cases
  [61, 62] 67 (.cycle 23 [162, 148, 157]) (.cases [151, 46, 47, 49] 58 (.leaf [115]) (.leaf
  [113, 114])))))) (.cases [56] 45 (.cases [77, 78] 46 (.leaf [76]) (.cases [73] 47 (.cases [75] 49
  (.leaf [84]) (.leaf [83])) (.leaf [74]))) (.cases [72, 58] 46 (.leaf [76]) (.cases [73] 47
  (.cases [75] 49 (.leaf [84]) (.leaf [83])) (.leaf [74])))))) (.cases [54, 55] 73 (.leaf [167])
  (.cases [] 75 (.cases [] 70 (.cases [155] 53 (.leaf [98]) (.cases [] 37 (.cases [100] 38 (.cycle
  21 [96, 41, 97]) (.cases [61, 62] 34 (.leaf [123, 19]) (.cases [56] 46 (.leaf [76]) (.leaf
  [73])))) (.leaf [60, 155]))) (.cases [152] 67 (.cases [162, 148, 152] 53 (.leaf [98]) (.cases []
  38 (.cycle 21 [96, 41, 97]) (.cases [61, 62] 74 (.cycle 39 [166, 148, 165]) (.leaf [164, 49]))))
  (.cases [151, 46, 47, 49] 43 (.cases [] 34 (.cases [123, 19] 39 (.leaf [93]) (.cases [99] 37
  (.cases [] 42 (.leaf [81]) (.cycle 33 [79, 80, 36])) (.leaf [60]))) (.cases [56] 39 (.leaf [93])
  (.cases [99] 37 (.cases [] 42 (.leaf [81]) (.cycle 33 [79, 80, 36])) (.leaf [60])))) (.cases
  [68, 26] 46 (.leaf [76]) (.cases [73] 47 (.cases [75] 49 (.leaf [84]) (.leaf [83])) (.leaf
  [74])))))) (.cycle 29 [169, 168, 92])))))

/-- some of the cases -/
def ko1n8Case4 : SumTree :=
  .cases [123, 19] 33 (.cases [125, 126, 127] 53 (.leaf [98]) (.cases [] 41 (.cases [] 35 (.cases
  [119, 8, 120] 46 (.leaf [76]) (.cases [73] 47 (.leaf [75]) (.leaf [74]))) (.cases [57, 58] 44
  (.cases [] 38 (.cycle 21 [96, 41, 97]) (.cases [61, 62] 46 (.leaf [76]) (.cases [73] 47 (.cases
  [75] 49 (.leaf [84]) (.leaf [83])) (.leaf [74])))) (.cycle 54 [69, 70, 71]))) (.leaf [64, 65])))
  (.cases [54, 55] 53 (.leaf [98]) (.cases [] 41 (.cases [] 35 (.cases [119, 8, 120] 44 (.cases []
  38 (.cycle 21 [96, 41, 97]) (.cases [61, 62] 46 (.leaf [76]) (.cases [73] 47 (.cases [75] 49
  (.leaf [84]) (.leaf [83])) (.leaf [74])))) (.cycle 54 [69, 70, 71])) (.cases [57, 58] 45 (.cases
  [77, 78] 44 (.cases [] 38 (.cycle 21 [96, 41, 97]) (.cases [61, 62] 46 (.leaf [76]) (.cases [73]
  47 (.cases [75] 49 (.leaf [84]) (.leaf [83])) (.leaf [74])))) (.cycle 54 [69, 70, 71])) (.cases
  [72, 58] 44 (.cases [] 38 (.cycle 21 [96, 41, 97]) (.cases [61, 62] 46 (.leaf [76]) (.cases [73]
  47 (.cases [75] 49 (.leaf [84]) (.leaf [83])) (.leaf [74])))) (.cycle 54 [69, 70, 71])))) (.leaf
  [64, 65])))

/-- some of the cases -/
def ko1n8Case5 : SumTree :=
  .cases [56] 33 (.cases [125, 126, 127] 53 (.leaf [98]) (.cases [] 41 (.cases [] 43 (.cases [] 35
  (.cases [119, 8, 120] 46 (.leaf [76]) (.cases [73] 47 (.cases [75] 49 (.leaf [84]) (.leaf [83]))
  (.leaf [74]))) (.cases [57, 58] 38 (.cycle 21 [96, 41, 97]) (.cases [61, 62] 42 (.leaf [81])
  (.cycle 33 [79, 80, 36])))) (.cases [68, 26] 44 (.cases [] 38 (.cycle 21 [96, 41, 97]) (.cases
  [61, 62] 46 (.leaf [76]) (.cases [73] 47 (.leaf [75]) (.leaf [74])))) (.cycle 54 [69, 70, 71])))
  (.leaf [64, 65]))) (.cases [54, 55] 53 (.leaf [98]) (.cases [] 41 (.cases [] 35 (.cases
  [119, 8, 120] 38 (.cycle 21 [96, 41, 97]) (.cases [61, 62] 44 (.cases [] 42 (.leaf [81]) (.cases
  [112] 46 (.leaf [76]) (.cases [73] 47 (.leaf [75]) (.leaf [74])))) (.cycle 54 [69, 70, 71])))
  (.cases [57, 58] 43 (.cases [] 45 (.cases [77, 78] 38 (.cycle 21 [96, 41, 97]) (.cases [61, 62]
  42 (.leaf [81]) (.cycle 33 [79, 80, 36]))) (.cases [72, 58] 38 (.cycle 21 [96, 41, 97]) (.cases
  [61, 62] 42 (.leaf [81]) (.cycle 33 [79, 80, 36])))) (.cases [68, 26] 44 (.cases [] 38 (.cycle 21
  [96, 41, 97]) (.cases [61, 62] 46 (.leaf [76]) (.cases [73] 47 (.leaf [75]) (.leaf [74]))))
  (.cycle 54 [69, 70, 71])))) (.leaf [64, 65])))

/-- some of the cases -/
def ko1n8Case6 : SumTree :=
  .cases [] 39 (.cases [93] 37 (.cases [100, 163, 161, 164, 49, 93] 53 (.leaf [98]) (.cases [] 41
  (.cases [] 43 (.cases [] 34 (.cases [123, 19] 38 (.cycle 21 [96, 41, 97]) (.cases [61, 62] 42
  (.leaf [81]) (.cycle 33 [79, 80, 36]))) (.cases [56] 35 (.cases [119, 8, 120] 56 (.leaf
  [108, 109]) (.leaf [117, 118])) (.cases [57, 58] 46 (.leaf [76]) (.cases [73] 47 (.cases [75] 49
  (.leaf [84]) (.leaf [83])) (.leaf [74]))))) (.cases [68, 26] 44 (.cases [] 38 (.cycle 21
  [96, 41, 97]) (.cases [61, 62] 46 (.leaf [76]) (.cases [73] 47 (.cases [75] 49 (.leaf [84])
  (.leaf [83])) (.leaf [74])))) (.cycle 54 [69, 70, 71]))) (.leaf [64, 65]))) (.cases [60] 53
  (.leaf [98]) (.cases [] 41 (.cases [] 43 (.cases [] 34 (.cases [123, 19] 38 (.cycle 21
  [96, 41, 97]) (.cases [61, 62] 42 (.leaf [81]) (.cycle 33 [79, 80, 36]))) (.cases [56] 35 (.cases
  [119, 8, 120] 56 (.leaf [108, 109]) (.leaf [117, 118])) (.cases [57, 58] 46 (.leaf [76]) (.cases
  [73] 47 (.cases [75] 49 (.leaf [84]) (.leaf [83])) (.leaf [74]))))) (.cases [68, 26] 44 (.cases
  [] 38 (.cycle 21 [96, 41, 97]) (.cases [61, 62] 46 (.leaf [76]) (.cases [73] 47 (.cases [75] 49
  (.leaf [84]) (.leaf [83])) (.leaf [74])))) (.cycle 54 [69, 70, 71]))) (.leaf [64, 65])))) (.cycle
  39 [91, 92, 90])

/-- some of the cases -/
def ko1n8Case7 : SumTree :=
  .cases [123, 19] 33 (.cases [125, 126, 127] 35 (.cases [119, 8, 120] 46 (.leaf [76]) (.cases [73]
  47 (.cases [75] 49 (.leaf [84]) (.leaf [83])) (.leaf [74]))) (.cases [57, 58] 45 (.cases [77, 78]
  46 (.leaf [76]) (.cases [73] 47 (.cases [75] 49 (.leaf [84]) (.leaf [83])) (.leaf [74]))) (.cases
  [72, 58] 46 (.leaf [76]) (.cases [73] 47 (.cases [75] 49 (.leaf [84]) (.leaf [83])) (.leaf
  [74]))))) (.cases [54, 55] 41 (.cases [] 35 (.cases [119, 8, 120] 43 (.cases [] 56 (.cases
  [108, 109] 46 (.leaf [76]) (.cases [73] 47 (.cases [75] 49 (.leaf [84]) (.leaf [83])) (.leaf
  [74]))) (.cases [117, 118] 42 (.leaf [81]) (.cycle 33 [79, 80, 36]))) (.cases [68, 26] 56 (.leaf
  [108, 109]) (.cases [] 57 (.leaf [106, 107]) (.leaf [104, 55])))) (.cases [57, 58] 53 (.leaf
  [98]) (.cases [] 43 (.cases [] 38 (.cycle 21 [96, 41, 97]) (.cases [61, 62] 45 (.cases [77, 78]
  42 (.leaf [81]) (.cycle 33 [79, 80, 36])) (.cases [72, 58] 42 (.leaf [81]) (.cycle 33
  [79, 80, 36])))) (.cases [68, 26] 44 (.cases [] 38 (.cycle 21 [96, 41, 97]) (.cases [61, 62] 46
  (.leaf [76]) (.cases [73] 47 (.leaf [75]) (.leaf [74])))) (.cycle 54 [69, 70, 71]))))) (.leaf
  [64, 65]))

/-- some of the cases -/
def ko1n8Case8 : SumTree :=
  .cases [56] 33 (.cases [125, 126, 127] 53 (.leaf [98]) (.cases [] 41 (.cases [] 43 (.cases [] 35
  (.cases [119, 8, 120] 42 (.leaf [81]) (.cycle 33 [79, 80, 36])) (.cases [57, 58] 45 (.cases
  [77, 78] 42 (.leaf [81]) (.cycle 33 [79, 80, 36])) (.cases [72, 58] 42 (.leaf [81]) (.cycle 33
  [79, 80, 36])))) (.cases [68, 26] 44 (.cases [] 38 (.cycle 21 [96, 41, 97]) (.cases [61, 62] 46
  (.leaf [76]) (.cases [73] 47 (.cases [75] 49 (.leaf [84]) (.leaf [83])) (.leaf [74])))) (.cycle
  54 [69, 70, 71]))) (.leaf [64, 65]))) (.cases [54, 55] 35 (.cases [119, 8, 120] 53 (.leaf [98])
  (.cases [] 41 (.cases [] 43 (.cases [] 56 (.cases [108, 109] 42 (.leaf [81]) (.cycle 33
  [79, 80, 36])) (.cases [117, 118] 44 (.cases [] 38 (.cycle 21 [96, 41, 97]) (.cases [61, 62] 46
  (.leaf [76]) (.cases [73] 47 (.cases [75] 49 (.leaf [84]) (.leaf [83])) (.leaf [74])))) (.cycle
  54 [69, 70, 71]))) (.cases [68, 26] 46 (.leaf [76]) (.cases [73] 47 (.leaf [75]) (.leaf [74]))))
  (.leaf [64, 65]))) (.cases [57, 58] 53 (.leaf [98]) (.cases [] 41 (.cases [] 43 (.cases [] 38
  (.cycle 21 [96, 41, 97]) (.cases [61, 62] 42 (.cases [81] 46 (.leaf [76]) (.cases [73] 47 (.leaf
  [75]) (.leaf [74]))) (.cycle 33 [79, 80, 36]))) (.cases [68, 26] 44 (.cases [] 38 (.cycle 21
  [96, 41, 97]) (.cases [61, 62] 46 (.leaf [76]) (.cases [73] 47 (.cases [75] 49 (.leaf [84])
  (.leaf [83])) (.leaf [74])))) (.cycle 54 [69, 70, 71]))) (.leaf [64, 65, 66, 67]))))

/-- some of the cases -/
def ko1n8Case9 : SumTree :=
  .cases [119, 8, 120] 38 (.cases [] 53 (.cases [98] 40 (.cases [] 56 (.cases [108, 109] 70 (.leaf
  [155, 156]) (.cases [] 39 (.leaf [93]) (.cycle 29 [90, 91, 92]))) (.cases [117, 118] 70 (.leaf
  [155, 156]) (.cases [152] 39 (.leaf [93]) (.cycle 29 [90, 91, 92])))) (.leaf [63, 49])) (.cycle
  21 [96, 41, 97])) (.cases [61, 62] 70 (.cases [155, 156, 157, 48, 47, 49] 39 (.leaf [93]) (.cases
  [99] 42 (.leaf [81]) (.cases [112] 40 (.cycle 29 [90, 91, 92]) (.leaf [63, 49])))) (.cases [152]
  39 (.cases [93] 41 (.cases [] 42 (.cases [81] 48 (.cases [] 56 (.cases [108, 109] 46 (.leaf [76])
  (.cases [73] 47 (.cases [75] 49 (.leaf [84]) (.leaf [83])) (.leaf [74]))) (.cases [117, 118] 44
  (.cases [] 46 (.leaf [76, 89]) (.cases [73] 49 (.cases [] 50 (.cases [86] 59 (.cases [122] 47
  (.leaf [75]) (.leaf [74])) (.leaf [121, 119, 14])) (.leaf [85])) (.leaf [83]))) (.cycle 54
  [69, 70, 71]))) (.leaf [82])) (.cases [] 43 (.cycle 33 [79, 80, 36]) (.cases [68, 26] 48 (.cases
  [] 56 (.cases [108, 109] 44 (.cases [] 46 (.leaf [76, 89]) (.cases [73] 49 (.cases [] 50 (.cases
  [86] 59 (.cases [122] 47 (.leaf [75]) (.leaf [74])) (.leaf [121, 119, 14])) (.leaf [85])) (.leaf
  [83]))) (.cycle 54 [69, 70, 71])) (.cases [117, 118] 44 (.cases [] 46 (.leaf [76, 89]) (.cases
  [73] 71 (.leaf [154]) (.cases [] 47 (.cases [75] 49 (.cases [84] 50 (.cases [86] 58 (.leaf
  [115, 153]) (.leaf [113, 114])) (.leaf [85])) (.leaf [83])) (.cases [74] 49 (.cases [84] 50
  (.leaf [86]) (.leaf [85])) (.leaf [83]))))) (.cycle 54 [69, 70, 71]))) (.leaf [82])))) (.leaf
  [64, 65])) (.cases [] 40 (.cycle 29 [90, 91, 92]) (.cases [63, 49] 41 (.cases [] 43 (.cases [] 42
  (.cases [81] 46 (.leaf [76]) (.cases [73] 47 (.cases [75] 49 (.leaf [84]) (.leaf [83])) (.leaf
  [74]))) (.cycle 33 [79, 80, 36])) (.cases [68, 26] 44 (.cases [] 48 (.cases [] 37 (.cases [] 46
  (.leaf [76, 89]) (.cases [73] 49 (.cases [84] 50 (.cases [86] 59 (.cases [122] 56 (.leaf
  [108, 109]) (.leaf [117, 118])) (.leaf [121, 119, 14])) (.leaf [85])) (.leaf [83]))) (.leaf
  [60])) (.leaf [82])) (.cycle 54 [69, 70, 71]))) (.leaf [64, 65])))))

/-- some of the cases -/
def ko1n8Case10 : SumTree :=
  .cases [] 53 (.cases [98] 43 (.cases [] 39 (.cases [93] 70 (.leaf [155, 157, 47, 49, 93]) (.cases
  [] 42 (.leaf [81]) (.cycle 33 [79, 80, 36]))) (.cases [99] 52 (.cases [] 51 (.cases [] 45 (.cases
  [77, 78] 70 (.leaf [155, 156, 48]) (.cases [152] 37 (.cases [] 42 (.leaf [81]) (.cycle 33
  [79, 80, 36])) (.leaf [60, 88, 99]))) (.cases [72, 58] 70 (.leaf [155, 156, 48]) (.cases [152] 37
  (.cases [] 42 (.leaf [81]) (.cycle 33 [79, 80, 36])) (.leaf [60, 88])))) (.leaf [87, 95])) (.leaf
  [94]))) (.cases [68, 26] 70 (.leaf [155, 156]) (.cases [152] 39 (.leaf [93]) (.cases [99] 37
  (.cases [] 40 (.cycle 29 [90, 91, 92]) (.leaf [63, 49])) (.leaf [60]))))) (.cycle 21
  [96, 41, 97])

/-- some of the cases -/
def ko1n8Case11 : SumTree :=
  .cases [155, 156, 157, 48, 47, 49] 43 (.cases [] 45 (.cases [77, 78] 39 (.leaf [93]) (.cases [99]
  42 (.leaf [81]) (.cycle 33 [79, 80, 36]))) (.cases [72, 58] 39 (.leaf [93]) (.cases [99] 42
  (.leaf [81]) (.cycle 33 [79, 80, 36])))) (.cases [68, 26] 46 (.leaf [76]) (.cases [73] 47 (.leaf
  [75]) (.leaf [74])))

/-- some of the cases -/
def ko1n8Case12 : SumTree :=
  .cases [93] 42 (.cases [81] 41 (.cases [] 46 (.cases [76] 44 (.leaf [89]) (.cycle 54
  [69, 70, 71])) (.cases [73] 48 (.cases [] 49 (.cases [84] 50 (.cases [86] 47 (.cases [75] 45
  (.cases [77, 78] 56 (.leaf [108, 109]) (.leaf [117, 118])) (.cases [72, 58] 56 (.leaf [108, 109])
  (.leaf [117, 118]))) (.cases [74] 45 (.cases [77, 78] 56 (.leaf [108, 109]) (.leaf [117, 118]))
  (.cases [72, 58] 56 (.leaf [108, 109]) (.leaf [117, 118])))) (.cases [85, 116] 45 (.leaf
  [77, 78]) (.leaf [72, 58]))) (.cases [83] 50 (.cases [86] 47 (.cases [75] 58 (.leaf [115]) (.leaf
  [113, 114])) (.leaf [74])) (.leaf [85]))) (.leaf [82]))) (.leaf [64, 65])) (.cases [] 43 (.cycle
  33 [79, 80, 36]) (.cases [68, 26] 41 (.cases [] 45 (.cases [77, 78] 48 (.cases [] 56 (.cases
  [108, 109] 44 (.cases [] 46 (.leaf [76, 89]) (.cases [73] 49 (.cases [84] 50 (.cases [86] 47
  (.leaf [75]) (.leaf [74])) (.leaf [85])) (.leaf [83]))) (.cycle 54 [69, 70, 71])) (.cases
  [117, 118] 44 (.cases [] 46 (.leaf [76, 89]) (.cases [73] 71 (.leaf [154]) (.cases [] 47 (.cases
  [75] 49 (.cases [84] 50 (.cases [86] 58 (.leaf [115, 153]) (.leaf [113, 114])) (.leaf [85]))
  (.leaf [83])) (.cases [74] 49 (.cases [84] 50 (.leaf [86]) (.leaf [85])) (.leaf [83]))))) (.cycle
  54 [69, 70, 71]))) (.leaf [82])) (.cases [72, 58] 48 (.cases [] 56 (.cases [108, 109] 44 (.cases
  [] 46 (.leaf [76, 89]) (.cases [73] 49 (.cases [84] 50 (.cases [86] 47 (.leaf [75]) (.leaf [74]))
  (.leaf [85])) (.leaf [83]))) (.cycle 54 [69, 70, 71])) (.cases [117, 118] 44 (.cases [] 46 (.leaf
  [76, 89]) (.cases [73] 71 (.leaf [154]) (.cases [] 47 (.cases [75] 49 (.cases [84] 50 (.cases
  [86] 58 (.leaf [115, 153]) (.leaf [113, 114])) (.leaf [85])) (.leaf [83])) (.cases [74] 49
  (.cases [84] 50 (.leaf [86]) (.leaf [85])) (.leaf [83]))))) (.cycle 54 [69, 70, 71]))) (.leaf
  [82]))) (.leaf [64, 65])))

/-- some of the cases -/
def ko1n8Case13 : SumTree :=
  .cases [] 40 (.cycle 29 [90, 91, 92]) (.cases [63, 49] 41 (.cases [] 42 (.cases [81] 45 (.cases
  [77, 78] 46 (.leaf [76]) (.cases [73] 47 (.cases [75] 49 (.leaf [84]) (.leaf [83])) (.leaf
  [74]))) (.cases [72, 58] 46 (.leaf [76]) (.cases [73] 47 (.cases [75] 49 (.leaf [84]) (.leaf
  [83])) (.leaf [74])))) (.cases [] 43 (.cycle 33 [79, 80, 36]) (.cases [68, 26] 48 (.cases [] 51
  (.cases [] 45 (.cases [77, 78] 44 (.cases [] 37 (.cases [] 46 (.leaf [76, 89]) (.cases [73] 49
  (.cases [84] 50 (.cases [86] 56 (.leaf [108, 109]) (.cases [] 47 (.leaf [75]) (.leaf [74])))
  (.leaf [85])) (.leaf [83]))) (.leaf [60, 88])) (.cycle 54 [69, 70, 71])) (.cases [72, 58] 44
  (.cases [] 37 (.cases [] 46 (.leaf [76, 89]) (.cases [73] 49 (.cases [84] 50 (.cases [86] 56
  (.leaf [108, 109]) (.cases [] 47 (.leaf [75]) (.leaf [74]))) (.leaf [85])) (.leaf [83]))) (.leaf
  [60])) (.cycle 54 [69, 70, 71]))) (.leaf [87])) (.leaf [82])))) (.leaf [64, 65]))

/-- some of the cases -/
def ko1n8Case14 : SumTree :=
  .cases [155, 156, 157, 48, 47, 49] 53 (.leaf [98]) (.cases [] 41 (.cases [] 43 (.cases [] 56
  (.cases [108, 109] 39 (.leaf [93]) (.cases [99] 42 (.leaf [81]) (.cycle 33 [79, 80, 36])))
  (.cases [117, 118] 44 (.cases [] 38 (.cycle 21 [96, 41, 97]) (.cases [61, 62] 46 (.leaf [76])
  (.cases [73] 47 (.cases [75] 49 (.leaf [84]) (.leaf [83])) (.leaf [74])))) (.cycle 54
  [69, 70, 71]))) (.cases [68, 26] 46 (.leaf [76]) (.cases [73] 47 (.leaf [75]) (.leaf [74]))))
  (.leaf [64, 65]))

/-- some of the cases -/
def ko1n8Case15 : SumTree :=
  .cases [152] 38 (.cases [] 53 (.cases [98] 41 (.cases [] 40 (.cases [] 56 (.cases [108, 109] 39
  (.leaf [93]) (.cycle 29 [90, 91, 92])) (.cases [117, 118] 44 (.cases [] 39 (.cases [93] 46 (.leaf
  [76]) (.leaf [73])) (.cycle 29 [90, 91, 92])) (.cycle 54 [69, 70, 71]))) (.leaf [63, 49])) (.leaf
  [64, 65])) (.cycle 21 [96, 41, 97])) (.cases [61, 62] 39 (.cases [93] 41 (.cases [] 42 (.cases
  [81] 48 (.cases [] 56 (.cases [108, 109] 46 (.leaf [76]) (.cases [73] 47 (.cases [75] 49 (.leaf
  [84]) (.leaf [83])) (.leaf [74]))) (.cases [117, 118] 44 (.cases [] 46 (.leaf [76, 89]) (.cases
  [73] 49 (.cases [] 50 (.cases [86] 59 (.cases [122] 47 (.leaf [75]) (.leaf [74])) (.leaf
  [121, 119, 14])) (.leaf [85])) (.leaf [83]))) (.cycle 54 [69, 70, 71]))) (.leaf [82])) (.cases []
  43 (.cycle 33 [79, 80, 36]) (.cases [68, 26] 48 (.cases [] 56 (.cases [108, 109] 44 (.cases [] 46
  (.leaf [76, 89]) (.cases [73] 49 (.cases [] 50 (.cases [86] 59 (.cases [122] 47 (.leaf [75])
  (.leaf [74])) (.leaf [121, 119, 14])) (.leaf [85])) (.leaf [83]))) (.cycle 54 [69, 70, 71]))
  (.cases [117, 118] 44 (.cases [] 46 (.leaf [76, 89]) (.cases [73] 71 (.leaf [154]) (.cases [] 47
  (.cases [75] 49 (.cases [84] 50 (.cases [86] 58 (.leaf [115, 153]) (.leaf [113, 114])) (.leaf
  [85])) (.leaf [83])) (.cases [74] 49 (.cases [84] 50 (.leaf [86]) (.leaf [85])) (.leaf [83])))))
  (.cycle 54 [69, 70, 71]))) (.leaf [82])))) (.leaf [64, 65])) (.cases [] 40 (.cycle 29
  [90, 91, 92]) (.cases [63, 49] 41 (.cases [] 43 (.cases [] 42 (.cases [81] 46 (.leaf [76])
  (.cases [73] 47 (.cases [75] 49 (.leaf [84]) (.leaf [83])) (.leaf [74]))) (.cycle 33
  [79, 80, 36])) (.cases [68, 26] 44 (.cases [] 48 (.cases [] 37 (.cases [] 46 (.leaf [76, 89])
  (.cases [73] 49 (.cases [84] 50 (.cases [86] 59 (.cases [122] 56 (.leaf [108, 109]) (.leaf
  [117, 118])) (.leaf [121, 119, 14])) (.leaf [85])) (.leaf [83]))) (.leaf [60])) (.leaf [82]))
  (.cycle 54 [69, 70, 71]))) (.leaf [64, 65]))))

/-- some of the cases -/
def ko1n8Case16 : SumTree :=
  .cases [] 53 (.cases [98] 41 (.cases [] 39 (.cases [93] 44 (.cases [] 70 (.leaf
  [155, 157, 47, 49, 93]) (.cases [152] 42 (.leaf [81]) (.cases [112] 46 (.leaf [76]) (.cases [73]
  47 (.leaf [75]) (.leaf [74]))))) (.cycle 54 [69, 70, 71])) (.cases [] 45 (.cases [77, 78] 70
  (.leaf [155, 156, 48]) (.cases [152] 40 (.cycle 29 [90, 91, 92]) (.leaf [63, 49]))) (.cases
  [72, 58] 70 (.leaf [155, 156, 48]) (.cases [152] 40 (.cycle 29 [90, 91, 92]) (.leaf [63, 49])))))
  (.leaf [64, 65])) (.cycle 21 [96, 41, 97])

/-- some of the cases -/
def ko1n8Case17 : SumTree :=
  .cases [155, 156, 157, 48, 47, 49] 40 (.cases [] 39 (.cases [93] 46 (.leaf [76]) (.cases [73] 47
  (.leaf [75]) (.leaf [74]))) (.cycle 29 [90, 91, 92])) (.cases [63, 49] 45 (.leaf [77, 78]) (.leaf
  [72, 58]))

/-- some of the cases -/
def ko1n8Case18 : SumTree :=
  .cases [93] 42 (.cases [81] 41 (.cases [] 46 (.cases [76] 44 (.leaf [89]) (.cycle 54
  [69, 70, 71])) (.cases [73] 48 (.cases [] 49 (.cases [84] 50 (.cases [86] 47 (.cases [75] 45
  (.cases [77, 78] 56 (.leaf [108, 109]) (.leaf [117, 118])) (.cases [72, 58] 56 (.leaf [108, 109])
  (.leaf [117, 118]))) (.cases [74] 45 (.cases [77, 78] 56 (.leaf [108, 109]) (.leaf [117, 118]))
  (.cases [72, 58] 56 (.leaf [108, 109]) (.leaf [117, 118])))) (.cases [85, 116] 45 (.leaf
  [77, 78]) (.leaf [72, 58]))) (.cases [83] 50 (.cases [86] 47 (.cases [75] 58 (.leaf [115]) (.leaf
  [113, 114])) (.leaf [74])) (.leaf [85]))) (.leaf [82]))) (.leaf [64, 65])) (.cases [] 43 (.cycle
  33 [79, 80, 36]) (.cases [68, 26] 41 (.cases [] 45 (.cases [77, 78] 48 (.cases [] 56 (.cases
  [108, 109] 44 (.cases [] 46 (.leaf [76, 89]) (.cases [73] 49 (.cases [84] 50 (.cases [86] 47
  (.leaf [75]) (.leaf [74])) (.leaf [85])) (.leaf [83]))) (.cycle 54 [69, 70, 71])) (.cases
  [117, 118] 44 (.cases [] 46 (.leaf [76, 89]) (.cases [73] 71 (.leaf [154]) (.cases [] 47 (.cases
  [75] 49 (.cases [84] 50 (.cases [86] 58 (.leaf [115, 153]) (.leaf [113, 114])) (.leaf [85]))
  (.leaf [83])) (.cases [74] 49 (.cases [84] 50 (.leaf [86]) (.leaf [85])) (.leaf [83]))))) (.cycle
  54 [69, 70, 71]))) (.leaf [82])) (.cases [72, 58] 48 (.cases [] 56 (.cases [108, 109] 44 (.cases
  [] 46 (.leaf [76, 89]) (.cases [73] 49 (.cases [84] 50 (.cases [86] 47 (.leaf [75]) (.leaf [74]))
  (.leaf [85])) (.leaf [83]))) (.cycle 54 [69, 70, 71])) (.cases [117, 118] 44 (.cases [] 46 (.leaf
  [76, 89]) (.cases [73] 71 (.leaf [154]) (.cases [] 47 (.cases [75] 49 (.cases [84] 50 (.cases
  [86] 58 (.leaf [115, 153]) (.leaf [113, 114])) (.leaf [85])) (.leaf [83])) (.cases [74] 49
  (.cases [84] 50 (.leaf [86]) (.leaf [85])) (.leaf [83]))))) (.cycle 54 [69, 70, 71]))) (.leaf
  [82]))) (.leaf [64, 65])))

/-- some of the cases -/
def ko1n8Case19 : SumTree :=
  .cases [] 40 (.cycle 29 [90, 91, 92]) (.cases [63, 49] 41 (.cases [] 42 (.cases [81] 45 (.cases
  [77, 78] 46 (.leaf [76]) (.cases [73] 47 (.cases [75] 49 (.leaf [84]) (.leaf [83])) (.leaf
  [74]))) (.cases [72, 58] 46 (.leaf [76]) (.cases [73] 47 (.cases [75] 49 (.leaf [84]) (.leaf
  [83])) (.leaf [74])))) (.cases [] 43 (.cycle 33 [79, 80, 36]) (.cases [68, 26] 48 (.cases [] 51
  (.cases [] 45 (.cases [77, 78] 44 (.cases [] 37 (.cases [] 46 (.leaf [76, 89]) (.cases [73] 49
  (.cases [84] 50 (.cases [86] 56 (.leaf [108, 109]) (.cases [] 47 (.leaf [75]) (.leaf [74])))
  (.leaf [85])) (.leaf [83]))) (.leaf [60, 88])) (.cycle 54 [69, 70, 71])) (.cases [72, 58] 44
  (.cases [] 37 (.cases [] 46 (.leaf [76, 89]) (.cases [73] 49 (.cases [84] 50 (.cases [86] 56
  (.leaf [108, 109]) (.cases [] 47 (.leaf [75]) (.leaf [74]))) (.leaf [85])) (.leaf [83]))) (.leaf
  [60])) (.cycle 54 [69, 70, 71]))) (.leaf [87])) (.leaf [82])))) (.leaf [64, 65]))

/-- some of the cases -/
def ko1n8Case20 : SumTree :=
  .cases [] 53 (.cases [98] 43 (.cases [] 39 (.cases [93] 70 (.leaf
  [155, 156, 157, 158, 47, 55, 49]) (.cases [] 42 (.leaf [81]) (.cycle 33 [79, 80, 36]))) (.cases
  [99] 52 (.cases [] 51 (.cases [] 56 (.cases [108, 109] 70 (.leaf [155, 156, 158, 48, 55]) (.cases
  [152] 37 (.cases [] 42 (.leaf [81]) (.cycle 33 [79, 80, 36])) (.leaf [60, 88]))) (.cases
  [117, 118] 57 (.cases [106, 107] 46 (.leaf [76]) (.cases [73] 47 (.cases [75] 49 (.leaf [84])
  (.leaf [83])) (.leaf [74]))) (.cases [104, 55] 46 (.leaf [76]) (.cases [73] 47 (.cases [75] 49
  (.leaf [84]) (.leaf [83])) (.leaf [74]))))) (.leaf [87, 95])) (.leaf [94]))) (.cases [68, 26] 70
  (.leaf [155, 156, 158, 55]) (.cases [152] 39 (.leaf [93]) (.cases [99] 37 (.cases [] 40 (.cycle
  29 [90, 91, 92]) (.leaf [63, 49])) (.leaf [60]))))) (.cycle 21 [96, 41, 97])

/-- some of the cases -/
def ko1n8Case21 : SumTree :=
  .cases [155, 156, 157, 158, 48, 47, 55, 49] 43 (.cases [] 56 (.cases [108, 109] 46 (.leaf [76])
  (.cases [73] 47 (.cases [75] 49 (.leaf [84]) (.leaf [83])) (.leaf [74]))) (.cases [117, 118] 39
  (.leaf [93]) (.cases [99] 42 (.leaf [81]) (.cycle 33 [79, 80, 36])))) (.cases [68, 26] 56 (.leaf
  [108, 109]) (.cases [117, 118] 57 (.leaf [106, 107]) (.leaf [104, 55])))

/-- some of the cases -/
def ko1n8Case22 : SumTree :=
  .cases [93] 42 (.cases [81] 51 (.cases [] 41 (.cases [] 46 (.cases [76] 44 (.leaf [89]) (.cycle
  54 [69, 70, 71])) (.cases [73] 48 (.cases [] 52 (.cases [] 49 (.cases [84] 47 (.cases [75] 37
  (.cases [] 56 (.cases [108, 109] 57 (.leaf [106, 107]) (.leaf [104, 55])) (.cases [117, 118] 50
  (.cases [86] 59 (.cases [122] 72 (.cases [] 57 (.leaf [106, 107]) (.leaf [104, 55])) (.leaf
  [159, 55])) (.leaf [121, 119, 14])) (.leaf [85]))) (.leaf [60, 95, 93])) (.cases [74] 50 (.cases
  [86] 37 (.cases [] 59 (.cases [122] 72 (.cases [] 56 (.leaf [108, 109]) (.cases [] 57 (.leaf
  [106, 107]) (.leaf [104, 55]))) (.leaf [159, 55])) (.leaf [121, 119, 14])) (.leaf [60, 95, 93]))
  (.leaf [85]))) (.cases [83] 50 (.cases [86] 37 (.cases [] 59 (.cases [122] 72 (.cases [] 56
  (.leaf [108, 109]) (.cases [] 57 (.leaf [106, 107]) (.leaf [104, 55]))) (.leaf [159, 55])) (.leaf
  [121, 119, 14])) (.leaf [60, 95, 93])) (.leaf [85]))) (.leaf [94, 88])) (.leaf [82]))) (.leaf
  [64, 65])) (.leaf [87])) (.cases [] 43 (.cycle 33 [79, 80, 36]) (.cases [68, 26] 51 (.cases [] 41
  (.cases [] 50 (.cases [86] 59 (.cases [122] 52 (.cases [] 46 (.cases [76] 44 (.leaf [89]) (.cycle
  54 [69, 70, 71])) (.cases [73] 49 (.cases [84] 47 (.cases [75] 37 (.cases [] 72 (.cases [] 56
  (.cases [108, 109] 57 (.leaf [106, 107]) (.leaf [104, 55])) (.cases [117, 118] 57 (.leaf
  [106, 107]) (.leaf [104, 55]))) (.leaf [159, 55])) (.leaf [60, 95, 93])) (.cases [74] 37 (.cases
  [] 72 (.cases [] 56 (.cases [108, 109] 57 (.leaf [106, 107]) (.leaf [104, 55])) (.cases
  [117, 118] 57 (.leaf [106, 107]) (.leaf [104, 55]))) (.leaf [159, 55])) (.leaf [60, 95, 93])))
  (.cases [83] 47 (.cases [75] 58 (.leaf [115]) (.leaf [113, 114])) (.leaf [74])))) (.leaf
  [94, 88])) (.leaf [121, 119, 14])) (.cases [85] 44 (.cases [] 56 (.cases [108, 109] 46 (.leaf
  [76]) (.cases [73] 47 (.leaf [75]) (.leaf [74]))) (.cases [117, 118] 46 (.leaf [76]) (.cases [73]
  47 (.cases [75] 49 (.leaf [84]) (.leaf [83])) (.leaf [74])))) (.cycle 54 [69, 70, 71]))) (.leaf
  [64, 65])) (.leaf [87])))

/-- some of the cases -/
def ko1n8Case23 : SumTree :=
  .cases [] 40 (.cycle 29 [90, 91, 92]) (.cases [63, 49] 41 (.cases [] 42 (.cases [81] 48 (.cases
  [] 51 (.cases [] 56 (.cases [108, 109] 46 (.leaf [76]) (.cases [73] 47 (.cases [75] 49 (.leaf
  [84]) (.leaf [83])) (.leaf [74]))) (.cases [117, 118] 44 (.cases [] 37 (.cases [] 46 (.leaf
  [76, 89]) (.cases [73] 49 (.cases [] 50 (.cases [86] 59 (.cases [122] 55 (.leaf [105, 48])
  (.cases [103, 55] 57 (.leaf [106, 107]) (.leaf [104, 55]))) (.leaf [121, 119, 14])) (.leaf [85]))
  (.leaf [83]))) (.leaf [60])) (.cycle 54 [69, 70, 71]))) (.leaf [87])) (.leaf [82])) (.cases [] 43
  (.cycle 33 [79, 80, 36]) (.cases [68, 26] 48 (.cases [] 51 (.cases [] 56 (.cases [108, 109] 44
  (.cases [] 37 (.cases [] 46 (.leaf [76, 89]) (.cases [73] 49 (.cases [] 50 (.cases [86] 59
  (.cases [122] 55 (.leaf [105, 48]) (.cases [103, 55] 57 (.leaf [106, 107]) (.leaf [104, 55])))
  (.leaf [121, 119, 14])) (.leaf [85])) (.leaf [83]))) (.leaf [60])) (.cycle 54 [69, 70, 71]))
  (.cases [117, 118] 44 (.cases [] 57 (.cases [106, 107] 46 (.leaf [76]) (.cases [73] 47 (.leaf
  [75]) (.leaf [74]))) (.cases [104, 55] 46 (.leaf [76]) (.cases [73] 47 (.leaf [75]) (.leaf
  [74])))) (.cycle 54 [69, 70, 71]))) (.leaf [87])) (.leaf [82])))) (.leaf [64, 65]))

/-- some of the cases -/
def ko1n8Case24 : SumTree :=
  .cases [155, 156, 157, 158, 48, 47, 55, 49] 53 (.leaf [98]) (.cases [] 41 (.cases [] 56 (.cases
  [108, 109] 38 (.cycle 21 [96, 41, 97]) (.cases [61, 62] 40 (.cases [] 39 (.leaf [93]) (.cycle 29
  [90, 91, 92])) (.leaf [63, 49]))) (.cases [117, 118] 38 (.cycle 21 [96, 41, 97]) (.cases [61, 62]
  44 (.cases [] 57 (.cases [106, 107] 46 (.leaf [76]) (.cases [73] 47 (.leaf [75]) (.leaf [74])))
  (.cases [104, 55] 46 (.leaf [76]) (.cases [73] 47 (.cases [75] 49 (.leaf [84]) (.leaf [83]))
  (.leaf [74])))) (.cycle 54 [69, 70, 71])))) (.leaf [64, 65, 66, 67]))

/-- some of the cases -/
def ko1n8Case25 : SumTree :=
  .cases [] 53 (.cases [98] 41 (.cases [] 39 (.cases [93] 44 (.cases [] 42 (.leaf [81]) (.cases
  [112] 46 (.leaf [76]) (.cases [73] 47 (.leaf [75]) (.leaf [74])))) (.cycle 54 [69, 70, 71]))
  (.cases [99] 56 (.cases [108, 109] 40 (.cycle 29 [90, 91, 92]) (.leaf [63, 49])) (.cases
  [117, 118] 57 (.cases [106, 107] 46 (.leaf [76]) (.cases [73] 47 (.cases [75] 49 (.leaf [84])
  (.leaf [83])) (.leaf [74]))) (.cases [104, 55] 46 (.leaf [76]) (.cases [73] 47 (.cases [75] 49
  (.leaf [84]) (.leaf [83])) (.leaf [74])))))) (.leaf [64, 65])) (.cycle 21 [96, 41, 97])

/-- some of the cases -/
def ko1n8Case26 : SumTree :=
  .cases [93] 42 (.cases [81] 51 (.cases [] 41 (.cases [] 46 (.cases [76] 44 (.leaf [89]) (.cycle
  54 [69, 70, 71])) (.cases [73] 48 (.cases [] 52 (.cases [] 49 (.cases [84] 47 (.cases [75] 37
  (.cases [] 56 (.cases [108, 109] 57 (.leaf [106, 107]) (.leaf [104, 55])) (.cases [117, 118] 50
  (.cases [86] 59 (.cases [122] 72 (.cases [] 57 (.leaf [106, 107]) (.leaf [104, 55])) (.leaf
  [159, 55])) (.leaf [121, 119, 14])) (.leaf [85]))) (.leaf [60, 95, 93])) (.cases [74] 50 (.cases
  [86] 37 (.cases [] 59 (.cases [122] 72 (.cases [] 56 (.leaf [108, 109]) (.cases [] 57 (.leaf
  [106, 107]) (.leaf [104, 55]))) (.leaf [159, 55])) (.leaf [121, 119, 14])) (.leaf [60, 95, 93]))
  (.leaf [85]))) (.cases [83] 50 (.cases [86] 37 (.cases [] 59 (.cases [122] 72 (.cases [] 56
  (.leaf [108, 109]) (.cases [] 57 (.leaf [106, 107]) (.leaf [104, 55]))) (.leaf [159, 55])) (.leaf
  [121, 119, 14])) (.leaf [60, 95, 93])) (.leaf [85]))) (.leaf [94, 88])) (.leaf [82]))) (.leaf
  [64, 65])) (.leaf [87])) (.cases [] 43 (.cycle 33 [79, 80, 36]) (.cases [68, 26] 51 (.cases [] 41
  (.cases [] 50 (.cases [86] 59 (.cases [122] 52 (.cases [] 46 (.cases [76] 44 (.leaf [89]) (.cycle
  54 [69, 70, 71])) (.cases [73] 49 (.cases [84] 47 (.cases [75] 37 (.cases [] 72 (.cases [] 56
  (.cases [108, 109] 57 (.leaf [106, 107]) (.leaf [104, 55])) (.cases [117, 118] 57 (.leaf
  [106, 107]) (.leaf [104, 55]))) (.leaf [159, 55])) (.leaf [60, 95, 93])) (.cases [74] 37 (.cases
  [] 72 (.cases [] 56 (.cases [108, 109] 57 (.leaf [106, 107]) (.leaf [104, 55])) (.cases
  [117, 118] 57 (.leaf [106, 107]) (.leaf [104, 55]))) (.leaf [159, 55])) (.leaf [60, 95, 93])))
  (.cases [83] 47 (.cases [75] 58 (.leaf [115]) (.leaf [113, 114])) (.leaf [74])))) (.leaf
  [94, 88])) (.leaf [121, 119, 14])) (.cases [85] 44 (.cases [] 56 (.cases [108, 109] 46 (.leaf
  [76]) (.cases [73] 47 (.leaf [75]) (.leaf [74]))) (.cases [117, 118] 46 (.leaf [76]) (.cases [73]
  47 (.cases [75] 49 (.leaf [84]) (.leaf [83])) (.leaf [74])))) (.cycle 54 [69, 70, 71]))) (.leaf
  [64, 65])) (.leaf [87])))

/-- some of the cases -/
def ko1n8Case27 : SumTree :=
  .cases [] 40 (.cycle 29 [90, 91, 92]) (.cases [63, 49] 41 (.cases [] 42 (.cases [81] 48 (.cases
  [] 51 (.cases [] 56 (.cases [108, 109] 46 (.leaf [76]) (.cases [73] 47 (.cases [75] 49 (.leaf
  [84]) (.leaf [83])) (.leaf [74]))) (.cases [117, 118] 44 (.cases [] 37 (.cases [] 46 (.leaf
  [76, 89]) (.cases [73] 49 (.cases [] 50 (.cases [86] 59 (.cases [122] 57 (.leaf [106, 107])
  (.leaf [104, 55])) (.leaf [121, 119, 14])) (.leaf [85])) (.leaf [83]))) (.leaf [60])) (.cycle 54
  [69, 70, 71]))) (.leaf [87])) (.leaf [82])) (.cases [] 43 (.cycle 33 [79, 80, 36]) (.cases
  [68, 26] 48 (.cases [] 51 (.cases [] 56 (.cases [108, 109] 44 (.cases [] 37 (.cases [] 46 (.leaf
  [76, 89]) (.cases [73] 49 (.cases [] 50 (.cases [86] 59 (.cases [122] 57 (.leaf [106, 107])
  (.leaf [104, 55])) (.leaf [121, 119, 14])) (.leaf [85])) (.leaf [83]))) (.leaf [60])) (.cycle 54
  [69, 70, 71])) (.cases [117, 118] 44 (.cases [] 57 (.cases [106, 107] 46 (.leaf [76]) (.cases
  [73] 47 (.leaf [75]) (.leaf [74]))) (.cases [104, 55] 46 (.leaf [76]) (.cases [73] 47 (.leaf
  [75]) (.leaf [74])))) (.cycle 54 [69, 70, 71]))) (.leaf [87])) (.leaf [82])))) (.leaf [64, 65]))

/-- some of the cases -/
def ko1n8Case28 : SumTree :=
  .cases [] 53 (.cases [98] 70 (.leaf [155, 156, 157, 158, 48, 47, 55, 49]) (.cases [152] 42
  (.cases [81] 45 (.cases [77, 78] 46 (.leaf [76]) (.cases [73] 47 (.cases [75] 49 (.leaf [84])
  (.leaf [83])) (.leaf [74]))) (.cases [72, 58] 46 (.leaf [76]) (.cases [73] 47 (.cases [75] 49
  (.leaf [84]) (.leaf [83])) (.leaf [74])))) (.cases [] 43 (.cycle 33 [79, 80, 36]) (.cases
  [68, 26] 40 (.cases [] 45 (.cases [77, 78] 39 (.leaf [93]) (.cycle 29 [90, 91, 92])) (.cases
  [72, 58] 39 (.leaf [93]) (.cycle 29 [90, 91, 92]))) (.leaf [63, 49]))))) (.cycle 21 [96, 41, 97])

/-- some of the cases -/
def ko1n8Case29 : SumTree :=
  .cases [155, 156, 157, 158, 48, 47, 55, 49] 40 (.cases [] 39 (.cases [93] 46 (.leaf [76]) (.cases
  [73] 47 (.cases [75] 49 (.leaf [84]) (.leaf [83])) (.leaf [74]))) (.cycle 29 [90, 91, 92]))
  (.cases [63, 49] 57 (.leaf [106, 107]) (.cases [104, 55] 46 (.leaf [76]) (.cases [73] 47 (.leaf
  [75]) (.leaf [74]))))

/-- some of the cases -/
def ko1n8Case30 : SumTree :=
  .cases [81] 41 (.cases [] 57 (.cases [106, 107] 46 (.cases [76] 44 (.leaf [89]) (.cycle 54
  [69, 70, 71])) (.cases [73] 48 (.cases [] 49 (.cases [84] 50 (.cases [86] 47 (.cases [75] 45
  (.cases [77, 78] 56 (.leaf [108, 109]) (.leaf [117, 118])) (.cases [72, 58] 56 (.leaf [108, 109])
  (.leaf [117, 118]))) (.cases [74] 45 (.cases [77, 78] 56 (.leaf [108, 109]) (.leaf [117, 118]))
  (.cases [72, 58] 56 (.leaf [108, 109]) (.leaf [117, 118])))) (.cases [85, 116] 45 (.leaf
  [77, 78]) (.leaf [72, 58]))) (.cases [83] 50 (.cases [86] 47 (.cases [75] 58 (.leaf [115]) (.leaf
  [113, 114])) (.leaf [74])) (.leaf [85]))) (.leaf [82]))) (.cases [104, 55] 46 (.cases [76] 44
  (.leaf [89]) (.cycle 54 [69, 70, 71])) (.cases [73] 48 (.cases [] 49 (.cases [84] 50 (.cases [86]
  47 (.cases [75] 45 (.cases [77, 78] 56 (.leaf [108, 109]) (.leaf [117, 118])) (.cases [72, 58] 56
  (.leaf [108, 109]) (.leaf [117, 118]))) (.cases [74] 45 (.cases [77, 78] 56 (.leaf [108, 109])
  (.leaf [117, 118])) (.cases [72, 58] 56 (.leaf [108, 109]) (.leaf [117, 118])))) (.cases
  [85, 116] 45 (.leaf [77, 78]) (.leaf [72, 58]))) (.cases [83] 50 (.cases [86] 47 (.cases [75] 58
  (.leaf [115]) (.leaf [113, 114])) (.leaf [74])) (.leaf [85]))) (.leaf [82])))) (.leaf [64, 65])

/-- some of the cases -/
def ko1n8Case31 : SumTree :=
  .cases [106, 107] 41 (.cases [] 45 (.cases [77, 78] 48 (.cases [] 56 (.cases [108, 109] 44
  (.cases [] 46 (.leaf [76, 89]) (.cases [73] 49 (.cases [84] 50 (.cases [86] 47 (.leaf [75])
  (.leaf [74])) (.leaf [85])) (.leaf [83]))) (.cycle 54 [69, 70, 71])) (.cases [117, 118] 44
  (.cases [] 46 (.leaf [76, 89]) (.cases [73] 71 (.leaf [154]) (.cases [] 47 (.cases [75] 49
  (.cases [84] 50 (.cases [86] 58 (.leaf [115, 153]) (.leaf [113, 114])) (.leaf [85])) (.leaf
  [83])) (.cases [74] 49 (.cases [84] 50 (.leaf [86]) (.leaf [85])) (.leaf [83]))))) (.cycle 54
  [69, 70, 71]))) (.leaf [82])) (.cases [72, 58] 48 (.cases [] 56 (.cases [108, 109] 44 (.cases []
  46 (.leaf [76, 89]) (.cases [73] 49 (.cases [84] 50 (.cases [86] 47 (.leaf [75]) (.leaf [74]))
  (.leaf [85])) (.leaf [83]))) (.cycle 54 [69, 70, 71])) (.cases [117, 118] 44 (.cases [] 46 (.leaf
  [76, 89]) (.cases [73] 71 (.leaf [154]) (.cases [] 47 (.cases [75] 49 (.cases [84] 50 (.cases
  [86] 58 (.leaf [115, 153]) (.leaf [113, 114])) (.leaf [85])) (.leaf [83])) (.cases [74] 49
  (.cases [84] 50 (.leaf [86]) (.leaf [85])) (.leaf [83]))))) (.cycle 54 [69, 70, 71]))) (.leaf
  [82]))) (.leaf [64, 65])

/-- some of the cases -/
def ko1n8Case32 : SumTree :=
  .cases [104, 55] 41 (.cases [] 45 (.cases [77, 78] 48 (.cases [] 56 (.cases [108, 109] 44 (.cases
  [] 46 (.leaf [76, 89]) (.cases [73] 49 (.cases [84] 50 (.cases [86] 47 (.leaf [75]) (.leaf [74]))
  (.leaf [85])) (.leaf [83]))) (.cycle 54 [69, 70, 71])) (.cases [117, 118] 44 (.cases [] 46 (.leaf
  [76, 89]) (.cases [73] 71 (.leaf [154]) (.cases [] 47 (.cases [75] 49 (.cases [84] 50 (.cases
  [86] 58 (.leaf [115, 153]) (.leaf [113, 114])) (.leaf [85])) (.leaf [83])) (.cases [74] 49
  (.cases [84] 50 (.leaf [86]) (.leaf [85])) (.leaf [83]))))) (.cycle 54 [69, 70, 71]))) (.leaf
  [82])) (.cases [72, 58] 48 (.cases [] 56 (.cases [108, 109] 44 (.cases [] 46 (.leaf [76, 89])
  (.cases [73] 49 (.cases [84] 50 (.cases [86] 47 (.leaf [75]) (.leaf [74])) (.leaf [85])) (.leaf
  [83]))) (.cycle 54 [69, 70, 71])) (.cases [117, 118] 44 (.cases [] 46 (.leaf [76, 89]) (.cases
  [73] 71 (.leaf [154]) (.cases [] 47 (.cases [75] 49 (.cases [84] 50 (.cases [86] 58 (.leaf
  [115, 153]) (.leaf [113, 114])) (.leaf [85])) (.leaf [83])) (.cases [74] 49 (.cases [84] 50
  (.leaf [86]) (.leaf [85])) (.leaf [83]))))) (.cycle 54 [69, 70, 71]))) (.leaf [82]))) (.leaf
  [64, 65])

/-- some of the cases -/
def ko1n8Case33 : SumTree :=
  .cases [] 40 (.cycle 29 [90, 91, 92]) (.cases [63, 49] 42 (.cases [81] 41 (.cases [] 46 (.cases
  [76] 44 (.leaf [89]) (.cycle 54 [69, 70, 71])) (.cases [73] 48 (.cases [] 49 (.cases [84] 51
  (.cases [] 50 (.cases [86] 47 (.cases [75] 37 (.cases [] 45 (.cases [77, 78] 56 (.leaf
  [108, 109]) (.leaf [117, 118])) (.cases [72, 58] 56 (.leaf [108, 109]) (.leaf [117, 118])))
  (.leaf [60])) (.cases [74] 37 (.cases [] 45 (.cases [77, 78] 56 (.leaf [108, 109]) (.leaf
  [117, 118])) (.cases [72, 58] 56 (.leaf [108, 109]) (.leaf [117, 118]))) (.leaf [60]))) (.cases
  [85, 116] 45 (.leaf [77, 78]) (.leaf [72, 58]))) (.leaf [87])) (.cases [83] 50 (.cases [86] 37
  (.cases [] 47 (.cases [75] 58 (.leaf [115]) (.leaf [113, 114])) (.leaf [74])) (.leaf [60]))
  (.leaf [85]))) (.leaf [82]))) (.leaf [64, 65])) (.cases [] 43 (.cycle 33 [79, 80, 36]) (.cases
  [68, 26] 41 (.cases [] 45 (.cases [77, 78] 48 (.cases [] 51 (.cases [] 56 (.cases [108, 109] 44
  (.cases [] 37 (.cases [] 46 (.leaf [76, 89]) (.cases [73] 49 (.cases [84] 50 (.cases [86] 57
  (.leaf [106, 107]) (.leaf [104, 55])) (.leaf [85])) (.leaf [83]))) (.leaf [60])) (.cycle 54
  [69, 70, 71])) (.cases [117, 118] 44 (.cases [] 57 (.cases [106, 107] 46 (.leaf [76]) (.cases
  [73] 47 (.leaf [75]) (.leaf [74]))) (.cases [104, 55] 46 (.leaf [76]) (.cases [73] 47 (.leaf
  [75]) (.leaf [74])))) (.cycle 54 [69, 70, 71]))) (.leaf [87])) (.leaf [82])) (.cases [72, 58] 48
  (.cases [] 51 (.cases [] 56 (.cases [108, 109] 44 (.cases [] 37 (.cases [] 46 (.leaf [76, 89])
  (.cases [73] 49 (.cases [84] 50 (.cases [86] 57 (.leaf [106, 107]) (.leaf [104, 55])) (.leaf
  [85])) (.leaf [83]))) (.leaf [60])) (.cycle 54 [69, 70, 71])) (.cases [117, 118] 44 (.cases [] 57
  (.cases [106, 107] 46 (.leaf [76]) (.cases [73] 47 (.leaf [75]) (.leaf [74]))) (.cases [104, 55]
  46 (.leaf [76]) (.cases [73] 47 (.leaf [75]) (.leaf [74])))) (.cycle 54 [69, 70, 71]))) (.leaf
  [87])) (.leaf [82]))) (.leaf [64, 65]))))

/-- some of the cases -/
def ko1n8Case34 : SumTree :=
  .cases [155, 156, 157, 158, 48, 47, 55, 49] 53 (.leaf [98]) (.cases [] 41 (.cases [] 38 (.cycle
  21 [96, 41, 97]) (.cases [61, 62] 40 (.cases [] 39 (.cases [93] 44 (.cases [] 42 (.leaf [81])
  (.cases [112] 57 (.leaf [106, 107]) (.cases [104, 55] 46 (.leaf [76]) (.cases [73] 47 (.leaf
  [75]) (.leaf [74]))))) (.cycle 54 [69, 70, 71])) (.cycle 29 [90, 91, 92])) (.cases [63, 49] 46
  (.leaf [76]) (.cases [73] 47 (.cases [75] 49 (.leaf [84]) (.leaf [83])) (.leaf [74]))))) (.leaf
  [64, 65]))

/-- some of the cases -/
def ko1n8Case35 : SumTree :=
  .cases [] 53 (.cases [98] 42 (.cases [81] 40 (.cases [] 45 (.cases [77, 78] 39 (.leaf [93])
  (.cycle 29 [90, 91, 92])) (.cases [72, 58] 39 (.leaf [93]) (.cycle 29 [90, 91, 92]))) (.leaf
  [63, 49])) (.cases [] 43 (.cycle 33 [79, 80, 36]) (.cases [68, 26] 39 (.cases [93] 46 (.leaf
  [76]) (.cases [73] 47 (.leaf [75]) (.leaf [74]))) (.cases [99] 45 (.cases [77, 78] 46 (.leaf
  [76]) (.cases [73] 47 (.cases [75] 49 (.leaf [84]) (.leaf [83])) (.leaf [74]))) (.cases [72, 58]
  46 (.leaf [76]) (.cases [73] 47 (.cases [75] 49 (.leaf [84]) (.leaf [83])) (.leaf [74])))))))
  (.cycle 21 [96, 41, 97])

/-- some of the cases -/
def ko1n8Case36 : SumTree :=
  .cases [81] 41 (.cases [] 57 (.cases [106, 107] 46 (.cases [76] 44 (.leaf [89]) (.cycle 54
  [69, 70, 71])) (.cases [73] 48 (.cases [] 49 (.cases [84] 50 (.cases [86] 47 (.cases [75] 45
  (.cases [77, 78] 56 (.leaf [108, 109]) (.leaf [117, 118])) (.cases [72, 58] 56 (.leaf [108, 109])
  (.leaf [117, 118]))) (.cases [74] 45 (.cases [77, 78] 56 (.leaf [108, 109]) (.leaf [117, 118]))
  (.cases [72, 58] 56 (.leaf [108, 109]) (.leaf [117, 118])))) (.cases [85, 116] 45 (.leaf
  [77, 78]) (.leaf [72, 58]))) (.cases [83] 50 (.cases [86] 47 (.cases [75] 58 (.leaf [115]) (.leaf
  [113, 114])) (.leaf [74])) (.leaf [85]))) (.leaf [82]))) (.cases [104, 55] 46 (.cases [76] 44
  (.leaf [89]) (.cycle 54 [69, 70, 71])) (.cases [73] 48 (.cases [] 49 (.cases [84] 50 (.cases [86]
  47 (.cases [75] 45 (.cases [77, 78] 56 (.leaf [108, 109]) (.leaf [117, 118])) (.cases [72, 58] 56
  (.leaf [108, 109]) (.leaf [117, 118]))) (.cases [74] 45 (.cases [77, 78] 56 (.leaf [108, 109])
  (.leaf [117, 118])) (.cases [72, 58] 56 (.leaf [108, 109]) (.leaf [117, 118])))) (.cases
  [85, 116] 45 (.leaf [77, 78]) (.leaf [72, 58]))) (.cases [83] 50 (.cases [86] 47 (.cases [75] 58
  (.leaf [115]) (.leaf [113, 114])) (.leaf [74])) (.leaf [85]))) (.leaf [82])))) (.leaf [64, 65])

/-- some of the cases -/
def ko1n8Case37 : SumTree :=
  .cases [106, 107] 41 (.cases [] 45 (.cases [77, 78] 48 (.cases [] 56 (.cases [108, 109] 44
  (.cases [] 46 (.leaf [76, 89]) (.cases [73] 49 (.cases [84] 50 (.cases [86] 47 (.leaf [75])
  (.leaf [74])) (.leaf [85])) (.leaf [83]))) (.cycle 54 [69, 70, 71])) (.cases [117, 118] 44
  (.cases [] 46 (.leaf [76, 89]) (.cases [73] 71 (.leaf [154]) (.cases [] 47 (.cases [75] 49
  (.cases [84] 50 (.cases [86] 58 (.leaf [115, 153]) (.leaf [113, 114])) (.leaf [85])) (.leaf
  [83])) (.cases [74] 49 (.cases [84] 50 (.leaf [86]) (.leaf [85])) (.leaf [83]))))) (.cycle 54
  [69, 70, 71]))) (.leaf [82])) (.cases [72, 58] 48 (.cases [] 56 (.cases [108, 109] 44 (.cases []
  46 (.leaf [76, 89]) (.cases [73] 49 (.cases [84] 50 (.cases [86] 47 (.leaf [75]) (.leaf [74]))
  (.leaf [85])) (.leaf [83]))) (.cycle 54 [69, 70, 71])) (.cases [117, 118] 44 (.cases [] 46 (.leaf
  [76, 89]) (.cases [73] 71 (.leaf [154]) (.cases [] 47 (.cases [75] 49 (.cases [84] 50 (.cases
  [86] 58 (.leaf [115, 153]) (.leaf [113, 114])) (.leaf [85])) (.leaf [83])) (.cases [74] 49
  (.cases [84] 50 (.leaf [86]) (.leaf [85])) (.leaf [83]))))) (.cycle 54 [69, 70, 71]))) (.leaf
  [82]))) (.leaf [64, 65])

/-- some of the cases -/
def ko1n8Case38 : SumTree :=
  .cases [104, 55] 41 (.cases [] 45 (.cases [77, 78] 48 (.cases [] 56 (.cases [108, 109] 44 (.cases
  [] 46 (.leaf [76, 89]) (.cases [73] 49 (.cases [84] 50 (.cases [86] 47 (.leaf [75]) (.leaf [74]))
  (.leaf [85])) (.leaf [83]))) (.cycle 54 [69, 70, 71])) (.cases [117, 118] 44 (.cases [] 46 (.leaf
  [76, 89]) (.cases [73] 71 (.leaf [154]) (.cases [] 47 (.cases [75] 49 (.cases [84] 50 (.cases
  [86] 58 (.leaf [115, 153]) (.leaf [113, 114])) (.leaf [85])) (.leaf [83])) (.cases [74] 49
  (.cases [84] 50 (.leaf [86]) (.leaf [85])) (.leaf [83]))))) (.cycle 54 [69, 70, 71]))) (.leaf
  [82])) (.cases [72, 58] 48 (.cases [] 56 (.cases [108, 109] 44 (.cases [] 46 (.leaf [76, 89])
  (.cases [73] 49 (.cases [84] 50 (.cases [86] 47 (.leaf [75]) (.leaf [74])) (.leaf [85])) (.leaf
  [83]))) (.cycle 54 [69, 70, 71])) (.cases [117, 118] 44 (.cases [] 46 (.leaf [76, 89]) (.cases
  [73] 71 (.leaf [154]) (.cases [] 47 (.cases [75] 49 (.cases [84] 50 (.cases [86] 58 (.leaf
  [115, 153]) (.leaf [113, 114])) (.leaf [85])) (.leaf [83])) (.cases [74] 49 (.cases [84] 50
  (.leaf [86]) (.leaf [85])) (.leaf [83]))))) (.cycle 54 [69, 70, 71]))) (.leaf [82]))) (.leaf
  [64, 65])

/-- some of the cases -/
def ko1n8Case39 : SumTree :=
  .cases [] 40 (.cycle 29 [90, 91, 92]) (.cases [63, 49] 42 (.cases [81] 41 (.cases [] 46 (.cases
  [76] 44 (.leaf [89]) (.cycle 54 [69, 70, 71])) (.cases [73] 48 (.cases [] 49 (.cases [84] 51
  (.cases [] 50 (.cases [86] 47 (.cases [75] 37 (.cases [] 45 (.cases [77, 78] 56 (.leaf
  [108, 109]) (.leaf [117, 118])) (.cases [72, 58] 56 (.leaf [108, 109]) (.leaf [117, 118])))
  (.leaf [60])) (.cases [74] 37 (.cases [] 45 (.cases [77, 78] 56 (.leaf [108, 109]) (.leaf
  [117, 118])) (.cases [72, 58] 56 (.leaf [108, 109]) (.leaf [117, 118]))) (.leaf [60]))) (.cases
  [85, 116] 45 (.leaf [77, 78]) (.leaf [72, 58]))) (.leaf [87])) (.cases [83] 50 (.cases [86] 37
  (.cases [] 47 (.cases [75] 58 (.leaf [115]) (.leaf [113, 114])) (.leaf [74])) (.leaf [60]))
  (.leaf [85]))) (.leaf [82]))) (.leaf [64, 65])) (.cases [] 43 (.cycle 33 [79, 80, 36]) (.cases
  [68, 26] 41 (.cases [] 45 (.cases [77, 78] 48 (.cases [] 51 (.cases [] 56 (.cases [108, 109] 44
  (.cases [] 37 (.cases [] 46 (.leaf [76, 89]) (.cases [73] 49 (.cases [84] 50 (.cases [86] 57
  (.leaf [106, 107]) (.leaf [104, 55])) (.leaf [85])) (.leaf [83]))) (.leaf [60])) (.cycle 54
  [69, 70, 71])) (.cases [117, 118] 44 (.cases [] 57 (.cases [106, 107] 46 (.leaf [76]) (.cases
  [73] 47 (.leaf [75]) (.leaf [74]))) (.cases [104, 55] 46 (.leaf [76]) (.cases [73] 47 (.leaf
  [75]) (.leaf [74])))) (.cycle 54 [69, 70, 71]))) (.leaf [87])) (.leaf [82])) (.cases [72, 58] 48
  (.cases [] 51 (.cases [] 56 (.cases [108, 109] 44 (.cases [] 37 (.cases [] 46 (.leaf [76, 89])
  (.cases [73] 49 (.cases [84] 50 (.cases [86] 57 (.leaf [106, 107]) (.leaf [104, 55])) (.leaf
  [85])) (.leaf [83]))) (.leaf [60])) (.cycle 54 [69, 70, 71])) (.cases [117, 118] 44 (.cases [] 57
  (.cases [106, 107] 46 (.leaf [76]) (.cases [73] 47 (.leaf [75]) (.leaf [74]))) (.cases [104, 55]
  46 (.leaf [76]) (.cases [73] 47 (.leaf [75]) (.leaf [74])))) (.cycle 54 [69, 70, 71]))) (.leaf
  [87])) (.leaf [82]))) (.leaf [64, 65, 66, 67]))))

/-- some of the cases -/
def ko1n8Case40 : SumTree :=
  .cases [144, 139] 35 (.cases [119, 8, 120, 144, 139] 53 (.leaf [98]) (.cases [] 41 (.cases [] 43
  (.cases [] 65 (.cases [146, 139] 39 (.leaf [93]) (.cases [99] 42 (.leaf [81]) (.cycle 33
  [79, 80, 36]))) (.cases [145] 44 (.cases [] 38 (.cycle 21 [96, 41, 97]) (.cases [61, 62] 40
  (.cases [] 34 (.leaf [123, 19]) (.cases [56] 46 (.leaf [76]) (.leaf [73]))) (.leaf [63, 49])))
  (.cycle 54 [69, 70, 71]))) (.cases [68, 26] 39 (.leaf [93]) (.cases [] 38 (.cycle 21
  [96, 41, 97]) (.cases [61, 62] 40 (.cycle 29 [90, 91, 92]) (.leaf [63, 49]))))) (.leaf
  [64, 65]))) (.cases [57, 58] 33 (.cases [125, 126, 127] 60 (.cases [130] 40 (.cases [] 39 (.cases
  [93] 43 (.cases [] 65 (.cases [146, 139] 45 (.leaf [77, 78, 146, 139]) (.leaf [72, 58])) (.cases
  [145] 42 (.leaf [81]) (.cycle 33 [79, 80, 36]))) (.cases [68, 26] 45 (.cases [77, 78] 56 (.leaf
  [108, 109]) (.leaf [117, 118])) (.leaf [72, 58]))) (.cycle 29 [90, 91, 92])) (.cases [63, 49] 53
  (.leaf [98]) (.cases [] 38 (.cycle 21 [96, 41, 97]) (.cases [61, 62] 65 (.leaf [146, 139])
  (.cases [145] 34 (.leaf [123, 19]) (.leaf [56])))))) (.leaf [128, 125, 129])) (.cases [54, 55] 36
  (.cases [110, 111, 48] 41 (.cases [] 40 (.cases [] 39 (.cases [93] 53 (.leaf [98]) (.cases [] 65
  (.cases [146, 139] 45 (.leaf [77, 78, 146, 139]) (.leaf [72, 58])) (.cases [145] 44 (.cases [] 38
  (.cycle 21 [96, 41, 97]) (.cases [61, 62] 34 (.leaf [123, 19]) (.cases [56] 46 (.leaf [76])
  (.leaf [73])))) (.cycle 54 [69, 70, 71])))) (.cycle 29 [90, 91, 92])) (.cases [63, 49] 65 (.leaf
  [146, 139]) (.cases [145] 34 (.leaf [123, 19]) (.leaf [56])))) (.leaf [64, 65])) (.cases [59] 40
  (.cases [] 39 (.cases [93] 43 (.cases [] 65 (.cases [146, 139] 45 (.leaf [77, 78, 146, 139])
  (.leaf [72, 58])) (.cases [145] 42 (.leaf [81]) (.cycle 33 [79, 80, 36]))) (.cases [68, 26] 45
  (.cases [77, 78] 56 (.leaf [108, 109]) (.leaf [117, 118])) (.leaf [72, 58]))) (.cycle 29
  [90, 91, 92])) (.cases [63, 49] 53 (.leaf [98]) (.cases [] 38 (.cycle 21 [96, 41, 97]) (.cases
  [61, 62] 65 (.leaf [146, 139]) (.cases [145] 34 (.leaf [123, 19]) (.leaf [56]))))))))

/-- some of the cases -/
def ko1n8Case41 : SumTree :=
  .cases [140, 141, 120] 64 (.leaf [143, 132, 141, 14]) (.cases [142] 35 (.leaf [119, 14]) (.cases
  [57, 58] 40 (.cases [] 39 (.cases [93] 34 (.cases [123, 19] 46 (.leaf [76]) (.cases [73] 47
  (.cases [75] 49 (.leaf [84]) (.leaf [83])) (.leaf [74]))) (.cases [56] 46 (.leaf [76]) (.cases
  [73] 47 (.cases [75] 49 (.leaf [84]) (.leaf [83])) (.leaf [74])))) (.cycle 29 [90, 91, 92]))
  (.cases [63, 49] 44 (.cases [] 53 (.leaf [98]) (.cases [] 38 (.cycle 21 [96, 41, 97]) (.cases
  [61, 62] 46 (.leaf [76]) (.cases [73] 47 (.cases [75] 49 (.leaf [84]) (.leaf [83])) (.leaf
  [74]))))) (.leaf [124]))))

/-- some of the cases -/
def ko1n8Case42 : SumTree :=
  .cases [110, 111, 48] 38 (.cases [96, 41] 41 (.cases [] 53 (.cases [98] 44 (.cases [] 42 (.leaf
  [81]) (.cases [112] 46 (.leaf [76]) (.cases [73] 47 (.leaf [75]) (.leaf [74])))) (.cycle 54
  [69, 70, 71])) (.cycle 21 [96, 41, 97])) (.leaf [64, 65])) (.cases [61, 62] 39 (.cases [93] 41
  (.cases [] 42 (.cases [81] 44 (.cases [] 56 (.cases [108, 109] 46 (.leaf [76]) (.cases [73] 47
  (.leaf [75]) (.leaf [74]))) (.cases [117, 118] 46 (.leaf [76]) (.cases [73] 47 (.cases [75] 49
  (.leaf [84]) (.leaf [83])) (.leaf [74])))) (.cycle 54 [69, 70, 71])) (.cases [] 43 (.cycle 33
  [79, 80, 36]) (.cases [68, 26] 48 (.cases [] 56 (.cases [108, 109] 46 (.leaf [76]) (.cases [73]
  47 (.cases [75] 49 (.leaf [84]) (.leaf [83])) (.leaf [74]))) (.cases [117, 118] 44 (.cases [] 46
  (.leaf [76, 89]) (.cases [73] 49 (.cases [] 50 (.cases [86] 59 (.cases [122] 47 (.leaf [75])
  (.leaf [74])) (.leaf [121, 119, 14])) (.leaf [85])) (.leaf [83]))) (.cycle 54 [69, 70, 71])))
  (.leaf [82])))) (.leaf [64, 65])) (.cases [99] 41 (.cases [] 40 (.cycle 29 [90, 91, 92]) (.cases
  [63, 49] 43 (.cases [] 56 (.cases [108, 109] 42 (.leaf [81]) (.cycle 33 [79, 80, 36])) (.cases
  [117, 118] 44 (.cases [] 42 (.cases [81] 46 (.leaf [76]) (.leaf [73])) (.cycle 33 [79, 80, 36]))
  (.cycle 54 [69, 70, 71]))) (.cases [68, 26] 46 (.leaf [76]) (.cases [73] 47 (.leaf [75]) (.leaf
  [74]))))) (.leaf [64, 65])))

/-- some of the cases -/
def ko1n8Case43 : SumTree :=
  .cases [59] 37 (.cases [100, 101, 48] 39 (.cases [93] 46 (.leaf [76]) (.cases [73] 47 (.leaf
  [75]) (.leaf [74]))) (.cases [99] 46 (.leaf [76]) (.cases [73] 47 (.cases [75] 49 (.leaf [84])
  (.leaf [83])) (.leaf [74])))) (.cases [60] 40 (.cases [] 39 (.cases [93] 53 (.leaf [98]) (.cases
  [] 41 (.cases [] 43 (.cases [] 56 (.cases [108, 109] 42 (.leaf [81]) (.cycle 33 [79, 80, 36]))
  (.cases [117, 118] 44 (.cases [] 38 (.cycle 21 [96, 41, 97]) (.cases [61, 62] 46 (.leaf [76])
  (.cases [73] 47 (.cases [75] 49 (.leaf [84]) (.leaf [83])) (.leaf [74])))) (.cycle 54
  [69, 70, 71]))) (.cases [68, 26] 46 (.leaf [76]) (.cases [73] 47 (.leaf [75]) (.leaf [74]))))
  (.leaf [64, 65, 66, 67]))) (.cycle 29 [90, 91, 92])) (.cases [63, 49] 44 (.cases [] 53 (.leaf
  [98]) (.cases [] 38 (.cycle 21 [96, 41, 97]) (.cases [61, 62] 46 (.leaf [76]) (.cases [73] 47
  (.cases [75] 49 (.leaf [84]) (.leaf [83])) (.leaf [74]))))) (.leaf [124])))

/-- some of the cases -/
def ko1n8Case44 : SumTree :=
  .cases [110, 111, 48] 38 (.cases [] 53 (.cases [98] 43 (.cases [] 45 (.cases [77, 78] 42 (.leaf
  [81]) (.cycle 33 [79, 80, 36])) (.cases [72, 58] 42 (.leaf [81]) (.cycle 33 [79, 80, 36])))
  (.cases [68, 26] 46 (.leaf [76]) (.cases [73] 47 (.leaf [75]) (.leaf [74])))) (.cycle 21
  [96, 41, 97])) (.cases [61, 62] 39 (.cases [93] 42 (.cases [81] 48 (.cases [] 41 (.cases [] 46
  (.cases [76] 44 (.leaf [89]) (.cycle 54 [69, 70, 71])) (.cases [73] 47 (.cases [75] 45 (.cases
  [77, 78] 56 (.leaf [108, 109]) (.cases [117, 118] 49 (.leaf [84]) (.leaf [83]))) (.cases [72, 58]
  56 (.leaf [108, 109]) (.cases [117, 118] 49 (.leaf [84]) (.leaf [83])))) (.cases [74] 49 (.cases
  [84] 50 (.cases [86] 54 (.cases [] 45 (.leaf [77, 78]) (.leaf [72, 58])) (.leaf [102, 58]))
  (.leaf [85])) (.leaf [83])))) (.leaf [64, 65])) (.leaf [82])) (.cases [112] 41 (.cases [] 43
  (.cycle 33 [79, 80, 36]) (.cases [68, 26] 46 (.cases [76] 44 (.leaf [89]) (.cycle 54
  [69, 70, 71])) (.cases [73] 48 (.cases [] 49 (.cases [84] 50 (.cases [86] 47 (.cases [75] 45
  (.cases [77, 78] 56 (.leaf [108, 109]) (.leaf [117, 118])) (.cases [72, 58] 56 (.leaf [108, 109])
  (.leaf [117, 118]))) (.cases [74] 45 (.cases [77, 78] 56 (.leaf [108, 109]) (.leaf [117, 118]))
  (.cases [72, 58] 56 (.leaf [108, 109]) (.leaf [117, 118])))) (.cases [85, 116] 45 (.leaf
  [77, 78]) (.leaf [72, 58]))) (.cases [83] 50 (.cases [86] 47 (.cases [75] 58 (.leaf [115]) (.leaf
  [113, 114])) (.leaf [74])) (.leaf [85]))) (.leaf [82])))) (.leaf [64, 65]))) (.cases [] 40
  (.cycle 29 [90, 91, 92]) (.cases [63, 49] 41 (.cases [] 42 (.cases [81] 44 (.cases [] 48 (.cases
  [] 46 (.leaf [76, 89]) (.cases [73] 49 (.cases [84] 50 (.cases [86] 54 (.cases [] 45 (.leaf
  [77, 78]) (.leaf [72, 58])) (.leaf [102, 58])) (.leaf [85])) (.leaf [83]))) (.leaf [82])) (.cycle
  54 [69, 70, 71])) (.cases [] 43 (.cycle 33 [79, 80, 36]) (.cases [68, 26] 44 (.cases [] 45
  (.cases [77, 78] 46 (.leaf [76]) (.cases [73] 47 (.leaf [75]) (.leaf [74]))) (.cases [72, 58] 46
  (.leaf [76]) (.cases [73] 47 (.leaf [75]) (.leaf [74])))) (.cycle 54 [69, 70, 71])))) (.leaf
  [64, 65]))))

/-- some of the cases -/
def ko1n8Case45 : SumTree :=
  .cases [59] 37 (.cases [100, 101, 48] 53 (.leaf [98]) (.cases [] 41 (.cases [] 39 (.cases [93] 44
  (.cases [] 38 (.cycle 21 [96, 41, 97]) (.cases [61, 62] 46 (.leaf [76]) (.cases [73] 47 (.cases
  [75] 49 (.leaf [84]) (.leaf [83])) (.leaf [74])))) (.cycle 54 [69, 70, 71])) (.cases [] 40
  (.cycle 29 [90, 91, 92]) (.cases [63, 49] 46 (.leaf [76]) (.cases [73] 47 (.cases [75] 49 (.leaf
  [84]) (.leaf [83])) (.leaf [74]))))) (.leaf [64, 65, 66, 67]))) (.cases [60] 38 (.cases [96, 41]
  41 (.cases [] 51 (.cases [88] 53 (.leaf [98]) (.cycle 21 [96, 41, 97])) (.cases [87] 44 (.cases
  [] 45 (.cases [77, 78] 46 (.leaf [76]) (.cases [73] 47 (.leaf [75]) (.leaf [74]))) (.cases
  [72, 58] 46 (.leaf [76]) (.cases [73] 47 (.leaf [75]) (.leaf [74])))) (.cycle 54 [69, 70, 71])))
  (.leaf [64, 65])) (.cases [61, 62] 51 (.cases [88] 43 (.cases [] 52 (.cases [95] 39 (.cases [93]
  46 (.leaf [76]) (.cases [73] 47 (.cases [75] 49 (.leaf [84]) (.leaf [83])) (.leaf [74]))) (.cases
  [99] 42 (.leaf [81]) (.cycle 33 [79, 80, 36]))) (.cases [94, 88] 45 (.leaf [77, 78]) (.leaf
  [72, 58]))) (.cases [68, 26] 52 (.cases [95] 39 (.leaf [93]) (.cases [] 40 (.cycle 29
  [90, 91, 92]) (.leaf [63, 49]))) (.leaf [94, 88]))) (.cases [87] 39 (.cases [93, 87] 45 (.leaf
  [77, 78]) (.leaf [72, 58])) (.cases [] 40 (.cycle 29 [90, 91, 92]) (.cases [63, 49] 46 (.leaf
  [76]) (.cases [73] 47 (.cases [75] 49 (.leaf [84]) (.leaf [83])) (.leaf [74])))))))

/-- some of the cases -/
def ko1n8Case46 : SumTree :=
  .cases [119, 8, 120] 38 (.cases [96, 41] 41 (.cases [] 53 (.cases [98] 44 (.cases [] 42 (.leaf
  [81]) (.cases [112] 46 (.leaf [76]) (.cases [73] 47 (.leaf [75]) (.leaf [74])))) (.cycle 54
  [69, 70, 71])) (.cycle 21 [96, 41, 97])) (.leaf [64, 65])) (.cases [61, 62] 39 (.cases [93] 41
  (.cases [] 42 (.cases [81] 44 (.cases [] 56 (.cases [108, 109] 46 (.leaf [76]) (.cases [73] 47
  (.leaf [75]) (.leaf [74]))) (.cases [117, 118] 46 (.leaf [76]) (.cases [73] 47 (.cases [75] 49
  (.leaf [84]) (.leaf [83])) (.leaf [74])))) (.cycle 54 [69, 70, 71])) (.cases [] 43 (.cycle 33
  [79, 80, 36]) (.cases [68, 26] 48 (.cases [] 56 (.cases [108, 109] 46 (.leaf [76]) (.cases [73]
  47 (.cases [75] 49 (.leaf [84]) (.leaf [83])) (.leaf [74]))) (.cases [117, 118] 44 (.cases [] 46
  (.leaf [76, 89]) (.cases [73] 49 (.cases [] 50 (.cases [86] 59 (.cases [122] 47 (.leaf [75])
  (.leaf [74])) (.leaf [121, 119, 14])) (.leaf [85])) (.leaf [83]))) (.cycle 54 [69, 70, 71])))
  (.leaf [82])))) (.leaf [64, 65])) (.cases [] 40 (.cycle 29 [90, 91, 92]) (.cases [63, 49] 43
  (.cases [] 42 (.cases [81] 46 (.leaf [76]) (.cases [73] 47 (.leaf [75]) (.leaf [74]))) (.cycle 33
  [79, 80, 36])) (.cases [68, 26] 46 (.leaf [76]) (.cases [73] 47 (.cases [75] 49 (.leaf [84])
  (.leaf [83])) (.leaf [74]))))))

/-- some of the cases -/
def ko1n8Case47 : SumTree :=
  .cases [57, 58] 38 (.cases [] 53 (.cases [98] 43 (.cases [] 45 (.cases [77, 78] 42 (.leaf [81])
  (.cycle 33 [79, 80, 36])) (.cases [72, 58] 42 (.leaf [81]) (.cycle 33 [79, 80, 36]))) (.cases
  [68, 26] 46 (.leaf [76]) (.cases [73] 47 (.leaf [75]) (.leaf [74])))) (.cycle 21 [96, 41, 97]))
  (.cases [61, 62] 39 (.cases [93] 42 (.cases [81] 48 (.cases [] 41 (.cases [] 46 (.cases [76] 44
  (.leaf [89]) (.cycle 54 [69, 70, 71])) (.cases [73] 47 (.cases [75] 45 (.cases [77, 78] 56 (.leaf
  [108, 109]) (.cases [117, 118] 49 (.leaf [84]) (.leaf [83]))) (.cases [72, 58] 56 (.leaf
  [108, 109]) (.cases [117, 118] 49 (.leaf [84]) (.leaf [83])))) (.cases [74] 49 (.cases [84] 50
  (.cases [86] 54 (.cases [] 45 (.leaf [77, 78]) (.leaf [72, 58])) (.leaf [102, 58])) (.leaf [85]))
  (.leaf [83])))) (.leaf [64, 65])) (.leaf [82])) (.cases [112] 41 (.cases [] 43 (.cycle 33
  [79, 80, 36]) (.cases [68, 26] 46 (.cases [76] 44 (.leaf [89]) (.cycle 54 [69, 70, 71])) (.cases
  [73] 48 (.cases [] 49 (.cases [84] 50 (.cases [86] 47 (.cases [75] 45 (.cases [77, 78] 56 (.leaf
  [108, 109]) (.leaf [117, 118])) (.cases [72, 58] 56 (.leaf [108, 109]) (.leaf [117, 118])))
  (.cases [74] 45 (.cases [77, 78] 56 (.leaf [108, 109]) (.leaf [117, 118])) (.cases [72, 58] 56
  (.leaf [108, 109]) (.leaf [117, 118])))) (.cases [85, 116] 45 (.leaf [77, 78]) (.leaf [72, 58])))
  (.cases [83] 50 (.cases [86] 47 (.cases [75] 58 (.leaf [115]) (.leaf [113, 114])) (.leaf [74]))
  (.leaf [85]))) (.leaf [82])))) (.leaf [64, 65]))) (.cases [] 40 (.cycle 29 [90, 91, 92]) (.cases
  [63, 49] 41 (.cases [] 42 (.cases [81] 44 (.cases [] 45 (.cases [77, 78] 46 (.leaf [76]) (.cases
  [73] 47 (.leaf [75]) (.leaf [74]))) (.cases [72, 58] 46 (.leaf [76]) (.cases [73] 47 (.leaf [75])
  (.leaf [74])))) (.cycle 54 [69, 70, 71])) (.cases [] 43 (.cycle 33 [79, 80, 36]) (.cases [68, 26]
  45 (.cases [77, 78] 46 (.leaf [76]) (.cases [73] 47 (.cases [75] 49 (.leaf [84]) (.leaf [83]))
  (.leaf [74]))) (.cases [72, 58] 46 (.leaf [76]) (.cases [73] 47 (.cases [75] 49 (.leaf [84])
  (.leaf [83])) (.leaf [74])))))) (.leaf [64, 65, 66, 67]))))

/-- some of the cases -/
def ko1n8Case48 : SumTree :=
  .cases [100, 101, 48] 35 (.cases [119, 8, 120] 43 (.cases [] 39 (.cases [93] 46 (.leaf [76])
  (.cases [73] 47 (.leaf [75]) (.leaf [74]))) (.cases [99] 42 (.leaf [81]) (.cycle 33
  [79, 80, 36]))) (.cases [68, 26] 46 (.leaf [76]) (.cases [73] 47 (.leaf [75]) (.leaf [74]))))
  (.cases [57, 58] 53 (.leaf [98]) (.cases [] 41 (.cases [] 43 (.cases [] 39 (.cases [93] 44
  (.cases [] 38 (.cycle 21 [96, 41, 97]) (.cases [61, 62] 46 (.leaf [76]) (.cases [73] 47 (.cases
  [75] 49 (.leaf [84]) (.leaf [83])) (.leaf [74])))) (.cycle 54 [69, 70, 71])) (.cases [] 40
  (.cycle 29 [90, 91, 92]) (.cases [63, 49] 42 (.leaf [81]) (.cycle 33 [79, 80, 36])))) (.cases
  [68, 26] 44 (.cases [] 38 (.cycle 21 [96, 41, 97]) (.cases [61, 62] 46 (.leaf [76]) (.cases [73]
  47 (.cases [75] 49 (.leaf [84]) (.leaf [83])) (.leaf [74])))) (.cycle 54 [69, 70, 71]))) (.leaf
  [64, 65, 66, 67])))

/-- some of the cases -/
def ko1n8Case49 : SumTree :=
  .cases [60] 35 (.cases [119, 8, 120] 40 (.cases [] 39 (.cases [93] 53 (.leaf [98]) (.cases [] 41
  (.cases [] 43 (.cases [] 56 (.cases [108, 109] 42 (.leaf [81]) (.cycle 33 [79, 80, 36])) (.cases
  [117, 118] 44 (.cases [] 38 (.cycle 21 [96, 41, 97]) (.cases [61, 62] 46 (.leaf [76]) (.cases
  [73] 47 (.cases [75] 49 (.leaf [84]) (.leaf [83])) (.leaf [74])))) (.cycle 54 [69, 70, 71])))
  (.cases [68, 26] 46 (.leaf [76]) (.cases [73] 47 (.leaf [75]) (.leaf [74])))) (.leaf [64, 65])))
  (.cycle 29 [90, 91, 92])) (.cases [63, 49] 44 (.cases [] 53 (.leaf [98]) (.cases [] 38 (.cycle 21
  [96, 41, 97]) (.cases [61, 62] 46 (.leaf [76]) (.cases [73] 47 (.cases [75] 49 (.leaf [84])
  (.leaf [83])) (.leaf [74]))))) (.leaf [124]))) (.cases [57, 58] 38 (.cases [96, 41] 51 (.cases
  [88] 53 (.leaf [98]) (.cycle 21 [96, 41, 97])) (.cases [87] 45 (.cases [77, 78] 46 (.leaf [76])
  (.cases [73] 47 (.cases [75] 49 (.leaf [84]) (.leaf [83])) (.leaf [74]))) (.cases [72, 58] 46
  (.leaf [76]) (.cases [73] 47 (.cases [75] 49 (.leaf [84]) (.leaf [83])) (.leaf [74]))))) (.cases
  [61, 62] 51 (.cases [88] 41 (.cases [] 52 (.cases [95] 39 (.cases [93] 46 (.leaf [76]) (.cases
  [73] 47 (.cases [75] 49 (.leaf [84]) (.leaf [83])) (.leaf [74]))) (.cases [] 44 (.cases [] 40
  (.cycle 29 [90, 91, 92]) (.cases [63, 49] 46 (.leaf [76]) (.cases [73] 47 (.leaf [75]) (.leaf
  [74])))) (.cycle 54 [69, 70, 71]))) (.cases [94, 88] 45 (.leaf [77, 78]) (.leaf [72, 58])))
  (.leaf [64, 65])) (.cases [87] 39 (.cases [93, 87] 45 (.leaf [77, 78]) (.leaf [72, 58])) (.cases
  [] 40 (.cycle 29 [90, 91, 92]) (.cases [63, 49] 46 (.leaf [76]) (.cases [73] 47 (.cases [75] 49
  (.leaf [84]) (.leaf [83])) (.leaf [74])))))))

/-- some of the cases -/
def ko1n8Case50 : SumTree :=
  .cases [] 53 (.cases [98] 41 (.cases [] 43 (.cases [] 56 (.cases [108, 109] 42 (.leaf [81])
  (.cycle 33 [79, 80, 36])) (.cases [117, 118] 44 (.cases [] 57 (.cases [106, 107] 46 (.leaf [76])
  (.cases [73] 47 (.leaf [75]) (.leaf [74]))) (.cases [104, 55] 46 (.leaf [76]) (.cases [73] 47
  (.leaf [75]) (.leaf [74])))) (.cycle 54 [69, 70, 71]))) (.cases [68, 26] 46 (.leaf [76]) (.cases
  [73] 47 (.leaf [75]) (.leaf [74])))) (.leaf [64, 65])) (.cycle 21 [96, 41, 97])

/-- some of the cases -/
def ko1n8Case51 : SumTree :=
  .cases [61, 62] 39 (.cases [93] 42 (.cases [81] 48 (.cases [] 41 (.cases [] 46 (.cases [76] 44
  (.leaf [89]) (.cycle 54 [69, 70, 71])) (.cases [73] 47 (.cases [75] 56 (.cases [108, 109] 57
  (.leaf [106, 107]) (.leaf [104, 55])) (.cases [117, 118] 49 (.cases [] 50 (.cases [86] 59 (.cases
  [122] 55 (.cases [] 57 (.leaf [106, 107]) (.leaf [104, 105, 101, 93])) (.leaf [103, 55])) (.leaf
  [121, 119, 14])) (.leaf [85])) (.leaf [83]))) (.cases [74] 49 (.cases [84] 50 (.cases [86] 59
  (.cases [122] 56 (.leaf [108, 109]) (.leaf [117, 118])) (.leaf [121, 119, 14])) (.leaf [85]))
  (.leaf [83])))) (.leaf [64, 65])) (.leaf [82])) (.cases [112] 41 (.cases [] 43 (.cycle 33
  [79, 80, 36]) (.cases [68, 26] 46 (.cases [76] 44 (.leaf [89]) (.cycle 54 [69, 70, 71])) (.cases
  [73] 48 (.cases [] 49 (.cases [84] 47 (.cases [75] 56 (.cases [108, 109] 57 (.leaf [106, 107])
  (.leaf [104, 55])) (.cases [117, 118] 50 (.cases [86] 59 (.cases [122] 55 (.cases [] 57 (.leaf
  [106, 107]) (.leaf [104, 105, 101, 93])) (.leaf [103, 55])) (.leaf [121, 119, 14])) (.leaf
  [85]))) (.cases [74] 50 (.cases [86] 59 (.cases [122] 55 (.cases [] 56 (.leaf [108, 109]) (.cases
  [] 57 (.leaf [106, 107]) (.leaf [104, 105, 101, 93]))) (.leaf [103, 55])) (.leaf [121, 119, 14]))
  (.leaf [85]))) (.cases [83] 50 (.cases [86] 59 (.cases [122] 55 (.cases [] 56 (.leaf [108, 109])
  (.cases [] 57 (.leaf [106, 107]) (.leaf [104, 105, 101, 93]))) (.leaf [103, 55])) (.leaf
  [121, 119, 14])) (.leaf [85]))) (.leaf [82])))) (.leaf [64, 65]))) (.cases [] 40 (.cycle 29
  [90, 91, 92]) (.cases [63, 49] 41 (.cases [] 42 (.cases [81] 44 (.cases [] 48 (.cases [] 46
  (.leaf [76, 89]) (.cases [73] 49 (.cases [84] 50 (.cases [86] 59 (.cases [122] 56 (.leaf
  [108, 109]) (.leaf [117, 118])) (.leaf [121, 119, 14])) (.leaf [85])) (.leaf [83]))) (.leaf
  [82])) (.cycle 54 [69, 70, 71])) (.cases [] 43 (.cycle 33 [79, 80, 36]) (.cases [68, 26] 44
  (.cases [] 56 (.cases [108, 109] 46 (.leaf [76]) (.cases [73] 47 (.leaf [75]) (.leaf [74])))
  (.cases [117, 118] 46 (.leaf [76]) (.cases [73] 47 (.cases [75] 49 (.leaf [84]) (.leaf [83]))
  (.leaf [74])))) (.cycle 54 [69, 70, 71])))) (.leaf [64, 65])))

/-- some of the cases -/
def ko1n8Case52 : SumTree :=
  .cases [] 53 (.cases [98] 41 (.cases [] 42 (.cases [81] 44 (.cases [] 48 (.cases [] 40 (.cases []
  46 (.leaf [76, 89]) (.cases [73] 49 (.cases [] 50 (.cases [] 39 (.leaf [93]) (.cycle 29
  [90, 91, 92])) (.leaf [85])) (.leaf [83]))) (.leaf [63, 49])) (.leaf [82])) (.cycle 54
  [69, 70, 71])) (.cases [] 43 (.cycle 33 [79, 80, 36]) (.cases [68, 26] 44 (.cases [] 45 (.cases
  [77, 78] 46 (.leaf [76]) (.cases [73] 47 (.leaf [75]) (.leaf [74]))) (.cases [72, 58] 46 (.leaf
  [76]) (.cases [73] 47 (.leaf [75]) (.leaf [74])))) (.cycle 54 [69, 70, 71])))) (.leaf [64, 65]))
  (.cycle 21 [96, 41, 97])

/-- some of the cases -/
def ko1n8Case53 : SumTree :=
  .cases [81] 41 (.cases [] 45 (.cases [77, 78] 48 (.cases [] 46 (.cases [76] 44 (.leaf [89])
  (.cycle 54 [69, 70, 71])) (.cases [73] 47 (.cases [75] 56 (.cases [108, 109] 57 (.leaf
  [106, 107]) (.leaf [104, 55])) (.cases [117, 118] 49 (.cases [] 50 (.cases [86] 55 (.cases [] 57
  (.leaf [106, 107]) (.leaf [104, 105, 101, 93])) (.leaf [103, 55])) (.leaf [85])) (.leaf [83])))
  (.cases [74] 49 (.cases [84] 50 (.cases [86] 55 (.cases [] 56 (.leaf [108, 109]) (.cases [] 57
  (.leaf [106, 107]) (.leaf [104, 105, 101, 93]))) (.leaf [103, 55])) (.leaf [85])) (.leaf [83]))))
  (.leaf [82])) (.cases [72, 58] 48 (.cases [] 46 (.cases [76] 44 (.leaf [89]) (.cycle 54
  [69, 70, 71])) (.cases [73] 47 (.cases [75] 56 (.cases [108, 109] 57 (.leaf [106, 107]) (.leaf
  [104, 55])) (.cases [117, 118] 49 (.cases [] 50 (.cases [86] 55 (.cases [] 57 (.leaf [106, 107])
  (.leaf [104, 105, 101, 93])) (.leaf [103, 55])) (.leaf [85])) (.leaf [83]))) (.cases [74] 49
  (.cases [84] 50 (.cases [86] 55 (.cases [] 56 (.leaf [108, 109]) (.cases [] 57 (.leaf [106, 107])
  (.leaf [104, 105, 101, 93]))) (.leaf [103, 55])) (.leaf [85])) (.leaf [83])))) (.leaf [82])))
  (.leaf [64, 65])

/-- some of the cases -/
def ko1n8Case54 : SumTree :=
  .cases [] 43 (.cycle 33 [79, 80, 36]) (.cases [68, 26] 41 (.cases [] 57 (.cases [106, 107] 46
  (.cases [76] 44 (.leaf [89]) (.cycle 54 [69, 70, 71])) (.cases [73] 48 (.cases [] 49 (.cases [84]
  50 (.cases [86] 47 (.cases [75] 45 (.cases [77, 78] 56 (.leaf [108, 109]) (.leaf [117, 118]))
  (.cases [72, 58] 56 (.leaf [108, 109]) (.leaf [117, 118]))) (.cases [74] 45 (.cases [77, 78] 56
  (.leaf [108, 109]) (.leaf [117, 118])) (.cases [72, 58] 56 (.leaf [108, 109]) (.leaf
  [117, 118])))) (.cases [85, 116] 45 (.leaf [77, 78]) (.leaf [72, 58]))) (.cases [83] 50 (.cases
  [86] 47 (.cases [75] 58 (.leaf [115]) (.leaf [113, 114])) (.leaf [74])) (.leaf [85]))) (.leaf
  [82]))) (.cases [104, 55] 46 (.cases [76] 44 (.leaf [89]) (.cycle 54 [69, 70, 71])) (.cases [73]
  48 (.cases [] 49 (.cases [84] 50 (.cases [86] 47 (.cases [75] 45 (.cases [77, 78] 56 (.leaf
  [108, 109]) (.leaf [117, 118])) (.cases [72, 58] 56 (.leaf [108, 109]) (.leaf [117, 118])))
  (.cases [74] 45 (.cases [77, 78] 56 (.leaf [108, 109]) (.leaf [117, 118])) (.cases [72, 58] 56
  (.leaf [108, 109]) (.leaf [117, 118])))) (.cases [85, 116] 45 (.leaf [77, 78]) (.leaf [72, 58])))
  (.cases [83] 50 (.cases [86] 47 (.cases [75] 58 (.leaf [115]) (.leaf [113, 114])) (.leaf [74]))
  (.leaf [85]))) (.leaf [82])))) (.leaf [64, 65]))

/-- some of the cases -/
def ko1n8Case55 : SumTree :=
  .cases [] 40 (.cycle 29 [90, 91, 92]) (.cases [63, 49] 42 (.cases [81] 48 (.cases [] 41 (.cases
  [] 45 (.cases [77, 78] 44 (.cases [] 46 (.leaf [76, 89]) (.cases [73] 49 (.cases [84] 50 (.cases
  [86] 55 (.cases [] 56 (.leaf [108, 109]) (.cases [117, 118] 57 (.leaf [106, 107]) (.leaf
  [104, 55, 105]))) (.leaf [103, 55])) (.leaf [85])) (.leaf [83]))) (.cycle 54 [69, 70, 71]))
  (.cases [72, 58] 44 (.cases [] 46 (.leaf [76, 89]) (.cases [73] 49 (.cases [84] 50 (.cases [86]
  55 (.cases [] 56 (.leaf [108, 109]) (.cases [117, 118] 57 (.leaf [106, 107]) (.leaf
  [104, 55, 105]))) (.leaf [103, 55])) (.leaf [85])) (.leaf [83]))) (.cycle 54 [69, 70, 71])))
  (.leaf [64, 65])) (.leaf [82])) (.cases [112] 41 (.cases [] 43 (.cycle 33 [79, 80, 36]) (.cases
  [68, 26] 48 (.cases [] 46 (.cases [76] 44 (.leaf [89]) (.cycle 54 [69, 70, 71])) (.cases [73] 47
  (.cases [75] 45 (.cases [77, 78] 56 (.leaf [108, 109]) (.cases [] 57 (.leaf [106, 107]) (.leaf
  [104, 55]))) (.cases [72, 58] 56 (.leaf [108, 109]) (.cases [] 57 (.leaf [106, 107]) (.leaf
  [104, 55])))) (.cases [74] 49 (.cases [84] 50 (.cases [86] 54 (.cases [] 45 (.leaf [77, 78])
  (.leaf [72, 58])) (.leaf [102, 58])) (.leaf [85])) (.leaf [83])))) (.leaf [82]))) (.leaf
  [64, 65, 66, 67])))

/-- some of the cases -/
def ko1n8Case56 : SumTree :=
  .cases [119, 8, 120] 38 (.cases [96, 41] 39 (.cases [93] 46 (.leaf [76]) (.cases [73] 47 (.cases
  [75] 49 (.leaf [84]) (.leaf [83])) (.leaf [74]))) (.cases [99] 53 (.leaf [98]) (.cycle 21
  [96, 41, 97]))) (.cases [61, 62] 39 (.cases [93] 43 (.cases [] 42 (.cases [81] 46 (.leaf [76])
  (.cases [73] 47 (.leaf [75]) (.leaf [74]))) (.cycle 33 [79, 80, 36])) (.cases [68, 26] 46 (.leaf
  [76]) (.cases [73] 47 (.cases [75] 49 (.leaf [84]) (.leaf [83])) (.leaf [74])))) (.cases [] 40
  (.cycle 29 [90, 91, 92]) (.cases [63, 49] 43 (.cases [] 56 (.cases [108, 109] 46 (.leaf [76])
  (.cases [73] 47 (.cases [75] 49 (.leaf [84]) (.leaf [83])) (.leaf [74]))) (.cases [117, 118] 42
  (.leaf [81]) (.cycle 33 [79, 80, 36]))) (.cases [68, 26] 56 (.leaf [108, 109]) (.cases [] 57
  (.leaf [106, 107]) (.leaf [104, 55]))))))

/-- some of the cases -/
def ko1n8Case57 : SumTree :=
  .cases [57, 58] 38 (.cases [96, 41] 41 (.cases [] 53 (.cases [98] 44 (.cases [] 42 (.leaf [81])
  (.cases [112] 46 (.leaf [76]) (.cases [73] 47 (.leaf [75]) (.leaf [74])))) (.cycle 54
  [69, 70, 71])) (.cycle 21 [96, 41, 97])) (.leaf [64, 65])) (.cases [61, 62] 39 (.cases [93] 41
  (.cases [] 42 (.cases [81] 44 (.cases [] 45 (.cases [77, 78] 46 (.leaf [76]) (.cases [73] 47
  (.leaf [75]) (.leaf [74]))) (.cases [72, 58] 46 (.leaf [76]) (.cases [73] 47 (.leaf [75]) (.leaf
  [74])))) (.cycle 54 [69, 70, 71])) (.cases [] 43 (.cycle 33 [79, 80, 36]) (.cases [68, 26] 45
  (.cases [77, 78] 46 (.leaf [76]) (.cases [73] 47 (.cases [75] 49 (.leaf [84]) (.leaf [83]))
  (.leaf [74]))) (.cases [72, 58] 46 (.leaf [76]) (.cases [73] 47 (.cases [75] 49 (.leaf [84])
  (.leaf [83])) (.leaf [74])))))) (.leaf [64, 65])) (.cases [] 40 (.cycle 29 [90, 91, 92]) (.cases
  [63, 49] 41 (.cases [] 43 (.cases [] 42 (.cases [81] 46 (.leaf [76]) (.cases [73] 47 (.cases [75]
  49 (.leaf [84]) (.leaf [83])) (.leaf [74]))) (.cycle 33 [79, 80, 36])) (.cases [68, 26] 44
  (.cases [] 48 (.cases [] 46 (.leaf [76, 89]) (.cases [73] 49 (.cases [84] 50 (.cases [86] 54
  (.cases [] 45 (.leaf [77, 78]) (.leaf [72, 58])) (.leaf [102, 58])) (.leaf [85])) (.leaf [83])))
  (.leaf [82])) (.cycle 54 [69, 70, 71]))) (.leaf [64, 65]))))

/-- some of the cases -/
def ko1n8Case58 : SumTree :=
  .cases [119, 8, 120] 38 (.cases [] 53 (.cases [98] 46 (.leaf [76]) (.cases [73] 47 (.cases [75]
  49 (.leaf [84]) (.leaf [83])) (.leaf [74]))) (.cycle 21 [96, 41, 97])) (.cases [61, 62] 51
  (.cases [88] 41 (.cases [] 52 (.cases [95] 43 (.cases [] 39 (.cases [93] 42 (.leaf [81]) (.cycle
  33 [79, 80, 36])) (.cases [] 44 (.cases [] 40 (.cycle 29 [90, 91, 92]) (.cases [63, 49] 46 (.leaf
  [76]) (.cases [73] 47 (.leaf [75]) (.leaf [74])))) (.cycle 54 [69, 70, 71]))) (.cases [68, 26] 46
  (.leaf [76]) (.cases [73] 47 (.cases [75] 49 (.leaf [84]) (.leaf [83])) (.leaf [74])))) (.cases
  [94, 88] 56 (.leaf [108, 109]) (.leaf [117, 118]))) (.leaf [64, 65])) (.cases [87] 41 (.cases []
  39 (.cases [93, 87] 46 (.leaf [76]) (.cases [73] 47 (.leaf [75]) (.leaf [74]))) (.cases [] 40
  (.cycle 29 [90, 91, 92]) (.cases [63, 49] 44 (.cases [] 42 (.leaf [81]) (.cases [112] 46 (.leaf
  [76]) (.cases [73] 47 (.leaf [75]) (.leaf [74])))) (.cycle 54 [69, 70, 71])))) (.leaf [64, 65])))

/-- some of the cases -/
def ko1n8Case59 : SumTree :=
  .cases [57, 58] 38 (.cases [] 53 (.cases [98] 40 (.cases [] 45 (.cases [77, 78] 46 (.leaf [76])
  (.cases [73] 47 (.cases [75] 49 (.leaf [84]) (.leaf [83])) (.leaf [74]))) (.cases [72, 58] 46
  (.leaf [76]) (.cases [73] 47 (.cases [75] 49 (.leaf [84]) (.leaf [83])) (.leaf [74])))) (.leaf
  [63, 49])) (.cycle 21 [96, 41, 97])) (.cases [61, 62] 51 (.cases [88] 52 (.cases [95] 41 (.cases
  [] 39 (.cases [93] 43 (.cases [] 45 (.cases [77, 78] 42 (.leaf [81]) (.cycle 33 [79, 80, 36]))
  (.cases [72, 58] 42 (.leaf [81]) (.cycle 33 [79, 80, 36]))) (.cases [68, 26] 46 (.leaf [76])
  (.cases [73] 47 (.leaf [75]) (.leaf [74])))) (.cases [] 40 (.cycle 29 [90, 91, 92]) (.cases
  [63, 49] 44 (.cases [] 45 (.cases [77, 78] 46 (.leaf [76]) (.cases [73] 47 (.leaf [75]) (.leaf
  [74]))) (.cases [72, 58] 46 (.leaf [76]) (.cases [73] 47 (.leaf [75]) (.leaf [74])))) (.cycle 54
  [69, 70, 71])))) (.leaf [64, 65])) (.cases [94, 88] 46 (.leaf [76]) (.cases [73] 47 (.cases [75]
  49 (.leaf [84]) (.leaf [83])) (.leaf [74])))) (.cases [87] 39 (.cases [93, 87] 44 (.cases [] 45
  (.cases [77, 78] 46 (.leaf [76]) (.cases [73] 47 (.leaf [75]) (.leaf [74]))) (.cases [72, 58] 46
  (.leaf [76]) (.cases [73] 47 (.leaf [75]) (.leaf [74])))) (.leaf [124])) (.cases [] 40 (.cycle 29
  [90, 91, 92]) (.cases [63, 49] 43 (.cases [] 45 (.cases [77, 78] 42 (.leaf [81]) (.cycle 33
  [79, 80, 36])) (.cases [72, 58] 42 (.leaf [81]) (.cycle 33 [79, 80, 36]))) (.cases [68, 26] 46
  (.leaf [76]) (.cases [73] 47 (.leaf [75]) (.leaf [74])))))))

/-- some of the cases -/
def ko1n8Case60 : SumTree :=
  .cases [] 53 (.cases [98] 41 (.cases [] 43 (.cases [] 56 (.cases [108, 109] 42 (.leaf [81])
  (.cycle 33 [79, 80, 36])) (.cases [117, 118] 44 (.cases [] 57 (.cases [106, 107] 46 (.leaf [76])
  (.cases [73] 47 (.leaf [75]) (.leaf [74]))) (.cases [104, 55] 46 (.leaf [76]) (.cases [73] 47
  (.leaf [75]) (.leaf [74])))) (.cycle 54 [69, 70, 71]))) (.cases [68, 26] 46 (.leaf [76]) (.cases
  [73] 47 (.leaf [75]) (.leaf [74])))) (.leaf [64, 65])) (.cycle 21 [96, 41, 97])

/-- some of the cases -/
def ko1n8Case61 : SumTree :=
  .cases [93] 42 (.cases [81] 48 (.cases [] 41 (.cases [] 46 (.cases [76] 44 (.leaf [89]) (.cycle
  54 [69, 70, 71])) (.cases [73] 47 (.cases [75] 56 (.cases [108, 109] 57 (.leaf [106, 107]) (.leaf
  [104, 55])) (.cases [117, 118] 49 (.cases [] 50 (.cases [86] 59 (.cases [122] 55 (.cases [] 57
  (.leaf [106, 107]) (.leaf [104, 105, 101, 93])) (.leaf [103, 55])) (.leaf [121, 119, 14])) (.leaf
  [85])) (.leaf [83]))) (.cases [74] 49 (.cases [84] 50 (.cases [86] 59 (.cases [122] 56 (.leaf
  [108, 109]) (.leaf [117, 118])) (.leaf [121, 119, 14])) (.leaf [85])) (.leaf [83])))) (.leaf
  [64, 65])) (.leaf [82])) (.cases [112] 41 (.cases [] 43 (.cycle 33 [79, 80, 36]) (.cases [68, 26]
  46 (.cases [76] 44 (.leaf [89]) (.cycle 54 [69, 70, 71])) (.cases [73] 48 (.cases [] 49 (.cases
  [84] 47 (.cases [75] 56 (.cases [108, 109] 57 (.leaf [106, 107]) (.leaf [104, 55])) (.cases
  [117, 118] 50 (.cases [86] 59 (.cases [122] 55 (.cases [] 57 (.leaf [106, 107]) (.leaf
  [104, 105, 101, 93])) (.leaf [103, 55])) (.leaf [121, 119, 14])) (.leaf [85]))) (.cases [74] 50
  (.cases [86] 59 (.cases [122] 55 (.cases [] 56 (.leaf [108, 109]) (.cases [] 57 (.leaf
  [106, 107]) (.leaf [104, 105, 101, 93]))) (.leaf [103, 55])) (.leaf [121, 119, 14])) (.leaf
  [85]))) (.cases [83] 50 (.cases [86] 59 (.cases [122] 55 (.cases [] 56 (.leaf [108, 109]) (.cases
  [] 57 (.leaf [106, 107]) (.leaf [104, 105, 101, 93]))) (.leaf [103, 55])) (.leaf [121, 119, 14]))
  (.leaf [85]))) (.leaf [82])))) (.leaf [64, 65]))

/-- some of the cases -/
def ko1n8Case62 : SumTree :=
  .cases [] 40 (.cycle 29 [90, 91, 92]) (.cases [63, 49] 41 (.cases [] 42 (.cases [81] 44 (.cases
  [] 56 (.cases [108, 109] 46 (.leaf [76]) (.cases [73] 47 (.leaf [75]) (.leaf [74]))) (.cases
  [117, 118] 46 (.leaf [76]) (.cases [73] 47 (.cases [75] 49 (.leaf [84]) (.leaf [83])) (.leaf
  [74])))) (.cycle 54 [69, 70, 71])) (.cases [] 43 (.cycle 33 [79, 80, 36]) (.cases [68, 26] 48
  (.cases [] 56 (.cases [108, 109] 46 (.leaf [76]) (.cases [73] 47 (.cases [75] 49 (.leaf [84])
  (.leaf [83])) (.leaf [74]))) (.cases [117, 118] 44 (.cases [] 46 (.leaf [76, 89]) (.cases [73] 49
  (.cases [84] 50 (.cases [86] 59 (.cases [122] 55 (.cases [] 57 (.leaf [106, 107]) (.leaf
  [104, 55, 105])) (.leaf [103, 55])) (.leaf [121, 119, 14])) (.leaf [85])) (.leaf [83]))) (.cycle
  54 [69, 70, 71]))) (.leaf [82])))) (.leaf [64, 65]))

/-- some of the cases -/
def ko1n8Case63 : SumTree :=
  .cases [100, 101, 48] 38 (.cases [96, 41] 39 (.cases [93] 46 (.leaf [76]) (.cases [73] 47 (.cases
  [75] 49 (.leaf [84]) (.leaf [83])) (.leaf [74]))) (.cases [] 40 (.cycle 29 [90, 91, 92]) (.cases
  [63, 49] 56 (.leaf [108, 109]) (.cases [] 57 (.leaf [106, 107]) (.leaf [104, 55]))))) (.cases
  [61, 62] 39 (.cases [93] 41 (.cases [] 43 (.cases [] 42 (.cases [81] 46 (.leaf [76]) (.cases [73]
  47 (.cases [75] 49 (.leaf [84]) (.leaf [83])) (.leaf [74]))) (.cycle 33 [79, 80, 36])) (.cases
  [68, 26] 44 (.cases [] 48 (.cases [] 46 (.leaf [76, 89]) (.cases [73] 49 (.cases [84] 50 (.cases
  [86] 59 (.cases [122] 56 (.leaf [108, 109]) (.leaf [117, 118])) (.leaf [121, 119, 14])) (.leaf
  [85])) (.leaf [83]))) (.leaf [82])) (.cycle 54 [69, 70, 71]))) (.leaf [64, 65])) (.cases [] 40
  (.cycle 29 [90, 91, 92]) (.cases [63, 49] 43 (.cases [] 56 (.cases [108, 109] 46 (.leaf [76])
  (.cases [73] 47 (.cases [75] 49 (.leaf [84]) (.leaf [83])) (.leaf [74]))) (.cases [117, 118] 42
  (.leaf [81]) (.cycle 33 [79, 80, 36]))) (.cases [68, 26] 56 (.leaf [108, 109]) (.cases [] 57
  (.leaf [106, 107]) (.leaf [104, 55]))))))

/-- some of the cases -/
def ko1n8Case64 : SumTree :=
  .cases [60] 38 (.cases [] 53 (.cases [98] 39 (.leaf [93]) (.cases [99] 51 (.leaf [88, 99])
  (.cases [87] 42 (.leaf [81]) (.leaf [112])))) (.cycle 21 [96, 41, 97])) (.cases [61, 62] 39
  (.cases [93] 41 (.cases [] 43 (.cases [] 52 (.cases [95, 93] 42 (.leaf [81]) (.cycle 33
  [79, 80, 36])) (.cases [94] 44 (.cases [] 56 (.cases [108, 109] 46 (.leaf [76]) (.cases [73] 47
  (.leaf [75]) (.leaf [74]))) (.cases [117, 118] 46 (.leaf [76]) (.cases [73] 47 (.cases [75] 49
  (.leaf [84]) (.leaf [83])) (.leaf [74])))) (.cycle 54 [69, 70, 71]))) (.cases [68, 26] 44 (.cases
  [] 48 (.cases [] 51 (.cases [] 46 (.leaf [76, 89]) (.cases [73] 49 (.cases [] 50 (.cases [] 52
  (.leaf [95, 93]) (.leaf [94, 88])) (.leaf [85])) (.leaf [83]))) (.leaf [87])) (.leaf [82]))
  (.cycle 54 [69, 70, 71]))) (.leaf [64, 65])) (.cases [] 40 (.cycle 29 [90, 91, 92]) (.cases
  [63, 49] 41 (.cases [] 43 (.cases [] 56 (.cases [108, 109] 42 (.leaf [81]) (.cycle 33
  [79, 80, 36])) (.cases [117, 118] 44 (.cases [] 57 (.cases [106, 107] 46 (.leaf [76]) (.cases
  [73] 47 (.leaf [75]) (.leaf [74]))) (.cases [104, 55] 46 (.leaf [76]) (.cases [73] 47 (.leaf
  [75]) (.leaf [74])))) (.cycle 54 [69, 70, 71]))) (.cases [68, 26] 46 (.leaf [76]) (.cases [73] 47
  (.leaf [75]) (.leaf [74])))) (.leaf [64, 65]))))

/-- some of the cases -/
def ko1n8Case65 : SumTree :=
  .cases [] 53 (.cases [98] 41 (.cases [] 42 (.cases [81] 44 (.cases [] 48 (.cases [] 40 (.cases []
  46 (.leaf [76, 89]) (.cases [73] 49 (.cases [] 50 (.cases [86] 39 (.leaf [93]) (.cycle 29
  [90, 91, 92])) (.leaf [85])) (.leaf [83]))) (.leaf [63, 49])) (.leaf [82])) (.cycle 54
  [69, 70, 71])) (.cases [] 43 (.cycle 33 [79, 80, 36]) (.cases [68, 26] 44 (.cases [] 45 (.cases
  [77, 78] 46 (.leaf [76]) (.cases [73] 47 (.leaf [75]) (.leaf [74]))) (.cases [72, 58] 46 (.leaf
  [76]) (.cases [73] 47 (.leaf [75]) (.leaf [74])))) (.cycle 54 [69, 70, 71])))) (.leaf [64, 65]))
  (.cycle 21 [96, 41, 97])

/-- some of the cases -/
def ko1n8Case66 : SumTree :=
  .cases [81] 41 (.cases [] 45 (.cases [77, 78] 48 (.cases [] 46 (.cases [76] 44 (.leaf [89])
  (.cycle 54 [69, 70, 71])) (.cases [73] 47 (.cases [75] 56 (.cases [108, 109] 57 (.leaf
  [106, 107]) (.leaf [104, 55])) (.cases [117, 118] 49 (.cases [] 50 (.cases [86] 55 (.cases [] 57
  (.leaf [106, 107]) (.leaf [104, 105, 101, 93])) (.leaf [103, 55])) (.leaf [85])) (.leaf [83])))
  (.cases [74] 49 (.cases [84] 50 (.cases [86] 55 (.cases [] 56 (.leaf [108, 109]) (.cases [] 57
  (.leaf [106, 107]) (.leaf [104, 105, 101, 93]))) (.leaf [103, 55])) (.leaf [85])) (.leaf [83]))))
  (.leaf [82])) (.cases [72, 58] 48 (.cases [] 46 (.cases [76] 44 (.leaf [89]) (.cycle 54
  [69, 70, 71])) (.cases [73] 47 (.cases [75] 56 (.cases [108, 109] 57 (.leaf [106, 107]) (.leaf
  [104, 55])) (.cases [117, 118] 49 (.cases [] 50 (.cases [86] 55 (.cases [] 57 (.leaf [106, 107])
  (.leaf [104, 105, 101, 93])) (.leaf [103, 55])) (.leaf [85])) (.leaf [83]))) (.cases [74] 49
  (.cases [84] 50 (.cases [86] 55 (.cases [] 56 (.leaf [108, 109]) (.cases [] 57 (.leaf [106, 107])
  (.leaf [104, 105, 101, 93]))) (.leaf [103, 55])) (.leaf [85])) (.leaf [83])))) (.leaf [82])))
  (.leaf [64, 65])

/-- some of the cases -/
def ko1n8Case67 : SumTree :=
  .cases [] 43 (.cycle 33 [79, 80, 36]) (.cases [68, 26] 41 (.cases [] 57 (.cases [106, 107] 46
  (.cases [76] 44 (.leaf [89]) (.cycle 54 [69, 70, 71])) (.cases [73] 48 (.cases [] 49 (.cases [84]
  50 (.cases [86] 47 (.cases [75] 45 (.cases [77, 78] 56 (.leaf [108, 109]) (.leaf [117, 118]))
  (.cases [72, 58] 56 (.leaf [108, 109]) (.leaf [117, 118]))) (.cases [74] 45 (.cases [77, 78] 56
  (.leaf [108, 109]) (.leaf [117, 118])) (.cases [72, 58] 56 (.leaf [108, 109]) (.leaf
  [117, 118])))) (.cases [85, 116] 45 (.leaf [77, 78]) (.leaf [72, 58]))) (.cases [83] 50 (.cases
  [86] 47 (.cases [75] 58 (.leaf [115]) (.leaf [113, 114])) (.leaf [74])) (.leaf [85]))) (.leaf
  [82]))) (.cases [104, 55] 46 (.cases [76] 44 (.leaf [89]) (.cycle 54 [69, 70, 71])) (.cases [73]
  48 (.cases [] 49 (.cases [84] 50 (.cases [86] 47 (.cases [75] 45 (.cases [77, 78] 56 (.leaf
  [108, 109]) (.leaf [117, 118])) (.cases [72, 58] 56 (.leaf [108, 109]) (.leaf [117, 118])))
  (.cases [74] 45 (.cases [77, 78] 56 (.leaf [108, 109]) (.leaf [117, 118])) (.cases [72, 58] 56
  (.leaf [108, 109]) (.leaf [117, 118])))) (.cases [85, 116] 45 (.leaf [77, 78]) (.leaf [72, 58])))
  (.cases [83] 50 (.cases [86] 47 (.cases [75] 58 (.leaf [115]) (.leaf [113, 114])) (.leaf [74]))
  (.leaf [85]))) (.leaf [82])))) (.leaf [64, 65]))

/-- some of the cases -/
def ko1n8Case68 : SumTree :=
  .cases [] 40 (.cycle 29 [90, 91, 92]) (.cases [63, 49] 42 (.cases [81] 48 (.cases [] 41 (.cases
  [] 46 (.cases [76] 44 (.leaf [89]) (.cycle 54 [69, 70, 71])) (.cases [73] 47 (.cases [75] 45
  (.cases [77, 78] 56 (.leaf [108, 109]) (.cases [] 57 (.leaf [106, 107]) (.leaf [104, 55])))
  (.cases [72, 58] 56 (.leaf [108, 109]) (.cases [] 57 (.leaf [106, 107]) (.leaf [104, 55]))))
  (.cases [74] 49 (.cases [84] 50 (.cases [86] 54 (.cases [] 45 (.leaf [77, 78]) (.leaf [72, 58]))
  (.leaf [102, 58])) (.leaf [85])) (.leaf [83])))) (.leaf [64, 65])) (.leaf [82])) (.cases [112] 41
  (.cases [] 43 (.cycle 33 [79, 80, 36]) (.cases [68, 26] 46 (.cases [76] 44 (.leaf [89]) (.cycle
  54 [69, 70, 71])) (.cases [73] 48 (.cases [] 49 (.cases [84] 50 (.cases [86] 47 (.cases [75] 45
  (.cases [77, 78] 56 (.leaf [108, 109]) (.leaf [117, 118])) (.cases [72, 58] 56 (.leaf [108, 109])
  (.leaf [117, 118]))) (.cases [74] 45 (.cases [77, 78] 56 (.leaf [108, 109]) (.leaf [117, 118]))
  (.cases [72, 58] 56 (.leaf [108, 109]) (.leaf [117, 118])))) (.cases [85, 116] 45 (.leaf
  [77, 78]) (.leaf [72, 58]))) (.cases [83] 50 (.cases [86] 47 (.cases [75] 58 (.leaf [115]) (.leaf
  [113, 114])) (.leaf [74])) (.leaf [85]))) (.leaf [82])))) (.leaf [64, 65])))

/-- some of the cases -/
def ko1n8Case69 : SumTree :=
  .cases [100, 101, 48] 38 (.cases [] 53 (.cases [98] 40 (.cases [] 39 (.cases [93] 45 (.leaf
  [77, 78]) (.leaf [72, 58])) (.cycle 29 [90, 91, 92])) (.leaf [63, 49])) (.cycle 21 [96, 41, 97]))
  (.cases [61, 62] 39 (.cases [93] 41 (.cases [] 42 (.cases [81] 45 (.cases [77, 78] 46 (.leaf
  [76]) (.cases [73] 47 (.cases [75] 49 (.leaf [84]) (.leaf [83])) (.leaf [74]))) (.cases [72, 58]
  46 (.leaf [76]) (.cases [73] 47 (.cases [75] 49 (.leaf [84]) (.leaf [83])) (.leaf [74]))))
  (.cases [] 43 (.cycle 33 [79, 80, 36]) (.cases [68, 26] 48 (.cases [] 45 (.cases [77, 78] 44
  (.cases [] 46 (.leaf [76, 89]) (.cases [73] 49 (.cases [84] 50 (.cases [86] 55 (.cases [] 56
  (.leaf [108, 109]) (.cases [] 57 (.leaf [106, 107]) (.leaf [104, 55, 105, 101, 93]))) (.leaf
  [103, 55])) (.leaf [85])) (.leaf [83]))) (.cycle 54 [69, 70, 71])) (.cases [72, 58] 44 (.cases []
  46 (.leaf [76, 89]) (.cases [73] 49 (.cases [84] 50 (.cases [86] 55 (.cases [] 56 (.leaf
  [108, 109]) (.cases [] 57 (.leaf [106, 107]) (.leaf [104, 55, 105, 101, 93]))) (.leaf [103, 55]))
  (.leaf [85])) (.leaf [83]))) (.cycle 54 [69, 70, 71]))) (.leaf [82])))) (.leaf [64, 65])) (.cases
  [] 40 (.cycle 29 [90, 91, 92]) (.cases [63, 49] 41 (.cases [] 43 (.cases [] 42 (.cases [81] 46
  (.leaf [76]) (.cases [73] 47 (.cases [75] 49 (.leaf [84]) (.leaf [83])) (.leaf [74]))) (.cycle 33
  [79, 80, 36])) (.cases [68, 26] 44 (.cases [] 48 (.cases [] 46 (.leaf [76, 89]) (.cases [73] 49
  (.cases [84] 50 (.cases [86] 54 (.cases [] 45 (.leaf [77, 78]) (.leaf [72, 58])) (.leaf
  [102, 58])) (.leaf [85])) (.leaf [83]))) (.leaf [82])) (.cycle 54 [69, 70, 71]))) (.leaf
  [64, 65, 66, 67]))))

/-- some of the cases -/
def ko1n8Case70 : SumTree :=
  .cases [60] 38 (.cases [] 53 (.cases [98] 43 (.cases [] 45 (.cases [77, 78] 39 (.leaf [93])
  (.cases [99] 51 (.leaf [88, 99]) (.cases [87] 42 (.leaf [81]) (.cycle 33 [79, 80, 36])))) (.cases
  [72, 58] 39 (.leaf [93]) (.cases [] 51 (.leaf [88, 99]) (.cases [87] 42 (.leaf [81]) (.cycle 33
  [79, 80, 36]))))) (.cases [68, 26] 46 (.leaf [76]) (.cases [73] 47 (.leaf [75]) (.leaf [74]))))
  (.cycle 21 [96, 41, 97])) (.cases [61, 62] 39 (.cases [93] 41 (.cases [] 52 (.cases [95, 93] 43
  (.cases [] 45 (.cases [77, 78] 42 (.leaf [81]) (.cycle 33 [79, 80, 36])) (.cases [72, 58] 42
  (.leaf [81]) (.cycle 33 [79, 80, 36]))) (.cases [68, 26] 46 (.leaf [76]) (.cases [73] 47 (.leaf
  [75]) (.leaf [74])))) (.cases [94] 43 (.cases [] 51 (.cases [88] 42 (.leaf [81]) (.cycle 33
  [79, 80, 36])) (.cases [87] 44 (.cases [] 45 (.cases [77, 78] 46 (.leaf [76]) (.cases [73] 47
  (.leaf [75]) (.leaf [74]))) (.cases [72, 58] 46 (.leaf [76]) (.cases [73] 47 (.leaf [75]) (.leaf
  [74])))) (.cycle 54 [69, 70, 71]))) (.cases [68, 26] 46 (.leaf [76]) (.cases [73] 47 (.cases [75]
  49 (.leaf [84]) (.leaf [83])) (.leaf [74]))))) (.leaf [64, 65])) (.cases [] 40 (.cycle 29
  [90, 91, 92]) (.cases [63, 49] 41 (.cases [] 42 (.cases [81] 44 (.cases [] 48 (.cases [] 46
  (.leaf [76, 89]) (.cases [73] 49 (.cases [84] 50 (.cases [86] 51 (.leaf [88]) (.leaf [87]))
  (.leaf [85])) (.leaf [83]))) (.leaf [82])) (.cycle 54 [69, 70, 71])) (.cases [] 43 (.cycle 33
  [79, 80, 36]) (.cases [68, 26] 44 (.cases [] 45 (.cases [77, 78] 46 (.leaf [76]) (.cases [73] 47
  (.leaf [75]) (.leaf [74]))) (.cases [72, 58] 46 (.leaf [76]) (.cases [73] 47 (.leaf [75]) (.leaf
  [74])))) (.cycle 54 [69, 70, 71])))) (.leaf [64, 65, 66, 67]))))

/-- all cases -/
def ko1n8Cases : SumTree :=
  .cases [] 0 (.leaf [189]) (.cases [] 1 (.leaf [188]) (.cases [0, 1, 2, 3] 2 (.leaf [187]) (.cases
  [] 3 (.cases [] 4 (.leaf [186]) (.cases [5, 6, 7, 8] 5 (.leaf [185]) (.cases [] 6 (.leaf [184])
  (.cases [9, 10] 7 (.cases [] 8 (.cycle 2 [2, 3, 183]) (.cases [] 9 (.cycle 1 [0, 1, 182]) (.cases
  [] 10 (.cycle 8 [7, 8, 181]) (.cases [] 11 (.cases [] 12 (.cycle 7 [5, 6, 180]) (.cases [] 13
  (.leaf [179, 129]) (.cases [] 14 (.cycle 12 [9, 10, 178]) (.cases [] 15 (.cases [18, 19] 16
  (.cases [] 17 (.leaf [177]) (.cases [] 18 (.cases [] 19 (.cases [] 20 (.cases [] 21 (.leaf [176])
  (.cases [] 22 (.cases [25, 26] 23 (.leaf [174, 175]) (.cases [] 24 (.cases [] 25 (.leaf
  [173, 30]) (.cases [] 26 (.cases [] 27 (.cases [] 28 (.cases [35] 29 (.cases [38] 30 (.cases [42]
  31 (.cases [147] 66 (.cases [150] 32 (.cases [] 61 (.cases [134] 62 (.cases [137, 138, 139] 63
  (.cases [144, 139] 35 ko1n8Case0 (.cases [57, 58] 67 ko1n8Case1 ko1n8Case2)) ko1n8Case3) (.leaf
  [135, 136])) (.cycle 7 [131, 132, 133])) (.cases [50, 51, 5, 52, 7, 53] 67 (.cases [162] 68
  (.cases [163] 73 (.cases [167] 75 (.cases [170] 34 ko1n8Case4 ko1n8Case5) (.cycle 37
  [168, 92, 169])) (.cases [] 74 (.cycle 73 [165, 166, 148]) (.cases [164, 49] 40 ko1n8Case6
  (.cases [63, 49] 34 ko1n8Case7 ko1n8Case8)))) (.cycle 23 [162, 148, 157])) (.cases
  [151, 46, 47, 49] 68 (.cycle 37 [151, 46, 161]) (.cases [] 33 (.cases [125, 126, 127] 34 (.cases
  [123, 19] 35 ko1n8Case9 (.cases [57, 58] 38 ko1n8Case10 (.cases [61, 62] 70 ko1n8Case11 (.cases
  [152] 39 ko1n8Case12 ko1n8Case13)))) (.cases [56] 35 (.cases [119, 8, 120] 70 ko1n8Case14
  ko1n8Case15) (.cases [57, 58] 38 ko1n8Case16 (.cases [61, 62] 70 ko1n8Case17 (.cases [152] 39
  ko1n8Case18 ko1n8Case19))))) (.cases [54, 55] 69 (.leaf [160, 157, 30]) (.cases [] 35 (.cases
  [119, 8, 120] 34 (.cases [123, 19] 38 ko1n8Case20 (.cases [61, 62] 70 ko1n8Case21 (.cases [152]
  39 ko1n8Case22 ko1n8Case23))) (.cases [56] 70 ko1n8Case24 (.cases [152] 38 ko1n8Case25 (.cases
  [61, 62] 39 ko1n8Case26 ko1n8Case27)))) (.cases [57, 58] 34 (.cases [123, 19] 38 ko1n8Case28
  (.cases [61, 62] 70 ko1n8Case29 (.cases [152] 39 (.cases [93] 42 ko1n8Case30 (.cases [] 43
  (.cycle 33 [79, 80, 36]) (.cases [68, 26] 57 ko1n8Case31 ko1n8Case32))) ko1n8Case33))) (.cases
  [56] 70 ko1n8Case34 (.cases [152] 38 ko1n8Case35 (.cases [61, 62] 39 (.cases [93] 42 ko1n8Case36
  (.cases [] 43 (.cycle 33 [79, 80, 36]) (.cases [68, 26] 57 ko1n8Case37 ko1n8Case38)))
  ko1n8Case39)))))))))) (.cycle 28 [147, 148, 149])) (.cases [43, 44, 45, 46, 47, 48, 49] 32
  (.cases [] 61 (.cases [134] 62 (.cases [137, 138, 139] 63 ko1n8Case40 ko1n8Case41) (.leaf
  [135, 136])) (.cycle 7 [131, 132, 133])) (.cases [50, 51, 5, 52, 7, 53] 33 (.cases
  [125, 126, 127] 60 (.cases [130] 34 (.cases [123, 19] 35 (.cases [119, 8, 120] 36 ko1n8Case42
  ko1n8Case43) (.cases [57, 58] 36 ko1n8Case44 ko1n8Case45)) (.cases [56] 36 (.cases [110, 111, 48]
  35 ko1n8Case46 ko1n8Case47) (.cases [59] 37 ko1n8Case48 ko1n8Case49))) (.leaf [128, 125, 129]))
  (.cases [54, 55] 34 (.cases [123, 19] 36 (.cases [110, 111, 48] 35 (.cases [119, 8, 120] 38
  ko1n8Case50 ko1n8Case51) (.cases [57, 58] 38 ko1n8Case52 (.cases [61, 62] 39 (.cases [93] 42
  ko1n8Case53 ko1n8Case54) ko1n8Case55))) (.cases [59] 37 (.cases [100, 101, 48] 35 ko1n8Case56
  ko1n8Case57) (.cases [60] 35 ko1n8Case58 ko1n8Case59))) (.cases [56] 35 (.cases [119, 8, 120] 36
  (.cases [110, 111, 48] 38 ko1n8Case60 (.cases [61, 62] 39 ko1n8Case61 ko1n8Case62)) (.cases [59]
  37 ko1n8Case63 ko1n8Case64)) (.cases [57, 58] 36 (.cases [110, 111, 48] 38 ko1n8Case65 (.cases
  [61, 62] 39 (.cases [93] 42 ko1n8Case66 ko1n8Case67) ko1n8Case68)) (.cases [59] 37 ko1n8Case69
  ko1n8Case70))))))) (.cycle 35 [39, 40, 41])) (.cycle 25 [35, 36, 37])) (.leaf [33, 34])) (.leaf
  [31, 32])) (.leaf [29, 30]))) (.leaf [27, 28]))) (.leaf [24]))) (.leaf [23])) (.leaf [22]))
  (.leaf [21]))) (.leaf [20])) (.cycle 12 [15, 16, 17]))))) (.leaf [13, 14]))))) (.leaf
  [11, 12]))))) (.leaf [4]))))

theorem ko1n8_part0 : ko1n8Cases.checkAt ko1n8Arcs 342 ko1n8Choices.length
    [true]
    [] ko1n8Times 0 = true := by decide +kernel

theorem ko1n8_part1 : ko1n8Cases.checkAt ko1n8Arcs 342 ko1n8Choices.length
    [false, true]
    [] ko1n8Times 0 = true := by decide +kernel

theorem ko1n8_part2 : ko1n8Cases.checkAt ko1n8Arcs 342 ko1n8Choices.length
    [false, false, true]
    [] ko1n8Times 0 = true := by decide +kernel

theorem ko1n8_part3 : ko1n8Cases.checkAt ko1n8Arcs 342 ko1n8Choices.length
    [false, false, false, true, true]
    [] ko1n8Times 0 = true := by decide +kernel

theorem ko1n8_part4 : ko1n8Cases.checkAt ko1n8Arcs 342 ko1n8Choices.length
    [false, false, false, true, false, true]
    [] ko1n8Times 0 = true := by decide +kernel

theorem ko1n8_part5 : ko1n8Cases.checkAt ko1n8Arcs 342 ko1n8Choices.length
    [false, false, false, true, false, false, true]
    [] ko1n8Times 0 = true := by decide +kernel

theorem ko1n8_part6 : ko1n8Cases.checkAt ko1n8Arcs 342 ko1n8Choices.length
    [false, false, false, true, false, false, false, true, true]
    [] ko1n8Times 0 = true := by decide +kernel

theorem ko1n8_part7 : ko1n8Cases.checkAt ko1n8Arcs 342 ko1n8Choices.length
    [false, false, false, true, false, false, false, true, false, true]
    [] ko1n8Times 0 = true := by decide +kernel

theorem ko1n8_part8 : ko1n8Cases.checkAt ko1n8Arcs 342 ko1n8Choices.length
    [false, false, false, true, false, false, false, true, false, false, true]
    [] ko1n8Times 0 = true := by decide +kernel

theorem ko1n8_part9 : ko1n8Cases.checkAt ko1n8Arcs 342 ko1n8Choices.length
    [false, false, false, true, false, false, false, true, false, false, false, true, true]
    [] ko1n8Times 0 = true := by decide +kernel

theorem ko1n8_part10 : ko1n8Cases.checkAt ko1n8Arcs 342 ko1n8Choices.length
    [false, false, false, true, false, false, false, true, false, false, false, true, false, true]
    [] ko1n8Times 0 = true := by decide +kernel

theorem ko1n8_part11 : ko1n8Cases.checkAt ko1n8Arcs 342 ko1n8Choices.length
    [false, false, false, true, false, false, false, true, false, false, false, true, false, false,
    true]
    [] ko1n8Times 0 = true := by decide +kernel

theorem ko1n8_part12 : ko1n8Cases.checkAt ko1n8Arcs 342 ko1n8Choices.length
    [false, false, false, true, false, false, false, true, false, false, false, true, false, false,
    false, true, true, true]
    [] ko1n8Times 0 = true := by decide +kernel

theorem ko1n8_part13 : ko1n8Cases.checkAt ko1n8Arcs 342 ko1n8Choices.length
    [false, false, false, true, false, false, false, true, false, false, false, true, false, false,
    false, true, true, false, true, true, true, true]
    [] ko1n8Times 0 = true := by decide +kernel

theorem ko1n8_part14 : ko1n8Cases.checkAt ko1n8Arcs 342 ko1n8Choices.length
    [false, false, false, true, false, false, false, true, false, false, false, true, false, false,
    false, true, true, false, true, true, true, false, true, true]
    [] ko1n8Times 0 = true := by decide +kernel

theorem ko1n8_part15 : ko1n8Cases.checkAt ko1n8Arcs 342 ko1n8Choices.length
    [false, false, false, true, false, false, false, true, false, false, false, true, false, false,
    false, true, true, false, true, true, true, false, true, false, true, true]
    [] ko1n8Times 0 = true := by decide +kernel

theorem ko1n8_part16 : ko1n8Cases.checkAt ko1n8Arcs 342 ko1n8Choices.length
    [false, false, false, true, false, false, false, true, false, false, false, true, false, false,
    false, true, true, false, true, true, true, false, true, false, true, false, true, true, true,
    true, true, true, true, true]
    [] ko1n8Times 0 = true := by decide +kernel

theorem ko1n8_part17 : ko1n8Cases.checkAt ko1n8Arcs 342 ko1n8Choices.length
    [false, false, false, true, false, false, false, true, false, false, false, true, false, false,
    false, true, true, false, true, true, true, false, true, false, true, false, true, true, true,
    true, true, true, true, false, true]
    [] ko1n8Times 0 = true := by decide +kernel

theorem ko1n8_part18 : ko1n8Cases.checkAt ko1n8Arcs 342 ko1n8Choices.length
    [false, false, false, true, false, false, false, true, false, false, false, true, false, false,
    false, true, true, false, true, true, true, false, true, false, true, false, true, true, true,
    true, true, true, true, false, false, true]
    [] ko1n8Times 0 = true := by decide +kernel

theorem ko1n8_part19 : ko1n8Cases.checkAt ko1n8Arcs 342 ko1n8Choices.length
    [false, false, false, true, false, false, false, true, false, false, false, true, false, false,
    false, true, true, false, true, true, true, false, true, false, true, false, true, true, true,
    true, true, true, true, false, false, false, true]
    [] ko1n8Times 0 = true := by decide +kernel

theorem ko1n8_part20 : ko1n8Cases.checkAt ko1n8Arcs 342 ko1n8Choices.length
    [false, false, false, true, false, false, false, true, false, false, false, true, false, false,
    false, true, true, false, true, true, true, false, true, false, true, false, true, true, true,
    true, true, true, true, false, false, false, false]
    [] ko1n8Times 0 = true := by decide +kernel

theorem ko1n8_part21 : ko1n8Cases.checkAt ko1n8Arcs 342 ko1n8Choices.length
    [false, false, false, true, false, false, false, true, false, false, false, true, false, false,
    false, true, true, false, true, true, true, false, true, false, true, false, true, true, true,
    true, true, true, false]
    [] ko1n8Times 0 = true := by decide +kernel

theorem ko1n8_part22 : ko1n8Cases.checkAt ko1n8Arcs 342 ko1n8Choices.length
    [false, false, false, true, false, false, false, true, false, false, false, true, false, false,
    false, true, true, false, true, true, true, false, true, false, true, false, true, true, true,
    true, true, false, true]
    [] ko1n8Times 0 = true := by decide +kernel

theorem ko1n8_part23 : ko1n8Cases.checkAt ko1n8Arcs 342 ko1n8Choices.length
    [false, false, false, true, false, false, false, true, false, false, false, true, false, false,
    false, true, true, false, true, true, true, false, true, false, true, false, true, true, true,
    true, true, false, false, true]
    [] ko1n8Times 0 = true := by decide +kernel

theorem ko1n8_part24 : ko1n8Cases.checkAt ko1n8Arcs 342 ko1n8Choices.length
    [false, false, false, true, false, false, false, true, false, false, false, true, false, false,
    false, true, true, false, true, true, true, false, true, false, true, false, true, true, true,
    true, true, false, false, false]
    [] ko1n8Times 0 = true := by decide +kernel

theorem ko1n8_part25 : ko1n8Cases.checkAt ko1n8Arcs 342 ko1n8Choices.length
    [false, false, false, true, false, false, false, true, false, false, false, true, false, false,
    false, true, true, false, true, true, true, false, true, false, true, false, true, true, true,
    true, false]
    [] ko1n8Times 0 = true := by decide +kernel

theorem ko1n8_part26 : ko1n8Cases.checkAt ko1n8Arcs 342 ko1n8Choices.length
    [false, false, false, true, false, false, false, true, false, false, false, true, false, false,
    false, true, true, false, true, true, true, false, true, false, true, false, true, true, true,
    false]
    [] ko1n8Times 0 = true := by decide +kernel

theorem ko1n8_part27 : ko1n8Cases.checkAt ko1n8Arcs 342 ko1n8Choices.length
    [false, false, false, true, false, false, false, true, false, false, false, true, false, false,
    false, true, true, false, true, true, true, false, true, false, true, false, true, true, false]
    [] ko1n8Times 0 = true := by decide +kernel

theorem ko1n8_part28 : ko1n8Cases.checkAt ko1n8Arcs 342 ko1n8Choices.length
    [false, false, false, true, false, false, false, true, false, false, false, true, false, false,
    false, true, true, false, true, true, true, false, true, false, true, false, true, false]
    [] ko1n8Times 0 = true := by decide +kernel

theorem ko1n8_part29 : ko1n8Cases.checkAt ko1n8Arcs 342 ko1n8Choices.length
    [false, false, false, true, false, false, false, true, false, false, false, true, false, false,
    false, true, true, false, true, true, true, false, true, false, true, false, false]
    [] ko1n8Times 0 = true := by decide +kernel

theorem ko1n8_part30 : ko1n8Cases.checkAt ko1n8Arcs 342 ko1n8Choices.length
    [false, false, false, true, false, false, false, true, false, false, false, true, false, false,
    false, true, true, false, true, true, true, false, true, false, false]
    [] ko1n8Times 0 = true := by decide +kernel

theorem ko1n8_part31 : ko1n8Cases.checkAt ko1n8Arcs 342 ko1n8Choices.length
    [false, false, false, true, false, false, false, true, false, false, false, true, false, false,
    false, true, true, false, true, true, true, false, false]
    [] ko1n8Times 0 = true := by decide +kernel

theorem ko1n8_part32 : ko1n8Cases.checkAt ko1n8Arcs 342 ko1n8Choices.length
    [false, false, false, true, false, false, false, true, false, false, false, true, false, false,
    false, true, true, false, true, true, false]
    [] ko1n8Times 0 = true := by decide +kernel

theorem ko1n8_part33 : ko1n8Cases.checkAt ko1n8Arcs 342 ko1n8Choices.length
    [false, false, false, true, false, false, false, true, false, false, false, true, false, false,
    false, true, true, false, true, false]
    [] ko1n8Times 0 = true := by decide +kernel

theorem ko1n8_part34 : ko1n8Cases.checkAt ko1n8Arcs 342 ko1n8Choices.length
    [false, false, false, true, false, false, false, true, false, false, false, true, false, false,
    false, true, true, false, false]
    [] ko1n8Times 0 = true := by decide +kernel

theorem ko1n8_part35 : ko1n8Cases.checkAt ko1n8Arcs 342 ko1n8Choices.length
    [false, false, false, true, false, false, false, true, false, false, false, true, false, false,
    false, true, false]
    [] ko1n8Times 0 = true := by decide +kernel

theorem ko1n8_part36 : ko1n8Cases.checkAt ko1n8Arcs 342 ko1n8Choices.length
    [false, false, false, true, false, false, false, true, false, false, false, true, false, false,
    false, false]
    [] ko1n8Times 0 = true := by decide +kernel

theorem ko1n8_part37 : ko1n8Cases.checkAt ko1n8Arcs 342 ko1n8Choices.length
    [false, false, false, true, false, false, false, true, false, false, false, false]
    [] ko1n8Times 0 = true := by decide +kernel

theorem ko1n8_part38 : ko1n8Cases.checkAt ko1n8Arcs 342 ko1n8Choices.length
    [false, false, false, true, false, false, false, false]
    [] ko1n8Times 0 = true := by decide +kernel

theorem ko1n8_part39 : ko1n8Cases.checkAt ko1n8Arcs 342 ko1n8Choices.length
    [false, false, false, false]
    [] ko1n8Times 0 = true := by decide +kernel

theorem ko1n8_cases : ko1n8Cases.check ko1n8Arcs 342 ko1n8Choices.length [] ko1n8Times 0 = true :=
  SumTree.join (path := []) ko1n8_part0 (SumTree.join ko1n8_part1 (SumTree.join ko1n8_part2
  (SumTree.join (SumTree.join ko1n8_part3 (SumTree.join ko1n8_part4 (SumTree.join ko1n8_part5
  (SumTree.join (SumTree.join ko1n8_part6 (SumTree.join ko1n8_part7 (SumTree.join ko1n8_part8
  (SumTree.join (SumTree.join ko1n8_part9 (SumTree.join ko1n8_part10 (SumTree.join ko1n8_part11
  (SumTree.join (SumTree.join (SumTree.join ko1n8_part12 (SumTree.join (SumTree.join (SumTree.join
  (SumTree.join ko1n8_part13 (SumTree.join (SumTree.join ko1n8_part14 (SumTree.join (SumTree.join
  ko1n8_part15 (SumTree.join (SumTree.join (SumTree.join (SumTree.join (SumTree.join (SumTree.join
  (SumTree.join (SumTree.join ko1n8_part16 (SumTree.join ko1n8_part17 (SumTree.join ko1n8_part18
  (SumTree.join ko1n8_part19 ko1n8_part20)))) ko1n8_part21) (SumTree.join ko1n8_part22
  (SumTree.join ko1n8_part23 ko1n8_part24))) ko1n8_part25) ko1n8_part26) ko1n8_part27)
  ko1n8_part28) ko1n8_part29)) ko1n8_part30)) ko1n8_part31)) ko1n8_part32) ko1n8_part33)
  ko1n8_part34)) ko1n8_part35) ko1n8_part36)))) ko1n8_part37)))) ko1n8_part38)))) ko1n8_part39)))

theorem ko1n8_choices : ko1n8Choices.all (CodedNet.Choice.ok netKo netKoSpecial ko1n8Plan) = true := by
  decide +kernel

theorem ko1n8_arcs : ko1n8Arcs.toList.all
    (netKo.arcOK netKoSpecial ko1n8Plan ko1n8Nodes ko1n8Choices) = true := by decide +kernel

theorem ko1n8_times : netKo.startOK ko1n8Plan ko1n8Nodes 4 40 ko1n8Times = true := by decide +kernel

end Verif.Real
