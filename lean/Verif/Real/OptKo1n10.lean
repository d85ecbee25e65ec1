import Verif.Proofs.PlanSum
import Verif.Proofs.PlanAgain
import Verif.Real.PlanKo1

/-!
# The sheet of `Verif.Real.Ko1` with given delays: a plan, and that no plan is better

Generated; see `CodedNet.Item` and `Verif/Proofs/SumTree.lean`. Case 1,
`disturbances[10]`, of `/repo/solve_KO_GLC_problems.py`, line 114;
`d_max` is 40. The sum of the delays that count is 56/4.
-/

namespace Verif.Real

set_option maxRecDepth 100000

/-- the given delays -/
def ko1n10Delays : List (Int × ℚ) := [
  (2, 2), (4602, 0), (4, 1), (102, 0), (6, 0), (8, 2), (4604, 2), (10, 1), (12, 0), (1, 1),
  (101, 2), (3, 0), (6401, 2), (5, 2), (7, 1), (103, 1), (9, 0), (6403, 1), (11, 2), (14, 2),
  (4606, 1), (16, 1), (106, 1), (18, 0), (20, 2), (4608, 0), (22, 1), (108, 0), (24, 0), (13, 1),
  (105, 0), (15, 0), (6405, 0), (17, 2), (21, 0), (107, 2), (23, 2), (6407, 2), (25, 1), (26, 2),
  (4610, 2), (28, 1), (112, 1), (30, 0), (32, 2), (4612, 1), (34, 1), (114, 0), (36, 0), (27, 0),
  (111, 0), (31, 1), (6411, 0), (33, 0), (35, 2), (113, 2), (37, 1), (6413, 2), (41, 2)]

/-- the plan, items by sections -/
def ko1n10Plan : CodedNet.Plan := [
  (train_ko1_2, [
   ⟨0, 2, 0, (some 14), true, false, 2, 2, 20,
    none,
    (some ⟨1, [83, 101, 84, 121], [9, 19, 8, 8], 4, [5, 8]⟩), [], [61, 64, 69, 71, 87, 92], [2]⟩,
   ⟨0, 2, 1, (some 1), true, false, 8, 8, 80,
    (some ⟨0, 6, 20, [83, 101, 84, 121]⟩),
    (some ⟨2, [77, 144, 119, 40, 86, 142, 87, 126, 30, 90, 91, 92, 93, 127], [15, 14, 8, 14, 13, 13, 7, 9, 15, 13, 9, 5, 7, 20], 16, [31, 33, 41]⟩), [5, 8], [16, 2], [6]⟩,
   ⟨0, 2, 2, (some 35), false, true, 24, 24, 240,
    (some ⟨1, 24, 80, [77, 144, 119, 40, 86, 142, 87, 126, 30, 90, 91, 92, 93, 127]⟩),
    none, [31, 33, 41], [], [24]⟩]),
  (train_ko1_4602, [
   ⟨1, 4602, 0, (some 10), true, false, 9, 9, 90,
    none,
    (some ⟨1, [83, 101, 84, 121], [9, 12, 6, 7], 3, [5, 8]⟩), [], [66, 68, 71, 87, 92], [9]⟩,
   ⟨1, 4602, 1, (some 1), true, false, 14, 14, 140,
    (some ⟨0, 12, 90, [83, 101, 84, 121]⟩),
    (some ⟨2, [77, 144, 119, 40, 86, 142, 87, 126, 30, 90, 91, 92, 93, 127], [11, 9, 8, 7, 13, 7, 7, 9, 15, 13, 9, 5, 7, 20], 14, [31, 34, 43]⟩), [5, 8], [16, 2], [12]⟩,
   ⟨1, 4602, 2, (some 38), true, false, 32, 32, 320,
    (some ⟨1, 28, 140, [77, 144, 119, 40, 86, 142, 87, 126, 30, 90, 91, 92, 93, 127]⟩),
    none, [31, 34, 43], [], [28]⟩]),
  (train_ko1_4, [
   ⟨2, 4, 0, (some 14), true, false, 11, 11, 110,
    none,
    (some ⟨1, [83, 101, 84, 121], [9, 19, 8, 8], 4, [5, 8]⟩), [], [61, 64, 69, 71, 87, 92], [11]⟩,
   ⟨2, 4, 1, (some 1), true, false, 17, 17, 170,
    (some ⟨0, 15, 110, [83, 101, 84, 121]⟩),
    (some ⟨2, [77, 144, 119, 40, 86, 142, 87, 126, 30, 90, 91, 92, 93, 127], [15, 14, 8, 14, 13, 13, 7, 9, 15, 13, 9, 5, 7, 20], 16, [31, 33, 41]⟩), [5, 8], [16, 2], [15]⟩,
   ⟨2, 4, 2, (some 35), false, true, 33, 33, 330,
    (some ⟨1, 33, 170, [77, 144, 119, 40, 86, 142, 87, 126, 30, 90, 91, 92, 93, 127]⟩),
    none, [31, 33, 41], [], [33]⟩]),
  (train_ko1_102, [
   ⟨3, 102, 0, (some 16), true, false, 47, 47, 470,
    none,
    (some ⟨1, [83, 101, 84, 121], [9, 19, 8, 10], 5, [5, 8, 9]⟩), [], [62, 64, 69, 71, 87, 92], [47]⟩,
   ⟨3, 102, 1, (some 3), true, false, 54, 54, 540,
    (some ⟨0, 52, 470, [83, 101, 84, 121]⟩),
    none, [5, 8, 9], [], [52]⟩]),
  (train_ko1_6, [
   ⟨4, 6, 0, (some 14), true, false, 20, 20, 200,
    none,
    (some ⟨1, [83, 101, 84, 121], [9, 19, 8, 8], 4, [5, 8]⟩), [], [61, 64, 69, 71, 87, 92], [20]⟩,
   ⟨4, 6, 1, (some 1), true, false, 26, 26, 260,
    (some ⟨0, 24, 200, [83, 101, 84, 121]⟩),
    (some ⟨2, [77, 144, 119, 40, 86, 142, 87, 126, 30, 90, 91, 92, 93, 127], [15, 14, 8, 14, 13, 13, 7, 9, 15, 13, 9, 5, 7, 20], 16, [31, 33, 41]⟩), [5, 8], [16, 2], [24]⟩,
   ⟨4, 6, 2, (some 35), false, true, 42, 42, 420,
    (some ⟨1, 42, 260, [77, 144, 119, 40, 86, 142, 87, 126, 30, 90, 91, 92, 93, 127]⟩),
    none, [31, 33, 41], [], [42]⟩]),
  (train_ko1_8, [
   ⟨5, 8, 0, (some 14), true, false, 32, 32, 320,
    none,
    (some ⟨1, [83, 101, 84, 121], [9, 19, 8, 8], 4, [5, 8]⟩), [], [61, 64, 69, 71, 87, 92], [32]⟩,
   ⟨5, 8, 1, (some 1), true, false, 38, 38, 380,
    (some ⟨0, 36, 320, [83, 101, 84, 121]⟩),
    (some ⟨2, [77, 144, 119, 40, 86, 142, 87, 126, 30, 90, 91, 92, 93, 127], [15, 14, 8, 14, 13, 13, 7, 9, 15, 13, 9, 5, 7, 20], 16, [31, 33, 41]⟩), [5, 8], [16, 2], [36]⟩,
   ⟨5, 8, 2, (some 35), false, true, 54, 54, 540,
    (some ⟨1, 54, 380, [77, 144, 119, 40, 86, 142, 87, 126, 30, 90, 91, 92, 93, 127]⟩),
    none, [31, 33, 41], [], [54]⟩]),
  (train_ko1_4604, [
   ⟨6, 4604, 0, (some 10), true, false, 40, 40, 400,
    none,
    (some ⟨1, [83, 101, 84, 121], [9, 12, 6, 7], 3, [5, 8]⟩), [], [66, 68, 71, 87, 92], [40]⟩,
   ⟨6, 4604, 1, (some 1), true, false, 45, 45, 450,
    (some ⟨0, 43, 400, [83, 101, 84, 121]⟩),
    (some ⟨2, [77, 144, 119, 40, 86, 142, 87, 126, 30, 90, 91, 92, 93, 127], [11, 9, 8, 7, 13, 7, 7, 9, 15, 13, 9, 5, 7, 20], 14, [31, 34, 43]⟩), [5, 8], [16, 2], [43]⟩,
   ⟨6, 4604, 2, (some 38), true, false, 62, 62, 620,
    (some ⟨1, 59, 450, [77, 144, 119, 40, 86, 142, 87, 126, 30, 90, 91, 92, 93, 127]⟩),
    none, [31, 34, 43], [], [59]⟩]),
  (train_ko1_10, [
   ⟨7, 10, 0, (some 14), true, false, 41, 42, 420,
    none,
    (some ⟨1, [83, 101, 84, 121], [9, 19, 8, 8], 4, [5, 8]⟩), [], [61, 64, 69, 71, 87, 92], [41]⟩,
   ⟨7, 10, 1, (some 1), true, false, 47, 48, 480,
    (some ⟨0, 46, 420, [83, 101, 84, 121]⟩),
    (some ⟨2, [77, 144, 119, 40, 86, 142, 87, 126, 30, 90, 91, 92, 93, 127], [15, 14, 8, 14, 13, 13, 7, 9, 15, 13, 9, 5, 7, 20], 16, [31, 33, 41]⟩), [5, 8], [16, 2], [46]⟩,
   ⟨7, 10, 2, (some 35), false, true, 63, 64, 640,
    (some ⟨1, 64, 480, [77, 144, 119, 40, 86, 142, 87, 126, 30, 90, 91, 92, 93, 127]⟩),
    none, [31, 33, 41], [], [64]⟩]),
  (train_ko1_12, [
   ⟨8, 12, 0, (some 14), true, false, 52, 52, 520,
    none,
    (some ⟨1, [83, 101, 84, 121], [9, 19, 8, 8], 4, [5, 8]⟩), [], [61, 64, 69, 71, 87, 92], [52]⟩,
   ⟨8, 12, 1, (some 1), true, false, 58, 58, 580,
    (some ⟨0, 56, 520, [83, 101, 84, 121]⟩),
    (some ⟨2, [77, 144, 119, 40, 86, 142, 87, 126, 30, 90, 91, 92, 93, 127], [15, 14, 8, 14, 13, 13, 7, 9, 15, 13, 9, 5, 7, 20], 16, [31, 33, 41]⟩), [5, 8], [16, 2], [56]⟩,
   ⟨8, 12, 2, (some 35), false, true, 74, 74, 740,
    (some ⟨1, 74, 580, [77, 144, 119, 40, 86, 142, 87, 126, 30, 90, 91, 92, 93, 127]⟩),
    none, [31, 33, 41], [], [74]⟩]),
  (train_ko1_1, [
   ⟨9, 1, 2, (some 34), true, false, -6, -6, -60,
    none,
    (some ⟨1, [78, 79, 80, 81, 120, 31, 94, 95, 143, 128, 41, 85, 145, 125], [18, 7, 6, 8, 12, 20, 23, 5, 19, 11, 16, 11, 17, 9], 18, [17, 19]⟩), [], [30, 22], [-6]⟩,
   ⟨9, 1, 1, (some 2), true, false, 15, 15, 150,
    (some ⟨2, 12, -60, [78, 79, 80, 81, 120, 31, 94, 95, 143, 128, 41, 85, 145, 125]⟩),
    (some ⟨0, [76, 130, 133, 122], [8, 12, 22, 10], 5, [82, 84, 86, 89, 91]⟩), [17, 19], [9, 7, 6], [12]⟩,
   ⟨9, 1, 0, (some 15), false, true, 20, 20, 200,
    (some ⟨1, 20, 150, [76, 130, 133, 122]⟩),
    none, [82, 84, 86, 89, 91], [], [20]⟩]),
  (train_ko1_101, [
   ⟨10, 101, 1, (some 4), true, false, 24, 24, 240,
    none,
    (some ⟨0, [76, 130, 133, 122], [8, 12, 22, 10], 5, [82, 84, 86, 89, 91]⟩), [], [7, 6], [24]⟩,
   ⟨10, 101, 0, (some 39), false, true, 29, 29, 290,
    (some ⟨1, 29, 240, [76, 130, 133, 122]⟩),
    none, [82, 84, 86, 89, 91], [], [29]⟩]),
  (train_ko1_3, [
   ⟨11, 3, 2, (some 34), true, false, 3, 3, 30,
    none,
    (some ⟨1, [78, 79, 80, 81, 120, 31, 94, 95, 143, 128, 41, 85, 145, 125], [18, 7, 6, 8, 12, 20, 23, 5, 19, 11, 16, 11, 17, 9], 18, [17, 19]⟩), [], [30, 22], [3]⟩,
   ⟨11, 3, 1, (some 2), true, false, 25, 27, 270,
    (some ⟨2, 21, 30, [78, 79, 80, 81, 120, 31, 94, 95, 143, 128, 41, 85, 145, 125]⟩),
    (some ⟨0, [76, 130, 133, 122], [8, 12, 22, 10], 5, [82, 84, 86, 89, 91]⟩), [17, 19], [9, 7, 6], [21]⟩,
   ⟨11, 3, 0, (some 15), false, true, 30, 32, 320,
    (some ⟨1, 32, 270, [76, 130, 133, 122]⟩),
    none, [82, 84, 86, 89, 91], [], [32]⟩]),
  (train_ko1_6401, [
   ⟨12, 6401, 2, (some 33), true, false, 17, 17, 170,
    none,
    (some ⟨1, [78, 79, 80, 81, 120, 31, 94, 95, 143, 128, 41, 85, 145, 125], [18, 7, 6, 8, 12, 20, 23, 5, 9, 11, 6, 11, 7, 9], 15, [17, 19]⟩), [], [36, 30, 22], [17]⟩,
   ⟨12, 6401, 1, (some 2), true, false, 32, 32, 320,
    (some ⟨2, 32, 170, [78, 79, 80, 81, 120, 31, 94, 95, 143, 128, 41, 85, 145, 125]⟩),
    (some ⟨0, [76, 130, 133, 122], [6, 10, 12, 10], 4, [81, 85, 88, 91]⟩), [17, 19], [9, 7, 6], [32]⟩,
   ⟨12, 6401, 0, (some 13), false, true, 36, 36, 360,
    (some ⟨1, 36, 320, [76, 130, 133, 122]⟩),
    none, [81, 85, 88, 91], [], [36]⟩]),
  (train_ko1_5, [
   ⟨13, 5, 2, (some 34), true, false, 20, 21, 210,
    none,
    (some ⟨1, [78, 79, 80, 81, 120, 31, 94, 95, 143, 128, 41, 85, 145, 125], [18, 7, 6, 8, 12, 20, 23, 5, 19, 11, 16, 11, 17, 9], 18, [17, 19]⟩), [], [30, 22], [20]⟩,
   ⟨13, 5, 1, (some 2), true, false, 40, 41, 410,
    (some ⟨2, 39, 210, [78, 79, 80, 81, 120, 31, 94, 95, 143, 128, 41, 85, 145, 125]⟩),
    (some ⟨0, [76, 130, 133, 122], [8, 12, 22, 10], 5, [82, 84, 86, 89, 91]⟩), [17, 19], [9, 7, 6], [39]⟩,
   ⟨13, 5, 0, (some 15), false, true, 45, 46, 460,
    (some ⟨1, 46, 410, [76, 130, 133, 122]⟩),
    none, [82, 84, 86, 89, 91], [], [46]⟩]),
  (train_ko1_7, [
   ⟨14, 7, 2, (some 34), true, false, 24, 25, 250,
    none,
    (some ⟨1, [78, 79, 80, 81, 120, 31, 94, 95, 143, 128, 41, 85, 145, 125], [18, 7, 6, 8, 12, 20, 23, 5, 19, 11, 16, 11, 17, 9], 18, [17, 19]⟩), [], [30, 22], [24]⟩,
   ⟨14, 7, 1, (some 2), true, false, 45, 45, 450,
    (some ⟨2, 43, 250, [78, 79, 80, 81, 120, 31, 94, 95, 143, 128, 41, 85, 145, 125]⟩),
    (some ⟨0, [76, 130, 133, 122], [8, 12, 22, 10], 5, [82, 84, 86, 89, 91]⟩), [17, 19], [9, 7, 6], [43]⟩,
   ⟨14, 7, 0, (some 15), false, true, 50, 50, 500,
    (some ⟨1, 50, 450, [76, 130, 133, 122]⟩),
    none, [82, 84, 86, 89, 91], [], [50]⟩]),
  (train_ko1_103, [
   ⟨15, 103, 1, (some 4), true, false, 52, 52, 520,
    none,
    (some ⟨0, [76, 130, 133, 122], [8, 12, 22, 10], 5, [82, 84, 86, 89, 91]⟩), [], [7, 6], [52]⟩,
   ⟨15, 103, 0, (some 39), false, true, 57, 57, 570,
    (some ⟨1, 57, 520, [76, 130, 133, 122]⟩),
    none, [82, 84, 86, 89, 91], [], [57]⟩]),
  (train_ko1_9, [
   ⟨16, 9, 2, (some 34), true, false, 33, 33, 330,
    none,
    (some ⟨1, [78, 79, 80, 81, 120, 31, 94, 95, 143, 128, 41, 85, 145, 125], [18, 7, 6, 8, 12, 20, 23, 5, 19, 11, 16, 11, 17, 9], 18, [17, 19]⟩), [], [30, 22], [33]⟩,
   ⟨16, 9, 1, (some 2), true, false, 55, 55, 550,
    (some ⟨2, 51, 330, [78, 79, 80, 81, 120, 31, 94, 95, 143, 128, 41, 85, 145, 125]⟩),
    (some ⟨0, [76, 130, 133, 122], [8, 12, 22, 10], 5, [82, 84, 86, 89, 91]⟩), [17, 19], [9, 7, 6], [51]⟩,
   ⟨16, 9, 0, (some 15), false, true, 60, 60, 600,
    (some ⟨1, 60, 550, [76, 130, 133, 122]⟩),
    none, [82, 84, 86, 89, 91], [], [60]⟩]),
  (train_ko1_6403, [
   ⟨17, 6403, 2, (some 33), true, false, 45, 45, 450,
    none,
    (some ⟨1, [78, 79, 80, 81, 120, 31, 94, 95, 143, 128, 41, 85, 145, 125], [18, 7, 6, 8, 12, 20, 23, 5, 9, 11, 6, 11, 7, 9], 15, [17, 19]⟩), [], [36, 30, 22], [45]⟩,
   ⟨17, 6403, 1, (some 2), true, false, 60, 60, 600,
    (some ⟨2, 60, 450, [78, 79, 80, 81, 120, 31, 94, 95, 143, 128, 41, 85, 145, 125]⟩),
    (some ⟨0, [76, 130, 133, 122], [6, 10, 12, 10], 4, [81, 85, 88, 91]⟩), [17, 19], [9, 7, 6], [60]⟩,
   ⟨17, 6403, 0, (some 13), false, true, 64, 64, 640,
    (some ⟨1, 64, 600, [76, 130, 133, 122]⟩),
    none, [81, 85, 88, 91], [], [64]⟩]),
  (train_ko1_11, [
   ⟨18, 11, 2, (some 34), true, false, 51, 51, 510,
    none,
    (some ⟨1, [78, 79, 80, 81, 120, 31, 94, 95, 143, 128, 41, 85, 145, 125], [18, 7, 6, 8, 12, 20, 23, 5, 19, 11, 16, 11, 17, 9], 18, [17, 19]⟩), [], [30, 22], [51]⟩,
   ⟨18, 11, 1, (some 2), true, false, 71, 71, 710,
    (some ⟨2, 69, 510, [78, 79, 80, 81, 120, 31, 94, 95, 143, 128, 41, 85, 145, 125]⟩),
    (some ⟨0, [76, 130, 133, 122], [8, 12, 22, 10], 5, [82, 84, 86, 89, 91]⟩), [17, 19], [9, 7, 6], [69]⟩,
   ⟨18, 11, 0, (some 15), false, true, 76, 76, 760,
    (some ⟨1, 76, 710, [76, 130, 133, 122]⟩),
    none, [82, 84, 86, 89, 91], [], [76]⟩]),
  (train_ko1_14, [
   ⟨19, 14, 0, (some 14), true, false, 63, 63, 630,
    none,
    (some ⟨1, [83, 101, 84, 121], [9, 19, 8, 8], 4, [5, 8]⟩), [], [61, 64, 69, 71, 87, 92], [63]⟩,
   ⟨19, 14, 1, (some 1), true, false, 69, 69, 690,
    (some ⟨0, 67, 630, [83, 101, 84, 121]⟩),
    (some ⟨2, [77, 144, 119, 40, 86, 142, 87, 126, 30, 90, 91, 92, 93, 127], [15, 14, 8, 14, 13, 13, 7, 9, 15, 13, 9, 5, 7, 20], 16, [31, 33, 41]⟩), [5, 8], [16, 2], [67]⟩,
   ⟨19, 14, 2, (some 35), false, true, 85, 85, 850,
    (some ⟨1, 85, 690, [77, 144, 119, 40, 86, 142, 87, 126, 30, 90, 91, 92, 93, 127]⟩),
    none, [31, 33, 41], [], [85]⟩]),
  (train_ko1_4606, [
   ⟨20, 4606, 0, (some 10), true, false, 68, 68, 680,
    none,
    (some ⟨1, [83, 101, 84, 121], [9, 12, 6, 7], 3, [5, 8]⟩), [], [66, 68, 71, 87, 92], [68]⟩,
   ⟨20, 4606, 1, (some 1), true, false, 73, 74, 740,
    (some ⟨0, 71, 680, [83, 101, 84, 121]⟩),
    (some ⟨2, [77, 144, 119, 40, 86, 142, 87, 126, 30, 90, 91, 92, 93, 127], [11, 9, 8, 7, 13, 7, 7, 9, 15, 13, 9, 5, 7, 20], 14, [31, 34, 43]⟩), [5, 8], [16, 2], [71]⟩,
   ⟨20, 4606, 2, (some 38), true, false, 92, 92, 920,
    (some ⟨1, 88, 740, [77, 144, 119, 40, 86, 142, 87, 126, 30, 90, 91, 92, 93, 127]⟩),
    none, [31, 34, 43], [], [88]⟩]),
  (train_ko1_16, [
   ⟨21, 16, 0, (some 14), true, false, 71, 71, 710,
    none,
    (some ⟨1, [83, 101, 84, 121], [9, 19, 8, 8], 4, [5, 8]⟩), [], [61, 64, 69, 71, 87, 92], [71]⟩,
   ⟨21, 16, 1, (some 1), true, false, 77, 77, 770,
    (some ⟨0, 75, 710, [83, 101, 84, 121]⟩),
    (some ⟨2, [77, 144, 119, 40, 86, 142, 87, 126, 30, 90, 91, 92, 93, 127], [15, 14, 8, 14, 13, 13, 7, 9, 15, 13, 9, 5, 7, 20], 16, [31, 33, 41]⟩), [5, 8], [16, 2], [75]⟩,
   ⟨21, 16, 2, (some 35), false, true, 93, 93, 930,
    (some ⟨1, 93, 770, [77, 144, 119, 40, 86, 142, 87, 126, 30, 90, 91, 92, 93, 127]⟩),
    none, [31, 33, 41], [], [93]⟩]),
  (train_ko1_106, [
   ⟨22, 106, 0, (some 16), true, false, 76, 76, 760,
    none,
    (some ⟨1, [83, 101, 84, 121], [9, 19, 8, 10], 5, [5, 8, 9]⟩), [], [62, 64, 69, 71, 87, 92], [76]⟩,
   ⟨22, 106, 1, (some 3), true, false, 83, 83, 830,
    (some ⟨0, 81, 760, [83, 101, 84, 121]⟩),
    none, [5, 8, 9], [], [81]⟩]),
  (train_ko1_18, [
   ⟨23, 18, 0, (some 14), true, false, 82, 82, 820,
    none,
    (some ⟨1, [83, 101, 84, 121], [9, 19, 8, 8], 4, [5, 8]⟩), [], [61, 64, 69, 71, 87, 92], [82]⟩,
   ⟨23, 18, 1, (some 1), true, false, 88, 88, 880,
    (some ⟨0, 86, 820, [83, 101, 84, 121]⟩),
    (some ⟨2, [77, 144, 119, 40, 86, 142, 87, 126, 30, 90, 91, 92, 93, 127], [15, 14, 8, 14, 13, 13, 7, 9, 15, 13, 9, 5, 7, 20], 16, [31, 33, 41]⟩), [5, 8], [16, 2], [86]⟩,
   ⟨23, 18, 2, (some 35), false, true, 104, 104, 1040,
    (some ⟨1, 104, 880, [77, 144, 119, 40, 86, 142, 87, 126, 30, 90, 91, 92, 93, 127]⟩),
    none, [31, 33, 41], [], [104]⟩]),
  (train_ko1_20, [
   ⟨24, 20, 0, (some 14), true, false, 92, 92, 920,
    none,
    (some ⟨1, [83, 101, 84, 121], [9, 19, 8, 8], 4, [5, 8]⟩), [], [61, 64, 69, 71, 87, 92], [92]⟩,
   ⟨24, 20, 1, (some 1), true, false, 98, 98, 980,
    (some ⟨0, 96, 920, [83, 101, 84, 121]⟩),
    (some ⟨2, [77, 144, 119, 40, 86, 142, 87, 126, 30, 90, 91, 92, 93, 127], [15, 14, 8, 14, 13, 13, 7, 9, 15, 13, 9, 5, 7, 20], 16, [31, 33, 41]⟩), [5, 8], [16, 2], [96]⟩,
   ⟨24, 20, 2, (some 35), false, true, 114, 114, 1140,
    (some ⟨1, 114, 980, [77, 144, 119, 40, 86, 142, 87, 126, 30, 90, 91, 92, 93, 127]⟩),
    none, [31, 33, 41], [], [114]⟩]),
  (train_ko1_4608, [
   ⟨25, 4608, 0, (some 10), true, false, 99, 99, 990,
    none,
    (some ⟨1, [83, 101, 84, 121], [9, 12, 6, 7], 3, [5, 8]⟩), [], [66, 68, 71, 87, 92], [99]⟩,
   ⟨25, 4608, 1, (some 1), true, false, 104, 104, 1040,
    (some ⟨0, 102, 990, [83, 101, 84, 121]⟩),
    (some ⟨2, [77, 144, 119, 40, 86, 142, 87, 126, 30, 90, 91, 92, 93, 127], [11, 9, 8, 7, 13, 7, 7, 9, 15, 13, 9, 5, 7, 20], 14, [31, 34, 43]⟩), [5, 8], [16, 2], [102]⟩,
   ⟨25, 4608, 2, (some 38), true, false, 122, 122, 1220,
    (some ⟨1, 118, 1040, [77, 144, 119, 40, 86, 142, 87, 126, 30, 90, 91, 92, 93, 127]⟩),
    none, [31, 34, 43], [], [118]⟩]),
  (train_ko1_22, [
   ⟨26, 22, 0, (some 14), true, false, 103, 103, 1030,
    none,
    (some ⟨1, [83, 101, 84, 121], [9, 19, 8, 8], 4, [5, 8]⟩), [], [61, 64, 69, 71, 87, 92], [103]⟩,
   ⟨26, 22, 1, (some 1), true, false, 109, 109, 1090,
    (some ⟨0, 107, 1030, [83, 101, 84, 121]⟩),
    (some ⟨2, [77, 144, 119, 40, 86, 142, 87, 126, 30, 90, 91, 92, 93, 127], [15, 14, 8, 14, 13, 13, 7, 9, 15, 13, 9, 5, 7, 20], 16, [31, 33, 41]⟩), [5, 8], [16, 2], [107]⟩,
   ⟨26, 22, 2, (some 35), false, true, 125, 125, 1250,
    (some ⟨1, 125, 1090, [77, 144, 119, 40, 86, 142, 87, 126, 30, 90, 91, 92, 93, 127]⟩),
    none, [31, 33, 41], [], [125]⟩]),
  (train_ko1_108, [
   ⟨27, 108, 0, (some 16), true, false, 107, 107, 1070,
    none,
    (some ⟨1, [83, 101, 84, 121], [9, 19, 8, 10], 5, [5, 8, 9]⟩), [], [62, 64, 69, 71, 87, 92], [107]⟩,
   ⟨27, 108, 1, (some 3), true, false, 114, 114, 1140,
    (some ⟨0, 112, 1070, [83, 101, 84, 121]⟩),
    none, [5, 8, 9], [], [112]⟩]),
  (train_ko1_24, [
   ⟨28, 24, 0, (some 14), true, false, 111, 111, 1110,
    none,
    (some ⟨1, [83, 101, 84, 121], [9, 19, 8, 8], 4, [5, 8]⟩), [], [61, 64, 69, 71, 87, 92], [111]⟩,
   ⟨28, 24, 1, (some 1), true, false, 117, 117, 1170,
    (some ⟨0, 115, 1110, [83, 101, 84, 121]⟩),
    (some ⟨2, [77, 144, 119, 40, 86, 142, 87, 126, 30, 90, 91, 92, 93, 127], [15, 14, 8, 14, 13, 13, 7, 9, 15, 13, 9, 5, 7, 20], 16, [31, 33, 41]⟩), [5, 8], [16, 2], [115]⟩,
   ⟨28, 24, 2, (some 35), false, true, 133, 133, 1330,
    (some ⟨1, 133, 1170, [77, 144, 119, 40, 86, 142, 87, 126, 30, 90, 91, 92, 93, 127]⟩),
    none, [31, 33, 41], [], [133]⟩]),
  (train_ko1_13, [
   ⟨29, 13, 2, (some 34), true, false, 54, 55, 550,
    none,
    (some ⟨1, [78, 79, 80, 81, 120, 31, 94, 95, 143, 128, 41, 85, 145, 125], [18, 7, 6, 8, 12, 20, 23, 5, 19, 11, 16, 11, 17, 9], 18, [17, 19]⟩), [], [30, 22], [54]⟩,
   ⟨29, 13, 1, (some 2), true, false, 75, 75, 750,
    (some ⟨2, 73, 550, [78, 79, 80, 81, 120, 31, 94, 95, 143, 128, 41, 85, 145, 125]⟩),
    (some ⟨0, [76, 130, 133, 122], [8, 12, 22, 10], 5, [82, 84, 86, 89, 91]⟩), [17, 19], [9, 7, 6], [73]⟩,
   ⟨29, 13, 0, (some 15), false, true, 80, 80, 800,
    (some ⟨1, 80, 750, [76, 130, 133, 122]⟩),
    none, [82, 84, 86, 89, 91], [], [80]⟩]),
  (train_ko1_105, [
   ⟨30, 105, 1, (some 4), true, false, 83, 83, 830,
    none,
    (some ⟨0, [76, 130, 133, 122], [8, 12, 22, 10], 5, [82, 84, 86, 89, 91]⟩), [], [7, 6], [83]⟩,
   ⟨30, 105, 0, (some 39), false, true, 88, 88, 880,
    (some ⟨1, 88, 830, [76, 130, 133, 122]⟩),
    none, [82, 84, 86, 89, 91], [], [88]⟩]),
  (train_ko1_15, [
   ⟨31, 15, 2, (some 34), true, false, 65, 65, 650,
    none,
    (some ⟨1, [78, 79, 80, 81, 120, 31, 94, 95, 143, 128, 41, 85, 145, 125], [18, 7, 6, 8, 12, 20, 23, 5, 19, 11, 16, 11, 17, 9], 18, [17, 19]⟩), [], [30, 22], [65]⟩,
   ⟨31, 15, 1, (some 2), true, false, 85, 86, 860,
    (some ⟨2, 83, 650, [78, 79, 80, 81, 120, 31, 94, 95, 143, 128, 41, 85, 145, 125]⟩),
    (some ⟨0, [76, 130, 133, 122], [8, 12, 22, 10], 5, [82, 84, 86, 89, 91]⟩), [17, 19], [9, 7, 6], [83]⟩,
   ⟨31, 15, 0, (some 15), false, true, 90, 91, 910,
    (some ⟨1, 91, 860, [76, 130, 133, 122]⟩),
    none, [82, 84, 86, 89, 91], [], [91]⟩]),
  (train_ko1_6405, [
   ⟨32, 6405, 2, (some 33), true, false, 76, 76, 760,
    none,
    (some ⟨1, [78, 79, 80, 81, 120, 31, 94, 95, 143, 128, 41, 85, 145, 125], [18, 7, 6, 8, 12, 20, 23, 5, 9, 11, 6, 11, 7, 9], 15, [17, 19]⟩), [], [36, 30, 22], [76]⟩,
   ⟨32, 6405, 1, (some 2), true, false, 91, 91, 910,
    (some ⟨2, 91, 760, [78, 79, 80, 81, 120, 31, 94, 95, 143, 128, 41, 85, 145, 125]⟩),
    (some ⟨0, [76, 130, 133, 122], [6, 10, 12, 10], 4, [81, 85, 88, 91]⟩), [17, 19], [9, 7, 6], [91]⟩,
   ⟨32, 6405, 0, (some 13), false, true, 95, 95, 950,
    (some ⟨1, 95, 910, [76, 130, 133, 122]⟩),
    none, [81, 85, 88, 91], [], [95]⟩]),
  (train_ko1_17, [
   ⟨33, 17, 2, (some 34), true, false, 81, 81, 810,
    none,
    (some ⟨1, [78, 79, 80, 81, 120, 31, 94, 95, 143, 128, 41, 85, 145, 125], [18, 7, 6, 8, 12, 20, 23, 5, 19, 11, 16, 11, 17, 9], 18, [17, 19]⟩), [], [30, 22], [81]⟩,
   ⟨33, 17, 1, (some 2), true, false, 101, 101, 1010,
    (some ⟨2, 99, 810, [78, 79, 80, 81, 120, 31, 94, 95, 143, 128, 41, 85, 145, 125]⟩),
    (some ⟨0, [76, 130, 133, 122], [8, 12, 22, 10], 5, [82, 84, 86, 89, 91]⟩), [17, 19], [9, 7, 6], [99]⟩,
   ⟨33, 17, 0, (some 15), false, true, 106, 106, 1060,
    (some ⟨1, 106, 1010, [76, 130, 133, 122]⟩),
    none, [82, 84, 86, 89, 91], [], [106]⟩]),
  (train_ko1_21, [
   ⟨34, 21, 2, (some 34), true, false, 84, 85, 850,
    none,
    (some ⟨1, [78, 79, 80, 81, 120, 31, 94, 95, 143, 128, 41, 85, 145, 125], [18, 7, 6, 8, 12, 20, 23, 5, 19, 11, 16, 11, 17, 9], 18, [17, 19]⟩), [], [30, 22], [84]⟩,
   ⟨34, 21, 1, (some 2), true, false, 105, 105, 1050,
    (some ⟨2, 103, 850, [78, 79, 80, 81, 120, 31, 94, 95, 143, 128, 41, 85, 145, 125]⟩),
    (some ⟨0, [76, 130, 133, 122], [8, 12, 22, 10], 5, [82, 84, 86, 89, 91]⟩), [17, 19], [9, 7, 6], [103]⟩,
   ⟨34, 21, 0, (some 15), false, true, 110, 110, 1100,
    (some ⟨1, 110, 1050, [76, 130, 133, 122]⟩),
    none, [82, 84, 86, 89, 91], [], [110]⟩]),
  (train_ko1_107, [
   ⟨35, 107, 1, (some 4), true, false, 114, 114, 1140,
    none,
    (some ⟨0, [76, 130, 133, 122], [8, 12, 22, 10], 5, [82, 84, 86, 89, 91]⟩), [], [7, 6], [114]⟩,
   ⟨35, 107, 0, (some 39), false, true, 119, 119, 1190,
    (some ⟨1, 119, 1140, [76, 130, 133, 122]⟩),
    none, [82, 84, 86, 89, 91], [], [119]⟩]),
  (train_ko1_23, [
   ⟨36, 23, 2, (some 34), true, false, 95, 95, 950,
    none,
    (some ⟨1, [78, 79, 80, 81, 120, 31, 94, 95, 143, 128, 41, 85, 145, 125], [18, 7, 6, 8, 12, 20, 23, 5, 19, 11, 16, 11, 17, 9], 18, [17, 19]⟩), [], [30, 22], [95]⟩,
   ⟨36, 23, 1, (some 2), true, false, 115, 117, 1170,
    (some ⟨2, 113, 950, [78, 79, 80, 81, 120, 31, 94, 95, 143, 128, 41, 85, 145, 125]⟩),
    (some ⟨0, [76, 130, 133, 122], [8, 12, 22, 10], 5, [82, 84, 86, 89, 91]⟩), [17, 19], [9, 7, 6], [113]⟩,
   ⟨36, 23, 0, (some 15), false, true, 120, 122, 1220,
    (some ⟨1, 122, 1170, [76, 130, 133, 122]⟩),
    none, [82, 84, 86, 89, 91], [], [122]⟩]),
  (train_ko1_6407, [
   ⟨37, 6407, 2, (some 33), true, false, 107, 107, 1070,
    none,
    (some ⟨1, [78, 79, 80, 81, 120, 31, 94, 95, 143, 128, 41, 85, 145, 125], [18, 7, 6, 8, 12, 20, 23, 5, 9, 11, 6, 11, 7, 9], 15, [17, 19]⟩), [], [36, 30, 22], [107]⟩,
   ⟨37, 6407, 1, (some 2), true, false, 122, 122, 1220,
    (some ⟨2, 122, 1070, [78, 79, 80, 81, 120, 31, 94, 95, 143, 128, 41, 85, 145, 125]⟩),
    (some ⟨0, [76, 130, 133, 122], [6, 10, 12, 10], 4, [81, 85, 88, 91]⟩), [17, 19], [9, 7, 6], [122]⟩,
   ⟨37, 6407, 0, (some 13), false, true, 126, 126, 1260,
    (some ⟨1, 126, 1220, [76, 130, 133, 122]⟩),
    none, [81, 85, 88, 91], [], [126]⟩]),
  (train_ko1_25, [
   ⟨38, 25, 2, (some 34), true, false, 111, 111, 1110,
    none,
    (some ⟨1, [78, 79, 80, 81, 120, 31, 94, 95, 143, 128, 41, 85, 145, 125], [18, 7, 6, 8, 12, 20, 23, 5, 19, 11, 16, 11, 17, 9], 18, [17, 19]⟩), [], [30, 22], [111]⟩,
   ⟨38, 25, 1, (some 2), true, false, 131, 131, 1310,
    (some ⟨2, 129, 1110, [78, 79, 80, 81, 120, 31, 94, 95, 143, 128, 41, 85, 145, 125]⟩),
    (some ⟨0, [76, 130, 133, 122], [8, 12, 22, 10], 5, [82, 84, 86, 89, 91]⟩), [17, 19], [9, 7, 6], [129]⟩,
   ⟨38, 25, 0, (some 15), false, true, 136, 136, 1360,
    (some ⟨1, 136, 1310, [76, 130, 133, 122]⟩),
    none, [82, 84, 86, 89, 91], [], [136]⟩]),
  (train_ko1_26, [
   ⟨39, 26, 0, (some 14), true, false, 122, 122, 1220,
    none,
    (some ⟨1, [83, 101, 84, 121], [9, 19, 8, 8], 4, [5, 8]⟩), [], [61, 64, 69, 71, 87, 92], [122]⟩,
   ⟨39, 26, 1, (some 1), true, false, 128, 128, 1280,
    (some ⟨0, 126, 1220, [83, 101, 84, 121]⟩),
    (some ⟨2, [77, 144, 119, 40, 86, 142, 87, 126, 30, 90, 91, 92, 93, 127], [15, 14, 8, 14, 13, 13, 7, 9, 15, 13, 9, 5, 7, 20], 16, [31, 33, 41]⟩), [5, 8], [16, 2], [126]⟩,
   ⟨39, 26, 2, (some 35), false, true, 144, 144, 1440,
    (some ⟨1, 144, 1280, [77, 144, 119, 40, 86, 142, 87, 126, 30, 90, 91, 92, 93, 127]⟩),
    none, [31, 33, 41], [], [144]⟩]),
  (train_ko1_4610, [
   ⟨40, 4610, 0, (some 10), true, false, 130, 130, 1300,
    none,
    (some ⟨1, [83, 101, 84, 121], [9, 12, 6, 7], 3, [5, 8]⟩), [], [66, 68, 71, 87, 92], [130]⟩,
   ⟨40, 4610, 1, (some 1), true, false, 135, 135, 1350,
    (some ⟨0, 133, 1300, [83, 101, 84, 121]⟩),
    (some ⟨2, [77, 144, 119, 40, 86, 142, 87, 126, 30, 90, 91, 92, 93, 127], [11, 9, 8, 7, 13, 7, 7, 9, 15, 13, 9, 5, 7, 20], 14, [31, 34, 43]⟩), [5, 8], [16, 2], [133]⟩,
   ⟨40, 4610, 2, (some 38), true, false, 152, 152, 1520,
    (some ⟨1, 149, 1350, [77, 144, 119, 40, 86, 142, 87, 126, 30, 90, 91, 92, 93, 127]⟩),
    none, [31, 34, 43], [], [149]⟩]),
  (train_ko1_28, [
   ⟨41, 28, 0, (some 14), true, false, 133, 133, 1330,
    none,
    (some ⟨1, [83, 101, 84, 121], [9, 19, 8, 8], 4, [5, 8]⟩), [], [61, 64, 69, 71, 87, 92], [133]⟩,
   ⟨41, 28, 1, (some 1), true, false, 139, 139, 1390,
    (some ⟨0, 137, 1330, [83, 101, 84, 121]⟩),
    (some ⟨2, [77, 144, 119, 40, 86, 142, 87, 126, 30, 90, 91, 92, 93, 127], [15, 14, 8, 14, 13, 13, 7, 9, 15, 13, 9, 5, 7, 20], 16, [31, 33, 41]⟩), [5, 8], [16, 2], [137]⟩,
   ⟨41, 28, 2, (some 35), false, true, 155, 155, 1550,
    (some ⟨1, 155, 1390, [77, 144, 119, 40, 86, 142, 87, 126, 30, 90, 91, 92, 93, 127]⟩),
    none, [31, 33, 41], [], [155]⟩]),
  (train_ko1_112, [
   ⟨42, 112, 0, (some 16), true, false, 138, 138, 1380,
    none,
    (some ⟨1, [83, 101, 84, 121], [9, 19, 8, 10], 5, [5, 8, 9]⟩), [], [62, 64, 69, 71, 87, 92], [138]⟩,
   ⟨42, 112, 1, (some 3), true, false, 145, 145, 1450,
    (some ⟨0, 143, 1380, [83, 101, 84, 121]⟩),
    none, [5, 8, 9], [], [143]⟩]),
  (train_ko1_30, [
   ⟨43, 30, 0, (some 14), true, false, 140, 141, 1410,
    none,
    (some ⟨1, [83, 101, 84, 121], [9, 19, 8, 8], 4, [5, 8]⟩), [], [61, 64, 69, 71, 87, 92], [140]⟩,
   ⟨43, 30, 1, (some 1), true, false, 146, 147, 1470,
    (some ⟨0, 145, 1410, [83, 101, 84, 121]⟩),
    (some ⟨2, [77, 144, 119, 40, 86, 142, 87, 126, 30, 90, 91, 92, 93, 127], [15, 14, 8, 14, 13, 13, 7, 9, 15, 13, 9, 5, 7, 20], 16, [31, 33, 41]⟩), [5, 8], [16, 2], [145]⟩,
   ⟨43, 30, 2, (some 35), false, true, 162, 163, 1630,
    (some ⟨1, 163, 1470, [77, 144, 119, 40, 86, 142, 87, 126, 30, 90, 91, 92, 93, 127]⟩),
    none, [31, 33, 41], [], [163]⟩]),
  (train_ko1_32, [
   ⟨44, 32, 0, (some 14), true, false, 154, 154, 1540,
    none,
    (some ⟨1, [83, 101, 84, 121], [9, 19, 8, 8], 4, [5, 8]⟩), [], [61, 64, 69, 71, 87, 92], [154]⟩,
   ⟨44, 32, 1, (some 1), true, false, 160, 160, 1600,
    (some ⟨0, 158, 1540, [83, 101, 84, 121]⟩),
    (some ⟨2, [77, 144, 119, 40, 86, 142, 87, 126, 30, 90, 91, 92, 93, 127], [15, 14, 8, 14, 13, 13, 7, 9, 15, 13, 9, 5, 7, 20], 16, [31, 33, 41]⟩), [5, 8], [16, 2], [158]⟩,
   ⟨44, 32, 2, (some 35), false, true, 176, 176, 1760,
    (some ⟨1, 176, 1600, [77, 144, 119, 40, 86, 142, 87, 126, 30, 90, 91, 92, 93, 127]⟩),
    none, [31, 33, 41], [], [176]⟩]),
  (train_ko1_4612, [
   ⟨45, 4612, 0, (some 10), true, false, 160, 160, 1600,
    none,
    (some ⟨1, [83, 101, 84, 121], [9, 12, 6, 7], 3, [5, 8]⟩), [], [66, 68, 71, 87, 92], [160]⟩,
   ⟨45, 4612, 1, (some 1), true, false, 165, 165, 1650,
    (some ⟨0, 163, 1600, [83, 101, 84, 121]⟩),
    (some ⟨2, [77, 144, 119, 40, 86, 142, 87, 126, 30, 90, 91, 92, 93, 127], [11, 9, 8, 7, 13, 7, 7, 9, 15, 13, 9, 5, 7, 20], 14, [31, 34, 43]⟩), [5, 8], [16, 2], [163]⟩,
   ⟨45, 4612, 2, (some 38), true, false, 182, 182, 1820,
    (some ⟨1, 179, 1650, [77, 144, 119, 40, 86, 142, 87, 126, 30, 90, 91, 92, 93, 127]⟩),
    none, [31, 34, 43], [], [179]⟩]),
  (train_ko1_34, [
   ⟨46, 34, 0, (some 14), true, false, 162, 162, 1620,
    none,
    (some ⟨1, [83, 101, 84, 121], [9, 19, 8, 8], 4, [5, 8]⟩), [], [61, 64, 69, 71, 87, 92], [162]⟩,
   ⟨46, 34, 1, (some 1), true, false, 168, 168, 1680,
    (some ⟨0, 166, 1620, [83, 101, 84, 121]⟩),
    (some ⟨2, [77, 144, 119, 40, 86, 142, 87, 126, 30, 90, 91, 92, 93, 127], [15, 14, 8, 14, 13, 13, 7, 9, 15, 13, 9, 5, 7, 20], 16, [31, 33, 41]⟩), [5, 8], [16, 2], [166]⟩,
   ⟨46, 34, 2, (some 35), false, true, 184, 184, 1840,
    (some ⟨1, 184, 1680, [77, 144, 119, 40, 86, 142, 87, 126, 30, 90, 91, 92, 93, 127]⟩),
    none, [31, 33, 41], [], [184]⟩]),
  (train_ko1_114, [
   ⟨47, 114, 0, (some 16), true, false, 168, 168, 1680,
    none,
    (some ⟨1, [83, 101, 84, 121], [9, 19, 8, 10], 5, [5, 8, 9]⟩), [], [62, 64, 69, 71, 87, 92], [168]⟩,
   ⟨47, 114, 1, (some 3), true, false, 175, 175, 1750,
    (some ⟨0, 173, 1680, [83, 101, 84, 121]⟩),
    none, [5, 8, 9], [], [173]⟩]),
  (train_ko1_36, [
   ⟨48, 36, 0, (some 14), true, false, 170, 171, 1710,
    none,
    (some ⟨1, [83, 101, 84, 121], [9, 19, 8, 8], 4, [5, 8]⟩), [], [61, 64, 69, 71, 87, 92], [170]⟩,
   ⟨48, 36, 1, (some 1), true, false, 176, 177, 1770,
    (some ⟨0, 175, 1710, [83, 101, 84, 121]⟩),
    (some ⟨2, [77, 144, 119, 40, 86, 142, 87, 126, 30, 90, 91, 92, 93, 127], [15, 14, 8, 14, 13, 13, 7, 9, 15, 13, 9, 5, 7, 20], 16, [31, 33, 41]⟩), [5, 8], [16, 2], [175]⟩,
   ⟨48, 36, 2, (some 35), false, true, 192, 193, 1930,
    (some ⟨1, 193, 1770, [77, 144, 119, 40, 86, 142, 87, 126, 30, 90, 91, 92, 93, 127]⟩),
    none, [31, 33, 41], [], [193]⟩]),
  (train_ko1_27, [
   ⟨49, 27, 2, (some 34), true, false, 114, 115, 1150,
    none,
    (some ⟨1, [78, 79, 80, 81, 120, 31, 94, 95, 143, 128, 41, 85, 145, 125], [18, 7, 6, 8, 12, 20, 23, 5, 19, 11, 16, 11, 17, 9], 18, [17, 19]⟩), [], [30, 22], [114]⟩,
   ⟨49, 27, 1, (some 2), true, false, 135, 135, 1350,
    (some ⟨2, 133, 1150, [78, 79, 80, 81, 120, 31, 94, 95, 143, 128, 41, 85, 145, 125]⟩),
    (some ⟨0, [76, 130, 133, 122], [8, 12, 22, 10], 5, [82, 84, 86, 89, 91]⟩), [17, 19], [9, 7, 6], [133]⟩,
   ⟨49, 27, 0, (some 15), false, true, 140, 140, 1400,
    (some ⟨1, 140, 1350, [76, 130, 133, 122]⟩),
    none, [82, 84, 86, 89, 91], [], [140]⟩]),
  (train_ko1_111, [
   ⟨50, 111, 1, (some 4), true, false, 144, 144, 1440,
    none,
    (some ⟨0, [76, 130, 133, 122], [8, 12, 22, 10], 5, [82, 84, 86, 89, 91]⟩), [], [7, 6], [144]⟩,
   ⟨50, 111, 0, (some 39), false, true, 149, 149, 1490,
    (some ⟨1, 149, 1440, [76, 130, 133, 122]⟩),
    none, [82, 84, 86, 89, 91], [], [149]⟩]),
  (train_ko1_31, [
   ⟨51, 31, 2, (some 34), true, false, 125, 125, 1250,
    none,
    (some ⟨1, [78, 79, 80, 81, 120, 31, 94, 95, 143, 128, 41, 85, 145, 125], [18, 7, 6, 8, 12, 20, 23, 5, 19, 11, 16, 11, 17, 9], 18, [17, 19]⟩), [], [30, 22], [125]⟩,
   ⟨51, 31, 1, (some 2), true, false, 145, 147, 1470,
    (some ⟨2, 143, 1250, [78, 79, 80, 81, 120, 31, 94, 95, 143, 128, 41, 85, 145, 125]⟩),
    (some ⟨0, [76, 130, 133, 122], [8, 12, 22, 10], 5, [82, 84, 86, 89, 91]⟩), [17, 19], [9, 7, 6], [143]⟩,
   ⟨51, 31, 0, (some 15), false, true, 150, 152, 1520,
    (some ⟨1, 152, 1470, [76, 130, 133, 122]⟩),
    none, [82, 84, 86, 89, 91], [], [152]⟩]),
  (train_ko1_6411, [
   ⟨52, 6411, 2, (some 33), true, false, 137, 137, 1370,
    none,
    (some ⟨1, [78, 79, 80, 81, 120, 31, 94, 95, 143, 128, 41, 85, 145, 125], [18, 7, 6, 8, 12, 20, 23, 5, 9, 11, 6, 11, 7, 9], 15, [17, 19]⟩), [], [36, 30, 22], [137]⟩,
   ⟨52, 6411, 1, (some 2), true, false, 152, 152, 1520,
    (some ⟨2, 152, 1370, [78, 79, 80, 81, 120, 31, 94, 95, 143, 128, 41, 85, 145, 125]⟩),
    (some ⟨0, [76, 130, 133, 122], [6, 10, 12, 10], 4, [81, 85, 88, 91]⟩), [17, 19], [9, 7, 6], [152]⟩,
   ⟨52, 6411, 0, (some 13), false, true, 156, 156, 1560,
    (some ⟨1, 156, 1520, [76, 130, 133, 122]⟩),
    none, [81, 85, 88, 91], [], [156]⟩]),
  (train_ko1_33, [
   ⟨53, 33, 2, (some 34), true, false, 138, 141, 1410,
    none,
    (some ⟨1, [78, 79, 80, 81, 120, 31, 94, 95, 143, 128, 41, 85, 145, 125], [18, 7, 6, 8, 12, 20, 23, 5, 19, 11, 16, 11, 17, 9], 18, [17, 19]⟩), [], [30, 22], [138]⟩,
   ⟨53, 33, 1, (some 2), true, false, 160, 161, 1610,
    (some ⟨2, 159, 1410, [78, 79, 80, 81, 120, 31, 94, 95, 143, 128, 41, 85, 145, 125]⟩),
    (some ⟨0, [76, 130, 133, 122], [8, 12, 22, 10], 5, [82, 84, 86, 89, 91]⟩), [17, 19], [9, 7, 6], [159]⟩,
   ⟨53, 33, 0, (some 15), false, true, 165, 166, 1660,
    (some ⟨1, 166, 1610, [76, 130, 133, 122]⟩),
    none, [82, 84, 86, 89, 91], [], [166]⟩]),
  (train_ko1_35, [
   ⟨54, 35, 2, (some 34), true, false, 147, 147, 1470,
    none,
    (some ⟨1, [78, 79, 80, 81, 120, 31, 94, 95, 143, 128, 41, 85, 145, 125], [18, 7, 6, 8, 12, 20, 23, 5, 19, 11, 16, 11, 17, 9], 18, [17, 19]⟩), [], [30, 22], [147]⟩,
   ⟨54, 35, 1, (some 2), true, false, 167, 167, 1670,
    (some ⟨2, 165, 1470, [78, 79, 80, 81, 120, 31, 94, 95, 143, 128, 41, 85, 145, 125]⟩),
    (some ⟨0, [76, 130, 133, 122], [8, 12, 22, 10], 5, [82, 84, 86, 89, 91]⟩), [17, 19], [9, 7, 6], [165]⟩,
   ⟨54, 35, 0, (some 15), false, true, 172, 172, 1720,
    (some ⟨1, 172, 1670, [76, 130, 133, 122]⟩),
    none, [82, 84, 86, 89, 91], [], [172]⟩]),
  (train_ko1_113, [
   ⟨55, 113, 1, (some 4), true, false, 174, 174, 1740,
    none,
    (some ⟨0, [76, 130, 133, 122], [8, 12, 22, 10], 5, [82, 84, 86, 89, 91]⟩), [], [7, 6], [174]⟩,
   ⟨55, 113, 0, (some 39), false, true, 179, 179, 1790,
    (some ⟨1, 179, 1740, [76, 130, 133, 122]⟩),
    none, [82, 84, 86, 89, 91], [], [179]⟩]),
  (train_ko1_37, [
   ⟨56, 37, 2, (some 34), true, false, 155, 155, 1550,
    none,
    (some ⟨1, [78, 79, 80, 81, 120, 31, 94, 95, 143, 128, 41, 85, 145, 125], [18, 7, 6, 8, 12, 20, 23, 5, 19, 11, 16, 11, 17, 9], 18, [17, 19]⟩), [], [30, 22], [155]⟩,
   ⟨56, 37, 1, (some 2), true, false, 175, 177, 1770,
    (some ⟨2, 173, 1550, [78, 79, 80, 81, 120, 31, 94, 95, 143, 128, 41, 85, 145, 125]⟩),
    (some ⟨0, [76, 130, 133, 122], [8, 12, 22, 10], 5, [82, 84, 86, 89, 91]⟩), [17, 19], [9, 7, 6], [173]⟩,
   ⟨56, 37, 0, (some 15), false, true, 180, 182, 1820,
    (some ⟨1, 182, 1770, [76, 130, 133, 122]⟩),
    none, [82, 84, 86, 89, 91], [], [182]⟩]),
  (train_ko1_6413, [
   ⟨57, 6413, 2, (some 33), true, false, 167, 167, 1670,
    none,
    (some ⟨1, [78, 79, 80, 81, 120, 31, 94, 95, 143, 128, 41, 85, 145, 125], [18, 7, 6, 8, 12, 20, 23, 5, 9, 11, 6, 11, 7, 9], 15, [17, 19]⟩), [], [36, 30, 22], [167]⟩,
   ⟨57, 6413, 1, (some 2), true, false, 182, 182, 1820,
    (some ⟨2, 182, 1670, [78, 79, 80, 81, 120, 31, 94, 95, 143, 128, 41, 85, 145, 125]⟩),
    (some ⟨0, [76, 130, 133, 122], [6, 10, 12, 10], 4, [81, 85, 88, 91]⟩), [17, 19], [9, 7, 6], [182]⟩,
   ⟨57, 6413, 0, (some 13), false, true, 186, 186, 1860,
    (some ⟨1, 186, 1820, [76, 130, 133, 122]⟩),
    none, [81, 85, 88, 91], [], [186]⟩]),
  (train_ko1_41, [
   ⟨58, 41, 2, (some 34), true, false, 171, 171, 1710,
    none,
    (some ⟨1, [78, 79, 80, 81, 120, 31, 94, 95, 143, 128, 41, 85, 145, 125], [18, 7, 6, 8, 12, 20, 23, 5, 19, 11, 16, 11, 17, 9], 18, [17, 19]⟩), [], [30, 22], [171]⟩,
   ⟨58, 41, 1, (some 2), true, false, 191, 191, 1910,
    (some ⟨2, 189, 1710, [78, 79, 80, 81, 120, 31, 94, 95, 143, 128, 41, 85, 145, 125]⟩),
    (some ⟨0, [76, 130, 133, 122], [8, 12, 22, 10], 5, [82, 84, 86, 89, 91]⟩), [17, 19], [9, 7, 6], [189]⟩,
   ⟨58, 41, 0, (some 15), false, true, 196, 196, 1960,
    (some ⟨1, 196, 1910, [76, 130, 133, 122]⟩),
    none, [82, 84, 86, 89, 91], [], [196]⟩])]

theorem ko1n10Plan_sections : ko1n10Plan.map Prod.fst = ko1 := rfl

theorem ko1n10Plan_ok : netKo.PlanOK "14:00" ko1n10Delays 40 netKoSpecial ko1n10Plan :=
  ko1Plan_ok.again rfl (by decide +kernel) (by decide +kernel) (by decide +kernel) (by decide +kernel)

theorem ko1n10_cost : netKo.costOK ko1n10Plan 56 = true := by decide +kernel

/-- the departures: train and station -/
def ko1n10Nodes : List (Nat × Nat) := [
  (52, 2), (53, 2), (53, 1), (12, 2), (13, 2), (13, 1), (11, 1), (10, 1), (32, 1), (30, 1),
  (36, 1), (35, 1), (43, 0), (42, 0), (42, 1), (43, 1), (48, 0), (47, 0), (47, 1), (48, 1),
  (31, 1), (51, 1), (50, 1), (6, 0), (7, 0), (7, 1), (6, 1), (6, 2), (56, 1), (55, 1), (12, 1),
  (52, 1)]

/-- the choices -/
def ko1n10Choices : List CodedNet.Choice := [
  .first 13 12 1, .first 53 52 1, .first 53 52 2, .first 13 12 2, .first 10 11 1, .first 30 32 1,
  .first 35 36 1, .first 42 43 0, .first 47 48 0, .first 30 31 1, .first 50 51 1, .first 7 6 1,
  .first 7 6 0, .first 55 56 1]

/-- the inequalities -/
def ko1n10Arcs : ArcTree :=
  .node ⟨.follow, 6, 1, 2, 4, 0, false⟩ (.node ⟨.run, 0, 2, 3, 20, 0, false⟩ (.node
  ⟨.run, 0, 5, 6, 20, 0, false⟩ (.node ⟨.follow, 16, 13, 14, 3, 0, false⟩ (.node
  ⟨.follow, 20, 21, 10, 3, 0, false⟩ (.node ⟨.run, 0, 4, 31, 15, 0, false⟩ .none .none) .none)
  (.node ⟨.run, 0, 24, 27, 5, 0, false⟩ .none .none)) (.node ⟨.follow, 18, 17, 18, 3, 0, false⟩
  (.node ⟨.follow, 13, 12, 11, 3, 0, false⟩ (.node ⟨.track, 4, 32, 2, 0, 18, false⟩ .none .none)
  .none) (.node ⟨.follow, 9, 8, 7, 3, 0, false⟩ .none .none))) (.node
  ⟨.follow, 12, 9, 10, 2, 0, false⟩ (.node ⟨.follow, 15, 14, 13, 3, 0, false⟩ (.node
  ⟨.follow, 22, 22, 23, 3, 0, false⟩ (.node ⟨.follow, 5, 2, 1, 5, 0, false⟩ .none .none) .none)
  (.node ⟨.follow, 23, 26, 27, 5, 0, false⟩ .none .none)) (.node ⟨.follow, 17, 18, 17, 3, 0, false⟩
  (.node ⟨.run, 0, 25, 26, 6, 0, false⟩ (.node ⟨.follow, 1, 6, 31, 4, 0, false⟩ .none .none) .none)
  (.node ⟨.follow, 27, 30, 29, 3, 0, false⟩ .none .none)))) (.node ⟨.follow, 8, 4, 5, 4, 0, false⟩
  (.node ⟨.follow, 10, 7, 8, 3, 0, false⟩ (.node ⟨.run, 0, 14, 15, 7, 0, false⟩ (.node
  ⟨.follow, 19, 10, 21, 3, 0, false⟩ (.node ⟨.track, 2, 31, 5, 0, 18, false⟩ .none .none) .none)
  (.node ⟨.track, 24, 27, 25, 0, 4, false⟩ .none .none)) (.node ⟨.run, 0, 18, 19, 7, 0, false⟩
  (.node ⟨.follow, 26, 24, 25, 2, 0, false⟩ (.node ⟨.follow, 3, 3, 32, 4, 0, false⟩ .none .none)
  .none) (.node ⟨.follow, 28, 29, 30, 3, 0, false⟩ .none .none))) (.node
  ⟨.follow, 14, 11, 12, 3, 0, false⟩ (.node ⟨.run, 0, 13, 16, 6, 0, false⟩ (.node
  ⟨.follow, 21, 23, 22, 3, 0, false⟩ (.node ⟨.run, 0, 1, 32, 15, 0, false⟩ .none .none) .none)
  (.node ⟨.run, 0, 27, 28, 15, 0, false⟩ .none .none)) (.node ⟨.run, 0, 17, 20, 6, 0, false⟩ (.node
  ⟨.follow, 25, 25, 24, 3, 0, false⟩ .none .none) (.node ⟨.follow, 7, 5, 4, 5, 0, false⟩ .none
  .none))))

/-- the bounds of the departures -/
def ko1n10Times : TimeTree :=
  .node 6 0 6 (.node 143 0 183 (.node 166 4 206 (.node 31 4 71 (.node 151 4 191 (.node 38 6 78
  .none .none) .none) (.node 150 4 190 .none .none)) (.node 121 4 161 (.node 181 4 221 .none .none)
  (.node 51 0 91 .none .none))) (.node 26 0 66 (.node 97 6 137 (.node 176 0 216 .none .none) (.node
  47 0 87 .none .none)) (.node 146 0 186 (.node 91 4 131 .none .none) (.node 181 4 221 .none
  .none)))) (.node 144 0 184 (.node 23 0 63 (.node 30 4 70 (.node 152 4 192 (.node 158 6 198 .none
  .none) .none) (.node 46 0 86 .none .none)) (.node 120 4 160 (.node 182 4 222 .none .none) (.node
  68 6 108 .none .none))) (.node 46 4 86 (.node 89 4 129 (.node 174 0 214 .none .none) (.node 53 4
  93 .none .none)) (.node 144 0 184 (.node 151 4 191 .none .none) (.node 180 4 220 .none .none))))

/-- some of the cases -/
def ko1n10Case0 : SumTree :=
  .cases [] 0 (.leaf [37]) (.cases [] 1 (.leaf [36]) (.cases [] 2 (.cycle 2 [33, 34, 35]) (.cases
  [0, 1] 3 (.cycle 5 [30, 31, 32]) (.cases [2, 3] 4 (.cases [27] 5 (.cases [] 7 (.cases [9, 10] 6
  (.cases [19] 11 (.leaf [25, 26]) (.cases [] 10 (.cases [18] 8 (.cases [13, 14] 9 (.cases [16] 13
  (.cases [29] 12 (.cycle 25 [22, 23, 24]) (.leaf [20, 21])) (.leaf [28])) (.leaf [15])) (.leaf
  [11, 12])) (.cases [17] 12 (.cycle 25 [22, 23, 24]) (.cases [20, 21] 8 (.cases [13, 14] 9 (.leaf
  [16]) (.leaf [15])) (.leaf [11, 12]))))) (.cases [6] 8 (.cases [] 9 (.cases [16] 10 (.cases [18]
  13 (.leaf [29]) (.leaf [28])) (.leaf [17])) (.leaf [15])) (.leaf [11, 12]))) (.cases [7, 8] 8
  (.cases [] 9 (.cases [16] 6 (.cases [19] 10 (.leaf [18]) (.leaf [17])) (.leaf [6])) (.leaf [15]))
  (.leaf [11, 12]))) (.leaf [5])) (.cases [4] 5 (.cases [] 6 (.cases [19] 11 (.leaf [25, 26])
  (.cases [] 10 (.cases [18] 12 (.cycle 25 [22, 23, 24]) (.cases [20, 21] 7 (.cases [9, 10] 8
  (.cases [13, 14] 9 (.leaf [16]) (.leaf [15])) (.leaf [11, 12])) (.leaf [7, 8]))) (.cases [17] 12
  (.cycle 25 [22, 23, 24]) (.cases [20, 21] 7 (.leaf [9, 10]) (.leaf [7, 8]))))) (.cases [6] 7
  (.cases [9, 10] 8 (.cases [13, 14] 9 (.cases [16] 10 (.leaf [18]) (.leaf [17])) (.leaf [15]))
  (.leaf [11, 12])) (.leaf [7, 8]))) (.leaf [5]))))))

/-- all cases -/
def ko1n10Cases : SumTree :=
  ko1n10Case0

theorem ko1n10_cases : ko1n10Cases.check ko1n10Arcs 56 ko1n10Choices.length [] ko1n10Times 0 = true := by
  decide +kernel

theorem ko1n10_choices : ko1n10Choices.all (CodedNet.Choice.ok netKo netKoSpecial ko1n10Plan) = true := by
  decide +kernel

theorem ko1n10_arcs : ko1n10Arcs.toList.all
    (netKo.arcOK netKoSpecial ko1n10Plan ko1n10Nodes ko1n10Choices) = true := by decide +kernel

theorem ko1n10_times : netKo.startOK ko1n10Plan ko1n10Nodes 6 40 ko1n10Times = true := by decide +kernel

end Verif.Real
