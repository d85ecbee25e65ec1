import Verif.Proofs.PlanSum
import Verif.Proofs.PlanAgain
import Verif.Real.PlanKo1

/-!
# The sheet of `Verif.Real.Ko1` with given delays: a plan, and that no plan is better

Generated; see `CodedNet.Item` and `Verif/Proofs/SumTree.lean`. Case 1,
`disturbances[11]`, of `/repo/solve_KO_GLC_problems.py`, line 115;
`d_max` is 40. The sum of the delays that count is 182/4.
-/

namespace Verif.Real

set_option maxRecDepth 100000

/-- the given delays -/
def ko1n11Delays : List (Int × ℚ) := [
  (2, 2), (4602, 2), (4, 4), (102, 2), (6, 6), (8, 8), (4604, 4), (10, 0), (12, 2), (1, 1),
  (101, 1), (3, 3), (6401, 1), (5, 5), (7, 7), (103, 3), (9, 9), (6403, 3), (11, 1), (14, 4),
  (4606, 6), (16, 6), (106, 6), (18, 8), (20, 0), (4608, 8), (22, 2), (108, 8), (24, 4), (13, 3),
  (105, 5), (15, 5), (6405, 5), (17, 7), (21, 1), (107, 7), (23, 3), (6407, 7), (25, 5), (26, 6),
  (4610, 0), (28, 8), (112, 2), (30, 0), (32, 2), (4612, 2), (34, 4), (114, 4), (36, 6), (27, 7),
  (111, 1), (31, 1), (6411, 1), (33, 3), (35, 5), (113, 3), (37, 7), (6413, 3), (41, 1)]

/-- the plan, items by sections -/
def ko1n11Plan : CodedNet.Plan := [
  (train_ko1_2, [
   ⟨0, 2, 0, (some 14), true, false, 2, 2, 20,
    none,
    (some ⟨1, [83, 101, 84, 121], [9, 19, 8, 8], 4, [5, 8]⟩), [], [61, 64, 69, 71, 87, 92], [2]⟩,
   ⟨0, 2, 1, (some 1), true, false, 8, 8, 80,
    (some ⟨0, 6, 20, [83, 101, 84, 121]⟩),
    (some ⟨2, [77, 144, 119, 40, 86, 142, 87, 126, 30, 90, 91, 92, 93, 127], [15, 14, 8, 14, 13, 13, 7, 9, 15, 13, 9, 5, 7, 20], 16, [31, 33, 41]⟩), [5, 8], [16, 2], [6]⟩,
   ⟨0, 2, 2, (some 35), false, true, 24, 24, 240,
    (some ⟨1, 24, 80, [77, 144, 119, 40, 86, 142, 87, 126, 30, 90, 91, 92, 93, 127]⟩),
    none, [31, 33, 41], [], [24]⟩]),
  (train_ko1_4602, [
   ⟨1, 4602, 0, (some 10), true, false, 11, 11, 110,
    none,
    (some ⟨1, [83, 101, 84, 121], [9, 12, 6, 7], 3, [5, 8]⟩), [], [66, 68, 71, 87, 92], [11]⟩,
   ⟨1, 4602, 1, (some 1), true, false, 16, 16, 160,
    (some ⟨0, 14, 110, [83, 101, 84, 121]⟩),
    (some ⟨2, [77, 144, 119, 40, 86, 142, 87, 126, 30, 90, 91, 92, 93, 127], [11, 9, 8, 7, 13, 7, 7, 9, 15, 13, 9, 5, 7, 20], 14, [31, 34, 43]⟩), [5, 8], [16, 2], [14]⟩,
   ⟨1, 4602, 2, (some 38), true, false, 32, 32, 320,
    (some ⟨1, 30, 160, [77, 144, 119, 40, 86, 142, 87, 126, 30, 90, 91, 92, 93, 127]⟩),
    none, [31, 34, 43], [], [30]⟩]),
  (train_ko1_4, [
   ⟨2, 4, 0, (some 14), true, false, 14, 14, 140,
    none,
    (some ⟨1, [83, 101, 84, 121], [9, 19, 8, 8], 4, [5, 8]⟩), [], [61, 64, 69, 71, 87, 92], [14]⟩,
   ⟨2, 4, 1, (some 1), true, false, 20, 20, 200,
    (some ⟨0, 18, 140, [83, 101, 84, 121]⟩),
    (some ⟨2, [77, 144, 119, 40, 86, 142, 87, 126, 30, 90, 91, 92, 93, 127], [15, 14, 8, 14, 13, 13, 7, 9, 15, 13, 9, 5, 7, 20], 16, [31, 33, 41]⟩), [5, 8], [16, 2], [18]⟩,
   ⟨2, 4, 2, (some 35), false, true, 36, 36, 360,
    (some ⟨1, 36, 200, [77, 144, 119, 40, 86, 142, 87, 126, 30, 90, 91, 92, 93, 127]⟩),
    none, [31, 33, 41], [], [36]⟩]),
  (train_ko1_102, [
   ⟨3, 102, 0, (some 16), true, false, 49, 49, 490,
    none,
    (some ⟨1, [83, 101, 84, 121], [9, 19, 8, 10], 5, [5, 8, 9]⟩), [], [62, 64, 69, 71, 87, 92], [49]⟩,
   ⟨3, 102, 1, (some 3), true, false, 56, 56, 560,
    (some ⟨0, 54, 490, [83, 101, 84, 121]⟩),
    none, [5, 8, 9], [], [54]⟩]),
  (train_ko1_6, [
   ⟨4, 6, 0, (some 14), true, false, 26, 26, 260,
    none,
    (some ⟨1, [83, 101, 84, 121], [9, 19, 8, 8], 4, [5, 8]⟩), [], [61, 64, 69, 71, 87, 92], [26]⟩,
   ⟨4, 6, 1, (some 1), true, false, 32, 32, 320,
    (some ⟨0, 30, 260, [83, 101, 84, 121]⟩),
    (some ⟨2, [77, 144, 119, 40, 86, 142, 87, 126, 30, 90, 91, 92, 93, 127], [15, 14, 8, 14, 13, 13, 7, 9, 15, 13, 9, 5, 7, 20], 16, [31, 33, 41]⟩), [5, 8], [16, 2], [30]⟩,
   ⟨4, 6, 2, (some 35), false, true, 48, 48, 480,
    (some ⟨1, 48, 320, [77, 144, 119, 40, 86, 142, 87, 126, 30, 90, 91, 92, 93, 127]⟩),
    none, [31, 33, 41], [], [48]⟩]),
  (train_ko1_8, [
   ⟨5, 8, 0, (some 14), true, false, 38, 38, 380,
    none,
    (some ⟨1, [83, 101, 84, 121], [9, 19, 8, 8], 4, [5, 8]⟩), [], [61, 64, 69, 71, 87, 92], [38]⟩,
   ⟨5, 8, 1, (some 1), true, false, 44, 44, 440,
    (some ⟨0, 42, 380, [83, 101, 84, 121]⟩),
    (some ⟨2, [77, 144, 119, 40, 86, 142, 87, 126, 30, 90, 91, 92, 93, 127], [15, 14, 8, 14, 13, 13, 7, 9, 15, 13, 9, 5, 7, 20], 16, [31, 33, 41]⟩), [5, 8], [16, 2], [42]⟩,
   ⟨5, 8, 2, (some 35), false, true, 60, 60, 600,
    (some ⟨1, 60, 440, [77, 144, 119, 40, 86, 142, 87, 126, 30, 90, 91, 92, 93, 127]⟩),
    none, [31, 33, 41], [], [60]⟩]),
  (train_ko1_4604, [
   ⟨6, 4604, 0, (some 10), true, false, 45, 45, 450,
    none,
    (some ⟨1, [83, 101, 84, 121], [9, 12, 6, 7], 3, [5, 8]⟩), [], [66, 68, 71, 87, 92], [45]⟩,
   ⟨6, 4604, 1, (some 1), true, false, 50, 52, 520,
    (some ⟨0, 48, 450, [83, 101, 84, 121]⟩),
    (some ⟨2, [77, 144, 119, 40, 86, 142, 87, 126, 30, 90, 91, 92, 93, 127], [11, 9, 8, 7, 13, 7, 7, 9, 15, 13, 9, 5, 7, 20], 14, [31, 34, 43]⟩), [5, 8], [16, 2], [48]⟩,
   ⟨6, 4604, 2, (some 38), true, false, 65, 67, 670,
    (some ⟨1, 66, 520, [77, 144, 119, 40, 86, 142, 87, 126, 30, 90, 91, 92, 93, 127]⟩),
    none, [31, 34, 43], [], [66]⟩]),
  (train_ko1_10, [
   ⟨7, 10, 0, (some 14), true, false, 40, 41, 410,
    none,
    (some ⟨1, [83, 101, 84, 121], [9, 19, 8, 8], 4, [5, 8]⟩), [], [61, 64, 69, 71, 87, 92], [40]⟩,
   ⟨7, 10, 1, (some 1), true, false, 46, 47, 470,
    (some ⟨0, 45, 410, [83, 101, 84, 121]⟩),
    (some ⟨2, [77, 144, 119, 40, 86, 142, 87, 126, 30, 90, 91, 92, 93, 127], [15, 14, 8, 14, 13, 13, 7, 9, 15, 13, 9, 5, 7, 20], 16, [31, 33, 41]⟩), [5, 8], [16, 2], [45]⟩,
   ⟨7, 10, 2, (some 35), false, true, 62, 63, 630,
    (some ⟨1, 63, 470, [77, 144, 119, 40, 86, 142, 87, 126, 30, 90, 91, 92, 93, 127]⟩),
    none, [31, 33, 41], [], [63]⟩]),
  (train_ko1_12, [
   ⟨8, 12, 0, (some 14), true, false, 54, 54, 540,
    none,
    (some ⟨1, [83, 101, 84, 121], [9, 19, 8, 8], 4, [5, 8]⟩), [], [61, 64, 69, 71, 87, 92], [54]⟩,
   ⟨8, 12, 1, (some 1), true, false, 60, 60, 600,
    (some ⟨0, 58, 540, [83, 101, 84, 121]⟩),
    (some ⟨2, [77, 144, 119, 40, 86, 142, 87, 126, 30, 90, 91, 92, 93, 127], [15, 14, 8, 14, 13, 13, 7, 9, 15, 13, 9, 5, 7, 20], 16, [31, 33, 41]⟩), [5, 8], [16, 2], [58]⟩,
   ⟨8, 12, 2, (some 35), false, true, 76, 76, 760,
    (some ⟨1, 76, 600, [77, 144, 119, 40, 86, 142, 87, 126, 30, 90, 91, 92, 93, 127]⟩),
    none, [31, 33, 41], [], [76]⟩]),
  (train_ko1_1, [
   ⟨9, 1, 2, (some 34), true, false, -6, -6, -60,
    none,
    (some ⟨1, [78, 79, 80, 81, 120, 31, 94, 95, 143, 128, 41, 85, 145, 125], [18, 7, 6, 8, 12, 20, 23, 5, 19, 11, 16, 11, 17, 9], 18, [17, 19]⟩), [], [30, 22], [-6]⟩,
   ⟨9, 1, 1, (some 2), true, false, 15, 15, 150,
    (some ⟨2, 12, -60, [78, 79, 80, 81, 120, 31, 94, 95, 143, 128, 41, 85, 145, 125]⟩),
    (some ⟨0, [76, 130, 133, 122], [8, 12, 22, 10], 5, [82, 84, 86, 89, 91]⟩), [17, 19], [9, 7, 6], [12]⟩,
   ⟨9, 1, 0, (some 15), false, true, 20, 20, 200,
    (some ⟨1, 20, 150, [76, 130, 133, 122]⟩),
    none, [82, 84, 86, 89, 91], [], [20]⟩]),
  (train_ko1_101, [
   ⟨10, 101, 1, (some 4), true, false, 23, 23, 230,
    none,
    (some ⟨0, [76, 130, 133, 122], [8, 12, 22, 10], 5, [82, 84, 86, 89, 91]⟩), [], [7, 6], [23]⟩,
   ⟨10, 101, 0, (some 39), false, true, 28, 28, 280,
    (some ⟨1, 28, 230, [76, 130, 133, 122]⟩),
    none, [82, 84, 86, 89, 91], [], [28]⟩]),
  (train_ko1_3, [
   ⟨11, 3, 2, (some 34), true, false, 6, 6, 60,
    none,
    (some ⟨1, [78, 79, 80, 81, 120, 31, 94, 95, 143, 128, 41, 85, 145, 125], [18, 7, 6, 8, 12, 20, 23, 5, 19, 11, 16, 11, 17, 9], 18, [17, 19]⟩), [], [30, 22], [6]⟩,
   ⟨11, 3, 1, (some 2), true, false, 26, 26, 260,
    (some ⟨2, 24, 60, [78, 79, 80, 81, 120, 31, 94, 95, 143, 128, 41, 85, 145, 125]⟩),
    (some ⟨0, [76, 130, 133, 122], [8, 12, 22, 10], 5, [82, 84, 86, 89, 91]⟩), [17, 19], [9, 7, 6], [24]⟩,
   ⟨11, 3, 0, (some 15), false, true, 31, 31, 310,
    (some ⟨1, 31, 260, [76, 130, 133, 122]⟩),
    none, [82, 84, 86, 89, 91], [], [31]⟩]),
  (train_ko1_6401, [
   ⟨12, 6401, 2, (some 33), true, false, 16, 16, 160,
    none,
    (some ⟨1, [78, 79, 80, 81, 120, 31, 94, 95, 143, 128, 41, 85, 145, 125], [18, 7, 6, 8, 12, 20, 23, 5, 9, 11, 6, 11, 7, 9], 15, [17, 19]⟩), [], [36, 30, 22], [16]⟩,
   ⟨12, 6401, 1, (some 2), true, false, 31, 31, 310,
    (some ⟨2, 31, 160, [78, 79, 80, 81, 120, 31, 94, 95, 143, 128, 41, 85, 145, 125]⟩),
    (some ⟨0, [76, 130, 133, 122], [6, 10, 12, 10], 4, [81, 85, 88, 91]⟩), [17, 19], [9, 7, 6], [31]⟩,
   ⟨12, 6401, 0, (some 13), false, true, 35, 35, 350,
    (some ⟨1, 35, 310, [76, 130, 133, 122]⟩),
    none, [81, 85, 88, 91], [], [35]⟩]),
  (train_ko1_5, [
   ⟨13, 5, 2, (some 34), true, false, 23, 23, 230,
    none,
    (some ⟨1, [78, 79, 80, 81, 120, 31, 94, 95, 143, 128, 41, 85, 145, 125], [18, 7, 6, 8, 12, 20, 23, 5, 19, 11, 16, 11, 17, 9], 18, [17, 19]⟩), [], [30, 22], [23]⟩,
   ⟨13, 5, 1, (some 2), true, false, 43, 43, 430,
    (some ⟨2, 41, 230, [78, 79, 80, 81, 120, 31, 94, 95, 143, 128, 41, 85, 145, 125]⟩),
    (some ⟨0, [76, 130, 133, 122], [8, 12, 22, 10], 5, [82, 84, 86, 89, 91]⟩), [17, 19], [9, 7, 6], [41]⟩,
   ⟨13, 5, 0, (some 15), false, true, 48, 48, 480,
    (some ⟨1, 48, 430, [76, 130, 133, 122]⟩),
    none, [82, 84, 86, 89, 91], [], [48]⟩]),
  (train_ko1_7, [
   ⟨14, 7, 2, (some 34), true, false, 30, 30, 300,
    none,
    (some ⟨1, [78, 79, 80, 81, 120, 31, 94, 95, 143, 128, 41, 85, 145, 125], [18, 7, 6, 8, 12, 20, 23, 5, 19, 11, 16, 11, 17, 9], 18, [17, 19]⟩), [], [30, 22], [30]⟩,
   ⟨14, 7, 1, (some 2), true, false, 50, 50, 500,
    (some ⟨2, 48, 300, [78, 79, 80, 81, 120, 31, 94, 95, 143, 128, 41, 85, 145, 125]⟩),
    (some ⟨0, [76, 130, 133, 122], [8, 12, 22, 10], 5, [82, 84, 86, 89, 91]⟩), [17, 19], [9, 7, 6], [48]⟩,
   ⟨14, 7, 0, (some 15), false, true, 55, 55, 550,
    (some ⟨1, 55, 500, [76, 130, 133, 122]⟩),
    none, [82, 84, 86, 89, 91], [], [55]⟩]),
  (train_ko1_103, [
   ⟨15, 103, 1, (some 4), true, false, 57, 57, 570,
    none,
    (some ⟨0, [76, 130, 133, 122], [8, 12, 22, 10], 5, [82, 84, 86, 89, 91]⟩), [], [7, 6], [57]⟩,
   ⟨15, 103, 0, (some 39), false, true, 62, 62, 620,
    (some ⟨1, 62, 570, [76, 130, 133, 122]⟩),
    none, [82, 84, 86, 89, 91], [], [62]⟩]),
  (train_ko1_9, [
   ⟨16, 9, 2, (some 34), true, false, 42, 42, 420,
    none,
    (some ⟨1, [78, 79, 80, 81, 120, 31, 94, 95, 143, 128, 41, 85, 145, 125], [18, 7, 6, 8, 12, 20, 23, 5, 19, 11, 16, 11, 17, 9], 18, [17, 19]⟩), [], [30, 22], [42]⟩,
   ⟨16, 9, 1, (some 2), true, false, 62, 62, 620,
    (some ⟨2, 60, 420, [78, 79, 80, 81, 120, 31, 94, 95, 143, 128, 41, 85, 145, 125]⟩),
    (some ⟨0, [76, 130, 133, 122], [8, 12, 22, 10], 5, [82, 84, 86, 89, 91]⟩), [17, 19], [9, 7, 6], [60]⟩,
   ⟨16, 9, 0, (some 15), false, true, 67, 67, 670,
    (some ⟨1, 67, 620, [76, 130, 133, 122]⟩),
    none, [82, 84, 86, 89, 91], [], [67]⟩]),
  (train_ko1_6403, [
   ⟨17, 6403, 2, (some 33), true, false, 50, 50, 500,
    none,
    (some ⟨1, [78, 79, 80, 81, 120, 31, 94, 95, 143, 128, 41, 85, 145, 125], [18, 7, 6, 8, 12, 20, 23, 5, 9, 11, 6, 11, 7, 9], 15, [17, 19]⟩), [], [36, 30, 22], [50]⟩,
   ⟨17, 6403, 1, (some 2), true, false, 65, 66, 660,
    (some ⟨2, 65, 500, [78, 79, 80, 81, 120, 31, 94, 95, 143, 128, 41, 85, 145, 125]⟩),
    (some ⟨0, [76, 130, 133, 122], [6, 10, 12, 10], 4, [81, 85, 88, 91]⟩), [17, 19], [9, 7, 6], [65]⟩,
   ⟨17, 6403, 0, (some 13), false, true, 69, 70, 700,
    (some ⟨1, 70, 660, [76, 130, 133, 122]⟩),
    none, [81, 85, 88, 91], [], [70]⟩]),
  (train_ko1_11, [
   ⟨18, 11, 2, (some 34), true, false, 50, 54, 540,
    none,
    (some ⟨1, [78, 79, 80, 81, 120, 31, 94, 95, 143, 128, 41, 85, 145, 125], [18, 7, 6, 8, 12, 20, 23, 5, 19, 11, 16, 11, 17, 9], 18, [17, 19]⟩), [], [30, 22], [50]⟩,
   ⟨18, 11, 1, (some 2), true, false, 70, 74, 740,
    (some ⟨2, 72, 540, [78, 79, 80, 81, 120, 31, 94, 95, 143, 128, 41, 85, 145, 125]⟩),
    (some ⟨0, [76, 130, 133, 122], [8, 12, 22, 10], 5, [82, 84, 86, 89, 91]⟩), [17, 19], [9, 7, 6], [72]⟩,
   ⟨18, 11, 0, (some 15), false, true, 75, 79, 790,
    (some ⟨1, 79, 740, [76, 130, 133, 122]⟩),
    none, [82, 84, 86, 89, 91], [], [79]⟩]),
  (train_ko1_14, [
   ⟨19, 14, 0, (some 14), true, false, 68, 68, 680,
    none,
    (some ⟨1, [83, 101, 84, 121], [9, 19, 8, 8], 4, [5, 8]⟩), [], [61, 64, 69, 71, 87, 92], [68]⟩,
   ⟨19, 14, 1, (some 1), true, false, 74, 74, 740,
    (some ⟨0, 72, 680, [83, 101, 84, 121]⟩),
    (some ⟨2, [77, 144, 119, 40, 86, 142, 87, 126, 30, 90, 91, 92, 93, 127], [15, 14, 8, 14, 13, 13, 7, 9, 15, 13, 9, 5, 7, 20], 16, [31, 33, 41]⟩), [5, 8], [16, 2], [72]⟩,
   ⟨19, 14, 2, (some 35), false, true, 90, 90, 900,
    (some ⟨1, 90, 740, [77, 144, 119, 40, 86, 142, 87, 126, 30, 90, 91, 92, 93, 127]⟩),
    none, [31, 33, 41], [], [90]⟩]),
  (train_ko1_4606, [
   ⟨20, 4606, 0, (some 10), true, false, 79, 79, 790,
    none,
    (some ⟨1, [83, 101, 84, 121], [9, 12, 6, 7], 3, [5, 8]⟩), [], [66, 68, 71, 87, 92], [79]⟩,
   ⟨20, 4606, 1, (some 1), true, false, 84, 84, 840,
    (some ⟨0, 82, 790, [83, 101, 84, 121]⟩),
    (some ⟨2, [77, 144, 119, 40, 86, 142, 87, 126, 30, 90, 91, 92, 93, 127], [11, 9, 8, 7, 13, 7, 7, 9, 15, 13, 9, 5, 7, 20], 14, [31, 34, 43]⟩), [5, 8], [16, 2], [82]⟩,
   ⟨20, 4606, 2, (some 38), true, false, 99, 99, 990,
    (some ⟨1, 98, 840, [77, 144, 119, 40, 86, 142, 87, 126, 30, 90, 91, 92, 93, 127]⟩),
    none, [31, 34, 43], [], [98]⟩]),
  (train_ko1_16, [
   ⟨21, 16, 0, (some 14), true, false, 82, 82, 820,
    none,
    (some ⟨1, [83, 101, 84, 121], [9, 19, 8, 8], 4, [5, 8]⟩), [], [61, 64, 69, 71, 87, 92], [82]⟩,
   ⟨21, 16, 1, (some 1), true, false, 88, 88, 880,
    (some ⟨0, 86, 820, [83, 101, 84, 121]⟩),
    (some ⟨2, [77, 144, 119, 40, 86, 142, 87, 126, 30, 90, 91, 92, 93, 127], [15, 14, 8, 14, 13, 13, 7, 9, 15, 13, 9, 5, 7, 20], 16, [31, 33, 41]⟩), [5, 8], [16, 2], [86]⟩,
   ⟨21, 16, 2, (some 35), false, true, 104, 104, 1040,
    (some ⟨1, 104, 880, [77, 144, 119, 40, 86, 142, 87, 126, 30, 90, 91, 92, 93, 127]⟩),
    none, [31, 33, 41], [], [104]⟩]),
  (train_ko1_106, [
   ⟨22, 106, 0, (some 16), true, false, 87, 87, 870,
    none,
    (some ⟨1, [83, 101, 84, 121], [9, 19, 8, 10], 5, [5, 8, 9]⟩), [], [62, 64, 69, 71, 87, 92], [87]⟩,
   ⟨22, 106, 1, (some 3), true, false, 94, 94, 940,
    (some ⟨0, 92, 870, [83, 101, 84, 121]⟩),
    none, [5, 8, 9], [], [92]⟩]),
  (train_ko1_18, [
   ⟨23, 18, 0, (some 14), true, false, 96, 96, 960,
    none,
    (some ⟨1, [83, 101, 84, 121], [9, 19, 8, 8], 4, [5, 8]⟩), [], [61, 64, 69, 71, 87, 92], [96]⟩,
   ⟨23, 18, 1, (some 1), true, false, 102, 102, 1020,
    (some ⟨0, 100, 960, [83, 101, 84, 121]⟩),
    (some ⟨2, [77, 144, 119, 40, 86, 142, 87, 126, 30, 90, 91, 92, 93, 127], [15, 14, 8, 14, 13, 13, 7, 9, 15, 13, 9, 5, 7, 20], 16, [31, 33, 41]⟩), [5, 8], [16, 2], [100]⟩,
   ⟨23, 18, 2, (some 35), false, true, 118, 118, 1180,
    (some ⟨1, 118, 1020, [77, 144, 119, 40, 86, 142, 87, 126, 30, 90, 91, 92, 93, 127]⟩),
    none, [31, 33, 41], [], [118]⟩]),
  (train_ko1_20, [
   ⟨24, 20, 0, (some 14), true, false, 90, 90, 900,
    none,
    (some ⟨1, [83, 101, 84, 121], [9, 19, 8, 8], 4, [5, 8]⟩), [], [61, 64, 69, 71, 87, 92], [90]⟩,
   ⟨24, 20, 1, (some 1), true, false, 96, 96, 960,
    (some ⟨0, 94, 900, [83, 101, 84, 121]⟩),
    (some ⟨2, [77, 144, 119, 40, 86, 142, 87, 126, 30, 90, 91, 92, 93, 127], [15, 14, 8, 14, 13, 13, 7, 9, 15, 13, 9, 5, 7, 20], 16, [31, 33, 41]⟩), [5, 8], [16, 2], [94]⟩,
   ⟨24, 20, 2, (some 35), false, true, 112, 112, 1120,
    (some ⟨1, 112, 960, [77, 144, 119, 40, 86, 142, 87, 126, 30, 90, 91, 92, 93, 127]⟩),
    none, [31, 33, 41], [], [112]⟩]),
  (train_ko1_4608, [
   ⟨25, 4608, 0, (some 10), true, false, 113, 113, 1130,
    none,
    (some ⟨1, [83, 101, 84, 121], [9, 12, 6, 7], 3, [5, 8]⟩), [], [66, 68, 71, 87, 92], [113]⟩,
   ⟨25, 4608, 1, (some 1), true, false, 118, 118, 1180,
    (some ⟨0, 116, 1130, [83, 101, 84, 121]⟩),
    (some ⟨2, [77, 144, 119, 40, 86, 142, 87, 126, 30, 90, 91, 92, 93, 127], [11, 9, 8, 7, 13, 7, 7, 9, 15, 13, 9, 5, 7, 20], 14, [31, 34, 43]⟩), [5, 8], [16, 2], [116]⟩,
   ⟨25, 4608, 2, (some 38), true, false, 133, 133, 1330,
    (some ⟨1, 132, 1180, [77, 144, 119, 40, 86, 142, 87, 126, 30, 90, 91, 92, 93, 127]⟩),
    none, [31, 34, 43], [], [132]⟩]),
  (train_ko1_22, [
   ⟨26, 22, 0, (some 14), true, false, 104, 104, 1040,
    none,
    (some ⟨1, [83, 101, 84, 121], [9, 19, 8, 8], 4, [5, 8]⟩), [], [61, 64, 69, 71, 87, 92], [104]⟩,
   ⟨26, 22, 1, (some 1), true, false, 110, 110, 1100,
    (some ⟨0, 108, 1040, [83, 101, 84, 121]⟩),
    (some ⟨2, [77, 144, 119, 40, 86, 142, 87, 126, 30, 90, 91, 92, 93, 127], [15, 14, 8, 14, 13, 13, 7, 9, 15, 13, 9, 5, 7, 20], 16, [31, 33, 41]⟩), [5, 8], [16, 2], [108]⟩,
   ⟨26, 22, 2, (some 35), false, true, 126, 126, 1260,
    (some ⟨1, 126, 1100, [77, 144, 119, 40, 86, 142, 87, 126, 30, 90, 91, 92, 93, 127]⟩),
    none, [31, 33, 41], [], [126]⟩]),
  (train_ko1_108, [
   ⟨27, 108, 0, (some 16), true, false, 121, 121, 1210,
    none,
    (some ⟨1, [83, 101, 84, 121], [9, 19, 8, 10], 5, [5, 8, 9]⟩), [], [62, 64, 69, 71, 87, 92], [121]⟩,
   ⟨27, 108, 1, (some 3), true, false, 128, 128, 1280,
    (some ⟨0, 126, 1210, [83, 101, 84, 121]⟩),
    none, [5, 8, 9], [], [126]⟩]),
  (train_ko1_24, [
   ⟨28, 24, 0, (some 14), true, false, 118, 118, 1180,
    none,
    (some ⟨1, [83, 101, 84, 121], [9, 19, 8, 8], 4, [5, 8]⟩), [], [61, 64, 69, 71, 87, 92], [118]⟩,
   ⟨28, 24, 1, (some 1), true, false, 124, 124, 1240,
    (some ⟨0, 122, 1180, [83, 101, 84, 121]⟩),
    (some ⟨2, [77, 144, 119, 40, 86, 142, 87, 126, 30, 90, 91, 92, 93, 127], [15, 14, 8, 14, 13, 13, 7, 9, 15, 13, 9, 5, 7, 20], 16, [31, 33, 41]⟩), [5, 8], [16, 2], [122]⟩,
   ⟨28, 24, 2, (some 35), false, true, 140, 140, 1400,
    (some ⟨1, 140, 1240, [77, 144, 119, 40, 86, 142, 87, 126, 30, 90, 91, 92, 93, 127]⟩),
    none, [31, 33, 41], [], [140]⟩]),
  (train_ko1_13, [
   ⟨29, 13, 2, (some 34), true, false, 59, 59, 590,
    none,
    (some ⟨1, [78, 79, 80, 81, 120, 31, 94, 95, 143, 128, 41, 85, 145, 125], [18, 7, 6, 8, 12, 20, 23, 5, 19, 11, 16, 11, 17, 9], 18, [17, 19]⟩), [], [30, 22], [59]⟩,
   ⟨29, 13, 1, (some 2), true, false, 79, 79, 790,
    (some ⟨2, 77, 590, [78, 79, 80, 81, 120, 31, 94, 95, 143, 128, 41, 85, 145, 125]⟩),
    (some ⟨0, [76, 130, 133, 122], [8, 12, 22, 10], 5, [82, 84, 86, 89, 91]⟩), [17, 19], [9, 7, 6], [77]⟩,
   ⟨29, 13, 0, (some 15), false, true, 84, 84, 840,
    (some ⟨1, 84, 790, [76, 130, 133, 122]⟩),
    none, [82, 84, 86, 89, 91], [], [84]⟩]),
  (train_ko1_105, [
   ⟨30, 105, 1, (some 4), true, false, 91, 91, 910,
    none,
    (some ⟨0, [76, 130, 133, 122], [8, 12, 22, 10], 5, [82, 84, 86, 89, 91]⟩), [], [7, 6], [91]⟩,
   ⟨30, 105, 0, (some 39), false, true, 96, 96, 960,
    (some ⟨1, 96, 910, [76, 130, 133, 122]⟩),
    none, [82, 84, 86, 89, 91], [], [96]⟩]),
  (train_ko1_15, [
   ⟨31, 15, 2, (some 34), true, false, 73, 73, 730,
    none,
    (some ⟨1, [78, 79, 80, 81, 120, 31, 94, 95, 143, 128, 41, 85, 145, 125], [18, 7, 6, 8, 12, 20, 23, 5, 19, 11, 16, 11, 17, 9], 18, [17, 19]⟩), [], [30, 22], [73]⟩,
   ⟨31, 15, 1, (some 2), true, false, 93, 94, 940,
    (some ⟨2, 91, 730, [78, 79, 80, 81, 120, 31, 94, 95, 143, 128, 41, 85, 145, 125]⟩),
    (some ⟨0, [76, 130, 133, 122], [8, 12, 22, 10], 5, [82, 84, 86, 89, 91]⟩), [17, 19], [9, 7, 6], [91]⟩,
   ⟨31, 15, 0, (some 15), false, true, 98, 99, 990,
    (some ⟨1, 99, 940, [76, 130, 133, 122]⟩),
    none, [82, 84, 86, 89, 91], [], [99]⟩]),
  (train_ko1_6405, [
   ⟨32, 6405, 2, (some 33), true, false, 84, 84, 840,
    none,
    (some ⟨1, [78, 79, 80, 81, 120, 31, 94, 95, 143, 128, 41, 85, 145, 125], [18, 7, 6, 8, 12, 20, 23, 5, 9, 11, 6, 11, 7, 9], 15, [17, 19]⟩), [], [36, 30, 22], [84]⟩,
   ⟨32, 6405, 1, (some 2), true, false, 99, 99, 990,
    (some ⟨2, 99, 840, [78, 79, 80, 81, 120, 31, 94, 95, 143, 128, 41, 85, 145, 125]⟩),
    (some ⟨0, [76, 130, 133, 122], [6, 10, 12, 10], 4, [81, 85, 88, 91]⟩), [17, 19], [9, 7, 6], [99]⟩,
   ⟨32, 6405, 0, (some 13), false, true, 103, 103, 1030,
    (some ⟨1, 103, 990, [76, 130, 133, 122]⟩),
    none, [81, 85, 88, 91], [], [103]⟩]),
  (train_ko1_17, [
   ⟨33, 17, 2, (some 34), true, false, 92, 92, 920,
    none,
    (some ⟨1, [78, 79, 80, 81, 120, 31, 94, 95, 143, 128, 41, 85, 145, 125], [18, 7, 6, 8, 12, 20, 23, 5, 19, 11, 16, 11, 17, 9], 18, [17, 19]⟩), [], [30, 22], [92]⟩,
   ⟨33, 17, 1, (some 2), true, false, 112, 112, 1120,
    (some ⟨2, 110, 920, [78, 79, 80, 81, 120, 31, 94, 95, 143, 128, 41, 85, 145, 125]⟩),
    (some ⟨0, [76, 130, 133, 122], [8, 12, 22, 10], 5, [82, 84, 86, 89, 91]⟩), [17, 19], [9, 7, 6], [110]⟩,
   ⟨33, 17, 0, (some 15), false, true, 117, 117, 1170,
    (some ⟨1, 117, 1120, [76, 130, 133, 122]⟩),
    none, [82, 84, 86, 89, 91], [], [117]⟩]),
  (train_ko1_21, [
   ⟨34, 21, 2, (some 34), true, false, 85, 88, 880,
    none,
    (some ⟨1, [78, 79, 80, 81, 120, 31, 94, 95, 143, 128, 41, 85, 145, 125], [18, 7, 6, 8, 12, 20, 23, 5, 19, 11, 16, 11, 17, 9], 18, [17, 19]⟩), [], [30, 22], [85]⟩,
   ⟨34, 21, 1, (some 2), true, false, 105, 108, 1080,
    (some ⟨2, 106, 880, [78, 79, 80, 81, 120, 31, 94, 95, 143, 128, 41, 85, 145, 125]⟩),
    (some ⟨0, [76, 130, 133, 122], [8, 12, 22, 10], 5, [82, 84, 86, 89, 91]⟩), [17, 19], [9, 7, 6], [106]⟩,
   ⟨34, 21, 0, (some 15), false, true, 110, 113, 1130,
    (some ⟨1, 113, 1080, [76, 130, 133, 122]⟩),
    none, [82, 84, 86, 89, 91], [], [113]⟩]),
  (train_ko1_107, [
   ⟨35, 107, 1, (some 4), true, false, 125, 125, 1250,
    none,
    (some ⟨0, [76, 130, 133, 122], [8, 12, 22, 10], 5, [82, 84, 86, 89, 91]⟩), [], [7, 6], [125]⟩,
   ⟨35, 107, 0, (some 39), false, true, 130, 130, 1300,
    (some ⟨1, 130, 1250, [76, 130, 133, 122]⟩),
    none, [82, 84, 86, 89, 91], [], [130]⟩]),
  (train_ko1_23, [
   ⟨36, 23, 2, (some 34), true, false, 99, 99, 990,
    none,
    (some ⟨1, [78, 79, 80, 81, 120, 31, 94, 95, 143, 128, 41, 85, 145, 125], [18, 7, 6, 8, 12, 20, 23, 5, 19, 11, 16, 11, 17, 9], 18, [17, 19]⟩), [], [30, 22], [99]⟩,
   ⟨36, 23, 1, (some 2), true, false, 119, 119, 1190,
    (some ⟨2, 117, 990, [78, 79, 80, 81, 120, 31, 94, 95, 143, 128, 41, 85, 145, 125]⟩),
    (some ⟨0, [76, 130, 133, 122], [8, 12, 22, 10], 5, [82, 84, 86, 89, 91]⟩), [17, 19], [9, 7, 6], [117]⟩,
   ⟨36, 23, 0, (some 15), false, true, 124, 124, 1240,
    (some ⟨1, 124, 1190, [76, 130, 133, 122]⟩),
    none, [82, 84, 86, 89, 91], [], [124]⟩]),
  (train_ko1_6407, [
   ⟨37, 6407, 2, (some 33), true, false, 118, 118, 1180,
    none,
    (some ⟨1, [78, 79, 80, 81, 120, 31, 94, 95, 143, 128, 41, 85, 145, 125], [18, 7, 6, 8, 12, 20, 23, 5, 9, 11, 6, 11, 7, 9], 15, [17, 19]⟩), [], [36, 30, 22], [118]⟩,
   ⟨37, 6407, 1, (some 2), true, false, 133, 133, 1330,
    (some ⟨2, 133, 1180, [78, 79, 80, 81, 120, 31, 94, 95, 143, 128, 41, 85, 145, 125]⟩),
    (some ⟨0, [76, 130, 133, 122], [6, 10, 12, 10], 4, [81, 85, 88, 91]⟩), [17, 19], [9, 7, 6], [133]⟩,
   ⟨37, 6407, 0, (some 13), false, true, 137, 137, 1370,
    (some ⟨1, 137, 1330, [76, 130, 133, 122]⟩),
    none, [81, 85, 88, 91], [], [137]⟩]),
  (train_ko1_25, [
   ⟨38, 25, 2, (some 34), true, false, 118, 122, 1220,
    none,
    (some ⟨1, [78, 79, 80, 81, 120, 31, 94, 95, 143, 128, 41, 85, 145, 125], [18, 7, 6, 8, 12, 20, 23, 5, 19, 11, 16, 11, 17, 9], 18, [17, 19]⟩), [], [30, 22], [118]⟩,
   ⟨38, 25, 1, (some 2), true, false, 138, 142, 1420,
    (some ⟨2, 140, 1220, [78, 79, 80, 81, 120, 31, 94, 95, 143, 128, 41, 85, 145, 125]⟩),
    (some ⟨0, [76, 130, 133, 122], [8, 12, 22, 10], 5, [82, 84, 86, 89, 91]⟩), [17, 19], [9, 7, 6], [140]⟩,
   ⟨38, 25, 0, (some 15), false, true, 143, 147, 1470,
    (some ⟨1, 147, 1420, [76, 130, 133, 122]⟩),
    none, [82, 84, 86, 89, 91], [], [147]⟩]),
  (train_ko1_26, [
   ⟨39, 26, 0, (some 14), true, false, 132, 132, 1320,
    none,
    (some ⟨1, [83, 101, 84, 121], [9, 19, 8, 8], 4, [5, 8]⟩), [], [61, 64, 69, 71, 87, 92], [132]⟩,
   ⟨39, 26, 1, (some 1), true, false, 138, 138, 1380,
    (some ⟨0, 136, 1320, [83, 101, 84, 121]⟩),
    (some ⟨2, [77, 144, 119, 40, 86, 142, 87, 126, 30, 90, 91, 92, 93, 127], [15, 14, 8, 14, 13, 13, 7, 9, 15, 13, 9, 5, 7, 20], 16, [31, 33, 41]⟩), [5, 8], [16, 2], [136]⟩,
   ⟨39, 26, 2, (some 35), false, true, 154, 154, 1540,
    (some ⟨1, 154, 1380, [77, 144, 119, 40, 86, 142, 87, 126, 30, 90, 91, 92, 93, 127]⟩),
    none, [31, 33, 41], [], [154]⟩]),
  (train_ko1_4610, [
   ⟨40, 4610, 0, (some 10), true, false, 127, 127, 1270,
    none,
    (some ⟨1, [83, 101, 84, 121], [9, 12, 6, 7], 3, [5, 8]⟩), [], [66, 68, 71, 87, 92], [127]⟩,
   ⟨40, 4610, 1, (some 1), true, false, 133, 133, 1330,
    (some ⟨0, 130, 1270, [83, 101, 84, 121]⟩),
    (some ⟨2, [77, 144, 119, 40, 86, 142, 87, 126, 30, 90, 91, 92, 93, 127], [11, 9, 8, 7, 13, 7, 7, 9, 15, 13, 9, 5, 7, 20], 14, [31, 34, 43]⟩), [5, 8], [16, 2], [130]⟩,
   ⟨40, 4610, 2, (some 38), true, false, 152, 152, 1520,
    (some ⟨1, 147, 1330, [77, 144, 119, 40, 86, 142, 87, 126, 30, 90, 91, 92, 93, 127]⟩),
    none, [31, 34, 43], [], [147]⟩]),
  (train_ko1_28, [
   ⟨41, 28, 0, (some 14), true, false, 146, 147, 1470,
    none,
    (some ⟨1, [83, 101, 84, 121], [9, 19, 8, 8], 4, [5, 8]⟩), [], [61, 64, 69, 71, 87, 92], [146]⟩,
   ⟨41, 28, 1, (some 1), true, false, 152, 153, 1530,
    (some ⟨0, 151, 1470, [83, 101, 84, 121]⟩),
    (some ⟨2, [77, 144, 119, 40, 86, 142, 87, 126, 30, 90, 91, 92, 93, 127], [15, 14, 8, 14, 13, 13, 7, 9, 15, 13, 9, 5, 7, 20], 16, [31, 33, 41]⟩), [5, 8], [16, 2], [151]⟩,
   ⟨41, 28, 2, (some 35), false, true, 168, 169, 1690,
    (some ⟨1, 169, 1530, [77, 144, 119, 40, 86, 142, 87, 126, 30, 90, 91, 92, 93, 127]⟩),
    none, [31, 33, 41], [], [169]⟩]),
  (train_ko1_112, [
   ⟨42, 112, 0, (some 16), true, false, 141, 144, 1440,
    none,
    (some ⟨1, [83, 101, 84, 121], [9, 19, 8, 10], 5, [5, 8, 9]⟩), [], [62, 64, 69, 71, 87, 92], [141]⟩,
   ⟨42, 112, 1, (some 3), true, false, 148, 151, 1510,
    (some ⟨0, 149, 1440, [83, 101, 84, 121]⟩),
    none, [5, 8, 9], [], [149]⟩]),
  (train_ko1_30, [
   ⟨43, 30, 0, (some 14), true, false, 140, 140, 1400,
    none,
    (some ⟨1, [83, 101, 84, 121], [9, 19, 8, 8], 4, [5, 8]⟩), [], [61, 64, 69, 71, 87, 92], [140]⟩,
   ⟨43, 30, 1, (some 1), true, false, 146, 146, 1460,
    (some ⟨0, 144, 1400, [83, 101, 84, 121]⟩),
    (some ⟨2, [77, 144, 119, 40, 86, 142, 87, 126, 30, 90, 91, 92, 93, 127], [15, 14, 8, 14, 13, 13, 7, 9, 15, 13, 9, 5, 7, 20], 16, [31, 33, 41]⟩), [5, 8], [16, 2], [144]⟩,
   ⟨43, 30, 2, (some 35), false, true, 162, 162, 1620,
    (some ⟨1, 162, 1460, [77, 144, 119, 40, 86, 142, 87, 126, 30, 90, 91, 92, 93, 127]⟩),
    none, [31, 33, 41], [], [162]⟩]),
  (train_ko1_32, [
   ⟨44, 32, 0, (some 14), true, false, 154, 154, 1540,
    none,
    (some ⟨1, [83, 101, 84, 121], [9, 19, 8, 8], 4, [5, 8]⟩), [], [61, 64, 69, 71, 87, 92], [154]⟩,
   ⟨44, 32, 1, (some 1), true, false, 160, 160, 1600,
    (some ⟨0, 158, 1540, [83, 101, 84, 121]⟩),
    (some ⟨2, [77, 144, 119, 40, 86, 142, 87, 126, 30, 90, 91, 92, 93, 127], [15, 14, 8, 14, 13, 13, 7, 9, 15, 13, 9, 5, 7, 20], 16, [31, 33, 41]⟩), [5, 8], [16, 2], [158]⟩,
   ⟨44, 32, 2, (some 35), false, true, 176, 176, 1760,
    (some ⟨1, 176, 1600, [77, 144, 119, 40, 86, 142, 87, 126, 30, 90, 91, 92, 93, 127]⟩),
    none, [31, 33, 41], [], [176]⟩]),
  (train_ko1_4612, [
   ⟨45, 4612, 0, (some 10), true, false, 163, 163, 1630,
    none,
    (some ⟨1, [83, 101, 84, 121], [9, 12, 6, 7], 3, [5, 8]⟩), [], [66, 68, 71, 87, 92], [163]⟩,
   ⟨45, 4612, 1, (some 1), true, false, 168, 168, 1680,
    (some ⟨0, 166, 1630, [83, 101, 84, 121]⟩),
    (some ⟨2, [77, 144, 119, 40, 86, 142, 87, 126, 30, 90, 91, 92, 93, 127], [11, 9, 8, 7, 13, 7, 7, 9, 15, 13, 9, 5, 7, 20], 14, [31, 34, 43]⟩), [5, 8], [16, 2], [166]⟩,
   ⟨45, 4612, 2, (some 38), true, false, 183, 183, 1830,
    (some ⟨1, 182, 1680, [77, 144, 119, 40, 86, 142, 87, 126, 30, 90, 91, 92, 93, 127]⟩),
    none, [31, 34, 43], [], [182]⟩]),
  (train_ko1_34, [
   ⟨46, 34, 0, (some 14), true, false, 168, 168, 1680,
    none,
    (some ⟨1, [83, 101, 84, 121], [9, 19, 8, 8], 4, [5, 8]⟩), [], [61, 64, 69, 71, 87, 92], [168]⟩,
   ⟨46, 34, 1, (some 1), true, false, 174, 174, 1740,
    (some ⟨0, 172, 1680, [83, 101, 84, 121]⟩),
    (some ⟨2, [77, 144, 119, 40, 86, 142, 87, 126, 30, 90, 91, 92, 93, 127], [15, 14, 8, 14, 13, 13, 7, 9, 15, 13, 9, 5, 7, 20], 16, [31, 33, 41]⟩), [5, 8], [16, 2], [172]⟩,
   ⟨46, 34, 2, (some 35), false, true, 190, 190, 1900,
    (some ⟨1, 190, 1740, [77, 144, 119, 40, 86, 142, 87, 126, 30, 90, 91, 92, 93, 127]⟩),
    none, [31, 33, 41], [], [190]⟩]),
  (train_ko1_114, [
   ⟨47, 114, 0, (some 16), true, false, 177, 177, 1770,
    none,
    (some ⟨1, [83, 101, 84, 121], [9, 19, 8, 10], 5, [5, 8, 9]⟩), [], [62, 64, 69, 71, 87, 92], [177]⟩,
   ⟨47, 114, 1, (some 3), true, false, 184, 184, 1840,
    (some ⟨0, 182, 1770, [83, 101, 84, 121]⟩),
    none, [5, 8, 9], [], [182]⟩]),
  (train_ko1_36, [
   ⟨48, 36, 0, (some 14), true, false, 182, 182, 1820,
    none,
    (some ⟨1, [83, 101, 84, 121], [9, 19, 8, 8], 4, [5, 8]⟩), [], [61, 64, 69, 71, 87, 92], [182]⟩,
   ⟨48, 36, 1, (some 1), true, false, 188, 188, 1880,
    (some ⟨0, 186, 1820, [83, 101, 84, 121]⟩),
    (some ⟨2, [77, 144, 119, 40, 86, 142, 87, 126, 30, 90, 91, 92, 93, 127], [15, 14, 8, 14, 13, 13, 7, 9, 15, 13, 9, 5, 7, 20], 16, [31, 33, 41]⟩), [5, 8], [16, 2], [186]⟩,
   ⟨48, 36, 2, (some 35), false, true, 204, 204, 2040,
    (some ⟨1, 204, 1880, [77, 144, 119, 40, 86, 142, 87, 126, 30, 90, 91, 92, 93, 127]⟩),
    none, [31, 33, 41], [], [204]⟩]),
  (train_ko1_27, [
   ⟨49, 27, 2, (some 34), true, false, 127, 130, 1300,
    none,
    (some ⟨1, [78, 79, 80, 81, 120, 31, 94, 95, 143, 128, 41, 85, 145, 125], [18, 7, 6, 8, 12, 20, 23, 5, 19, 11, 16, 11, 17, 9], 18, [17, 19]⟩), [], [30, 22], [127]⟩,
   ⟨49, 27, 1, (some 2), true, false, 147, 151, 1510,
    (some ⟨2, 148, 1300, [78, 79, 80, 81, 120, 31, 94, 95, 143, 128, 41, 85, 145, 125]⟩),
    (some ⟨0, [76, 130, 133, 122], [8, 12, 22, 10], 5, [82, 84, 86, 89, 91]⟩), [17, 19], [9, 7, 6], [148]⟩,
   ⟨49, 27, 0, (some 15), false, true, 152, 156, 1560,
    (some ⟨1, 156, 1510, [76, 130, 133, 122]⟩),
    none, [82, 84, 86, 89, 91], [], [156]⟩]),
  (train_ko1_111, [
   ⟨50, 111, 1, (some 4), true, false, 144, 145, 1450,
    none,
    (some ⟨0, [76, 130, 133, 122], [8, 12, 22, 10], 5, [82, 84, 86, 89, 91]⟩), [], [7, 6], [144]⟩,
   ⟨50, 111, 0, (some 39), false, true, 149, 150, 1500,
    (some ⟨1, 150, 1450, [76, 130, 133, 122]⟩),
    none, [82, 84, 86, 89, 91], [], [150]⟩]),
  (train_ko1_31, [
   ⟨51, 31, 2, (some 34), true, false, 125, 126, 1260,
    none,
    (some ⟨1, [78, 79, 80, 81, 120, 31, 94, 95, 143, 128, 41, 85, 145, 125], [18, 7, 6, 8, 12, 20, 23, 5, 19, 11, 16, 11, 17, 9], 18, [17, 19]⟩), [], [30, 22], [125]⟩,
   ⟨51, 31, 1, (some 2), true, false, 145, 148, 1480,
    (some ⟨2, 144, 1260, [78, 79, 80, 81, 120, 31, 94, 95, 143, 128, 41, 85, 145, 125]⟩),
    (some ⟨0, [76, 130, 133, 122], [8, 12, 22, 10], 5, [82, 84, 86, 89, 91]⟩), [17, 19], [9, 7, 6], [144]⟩,
   ⟨51, 31, 0, (some 15), false, true, 150, 153, 1530,
    (some ⟨1, 153, 1480, [76, 130, 133, 122]⟩),
    none, [82, 84, 86, 89, 91], [], [153]⟩]),
  (train_ko1_6411, [
   ⟨52, 6411, 2, (some 33), true, false, 137, 137, 1370,
    none,
    (some ⟨1, [78, 79, 80, 81, 120, 31, 94, 95, 143, 128, 41, 85, 145, 125], [18, 7, 6, 8, 12, 20, 23, 5, 9, 11, 6, 11, 7, 9], 15, [17, 19]⟩), [], [36, 30, 22], [137]⟩,
   ⟨52, 6411, 1, (some 2), true, false, 152, 155, 1550,
    (some ⟨2, 152, 1370, [78, 79, 80, 81, 120, 31, 94, 95, 143, 128, 41, 85, 145, 125]⟩),
    (some ⟨0, [76, 130, 133, 122], [6, 10, 12, 10], 4, [81, 85, 88, 91]⟩), [17, 19], [9, 7, 6], [152]⟩,
   ⟨52, 6411, 0, (some 13), false, true, 156, 159, 1590,
    (some ⟨1, 159, 1550, [76, 130, 133, 122]⟩),
    none, [81, 85, 88, 91], [], [159]⟩]),
  (train_ko1_33, [
   ⟨53, 33, 2, (some 34), true, false, 144, 144, 1440,
    none,
    (some ⟨1, [78, 79, 80, 81, 120, 31, 94, 95, 143, 128, 41, 85, 145, 125], [18, 7, 6, 8, 12, 20, 23, 5, 19, 11, 16, 11, 17, 9], 18, [17, 19]⟩), [], [30, 22], [144]⟩,
   ⟨53, 33, 1, (some 2), true, false, 164, 164, 1640,
    (some ⟨2, 162, 1440, [78, 79, 80, 81, 120, 31, 94, 95, 143, 128, 41, 85, 145, 125]⟩),
    (some ⟨0, [76, 130, 133, 122], [8, 12, 22, 10], 5, [82, 84, 86, 89, 91]⟩), [17, 19], [9, 7, 6], [162]⟩,
   ⟨53, 33, 0, (some 15), false, true, 169, 169, 1690,
    (some ⟨1, 169, 1640, [76, 130, 133, 122]⟩),
    none, [82, 84, 86, 89, 91], [], [169]⟩]),
  (train_ko1_35, [
   ⟨54, 35, 2, (some 34), true, false, 153, 153, 1530,
    none,
    (some ⟨1, [78, 79, 80, 81, 120, 31, 94, 95, 143, 128, 41, 85, 145, 125], [18, 7, 6, 8, 12, 20, 23, 5, 19, 11, 16, 11, 17, 9], 18, [17, 19]⟩), [], [30, 22], [153]⟩,
   ⟨54, 35, 1, (some 2), true, false, 173, 173, 1730,
    (some ⟨2, 171, 1530, [78, 79, 80, 81, 120, 31, 94, 95, 143, 128, 41, 85, 145, 125]⟩),
    (some ⟨0, [76, 130, 133, 122], [8, 12, 22, 10], 5, [82, 84, 86, 89, 91]⟩), [17, 19], [9, 7, 6], [171]⟩,
   ⟨54, 35, 0, (some 15), false, true, 178, 178, 1780,
    (some ⟨1, 178, 1730, [76, 130, 133, 122]⟩),
    none, [82, 84, 86, 89, 91], [], [178]⟩]),
  (train_ko1_113, [
   ⟨55, 113, 1, (some 4), true, false, 180, 180, 1800,
    none,
    (some ⟨0, [76, 130, 133, 122], [8, 12, 22, 10], 5, [82, 84, 86, 89, 91]⟩), [], [7, 6], [180]⟩,
   ⟨55, 113, 0, (some 39), false, true, 185, 185, 1850,
    (some ⟨1, 185, 1800, [76, 130, 133, 122]⟩),
    none, [82, 84, 86, 89, 91], [], [185]⟩]),
  (train_ko1_37, [
   ⟨56, 37, 2, (some 34), true, false, 167, 167, 1670,
    none,
    (some ⟨1, [78, 79, 80, 81, 120, 31, 94, 95, 143, 128, 41, 85, 145, 125], [18, 7, 6, 8, 12, 20, 23, 5, 19, 11, 16, 11, 17, 9], 18, [17, 19]⟩), [], [30, 22], [167]⟩,
   ⟨56, 37, 1, (some 2), true, false, 187, 187, 1870,
    (some ⟨2, 185, 1670, [78, 79, 80, 81, 120, 31, 94, 95, 143, 128, 41, 85, 145, 125]⟩),
    (some ⟨0, [76, 130, 133, 122], [8, 12, 22, 10], 5, [82, 84, 86, 89, 91]⟩), [17, 19], [9, 7, 6], [185]⟩,
   ⟨56, 37, 0, (some 15), false, true, 192, 192, 1920,
    (some ⟨1, 192, 1870, [76, 130, 133, 122]⟩),
    none, [82, 84, 86, 89, 91], [], [192]⟩]),
  (train_ko1_6413, [
   ⟨57, 6413, 2, (some 33), true, false, 173, 173, 1730,
    none,
    (some ⟨1, [78, 79, 80, 81, 120, 31, 94, 95, 143, 128, 41, 85, 145, 125], [18, 7, 6, 8, 12, 20, 23, 5, 9, 11, 6, 11, 7, 9], 15, [17, 19]⟩), [], [36, 30, 22], [173]⟩,
   ⟨57, 6413, 1, (some 2), true, false, 188, 191, 1910,
    (some ⟨2, 188, 1730, [78, 79, 80, 81, 120, 31, 94, 95, 143, 128, 41, 85, 145, 125]⟩),
    (some ⟨0, [76, 130, 133, 122], [6, 10, 12, 10], 4, [81, 85, 88, 91]⟩), [17, 19], [9, 7, 6], [188]⟩,
   ⟨57, 6413, 0, (some 13), false, true, 192, 195, 1950,
    (some ⟨1, 195, 1910, [76, 130, 133, 122]⟩),
    none, [81, 85, 88, 91], [], [195]⟩]),
  (train_ko1_41, [
   ⟨58, 41, 2, (some 34), true, false, 170, 177, 1770,
    none,
    (some ⟨1, [78, 79, 80, 81, 120, 31, 94, 95, 143, 128, 41, 85, 145, 125], [18, 7, 6, 8, 12, 20, 23, 5, 19, 11, 16, 11, 17, 9], 18, [17, 19]⟩), [], [30, 22], [170]⟩,
   ⟨58, 41, 1, (some 2), true, false, 190, 197, 1970,
    (some ⟨2, 195, 1770, [78, 79, 80, 81, 120, 31, 94, 95, 143, 128, 41, 85, 145, 125]⟩),
    (some ⟨0, [76, 130, 133, 122], [8, 12, 22, 10], 5, [82, 84, 86, 89, 91]⟩), [17, 19], [9, 7, 6], [195]⟩,
   ⟨58, 41, 0, (some 15), false, true, 195, 202, 2020,
    (some ⟨1, 202, 1970, [76, 130, 133, 122]⟩),
    none, [82, 84, 86, 89, 91], [], [202]⟩])]

theorem ko1n11Plan_sections : ko1n11Plan.map Prod.fst = ko1 := rfl

theorem ko1n11Plan_ok : netKo.PlanOK "14:00" ko1n11Delays 40 netKoSpecial ko1n11Plan :=
  ko1Plan_ok.again rfl (by decide +kernel) (by decide +kernel) (by decide +kernel) (by decide +kernel)

theorem ko1n11_cost : netKo.costOK ko1n11Plan 182 = true := by decide +kernel

/-- the departures: train and station -/
def ko1n11Nodes : List (Nat × Nat) := [
  (5, 0), (7, 0), (7, 1), (52, 2), (51, 2), (49, 2), (49, 1), (53, 2), (58, 2), (56, 2), (58, 1),
  (51, 1), (38, 2), (57, 2), (57, 1), (56, 1), (16, 1), (17, 1), (37, 2), (38, 1), (50, 1),
  (32, 2), (34, 2), (34, 1), (17, 2), (18, 2), (18, 1), (6, 0), (32, 1), (30, 1), (43, 0), (42, 0),
  (42, 1), (52, 1), (43, 1), (41, 1), (3, 0), (3, 1), (31, 1), (6, 1), (6, 2), (53, 1), (41, 0),
  (33, 2), (33, 1), (36, 2), (37, 1), (36, 1), (16, 2)]

/-- the choices -/
def ko1n11Choices : List CodedNet.Choice := [
  .first 7 5 0, .first 41 43 0, .first 7 5 1, .first 41 43 1, .first 18 16 2, .first 37 52 2,
  .first 38 51 2, .first 49 51 2, .first 49 53 2, .first 56 58 2, .first 38 51 1, .first 49 51 1,
  .first 17 16 2, .first 56 57 2, .first 50 38 1, .first 56 57 1, .first 17 16 1, .first 36 32 1,
  .first 38 37 2, .first 36 32 2, .first 34 32 2, .first 18 17 2, .first 7 6 1, .first 7 6 0,
  .first 58 57 1, .first 58 57 2, .first 30 32 1, .first 49 52 2, .first 42 43 0, .first 50 49 1,
  .first 49 52 1, .first 50 51 1, .first 7 3 0, .first 30 31 1, .first 42 41 0, .against 42 51 0 1,
  .first 18 17 1, .first 50 52 1, .first 34 32 1, .first 33 32 1, .first 33 32 2, .first 38 37 1,
  .first 49 37 1, .first 51 37 2, .first 49 37 2, .first 50 37 1, .first 51 37 1]

/-- the inequalities -/
def ko1n11Arcs : ArcTree :=
  .node ⟨.follow, 2, 1, 2, 3, 0, false⟩ (.node ⟨.run, 0, 2, 3, 6, 0, false⟩ (.node
  ⟨.track, 14, 5, 0, 0, 118, false⟩ (.node ⟨.track, 20, 9, 0, 0, 167, false⟩ (.node
  ⟨.follow, 27, 10, 14, 5, 0, false⟩ (.node ⟨.follow, 56, 4, 6, 4, 0, false⟩ (.node
  ⟨.follow, 69, 32, 43, 3, 0, false⟩ .none .none) (.node ⟨.follow, 93, 12, 47, 4, 0, false⟩ .none
  .none)) (.node ⟨.follow, 65, 2, 37, 3, 0, false⟩ (.node ⟨.track, 80, 29, 44, 0, 18, false⟩ .none
  .none) (.node ⟨.track, 4, 31, 0, 0, 146, false⟩ .none .none))) (.node
  ⟨.run, 0, 5, 12, 20, 0, false⟩ (.node ⟨.follow, 59, 21, 7, 3, 0, false⟩ (.node
  ⟨.follow, 76, 34, 21, 2, 0, false⟩ .none .none) (.node ⟨.track, 21, 20, 5, 0, 18, false⟩ .none
  .none)) (.node ⟨.follow, 47, 2, 28, 3, 0, false⟩ (.node ⟨.follow, 88, 19, 5, 4, 0, false⟩ .none
  .none) .none))) (.node ⟨.track, 13, 13, 0, 0, 125, false⟩ (.node
  ⟨.follow, 38, 19, 13, 4, 0, false⟩ (.node ⟨.track, 62, 34, 6, 0, 18, false⟩ (.node
  ⟨.run, 0, 25, 18, 15, 0, false⟩ .none .none) (.node ⟨.follow, 35, 48, 29, 4, 0, false⟩ .none
  .none)) (.node ⟨.track, 50, 15, 9, 0, 18, false⟩ (.node ⟨.follow, 37, 13, 19, 5, 0, false⟩ .none
  .none) .none)) (.node ⟨.run, 0, 26, 27, 20, 0, false⟩ (.node ⟨.follow, 57, 32, 31, 3, 0, false⟩
  (.node ⟨.follow, 77, 24, 29, 4, 0, false⟩ .none .none) (.node ⟨.track, 23, 7, 5, 0, 18, false⟩
  .none .none)) (.node ⟨.follow, 17, 6, 8, 4, 0, false⟩ (.node ⟨.follow, 89, 6, 19, 5, 0, false⟩
  .none .none) .none)))) (.node ⟨.run, 0, 6, 7, 20, 0, false⟩ (.node ⟨.run, 0, 9, 11, 20, 0, false⟩
  (.node ⟨.follow, 31, 16, 15, 4, 0, false⟩ (.node ⟨.run, 0, 32, 33, 7, 0, false⟩ (.node
  ⟨.come, 71, 32, 12, 6, 0, false⟩ .none .none) (.node ⟨.follow, 92, 47, 21, 2, 0, false⟩ .none
  .none)) (.node ⟨.follow, 68, 39, 30, 3, 0, false⟩ (.node ⟨.follow, 39, 46, 22, 5, 0, false⟩ .none
  .none) (.node ⟨.track, 3, 43, 0, 0, 140, false⟩ .none .none))) (.node
  ⟨.run, 0, 23, 24, 20, 0, false⟩ (.node ⟨.follow, 63, 21, 12, 3, 0, false⟩ (.node
  ⟨.run, 0, 22, 29, 15, 0, false⟩ .none .none) (.node ⟨.follow, 25, 25, 49, 4, 0, false⟩ .none
  .none)) (.node ⟨.follow, 45, 3, 40, 5, 0, false⟩ (.node ⟨.follow, 87, 5, 19, 5, 0, false⟩ .none
  .none) .none))) (.node ⟨.track, 19, 10, 0, 0, 170, false⟩ (.node
  ⟨.follow, 13, 13, 5, 4, 0, false⟩ (.node ⟨.run, 0, 4, 34, 15, 0, false⟩ (.node
  ⟨.follow, 73, 27, 18, 4, 0, false⟩ .none .none) (.node ⟨.follow, 26, 49, 25, 5, 0, false⟩ .none
  .none)) (.node ⟨.follow, 49, 11, 15, 4, 0, false⟩ (.node ⟨.track, 84, 47, 13, 0, 18, false⟩ .none
  .none) .none)) (.node ⟨.follow, 52, 14, 9, 4, 0, false⟩ (.node ⟨.follow, 8, 35, 36, 3, 0, false⟩
  (.node ⟨.run, 0, 44, 45, 20, 0, false⟩ .none .none) (.node ⟨.track, 9, 26, 0, 0, 42, false⟩ .none
  .none)) (.node ⟨.follow, 70, 43, 32, 3, 0, false⟩ (.node ⟨.follow, 85, 7, 47, 4, 0, false⟩ .none
  .none) .none))))) (.node ⟨.track, 12, 4, 0, 0, 118, false⟩ (.node
  ⟨.follow, 16, 5, 6, 4, 0, false⟩ (.node ⟨.follow, 19, 10, 9, 4, 0, false⟩ (.node
  ⟨.run, 0, 14, 15, 15, 0, false⟩ (.node ⟨.follow, 58, 31, 32, 3, 0, false⟩ (.node
  ⟨.run, 0, 43, 36, 6, 0, false⟩ .none .none) (.node ⟨.follow, 91, 21, 47, 4, 0, false⟩ .none
  .none)) (.node ⟨.run, 0, 37, 38, 7, 0, false⟩ (.node ⟨.follow, 79, 45, 29, 4, 0, false⟩ .none
  .none) (.node ⟨.track, 5, 3, 1, 0, 4, false⟩ .none .none))) (.node
  ⟨.follow, 42, 22, 23, 4, 0, false⟩ (.node ⟨.follow, 61, 7, 34, 4, 0, false⟩ (.node
  ⟨.follow, 41, 23, 22, 5, 0, false⟩ .none .none) (.node ⟨.track, 16, 5, 0, 0, 127, false⟩ .none
  .none)) (.node ⟨.run, 0, 28, 40, 5, 0, false⟩ (.node ⟨.follow, 62, 34, 7, 2, 0, false⟩ .none
  .none) .none))) (.node ⟨.follow, 28, 14, 10, 4, 0, false⟩ (.node ⟨.run, 0, 13, 20, 20, 0, false⟩
  (.node ⟨.follow, 55, 6, 4, 5, 0, false⟩ (.node ⟨.track, 74, 18, 26, 0, 18, false⟩ .none .none)
  (.node ⟨.track, 33, 18, 49, 0, 18, false⟩ .none .none)) (.node ⟨.follow, 51, 9, 14, 5, 0, false⟩
  (.node ⟨.run, 0, 19, 47, 15, 0, false⟩ .none .none) .none)) (.node
  ⟨.follow, 48, 28, 2, 2, 0, false⟩ (.node ⟨.run, 0, 31, 35, 6, 0, false⟩ (.node
  ⟨.follow, 82, 22, 44, 4, 0, false⟩ .none .none) (.node ⟨.track, 15, 6, 0, 0, 125, false⟩ .none
  .none)) (.node ⟨.run, 0, 8, 42, 20, 0, false⟩ (.node ⟨.track, 86, 47, 6, 0, 18, false⟩ .none
  .none) .none)))) (.node ⟨.track, 18, 8, 0, 0, 127, false⟩ (.node
  ⟨.track, 22, 12, 13, 0, 18, false⟩ (.node ⟨.follow, 34, 17, 18, 4, 0, false⟩ (.node
  ⟨.follow, 60, 7, 21, 3, 0, false⟩ (.node ⟨.follow, 43, 26, 25, 5, 0, false⟩ .none .none) (.node
  ⟨.follow, 86, 47, 7, 2, 0, false⟩ .none .none)) (.node ⟨.follow, 67, 30, 39, 3, 0, false⟩ (.node
  ⟨.track, 36, 29, 46, 0, 18, false⟩ .none .none) (.node ⟨.track, 1, 2, 0, 0, 38, false⟩ .none
  .none))) (.node ⟨.follow, 44, 25, 26, 4, 0, false⟩ (.node ⟨.follow, 24, 12, 7, 3, 0, false⟩
  (.node ⟨.track, 78, 29, 23, 0, 18, false⟩ .none .none) (.node ⟨.track, 10, 49, 0, 0, 50, false⟩
  .none .none)) (.node ⟨.run, 0, 40, 41, 15, 0, false⟩ (.node ⟨.follow, 90, 19, 6, 4, 0, false⟩
  .none .none) .none))) (.node ⟨.track, 32, 15, 10, 0, 18, false⟩ (.node
  ⟨.follow, 30, 20, 21, 3, 0, false⟩ (.node ⟨.follow, 64, 12, 21, 3, 0, false⟩ (.node
  ⟨.follow, 46, 40, 3, 2, 0, false⟩ .none .none) (.node ⟨.follow, 29, 21, 20, 3, 0, false⟩ .none
  .none)) (.node ⟨.track, 46, 40, 2, 0, 4, false⟩ (.node ⟨.follow, 83, 20, 47, 4, 0, false⟩ .none
  .none) .none)) (.node ⟨.follow, 54, 29, 30, 2, 0, false⟩ (.node ⟨.follow, 66, 37, 2, 3, 0, false⟩
  (.node ⟨.follow, 81, 44, 22, 5, 0, false⟩ .none .none) (.node ⟨.track, 7, 36, 31, 0, 4, false⟩
  .none .none)) (.node ⟨.leave, 72, 12, 32, 0, 4, false⟩ (.node ⟨.track, 94, 47, 5, 0, 18, false⟩
  .none .none) .none)))))

/-- the bounds of the departures -/
def ko1n11Times : TimeTree :=
  .node 6 0 6 (.node 44 0 84 (.node 52 4 92 (.node 153 4 193 (.node 194 6 234 (.node 146 0 186
  .none .none) (.node 139 6 179 .none .none)) (.node 91 0 131 (.node 99 4 139 .none .none) .none))
  (.node 196 4 236 (.node 124 0 164 (.node 152 4 192 .none .none) .none) (.node 76 4 116 (.node 152
  0 192 .none .none) .none))) (.node 131 0 171 (.node 176 0 216 (.node 68 4 108 (.node 154 4 194
  .none .none) (.node 48 0 88 .none .none)) (.node 56 0 96 (.node 71 6 111 .none .none) .none))
  (.node 124 0 164 (.node 150 4 190 (.node 55 0 95 .none .none) .none) (.node 105 6 145 (.node 118
  4 158 .none .none) .none)))) (.node 46 0 86 (.node 143 0 183 (.node 150 0 190 (.node 193 4 233
  (.node 147 0 187 .none .none) (.node 125 4 165 .none .none)) (.node 111 4 151 (.node 56 0 96
  .none .none) .none)) (.node 151 4 191 (.node 144 4 184 (.node 158 4 198 .none .none) .none)
  (.node 51 0 91 (.node 98 0 138 .none .none) .none))) (.node 133 0 173 (.node 173 0 213 (.node 71
  6 111 (.node 158 6 198 .none .none) .none) (.node 56 0 96 (.node 170 4 210 .none .none) .none))
  (.node 179 0 219 (.node 90 0 130 (.node 62 4 102 .none .none) .none) (.node 97 4 137 (.node 105 0
  145 .none .none) .none))))

/-- some of the cases -/
def ko1n11Case0 : SumTree :=
  .cases [83] 41 (.cases [86] 39 (.leaf [80]) (.cases [] 20 (.cases [72, 73] 42 (.leaf [93])
  (.cases [] 21 (.cases [66, 67] 45 (.leaf [96]) (.cases [] 46 (.leaf [95]) (.cases [] 40 (.cycle
  44 [78, 73, 79]) (.cases [76, 77] 43 (.cycle 5 [89, 84, 94]) (.cases [87, 23, 4, 5] 35 (.cases []
  28 (.leaf [43, 44]) (.leaf [32, 65, 42])) (.leaf [62, 33])))))) (.cases [26, 27] 45 (.leaf
  [96, 98]) (.cases [] 46 (.leaf [95, 97]) (.cases [] 40 (.cycle 44 [78, 73, 79]) (.cases [76, 77]
  43 (.cycle 5 [89, 84, 94]) (.cases [87, 23, 4, 5] 23 (.cases [] 28 (.leaf [43, 44]) (.cases
  [32, 33] 22 (.leaf [57, 58]) (.cycle 40 [54, 55, 56]))) (.leaf [28, 1])))))))) (.cases [24, 25]
  21 (.cases [66, 67] 42 (.leaf [93]) (.cases [] 36 (.cases [69] 45 (.leaf [96]) (.cases [] 46
  (.leaf [95]) (.cases [] 43 (.cycle 5 [89, 84, 94]) (.cases [87, 23, 4, 5] 23 (.cases [] 28 (.leaf
  [43, 44]) (.cases [32, 33] 22 (.leaf [57, 58]) (.cycle 40 [54, 55, 56]))) (.leaf [28, 1])))))
  (.cycle 26 [66, 67, 68]))) (.cases [26, 27] 42 (.leaf [93]) (.cases [] 43 (.cases [89, 84] 27
  (.cases [] 44 (.cycle 6 [91, 84, 92]) (.cases [90, 5, 36, 37] 23 (.cases [] 28 (.leaf [43, 44])
  (.cases [] 22 (.leaf [57, 58]) (.cycle 40 [54, 55, 56]))) (.leaf [28, 1]))) (.leaf [31, 5]))
  (.cases [87, 23, 4, 5] 25 (.cases [] 22 (.cases [57, 58] 27 (.cases [] 30 (.cases [40] 24 (.leaf
  [53]) (.cycle 15 [51, 52, 16])) (.cycle 34 [35, 36, 37])) (.leaf [31, 5, 59, 60])) (.cases [] 23
  (.cycle 40 [54, 55, 56]) (.cases [28, 1] 28 (.leaf [43, 44, 45]) (.cases [32, 33] 30 (.leaf [40])
  (.leaf [88]))))) (.cases [29, 9] 23 (.cases [] 22 (.cases [57, 58] 30 (.leaf [40]) (.leaf [88]))
  (.cycle 40 [54, 55, 56])) (.leaf [28, 1])))))))) (.cycle 13 [83, 84, 85])

/-- some of the cases -/
def ko1n11Case1 : SumTree :=
  .cases [72] 38 (.cases [75] 21 (.cases [66, 67] 39 (.leaf [80]) (.cases [] 40 (.cycle 44
  [78, 73, 79]) (.cases [76, 77] 23 (.cases [] 22 (.cases [] 36 (.leaf [69]) (.cycle 26
  [66, 67, 68])) (.cycle 40 [54, 55, 56])) (.leaf [28, 1])))) (.cases [26, 27] 39 (.leaf [80])
  (.cases [] 27 (.cases [] 40 (.cycle 44 [78, 73, 79]) (.cases [76, 77] 29 (.cases [] 22 (.cases
  [57, 58] 30 (.cases [] 31 (.leaf [41, 42, 40]) (.leaf [38, 39])) (.cycle 34 [35, 36, 37]))
  (.cases [] 23 (.cycle 40 [54, 55, 56]) (.cases [28, 1] 28 (.leaf [43, 44]) (.leaf [32, 33]))))
  (.leaf [34]))) (.leaf [31, 5])))) (.cycle 23 [72, 73, 74])

/-- some of the cases -/
def ko1n11Case2 : SumTree :=
  .cases [] 36 (.cases [69] 22 (.cases [57, 58] 27 (.cases [] 25 (.cases [] 28 (.cases [43, 44, 45]
  24 (.leaf [53]) (.cycle 15 [51, 52, 16])) (.cases [32, 33] 30 (.cases [40] 24 (.leaf [53])
  (.cycle 15 [51, 52, 16])) (.cycle 34 [35, 36, 37]))) (.cases [29, 9] 29 (.cases [] 30 (.cases []
  31 (.leaf [41, 42, 40]) (.leaf [38, 39])) (.cycle 34 [35, 36, 37])) (.leaf [34]))) (.leaf
  [31, 5])) (.cases [70] 37 (.cases [] 27 (.cases [] 28 (.cases [43, 44, 45] 23 (.cycle 40
  [54, 55, 56]) (.cases [28, 1] 30 (.leaf [40]) (.cycle 34 [35, 36, 37]))) (.cases [32, 33] 29
  (.cases [] 30 (.cases [] 23 (.cycle 40 [54, 55, 56]) (.cases [28, 1] 31 (.leaf [41, 42, 40])
  (.leaf [38, 39]))) (.cycle 34 [35, 36, 37])) (.leaf [34]))) (.leaf [31, 5])) (.leaf [71])))
  (.cycle 26 [66, 67, 68])

/-- some of the cases -/
def ko1n11Case3 : SumTree :=
  .cases [26, 27] 22 (.cases [57, 58] 24 (.cases [53] 31 (.cases [41, 42] 27 (.cases [] 30 (.cases
  [40] 34 (.cases [] 33 (.cases [50] 28 (.leaf [43, 44]) (.cases [32, 33] 35 (.leaf [65, 42, 40])
  (.leaf [62, 33, 63, 64]))) (.leaf [49])) (.leaf [61, 33])) (.cycle 34 [35, 36, 37])) (.leaf
  [31, 5])) (.cases [38] 27 (.cases [] 28 (.cases [43, 44, 45] 29 (.cases [39] 30 (.leaf [40])
  (.cycle 34 [35, 36, 37])) (.leaf [34])) (.cases [32, 33] 29 (.cases [39] 30 (.leaf [40]) (.cycle
  34 [35, 36, 37])) (.cases [34] 30 (.leaf [40]) (.cycle 34 [35, 36, 37])))) (.leaf [31, 5])))
  (.cases [] 25 (.cycle 15 [51, 52, 16]) (.cases [29, 9] 31 (.cases [41, 42] 27 (.cases [] 30
  (.cases [40] 34 (.cases [] 33 (.cases [50] 28 (.leaf [43, 44]) (.cases [32, 33] 35 (.leaf
  [65, 42, 40]) (.leaf [62, 33, 63, 64]))) (.leaf [49])) (.leaf [61, 33])) (.cycle 34
  [35, 36, 37])) (.leaf [31, 5])) (.cases [38] 27 (.cases [] 28 (.cases [43, 44, 45] 29 (.cases
  [39] 30 (.leaf [40]) (.cycle 34 [35, 36, 37])) (.leaf [34])) (.cases [32, 33] 29 (.cases [39] 30
  (.leaf [40]) (.cycle 34 [35, 36, 37])) (.cases [34] 30 (.leaf [40]) (.cycle 34 [35, 36, 37]))))
  (.leaf [31, 5, 59, 60]))))) (.cases [] 23 (.cycle 40 [54, 55, 56]) (.cases [28, 1] 24 (.cases
  [53] 26 (.cases [] 27 (.cases [] 28 (.cases [43, 44, 45] 32 (.cases [47, 48] 33 (.cases [50] 30
  (.leaf [40]) (.cycle 34 [35, 36, 37])) (.leaf [49])) (.leaf [46, 1])) (.cases [32, 33] 29 (.cases
  [] 30 (.cases [] 31 (.leaf [41, 42, 40]) (.leaf [38, 39, 40])) (.cycle 34 [35, 36, 37])) (.leaf
  [34]))) (.leaf [31, 5])) (.leaf [30])) (.cases [] 25 (.cycle 15 [51, 52, 16]) (.cases [29, 9] 26
  (.cases [] 27 (.cases [] 28 (.cases [43, 44, 45] 32 (.cases [47, 48] 33 (.cases [50] 30 (.leaf
  [40]) (.cycle 34 [35, 36, 37])) (.leaf [49])) (.leaf [46, 1])) (.cases [32, 33] 29 (.cases [] 30
  (.cases [] 31 (.leaf [41, 42, 40]) (.leaf [38, 39, 40])) (.cycle 34 [35, 36, 37])) (.leaf [34])))
  (.leaf [31, 5])) (.leaf [30])))))

/-- all cases -/
def ko1n11Cases : SumTree :=
  .cases [] 0 (.leaf [114]) (.cases [0, 1] 1 (.leaf [113]) (.cases [] 2 (.cycle 1 [0, 1, 112])
  (.cases [] 3 (.leaf [110, 111]) (.cases [] 4 (.leaf [109]) (.cases [] 5 (.cases [] 6 (.cases [] 7
  (.leaf [108]) (.cases [4, 5] 8 (.cases [] 9 (.cases [8, 9] 10 (.cases [] 11 (.cycle 5
  [4, 5, 107]) (.cases [] 12 (.leaf [105, 106]) (.cases [] 13 (.cases [] 14 (.leaf [102, 103, 104])
  (.cases [] 15 (.cases [17] 16 (.cycle 18 [100, 101, 67]) (.cases [18] 17 (.leaf [99]) (.cases []
  18 ko1n11Case0 (.cases [19, 20, 21, 22, 23, 4, 5] 19 (.cycle 46 [81, 73, 82]) (.cases [] 20
  ko1n11Case1 (.cases [24, 25] 21 ko1n11Case2 ko1n11Case3)))))) (.cycle 15 [14, 15, 16]))) (.leaf
  [12, 13])))) (.leaf [10, 11])) (.leaf [7])) (.leaf [6]))) (.leaf [3])) (.leaf [2]))))))

theorem ko1n11_cases : ko1n11Cases.check ko1n11Arcs 182 ko1n11Choices.length [] ko1n11Times 0 = true := by
  decide +kernel

theorem ko1n11_choices : ko1n11Choices.all (CodedNet.Choice.ok netKo netKoSpecial ko1n11Plan) = true := by
  decide +kernel

theorem ko1n11_arcs : ko1n11Arcs.toList.all
    (netKo.arcOK netKoSpecial ko1n11Plan ko1n11Nodes ko1n11Choices) = true := by decide +kernel

theorem ko1n11_times : netKo.startOK ko1n11Plan ko1n11Nodes 6 40 ko1n11Times = true := by decide +kernel

end Verif.Real
