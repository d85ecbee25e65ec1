import Verif.Proofs.PlanSum
import Verif.Proofs.PlanAgain
import Verif.Real.PlanKo1

/-!
# The sheet of `Verif.Real.Ko1` with given delays: a plan, and that no plan is better

Generated; see `CodedNet.Item` and `Verif/Proofs/SumTree.lean`. Case 1,
`disturbances[6]`, of `/repo/solve_KO_GLC_problems.py`, line 110;
`d_max` is 40. The sum of the delays that count is 228/4.
-/

namespace Verif.Real

set_option maxRecDepth 100000

/-- the given delays -/
def ko1n6Delays : List (Int × ℚ) := [
  (3, 7), (4, 2), (5, 1), (23, 6), (1, 6), (6407, 2), (101, 4), (4602, 7)]

/-- the plan, items by sections -/
def ko1n6Plan : CodedNet.Plan := [
  (train_ko1_2, [
   ⟨0, 2, 0, (some 14), true, false, 0, 0, 0,
    none,
    (some ⟨1, [83, 101, 84, 121], [9, 19, 8, 8], 4, [5, 8]⟩), [], [61, 64, 69, 71, 87, 92], [0]⟩,
   ⟨0, 2, 1, (some 1), true, false, 6, 6, 60,
    (some ⟨0, 4, 0, [83, 101, 84, 121]⟩),
    (some ⟨2, [77, 144, 119, 40, 86, 142, 87, 126, 30, 90, 91, 92, 93, 127], [15, 14, 8, 14, 13, 13, 7, 9, 15, 13, 9, 5, 7, 20], 16, [31, 33, 41]⟩), [5, 8], [16, 2], [4]⟩,
   ⟨0, 2, 2, (some 35), false, true, 22, 22, 220,
    (some ⟨1, 22, 60, [77, 144, 119, 40, 86, 142, 87, 126, 30, 90, 91, 92, 93, 127]⟩),
    none, [31, 33, 41], [], [22]⟩]),
  (train_ko1_4602, [
   ⟨1, 4602, 0, (some 10), true, false, 14, 14, 140,
    none,
    (some ⟨1, [83, 101, 84, 121], [9, 12, 6, 7], 3, [5, 8]⟩), [], [66, 68, 71, 87, 92], [14]⟩,
   ⟨1, 4602, 1, (some 1), true, false, 19, 19, 190,
    (some ⟨0, 17, 140, [83, 101, 84, 121]⟩),
    (some ⟨2, [77, 144, 119, 40, 86, 142, 87, 126, 30, 90, 91, 92, 93, 127], [11, 9, 8, 7, 13, 7, 7, 9, 15, 13, 9, 5, 7, 20], 14, [31, 34, 43]⟩), [5, 8], [16, 2], [17]⟩,
   ⟨1, 4602, 2, (some 38), true, false, 34, 34, 340,
    (some ⟨1, 33, 190, [77, 144, 119, 40, 86, 142, 87, 126, 30, 90, 91, 92, 93, 127]⟩),
    none, [31, 34, 43], [], [33]⟩]),
  (train_ko1_4, [
   ⟨2, 4, 0, (some 14), true, false, 12, 16, 160,
    none,
    (some ⟨1, [83, 101, 84, 121], [9, 19, 8, 8], 4, [5, 8]⟩), [], [61, 64, 69, 71, 87, 92], [12]⟩,
   ⟨2, 4, 1, (some 1), true, false, 18, 22, 220,
    (some ⟨0, 20, 160, [83, 101, 84, 121]⟩),
    (some ⟨2, [77, 144, 119, 40, 86, 142, 87, 126, 30, 90, 91, 92, 93, 127], [15, 14, 8, 14, 13, 13, 7, 9, 15, 13, 9, 5, 7, 20], 16, [31, 33, 41]⟩), [5, 8], [16, 2], [20]⟩,
   ⟨2, 4, 2, (some 35), false, true, 34, 38, 380,
    (some ⟨1, 38, 220, [77, 144, 119, 40, 86, 142, 87, 126, 30, 90, 91, 92, 93, 127]⟩),
    none, [31, 33, 41], [], [38]⟩]),
  (train_ko1_102, [
   ⟨3, 102, 0, (some 16), true, false, 45, 45, 450,
    none,
    (some ⟨1, [83, 101, 84, 121], [9, 19, 8, 10], 5, [5, 8, 9]⟩), [], [62, 64, 69, 71, 87, 92], [45]⟩,
   ⟨3, 102, 1, (some 3), true, false, 53, 53, 530,
    (some ⟨0, 50, 450, [83, 101, 84, 121]⟩),
    none, [5, 8, 9], [], [50]⟩]),
  (train_ko1_6, [
   ⟨4, 6, 0, (some 14), true, false, 20, 20, 200,
    none,
    (some ⟨1, [83, 101, 84, 121], [9, 19, 8, 8], 4, [5, 8]⟩), [], [61, 64, 69, 71, 87, 92], [20]⟩,
   ⟨4, 6, 1, (some 1), true, false, 26, 26, 260,
    (some ⟨0, 24, 200, [83, 101, 84, 121]⟩),
    (some ⟨2, [77, 144, 119, 40, 86, 142, 87, 126, 30, 90, 91, 92, 93, 127], [15, 14, 8, 14, 13, 13, 7, 9, 15, 13, 9, 5, 7, 20], 16, [31, 33, 41]⟩), [5, 8], [16, 2], [24]⟩,
   ⟨4, 6, 2, (some 35), false, true, 42, 42, 420,
    (some ⟨1, 42, 260, [77, 144, 119, 40, 86, 142, 87, 126, 30, 90, 91, 92, 93, 127]⟩),
    none, [31, 33, 41], [], [42]⟩]),
  (train_ko1_8, [
   ⟨5, 8, 0, (some 14), true, false, 30, 30, 300,
    none,
    (some ⟨1, [83, 101, 84, 121], [9, 19, 8, 8], 4, [5, 8]⟩), [], [61, 64, 69, 71, 87, 92], [30]⟩,
   ⟨5, 8, 1, (some 1), true, false, 36, 36, 360,
    (some ⟨0, 34, 300, [83, 101, 84, 121]⟩),
    (some ⟨2, [77, 144, 119, 40, 86, 142, 87, 126, 30, 90, 91, 92, 93, 127], [15, 14, 8, 14, 13, 13, 7, 9, 15, 13, 9, 5, 7, 20], 16, [31, 33, 41]⟩), [5, 8], [16, 2], [34]⟩,
   ⟨5, 8, 2, (some 35), false, true, 52, 52, 520,
    (some ⟨1, 52, 360, [77, 144, 119, 40, 86, 142, 87, 126, 30, 90, 91, 92, 93, 127]⟩),
    none, [31, 33, 41], [], [52]⟩]),
  (train_ko1_4604, [
   ⟨6, 4604, 0, (some 10), true, false, 39, 39, 390,
    none,
    (some ⟨1, [83, 101, 84, 121], [9, 12, 6, 7], 3, [5, 8]⟩), [], [66, 68, 71, 87, 92], [39]⟩,
   ⟨6, 4604, 1, (some 1), true, false, 44, 44, 440,
    (some ⟨0, 42, 390, [83, 101, 84, 121]⟩),
    (some ⟨2, [77, 144, 119, 40, 86, 142, 87, 126, 30, 90, 91, 92, 93, 127], [11, 9, 8, 7, 13, 7, 7, 9, 15, 13, 9, 5, 7, 20], 14, [31, 34, 43]⟩), [5, 8], [16, 2], [42]⟩,
   ⟨6, 4604, 2, (some 38), true, false, 62, 62, 620,
    (some ⟨1, 58, 440, [77, 144, 119, 40, 86, 142, 87, 126, 30, 90, 91, 92, 93, 127]⟩),
    none, [31, 34, 43], [], [58]⟩]),
  (train_ko1_10, [
   ⟨7, 10, 0, (some 14), true, false, 40, 41, 410,
    none,
    (some ⟨1, [83, 101, 84, 121], [9, 19, 8, 8], 4, [5, 8]⟩), [], [61, 64, 69, 71, 87, 92], [40]⟩,
   ⟨7, 10, 1, (some 1), true, false, 46, 47, 470,
    (some ⟨0, 45, 410, [83, 101, 84, 121]⟩),
    (some ⟨2, [77, 144, 119, 40, 86, 142, 87, 126, 30, 90, 91, 92, 93, 127], [15, 14, 8, 14, 13, 13, 7, 9, 15, 13, 9, 5, 7, 20], 16, [31, 33, 41]⟩), [5, 8], [16, 2], [45]⟩,
   ⟨7, 10, 2, (some 35), false, true, 62, 63, 630,
    (some ⟨1, 63, 470, [77, 144, 119, 40, 86, 142, 87, 126, 30, 90, 91, 92, 93, 127]⟩),
    none, [31, 33, 41], [], [63]⟩]),
  (train_ko1_12, [
   ⟨8, 12, 0, (some 14), true, false, 50, 50, 500,
    none,
    (some ⟨1, [83, 101, 84, 121], [9, 19, 8, 8], 4, [5, 8]⟩), [], [61, 64, 69, 71, 87, 92], [50]⟩,
   ⟨8, 12, 1, (some 1), true, false, 56, 56, 560,
    (some ⟨0, 54, 500, [83, 101, 84, 121]⟩),
    (some ⟨2, [77, 144, 119, 40, 86, 142, 87, 126, 30, 90, 91, 92, 93, 127], [15, 14, 8, 14, 13, 13, 7, 9, 15, 13, 9, 5, 7, 20], 16, [31, 33, 41]⟩), [5, 8], [16, 2], [54]⟩,
   ⟨8, 12, 2, (some 35), false, true, 72, 72, 720,
    (some ⟨1, 72, 560, [77, 144, 119, 40, 86, 142, 87, 126, 30, 90, 91, 92, 93, 127]⟩),
    none, [31, 33, 41], [], [72]⟩]),
  (train_ko1_1, [
   ⟨9, 1, 2, (some 34), true, false, -1, -1, -10,
    none,
    (some ⟨1, [78, 79, 80, 81, 120, 31, 94, 95, 143, 128, 41, 85, 145, 125], [18, 7, 6, 8, 12, 20, 23, 5, 19, 11, 16, 11, 17, 9], 18, [17, 19]⟩), [], [30, 22], [-1]⟩,
   ⟨9, 1, 1, (some 2), true, false, 19, 19, 190,
    (some ⟨2, 17, -10, [78, 79, 80, 81, 120, 31, 94, 95, 143, 128, 41, 85, 145, 125]⟩),
    (some ⟨0, [76, 130, 133, 122], [8, 12, 22, 10], 5, [82, 84, 86, 89, 91]⟩), [17, 19], [9, 7, 6], [17]⟩,
   ⟨9, 1, 0, (some 15), false, true, 24, 24, 240,
    (some ⟨1, 24, 190, [76, 130, 133, 122]⟩),
    none, [82, 84, 86, 89, 91], [], [24]⟩]),
  (train_ko1_101, [
   ⟨10, 101, 1, (some 4), true, false, 31, 33, 330,
    none,
    (some ⟨0, [76, 130, 133, 122], [8, 12, 22, 10], 5, [82, 84, 86, 89, 91]⟩), [], [7, 6], [31]⟩,
   ⟨10, 101, 0, (some 39), false, true, 36, 38, 380,
    (some ⟨1, 38, 330, [76, 130, 133, 122]⟩),
    none, [82, 84, 86, 89, 91], [], [38]⟩]),
  (train_ko1_3, [
   ⟨11, 3, 2, (some 34), true, false, 10, 10, 100,
    none,
    (some ⟨1, [78, 79, 80, 81, 120, 31, 94, 95, 143, 128, 41, 85, 145, 125], [18, 7, 6, 8, 12, 20, 23, 5, 19, 11, 16, 11, 17, 9], 18, [17, 19]⟩), [], [30, 22], [10]⟩,
   ⟨11, 3, 1, (some 2), true, false, 30, 30, 300,
    (some ⟨2, 28, 100, [78, 79, 80, 81, 120, 31, 94, 95, 143, 128, 41, 85, 145, 125]⟩),
    (some ⟨0, [76, 130, 133, 122], [8, 12, 22, 10], 5, [82, 84, 86, 89, 91]⟩), [17, 19], [9, 7, 6], [28]⟩,
   ⟨11, 3, 0, (some 15), false, true, 35, 35, 350,
    (some ⟨1, 35, 300, [76, 130, 133, 122]⟩),
    none, [82, 84, 86, 89, 91], [], [35]⟩]),
  (train_ko1_6401, [
   ⟨12, 6401, 2, (some 33), true, false, 20, 25, 250,
    none,
    (some ⟨1, [78, 79, 80, 81, 120, 31, 94, 95, 143, 128, 41, 85, 145, 125], [18, 7, 6, 8, 12, 20, 23, 5, 9, 11, 6, 11, 7, 9], 15, [17, 19]⟩), [], [36, 30, 22], [20]⟩,
   ⟨12, 6401, 1, (some 2), true, false, 35, 44, 440,
    (some ⟨2, 40, 250, [78, 79, 80, 81, 120, 31, 94, 95, 143, 128, 41, 85, 145, 125]⟩),
    (some ⟨0, [76, 130, 133, 122], [6, 10, 12, 10], 4, [81, 85, 88, 91]⟩), [17, 19], [9, 7, 6], [40]⟩,
   ⟨12, 6401, 0, (some 13), false, true, 39, 48, 480,
    (some ⟨1, 48, 440, [76, 130, 133, 122]⟩),
    none, [81, 85, 88, 91], [], [48]⟩]),
  (train_ko1_5, [
   ⟨13, 5, 2, (some 34), true, false, 19, 19, 190,
    none,
    (some ⟨1, [78, 79, 80, 81, 120, 31, 94, 95, 143, 128, 41, 85, 145, 125], [18, 7, 6, 8, 12, 20, 23, 5, 19, 11, 16, 11, 17, 9], 18, [17, 19]⟩), [], [30, 22], [19]⟩,
   ⟨13, 5, 1, (some 2), true, false, 40, 40, 400,
    (some ⟨2, 37, 190, [78, 79, 80, 81, 120, 31, 94, 95, 143, 128, 41, 85, 145, 125]⟩),
    (some ⟨0, [76, 130, 133, 122], [8, 12, 22, 10], 5, [82, 84, 86, 89, 91]⟩), [17, 19], [9, 7, 6], [37]⟩,
   ⟨13, 5, 0, (some 15), false, true, 45, 45, 450,
    (some ⟨1, 45, 400, [76, 130, 133, 122]⟩),
    none, [82, 84, 86, 89, 91], [], [45]⟩]),
  (train_ko1_7, [
   ⟨14, 7, 2, (some 34), true, false, 23, 29, 290,
    none,
    (some ⟨1, [78, 79, 80, 81, 120, 31, 94, 95, 143, 128, 41, 85, 145, 125], [18, 7, 6, 8, 12, 20, 23, 5, 19, 11, 16, 11, 17, 9], 18, [17, 19]⟩), [], [30, 22], [23]⟩,
   ⟨14, 7, 1, (some 2), true, false, 45, 49, 490,
    (some ⟨2, 47, 290, [78, 79, 80, 81, 120, 31, 94, 95, 143, 128, 41, 85, 145, 125]⟩),
    (some ⟨0, [76, 130, 133, 122], [8, 12, 22, 10], 5, [82, 84, 86, 89, 91]⟩), [17, 19], [9, 7, 6], [47]⟩,
   ⟨14, 7, 0, (some 15), false, true, 50, 54, 540,
    (some ⟨1, 54, 490, [76, 130, 133, 122]⟩),
    none, [82, 84, 86, 89, 91], [], [54]⟩]),
  (train_ko1_103, [
   ⟨15, 103, 1, (some 4), true, false, 58, 58, 580,
    none,
    (some ⟨0, [76, 130, 133, 122], [8, 12, 22, 10], 5, [82, 84, 86, 89, 91]⟩), [], [7, 6], [58]⟩,
   ⟨15, 103, 0, (some 39), false, true, 63, 63, 630,
    (some ⟨1, 63, 580, [76, 130, 133, 122]⟩),
    none, [82, 84, 86, 89, 91], [], [63]⟩]),
  (train_ko1_9, [
   ⟨16, 9, 2, (some 34), true, false, 33, 33, 330,
    none,
    (some ⟨1, [78, 79, 80, 81, 120, 31, 94, 95, 143, 128, 41, 85, 145, 125], [18, 7, 6, 8, 12, 20, 23, 5, 19, 11, 16, 11, 17, 9], 18, [17, 19]⟩), [], [30, 22], [33]⟩,
   ⟨16, 9, 1, (some 2), true, false, 55, 55, 550,
    (some ⟨2, 51, 330, [78, 79, 80, 81, 120, 31, 94, 95, 143, 128, 41, 85, 145, 125]⟩),
    (some ⟨0, [76, 130, 133, 122], [8, 12, 22, 10], 5, [82, 84, 86, 89, 91]⟩), [17, 19], [9, 7, 6], [51]⟩,
   ⟨16, 9, 0, (some 15), false, true, 60, 60, 600,
    (some ⟨1, 60, 550, [76, 130, 133, 122]⟩),
    none, [82, 84, 86, 89, 91], [], [60]⟩]),
  (train_ko1_6403, [
   ⟨17, 6403, 2, (some 33), true, false, 51, 51, 510,
    none,
    (some ⟨1, [78, 79, 80, 81, 120, 31, 94, 95, 143, 128, 41, 85, 145, 125], [18, 7, 6, 8, 12, 20, 23, 5, 9, 11, 6, 11, 7, 9], 15, [17, 19]⟩), [], [36, 30, 22], [51]⟩,
   ⟨17, 6403, 1, (some 2), true, false, 66, 66, 660,
    (some ⟨2, 66, 510, [78, 79, 80, 81, 120, 31, 94, 95, 143, 128, 41, 85, 145, 125]⟩),
    (some ⟨0, [76, 130, 133, 122], [6, 10, 12, 10], 4, [81, 85, 88, 91]⟩), [17, 19], [9, 7, 6], [66]⟩,
   ⟨17, 6403, 0, (some 13), false, true, 70, 70, 700,
    (some ⟨1, 70, 660, [76, 130, 133, 122]⟩),
    none, [81, 85, 88, 91], [], [70]⟩]),
  (train_ko1_11, [
   ⟨18, 11, 2, (some 34), true, false, 54, 55, 550,
    none,
    (some ⟨1, [78, 79, 80, 81, 120, 31, 94, 95, 143, 128, 41, 85, 145, 125], [18, 7, 6, 8, 12, 20, 23, 5, 19, 11, 16, 11, 17, 9], 18, [17, 19]⟩), [], [30, 22], [54]⟩,
   ⟨18, 11, 1, (some 2), true, false, 74, 75, 750,
    (some ⟨2, 73, 550, [78, 79, 80, 81, 120, 31, 94, 95, 143, 128, 41, 85, 145, 125]⟩),
    (some ⟨0, [76, 130, 133, 122], [8, 12, 22, 10], 5, [82, 84, 86, 89, 91]⟩), [17, 19], [9, 7, 6], [73]⟩,
   ⟨18, 11, 0, (some 15), false, true, 79, 80, 800,
    (some ⟨1, 80, 750, [76, 130, 133, 122]⟩),
    none, [82, 84, 86, 89, 91], [], [80]⟩]),
  (train_ko1_14, [
   ⟨19, 14, 0, (some 14), true, false, 62, 62, 620,
    none,
    (some ⟨1, [83, 101, 84, 121], [9, 19, 8, 8], 4, [5, 8]⟩), [], [61, 64, 69, 71, 87, 92], [62]⟩,
   ⟨19, 14, 1, (some 1), true, false, 68, 68, 680,
    (some ⟨0, 66, 620, [83, 101, 84, 121]⟩),
    (some ⟨2, [77, 144, 119, 40, 86, 142, 87, 126, 30, 90, 91, 92, 93, 127], [15, 14, 8, 14, 13, 13, 7, 9, 15, 13, 9, 5, 7, 20], 16, [31, 33, 41]⟩), [5, 8], [16, 2], [66]⟩,
   ⟨19, 14, 2, (some 35), false, true, 84, 84, 840,
    (some ⟨1, 84, 680, [77, 144, 119, 40, 86, 142, 87, 126, 30, 90, 91, 92, 93, 127]⟩),
    none, [31, 33, 41], [], [84]⟩]),
  (train_ko1_4606, [
   ⟨20, 4606, 0, (some 10), true, false, 67, 67, 670,
    none,
    (some ⟨1, [83, 101, 84, 121], [9, 12, 6, 7], 3, [5, 8]⟩), [], [66, 68, 71, 87, 92], [67]⟩,
   ⟨20, 4606, 1, (some 1), true, false, 73, 73, 730,
    (some ⟨0, 70, 670, [83, 101, 84, 121]⟩),
    (some ⟨2, [77, 144, 119, 40, 86, 142, 87, 126, 30, 90, 91, 92, 93, 127], [11, 9, 8, 7, 13, 7, 7, 9, 15, 13, 9, 5, 7, 20], 14, [31, 34, 43]⟩), [5, 8], [16, 2], [70]⟩,
   ⟨20, 4606, 2, (some 38), true, false, 92, 92, 920,
    (some ⟨1, 87, 730, [77, 144, 119, 40, 86, 142, 87, 126, 30, 90, 91, 92, 93, 127]⟩),
    none, [31, 34, 43], [], [87]⟩]),
  (train_ko1_16, [
   ⟨21, 16, 0, (some 14), true, false, 70, 70, 700,
    none,
    (some ⟨1, [83, 101, 84, 121], [9, 19, 8, 8], 4, [5, 8]⟩), [], [61, 64, 69, 71, 87, 92], [70]⟩,
   ⟨21, 16, 1, (some 1), true, false, 76, 76, 760,
    (some ⟨0, 74, 700, [83, 101, 84, 121]⟩),
    (some ⟨2, [77, 144, 119, 40, 86, 142, 87, 126, 30, 90, 91, 92, 93, 127], [15, 14, 8, 14, 13, 13, 7, 9, 15, 13, 9, 5, 7, 20], 16, [31, 33, 41]⟩), [5, 8], [16, 2], [74]⟩,
   ⟨21, 16, 2, (some 35), false, true, 92, 92, 920,
    (some ⟨1, 92, 760, [77, 144, 119, 40, 86, 142, 87, 126, 30, 90, 91, 92, 93, 127]⟩),
    none, [31, 33, 41], [], [92]⟩]),
  (train_ko1_106, [
   ⟨22, 106, 0, (some 16), true, false, 75, 76, 760,
    none,
    (some ⟨1, [83, 101, 84, 121], [9, 19, 8, 10], 5, [5, 8, 9]⟩), [], [62, 64, 69, 71, 87, 92], [75]⟩,
   ⟨22, 106, 1, (some 3), true, false, 83, 83, 830,
    (some ⟨0, 81, 760, [83, 101, 84, 121]⟩),
    none, [5, 8, 9], [], [81]⟩]),
  (train_ko1_18, [
   ⟨23, 18, 0, (some 14), true, false, 80, 80, 800,
    none,
    (some ⟨1, [83, 101, 84, 121], [9, 19, 8, 8], 4, [5, 8]⟩), [], [61, 64, 69, 71, 87, 92], [80]⟩,
   ⟨23, 18, 1, (some 1), true, false, 86, 86, 860,
    (some ⟨0, 84, 800, [83, 101, 84, 121]⟩),
    (some ⟨2, [77, 144, 119, 40, 86, 142, 87, 126, 30, 90, 91, 92, 93, 127], [15, 14, 8, 14, 13, 13, 7, 9, 15, 13, 9, 5, 7, 20], 16, [31, 33, 41]⟩), [5, 8], [16, 2], [84]⟩,
   ⟨23, 18, 2, (some 35), false, true, 102, 102, 1020,
    (some ⟨1, 102, 860, [77, 144, 119, 40, 86, 142, 87, 126, 30, 90, 91, 92, 93, 127]⟩),
    none, [31, 33, 41], [], [102]⟩]),
  (train_ko1_20, [
   ⟨24, 20, 0, (some 14), true, false, 90, 90, 900,
    none,
    (some ⟨1, [83, 101, 84, 121], [9, 19, 8, 8], 4, [5, 8]⟩), [], [61, 64, 69, 71, 87, 92], [90]⟩,
   ⟨24, 20, 1, (some 1), true, false, 96, 96, 960,
    (some ⟨0, 94, 900, [83, 101, 84, 121]⟩),
    (some ⟨2, [77, 144, 119, 40, 86, 142, 87, 126, 30, 90, 91, 92, 93, 127], [15, 14, 8, 14, 13, 13, 7, 9, 15, 13, 9, 5, 7, 20], 16, [31, 33, 41]⟩), [5, 8], [16, 2], [94]⟩,
   ⟨24, 20, 2, (some 35), false, true, 112, 112, 1120,
    (some ⟨1, 112, 960, [77, 144, 119, 40, 86, 142, 87, 126, 30, 90, 91, 92, 93, 127]⟩),
    none, [31, 33, 41], [], [112]⟩]),
  (train_ko1_4608, [
   ⟨25, 4608, 0, (some 10), true, false, 97, 97, 970,
    none,
    (some ⟨1, [83, 101, 84, 121], [9, 12, 6, 7], 3, [5, 8]⟩), [], [66, 68, 71, 87, 92], [97]⟩,
   ⟨25, 4608, 1, (some 1), true, false, 103, 103, 1030,
    (some ⟨0, 100, 970, [83, 101, 84, 121]⟩),
    (some ⟨2, [77, 144, 119, 40, 86, 142, 87, 126, 30, 90, 91, 92, 93, 127], [11, 9, 8, 7, 13, 7, 7, 9, 15, 13, 9, 5, 7, 20], 14, [31, 34, 43]⟩), [5, 8], [16, 2], [100]⟩,
   ⟨25, 4608, 2, (some 38), true, false, 122, 122, 1220,
    (some ⟨1, 117, 1030, [77, 144, 119, 40, 86, 142, 87, 126, 30, 90, 91, 92, 93, 127]⟩),
    none, [31, 34, 43], [], [117]⟩]),
  (train_ko1_22, [
   ⟨26, 22, 0, (some 14), true, false, 100, 100, 1000,
    none,
    (some ⟨1, [83, 101, 84, 121], [9, 19, 8, 8], 4, [5, 8]⟩), [], [61, 64, 69, 71, 87, 92], [100]⟩,
   ⟨26, 22, 1, (some 1), true, false, 106, 106, 1060,
    (some ⟨0, 104, 1000, [83, 101, 84, 121]⟩),
    (some ⟨2, [77, 144, 119, 40, 86, 142, 87, 126, 30, 90, 91, 92, 93, 127], [15, 14, 8, 14, 13, 13, 7, 9, 15, 13, 9, 5, 7, 20], 16, [31, 33, 41]⟩), [5, 8], [16, 2], [104]⟩,
   ⟨26, 22, 2, (some 35), false, true, 122, 122, 1220,
    (some ⟨1, 122, 1060, [77, 144, 119, 40, 86, 142, 87, 126, 30, 90, 91, 92, 93, 127]⟩),
    none, [31, 33, 41], [], [122]⟩]),
  (train_ko1_108, [
   ⟨27, 108, 0, (some 16), true, false, 105, 105, 1050,
    none,
    (some ⟨1, [83, 101, 84, 121], [9, 19, 8, 10], 5, [5, 8, 9]⟩), [], [62, 64, 69, 71, 87, 92], [105]⟩,
   ⟨27, 108, 1, (some 3), true, false, 113, 113, 1130,
    (some ⟨0, 110, 1050, [83, 101, 84, 121]⟩),
    none, [5, 8, 9], [], [110]⟩]),
  (train_ko1_24, [
   ⟨28, 24, 0, (some 14), true, false, 112, 112, 1120,
    none,
    (some ⟨1, [83, 101, 84, 121], [9, 19, 8, 8], 4, [5, 8]⟩), [], [61, 64, 69, 71, 87, 92], [112]⟩,
   ⟨28, 24, 1, (some 1), true, false, 118, 118, 1180,
    (some ⟨0, 116, 1120, [83, 101, 84, 121]⟩),
    (some ⟨2, [77, 144, 119, 40, 86, 142, 87, 126, 30, 90, 91, 92, 93, 127], [15, 14, 8, 14, 13, 13, 7, 9, 15, 13, 9, 5, 7, 20], 16, [31, 33, 41]⟩), [5, 8], [16, 2], [116]⟩,
   ⟨28, 24, 2, (some 35), false, true, 134, 134, 1340,
    (some ⟨1, 134, 1180, [77, 144, 119, 40, 86, 142, 87, 126, 30, 90, 91, 92, 93, 127]⟩),
    none, [31, 33, 41], [], [134]⟩]),
  (train_ko1_13, [
   ⟨29, 13, 2, (some 34), true, false, 60, 60, 600,
    none,
    (some ⟨1, [78, 79, 80, 81, 120, 31, 94, 95, 143, 128, 41, 85, 145, 125], [18, 7, 6, 8, 12, 20, 23, 5, 19, 11, 16, 11, 17, 9], 18, [17, 19]⟩), [], [30, 22], [60]⟩,
   ⟨29, 13, 1, (some 2), true, false, 80, 80, 800,
    (some ⟨2, 78, 600, [78, 79, 80, 81, 120, 31, 94, 95, 143, 128, 41, 85, 145, 125]⟩),
    (some ⟨0, [76, 130, 133, 122], [8, 12, 22, 10], 5, [82, 84, 86, 89, 91]⟩), [17, 19], [9, 7, 6], [78]⟩,
   ⟨29, 13, 0, (some 15), false, true, 85, 85, 850,
    (some ⟨1, 85, 800, [76, 130, 133, 122]⟩),
    none, [82, 84, 86, 89, 91], [], [85]⟩]),
  (train_ko1_105, [
   ⟨30, 105, 1, (some 4), true, false, 82, 83, 830,
    none,
    (some ⟨0, [76, 130, 133, 122], [8, 12, 22, 10], 5, [82, 84, 86, 89, 91]⟩), [], [7, 6], [82]⟩,
   ⟨30, 105, 0, (some 39), false, true, 87, 88, 880,
    (some ⟨1, 88, 830, [76, 130, 133, 122]⟩),
    none, [82, 84, 86, 89, 91], [], [88]⟩]),
  (train_ko1_15, [
   ⟨31, 15, 2, (some 34), true, false, 64, 64, 640,
    none,
    (some ⟨1, [78, 79, 80, 81, 120, 31, 94, 95, 143, 128, 41, 85, 145, 125], [18, 7, 6, 8, 12, 20, 23, 5, 19, 11, 16, 11, 17, 9], 18, [17, 19]⟩), [], [30, 22], [64]⟩,
   ⟨31, 15, 1, (some 2), true, false, 85, 86, 860,
    (some ⟨2, 82, 640, [78, 79, 80, 81, 120, 31, 94, 95, 143, 128, 41, 85, 145, 125]⟩),
    (some ⟨0, [76, 130, 133, 122], [8, 12, 22, 10], 5, [82, 84, 86, 89, 91]⟩), [17, 19], [9, 7, 6], [82]⟩,
   ⟨31, 15, 0, (some 15), false, true, 90, 91, 910,
    (some ⟨1, 91, 860, [76, 130, 133, 122]⟩),
    none, [82, 84, 86, 89, 91], [], [91]⟩]),
  (train_ko1_6405, [
   ⟨32, 6405, 2, (some 33), true, false, 75, 75, 750,
    none,
    (some ⟨1, [78, 79, 80, 81, 120, 31, 94, 95, 143, 128, 41, 85, 145, 125], [18, 7, 6, 8, 12, 20, 23, 5, 9, 11, 6, 11, 7, 9], 15, [17, 19]⟩), [], [36, 30, 22], [75]⟩,
   ⟨32, 6405, 1, (some 2), true, false, 90, 90, 900,
    (some ⟨2, 90, 750, [78, 79, 80, 81, 120, 31, 94, 95, 143, 128, 41, 85, 145, 125]⟩),
    (some ⟨0, [76, 130, 133, 122], [6, 10, 12, 10], 4, [81, 85, 88, 91]⟩), [17, 19], [9, 7, 6], [90]⟩,
   ⟨32, 6405, 0, (some 13), false, true, 94, 94, 940,
    (some ⟨1, 94, 900, [76, 130, 133, 122]⟩),
    none, [81, 85, 88, 91], [], [94]⟩]),
  (train_ko1_17, [
   ⟨33, 17, 2, (some 34), true, false, 78, 79, 790,
    none,
    (some ⟨1, [78, 79, 80, 81, 120, 31, 94, 95, 143, 128, 41, 85, 145, 125], [18, 7, 6, 8, 12, 20, 23, 5, 19, 11, 16, 11, 17, 9], 18, [17, 19]⟩), [], [30, 22], [78]⟩,
   ⟨33, 17, 1, (some 2), true, false, 100, 100, 1000,
    (some ⟨2, 97, 790, [78, 79, 80, 81, 120, 31, 94, 95, 143, 128, 41, 85, 145, 125]⟩),
    (some ⟨0, [76, 130, 133, 122], [8, 12, 22, 10], 5, [82, 84, 86, 89, 91]⟩), [17, 19], [9, 7, 6], [97]⟩,
   ⟨33, 17, 0, (some 15), false, true, 105, 105, 1050,
    (some ⟨1, 105, 1000, [76, 130, 133, 122]⟩),
    none, [82, 84, 86, 89, 91], [], [105]⟩]),
  (train_ko1_21, [
   ⟨34, 21, 2, (some 34), true, false, 89, 89, 890,
    none,
    (some ⟨1, [78, 79, 80, 81, 120, 31, 94, 95, 143, 128, 41, 85, 145, 125], [18, 7, 6, 8, 12, 20, 23, 5, 19, 11, 16, 11, 17, 9], 18, [17, 19]⟩), [], [30, 22], [89]⟩,
   ⟨34, 21, 1, (some 2), true, false, 109, 109, 1090,
    (some ⟨2, 107, 890, [78, 79, 80, 81, 120, 31, 94, 95, 143, 128, 41, 85, 145, 125]⟩),
    (some ⟨0, [76, 130, 133, 122], [8, 12, 22, 10], 5, [82, 84, 86, 89, 91]⟩), [17, 19], [9, 7, 6], [107]⟩,
   ⟨34, 21, 0, (some 15), false, true, 114, 114, 1140,
    (some ⟨1, 114, 1090, [76, 130, 133, 122]⟩),
    none, [82, 84, 86, 89, 91], [], [114]⟩]),
  (train_ko1_107, [
   ⟨35, 107, 1, (some 4), true, false, 111, 112, 1120,
    none,
    (some ⟨0, [76, 130, 133, 122], [8, 12, 22, 10], 5, [82, 84, 86, 89, 91]⟩), [], [7, 6], [111]⟩,
   ⟨35, 107, 0, (some 39), false, true, 116, 117, 1170,
    (some ⟨1, 117, 1120, [76, 130, 133, 122]⟩),
    none, [82, 84, 86, 89, 91], [], [117]⟩]),
  (train_ko1_23, [
   ⟨36, 23, 2, (some 34), true, false, 106, 106, 1060,
    none,
    (some ⟨1, [78, 79, 80, 81, 120, 31, 94, 95, 143, 128, 41, 85, 145, 125], [18, 7, 6, 8, 12, 20, 23, 5, 19, 11, 16, 11, 17, 9], 18, [17, 19]⟩), [], [30, 22], [106]⟩,
   ⟨36, 23, 1, (some 2), true, false, 126, 126, 1260,
    (some ⟨2, 124, 1060, [78, 79, 80, 81, 120, 31, 94, 95, 143, 128, 41, 85, 145, 125]⟩),
    (some ⟨0, [76, 130, 133, 122], [8, 12, 22, 10], 5, [82, 84, 86, 89, 91]⟩), [17, 19], [9, 7, 6], [124]⟩,
   ⟨36, 23, 0, (some 15), false, true, 131, 131, 1310,
    (some ⟨1, 131, 1260, [76, 130, 133, 122]⟩),
    none, [82, 84, 86, 89, 91], [], [131]⟩]),
  (train_ko1_6407, [
   ⟨37, 6407, 2, (some 33), true, false, 106, 115, 1150,
    none,
    (some ⟨1, [78, 79, 80, 81, 120, 31, 94, 95, 143, 128, 41, 85, 145, 125], [18, 7, 6, 8, 12, 20, 23, 5, 9, 11, 6, 11, 7, 9], 15, [17, 19]⟩), [], [36, 30, 22], [106]⟩,
   ⟨37, 6407, 1, (some 2), true, false, 121, 134, 1340,
    (some ⟨2, 130, 1150, [78, 79, 80, 81, 120, 31, 94, 95, 143, 128, 41, 85, 145, 125]⟩),
    (some ⟨0, [76, 130, 133, 122], [6, 10, 12, 10], 4, [81, 85, 88, 91]⟩), [17, 19], [9, 7, 6], [130]⟩,
   ⟨37, 6407, 0, (some 13), false, true, 125, 138, 1380,
    (some ⟨1, 138, 1340, [76, 130, 133, 122]⟩),
    none, [81, 85, 88, 91], [], [138]⟩]),
  (train_ko1_25, [
   ⟨38, 25, 2, (some 34), true, false, 109, 110, 1100,
    none,
    (some ⟨1, [78, 79, 80, 81, 120, 31, 94, 95, 143, 128, 41, 85, 145, 125], [18, 7, 6, 8, 12, 20, 23, 5, 19, 11, 16, 11, 17, 9], 18, [17, 19]⟩), [], [30, 22], [109]⟩,
   ⟨38, 25, 1, (some 2), true, false, 130, 130, 1300,
    (some ⟨2, 128, 1100, [78, 79, 80, 81, 120, 31, 94, 95, 143, 128, 41, 85, 145, 125]⟩),
    (some ⟨0, [76, 130, 133, 122], [8, 12, 22, 10], 5, [82, 84, 86, 89, 91]⟩), [17, 19], [9, 7, 6], [128]⟩,
   ⟨38, 25, 0, (some 15), false, true, 135, 135, 1350,
    (some ⟨1, 135, 1300, [76, 130, 133, 122]⟩),
    none, [82, 84, 86, 89, 91], [], [135]⟩]),
  (train_ko1_26, [
   ⟨39, 26, 0, (some 14), true, false, 120, 120, 1200,
    none,
    (some ⟨1, [83, 101, 84, 121], [9, 19, 8, 8], 4, [5, 8]⟩), [], [61, 64, 69, 71, 87, 92], [120]⟩,
   ⟨39, 26, 1, (some 1), true, false, 126, 126, 1260,
    (some ⟨0, 124, 1200, [83, 101, 84, 121]⟩),
    (some ⟨2, [77, 144, 119, 40, 86, 142, 87, 126, 30, 90, 91, 92, 93, 127], [15, 14, 8, 14, 13, 13, 7, 9, 15, 13, 9, 5, 7, 20], 16, [31, 33, 41]⟩), [5, 8], [16, 2], [124]⟩,
   ⟨39, 26, 2, (some 35), false, true, 142, 142, 1420,
    (some ⟨1, 142, 1260, [77, 144, 119, 40, 86, 142, 87, 126, 30, 90, 91, 92, 93, 127]⟩),
    none, [31, 33, 41], [], [142]⟩]),
  (train_ko1_4610, [
   ⟨40, 4610, 0, (some 10), true, false, 127, 127, 1270,
    none,
    (some ⟨1, [83, 101, 84, 121], [9, 12, 6, 7], 3, [5, 8]⟩), [], [66, 68, 71, 87, 92], [127]⟩,
   ⟨40, 4610, 1, (some 1), true, false, 133, 133, 1330,
    (some ⟨0, 130, 1270, [83, 101, 84, 121]⟩),
    (some ⟨2, [77, 144, 119, 40, 86, 142, 87, 126, 30, 90, 91, 92, 93, 127], [11, 9, 8, 7, 13, 7, 7, 9, 15, 13, 9, 5, 7, 20], 14, [31, 34, 43]⟩), [5, 8], [16, 2], [130]⟩,
   ⟨40, 4610, 2, (some 38), true, false, 152, 152, 1520,
    (some ⟨1, 147, 1330, [77, 144, 119, 40, 86, 142, 87, 126, 30, 90, 91, 92, 93, 127]⟩),
    none, [31, 34, 43], [], [147]⟩]),
  (train_ko1_28, [
   ⟨41, 28, 0, (some 14), true, false, 130, 130, 1300,
    none,
    (some ⟨1, [83, 101, 84, 121], [9, 19, 8, 8], 4, [5, 8]⟩), [], [61, 64, 69, 71, 87, 92], [130]⟩,
   ⟨41, 28, 1, (some 1), true, false, 136, 136, 1360,
    (some ⟨0, 134, 1300, [83, 101, 84, 121]⟩),
    (some ⟨2, [77, 144, 119, 40, 86, 142, 87, 126, 30, 90, 91, 92, 93, 127], [15, 14, 8, 14, 13, 13, 7, 9, 15, 13, 9, 5, 7, 20], 16, [31, 33, 41]⟩), [5, 8], [16, 2], [134]⟩,
   ⟨41, 28, 2, (some 35), false, true, 152, 152, 1520,
    (some ⟨1, 152, 1360, [77, 144, 119, 40, 86, 142, 87, 126, 30, 90, 91, 92, 93, 127]⟩),
    none, [31, 33, 41], [], [152]⟩]),
  (train_ko1_112, [
   ⟨42, 112, 0, (some 16), true, false, 135, 135, 1350,
    none,
    (some ⟨1, [83, 101, 84, 121], [9, 19, 8, 10], 5, [5, 8, 9]⟩), [], [62, 64, 69, 71, 87, 92], [135]⟩,
   ⟨42, 112, 1, (some 3), true, false, 143, 143, 1430,
    (some ⟨0, 140, 1350, [83, 101, 84, 121]⟩),
    none, [5, 8, 9], [], [140]⟩]),
  (train_ko1_30, [
   ⟨43, 30, 0, (some 14), true, false, 140, 140, 1400,
    none,
    (some ⟨1, [83, 101, 84, 121], [9, 19, 8, 8], 4, [5, 8]⟩), [], [61, 64, 69, 71, 87, 92], [140]⟩,
   ⟨43, 30, 1, (some 1), true, false, 146, 146, 1460,
    (some ⟨0, 144, 1400, [83, 101, 84, 121]⟩),
    (some ⟨2, [77, 144, 119, 40, 86, 142, 87, 126, 30, 90, 91, 92, 93, 127], [15, 14, 8, 14, 13, 13, 7, 9, 15, 13, 9, 5, 7, 20], 16, [31, 33, 41]⟩), [5, 8], [16, 2], [144]⟩,
   ⟨43, 30, 2, (some 35), false, true, 162, 162, 1620,
    (some ⟨1, 162, 1460, [77, 144, 119, 40, 86, 142, 87, 126, 30, 90, 91, 92, 93, 127]⟩),
    none, [31, 33, 41], [], [162]⟩]),
  (train_ko1_32, [
   ⟨44, 32, 0, (some 14), true, false, 150, 150, 1500,
    none,
    (some ⟨1, [83, 101, 84, 121], [9, 19, 8, 8], 4, [5, 8]⟩), [], [61, 64, 69, 71, 87, 92], [150]⟩,
   ⟨44, 32, 1, (some 1), true, false, 156, 156, 1560,
    (some ⟨0, 154, 1500, [83, 101, 84, 121]⟩),
    (some ⟨2, [77, 144, 119, 40, 86, 142, 87, 126, 30, 90, 91, 92, 93, 127], [15, 14, 8, 14, 13, 13, 7, 9, 15, 13, 9, 5, 7, 20], 16, [31, 33, 41]⟩), [5, 8], [16, 2], [154]⟩,
   ⟨44, 32, 2, (some 35), false, true, 172, 172, 1720,
    (some ⟨1, 172, 1560, [77, 144, 119, 40, 86, 142, 87, 126, 30, 90, 91, 92, 93, 127]⟩),
    none, [31, 33, 41], [], [172]⟩]),
  (train_ko1_4612, [
   ⟨45, 4612, 0, (some 10), true, false, 157, 157, 1570,
    none,
    (some ⟨1, [83, 101, 84, 121], [9, 12, 6, 7], 3, [5, 8]⟩), [], [66, 68, 71, 87, 92], [157]⟩,
   ⟨45, 4612, 1, (some 1), true, false, 163, 163, 1630,
    (some ⟨0, 160, 1570, [83, 101, 84, 121]⟩),
    (some ⟨2, [77, 144, 119, 40, 86, 142, 87, 126, 30, 90, 91, 92, 93, 127], [11, 9, 8, 7, 13, 7, 7, 9, 15, 13, 9, 5, 7, 20], 14, [31, 34, 43]⟩), [5, 8], [16, 2], [160]⟩,
   ⟨45, 4612, 2, (some 38), true, false, 182, 182, 1820,
    (some ⟨1, 177, 1630, [77, 144, 119, 40, 86, 142, 87, 126, 30, 90, 91, 92, 93, 127]⟩),
    none, [31, 34, 43], [], [177]⟩]),
  (train_ko1_34, [
   ⟨46, 34, 0, (some 14), true, false, 162, 162, 1620,
    none,
    (some ⟨1, [83, 101, 84, 121], [9, 19, 8, 8], 4, [5, 8]⟩), [], [61, 64, 69, 71, 87, 92], [162]⟩,
   ⟨46, 34, 1, (some 1), true, false, 168, 168, 1680,
    (some ⟨0, 166, 1620, [83, 101, 84, 121]⟩),
    (some ⟨2, [77, 144, 119, 40, 86, 142, 87, 126, 30, 90, 91, 92, 93, 127], [15, 14, 8, 14, 13, 13, 7, 9, 15, 13, 9, 5, 7, 20], 16, [31, 33, 41]⟩), [5, 8], [16, 2], [166]⟩,
   ⟨46, 34, 2, (some 35), false, true, 184, 184, 1840,
    (some ⟨1, 184, 1680, [77, 144, 119, 40, 86, 142, 87, 126, 30, 90, 91, 92, 93, 127]⟩),
    none, [31, 33, 41], [], [184]⟩]),
  (train_ko1_114, [
   ⟨47, 114, 0, (some 16), true, false, 167, 167, 1670,
    none,
    (some ⟨1, [83, 101, 84, 121], [9, 19, 8, 10], 5, [5, 8, 9]⟩), [], [62, 64, 69, 71, 87, 92], [167]⟩,
   ⟨47, 114, 1, (some 3), true, false, 174, 174, 1740,
    (some ⟨0, 172, 1670, [83, 101, 84, 121]⟩),
    none, [5, 8, 9], [], [172]⟩]),
  (train_ko1_36, [
   ⟨48, 36, 0, (some 14), true, false, 170, 170, 1700,
    none,
    (some ⟨1, [83, 101, 84, 121], [9, 19, 8, 8], 4, [5, 8]⟩), [], [61, 64, 69, 71, 87, 92], [170]⟩,
   ⟨48, 36, 1, (some 1), true, false, 176, 176, 1760,
    (some ⟨0, 174, 1700, [83, 101, 84, 121]⟩),
    (some ⟨2, [77, 144, 119, 40, 86, 142, 87, 126, 30, 90, 91, 92, 93, 127], [15, 14, 8, 14, 13, 13, 7, 9, 15, 13, 9, 5, 7, 20], 16, [31, 33, 41]⟩), [5, 8], [16, 2], [174]⟩,
   ⟨48, 36, 2, (some 35), false, true, 192, 192, 1920,
    (some ⟨1, 192, 1760, [77, 144, 119, 40, 86, 142, 87, 126, 30, 90, 91, 92, 93, 127]⟩),
    none, [31, 33, 41], [], [192]⟩]),
  (train_ko1_27, [
   ⟨49, 27, 2, (some 34), true, false, 113, 119, 1190,
    none,
    (some ⟨1, [78, 79, 80, 81, 120, 31, 94, 95, 143, 128, 41, 85, 145, 125], [18, 7, 6, 8, 12, 20, 23, 5, 19, 11, 16, 11, 17, 9], 18, [17, 19]⟩), [], [30, 22], [113]⟩,
   ⟨49, 27, 1, (some 2), true, false, 135, 139, 1390,
    (some ⟨2, 137, 1190, [78, 79, 80, 81, 120, 31, 94, 95, 143, 128, 41, 85, 145, 125]⟩),
    (some ⟨0, [76, 130, 133, 122], [8, 12, 22, 10], 5, [82, 84, 86, 89, 91]⟩), [17, 19], [9, 7, 6], [137]⟩,
   ⟨49, 27, 0, (some 15), false, true, 140, 144, 1440,
    (some ⟨1, 144, 1390, [76, 130, 133, 122]⟩),
    none, [82, 84, 86, 89, 91], [], [144]⟩]),
  (train_ko1_111, [
   ⟨50, 111, 1, (some 4), true, false, 147, 147, 1470,
    none,
    (some ⟨0, [76, 130, 133, 122], [8, 12, 22, 10], 5, [82, 84, 86, 89, 91]⟩), [], [7, 6], [147]⟩,
   ⟨50, 111, 0, (some 39), false, true, 152, 152, 1520,
    (some ⟨1, 152, 1470, [76, 130, 133, 122]⟩),
    none, [82, 84, 86, 89, 91], [], [152]⟩]),
  (train_ko1_31, [
   ⟨51, 31, 2, (some 34), true, false, 129, 129, 1290,
    none,
    (some ⟨1, [78, 79, 80, 81, 120, 31, 94, 95, 143, 128, 41, 85, 145, 125], [18, 7, 6, 8, 12, 20, 23, 5, 19, 11, 16, 11, 17, 9], 18, [17, 19]⟩), [], [30, 22], [129]⟩,
   ⟨51, 31, 1, (some 2), true, false, 149, 150, 1500,
    (some ⟨2, 147, 1290, [78, 79, 80, 81, 120, 31, 94, 95, 143, 128, 41, 85, 145, 125]⟩),
    (some ⟨0, [76, 130, 133, 122], [8, 12, 22, 10], 5, [82, 84, 86, 89, 91]⟩), [17, 19], [9, 7, 6], [147]⟩,
   ⟨51, 31, 0, (some 15), false, true, 154, 155, 1550,
    (some ⟨1, 155, 1500, [76, 130, 133, 122]⟩),
    none, [82, 84, 86, 89, 91], [], [155]⟩]),
  (train_ko1_6411, [
   ⟨52, 6411, 2, (some 33), true, false, 140, 140, 1400,
    none,
    (some ⟨1, [78, 79, 80, 81, 120, 31, 94, 95, 143, 128, 41, 85, 145, 125], [18, 7, 6, 8, 12, 20, 23, 5, 9, 11, 6, 11, 7, 9], 15, [17, 19]⟩), [], [36, 30, 22], [140]⟩,
   ⟨52, 6411, 1, (some 2), true, false, 155, 155, 1550,
    (some ⟨2, 155, 1400, [78, 79, 80, 81, 120, 31, 94, 95, 143, 128, 41, 85, 145, 125]⟩),
    (some ⟨0, [76, 130, 133, 122], [6, 10, 12, 10], 4, [81, 85, 88, 91]⟩), [17, 19], [9, 7, 6], [155]⟩,
   ⟨52, 6411, 0, (some 13), false, true, 159, 159, 1590,
    (some ⟨1, 159, 1550, [76, 130, 133, 122]⟩),
    none, [81, 85, 88, 91], [], [159]⟩]),
  (train_ko1_33, [
   ⟨53, 33, 2, (some 34), true, false, 145, 148, 1480,
    none,
    (some ⟨1, [78, 79, 80, 81, 120, 31, 94, 95, 143, 128, 41, 85, 145, 125], [18, 7, 6, 8, 12, 20, 23, 5, 19, 11, 16, 11, 17, 9], 18, [17, 19]⟩), [], [30, 22], [145]⟩,
   ⟨53, 33, 1, (some 2), true, false, 165, 168, 1680,
    (some ⟨2, 166, 1480, [78, 79, 80, 81, 120, 31, 94, 95, 143, 128, 41, 85, 145, 125]⟩),
    (some ⟨0, [76, 130, 133, 122], [8, 12, 22, 10], 5, [82, 84, 86, 89, 91]⟩), [17, 19], [9, 7, 6], [166]⟩,
   ⟨53, 33, 0, (some 15), false, true, 170, 173, 1730,
    (some ⟨1, 173, 1680, [76, 130, 133, 122]⟩),
    none, [82, 84, 86, 89, 91], [], [173]⟩]),
  (train_ko1_35, [
   ⟨54, 35, 2, (some 34), true, false, 144, 144, 1440,
    none,
    (some ⟨1, [78, 79, 80, 81, 120, 31, 94, 95, 143, 128, 41, 85, 145, 125], [18, 7, 6, 8, 12, 20, 23, 5, 19, 11, 16, 11, 17, 9], 18, [17, 19]⟩), [], [30, 22], [144]⟩,
   ⟨54, 35, 1, (some 2), true, false, 165, 165, 1650,
    (some ⟨2, 162, 1440, [78, 79, 80, 81, 120, 31, 94, 95, 143, 128, 41, 85, 145, 125]⟩),
    (some ⟨0, [76, 130, 133, 122], [8, 12, 22, 10], 5, [82, 84, 86, 89, 91]⟩), [17, 19], [9, 7, 6], [162]⟩,
   ⟨54, 35, 0, (some 15), false, true, 170, 170, 1700,
    (some ⟨1, 170, 1650, [76, 130, 133, 122]⟩),
    none, [82, 84, 86, 89, 91], [], [170]⟩]),
  (train_ko1_113, [
   ⟨55, 113, 1, (some 4), true, false, 178, 178, 1780,
    none,
    (some ⟨0, [76, 130, 133, 122], [8, 12, 22, 10], 5, [82, 84, 86, 89, 91]⟩), [], [7, 6], [178]⟩,
   ⟨55, 113, 0, (some 39), false, true, 183, 183, 1830,
    (some ⟨1, 183, 1780, [76, 130, 133, 122]⟩),
    none, [82, 84, 86, 89, 91], [], [183]⟩]),
  (train_ko1_37, [
   ⟨56, 37, 2, (some 34), true, false, 153, 153, 1530,
    none,
    (some ⟨1, [78, 79, 80, 81, 120, 31, 94, 95, 143, 128, 41, 85, 145, 125], [18, 7, 6, 8, 12, 20, 23, 5, 19, 11, 16, 11, 17, 9], 18, [17, 19]⟩), [], [30, 22], [153]⟩,
   ⟨56, 37, 1, (some 2), true, false, 175, 175, 1750,
    (some ⟨2, 171, 1530, [78, 79, 80, 81, 120, 31, 94, 95, 143, 128, 41, 85, 145, 125]⟩),
    (some ⟨0, [76, 130, 133, 122], [8, 12, 22, 10], 5, [82, 84, 86, 89, 91]⟩), [17, 19], [9, 7, 6], [171]⟩,
   ⟨56, 37, 0, (some 15), false, true, 180, 180, 1800,
    (some ⟨1, 180, 1750, [76, 130, 133, 122]⟩),
    none, [82, 84, 86, 89, 91], [], [180]⟩]),
  (train_ko1_6413, [
   ⟨57, 6413, 2, (some 33), true, false, 171, 171, 1710,
    none,
    (some ⟨1, [78, 79, 80, 81, 120, 31, 94, 95, 143, 128, 41, 85, 145, 125], [18, 7, 6, 8, 12, 20, 23, 5, 9, 11, 6, 11, 7, 9], 15, [17, 19]⟩), [], [36, 30, 22], [171]⟩,
   ⟨57, 6413, 1, (some 2), true, false, 186, 186, 1860,
    (some ⟨2, 186, 1710, [78, 79, 80, 81, 120, 31, 94, 95, 143, 128, 41, 85, 145, 125]⟩),
    (some ⟨0, [76, 130, 133, 122], [6, 10, 12, 10], 4, [81, 85, 88, 91]⟩), [17, 19], [9, 7, 6], [186]⟩,
   ⟨57, 6413, 0, (some 13), false, true, 190, 190, 1900,
    (some ⟨1, 190, 1860, [76, 130, 133, 122]⟩),
    none, [81, 85, 88, 91], [], [190]⟩]),
  (train_ko1_41, [
   ⟨58, 41, 2, (some 34), true, false, 174, 175, 1750,
    none,
    (some ⟨1, [78, 79, 80, 81, 120, 31, 94, 95, 143, 128, 41, 85, 145, 125], [18, 7, 6, 8, 12, 20, 23, 5, 19, 11, 16, 11, 17, 9], 18, [17, 19]⟩), [], [30, 22], [174]⟩,
   ⟨58, 41, 1, (some 2), true, false, 194, 195, 1950,
    (some ⟨2, 193, 1750, [78, 79, 80, 81, 120, 31, 94, 95, 143, 128, 41, 85, 145, 125]⟩),
    (some ⟨0, [76, 130, 133, 122], [8, 12, 22, 10], 5, [82, 84, 86, 89, 91]⟩), [17, 19], [9, 7, 6], [193]⟩,
   ⟨58, 41, 0, (some 15), false, true, 199, 200, 2000,
    (some ⟨1, 200, 1950, [76, 130, 133, 122]⟩),
    none, [82, 84, 86, 89, 91], [], [200]⟩])]

theorem ko1n6Plan_sections : ko1n6Plan.map Prod.fst = ko1 := rfl

theorem ko1n6Plan_ok : netKo.PlanOK "14:00" ko1n6Delays 40 netKoSpecial ko1n6Plan :=
  ko1Plan_ok.again rfl (by decide +kernel) (by decide +kernel) (by decide +kernel) (by decide +kernel)

theorem ko1n6_cost : netKo.costOK ko1n6Plan 228 = true := by decide +kernel

/-- the departures: train and station -/
def ko1n6Nodes : List (Nat × Nat) := [
  (14, 2), (31, 2), (33, 2), (38, 2), (36, 2), (49, 2), (54, 2), (53, 2), (53, 1), (31, 1),
  (29, 2), (12, 2), (13, 2), (32, 2), (37, 2), (37, 1), (12, 1), (13, 1), (38, 1), (17, 2),
  (18, 2), (18, 1), (1, 1), (2, 1), (57, 2), (58, 2), (58, 1), (1, 0), (2, 0), (29, 1), (30, 1),
  (14, 1), (49, 1), (6, 0), (7, 0), (7, 1), (11, 1), (10, 1), (6, 1), (6, 2), (52, 1), (50, 1),
  (32, 1), (34, 1), (35, 1), (51, 1), (57, 1), (1, 2), (17, 1)]

/-- the choices -/
def ko1n6Choices : List CodedNet.Choice := [
  .first 13 14 2, .first 29 31 2, .first 31 33 2, .first 36 38 2, .first 38 49 2, .first 53 54 2,
  .first 29 31 1, .first 53 54 1, .first 13 12 2, .first 31 32 2, .first 36 37 2, .first 38 37 2,
  .first 36 37 1, .first 13 12 1, .first 29 17 1, .first 38 37 1, .first 29 17 2, .first 18 17 2,
  .first 2 1 1, .first 58 57 1, .first 58 57 2, .first 2 1 0, .first 30 29 1, .first 12 14 1,
  .first 49 37 1, .first 7 6 1, .first 49 37 2, .first 7 6 0, .first 10 11 1, .first 12 14 2,
  .first 50 52 1, .first 30 32 1, .first 30 31 1, .first 35 34 1, .first 50 51 1, .first 31 32 1]

/-- the inequalities -/
def ko1n6Arcs : ArcTree :=
  .node ⟨.track, 2, 1, 0, 0, 19, false⟩ (.node ⟨.track, 4, 2, 0, 0, 60, false⟩ (.node
  ⟨.track, 8, 4, 0, 0, 106, false⟩ (.node ⟨.run, 0, 8, 9, 20, 0, false⟩ (.node
  ⟨.track, 7, 5, 0, 0, 109, false⟩ (.node ⟨.follow, 38, 23, 24, 2, 0, false⟩ (.node
  ⟨.follow, 70, 46, 42, 3, 0, false⟩ .none .none) .none) (.node ⟨.track, 52, 39, 35, 0, 4, false⟩
  (.node ⟨.track, 40, 47, 26, 0, 18, false⟩ .none .none) .none)) (.node
  ⟨.run, 0, 12, 17, 15, 0, false⟩ (.node ⟨.follow, 54, 15, 6, 4, 0, false⟩ (.node
  ⟨.follow, 19, 2, 14, 5, 0, false⟩ .none .none) .none) (.node ⟨.follow, 59, 12, 1, 4, 0, false⟩
  (.node ⟨.follow, 3, 11, 2, 4, 0, false⟩ .none .none) .none))) (.node
  ⟨.track, 1, 13, 0, 0, 23, false⟩ (.node ⟨.follow, 23, 4, 15, 5, 0, false⟩ (.node
  ⟨.run, 0, 29, 24, 6, 0, false⟩ (.node ⟨.follow, 45, 31, 30, 3, 0, false⟩ .none .none) .none)
  (.node ⟨.run, 0, 39, 40, 15, 0, false⟩ (.node ⟨.follow, 35, 21, 20, 5, 0, false⟩ .none .none)
  .none)) (.node ⟨.track, 32, 16, 4, 0, 18, false⟩ (.node ⟨.follow, 58, 37, 38, 3, 0, false⟩ (.node
  ⟨.follow, 43, 29, 28, 3, 0, false⟩ .none .none) .none) (.node ⟨.follow, 66, 10, 31, 3, 0, false⟩
  (.node ⟨.follow, 29, 30, 49, 4, 0, false⟩ .none .none) .none)))) (.node
  ⟨.track, 10, 6, 0, 0, 109, false⟩ (.node ⟨.track, 3, 11, 0, 0, 64, false⟩ (.node
  ⟨.follow, 24, 15, 4, 4, 0, false⟩ (.node ⟨.run, 0, 26, 27, 20, 0, false⟩ (.node
  ⟨.follow, 69, 42, 46, 3, 0, false⟩ .none .none) .none) (.node ⟨.follow, 53, 6, 15, 5, 0, false⟩
  (.node ⟨.follow, 37, 24, 23, 5, 0, false⟩ .none .none) .none)) (.node
  ⟨.follow, 27, 18, 17, 4, 0, false⟩ (.node ⟨.follow, 56, 34, 35, 2, 0, false⟩ (.node
  ⟨.follow, 71, 10, 43, 4, 0, false⟩ .none .none) .none) (.node ⟨.follow, 62, 41, 42, 2, 0, false⟩
  (.node ⟨.follow, 33, 11, 20, 5, 0, false⟩ .none .none) .none))) (.node
  ⟨.track, 5, 2, 0, 0, 78, false⟩ (.node ⟨.track, 26, 16, 5, 0, 18, false⟩ (.node
  ⟨.follow, 48, 32, 17, 4, 0, false⟩ (.node ⟨.follow, 47, 17, 32, 2, 0, false⟩ .none .none) .none)
  (.node ⟨.track, 47, 17, 1, 0, 18, false⟩ (.node ⟨.follow, 34, 20, 11, 4, 0, false⟩ .none .none)
  .none)) (.node ⟨.follow, 36, 20, 21, 4, 0, false⟩ (.node ⟨.follow, 55, 35, 34, 3, 0, false⟩
  (.node ⟨.follow, 41, 26, 25, 5, 0, false⟩ .none .none) .none) (.node
  ⟨.follow, 65, 31, 10, 3, 0, false⟩ (.node ⟨.track, 11, 8, 0, 0, 144, false⟩ .none .none)
  .none))))) (.node ⟨.track, 6, 3, 0, 0, 64, false⟩ (.node ⟨.follow, 7, 5, 4, 4, 0, false⟩ (.node
  ⟨.track, 14, 10, 11, 0, 18, false⟩ (.node ⟨.follow, 21, 5, 15, 5, 0, false⟩ (.node
  ⟨.follow, 42, 25, 26, 4, 0, false⟩ (.node ⟨.follow, 61, 42, 41, 4, 0, false⟩ .none .none) .none)
  (.node ⟨.track, 50, 16, 6, 0, 18, false⟩ (.node ⟨.follow, 39, 27, 47, 4, 0, false⟩ .none .none)
  .none)) (.node ⟨.track, 28, 17, 13, 0, 18, false⟩ (.node ⟨.run, 0, 6, 33, 20, 0, false⟩ (.node
  ⟨.run, 0, 14, 43, 15, 0, false⟩ .none .none) .none) (.node ⟨.run, 0, 1, 32, 20, 0, false⟩ (.node
  ⟨.run, 0, 2, 10, 20, 0, false⟩ .none .none) .none))) (.node ⟨.follow, 20, 14, 2, 4, 0, false⟩
  (.node ⟨.run, 0, 15, 16, 15, 0, false⟩ (.node ⟨.follow, 46, 30, 31, 3, 0, false⟩ (.node
  ⟨.follow, 13, 30, 10, 3, 0, false⟩ .none .none) .none) (.node ⟨.follow, 49, 33, 16, 4, 0, false⟩
  (.node ⟨.run, 0, 20, 49, 15, 0, false⟩ .none .none) .none)) (.node
  ⟨.follow, 31, 19, 16, 4, 0, false⟩ (.node ⟨.follow, 57, 38, 37, 3, 0, false⟩ (.node
  ⟨.run, 0, 28, 23, 5, 0, false⟩ .none .none) .none) (.node ⟨.follow, 63, 31, 43, 4, 0, false⟩
  (.node ⟨.track, 15, 9, 7, 0, 18, false⟩ .none .none) .none)))) (.node
  ⟨.follow, 12, 7, 8, 4, 0, false⟩ (.node ⟨.follow, 18, 12, 13, 4, 0, false⟩ (.node
  ⟨.track, 9, 4, 0, 0, 113, false⟩ (.node ⟨.follow, 44, 28, 29, 2, 0, false⟩ (.node
  ⟨.follow, 67, 45, 44, 3, 0, false⟩ .none .none) .none) (.node ⟨.follow, 51, 36, 39, 5, 0, false⟩
  (.node ⟨.run, 0, 23, 48, 15, 0, false⟩ .none .none) .none)) (.node
  ⟨.track, 27, 18, 12, 0, 15, false⟩ (.node ⟨.run, 0, 35, 36, 6, 0, false⟩ (.node
  ⟨.track, 38, 23, 29, 0, 4, false⟩ .none .none) .none) (.node ⟨.follow, 64, 43, 31, 2, 0, false⟩
  (.node ⟨.track, 30, 49, 11, 0, 18, false⟩ .none .none) .none))) (.node
  ⟨.follow, 22, 15, 5, 4, 0, false⟩ (.node ⟨.follow, 17, 13, 12, 5, 0, false⟩ (.node
  ⟨.follow, 50, 16, 33, 2, 0, false⟩ (.node ⟨.track, 72, 43, 2, 0, 18, false⟩ .none .none) .none)
  (.node ⟨.follow, 60, 1, 12, 5, 0, false⟩ (.node ⟨.run, 0, 11, 30, 20, 0, false⟩ .none .none)
  .none)) (.node ⟨.run, 0, 21, 22, 20, 0, false⟩ (.node ⟨.run, 0, 34, 39, 5, 0, false⟩ (.node
  ⟨.run, 0, 25, 47, 15, 0, false⟩ .none .none) .none) (.node ⟨.follow, 68, 44, 45, 3, 0, false⟩
  .none .none)))))

/-- the bounds of the departures -/
def ko1n6Times : TimeTree :=
  .node 1 0 1 (.node 24 0 64 (.node 79 0 119 (.node 145 0 185 (.node 107 0 147 (.node 83 4 123
  .none .none) (.node 187 6 227 .none .none)) (.node 20 0 60 (.node 45 0 85 .none .none) .none))
  (.node 61 0 101 (.node 131 4 171 (.node 41 0 81 .none .none) .none) (.node 195 4 235 (.node 91 6
  131 .none .none) .none))) (.node 107 0 147 (.node 166 4 206 (.node 36 6 76 (.node 136 4 176 .none
  .none) (.node 67 6 107 .none .none)) (.node 172 0 212 (.node 156 6 196 .none .none) .none))
  (.node 20 0 60 (.node 55 0 95 (.node 31 4 71 .none .none) .none) (.node 13 0 53 (.node 112 4 152
  .none .none) .none)))) (.node 65 0 105 (.node 110 0 150 (.node 146 0 186 (.node 122 6 162 (.node
  46 4 86 .none .none) (.node 35 6 75 .none .none)) (.node 19 4 59 (.node 63 6 103 .none .none)
  .none)) (.node 21 0 61 (.node 52 0 92 (.node 47 4 87 .none .none) .none) (.node 15 0 55 (.node
  110 4 150 .none .none) .none))) (.node 114 0 154 (.node 86 4 126 (.node 41 4 81 (.node 40 0 80
  .none .none) .none) (.node 175 0 215 (.node 148 4 188 .none .none) .none)) (.node 76 0 116 (.node
  75 4 115 (.node 32 4 72 .none .none) .none) (.node 81 4 121 (.node 150 4 190 .none .none)
  .none))))

/-- some of the cases -/
def ko1n6Case0 : SumTree :=
  .cases [25, 26] 14 (.leaf [91]) (.cases [] 15 (.cases [28] 16 (.cycle 11 [89, 84, 90]) (.cases []
  17 (.cases [83, 84, 85, 86, 87, 88] 21 (.cases [] 18 (.leaf [81, 82]) (.cycle 29 [75, 76, 74]))
  (.leaf [34, 35])) (.cases [29, 30] 18 (.cases [81, 82] 19 (.leaf [80]) (.cases [] 23 (.cases []
  29 (.cases [55, 56] 31 (.cases [] 30 (.cases [] 20 (.cycle 26 [77, 78, 79]) (.cases [32, 33] 26
  (.cases [] 24 (.cases [52] 28 (.leaf [44]) (.leaf [43])) (.cycle 16 [48, 49, 20])) (.cases
  [39, 40] 25 (.leaf [50, 51]) (.cases [] 22 (.leaf [67]) (.cases [36] 32 (.cases [61] 33 (.leaf
  [66]) (.cases [62] 34 (.cases [65] 27 (.cycle 35 [45, 46, 47]) (.leaf [41, 42])) (.leaf
  [63, 64]))) (.leaf [59, 60])))))) (.leaf [57])) (.leaf [58])) (.cycle 17 [53, 54, 23])) (.cases
  [37] 31 (.cases [] 24 (.leaf [52]) (.cases [] 20 (.cycle 26 [77, 78, 79]) (.cases [32, 33] 22
  (.leaf [67, 68]) (.cases [36] 32 (.cases [] 33 (.leaf [66]) (.cases [62] 26 (.cycle 16
  [48, 49, 20]) (.leaf [39, 40]))) (.leaf [59, 60]))))) (.leaf [58])))) (.cases [31] 19 (.leaf
  [80]) (.cases [] 20 (.cycle 26 [77, 78, 79]) (.cases [32, 33] 21 (.cycle 23 [74, 75, 76]) (.cases
  [34, 35] 22 (.cases [67, 68] 23 (.cases [69] 24 (.leaf [52]) (.cases [38] 34 (.cases [65] 28
  (.leaf [44]) (.cases [43] 35 (.leaf [73]) (.cycle 43 [70, 71, 72]))) (.leaf [63]))) (.leaf [37]))
  (.cases [36] 23 (.cases [] 29 (.cases [55, 56] 30 (.cases [] 24 (.cases [52] 28 (.leaf [44])
  (.cases [43] 32 (.leaf [61]) (.leaf [59]))) (.cases [38] 31 (.cases [] 26 (.cycle 16
  [48, 49, 20]) (.cases [39, 40] 25 (.leaf [50, 51]) (.cases [] 28 (.cases [44] 27 (.cycle 35
  [45, 46, 47]) (.cases [41, 42] 32 (.leaf [61]) (.leaf [59]))) (.cases [43] 27 (.cycle 35
  [45, 46, 47]) (.cases [41, 42] 32 (.cases [61] 33 (.leaf [66]) (.cases [62] 34 (.leaf [65])
  (.leaf [63, 64]))) (.leaf [59, 60])))))) (.leaf [58]))) (.leaf [57])) (.cycle 17 [53, 54, 23]))
  (.cases [37] 24 (.leaf [52]) (.cases [38] 25 (.leaf [50, 51]) (.cases [] 26 (.cycle 16
  [48, 49, 20]) (.cases [39, 40] 27 (.cycle 35 [45, 46, 47]) (.cases [41, 42] 28 (.leaf [44])
  (.leaf [43])))))))))))))) (.cycle 4 [19, 20, 27]))

/-- all cases -/
def ko1n6Cases : SumTree :=
  .cases [] 0 (.cases [] 1 (.cases [] 2 (.cases [] 3 (.cases [4] 4 (.cases [] 5 (.leaf [93])
  (.cases [6, 7] 6 (.cases [] 7 (.cycle 7 [6, 7, 92]) (.cases [] 8 (.cases [] 9 (.cases [] 10
  (.cases [16] 11 (.cases [19, 20] 12 (.cases [] 13 ko1n6Case0 (.cycle 13 [22, 23, 24])) (.cycle 5
  [4, 19, 20, 21])) (.leaf [17, 18])) (.leaf [14, 15])) (.leaf [12, 13])) (.leaf [10, 11]))) (.leaf
  [8, 9]))) (.leaf [5])) (.leaf [3])) (.leaf [2])) (.leaf [1])) (.leaf [0])

theorem ko1n6_cases : ko1n6Cases.check ko1n6Arcs 228 ko1n6Choices.length [] ko1n6Times 0 = true := by
  decide +kernel

theorem ko1n6_choices : ko1n6Choices.all (CodedNet.Choice.ok netKo netKoSpecial ko1n6Plan) = true := by
  decide +kernel

theorem ko1n6_arcs : ko1n6Arcs.toList.all
    (netKo.arcOK netKoSpecial ko1n6Plan ko1n6Nodes ko1n6Choices) = true := by decide +kernel

theorem ko1n6_times : netKo.startOK ko1n6Plan ko1n6Nodes 1 40 ko1n6Times = true := by decide +kernel

end Verif.Real
