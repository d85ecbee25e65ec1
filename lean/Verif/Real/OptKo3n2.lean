import Verif.Proofs.PlanSum
import Verif.Proofs.PlanAgain
import Verif.Real.PlanKo3

/-!
# The sheet of `Verif.Real.Ko3` with given delays: a plan, and that no plan is better

Generated; see `CodedNet.Item` and `Verif/Proofs/SumTree.lean`. Case 3,
`disturbances[2]`, of `/repo/solve_KO_GLC_problems.py`, line 118;
`d_max` is 40. The sum of the delays that count is 48/4.
-/

namespace Verif.Real

set_option maxRecDepth 100000

/-- the given delays -/
def ko3n2Delays : List (Int × ℚ) := [
  (2, 36), (4602, 20)]

/-- the plan, items by sections -/
def ko3n2Plan : CodedNet.Plan := [
  (train_ko3_2, [
   ⟨0, 2, 0, (some 14), true, false, 36, 36, 360,
    none,
    (some ⟨1, [83, 101, 84, 121], [9, 19, 8, 8], 4, [5, 8]⟩), [], [61, 64, 69, 71, 87, 92], [36]⟩,
   ⟨0, 2, 1, (some 1), true, false, 42, 42, 420,
    (some ⟨0, 40, 360, [83, 101, 84, 121]⟩),
    (some ⟨2, [77, 144, 119], [15, 14, 8], 4, [107]⟩), [5, 8], [16, 2], [40]⟩,
   ⟨0, 2, 2, (some 40), true, false, 47, 47, 470,
    (some ⟨1, 46, 420, [77, 144, 119]⟩),
    (some ⟨3, [86, 142, 87, 126], [13, 13, 7, 9], 4, [18, 23]⟩), [107], [161, 164], [46]⟩,
   ⟨0, 2, 3, (some 30), true, false, 53, 53, 530,
    (some ⟨2, 51, 470, [86, 142, 87, 126]⟩),
    (some ⟨4, [90, 91, 92, 93, 127], [13, 9, 5, 7, 20], 5, [31, 33, 41]⟩), [18, 23], [47, 48], [51]⟩,
   ⟨0, 2, 4, (some 35), false, true, 58, 58, 580,
    (some ⟨3, 58, 530, [90, 91, 92, 93, 127]⟩),
    none, [31, 33, 41], [], [58]⟩]),
  (train_ko3_4602, [
   ⟨1, 4602, 0, (some 10), true, false, 74, 74, 740,
    none,
    (some ⟨1, [83, 101, 84, 121], [9, 12, 6, 7], 3, [5, 8]⟩), [], [66, 68, 71, 87, 92], [74]⟩,
   ⟨1, 4602, 1, (some 1), true, false, 79, 79, 790,
    (some ⟨0, 77, 740, [83, 101, 84, 121]⟩),
    (some ⟨2, [77, 144, 119], [11, 9, 8], 3, [107]⟩), [5, 8], [16, 2], [77]⟩,
   ⟨1, 4602, 2, (some 40), true, false, 83, 83, 830,
    (some ⟨1, 82, 790, [77, 144, 119]⟩),
    (some ⟨3, [86, 142, 87, 126], [13, 7, 7, 9], 4, [18, 23]⟩), [107], [161, 164], [82]⟩,
   ⟨1, 4602, 3, (some 30), true, false, 89, 89, 890,
    (some ⟨2, 87, 830, [86, 142, 87, 126]⟩),
    (some ⟨4, [90, 91, 92, 93, 127], [13, 9, 5, 7, 20], 5, [31, 34, 43]⟩), [18, 23], [47, 48], [87]⟩,
   ⟨1, 4602, 4, (some 38), true, false, 95, 95, 950,
    (some ⟨3, 94, 890, [90, 91, 92, 93, 127]⟩),
    none, [31, 34, 43], [], [94]⟩]),
  (train_ko3_4, [
   ⟨2, 4, 0, (some 14), true, false, 38, 39, 390,
    none,
    (some ⟨1, [83, 101, 84, 121], [9, 19, 8, 8], 4, [5, 8]⟩), [], [61, 64, 69, 71, 87, 92], [38]⟩,
   ⟨2, 4, 1, (some 1), true, false, 46, 46, 460,
    (some ⟨0, 43, 390, [83, 101, 84, 121]⟩),
    (some ⟨2, [77, 144, 119], [15, 14, 8], 4, [107]⟩), [5, 8], [16, 2], [43]⟩,
   ⟨2, 4, 2, (some 40), true, false, 55, 55, 550,
    (some ⟨1, 50, 460, [77, 144, 119]⟩),
    (some ⟨3, [86, 142, 87, 126], [13, 13, 7, 9], 4, [18, 23]⟩), [107], [161, 164], [50]⟩,
   ⟨2, 4, 3, (some 30), true, false, 64, 65, 650,
    (some ⟨2, 59, 550, [86, 142, 87, 126]⟩),
    (some ⟨4, [90, 91, 92, 93, 127], [13, 9, 5, 7, 20], 5, [31, 33, 41]⟩), [18, 23], [47, 48], [59]⟩,
   ⟨2, 4, 4, (some 35), false, true, 69, 70, 700,
    (some ⟨3, 70, 650, [90, 91, 92, 93, 127]⟩),
    none, [31, 33, 41], [], [70]⟩]),
  (train_ko3_102, [
   ⟨3, 102, 0, (some 16), true, false, 79, 80, 800,
    none,
    (some ⟨1, [83, 101, 84, 121], [9, 19, 8, 10], 5, [5, 8, 9]⟩), [], [62, 64, 69, 71, 87, 92], [79]⟩,
   ⟨3, 102, 1, (some 3), true, false, 86, 87, 870,
    (some ⟨0, 85, 800, [83, 101, 84, 121]⟩),
    none, [5, 8, 9], [], [85]⟩]),
  (train_ko3_6, [
   ⟨4, 6, 0, (some 14), true, false, 77, 77, 770,
    none,
    (some ⟨1, [83, 101, 84, 121], [9, 19, 8, 8], 4, [5, 8]⟩), [], [61, 64, 69, 71, 87, 92], [77]⟩,
   ⟨4, 6, 1, (some 1), true, false, 83, 83, 830,
    (some ⟨0, 81, 770, [83, 101, 84, 121]⟩),
    (some ⟨2, [77, 144, 119], [15, 14, 8], 4, [107]⟩), [5, 8], [16, 2], [81]⟩,
   ⟨4, 6, 2, (some 40), true, false, 91, 91, 910,
    (some ⟨1, 87, 830, [77, 144, 119]⟩),
    (some ⟨3, [86, 142, 87, 126], [13, 13, 7, 9], 4, [18, 23]⟩), [107], [161, 164], [87]⟩,
   ⟨4, 6, 3, (some 30), true, false, 100, 101, 1010,
    (some ⟨2, 95, 910, [86, 142, 87, 126]⟩),
    (some ⟨4, [90, 91, 92, 93, 127], [13, 9, 5, 7, 20], 5, [31, 33, 41]⟩), [18, 23], [47, 48], [95]⟩,
   ⟨4, 6, 4, (some 35), false, true, 105, 106, 1060,
    (some ⟨3, 106, 1010, [90, 91, 92, 93, 127]⟩),
    none, [31, 33, 41], [], [106]⟩]),
  (train_ko3_4604, [
   ⟨5, 4604, 0, (some 10), true, false, 88, 92, 920,
    none,
    (some ⟨1, [83, 101, 84, 121], [9, 12, 6, 7], 3, [5, 8]⟩), [], [66, 68, 71, 87, 92], [88]⟩,
   ⟨5, 4604, 1, (some 1), true, false, 92, 96, 960,
    (some ⟨0, 95, 920, [83, 101, 84, 121]⟩),
    (some ⟨2, [77, 144, 119], [11, 9, 8], 3, [107]⟩), [5, 8], [16, 2], [95]⟩,
   ⟨5, 4604, 2, (some 40), true, false, 96, 100, 1000,
    (some ⟨1, 99, 960, [77, 144, 119]⟩),
    (some ⟨3, [86, 142, 87, 126], [13, 7, 7, 9], 4, [18, 23]⟩), [107], [161, 164], [99]⟩,
   ⟨5, 4604, 3, (some 30), true, false, 104, 106, 1060,
    (some ⟨2, 104, 1000, [86, 142, 87, 126]⟩),
    (some ⟨4, [90, 91, 92, 93, 127], [13, 9, 5, 7, 20], 5, [31, 34, 43]⟩), [18, 23], [47, 48], [104]⟩,
   ⟨5, 4604, 4, (some 38), true, false, 114, 114, 1140,
    (some ⟨3, 111, 1060, [90, 91, 92, 93, 127]⟩),
    none, [31, 34, 43], [], [111]⟩]),
  (train_ko3_8, [
   ⟨6, 8, 0, (some 14), true, false, 114, 114, 1140,
    none,
    (some ⟨1, [83, 101, 84, 121], [9, 19, 8, 8], 4, [5, 8]⟩), [], [61, 64, 69, 71, 87, 92], [114]⟩,
   ⟨6, 8, 1, (some 1), true, false, 120, 120, 1200,
    (some ⟨0, 118, 1140, [83, 101, 84, 121]⟩),
    (some ⟨2, [77, 144, 119], [15, 14, 8], 4, [107]⟩), [5, 8], [16, 2], [118]⟩,
   ⟨6, 8, 2, (some 40), true, false, 126, 127, 1270,
    (some ⟨1, 124, 1200, [77, 144, 119]⟩),
    (some ⟨3, [86, 142, 87, 126], [13, 13, 7, 9], 4, [18, 23]⟩), [107], [161, 164], [124]⟩,
   ⟨6, 8, 3, (some 30), true, false, 133, 133, 1330,
    (some ⟨2, 131, 1270, [86, 142, 87, 126]⟩),
    (some ⟨4, [90, 91, 92, 93, 127], [13, 9, 5, 7, 20], 5, [31, 33, 41]⟩), [18, 23], [47, 48], [131]⟩,
   ⟨6, 8, 4, (some 35), false, true, 138, 138, 1380,
    (some ⟨3, 138, 1330, [90, 91, 92, 93, 127]⟩),
    none, [31, 33, 41], [], [138]⟩]),
  (train_ko3_10, [
   ⟨7, 10, 0, (some 14), true, false, 127, 127, 1270,
    none,
    (some ⟨1, [83, 101, 84, 121], [9, 19, 8, 8], 4, [5, 8]⟩), [], [61, 64, 69, 71, 87, 92], [127]⟩,
   ⟨7, 10, 1, (some 1), true, false, 133, 133, 1330,
    (some ⟨0, 131, 1270, [83, 101, 84, 121]⟩),
    (some ⟨2, [77, 144, 119], [15, 14, 8], 4, [107]⟩), [5, 8], [16, 2], [131]⟩,
   ⟨7, 10, 2, (some 40), true, false, 141, 141, 1410,
    (some ⟨1, 137, 1330, [77, 144, 119]⟩),
    (some ⟨3, [86, 142, 87, 126], [13, 13, 7, 9], 4, [18, 23]⟩), [107], [161, 164], [137]⟩,
   ⟨7, 10, 3, (some 30), true, false, 152, 152, 1520,
    (some ⟨2, 145, 1410, [86, 142, 87, 126]⟩),
    (some ⟨4, [90, 91, 92, 93, 127], [13, 9, 5, 7, 20], 5, [31, 33, 41]⟩), [18, 23], [47, 48], [145]⟩,
   ⟨7, 10, 4, (some 35), false, true, 157, 157, 1570,
    (some ⟨3, 157, 1520, [90, 91, 92, 93, 127]⟩),
    none, [31, 33, 41], [], [157]⟩]),
  (train_ko3_4606, [
   ⟨8, 4606, 0, (some 10), true, false, 142, 142, 1420,
    none,
    (some ⟨1, [83, 101, 84, 121], [9, 12, 6, 7], 3, [5, 8]⟩), [], [66, 68, 71, 87, 92], [142]⟩,
   ⟨8, 4606, 1, (some 1), true, false, 147, 147, 1470,
    (some ⟨0, 145, 1420, [83, 101, 84, 121]⟩),
    (some ⟨2, [77, 144, 119], [11, 9, 8], 3, [107]⟩), [5, 8], [16, 2], [145]⟩,
   ⟨8, 4606, 2, (some 40), true, false, 151, 151, 1510,
    (some ⟨1, 150, 1470, [77, 144, 119]⟩),
    (some ⟨3, [86, 142, 87, 126], [13, 7, 7, 9], 4, [18, 23]⟩), [107], [161, 164], [150]⟩,
   ⟨8, 4606, 3, (some 30), true, false, 159, 159, 1590,
    (some ⟨2, 155, 1510, [86, 142, 87, 126]⟩),
    (some ⟨4, [90, 91, 92, 93, 127], [13, 9, 5, 7, 20], 5, [31, 34, 43]⟩), [18, 23], [47, 48], [155]⟩,
   ⟨8, 4606, 4, (some 38), true, false, 167, 167, 1670,
    (some ⟨3, 164, 1590, [90, 91, 92, 93, 127]⟩),
    none, [31, 34, 43], [], [164]⟩]),
  (train_ko3_12, [
   ⟨9, 12, 0, (some 14), true, false, 180, 180, 1800,
    none,
    (some ⟨1, [83, 101, 84, 121], [9, 19, 8, 8], 4, [5, 8]⟩), [], [61, 64, 69, 71, 87, 92], [180]⟩,
   ⟨9, 12, 1, (some 1), true, false, 186, 186, 1860,
    (some ⟨0, 184, 1800, [83, 101, 84, 121]⟩),
    (some ⟨2, [77, 144, 119], [15, 14, 8], 4, [107]⟩), [5, 8], [16, 2], [184]⟩,
   ⟨9, 12, 2, (some 40), true, false, 191, 191, 1910,
    (some ⟨1, 190, 1860, [77, 144, 119]⟩),
    (some ⟨3, [86, 142, 87, 126], [13, 13, 7, 9], 4, [18, 23]⟩), [107], [161, 164], [190]⟩,
   ⟨9, 12, 3, (some 30), true, false, 197, 197, 1970,
    (some ⟨2, 195, 1910, [86, 142, 87, 126]⟩),
    (some ⟨4, [90, 91, 92, 93, 127], [13, 9, 5, 7, 20], 5, [31, 33, 41]⟩), [18, 23], [47, 48], [195]⟩,
   ⟨9, 12, 4, (some 35), false, true, 202, 202, 2020,
    (some ⟨3, 202, 1970, [90, 91, 92, 93, 127]⟩),
    none, [31, 33, 41], [], [202]⟩]),
  (train_ko3_14, [
   ⟨10, 14, 0, (some 14), true, false, 164, 164, 1640,
    none,
    (some ⟨1, [83, 101, 84, 121], [9, 19, 8, 8], 4, [5, 8]⟩), [], [61, 64, 69, 71, 87, 92], [164]⟩,
   ⟨10, 14, 1, (some 1), true, false, 180, 180, 1800,
    (some ⟨0, 168, 1640, [83, 101, 84, 121]⟩),
    (some ⟨2, [77, 144, 119], [15, 14, 8], 4, [107]⟩), [5, 8], [16, 2], [168]⟩,
   ⟨10, 14, 2, (some 40), true, false, 185, 185, 1850,
    (some ⟨1, 184, 1800, [77, 144, 119]⟩),
    (some ⟨3, [86, 142, 87, 126], [13, 13, 7, 9], 4, [18, 23]⟩), [107], [161, 164], [184]⟩,
   ⟨10, 14, 3, (some 30), true, false, 192, 192, 1920,
    (some ⟨2, 189, 1850, [86, 142, 87, 126]⟩),
    (some ⟨4, [90, 91, 92, 93, 127], [13, 9, 5, 7, 20], 5, [31, 33, 41]⟩), [18, 23], [47, 48], [189]⟩,
   ⟨10, 14, 4, (some 35), false, true, 197, 197, 1970,
    (some ⟨3, 197, 1920, [90, 91, 92, 93, 127]⟩),
    none, [31, 33, 41], [], [197]⟩]),
  (train_ko3_1, [
   ⟨11, 1, 4, (some 36), true, false, -2, -2, -20,
    none,
    (some ⟨3, [127, 93, 92, 91, 90], [18, 7, 6, 8, 12], 5, [48, 47, 46]⟩), [], [31, 33], [-2]⟩,
   ⟨11, 1, 3, (some 31), true, false, 8, 8, 80,
    (some ⟨4, 3, -20, [127, 93, 92, 91, 90]⟩),
    (some ⟨2, [126, 87, 142, 86], [23, 5, 19, 16], 6, [160, 161, 164]⟩), [48, 47, 46], [18, 23, 24], [3]⟩,
   ⟨11, 1, 2, (some 41), true, false, 17, 17, 170,
    (some ⟨3, 14, 80, [126, 87, 142, 86]⟩),
    (some ⟨1, [85, 145, 125], [11, 17, 9], 4, [17, 19]⟩), [160, 161, 164], [106], [14]⟩,
   ⟨11, 1, 1, (some 2), true, false, 26, 26, 260,
    (some ⟨2, 21, 170, [85, 145, 125]⟩),
    (some ⟨0, [121, 84, 101, 83], [8, 13, 22, 10], 5, [82, 84, 86, 89, 90, 92]⟩), [17, 19], [5, 8], [21]⟩,
   ⟨11, 1, 0, (some 15), false, true, 31, 31, 310,
    (some ⟨1, 31, 260, [121, 84, 101, 83]⟩),
    none, [82, 84, 86, 89, 90, 92], [], [31]⟩]),
  (train_ko3_101, [
   ⟨12, 101, 1, (some 4), true, false, 30, 30, 300,
    none,
    (some ⟨0, [121, 84, 101, 83], [8, 13, 22, 10], 5, [82, 84, 86, 89, 90, 92]⟩), [], [5, 6, 7], [30]⟩,
   ⟨12, 101, 0, (some 39), false, true, 35, 35, 350,
    (some ⟨1, 35, 300, [121, 84, 101, 83]⟩),
    none, [82, 84, 86, 89, 90, 92], [], [35]⟩]),
  (train_ko3_6401, [
   ⟨13, 6401, 4, (some 36), true, false, 32, 32, 320,
    none,
    (some ⟨3, [127, 93, 92, 91, 90], [18, 7, 6, 8, 12], 5, [48, 47, 46]⟩), [], [31, 33], [32]⟩,
   ⟨13, 6401, 3, (some 31), true, false, 39, 39, 390,
    (some ⟨4, 37, 320, [127, 93, 92, 91, 90]⟩),
    (some ⟨2, [126, 87, 142, 86], [23, 5, 9, 16], 5, [160, 161, 164]⟩), [48, 47, 46], [18, 23, 24], [37]⟩,
   ⟨13, 6401, 2, (some 41), true, false, 45, 45, 450,
    (some ⟨3, 44, 390, [126, 87, 142, 86]⟩),
    (some ⟨1, [85, 145, 125], [11, 7, 9], 3, [17, 19]⟩), [160, 161, 164], [106], [44]⟩,
   ⟨13, 6401, 1, (some 2), true, false, 50, 50, 500,
    (some ⟨2, 48, 450, [85, 145, 125]⟩),
    (some ⟨0, [121, 84, 101, 83], [8, 11, 12, 10], 4, [81, 85, 88, 81, 92]⟩), [17, 19], [5, 8], [48]⟩,
   ⟨13, 6401, 0, (some 13), false, true, 54, 54, 540,
    (some ⟨1, 54, 500, [121, 84, 101, 83]⟩),
    none, [81, 85, 88, 81, 92], [], [54]⟩]),
  (train_ko3_3, [
   ⟨14, 3, 4, (some 36), true, false, 54, 59, 590,
    none,
    (some ⟨3, [127, 93, 92, 91, 90], [18, 7, 6, 8, 12], 5, [48, 47, 46]⟩), [], [31, 33], [54]⟩,
   ⟨14, 3, 3, (some 31), true, false, 64, 66, 660,
    (some ⟨4, 64, 590, [127, 93, 92, 91, 90]⟩),
    (some ⟨2, [126, 87, 142, 86], [23, 5, 19, 16], 6, [160, 161, 164]⟩), [48, 47, 46], [18, 23, 24], [64]⟩,
   ⟨14, 3, 2, (some 41), true, false, 73, 74, 740,
    (some ⟨3, 72, 660, [126, 87, 142, 86]⟩),
    (some ⟨1, [85, 145, 125], [11, 17, 9], 4, [17, 19]⟩), [160, 161, 164], [106], [72]⟩,
   ⟨14, 3, 1, (some 2), true, false, 82, 86, 860,
    (some ⟨2, 78, 740, [85, 145, 125]⟩),
    (some ⟨0, [121, 84, 101, 83], [8, 13, 22, 10], 5, [82, 84, 86, 89, 90, 92]⟩), [17, 19], [5, 8], [78]⟩,
   ⟨14, 3, 0, (some 15), false, true, 87, 91, 910,
    (some ⟨1, 91, 860, [121, 84, 101, 83]⟩),
    none, [82, 84, 86, 89, 90, 92], [], [91]⟩]),
  (train_ko3_103, [
   ⟨15, 103, 1, (some 4), true, false, 180, 185, 1850,
    none,
    (some ⟨0, [121, 84, 101, 83], [8, 13, 22, 10], 5, [82, 84, 86, 89, 90, 92]⟩), [], [5, 6, 7], [180]⟩,
   ⟨15, 103, 0, (some 39), false, true, 185, 190, 1900,
    (some ⟨1, 190, 1850, [121, 84, 101, 83]⟩),
    none, [82, 84, 86, 89, 90, 92], [], [190]⟩]),
  (train_ko3_5, [
   ⟨16, 5, 4, (some 36), true, false, 94, 95, 950,
    none,
    (some ⟨3, [127, 93, 92, 91, 90], [18, 7, 6, 8, 12], 5, [48, 47, 46]⟩), [], [31, 33], [94]⟩,
   ⟨16, 5, 3, (some 31), true, false, 102, 105, 1050,
    (some ⟨4, 100, 950, [127, 93, 92, 91, 90]⟩),
    (some ⟨2, [126, 87, 142, 86], [23, 5, 19, 16], 6, [160, 161, 164]⟩), [48, 47, 46], [18, 23, 24], [100]⟩,
   ⟨16, 5, 2, (some 41), true, false, 110, 113, 1130,
    (some ⟨3, 111, 1050, [126, 87, 142, 86]⟩),
    (some ⟨1, [85, 145, 125], [11, 17, 9], 4, [17, 19]⟩), [160, 161, 164], [106], [111]⟩,
   ⟨16, 5, 1, (some 2), true, false, 119, 119, 1190,
    (some ⟨2, 117, 1130, [85, 145, 125]⟩),
    (some ⟨0, [121, 84, 101, 83], [8, 13, 22, 10], 5, [82, 84, 86, 89, 90, 92]⟩), [17, 19], [5, 8], [117]⟩,
   ⟨16, 5, 0, (some 15), false, true, 124, 124, 1240,
    (some ⟨1, 124, 1190, [121, 84, 101, 83]⟩),
    none, [82, 84, 86, 89, 90, 92], [], [124]⟩]),
  (train_ko3_6403, [
   ⟨17, 6403, 4, (some 36), true, false, 114, 114, 1140,
    none,
    (some ⟨3, [127, 93, 92, 91, 90], [18, 7, 6, 8, 12], 5, [48, 47, 46]⟩), [], [31, 33], [114]⟩,
   ⟨17, 6403, 3, (some 31), true, false, 121, 121, 1210,
    (some ⟨4, 119, 1140, [127, 93, 92, 91, 90]⟩),
    (some ⟨2, [126, 87, 142, 86], [23, 5, 9, 16], 5, [160, 161, 164]⟩), [48, 47, 46], [18, 23, 24], [119]⟩,
   ⟨17, 6403, 2, (some 41), true, false, 127, 127, 1270,
    (some ⟨3, 126, 1210, [126, 87, 142, 86]⟩),
    (some ⟨1, [85, 145, 125], [11, 7, 9], 3, [17, 19]⟩), [160, 161, 164], [106], [126]⟩,
   ⟨17, 6403, 1, (some 2), true, false, 132, 132, 1320,
    (some ⟨2, 130, 1270, [85, 145, 125]⟩),
    (some ⟨0, [121, 84, 101, 83], [8, 11, 12, 10], 4, [81, 85, 88, 81, 92]⟩), [17, 19], [5, 8], [130]⟩,
   ⟨17, 6403, 0, (some 13), false, true, 136, 136, 1360,
    (some ⟨1, 136, 1320, [121, 84, 101, 83]⟩),
    none, [81, 85, 88, 81, 92], [], [136]⟩]),
  (train_ko3_7, [
   ⟨18, 7, 4, (some 36), true, false, 127, 127, 1270,
    none,
    (some ⟨3, [127, 93, 92, 91, 90], [18, 7, 6, 8, 12], 5, [48, 47, 46]⟩), [], [31, 33], [127]⟩,
   ⟨18, 7, 3, (some 31), true, false, 134, 134, 1340,
    (some ⟨4, 132, 1270, [127, 93, 92, 91, 90]⟩),
    (some ⟨2, [126, 87, 142, 86], [23, 5, 19, 16], 6, [160, 161, 164]⟩), [48, 47, 46], [18, 23, 24], [132]⟩,
   ⟨18, 7, 2, (some 41), true, false, 143, 143, 1430,
    (some ⟨3, 140, 1340, [126, 87, 142, 86]⟩),
    (some ⟨1, [85, 145, 125], [11, 17, 9], 4, [17, 19]⟩), [160, 161, 164], [106], [140]⟩,
   ⟨18, 7, 1, (some 2), true, false, 151, 151, 1510,
    (some ⟨2, 147, 1430, [85, 145, 125]⟩),
    (some ⟨0, [121, 84, 101, 83], [8, 13, 22, 10], 5, [82, 84, 86, 89, 90, 92]⟩), [17, 19], [5, 8], [147]⟩,
   ⟨18, 7, 0, (some 15), false, true, 156, 156, 1560,
    (some ⟨1, 156, 1510, [121, 84, 101, 83]⟩),
    none, [82, 84, 86, 89, 90, 92], [], [156]⟩]),
  (train_ko3_9, [
   ⟨19, 9, 4, (some 36), true, false, 146, 146, 1460,
    none,
    (some ⟨3, [127, 93, 92, 91, 90], [18, 7, 6, 8, 12], 5, [48, 47, 46]⟩), [], [31, 33], [146]⟩,
   ⟨19, 9, 3, (some 31), true, false, 159, 159, 1590,
    (some ⟨4, 151, 1460, [127, 93, 92, 91, 90]⟩),
    (some ⟨2, [126, 87, 142, 86], [23, 5, 19, 16], 6, [160, 161, 164]⟩), [48, 47, 46], [18, 23, 24], [151]⟩,
   ⟨19, 9, 2, (some 41), true, false, 167, 167, 1670,
    (some ⟨3, 165, 1590, [126, 87, 142, 86]⟩),
    (some ⟨1, [85, 145, 125], [11, 17, 9], 4, [17, 19]⟩), [160, 161, 164], [106], [165]⟩,
   ⟨19, 9, 1, (some 2), true, false, 174, 174, 1740,
    (some ⟨2, 171, 1670, [85, 145, 125]⟩),
    (some ⟨0, [121, 84, 101, 83], [8, 13, 22, 10], 5, [82, 84, 86, 89, 90, 92]⟩), [17, 19], [5, 8], [171]⟩,
   ⟨19, 9, 0, (some 15), false, true, 179, 179, 1790,
    (some ⟨1, 179, 1740, [121, 84, 101, 83]⟩),
    none, [82, 84, 86, 89, 90, 92], [], [179]⟩]),
  (train_ko3_11, [
   ⟨20, 11, 4, (some 36), true, false, 167, 167, 1670,
    none,
    (some ⟨3, [127, 93, 92, 91, 90], [18, 7, 6, 8, 12], 5, [48, 47, 46]⟩), [], [31, 33], [167]⟩,
   ⟨20, 11, 3, (some 31), true, false, 175, 175, 1750,
    (some ⟨4, 172, 1670, [127, 93, 92, 91, 90]⟩),
    (some ⟨2, [126, 87, 142, 86], [23, 5, 19, 16], 6, [160, 161, 164]⟩), [48, 47, 46], [18, 23, 24], [172]⟩,
   ⟨20, 11, 2, (some 41), true, false, 187, 187, 1870,
    (some ⟨3, 181, 1750, [126, 87, 142, 86]⟩),
    (some ⟨1, [85, 145, 125], [11, 17, 9], 4, [17, 19]⟩), [160, 161, 164], [106], [181]⟩,
   ⟨20, 11, 1, (some 2), true, false, 194, 194, 1940,
    (some ⟨2, 191, 1870, [85, 145, 125]⟩),
    (some ⟨0, [121, 84, 101, 83], [8, 13, 22, 10], 5, [82, 84, 86, 89, 90, 92]⟩), [17, 19], [5, 8], [191]⟩,
   ⟨20, 11, 0, (some 15), false, true, 199, 199, 1990,
    (some ⟨1, 199, 1940, [121, 84, 101, 83]⟩),
    none, [82, 84, 86, 89, 90, 92], [], [199]⟩])]

theorem ko3n2Plan_sections : ko3n2Plan.map Prod.fst = ko3 := rfl

theorem ko3n2Plan_ok : netKoR.PlanOK "14:00" ko3n2Delays 40 netKoRSpecial ko3n2Plan :=
  ko3Plan_ok.again rfl (by decide +kernel) (by decide +kernel) (by decide +kernel) (by decide +kernel)

theorem ko3n2_cost : netKoR.costOK ko3n2Plan 48 = true := by decide +kernel

/-- the departures: train and station -/
def ko3n2Nodes : List (Nat × Nat) := [
  (16, 4), (1, 3), (1, 4), (17, 4), (5, 3), (5, 4), (14, 4), (0, 3), (9, 0), (15, 1), (9, 1),
  (9, 2), (9, 3), (14, 1), (3, 0), (3, 1), (5, 0), (16, 3), (5, 2), (2, 3), (14, 3), (14, 2),
  (4, 3), (4, 0), (4, 1), (4, 2), (16, 2), (16, 1)]

/-- the choices -/
def ko3n2Choices : List CodedNet.Choice := [
  .against 1 16 3 4, .against 5 16 3 4, .against 5 17 3 4, .against 0 14 3 4, .against 15 9 1 0,
  .against 3 14 0 1, .against 14 4 1 0, .against 14 5 1 0, .against 5 16 2 3, .against 14 2 4 3,
  .against 16 4 4 3, .first 3 4 0]

/-- the inequalities -/
def ko3n2Arcs : ArcTree :=
  .node ⟨.come, 2, 1, 2, 6, 0, false⟩ (.node ⟨.run, 0, 2, 3, 6, 0, false⟩ (.node
  ⟨.come, 6, 4, 5, 6, 0, false⟩ (.node ⟨.come, 9, 10, 9, 6, 0, false⟩ (.node
  ⟨.come, 16, 17, 14, 4, 0, false⟩ (.node ⟨.run, 0, 25, 26, 5, 0, false⟩ .none .none) .none) (.node
  ⟨.come, 22, 23, 1, 6, 0, false⟩ .none .none)) (.node ⟨.come, 7, 8, 7, 6, 0, false⟩ (.node
  ⟨.run, 0, 7, 21, 7, 0, false⟩ (.node ⟨.run, 0, 18, 27, 8, 0, false⟩ .none .none) .none) (.node
  ⟨.follow, 23, 15, 24, 3, 0, false⟩ .none .none))) (.node ⟨.come, 8, 7, 8, 6, 0, false⟩ (.node
  ⟨.run, 0, 11, 12, 5, 0, false⟩ (.node ⟨.run, 0, 19, 5, 6, 0, false⟩ (.node
  ⟨.come, 3, 5, 1, 6, 0, false⟩ .none .none) .none) (.node ⟨.come, 21, 1, 23, 6, 0, false⟩ .none
  .none)) (.node ⟨.run, 0, 15, 16, 7, 0, false⟩ (.node ⟨.run, 0, 22, 14, 6, 0, false⟩ .none .none)
  (.node ⟨.come, 13, 14, 24, 6, 0, false⟩ .none .none)))) (.node ⟨.come, 1, 2, 1, 6, 0, false⟩
  (.node ⟨.run, 0, 5, 6, 6, 0, false⟩ (.node ⟨.run, 0, 9, 11, 6, 0, false⟩ (.node
  ⟨.come, 18, 18, 19, 7, 0, false⟩ (.node ⟨.run, 0, 26, 23, 6, 0, false⟩ .none .none) .none) (.node
  ⟨.come, 4, 1, 5, 6, 0, false⟩ .none .none)) (.node ⟨.come, 12, 14, 15, 6, 0, false⟩ (.node
  ⟨.run, 0, 21, 22, 8, 0, false⟩ (.node ⟨.run, 0, 27, 28, 6, 0, false⟩ .none .none) .none) (.node
  ⟨.come, 14, 24, 14, 5, 0, false⟩ .none .none))) (.node ⟨.come, 10, 9, 10, 5, 0, false⟩ (.node
  ⟨.run, 0, 12, 13, 6, 0, false⟩ (.node ⟨.come, 20, 20, 7, 6, 0, false⟩ (.node
  ⟨.run, 0, 1, 18, 7, 0, false⟩ .none .none) .none) (.node ⟨.follow, 24, 24, 15, 3, 0, false⟩ .none
  .none)) (.node ⟨.come, 11, 15, 14, 6, 0, false⟩ (.node ⟨.come, 19, 7, 20, 6, 0, false⟩ .none
  .none) (.node ⟨.run, 0, 24, 25, 6, 0, false⟩ .none .none))))

/-- the bounds of the departures -/
def ko3n2Times : TimeTree :=
  .node 2 0 2 (.node 96 0 136 (.node 97 6 137 (.node 56 0 96 (.node 81 0 121 .none .none) (.node
  102 4 142 .none .none)) (.node 188 0 228 (.node 98 0 138 .none .none) (.node 112 0 152 .none
  .none))) (.node 106 0 146 (.node 182 0 222 (.node 90 0 130 .none .none) (.node 85 0 125 .none
  .none)) (.node 199 4 239 (.node 66 0 106 .none .none) .none))) (.node 91 0 131 (.node 116 0 156
  (.node 55 4 95 (.node 88 4 128 .none .none) (.node 79 0 119 .none .none)) (.node 193 0 233 (.node
  66 4 106 .none .none) (.node 121 4 161 .none .none))) (.node 116 6 156 (.node 182 4 222 (.node
  104 0 144 .none .none) (.node 93 0 133 .none .none)) (.node 84 4 124 (.node 75 0 115 .none .none)
  .none)))

/-- some of the cases -/
def ko3n2Case0 : SumTree :=
  .cases [] 0 (.cases [2] 1 (.leaf [33, 34, 35, 36]) (.cases [] 2 (.cases [] 3 (.cases [11] 4
  (.cases [7, 8, 9, 10] 5 (.cases [14] 6 (.leaf [29, 30, 31, 32]) (.cases [] 7 (.cases [] 8 (.cases
  [] 10 (.cases [25] 11 (.leaf [27, 28]) (.leaf [26, 13, 14])) (.leaf [23, 24, 4])) (.leaf
  [16, 17, 4])) (.leaf [15]))) (.leaf [12, 13])) (.cases [6] 5 (.cases [14] 6 (.leaf
  [29, 30, 31, 32]) (.cases [] 7 (.cases [] 8 (.cases [] 9 (.cases [22] 10 (.cases [25] 11 (.leaf
  [27, 28]) (.leaf [26, 13, 14])) (.leaf [23, 24, 4])) (.leaf [18, 19, 20, 21])) (.leaf
  [16, 17, 4])) (.leaf [15]))) (.leaf [12, 13]))) (.cases [5] 4 (.leaf [7, 8, 9, 10]) (.leaf [6])))
  (.leaf [3, 4]))) (.leaf [0, 1])

/-- all cases -/
def ko3n2Cases : SumTree :=
  ko3n2Case0

theorem ko3n2_cases : ko3n2Cases.check ko3n2Arcs 48 ko3n2Choices.length [] ko3n2Times 0 = true := by
  decide +kernel

theorem ko3n2_choices : ko3n2Choices.all (CodedNet.Choice.ok netKoR netKoRSpecial ko3n2Plan) = true := by
  decide +kernel

theorem ko3n2_arcs : ko3n2Arcs.toList.all
    (netKoR.arcOK netKoRSpecial ko3n2Plan ko3n2Nodes ko3n2Choices) = true := by decide +kernel

theorem ko3n2_times : netKoR.startOK ko3n2Plan ko3n2Nodes 2 40 ko3n2Times = true := by decide +kernel

end Verif.Real
