import Verif.Proofs.PlanSum
import Verif.Proofs.PlanAgain
import Verif.Real.PlanKo3

/-!
# The sheet of `Verif.Real.Ko3` with given delays: a plan, and that no plan is better

Generated; see `CodedNet.Item` and `Verif/Proofs/SumTree.lean`. Case 3,
`disturbances[7]`, of `/repo/solve_KO_GLC_problems.py`, line 123;
`d_max` is 40. The sum of the delays that count is 176/4.
-/

namespace Verif.Real

set_option maxRecDepth 100000

/-- the given delays -/
def ko3n7Delays : List (Int × ℚ) := [
  (2, 50), (4602, 32), (4, 10), (102, 5), (1, 12), (101, 10)]

/-- the plan, items by sections -/
def ko3n7Plan : CodedNet.Plan := [
  (train_ko3_2, [
   ⟨0, 2, 0, (some 14), true, false, 50, 51, 510,
    none,
    (some ⟨1, [83, 101, 84, 121], [9, 19, 8, 8], 4, [5, 8]⟩), [], [61, 64, 69, 71, 87, 92], [50]⟩,
   ⟨0, 2, 1, (some 1), true, false, 56, 57, 570,
    (some ⟨0, 55, 510, [83, 101, 84, 121]⟩),
    (some ⟨2, [77, 144, 119], [15, 14, 8], 4, [107]⟩), [5, 8], [16, 2], [55]⟩,
   ⟨0, 2, 2, (some 40), true, false, 61, 62, 620,
    (some ⟨1, 61, 570, [77, 144, 119]⟩),
    (some ⟨3, [86, 142, 87, 126], [13, 13, 7, 9], 4, [18, 23]⟩), [107], [161, 164], [61]⟩,
   ⟨0, 2, 3, (some 30), true, false, 67, 68, 680,
    (some ⟨2, 66, 620, [86, 142, 87, 126]⟩),
    (some ⟨4, [90, 91, 92, 93, 127], [13, 9, 5, 7, 20], 5, [31, 33, 41]⟩), [18, 23], [47, 48], [66]⟩,
   ⟨0, 2, 4, (some 35), false, true, 72, 73, 730,
    (some ⟨3, 73, 680, [90, 91, 92, 93, 127]⟩),
    none, [31, 33, 41], [], [73]⟩]),
  (train_ko3_4602, [
   ⟨1, 4602, 0, (some 10), true, false, 100, 103, 1030,
    none,
    (some ⟨1, [83, 101, 84, 121], [9, 12, 6, 7], 3, [5, 8]⟩), [], [66, 68, 71, 87, 92], [100]⟩,
   ⟨1, 4602, 1, (some 1), true, false, 105, 108, 1080,
    (some ⟨0, 106, 1030, [83, 101, 84, 121]⟩),
    (some ⟨2, [77, 144, 119], [11, 9, 8], 3, [107]⟩), [5, 8], [16, 2], [106]⟩,
   ⟨1, 4602, 2, (some 40), true, false, 109, 116, 1160,
    (some ⟨1, 111, 1080, [77, 144, 119]⟩),
    (some ⟨3, [86, 142, 87, 126], [13, 7, 7, 9], 4, [18, 23]⟩), [107], [161, 164], [111]⟩,
   ⟨1, 4602, 3, (some 30), true, false, 115, 123, 1230,
    (some ⟨2, 120, 1160, [86, 142, 87, 126]⟩),
    (some ⟨4, [90, 91, 92, 93, 127], [13, 9, 5, 7, 20], 5, [31, 34, 43]⟩), [18, 23], [47, 48], [120]⟩,
   ⟨1, 4602, 4, (some 38), true, false, 121, 129, 1290,
    (some ⟨3, 128, 1230, [90, 91, 92, 93, 127]⟩),
    none, [31, 34, 43], [], [128]⟩]),
  (train_ko3_4, [
   ⟨2, 4, 0, (some 14), true, false, 48, 48, 480,
    none,
    (some ⟨1, [83, 101, 84, 121], [9, 19, 8, 8], 4, [5, 8]⟩), [], [61, 64, 69, 71, 87, 92], [48]⟩,
   ⟨2, 4, 1, (some 1), true, false, 54, 54, 540,
    (some ⟨0, 52, 480, [83, 101, 84, 121]⟩),
    (some ⟨2, [77, 144, 119], [15, 14, 8], 4, [107]⟩), [5, 8], [16, 2], [52]⟩,
   ⟨2, 4, 2, (some 40), true, false, 59, 59, 590,
    (some ⟨1, 58, 540, [77, 144, 119]⟩),
    (some ⟨3, [86, 142, 87, 126], [13, 13, 7, 9], 4, [18, 23]⟩), [107], [161, 164], [58]⟩,
   ⟨2, 4, 3, (some 30), true, false, 65, 65, 650,
    (some ⟨2, 63, 590, [86, 142, 87, 126]⟩),
    (some ⟨4, [90, 91, 92, 93, 127], [13, 9, 5, 7, 20], 5, [31, 33, 41]⟩), [18, 23], [47, 48], [63]⟩,
   ⟨2, 4, 4, (some 35), false, true, 70, 70, 700,
    (some ⟨3, 70, 650, [90, 91, 92, 93, 127]⟩),
    none, [31, 33, 41], [], [70]⟩]),
  (train_ko3_102, [
   ⟨3, 102, 0, (some 16), true, false, 98, 100, 1000,
    none,
    (some ⟨1, [83, 101, 84, 121], [9, 19, 8, 10], 5, [5, 8, 9]⟩), [], [62, 64, 69, 71, 87, 92], [98]⟩,
   ⟨3, 102, 1, (some 3), true, false, 105, 107, 1070,
    (some ⟨0, 105, 1000, [83, 101, 84, 121]⟩),
    none, [5, 8, 9], [], [105]⟩]),
  (train_ko3_6, [
   ⟨4, 6, 0, (some 14), true, false, 77, 77, 770,
    none,
    (some ⟨1, [83, 101, 84, 121], [9, 19, 8, 8], 4, [5, 8]⟩), [], [61, 64, 69, 71, 87, 92], [77]⟩,
   ⟨4, 6, 1, (some 1), true, false, 83, 83, 830,
    (some ⟨0, 81, 770, [83, 101, 84, 121]⟩),
    (some ⟨2, [77, 144, 119], [15, 14, 8], 4, [107]⟩), [5, 8], [16, 2], [81]⟩,
   ⟨4, 6, 2, (some 40), true, false, 91, 91, 910,
    (some ⟨1, 87, 830, [77, 144, 119]⟩),
    (some ⟨3, [86, 142, 87, 126], [13, 13, 7, 9], 4, [18, 23]⟩), [107], [161, 164], [87]⟩,
   ⟨4, 6, 3, (some 30), true, false, 100, 100, 1000,
    (some ⟨2, 95, 910, [86, 142, 87, 126]⟩),
    (some ⟨4, [90, 91, 92, 93, 127], [13, 9, 5, 7, 20], 5, [31, 33, 41]⟩), [18, 23], [47, 48], [95]⟩,
   ⟨4, 6, 4, (some 35), false, true, 105, 105, 1050,
    (some ⟨3, 105, 1000, [90, 91, 92, 93, 127]⟩),
    none, [31, 33, 41], [], [105]⟩]),
  (train_ko3_4604, [
   ⟨5, 4604, 0, (some 10), true, false, 98, 98, 980,
    none,
    (some ⟨1, [83, 101, 84, 121], [9, 12, 6, 7], 3, [5, 8]⟩), [], [66, 68, 71, 87, 92], [98]⟩,
   ⟨5, 4604, 1, (some 1), true, false, 102, 102, 1020,
    (some ⟨0, 101, 980, [83, 101, 84, 121]⟩),
    (some ⟨2, [77, 144, 119], [11, 9, 8], 3, [107]⟩), [5, 8], [16, 2], [101]⟩,
   ⟨5, 4604, 2, (some 40), true, false, 106, 109, 1090,
    (some ⟨1, 105, 1020, [77, 144, 119]⟩),
    (some ⟨3, [86, 142, 87, 126], [13, 7, 7, 9], 4, [18, 23]⟩), [107], [161, 164], [105]⟩,
   ⟨5, 4604, 3, (some 30), true, false, 112, 120, 1200,
    (some ⟨2, 113, 1090, [86, 142, 87, 126]⟩),
    (some ⟨4, [90, 91, 92, 93, 127], [13, 9, 5, 7, 20], 5, [31, 34, 43]⟩), [18, 23], [47, 48], [113]⟩,
   ⟨5, 4604, 4, (some 38), true, false, 118, 126, 1260,
    (some ⟨3, 125, 1200, [90, 91, 92, 93, 127]⟩),
    none, [31, 34, 43], [], [125]⟩]),
  (train_ko3_8, [
   ⟨6, 8, 0, (some 14), true, false, 114, 114, 1140,
    none,
    (some ⟨1, [83, 101, 84, 121], [9, 19, 8, 8], 4, [5, 8]⟩), [], [61, 64, 69, 71, 87, 92], [114]⟩,
   ⟨6, 8, 1, (some 1), true, false, 120, 120, 1200,
    (some ⟨0, 118, 1140, [83, 101, 84, 121]⟩),
    (some ⟨2, [77, 144, 119], [15, 14, 8], 4, [107]⟩), [5, 8], [16, 2], [118]⟩,
   ⟨6, 8, 2, (some 40), true, false, 126, 127, 1270,
    (some ⟨1, 124, 1200, [77, 144, 119]⟩),
    (some ⟨3, [86, 142, 87, 126], [13, 13, 7, 9], 4, [18, 23]⟩), [107], [161, 164], [124]⟩,
   ⟨6, 8, 3, (some 30), true, false, 133, 135, 1350,
    (some ⟨2, 131, 1270, [86, 142, 87, 126]⟩),
    (some ⟨4, [90, 91, 92, 93, 127], [13, 9, 5, 7, 20], 5, [31, 33, 41]⟩), [18, 23], [47, 48], [131]⟩,
   ⟨6, 8, 4, (some 35), false, true, 138, 140, 1400,
    (some ⟨3, 140, 1350, [90, 91, 92, 93, 127]⟩),
    none, [31, 33, 41], [], [140]⟩]),
  (train_ko3_10, [
   ⟨7, 10, 0, (some 14), true, false, 127, 127, 1270,
    none,
    (some ⟨1, [83, 101, 84, 121], [9, 19, 8, 8], 4, [5, 8]⟩), [], [61, 64, 69, 71, 87, 92], [127]⟩,
   ⟨7, 10, 1, (some 1), true, false, 133, 133, 1330,
    (some ⟨0, 131, 1270, [83, 101, 84, 121]⟩),
    (some ⟨2, [77, 144, 119], [15, 14, 8], 4, [107]⟩), [5, 8], [16, 2], [131]⟩,
   ⟨7, 10, 2, (some 40), true, false, 141, 143, 1430,
    (some ⟨1, 137, 1330, [77, 144, 119]⟩),
    (some ⟨3, [86, 142, 87, 126], [13, 13, 7, 9], 4, [18, 23]⟩), [107], [161, 164], [137]⟩,
   ⟨7, 10, 3, (some 30), true, false, 152, 152, 1520,
    (some ⟨2, 147, 1430, [86, 142, 87, 126]⟩),
    (some ⟨4, [90, 91, 92, 93, 127], [13, 9, 5, 7, 20], 5, [31, 33, 41]⟩), [18, 23], [47, 48], [147]⟩,
   ⟨7, 10, 4, (some 35), false, true, 157, 157, 1570,
    (some ⟨3, 157, 1520, [90, 91, 92, 93, 127]⟩),
    none, [31, 33, 41], [], [157]⟩]),
  (train_ko3_4606, [
   ⟨8, 4606, 0, (some 10), true, false, 142, 142, 1420,
    none,
    (some ⟨1, [83, 101, 84, 121], [9, 12, 6, 7], 3, [5, 8]⟩), [], [66, 68, 71, 87, 92], [142]⟩,
   ⟨8, 4606, 1, (some 1), true, false, 147, 147, 1470,
    (some ⟨0, 145, 1420, [83, 101, 84, 121]⟩),
    (some ⟨2, [77, 144, 119], [11, 9, 8], 3, [107]⟩), [5, 8], [16, 2], [145]⟩,
   ⟨8, 4606, 2, (some 40), true, false, 151, 151, 1510,
    (some ⟨1, 150, 1470, [77, 144, 119]⟩),
    (some ⟨3, [86, 142, 87, 126], [13, 7, 7, 9], 4, [18, 23]⟩), [107], [161, 164], [150]⟩,
   ⟨8, 4606, 3, (some 30), true, false, 159, 159, 1590,
    (some ⟨2, 155, 1510, [86, 142, 87, 126]⟩),
    (some ⟨4, [90, 91, 92, 93, 127], [13, 9, 5, 7, 20], 5, [31, 34, 43]⟩), [18, 23], [47, 48], [155]⟩,
   ⟨8, 4606, 4, (some 38), true, false, 167, 167, 1670,
    (some ⟨3, 164, 1590, [90, 91, 92, 93, 127]⟩),
    none, [31, 34, 43], [], [164]⟩]),
  (train_ko3_12, [
   ⟨9, 12, 0, (some 14), true, false, 194, 194, 1940,
    none,
    (some ⟨1, [83, 101, 84, 121], [9, 19, 8, 8], 4, [5, 8]⟩), [], [61, 64, 69, 71, 87, 92], [194]⟩,
   ⟨9, 12, 1, (some 1), true, false, 200, 200, 2000,
    (some ⟨0, 198, 1940, [83, 101, 84, 121]⟩),
    (some ⟨2, [77, 144, 119], [15, 14, 8], 4, [107]⟩), [5, 8], [16, 2], [198]⟩,
   ⟨9, 12, 2, (some 40), true, false, 205, 205, 2050,
    (some ⟨1, 204, 2000, [77, 144, 119]⟩),
    (some ⟨3, [86, 142, 87, 126], [13, 13, 7, 9], 4, [18, 23]⟩), [107], [161, 164], [204]⟩,
   ⟨9, 12, 3, (some 30), true, false, 211, 211, 2110,
    (some ⟨2, 209, 2050, [86, 142, 87, 126]⟩),
    (some ⟨4, [90, 91, 92, 93, 127], [13, 9, 5, 7, 20], 5, [31, 33, 41]⟩), [18, 23], [47, 48], [209]⟩,
   ⟨9, 12, 4, (some 35), false, true, 216, 216, 2160,
    (some ⟨3, 216, 2110, [90, 91, 92, 93, 127]⟩),
    none, [31, 33, 41], [], [216]⟩]),
  (train_ko3_14, [
   ⟨10, 14, 0, (some 14), true, false, 174, 186, 1860,
    none,
    (some ⟨1, [83, 101, 84, 121], [9, 19, 8, 8], 4, [5, 8]⟩), [], [61, 64, 69, 71, 87, 92], [174]⟩,
   ⟨10, 14, 1, (some 1), true, false, 180, 192, 1920,
    (some ⟨0, 190, 1860, [83, 101, 84, 121]⟩),
    (some ⟨2, [77, 144, 119], [15, 14, 8], 4, [107]⟩), [5, 8], [16, 2], [190]⟩,
   ⟨10, 14, 2, (some 40), true, false, 185, 197, 1970,
    (some ⟨1, 196, 1920, [77, 144, 119]⟩),
    (some ⟨3, [86, 142, 87, 126], [13, 13, 7, 9], 4, [18, 23]⟩), [107], [161, 164], [196]⟩,
   ⟨10, 14, 3, (some 30), true, false, 192, 203, 2030,
    (some ⟨2, 201, 1970, [86, 142, 87, 126]⟩),
    (some ⟨4, [90, 91, 92, 93, 127], [13, 9, 5, 7, 20], 5, [31, 33, 41]⟩), [18, 23], [47, 48], [201]⟩,
   ⟨10, 14, 4, (some 35), false, true, 197, 208, 2080,
    (some ⟨3, 208, 2030, [90, 91, 92, 93, 127]⟩),
    none, [31, 33, 41], [], [208]⟩]),
  (train_ko3_1, [
   ⟨11, 1, 4, (some 36), true, false, 10, 10, 100,
    none,
    (some ⟨3, [127, 93, 92, 91, 90], [18, 7, 6, 8, 12], 5, [48, 47, 46]⟩), [], [31, 33], [10]⟩,
   ⟨11, 1, 3, (some 31), true, false, 17, 17, 170,
    (some ⟨4, 15, 100, [127, 93, 92, 91, 90]⟩),
    (some ⟨2, [126, 87, 142, 86], [23, 5, 19, 16], 6, [160, 161, 164]⟩), [48, 47, 46], [18, 23, 24], [15]⟩,
   ⟨11, 1, 2, (some 41), true, false, 25, 25, 250,
    (some ⟨3, 23, 170, [126, 87, 142, 86]⟩),
    (some ⟨1, [85, 145, 125], [11, 17, 9], 4, [17, 19]⟩), [160, 161, 164], [106], [23]⟩,
   ⟨11, 1, 1, (some 2), true, false, 31, 31, 310,
    (some ⟨2, 29, 250, [85, 145, 125]⟩),
    (some ⟨0, [121, 84, 101, 83], [8, 13, 22, 10], 5, [82, 84, 86, 89, 90, 92]⟩), [17, 19], [5, 8], [29]⟩,
   ⟨11, 1, 0, (some 15), false, true, 36, 36, 360,
    (some ⟨1, 36, 310, [121, 84, 101, 83]⟩),
    none, [82, 84, 86, 89, 90, 92], [], [36]⟩]),
  (train_ko3_101, [
   ⟨12, 101, 1, (some 4), true, false, 52, 56, 560,
    none,
    (some ⟨0, [121, 84, 101, 83], [8, 13, 22, 10], 5, [82, 84, 86, 89, 90, 92]⟩), [], [5, 6, 7], [52]⟩,
   ⟨12, 101, 0, (some 39), false, true, 57, 61, 610,
    (some ⟨1, 61, 560, [121, 84, 101, 83]⟩),
    none, [82, 84, 86, 89, 90, 92], [], [61]⟩]),
  (train_ko3_6401, [
   ⟨13, 6401, 4, (some 36), true, false, 44, 44, 440,
    none,
    (some ⟨3, [127, 93, 92, 91, 90], [18, 7, 6, 8, 12], 5, [48, 47, 46]⟩), [], [31, 33], [44]⟩,
   ⟨13, 6401, 3, (some 31), true, false, 51, 51, 510,
    (some ⟨4, 49, 440, [127, 93, 92, 91, 90]⟩),
    (some ⟨2, [126, 87, 142, 86], [23, 5, 9, 16], 5, [160, 161, 164]⟩), [48, 47, 46], [18, 23, 24], [49]⟩,
   ⟨13, 6401, 2, (some 41), true, false, 57, 57, 570,
    (some ⟨3, 56, 510, [126, 87, 142, 86]⟩),
    (some ⟨1, [85, 145, 125], [11, 7, 9], 3, [17, 19]⟩), [160, 161, 164], [106], [56]⟩,
   ⟨13, 6401, 1, (some 2), true, false, 62, 62, 620,
    (some ⟨2, 60, 570, [85, 145, 125]⟩),
    (some ⟨0, [121, 84, 101, 83], [8, 11, 12, 10], 4, [81, 85, 88, 81, 92]⟩), [17, 19], [5, 8], [60]⟩,
   ⟨13, 6401, 0, (some 13), false, true, 66, 66, 660,
    (some ⟨1, 66, 620, [121, 84, 101, 83]⟩),
    none, [81, 85, 88, 81, 92], [], [66]⟩]),
  (train_ko3_3, [
   ⟨14, 3, 4, (some 36), true, false, 54, 54, 540,
    none,
    (some ⟨3, [127, 93, 92, 91, 90], [18, 7, 6, 8, 12], 5, [48, 47, 46]⟩), [], [31, 33], [54]⟩,
   ⟨14, 3, 3, (some 31), true, false, 64, 67, 670,
    (some ⟨4, 59, 540, [127, 93, 92, 91, 90]⟩),
    (some ⟨2, [126, 87, 142, 86], [23, 5, 19, 16], 6, [160, 161, 164]⟩), [48, 47, 46], [18, 23, 24], [59]⟩,
   ⟨14, 3, 2, (some 41), true, false, 73, 75, 750,
    (some ⟨3, 73, 670, [126, 87, 142, 86]⟩),
    (some ⟨1, [85, 145, 125], [11, 17, 9], 4, [17, 19]⟩), [160, 161, 164], [106], [73]⟩,
   ⟨14, 3, 1, (some 2), true, false, 82, 82, 820,
    (some ⟨2, 79, 750, [85, 145, 125]⟩),
    (some ⟨0, [121, 84, 101, 83], [8, 13, 22, 10], 5, [82, 84, 86, 89, 90, 92]⟩), [17, 19], [5, 8], [79]⟩,
   ⟨14, 3, 0, (some 15), false, true, 87, 87, 870,
    (some ⟨1, 87, 820, [121, 84, 101, 83]⟩),
    none, [82, 84, 86, 89, 90, 92], [], [87]⟩]),
  (train_ko3_103, [
   ⟨15, 103, 1, (some 4), true, false, 180, 180, 1800,
    none,
    (some ⟨0, [121, 84, 101, 83], [8, 13, 22, 10], 5, [82, 84, 86, 89, 90, 92]⟩), [], [5, 6, 7], [180]⟩,
   ⟨15, 103, 0, (some 39), false, true, 185, 185, 1850,
    (some ⟨1, 185, 1800, [121, 84, 101, 83]⟩),
    none, [82, 84, 86, 89, 90, 92], [], [185]⟩]),
  (train_ko3_5, [
   ⟨16, 5, 4, (some 36), true, false, 94, 94, 940,
    none,
    (some ⟨3, [127, 93, 92, 91, 90], [18, 7, 6, 8, 12], 5, [48, 47, 46]⟩), [], [31, 33], [94]⟩,
   ⟨16, 5, 3, (some 31), true, false, 102, 102, 1020,
    (some ⟨4, 99, 940, [127, 93, 92, 91, 90]⟩),
    (some ⟨2, [126, 87, 142, 86], [23, 5, 19, 16], 6, [160, 161, 164]⟩), [48, 47, 46], [18, 23, 24], [99]⟩,
   ⟨16, 5, 2, (some 41), true, false, 110, 110, 1100,
    (some ⟨3, 108, 1020, [126, 87, 142, 86]⟩),
    (some ⟨1, [85, 145, 125], [11, 17, 9], 4, [17, 19]⟩), [160, 161, 164], [106], [108]⟩,
   ⟨16, 5, 1, (some 2), true, false, 119, 119, 1190,
    (some ⟨2, 114, 1100, [85, 145, 125]⟩),
    (some ⟨0, [121, 84, 101, 83], [8, 13, 22, 10], 5, [82, 84, 86, 89, 90, 92]⟩), [17, 19], [5, 8], [114]⟩,
   ⟨16, 5, 0, (some 15), false, true, 124, 124, 1240,
    (some ⟨1, 124, 1190, [121, 84, 101, 83]⟩),
    none, [82, 84, 86, 89, 90, 92], [], [124]⟩]),
  (train_ko3_6403, [
   ⟨17, 6403, 4, (some 36), true, false, 114, 114, 1140,
    none,
    (some ⟨3, [127, 93, 92, 91, 90], [18, 7, 6, 8, 12], 5, [48, 47, 46]⟩), [], [31, 33], [114]⟩,
   ⟨17, 6403, 3, (some 31), true, false, 121, 121, 1210,
    (some ⟨4, 119, 1140, [127, 93, 92, 91, 90]⟩),
    (some ⟨2, [126, 87, 142, 86], [23, 5, 9, 16], 5, [160, 161, 164]⟩), [48, 47, 46], [18, 23, 24], [119]⟩,
   ⟨17, 6403, 2, (some 41), true, false, 127, 127, 1270,
    (some ⟨3, 126, 1210, [126, 87, 142, 86]⟩),
    (some ⟨1, [85, 145, 125], [11, 7, 9], 3, [17, 19]⟩), [160, 161, 164], [106], [126]⟩,
   ⟨17, 6403, 1, (some 2), true, false, 132, 132, 1320,
    (some ⟨2, 130, 1270, [85, 145, 125]⟩),
    (some ⟨0, [121, 84, 101, 83], [8, 11, 12, 10], 4, [81, 85, 88, 81, 92]⟩), [17, 19], [5, 8], [130]⟩,
   ⟨17, 6403, 0, (some 13), false, true, 136, 136, 1360,
    (some ⟨1, 136, 1320, [121, 84, 101, 83]⟩),
    none, [81, 85, 88, 81, 92], [], [136]⟩]),
  (train_ko3_7, [
   ⟨18, 7, 4, (some 36), true, false, 127, 129, 1290,
    none,
    (some ⟨3, [127, 93, 92, 91, 90], [18, 7, 6, 8, 12], 5, [48, 47, 46]⟩), [], [31, 33], [127]⟩,
   ⟨18, 7, 3, (some 31), true, false, 134, 136, 1360,
    (some ⟨4, 134, 1290, [127, 93, 92, 91, 90]⟩),
    (some ⟨2, [126, 87, 142, 86], [23, 5, 19, 16], 6, [160, 161, 164]⟩), [48, 47, 46], [18, 23, 24], [134]⟩,
   ⟨18, 7, 2, (some 41), true, false, 143, 144, 1440,
    (some ⟨3, 142, 1360, [126, 87, 142, 86]⟩),
    (some ⟨1, [85, 145, 125], [11, 17, 9], 4, [17, 19]⟩), [160, 161, 164], [106], [142]⟩,
   ⟨18, 7, 1, (some 2), true, false, 151, 151, 1510,
    (some ⟨2, 148, 1440, [85, 145, 125]⟩),
    (some ⟨0, [121, 84, 101, 83], [8, 13, 22, 10], 5, [82, 84, 86, 89, 90, 92]⟩), [17, 19], [5, 8], [148]⟩,
   ⟨18, 7, 0, (some 15), false, true, 156, 156, 1560,
    (some ⟨1, 156, 1510, [121, 84, 101, 83]⟩),
    none, [82, 84, 86, 89, 90, 92], [], [156]⟩]),
  (train_ko3_9, [
   ⟨19, 9, 4, (some 36), true, false, 146, 146, 1460,
    none,
    (some ⟨3, [127, 93, 92, 91, 90], [18, 7, 6, 8, 12], 5, [48, 47, 46]⟩), [], [31, 33], [146]⟩,
   ⟨19, 9, 3, (some 31), true, false, 159, 159, 1590,
    (some ⟨4, 151, 1460, [127, 93, 92, 91, 90]⟩),
    (some ⟨2, [126, 87, 142, 86], [23, 5, 19, 16], 6, [160, 161, 164]⟩), [48, 47, 46], [18, 23, 24], [151]⟩,
   ⟨19, 9, 2, (some 41), true, false, 167, 167, 1670,
    (some ⟨3, 165, 1590, [126, 87, 142, 86]⟩),
    (some ⟨1, [85, 145, 125], [11, 17, 9], 4, [17, 19]⟩), [160, 161, 164], [106], [165]⟩,
   ⟨19, 9, 1, (some 2), true, false, 174, 174, 1740,
    (some ⟨2, 171, 1670, [85, 145, 125]⟩),
    (some ⟨0, [121, 84, 101, 83], [8, 13, 22, 10], 5, [82, 84, 86, 89, 90, 92]⟩), [17, 19], [5, 8], [171]⟩,
   ⟨19, 9, 0, (some 15), false, true, 179, 179, 1790,
    (some ⟨1, 179, 1740, [121, 84, 101, 83]⟩),
    none, [82, 84, 86, 89, 90, 92], [], [179]⟩]),
  (train_ko3_11, [
   ⟨20, 11, 4, (some 36), true, false, 179, 179, 1790,
    none,
    (some ⟨3, [127, 93, 92, 91, 90], [18, 7, 6, 8, 12], 5, [48, 47, 46]⟩), [], [31, 33], [179]⟩,
   ⟨20, 11, 3, (some 31), true, false, 186, 186, 1860,
    (some ⟨4, 184, 1790, [127, 93, 92, 91, 90]⟩),
    (some ⟨2, [126, 87, 142, 86], [23, 5, 19, 16], 6, [160, 161, 164]⟩), [48, 47, 46], [18, 23, 24], [184]⟩,
   ⟨20, 11, 2, (some 41), true, false, 194, 194, 1940,
    (some ⟨3, 192, 1860, [126, 87, 142, 86]⟩),
    (some ⟨1, [85, 145, 125], [11, 17, 9], 4, [17, 19]⟩), [160, 161, 164], [106], [192]⟩,
   ⟨20, 11, 1, (some 2), true, false, 200, 200, 2000,
    (some ⟨2, 198, 1940, [85, 145, 125]⟩),
    (some ⟨0, [121, 84, 101, 83], [8, 13, 22, 10], 5, [82, 84, 86, 89, 90, 92]⟩), [17, 19], [5, 8], [198]⟩,
   ⟨20, 11, 0, (some 15), false, true, 205, 205, 2050,
    (some ⟨1, 205, 2000, [121, 84, 101, 83]⟩),
    none, [82, 84, 86, 89, 90, 92], [], [205]⟩])]

theorem ko3n7Plan_sections : ko3n7Plan.map Prod.fst = ko3 := rfl

theorem ko3n7Plan_ok : netKoR.PlanOK "14:00" ko3n7Delays 40 netKoRSpecial ko3n7Plan :=
  ko3Plan_ok.again rfl (by decide +kernel) (by decide +kernel) (by decide +kernel) (by decide +kernel)

theorem ko3n7_cost : netKoR.costOK ko3n7Plan 176 = true := by decide +kernel

/-- the departures: train and station -/
def ko3n7Nodes : List (Nat × Nat) := [
  (2, 0), (0, 0), (0, 1), (0, 2), (0, 3), (5, 0), (3, 0), (3, 1), (6, 1), (18, 4), (12, 1),
  (17, 4), (1, 3), (1, 4), (6, 2), (5, 1), (6, 3), (5, 2), (5, 3), (5, 4), (1, 2), (10, 2),
  (20, 3), (20, 2), (20, 1), (19, 1), (10, 0), (10, 1), (10, 3), (15, 1), (13, 1), (18, 3),
  (18, 2), (18, 1), (7, 2), (14, 3), (7, 3), (17, 3), (17, 2), (17, 1), (16, 3), (16, 2), (16, 1),
  (8, 0), (8, 1), (8, 2), (8, 3), (8, 4), (7, 0), (7, 1), (19, 3), (19, 2), (1, 0), (14, 2),
  (14, 1), (1, 1)]

/-- the choices -/
def ko3n7Choices : List CodedNet.Choice := [
  .first 0 2 0, .first 1 5 0, .first 3 5 0, .first 0 2 1, .first 1 5 1, .first 5 6 1,
  .first 17 18 4, .against 12 2 1 0, .against 1 17 3 4, .first 5 6 2, .first 5 6 3,
  .against 5 17 3 4, .first 1 6 2, .first 1 6 3, .against 20 10 3 2, .against 1 18 3 4,
  .against 5 18 3 4, .against 10 19 0 1, .against 12 0 1 0, .against 15 10 1 0, .against 0 13 0 1,
  .first 1 5 3, .against 7 18 2 3, .against 18 6 4 3, .first 15 19 1, .against 0 14 2 3,
  .against 5 16 2 3, .against 8 17 0 1, .against 17 6 3 2, .against 7 16 0 1, .against 7 17 0 1,
  .against 1 16 2 3, .first 1 5 2, .against 8 19 2 3, .against 18 6 3 2, .first 3 1 0]

/-- the inequalities -/
def ko3n7Arcs : ArcTree :=
  .node ⟨.follow, 2, 1, 2, 3, 0, false⟩ (.node ⟨.run, 0, 2, 3, 6, 0, false⟩ (.node
  ⟨.run, 0, 4, 5, 6, 0, false⟩ (.node ⟨.track, 4, 6, 0, 0, 100, false⟩ (.node
  ⟨.track, 22, 17, 18, 0, 4, false⟩ (.node ⟨.come, 36, 26, 27, 6, 0, false⟩ (.node
  ⟨.come, 53, 18, 41, 5, 0, false⟩ .none .none) (.node ⟨.follow, 10, 16, 56, 2, 0, false⟩ .none
  .none)) (.node ⟨.come, 47, 10, 17, 6, 0, false⟩ (.node ⟨.come, 59, 49, 43, 5, 0, false⟩ .none
  .none) .none)) (.node ⟨.follow, 25, 21, 15, 2, 0, false⟩ (.node ⟨.come, 35, 27, 26, 5, 0, false⟩
  (.node ⟨.run, 0, 47, 48, 6, 0, false⟩ .none .none) (.node ⟨.track, 2, 1, 0, 0, 50, false⟩ .none
  .none)) (.node ⟨.come, 46, 32, 35, 7, 0, false⟩ (.node ⟨.follow, 72, 53, 7, 2, 0, false⟩ .none
  .none) .none))) (.node ⟨.run, 0, 13, 14, 6, 0, false⟩ (.node ⟨.run, 0, 19, 20, 6, 0, false⟩
  (.node ⟨.come, 38, 2, 11, 5, 0, false⟩ (.node ⟨.come, 56, 40, 44, 5, 0, false⟩ .none .none)
  (.node ⟨.follow, 71, 7, 53, 3, 0, false⟩ .none .none)) (.node ⟨.follow, 43, 13, 19, 3, 0, false⟩
  (.node ⟨.come, 41, 2, 31, 5, 0, false⟩ .none .none) .none)) (.node
  ⟨.come, 32, 10, 13, 6, 0, false⟩ (.node ⟨.come, 48, 17, 10, 6, 0, false⟩ (.node
  ⟨.run, 0, 50, 35, 5, 0, false⟩ .none .none) (.node ⟨.track, 3, 53, 0, 0, 98, false⟩ .none .none))
  (.node ⟨.run, 0, 38, 39, 6, 0, false⟩ (.node ⟨.run, 0, 54, 55, 6, 0, false⟩ .none .none)
  .none)))) (.node ⟨.run, 0, 7, 8, 7, 0, false⟩ (.node ⟨.come, 16, 1, 11, 5, 0, false⟩ (.node
  ⟨.run, 0, 15, 17, 6, 0, false⟩ (.node ⟨.run, 0, 28, 22, 5, 0, false⟩ (.node
  ⟨.run, 0, 42, 43, 6, 0, false⟩ .none .none) (.node ⟨.come, 64, 41, 21, 7, 0, false⟩ .none .none))
  (.node ⟨.follow, 49, 30, 26, 4, 0, false⟩ (.node ⟨.come, 17, 13, 12, 6, 0, false⟩ .none .none)
  .none)) (.node ⟨.run, 0, 23, 24, 8, 0, false⟩ (.node ⟨.follow, 44, 19, 13, 3, 0, false⟩ (.node
  ⟨.come, 62, 40, 49, 5, 0, false⟩ .none .none) (.node ⟨.track, 7, 3, 1, 0, 4, false⟩ .none .none))
  (.node ⟨.come, 23, 19, 12, 6, 0, false⟩ (.node ⟨.come, 51, 4, 36, 5, 0, false⟩ .none .none)
  .none))) (.node ⟨.follow, 11, 16, 9, 2, 0, false⟩ (.node ⟨.run, 0, 21, 13, 6, 0, false⟩ (.node
  ⟨.come, 39, 30, 27, 6, 0, false⟩ (.node ⟨.run, 0, 45, 46, 4, 0, false⟩ .none .none) (.node
  ⟨.come, 70, 15, 32, 5, 0, false⟩ .none .none)) (.node ⟨.come, 29, 23, 22, 7, 0, false⟩ (.node
  ⟨.run, 0, 51, 52, 8, 0, false⟩ .none .none) .none)) (.node ⟨.come, 34, 10, 19, 6, 0, false⟩
  (.node ⟨.run, 0, 32, 33, 8, 0, false⟩ (.node ⟨.come, 60, 43, 49, 6, 0, false⟩ .none .none) .none)
  (.node ⟨.come, 54, 41, 18, 7, 0, false⟩ (.node ⟨.track, 43, 13, 18, 0, 4, false⟩ .none .none)
  .none))))) (.node ⟨.run, 0, 3, 4, 5, 0, false⟩ (.node ⟨.follow, 6, 6, 7, 2, 0, false⟩ (.node
  ⟨.track, 14, 10, 0, 0, 114, false⟩ (.node ⟨.follow, 19, 18, 15, 2, 0, false⟩ (.node
  ⟨.run, 0, 27, 28, 6, 0, false⟩ (.node ⟨.run, 0, 41, 42, 8, 0, false⟩ .none .none) (.node
  ⟨.run, 0, 56, 21, 4, 0, false⟩ .none .none)) (.node ⟨.follow, 50, 26, 30, 4, 0, false⟩ (.node
  ⟨.come, 55, 44, 40, 4, 0, false⟩ .none .none) .none)) (.node ⟨.come, 30, 22, 23, 5, 0, false⟩
  (.node ⟨.come, 42, 31, 2, 5, 0, false⟩ (.node ⟨.come, 57, 38, 15, 6, 0, false⟩ .none .none)
  (.node ⟨.track, 9, 56, 6, 0, 3, false⟩ .none .none)) (.node ⟨.run, 0, 35, 37, 6, 0, false⟩ (.node
  ⟨.come, 69, 32, 15, 7, 0, false⟩ .none .none) .none))) (.node ⟨.track, 20, 15, 16, 0, 3, false⟩
  (.node ⟨.follow, 26, 15, 21, 3, 0, false⟩ (.node ⟨.come, 40, 27, 30, 5, 0, false⟩ (.node
  ⟨.run, 0, 44, 45, 5, 0, false⟩ .none .none) (.node ⟨.run, 0, 53, 56, 5, 0, false⟩ .none .none))
  (.node ⟨.come, 33, 19, 10, 6, 0, false⟩ (.node ⟨.come, 67, 46, 51, 5, 0, false⟩ .none .none)
  .none)) (.node ⟨.follow, 27, 13, 17, 3, 0, false⟩ (.node ⟨.run, 0, 10, 32, 7, 0, false⟩ (.node
  ⟨.come, 63, 21, 41, 5, 0, false⟩ .none .none) (.node ⟨.track, 1, 2, 0, 0, 48, false⟩ .none
  .none)) (.node ⟨.run, 0, 39, 40, 5, 0, false⟩ (.node ⟨.follow, 66, 18, 21, 2, 0, false⟩ .none
  .none) .none)))) (.node ⟨.track, 12, 9, 6, 0, 3, false⟩ (.node ⟨.come, 18, 12, 13, 6, 0, false⟩
  (.node ⟨.come, 24, 12, 19, 6, 0, false⟩ (.node ⟨.run, 0, 22, 29, 6, 0, false⟩ (.node
  ⟨.come, 58, 15, 38, 5, 0, false⟩ .none .none) (.node ⟨.track, 13, 12, 0, 0, 127, false⟩ .none
  .none)) (.node ⟨.come, 45, 35, 32, 5, 0, false⟩ (.node ⟨.come, 68, 51, 46, 7, 0, false⟩ .none
  .none) .none)) (.node ⟨.run, 0, 24, 25, 6, 0, false⟩ (.node ⟨.come, 31, 13, 10, 6, 0, false⟩
  (.node ⟨.run, 0, 49, 50, 6, 0, false⟩ .none .none) (.node ⟨.follow, 5, 7, 6, 3, 0, false⟩ .none
  .none)) (.node ⟨.run, 0, 12, 38, 7, 0, false⟩ (.node ⟨.run, 0, 36, 54, 8, 0, false⟩ .none .none)
  .none))) (.node ⟨.run, 0, 9, 15, 5, 0, false⟩ (.node ⟨.track, 28, 17, 21, 0, 4, false⟩ (.node
  ⟨.come, 37, 11, 2, 6, 0, false⟩ (.node ⟨.run, 0, 46, 47, 6, 0, false⟩ .none .none) (.node
  ⟨.come, 15, 11, 1, 6, 0, false⟩ .none .none)) (.node ⟨.come, 52, 36, 4, 7, 0, false⟩ (.node
  ⟨.run, 0, 52, 26, 6, 0, false⟩ .none .none) .none)) (.node ⟨.follow, 21, 19, 17, 3, 0, false⟩
  (.node ⟨.run, 0, 33, 34, 6, 0, false⟩ (.node ⟨.come, 61, 49, 40, 5, 0, false⟩ .none .none) .none)
  (.node ⟨.run, 0, 18, 19, 6, 0, false⟩ (.node ⟨.track, 65, 21, 16, 0, 3, false⟩ .none .none)
  .none)))))

/-- the bounds of the departures -/
def ko3n7Times : TimeTree :=
  .node 0 0 0 (.node 48 0 88 (.node 56 0 96 (.node 98 0 138 (.node 126 0 166 (.node 62 6 102 .none
  .none) (.node 159 0 199 .none .none)) (.node 186 0 226 (.node 127 0 167 .none .none) (.node 82 4
  122 .none .none))) (.node 52 4 92 (.node 112 0 152 (.node 141 0 181 .none .none) (.node 159 0 199
  .none .none)) (.node 174 0 214 (.node 119 4 159 .none .none) .none))) (.node 67 4 107 (.node 120
  0 160 (.node 133 4 173 (.node 143 0 183 .none .none) (.node 127 0 167 .none .none)) (.node 200 4
  240 (.node 102 0 142 .none .none) .none)) (.node 115 0 155 (.node 109 0 149 (.node 152 4 192
  .none .none) (.node 100 0 140 .none .none)) (.node 192 4 232 (.node 147 0 187 .none .none)
  .none)))) (.node 50 0 90 (.node 61 0 101 (.node 105 4 145 (.node 102 0 142 (.node 134 0 174 .none
  .none) (.node 167 6 207 .none .none)) (.node 194 0 234 (.node 132 6 172 .none .none) (.node 105 0
  145 .none .none))) (.node 114 0 154 (.node 118 6 158 (.node 64 0 104 .none .none) (.node 167 0
  207 .none .none)) (.node 180 0 220 (.node 142 0 182 .none .none) .none))) (.node 98 0 138 (.node
  127 0 167 (.node 106 0 146 (.node 151 4 191 .none .none) (.node 133 0 173 .none .none)) (.node
  174 4 214 (.node 110 0 150 .none .none) .none)) (.node 121 6 161 (.node 185 0 225 (.node 121 0
  161 .none .none) (.node 73 0 113 .none .none)) (.node 180 4 220 (.node 151 0 191 .none .none)
  .none))))

/-- some of the cases -/
def ko3n7Case0 : SumTree :=
  .cases [81, 58, 59, 60] 26 (.cases [63] 31 (.cases [76, 64, 65] 28 (.cases [72, 17] 20 (.cases []
  34 (.cases [88, 17] 24 (.leaf [49]) (.cases [] 18 (.leaf [38, 1, 2, 3]) (.cases [35] 19 (.leaf
  [37, 32, 33, 34]) (.cases [] 17 (.leaf [39]) (.leaf [31, 36]))))) (.cases [101, 45, 46] 17
  (.cases [39] 18 (.leaf [38, 1, 2, 3]) (.cases [35] 14 (.leaf [53, 34]) (.leaf [24, 25, 26])))
  (.cases [31, 32, 33, 34] 18 (.leaf [38, 1, 2, 3]) (.cases [35] 19 (.leaf [37, 32, 33, 34]) (.leaf
  [36]))))) (.leaf [40, 1, 2, 3])) (.cases [66, 59, 60] 20 (.cases [] 33 (.cases [] 25 (.cases []
  18 (.leaf [38, 1, 83, 2, 3, 89, 90, 91]) (.cases [35] 17 (.cases [39] 14 (.cases [53, 34] 35
  (.leaf [99, 100, 96, 76, 64, 65]) (.leaf [87, 5])) (.cases [24, 25, 26] 35 (.leaf
  [99, 100, 96, 21, 76, 11, 64, 65]) (.cases [87, 5] 24 (.leaf [49]) (.leaf [48])))) (.cases
  [31, 32, 33, 34] 14 (.cases [53, 34] 27 (.leaf [80]) (.cases [67, 68, 69, 70, 84, 71, 85, 86, 31]
  19 (.leaf [37, 32, 33, 34]) (.leaf [36]))) (.leaf [24, 25, 26])))) (.cases [54, 3] 14 (.leaf
  [53, 34]) (.cases [24, 25, 26] 35 (.leaf [99, 100, 96, 76, 64, 65]) (.cases [87, 5] 18 (.leaf
  [38, 83]) (.leaf [35]))))) (.leaf [82, 70, 71])) (.leaf [40, 1, 2, 3]))) (.leaf
  [97, 21, 81, 98])) (.cases [61, 62, 19] 32 (.cycle 21 [94, 95, 96]) (.cases [] 21 (.cycle 18
  [92, 21, 93]) (.cases [41, 11, 81, 58, 59, 60] 20 (.cases [] 33 (.cases [] 25 (.cases [] 18
  (.leaf [38, 1, 83, 2, 3, 89, 90, 91]) (.cases [35] 34 (.leaf [88, 17]) (.cases [] 17 (.cases [39]
  28 (.leaf [72, 17]) (.cases [] 14 (.cases [53, 34] 35 (.cases [] 24 (.leaf [49]) (.leaf [48]))
  (.leaf [87, 5])) (.cases [24, 25, 26] 24 (.leaf [49]) (.cases [48] 27 (.leaf [80]) (.leaf
  [67, 68, 69, 70, 71]))))) (.cases [31, 32, 33, 34] 28 (.leaf [72, 17]) (.cases [] 14 (.cases
  [53, 34] 27 (.leaf [80]) (.cases [67, 68, 69, 70, 84, 71, 85, 86, 31] 19 (.leaf [37, 32, 33, 34])
  (.leaf [36]))) (.leaf [24, 25, 26])))))) (.cases [54, 3] 28 (.leaf [72, 17]) (.cases [] 14 (.leaf
  [53, 34]) (.cases [24, 25, 26] 18 (.leaf [38, 83]) (.leaf [35]))))) (.leaf [82, 70, 71])) (.leaf
  [40, 1, 2, 3]))))

/-- some of the cases -/
def ko3n7Case1 : SumTree :=
  .cases [10, 11] 9 (.cases [] 10 (.cases [] 11 (.cases [57, 58, 10, 59, 11, 60] 26 (.cases
  [63, 64, 65] 20 (.cases [] 27 (.leaf [80]) (.cases [] 17 (.cases [39] 28 (.cases [72, 17] 18
  (.leaf [38, 1, 2, 3]) (.cases [35] 29 (.leaf [79]) (.cases [] 30 (.cases [] 31 (.leaf
  [76, 64, 65, 77, 78]) (.cases [] 14 (.leaf [53, 34]) (.leaf [24, 25, 26]))) (.leaf
  [73, 74, 75, 56])))) (.leaf [66, 59, 60, 67, 68, 69, 70, 71])) (.cases [31, 32, 33, 34] 14
  (.cases [53, 34] 15 (.cases [42] 23 (.cases [47] 18 (.leaf [38, 1, 2, 3]) (.cases [35] 19 (.leaf
  [37, 32, 33, 34]) (.leaf [36]))) (.leaf [43, 44, 45, 46])) (.leaf [27, 11])) (.leaf
  [24, 25, 26])))) (.leaf [40, 1, 2, 3])) (.cases [61, 62, 19, 57, 58, 10, 59, 11, 60] 24 (.leaf
  [49]) (.cases [] 18 (.leaf [38, 1, 2, 3]) (.cases [35] 19 (.leaf [37, 32, 33, 34]) (.cases [] 17
  (.leaf [39]) (.leaf [31, 36])))))) (.cases [18, 19] 12 (.cases [] 13 (.cases [] 14 (.cases
  [53, 34] 15 (.cases [] 16 (.cases [] 21 (.cases [51, 19, 52] 24 (.leaf [49]) (.cases [] 25
  (.cases [] 22 (.leaf [50, 45, 46]) (.cases [] 23 (.cases [47] 18 (.leaf [38, 1, 2, 3]) (.cases
  [35] 19 (.leaf [37, 32, 33, 34]) (.cases [] 17 (.leaf [39]) (.leaf [31, 36])))) (.leaf
  [43, 44, 45, 46]))) (.leaf [54, 3]))) (.cases [41, 11, 42] 24 (.leaf [49]) (.cases [] 25 (.cases
  [] 22 (.leaf [50, 45, 46]) (.cases [] 23 (.cases [47] 18 (.leaf [38, 1, 2, 3]) (.cases [35] 19
  (.leaf [37, 32, 33, 34]) (.cases [] 17 (.leaf [39]) (.leaf [31, 36])))) (.leaf
  [43, 44, 45, 55, 46, 56]))) (.leaf [54, 3])))) (.leaf [29, 19])) (.leaf [27, 11])) (.cases
  [24, 25, 26] 15 (.cases [] 16 (.cases [] 17 (.cases [39] 20 (.cases [] 21 (.cases [51, 19, 52] 18
  (.leaf [38, 1, 2, 3]) (.cases [35] 22 (.leaf [50, 45, 46]) (.cases [] 23 (.cases [47] 24 (.leaf
  [49]) (.leaf [48])) (.leaf [43, 44, 45, 46])))) (.cases [41, 11, 42] 18 (.leaf [38, 1, 2, 3])
  (.cases [35] 22 (.leaf [50, 45, 46]) (.cases [] 23 (.cases [47] 24 (.leaf [49]) (.leaf [48]))
  (.leaf [43, 44, 45, 46]))))) (.leaf [40, 1, 2, 3])) (.cases [31, 32, 33, 34, 24, 25, 26] 18
  (.leaf [38, 1, 2, 3]) (.cases [35] 19 (.leaf [37, 32, 33, 34, 24, 25, 26]) (.leaf [36])))) (.leaf
  [29, 19, 30])) (.leaf [27, 11, 28]))) (.cycle 17 [22, 23, 17])) (.leaf [20, 21, 11]))) (.cycle 17
  [15, 16, 17])) (.cycle 15 [12, 13, 14])

/-- all cases -/
def ko3n7Cases : SumTree :=
  .cases [] 0 (.leaf [108]) (.cases [0, 1, 2, 3] 1 (.leaf [107]) (.cases [] 2 (.leaf [106, 7])
  (.cases [4, 5] 3 (.cycle 1 [0, 1, 105]) (.cases [] 4 (.leaf [104, 7]) (.cases [] 5 (.cases [] 6
  (.cases [] 7 (.leaf [102, 103]) (.cases [9] 8 ko3n7Case0 ko3n7Case1)) (.leaf [8])) (.leaf
  [6, 7]))))))

theorem ko3n7_cases : ko3n7Cases.check ko3n7Arcs 176 ko3n7Choices.length [] ko3n7Times 0 = true := by
  decide +kernel

theorem ko3n7_choices : ko3n7Choices.all (CodedNet.Choice.ok netKoR netKoRSpecial ko3n7Plan) = true := by
  decide +kernel

theorem ko3n7_arcs : ko3n7Arcs.toList.all
    (netKoR.arcOK netKoRSpecial ko3n7Plan ko3n7Nodes ko3n7Choices) = true := by decide +kernel

theorem ko3n7_times : netKoR.startOK ko3n7Plan ko3n7Nodes 0 40 ko3n7Times = true := by decide +kernel

end Verif.Real
