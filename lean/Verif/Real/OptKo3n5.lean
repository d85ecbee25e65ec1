import Verif.Proofs.PlanSum
import Verif.Proofs.PlanAgain
import Verif.Real.PlanKo3

/-!
# The sheet of `Verif.Real.Ko3` with given delays: a plan, and that no plan is better

Generated; see `CodedNet.Item` and `Verif/Proofs/SumTree.lean`. Case 3,
`disturbances[5]`, of `/repo/solve_KO_GLC_problems.py`, line 121;
`d_max` is 40. The sum of the delays that count is 166/4.
-/

namespace Verif.Real

set_option maxRecDepth 100000

/-- the given delays -/
def ko3n5Delays : List (Int × ℚ) := [
  (101, 18), (1, 29), (3, 25), (5, 15), (2, 36), (4602, 20), (9, 12)]

/-- the plan, items by sections -/
def ko3n5Plan : CodedNet.Plan := [
  (train_ko3_2, [
   ⟨0, 2, 0, (some 14), true, false, 36, 36, 360,
    none,
    (some ⟨1, [83, 101, 84, 121], [9, 19, 8, 8], 4, [5, 8]⟩), [], [61, 64, 69, 71, 87, 92], [36]⟩,
   ⟨0, 2, 1, (some 1), true, false, 42, 42, 420,
    (some ⟨0, 40, 360, [83, 101, 84, 121]⟩),
    (some ⟨2, [77, 144, 119], [15, 14, 8], 4, [107]⟩), [5, 8], [16, 2], [40]⟩,
   ⟨0, 2, 2, (some 40), true, false, 47, 47, 470,
    (some ⟨1, 46, 420, [77, 144, 119]⟩),
    (some ⟨3, [86, 142, 87, 126], [13, 13, 7, 9], 4, [18, 23]⟩), [107], [161, 164], [46]⟩,
   ⟨0, 2, 3, (some 30), true, false, 53, 53, 530,
    (some ⟨2, 51, 470, [86, 142, 87, 126]⟩),
    (some ⟨4, [90, 91, 92, 93, 127], [13, 9, 5, 7, 20], 5, [31, 33, 41]⟩), [18, 23], [47, 48], [51]⟩,
   ⟨0, 2, 4, (some 35), false, true, 58, 58, 580,
    (some ⟨3, 58, 530, [90, 91, 92, 93, 127]⟩),
    none, [31, 33, 41], [], [58]⟩]),
  (train_ko3_4602, [
   ⟨1, 4602, 0, (some 10), true, false, 74, 74, 740,
    none,
    (some ⟨1, [83, 101, 84, 121], [9, 12, 6, 7], 3, [5, 8]⟩), [], [66, 68, 71, 87, 92], [74]⟩,
   ⟨1, 4602, 1, (some 1), true, false, 79, 79, 790,
    (some ⟨0, 77, 740, [83, 101, 84, 121]⟩),
    (some ⟨2, [77, 144, 119], [11, 9, 8], 3, [107]⟩), [5, 8], [16, 2], [77]⟩,
   ⟨1, 4602, 2, (some 40), true, false, 83, 83, 830,
    (some ⟨1, 82, 790, [77, 144, 119]⟩),
    (some ⟨3, [86, 142, 87, 126], [13, 7, 7, 9], 4, [18, 23]⟩), [107], [161, 164], [82]⟩,
   ⟨1, 4602, 3, (some 30), true, false, 89, 89, 890,
    (some ⟨2, 87, 830, [86, 142, 87, 126]⟩),
    (some ⟨4, [90, 91, 92, 93, 127], [13, 9, 5, 7, 20], 5, [31, 34, 43]⟩), [18, 23], [47, 48], [87]⟩,
   ⟨1, 4602, 4, (some 38), true, false, 95, 95, 950,
    (some ⟨3, 94, 890, [90, 91, 92, 93, 127]⟩),
    none, [31, 34, 43], [], [94]⟩]),
  (train_ko3_4, [
   ⟨2, 4, 0, (some 14), true, false, 38, 39, 390,
    none,
    (some ⟨1, [83, 101, 84, 121], [9, 19, 8, 8], 4, [5, 8]⟩), [], [61, 64, 69, 71, 87, 92], [38]⟩,
   ⟨2, 4, 1, (some 1), true, false, 46, 46, 460,
    (some ⟨0, 43, 390, [83, 101, 84, 121]⟩),
    (some ⟨2, [77, 144, 119], [15, 14, 8], 4, [107]⟩), [5, 8], [16, 2], [43]⟩,
   ⟨2, 4, 2, (some 40), true, false, 55, 55, 550,
    (some ⟨1, 50, 460, [77, 144, 119]⟩),
    (some ⟨3, [86, 142, 87, 126], [13, 13, 7, 9], 4, [18, 23]⟩), [107], [161, 164], [50]⟩,
   ⟨2, 4, 3, (some 30), true, false, 64, 67, 670,
    (some ⟨2, 59, 550, [86, 142, 87, 126]⟩),
    (some ⟨4, [90, 91, 92, 93, 127], [13, 9, 5, 7, 20], 5, [31, 33, 41]⟩), [18, 23], [47, 48], [59]⟩,
   ⟨2, 4, 4, (some 35), false, true, 69, 72, 720,
    (some ⟨3, 72, 670, [90, 91, 92, 93, 127]⟩),
    none, [31, 33, 41], [], [72]⟩]),
  (train_ko3_102, [
   ⟨3, 102, 0, (some 16), true, false, 79, 90, 900,
    none,
    (some ⟨1, [83, 101, 84, 121], [9, 19, 8, 10], 5, [5, 8, 9]⟩), [], [62, 64, 69, 71, 87, 92], [79]⟩,
   ⟨3, 102, 1, (some 3), true, false, 86, 97, 970,
    (some ⟨0, 95, 900, [83, 101, 84, 121]⟩),
    none, [5, 8, 9], [], [95]⟩]),
  (train_ko3_6, [
   ⟨4, 6, 0, (some 14), true, false, 77, 87, 870,
    none,
    (some ⟨1, [83, 101, 84, 121], [9, 19, 8, 8], 4, [5, 8]⟩), [], [61, 64, 69, 71, 87, 92], [77]⟩,
   ⟨4, 6, 1, (some 1), true, false, 83, 93, 930,
    (some ⟨0, 91, 870, [83, 101, 84, 121]⟩),
    (some ⟨2, [77, 144, 119], [15, 14, 8], 4, [107]⟩), [5, 8], [16, 2], [91]⟩,
   ⟨4, 6, 2, (some 40), true, false, 91, 98, 980,
    (some ⟨1, 97, 930, [77, 144, 119]⟩),
    (some ⟨3, [86, 142, 87, 126], [13, 13, 7, 9], 4, [18, 23]⟩), [107], [161, 164], [97]⟩,
   ⟨4, 6, 3, (some 30), true, false, 100, 104, 1040,
    (some ⟨2, 102, 980, [86, 142, 87, 126]⟩),
    (some ⟨4, [90, 91, 92, 93, 127], [13, 9, 5, 7, 20], 5, [31, 33, 41]⟩), [18, 23], [47, 48], [102]⟩,
   ⟨4, 6, 4, (some 35), false, true, 105, 109, 1090,
    (some ⟨3, 109, 1040, [90, 91, 92, 93, 127]⟩),
    none, [31, 33, 41], [], [109]⟩]),
  (train_ko3_4604, [
   ⟨5, 4604, 0, (some 10), true, false, 88, 93, 930,
    none,
    (some ⟨1, [83, 101, 84, 121], [9, 12, 6, 7], 3, [5, 8]⟩), [], [66, 68, 71, 87, 92], [88]⟩,
   ⟨5, 4604, 1, (some 1), true, false, 92, 97, 970,
    (some ⟨0, 96, 930, [83, 101, 84, 121]⟩),
    (some ⟨2, [77, 144, 119], [11, 9, 8], 3, [107]⟩), [5, 8], [16, 2], [96]⟩,
   ⟨5, 4604, 2, (some 40), true, false, 96, 101, 1010,
    (some ⟨1, 100, 970, [77, 144, 119]⟩),
    (some ⟨3, [86, 142, 87, 126], [13, 7, 7, 9], 4, [18, 23]⟩), [107], [161, 164], [100]⟩,
   ⟨5, 4604, 3, (some 30), true, false, 104, 107, 1070,
    (some ⟨2, 105, 1010, [86, 142, 87, 126]⟩),
    (some ⟨4, [90, 91, 92, 93, 127], [13, 9, 5, 7, 20], 5, [31, 34, 43]⟩), [18, 23], [47, 48], [105]⟩,
   ⟨5, 4604, 4, (some 38), true, false, 114, 114, 1140,
    (some ⟨3, 112, 1070, [90, 91, 92, 93, 127]⟩),
    none, [31, 34, 43], [], [112]⟩]),
  (train_ko3_8, [
   ⟨6, 8, 0, (some 14), true, false, 114, 114, 1140,
    none,
    (some ⟨1, [83, 101, 84, 121], [9, 19, 8, 8], 4, [5, 8]⟩), [], [61, 64, 69, 71, 87, 92], [114]⟩,
   ⟨6, 8, 1, (some 1), true, false, 120, 120, 1200,
    (some ⟨0, 118, 1140, [83, 101, 84, 121]⟩),
    (some ⟨2, [77, 144, 119], [15, 14, 8], 4, [107]⟩), [5, 8], [16, 2], [118]⟩,
   ⟨6, 8, 2, (some 40), true, false, 126, 127, 1270,
    (some ⟨1, 124, 1200, [77, 144, 119]⟩),
    (some ⟨3, [86, 142, 87, 126], [13, 13, 7, 9], 4, [18, 23]⟩), [107], [161, 164], [124]⟩,
   ⟨6, 8, 3, (some 30), true, false, 133, 133, 1330,
    (some ⟨2, 131, 1270, [86, 142, 87, 126]⟩),
    (some ⟨4, [90, 91, 92, 93, 127], [13, 9, 5, 7, 20], 5, [31, 33, 41]⟩), [18, 23], [47, 48], [131]⟩,
   ⟨6, 8, 4, (some 35), false, true, 138, 138, 1380,
    (some ⟨3, 138, 1330, [90, 91, 92, 93, 127]⟩),
    none, [31, 33, 41], [], [138]⟩]),
  (train_ko3_10, [
   ⟨7, 10, 0, (some 14), true, false, 127, 127, 1270,
    none,
    (some ⟨1, [83, 101, 84, 121], [9, 19, 8, 8], 4, [5, 8]⟩), [], [61, 64, 69, 71, 87, 92], [127]⟩,
   ⟨7, 10, 1, (some 1), true, false, 133, 133, 1330,
    (some ⟨0, 131, 1270, [83, 101, 84, 121]⟩),
    (some ⟨2, [77, 144, 119], [15, 14, 8], 4, [107]⟩), [5, 8], [16, 2], [131]⟩,
   ⟨7, 10, 2, (some 40), true, false, 141, 141, 1410,
    (some ⟨1, 137, 1330, [77, 144, 119]⟩),
    (some ⟨3, [86, 142, 87, 126], [13, 13, 7, 9], 4, [18, 23]⟩), [107], [161, 164], [137]⟩,
   ⟨7, 10, 3, (some 30), true, false, 152, 152, 1520,
    (some ⟨2, 145, 1410, [86, 142, 87, 126]⟩),
    (some ⟨4, [90, 91, 92, 93, 127], [13, 9, 5, 7, 20], 5, [31, 33, 41]⟩), [18, 23], [47, 48], [145]⟩,
   ⟨7, 10, 4, (some 35), false, true, 157, 157, 1570,
    (some ⟨3, 157, 1520, [90, 91, 92, 93, 127]⟩),
    none, [31, 33, 41], [], [157]⟩]),
  (train_ko3_4606, [
   ⟨8, 4606, 0, (some 10), true, false, 142, 142, 1420,
    none,
    (some ⟨1, [83, 101, 84, 121], [9, 12, 6, 7], 3, [5, 8]⟩), [], [66, 68, 71, 87, 92], [142]⟩,
   ⟨8, 4606, 1, (some 1), true, false, 147, 147, 1470,
    (some ⟨0, 145, 1420, [83, 101, 84, 121]⟩),
    (some ⟨2, [77, 144, 119], [11, 9, 8], 3, [107]⟩), [5, 8], [16, 2], [145]⟩,
   ⟨8, 4606, 2, (some 40), true, false, 151, 152, 1520,
    (some ⟨1, 150, 1470, [77, 144, 119]⟩),
    (some ⟨3, [86, 142, 87, 126], [13, 7, 7, 9], 4, [18, 23]⟩), [107], [161, 164], [150]⟩,
   ⟨8, 4606, 3, (some 30), true, false, 159, 164, 1640,
    (some ⟨2, 156, 1520, [86, 142, 87, 126]⟩),
    (some ⟨4, [90, 91, 92, 93, 127], [13, 9, 5, 7, 20], 5, [31, 34, 43]⟩), [18, 23], [47, 48], [156]⟩,
   ⟨8, 4606, 4, (some 38), true, false, 167, 170, 1700,
    (some ⟨3, 169, 1640, [90, 91, 92, 93, 127]⟩),
    none, [31, 34, 43], [], [169]⟩]),
  (train_ko3_12, [
   ⟨9, 12, 0, (some 14), true, false, 180, 185, 1850,
    none,
    (some ⟨1, [83, 101, 84, 121], [9, 19, 8, 8], 4, [5, 8]⟩), [], [61, 64, 69, 71, 87, 92], [180]⟩,
   ⟨9, 12, 1, (some 1), true, false, 186, 191, 1910,
    (some ⟨0, 189, 1850, [83, 101, 84, 121]⟩),
    (some ⟨2, [77, 144, 119], [15, 14, 8], 4, [107]⟩), [5, 8], [16, 2], [189]⟩,
   ⟨9, 12, 2, (some 40), true, false, 191, 196, 1960,
    (some ⟨1, 195, 1910, [77, 144, 119]⟩),
    (some ⟨3, [86, 142, 87, 126], [13, 13, 7, 9], 4, [18, 23]⟩), [107], [161, 164], [195]⟩,
   ⟨9, 12, 3, (some 30), true, false, 197, 204, 2040,
    (some ⟨2, 200, 1960, [86, 142, 87, 126]⟩),
    (some ⟨4, [90, 91, 92, 93, 127], [13, 9, 5, 7, 20], 5, [31, 33, 41]⟩), [18, 23], [47, 48], [200]⟩,
   ⟨9, 12, 4, (some 35), false, true, 202, 209, 2090,
    (some ⟨3, 209, 2040, [90, 91, 92, 93, 127]⟩),
    none, [31, 33, 41], [], [209]⟩]),
  (train_ko3_14, [
   ⟨10, 14, 0, (some 14), true, false, 164, 164, 1640,
    none,
    (some ⟨1, [83, 101, 84, 121], [9, 19, 8, 8], 4, [5, 8]⟩), [], [61, 64, 69, 71, 87, 92], [164]⟩,
   ⟨10, 14, 1, (some 1), true, false, 180, 180, 1800,
    (some ⟨0, 168, 1640, [83, 101, 84, 121]⟩),
    (some ⟨2, [77, 144, 119], [15, 14, 8], 4, [107]⟩), [5, 8], [16, 2], [168]⟩,
   ⟨10, 14, 2, (some 40), true, false, 185, 185, 1850,
    (some ⟨1, 184, 1800, [77, 144, 119]⟩),
    (some ⟨3, [86, 142, 87, 126], [13, 13, 7, 9], 4, [18, 23]⟩), [107], [161, 164], [184]⟩,
   ⟨10, 14, 3, (some 30), true, false, 192, 192, 1920,
    (some ⟨2, 189, 1850, [86, 142, 87, 126]⟩),
    (some ⟨4, [90, 91, 92, 93, 127], [13, 9, 5, 7, 20], 5, [31, 33, 41]⟩), [18, 23], [47, 48], [189]⟩,
   ⟨10, 14, 4, (some 35), false, true, 197, 197, 1970,
    (some ⟨3, 197, 1920, [90, 91, 92, 93, 127]⟩),
    none, [31, 33, 41], [], [197]⟩]),
  (train_ko3_1, [
   ⟨11, 1, 4, (some 36), true, false, 27, 27, 270,
    none,
    (some ⟨3, [127, 93, 92, 91, 90], [18, 7, 6, 8, 12], 5, [48, 47, 46]⟩), [], [31, 33], [27]⟩,
   ⟨11, 1, 3, (some 31), true, false, 34, 34, 340,
    (some ⟨4, 32, 270, [127, 93, 92, 91, 90]⟩),
    (some ⟨2, [126, 87, 142, 86], [23, 5, 19, 16], 6, [160, 161, 164]⟩), [48, 47, 46], [18, 23, 24], [32]⟩,
   ⟨11, 1, 2, (some 41), true, false, 42, 42, 420,
    (some ⟨3, 40, 340, [126, 87, 142, 86]⟩),
    (some ⟨1, [85, 145, 125], [11, 17, 9], 4, [17, 19]⟩), [160, 161, 164], [106], [40]⟩,
   ⟨11, 1, 1, (some 2), true, false, 48, 48, 480,
    (some ⟨2, 46, 420, [85, 145, 125]⟩),
    (some ⟨0, [121, 84, 101, 83], [8, 13, 22, 10], 5, [82, 84, 86, 89, 90, 92]⟩), [17, 19], [5, 8], [46]⟩,
   ⟨11, 1, 0, (some 15), false, true, 53, 53, 530,
    (some ⟨1, 53, 480, [121, 84, 101, 83]⟩),
    none, [82, 84, 86, 89, 90, 92], [], [53]⟩]),
  (train_ko3_101, [
   ⟨12, 101, 1, (some 4), true, false, 77, 81, 810,
    none,
    (some ⟨0, [121, 84, 101, 83], [8, 13, 22, 10], 5, [82, 84, 86, 89, 90, 92]⟩), [], [5, 6, 7], [77]⟩,
   ⟨12, 101, 0, (some 39), false, true, 82, 86, 860,
    (some ⟨1, 86, 810, [121, 84, 101, 83]⟩),
    none, [82, 84, 86, 89, 90, 92], [], [86]⟩]),
  (train_ko3_6401, [
   ⟨13, 6401, 4, (some 36), true, false, 61, 61, 610,
    none,
    (some ⟨3, [127, 93, 92, 91, 90], [18, 7, 6, 8, 12], 5, [48, 47, 46]⟩), [], [31, 33], [61]⟩,
   ⟨13, 6401, 3, (some 31), true, false, 68, 68, 680,
    (some ⟨4, 66, 610, [127, 93, 92, 91, 90]⟩),
    (some ⟨2, [126, 87, 142, 86], [23, 5, 9, 16], 5, [160, 161, 164]⟩), [48, 47, 46], [18, 23, 24], [66]⟩,
   ⟨13, 6401, 2, (some 41), true, false, 74, 74, 740,
    (some ⟨3, 73, 680, [126, 87, 142, 86]⟩),
    (some ⟨1, [85, 145, 125], [11, 7, 9], 3, [17, 19]⟩), [160, 161, 164], [106], [73]⟩,
   ⟨13, 6401, 1, (some 2), true, false, 79, 79, 790,
    (some ⟨2, 77, 740, [85, 145, 125]⟩),
    (some ⟨0, [121, 84, 101, 83], [8, 11, 12, 10], 4, [81, 85, 88, 81, 92]⟩), [17, 19], [5, 8], [77]⟩,
   ⟨13, 6401, 0, (some 13), false, true, 83, 83, 830,
    (some ⟨1, 83, 790, [121, 84, 101, 83]⟩),
    none, [81, 85, 88, 81, 92], [], [83]⟩]),
  (train_ko3_3, [
   ⟨14, 3, 4, (some 36), true, false, 79, 79, 790,
    none,
    (some ⟨3, [127, 93, 92, 91, 90], [18, 7, 6, 8, 12], 5, [48, 47, 46]⟩), [], [31, 33], [79]⟩,
   ⟨14, 3, 3, (some 31), true, false, 86, 88, 880,
    (some ⟨4, 84, 790, [127, 93, 92, 91, 90]⟩),
    (some ⟨2, [126, 87, 142, 86], [23, 5, 19, 16], 6, [160, 161, 164]⟩), [48, 47, 46], [18, 23, 24], [84]⟩,
   ⟨14, 3, 2, (some 41), true, false, 94, 96, 960,
    (some ⟨3, 94, 880, [126, 87, 142, 86]⟩),
    (some ⟨1, [85, 145, 125], [11, 17, 9], 4, [17, 19]⟩), [160, 161, 164], [106], [94]⟩,
   ⟨14, 3, 1, (some 2), true, false, 100, 102, 1020,
    (some ⟨2, 100, 960, [85, 145, 125]⟩),
    (some ⟨0, [121, 84, 101, 83], [8, 13, 22, 10], 5, [82, 84, 86, 89, 90, 92]⟩), [17, 19], [5, 8], [100]⟩,
   ⟨14, 3, 0, (some 15), false, true, 105, 107, 1070,
    (some ⟨1, 107, 1020, [121, 84, 101, 83]⟩),
    none, [82, 84, 86, 89, 90, 92], [], [107]⟩]),
  (train_ko3_103, [
   ⟨15, 103, 1, (some 4), true, false, 205, 205, 2050,
    none,
    (some ⟨0, [121, 84, 101, 83], [8, 13, 22, 10], 5, [82, 84, 86, 89, 90, 92]⟩), [], [5, 6, 7], [205]⟩,
   ⟨15, 103, 0, (some 39), false, true, 210, 210, 2100,
    (some ⟨1, 210, 2050, [121, 84, 101, 83]⟩),
    none, [82, 84, 86, 89, 90, 92], [], [210]⟩]),
  (train_ko3_5, [
   ⟨16, 5, 4, (some 36), true, false, 109, 113, 1130,
    none,
    (some ⟨3, [127, 93, 92, 91, 90], [18, 7, 6, 8, 12], 5, [48, 47, 46]⟩), [], [31, 33], [109]⟩,
   ⟨16, 5, 3, (some 31), true, false, 116, 120, 1200,
    (some ⟨4, 118, 1130, [127, 93, 92, 91, 90]⟩),
    (some ⟨2, [126, 87, 142, 86], [23, 5, 19, 16], 6, [160, 161, 164]⟩), [48, 47, 46], [18, 23, 24], [118]⟩,
   ⟨16, 5, 2, (some 41), true, false, 124, 128, 1280,
    (some ⟨3, 126, 1200, [126, 87, 142, 86]⟩),
    (some ⟨1, [85, 145, 125], [11, 17, 9], 4, [17, 19]⟩), [160, 161, 164], [106], [126]⟩,
   ⟨16, 5, 1, (some 2), true, false, 130, 134, 1340,
    (some ⟨2, 132, 1280, [85, 145, 125]⟩),
    (some ⟨0, [121, 84, 101, 83], [8, 13, 22, 10], 5, [82, 84, 86, 89, 90, 92]⟩), [17, 19], [5, 8], [132]⟩,
   ⟨16, 5, 0, (some 15), false, true, 135, 139, 1390,
    (some ⟨1, 139, 1340, [121, 84, 101, 83]⟩),
    none, [82, 84, 86, 89, 90, 92], [], [139]⟩]),
  (train_ko3_6403, [
   ⟨17, 6403, 4, (some 36), true, false, 139, 139, 1390,
    none,
    (some ⟨3, [127, 93, 92, 91, 90], [18, 7, 6, 8, 12], 5, [48, 47, 46]⟩), [], [31, 33], [139]⟩,
   ⟨17, 6403, 3, (some 31), true, false, 146, 146, 1460,
    (some ⟨4, 144, 1390, [127, 93, 92, 91, 90]⟩),
    (some ⟨2, [126, 87, 142, 86], [23, 5, 9, 16], 5, [160, 161, 164]⟩), [48, 47, 46], [18, 23, 24], [144]⟩,
   ⟨17, 6403, 2, (some 41), true, false, 152, 152, 1520,
    (some ⟨3, 151, 1460, [126, 87, 142, 86]⟩),
    (some ⟨1, [85, 145, 125], [11, 7, 9], 3, [17, 19]⟩), [160, 161, 164], [106], [151]⟩,
   ⟨17, 6403, 1, (some 2), true, false, 157, 157, 1570,
    (some ⟨2, 155, 1520, [85, 145, 125]⟩),
    (some ⟨0, [121, 84, 101, 83], [8, 11, 12, 10], 4, [81, 85, 88, 81, 92]⟩), [17, 19], [5, 8], [155]⟩,
   ⟨17, 6403, 0, (some 13), false, true, 161, 161, 1610,
    (some ⟨1, 161, 1570, [121, 84, 101, 83]⟩),
    none, [81, 85, 88, 81, 92], [], [161]⟩]),
  (train_ko3_7, [
   ⟨18, 7, 4, (some 36), true, false, 127, 127, 1270,
    none,
    (some ⟨3, [127, 93, 92, 91, 90], [18, 7, 6, 8, 12], 5, [48, 47, 46]⟩), [], [31, 33], [127]⟩,
   ⟨18, 7, 3, (some 31), true, false, 134, 134, 1340,
    (some ⟨4, 132, 1270, [127, 93, 92, 91, 90]⟩),
    (some ⟨2, [126, 87, 142, 86], [23, 5, 19, 16], 6, [160, 161, 164]⟩), [48, 47, 46], [18, 23, 24], [132]⟩,
   ⟨18, 7, 2, (some 41), true, false, 143, 143, 1430,
    (some ⟨3, 140, 1340, [126, 87, 142, 86]⟩),
    (some ⟨1, [85, 145, 125], [11, 17, 9], 4, [17, 19]⟩), [160, 161, 164], [106], [140]⟩,
   ⟨18, 7, 1, (some 2), true, false, 151, 151, 1510,
    (some ⟨2, 147, 1430, [85, 145, 125]⟩),
    (some ⟨0, [121, 84, 101, 83], [8, 13, 22, 10], 5, [82, 84, 86, 89, 90, 92]⟩), [17, 19], [5, 8], [147]⟩,
   ⟨18, 7, 0, (some 15), false, true, 156, 156, 1560,
    (some ⟨1, 156, 1510, [121, 84, 101, 83]⟩),
    none, [82, 84, 86, 89, 90, 92], [], [156]⟩]),
  (train_ko3_9, [
   ⟨19, 9, 4, (some 36), true, false, 158, 158, 1580,
    none,
    (some ⟨3, [127, 93, 92, 91, 90], [18, 7, 6, 8, 12], 5, [48, 47, 46]⟩), [], [31, 33], [158]⟩,
   ⟨19, 9, 3, (some 31), true, false, 165, 165, 1650,
    (some ⟨4, 163, 1580, [127, 93, 92, 91, 90]⟩),
    (some ⟨2, [126, 87, 142, 86], [23, 5, 19, 16], 6, [160, 161, 164]⟩), [48, 47, 46], [18, 23, 24], [163]⟩,
   ⟨19, 9, 2, (some 41), true, false, 173, 173, 1730,
    (some ⟨3, 171, 1650, [126, 87, 142, 86]⟩),
    (some ⟨1, [85, 145, 125], [11, 17, 9], 4, [17, 19]⟩), [160, 161, 164], [106], [171]⟩,
   ⟨19, 9, 1, (some 2), true, false, 179, 179, 1790,
    (some ⟨2, 177, 1730, [85, 145, 125]⟩),
    (some ⟨0, [121, 84, 101, 83], [8, 13, 22, 10], 5, [82, 84, 86, 89, 90, 92]⟩), [17, 19], [5, 8], [177]⟩,
   ⟨19, 9, 0, (some 15), false, true, 184, 184, 1840,
    (some ⟨1, 184, 1790, [121, 84, 101, 83]⟩),
    none, [82, 84, 86, 89, 90, 92], [], [184]⟩]),
  (train_ko3_11, [
   ⟨20, 11, 4, (some 36), true, false, 196, 198, 1980,
    none,
    (some ⟨3, [127, 93, 92, 91, 90], [18, 7, 6, 8, 12], 5, [48, 47, 46]⟩), [], [31, 33], [196]⟩,
   ⟨20, 11, 3, (some 31), true, false, 203, 205, 2050,
    (some ⟨4, 203, 1980, [127, 93, 92, 91, 90]⟩),
    (some ⟨2, [126, 87, 142, 86], [23, 5, 19, 16], 6, [160, 161, 164]⟩), [48, 47, 46], [18, 23, 24], [203]⟩,
   ⟨20, 11, 2, (some 41), true, false, 211, 213, 2130,
    (some ⟨3, 211, 2050, [126, 87, 142, 86]⟩),
    (some ⟨1, [85, 145, 125], [11, 17, 9], 4, [17, 19]⟩), [160, 161, 164], [106], [211]⟩,
   ⟨20, 11, 1, (some 2), true, false, 217, 219, 2190,
    (some ⟨2, 217, 2130, [85, 145, 125]⟩),
    (some ⟨0, [121, 84, 101, 83], [8, 13, 22, 10], 5, [82, 84, 86, 89, 90, 92]⟩), [17, 19], [5, 8], [217]⟩,
   ⟨20, 11, 0, (some 15), false, true, 222, 224, 2240,
    (some ⟨1, 224, 2190, [121, 84, 101, 83]⟩),
    none, [82, 84, 86, 89, 90, 92], [], [224]⟩])]

theorem ko3n5Plan_sections : ko3n5Plan.map Prod.fst = ko3 := rfl

theorem ko3n5Plan_ok : netKoR.PlanOK "14:00" ko3n5Delays 40 netKoRSpecial ko3n5Plan :=
  ko3Plan_ok.again rfl (by decide +kernel) (by decide +kernel) (by decide +kernel) (by decide +kernel)

theorem ko3n5_cost : netKoR.costOK ko3n5Plan 166 = true := by decide +kernel

/-- the departures: train and station -/
def ko3n5Nodes : List (Nat × Nat) := [
  (5, 0), (13, 1), (3, 0), (3, 1), (13, 4), (2, 3), (9, 3), (20, 4), (20, 3), (20, 2), (20, 1),
  (19, 1), (9, 0), (9, 1), (9, 2), (19, 4), (8, 3), (8, 4), (7, 3), (1, 0), (12, 1), (1, 2),
  (14, 3), (14, 2), (14, 1), (16, 4), (5, 3), (5, 4), (16, 3), (16, 2), (16, 1), (17, 3), (7, 2),
  (19, 3), (19, 2), (7, 0), (7, 1), (17, 2), (17, 1), (4, 0), (4, 1), (4, 2), (4, 3), (1, 3),
  (1, 4), (1, 1), (5, 2), (5, 1), (6, 0), (8, 2), (10, 3), (6, 2), (8, 0), (8, 1), (17, 4), (6, 3),
  (13, 3), (13, 2), (10, 2), (10, 1), (10, 0)]

/-- the choices -/
def ko3n5Choices : List CodedNet.Choice := [
  .first 1 5 0, .first 9 10 0, .first 9 10 1, .against 3 13 0 1, .against 2 13 3 4,
  .against 20 9 4 3, .against 8 17 2 3, .against 9 19 0 1, .first 3 1 0, .against 8 19 3 4,
  .first 7 8 3, .against 12 1 1 0, .against 12 3 1 0, .against 14 1 3 2, .against 16 4 4 3,
  .against 5 16 3 4, .against 7 19 3 4, .against 7 17 2 3, .against 7 16 0 1, .first 5 4 3,
  .against 12 4 1 0, .against 4 13 0 1, .first 3 4 0, .first 12 13 1, .first 1 4 3, .first 5 4 0,
  .first 5 4 1, .first 5 4 2, .against 14 6 1 0, .against 14 5 3 2, .against 14 4 3 2,
  .first 3 5 0, .against 20 10 4 3, .against 8 16 0 1, .against 16 6 3 2, .against 12 5 1 0,
  .against 17 6 4 3, .first 1 4 2, .against 20 9 3 2, .first 9 10 3, .against 5 13 0 1,
  .first 9 10 2]

/-- the inequalities -/
def ko3n5Arcs : ArcTree :=
  .node ⟨.track, 2, 1, 0, 0, 74, false⟩ (.node ⟨.come, 8, 2, 3, 5, 0, false⟩ (.node
  ⟨.come, 10, 5, 6, 6, 0, false⟩ (.node ⟨.run, 0, 10, 11, 6, 0, false⟩ (.node
  ⟨.come, 24, 20, 21, 4, 0, false⟩ (.node ⟨.run, 0, 16, 34, 7, 0, false⟩ (.node
  ⟨.come, 19, 17, 16, 6, 0, false⟩ .none .none) (.node ⟨.come, 73, 55, 56, 6, 0, false⟩ .none
  .none)) (.node ⟨.come, 44, 2, 40, 5, 0, false⟩ (.node ⟨.come, 58, 49, 25, 5, 0, false⟩ .none
  .none) (.node ⟨.track, 79, 7, 59, 0, 4, false⟩ .none .none))) (.node
  ⟨.run, 0, 26, 29, 7, 0, false⟩ (.node ⟨.run, 0, 38, 39, 5, 0, false⟩ (.node
  ⟨.run, 0, 48, 47, 4, 0, false⟩ .none .none) (.node ⟨.come, 77, 9, 15, 7, 0, false⟩ .none .none))
  (.node ⟨.come, 29, 26, 43, 6, 0, false⟩ (.node ⟨.come, 66, 51, 8, 6, 0, false⟩ .none .none)
  .none))) (.node ⟨.run, 0, 15, 7, 6, 0, false⟩ (.node ⟨.run, 0, 24, 25, 6, 0, false⟩ (.node
  ⟨.run, 0, 36, 37, 6, 0, false⟩ (.node ⟨.track, 39, 27, 42, 0, 4, false⟩ .none .none) (.node
  ⟨.track, 50, 43, 22, 0, 4, false⟩ .none .none)) (.node ⟨.run, 0, 42, 43, 6, 0, false⟩ (.node
  ⟨.follow, 64, 1, 3, 2, 0, false⟩ .none .none) (.node ⟨.track, 1, 20, 0, 0, 88, false⟩ .none
  .none))) (.node ⟨.follow, 21, 19, 17, 3, 0, false⟩ (.node ⟨.come, 41, 21, 40, 6, 0, false⟩ (.node
  ⟨.run, 0, 1, 48, 4, 0, false⟩ .none .none) (.node ⟨.run, 0, 58, 2, 5, 0, false⟩ .none .none))
  (.node ⟨.come, 23, 21, 20, 6, 0, false⟩ (.node ⟨.run, 0, 54, 50, 4, 0, false⟩ .none .none)
  .none)))) (.node ⟨.run, 0, 8, 9, 7, 0, false⟩ (.node ⟨.run, 0, 13, 14, 6, 0, false⟩ (.node
  ⟨.come, 28, 22, 23, 5, 0, false⟩ (.node ⟨.run, 0, 35, 12, 6, 0, false⟩ (.node
  ⟨.come, 15, 13, 12, 5, 0, false⟩ .none .none) (.node ⟨.follow, 76, 42, 22, 3, 0, false⟩ .none
  .none)) (.node ⟨.run, 0, 40, 41, 6, 0, false⟩ (.node ⟨.come, 62, 42, 23, 5, 0, false⟩ .none
  .none) (.node ⟨.track, 83, 15, 60, 0, 4, false⟩ .none .none))) (.node
  ⟨.run, 0, 30, 31, 6, 0, false⟩ (.node ⟨.come, 42, 40, 21, 5, 0, false⟩ (.node
  ⟨.track, 53, 48, 40, 0, 4, false⟩ .none .none) (.node ⟨.run, 0, 5, 57, 7, 0, false⟩ .none .none))
  (.node ⟨.run, 0, 22, 44, 6, 0, false⟩ (.node ⟨.come, 68, 31, 53, 6, 0, false⟩ .none .none)
  .none))) (.node ⟨.run, 0, 17, 18, 6, 0, false⟩ (.node ⟨.run, 0, 27, 28, 6, 0, false⟩ (.node
  ⟨.come, 35, 33, 32, 5, 0, false⟩ (.node ⟨.run, 0, 47, 27, 6, 0, false⟩ .none .none) (.node
  ⟨.follow, 80, 51, 7, 3, 0, false⟩ .none .none)) (.node ⟨.follow, 39, 27, 43, 3, 0, false⟩ (.node
  ⟨.come, 59, 23, 47, 7, 0, false⟩ .none .none) (.node ⟨.track, 4, 61, 0, 0, 180, false⟩ .none
  .none))) (.node ⟨.run, 0, 33, 19, 6, 0, false⟩ (.node ⟨.follow, 46, 40, 3, 3, 0, false⟩ (.node
  ⟨.follow, 40, 43, 27, 3, 0, false⟩ .none .none) (.node ⟨.come, 82, 2, 1, 5, 0, false⟩ .none
  .none)) (.node ⟨.follow, 18, 20, 3, 2, 0, false⟩ (.node ⟨.come, 72, 1, 21, 4, 0, false⟩ .none
  .none) .none))))) (.node ⟨.run, 0, 3, 4, 7, 0, false⟩ (.node ⟨.come, 12, 7, 8, 6, 0, false⟩
  (.node ⟨.come, 16, 12, 13, 6, 0, false⟩ (.node ⟨.come, 26, 3, 21, 6, 0, false⟩ (.node
  ⟨.run, 0, 34, 35, 8, 0, false⟩ (.node ⟨.follow, 17, 3, 20, 3, 0, false⟩ .none .none) (.node
  ⟨.come, 67, 53, 31, 4, 0, false⟩ .none .none)) (.node ⟨.follow, 45, 3, 40, 3, 0, false⟩ (.node
  ⟨.come, 60, 47, 23, 5, 0, false⟩ .none .none) (.node ⟨.follow, 84, 59, 15, 3, 0, false⟩ .none
  .none))) (.node ⟨.run, 0, 29, 30, 8, 0, false⟩ (.node ⟨.come, 37, 36, 31, 5, 0, false⟩ (.node
  ⟨.track, 55, 47, 41, 0, 4, false⟩ .none .none) (.node ⟨.come, 9, 6, 5, 6, 0, false⟩ .none .none))
  (.node ⟨.come, 27, 23, 22, 7, 0, false⟩ (.node ⟨.come, 70, 52, 29, 5, 0, false⟩ .none .none)
  .none))) (.node ⟨.come, 20, 16, 17, 6, 0, false⟩ (.node ⟨.come, 32, 26, 27, 6, 0, false⟩ (.node
  ⟨.run, 0, 37, 33, 5, 0, false⟩ (.node ⟨.follow, 56, 42, 47, 3, 0, false⟩ .none .none) (.node
  ⟨.come, 65, 8, 51, 6, 0, false⟩ .none .none)) (.node ⟨.come, 43, 40, 2, 5, 0, false⟩ (.node
  ⟨.come, 13, 50, 32, 5, 0, false⟩ .none .none) (.node ⟨.track, 5, 14, 61, 0, 4, false⟩ .none
  .none))) (.node ⟨.come, 36, 32, 33, 6, 0, false⟩ (.node ⟨.follow, 48, 2, 21, 2, 0, false⟩ (.node
  ⟨.follow, 51, 1, 40, 2, 0, false⟩ .none .none) (.node ⟨.come, 7, 3, 2, 6, 0, false⟩ .none .none))
  (.node ⟨.run, 0, 20, 46, 5, 0, false⟩ (.node ⟨.run, 0, 50, 17, 6, 0, false⟩ .none .none)
  .none)))) (.node ⟨.run, 0, 9, 10, 8, 0, false⟩ (.node ⟨.run, 0, 14, 15, 5, 0, false⟩ (.node
  ⟨.run, 0, 23, 24, 8, 0, false⟩ (.node ⟨.come, 38, 31, 36, 6, 0, false⟩ (.node
  ⟨.follow, 50, 43, 44, 3, 0, false⟩ .none .none) (.node ⟨.follow, 75, 22, 42, 2, 0, false⟩ .none
  .none)) (.node ⟨.run, 0, 41, 42, 5, 0, false⟩ (.node ⟨.come, 61, 23, 42, 7, 0, false⟩ .none
  .none) (.node ⟨.follow, 6, 60, 14, 3, 0, false⟩ .none .none))) (.node
  ⟨.come, 34, 16, 19, 6, 0, false⟩ (.node ⟨.come, 25, 21, 3, 6, 0, false⟩ (.node
  ⟨.follow, 52, 40, 1, 3, 0, false⟩ .none .none) (.node ⟨.run, 0, 57, 58, 6, 0, false⟩ .none
  .none)) (.node ⟨.run, 0, 44, 45, 6, 0, false⟩ (.node ⟨.run, 0, 53, 54, 5, 0, false⟩ .none .none)
  .none))) (.node ⟨.follow, 22, 17, 19, 3, 0, false⟩ (.node ⟨.come, 31, 27, 26, 6, 0, false⟩ (.node
  ⟨.run, 0, 32, 38, 6, 0, false⟩ (.node ⟨.follow, 54, 41, 48, 3, 0, false⟩ .none .none) (.node
  ⟨.follow, 79, 7, 51, 3, 0, false⟩ .none .none)) (.node ⟨.come, 30, 43, 26, 6, 0, false⟩ (.node
  ⟨.come, 11, 8, 7, 6, 0, false⟩ .none .none) (.node ⟨.track, 3, 13, 0, 0, 164, false⟩ .none
  .none))) (.node ⟨.come, 33, 19, 16, 6, 0, false⟩ (.node ⟨.follow, 47, 21, 2, 4, 0, false⟩ (.node
  ⟨.follow, 49, 44, 43, 3, 0, false⟩ .none .none) (.node ⟨.come, 81, 1, 2, 4, 0, false⟩ .none
  .none)) (.node ⟨.run, 0, 46, 22, 4, 0, false⟩ (.node ⟨.come, 71, 21, 1, 6, 0, false⟩ .none .none)
  .none)))))

/-- the bounds of the departures -/
def ko3n5Times : TimeTree :=
  .node 0 0 0 (.node 88 0 128 (.node 79 0 119 (.node 197 4 237 (.node 191 0 231 (.node 130 4 170
  .none .none) (.node 96 0 136 .none .none)) (.node 86 0 126 (.node 157 6 197 .none .none) (.node
  139 0 179 .none .none))) (.node 217 4 257 (.node 152 4 192 (.node 173 0 213 .none .none) (.node
  192 4 232 .none .none)) (.node 104 0 144 (.node 100 4 140 .none .none) (.node 185 0 225 .none
  .none)))) (.node 61 0 101 (.node 203 0 243 (.node 159 0 199 (.node 141 0 181 .none .none) (.node
  114 0 154 .none .none)) (.node 100 4 140 (.node 83 0 123 .none .none) (.node 68 0 108 .none
  .none))) (.node 180 0 220 (.node 77 4 117 (.node 133 0 173 .none .none) (.node 142 0 182 .none
  .none)) (.node 116 0 156 (.node 95 6 135 .none .none) (.node 164 0 204 .none .none))))) (.node 79
  6 119 (.node 86 4 126 (.node 196 0 236 (.node 158 0 198 (.node 146 0 186 .none .none) (.node 92 0
  132 .none .none)) (.node 94 0 134 (.node 77 0 117 .none .none) (.node 133 4 173 .none .none)))
  (.node 179 4 219 (.node 74 0 114 (.node 127 0 167 .none .none) (.node 126 0 166 .none .none))
  (.node 114 6 154 (.node 89 0 129 .none .none) (.node 180 0 220 .none .none)))) (.node 64 4 104
  (.node 211 0 251 (.node 167 6 207 (.node 165 0 205 .none .none) (.node 151 0 191 .none .none))
  (.node 109 0 149 (.node 91 0 131 .none .none) (.node 74 0 114 .none .none))) (.node 186 0 226
  (.node 83 0 123 (.node 152 0 192 .none .none) (.node 147 0 187 .none .none)) (.node 124 0 164
  (.node 79 0 119 .none .none) .none))))

/-- some of the cases -/
def ko3n5Case0 : SumTree :=
  .cases [59, 60, 62, 57, 58] 12 (.cases [42, 2, 108] 13 (.cases [56, 57, 58] 15 (.cases
  [22, 23, 24, 25] 9 (.leaf [63, 31, 32, 33]) (.cases [12, 13] 5 (.leaf [86]) (.leaf
  [4, 5, 6, 7]))) (.leaf [20, 21])) (.leaf [17, 18, 19])) (.leaf [16, 59, 115])

/-- some of the cases -/
def ko3n5Case1 : SumTree :=
  .cases [42, 2, 108] 9 (.cases [63, 31, 32, 33] 21 (.cases [] 13 (.leaf [56, 57, 58]) (.cases
  [17, 18, 19] 15 (.cases [22, 23, 24, 25] 32 (.leaf [100]) (.cases [87, 5, 6, 7] 5 (.leaf [86])
  (.cases [4, 5, 6, 7] 22 (.leaf [48, 52]) (.cases [] 20 (.leaf [43, 45, 2, 108]) (.leaf
  [41, 42, 2, 108]))))) (.leaf [20, 21]))) (.leaf [47, 49, 50, 51])) (.cases [12, 13] 13 (.leaf
  [56, 57, 58]) (.cases [17, 18, 19] 14 (.leaf [55]) (.cases [] 5 (.cases [86] 41 (.cycle 15
  [113, 114, 10]) (.cases [] 39 (.cycle 7 [111, 112, 11]) (.cases [] 21 (.cases [] 32 (.leaf
  [100, 101]) (.cases [87, 86] 22 (.leaf [48, 49, 52, 50, 51]) (.cases [] 20 (.leaf
  [43, 45, 2, 108]) (.leaf [41, 42, 2, 108])))) (.leaf [47, 49, 50, 51])))) (.cases [4, 5, 6, 7] 7
  (.leaf [65]) (.leaf [8, 9, 10, 11, 4, 5, 6, 7])))))

/-- some of the cases -/
def ko3n5Case2 : SumTree :=
  .cases [16] 13 (.cases [56, 57, 58] 40 (.leaf [110]) (.cases [109] 15 (.cases [] 32 (.leaf [100])
  (.cases [87, 5, 6, 7] 35 (.cases [94, 75, 71, 69, 22, 23, 24, 25] 7 (.leaf [65]) (.cases
  [8, 9, 10, 11] 4 (.leaf [104, 105, 106, 107]) (.leaf [3]))) (.leaf [93]))) (.leaf [20, 21])))
  (.cases [17, 18, 19] 5 (.cases [86] 9 (.cases [63, 31, 32, 33] 39 (.leaf [102]) (.cases [] 40
  (.leaf [110]) (.cases [109, 75, 71] 28 (.cases [] 33 (.leaf [96]) (.cases [] 29 (.cases [] 34
  (.cases [] 15 (.cases [] 36 (.leaf [95]) (.cases [] 32 (.leaf [100, 101]) (.cases
  [87, 5, 86, 6, 7] 23 (.leaf [46, 109, 75, 71, 69, 22, 23, 24, 25]) (.cases [44] 35 (.cases
  [94, 75, 71, 69, 22, 23, 24, 25] 30 (.leaf [82, 51]) (.leaf [81, 18, 19])) (.leaf [93])))))
  (.leaf [20, 21])) (.leaf [88, 24, 25, 89, 90, 91, 92, 13])) (.leaf [80, 18, 19]))) (.leaf
  [79])))) (.cases [12, 13] 39 (.leaf [102]) (.cases [] 28 (.cases [] 29 (.cases [] 30 (.cases
  [82, 51] 4 (.cases [104, 105, 106, 107] 15 (.cases [] 32 (.leaf [100, 101]) (.cases
  [87, 5, 86, 6, 7] 23 (.cases [46] 35 (.leaf [94, 75, 71, 69, 22, 23, 24, 25]) (.leaf [93, 46]))
  (.leaf [44]))) (.leaf [20, 21])) (.cases [3] 40 (.leaf [110]) (.cases [109] 15 (.cases [] 32
  (.leaf [100, 101]) (.cases [87, 5, 86, 6, 7] 23 (.leaf [46]) (.cases [44] 35 (.leaf
  [94, 75, 71, 69, 22, 23, 24, 25]) (.leaf [93])))) (.leaf [20, 21])))) (.cases
  [81, 18, 85, 19, 69, 21] 23 (.leaf [46]) (.cases [44] 18 (.leaf [40]) (.cases [34, 35, 36] 17
  (.leaf [37, 38, 39]) (.leaf [28, 29]))))) (.leaf [80, 18, 19])) (.leaf [79])))) (.cases
  [4, 5, 6, 7] 9 (.cases [63, 31, 32, 33] 40 (.leaf [110]) (.cases [109] 15 (.cases [] 35 (.cases
  [] 23 (.leaf [46, 109, 75, 71, 69, 22, 23, 24, 25]) (.cases [44, 94, 75, 71, 69, 22, 23, 24, 25]
  4 (.leaf [104, 105, 106, 107, 44]) (.leaf [3]))) (.leaf [93])) (.leaf [20, 21]))) (.cases
  [12, 13] 7 (.cases [65] 23 (.leaf [46]) (.cases [44] 4 (.leaf [104, 105, 106, 107, 44]) (.leaf
  [3]))) (.cases [8, 9, 10, 11, 4, 5, 6, 7] 23 (.leaf [46]) (.leaf [44])))))

/-- some of the cases -/
def ko3n5Case3 : SumTree :=
  .cases [104, 105, 106, 107, 1, 2] 13 (.leaf [56, 57, 58]) (.cases [17, 18, 19] 14 (.leaf [55])
  (.cases [] 22 (.leaf [48, 49, 50, 51]) (.cases [] 11 (.leaf [59, 60, 62, 57, 17, 58, 18, 19])
  (.cases [15] 9 (.cases [63, 31, 32, 33] 20 (.cases [43, 49, 50, 51] 21 (.cases [52, 1, 2] 18
  (.leaf [40]) (.leaf [34, 35, 36, 29])) (.leaf [47, 49, 45, 50, 2, 51])) (.leaf [41])) (.cases
  [12, 13] 30 (.cases [82, 51] 15 (.cases [22, 23, 24, 25] 5 (.leaf [86]) (.leaf [4, 5, 6, 7]))
  (.leaf [20, 21])) (.leaf [81, 18, 19]))))))

/-- some of the cases -/
def ko3n5Case4 : SumTree :=
  .cases [84, 38, 39] 8 (.leaf [64, 60, 62, 57, 58]) (.cases [] 11 (.leaf
  [59, 60, 61, 62, 2, 57, 58]) (.cases [15] 28 (.cases [] 13 (.leaf [56, 57, 58]) (.cases
  [17, 18, 19] 29 (.cases [] 38 (.leaf [103, 11]) (.cases [] 15 (.cases [22, 23, 24, 25] 32 (.leaf
  [100]) (.cases [87, 5, 86, 6, 7] 7 (.leaf [65]) (.cases [] 30 (.cases [82, 51] 9 (.leaf
  [63, 31, 32, 33, 8, 9, 10, 11]) (.leaf [12, 13])) (.leaf [81, 18, 19])))) (.leaf [20, 21])))
  (.leaf [80, 18, 19]))) (.leaf [79])))

/-- some of the cases -/
def ko3n5Case5 : SumTree :=
  .cases [100] 28 (.cases [] 21 (.cases [52, 1, 2] 12 (.cases [] 20 (.leaf [43, 52, 1, 2]) (.cases
  [41, 42, 2] 7 (.leaf [65]) (.cases [] 13 (.leaf [56, 57, 58]) (.cases [17, 18, 19] 9 (.leaf
  [63, 31, 32, 33, 8, 9, 10, 11]) (.leaf [12, 13]))))) (.leaf [16])) (.cases [47, 49, 50, 51] 13
  (.cases [56, 57, 58] 22 (.leaf [48, 49, 50, 51]) (.leaf [45, 2])) (.cases [17, 18, 19] 23 (.cases
  [46, 1, 2] 11 (.leaf [59, 60, 62, 57, 58]) (.cases [15, 46, 1, 47, 2, 49, 50, 51] 7 (.leaf [65])
  (.cases [] 9 (.leaf [63, 31, 32, 33, 8, 9, 10, 11]) (.leaf [12, 13])))) (.cases [44] 30 (.cases
  [] 38 (.leaf [103, 11]) (.cases [] 39 (.cases [102] 12 (.cases [42, 2] 20 (.cases
  [43, 49, 50, 51] 7 (.leaf [65]) (.cases [] 9 (.leaf [63, 31, 32, 33, 8, 9, 10, 11, 102]) (.leaf
  [12, 13]))) (.leaf [41, 42, 2])) (.leaf [16])) (.cases [101] 12 (.cases [42, 2] 20 (.cases
  [43, 49, 50, 51] 7 (.leaf [65]) (.cases [] 9 (.leaf [63, 31, 32, 33, 8, 9, 10, 11]) (.leaf
  [12, 13]))) (.leaf [41, 42, 2])) (.leaf [16])))) (.leaf [81, 18, 19]))))) (.leaf [79])

/-- some of the cases -/
def ko3n5Case6 : SumTree :=
  .cases [87, 5, 86, 6, 7] 13 (.cases [56, 57, 58] 12 (.cases [] 30 (.cases [82] 15 (.cases
  [22, 23, 24, 25] 37 (.cases [] 24 (.cases [78] 9 (.leaf [63, 31, 32, 33]) (.cases [12, 13] 23
  (.leaf [46, 1, 2]) (.leaf [44, 42, 2]))) (.cycle 22 [98, 51, 99])) (.cases [97, 57, 58] 23 (.leaf
  [46, 1, 2]) (.leaf [44, 42, 2]))) (.leaf [20, 21])) (.leaf [81, 56, 57, 58])) (.leaf [16]))
  (.cases [17, 18, 19] 11 (.leaf [59, 60, 62, 57, 17, 58, 18, 19]) (.cases [15] 9 (.cases
  [63, 31, 32, 33] 28 (.cases [] 33 (.leaf [96]) (.cases [] 34 (.cases [] 14 (.leaf [55]) (.cases
  [] 16 (.cases [] 30 (.cases [82, 51] 35 (.cases [] 21 (.cases [52, 1, 2] 23 (.cases [] 20 (.leaf
  [43, 52, 1, 2]) (.leaf [41, 46, 1, 2])) (.leaf [44])) (.cases [47] 23 (.cases
  [46, 1, 47, 2, 49, 50, 51] 22 (.leaf [48, 49, 50, 51]) (.leaf [45, 2])) (.cases [44] 15 (.cases
  [22, 23, 24, 25] 36 (.leaf [95]) (.cases [] 10 (.cases [] 12 (.cases [42, 2] 20 (.cases
  [43, 49, 50, 51] 17 (.cases [] 18 (.cases [40] 22 (.leaf [48, 49, 50, 51, 54, 23, 24, 25]) (.leaf
  [45, 2])) (.leaf [34, 35, 36, 37, 38, 39])) (.leaf [28, 29, 27, 63, 31, 32, 33])) (.leaf
  [41, 42, 2])) (.leaf [16, 94, 75, 71, 69, 21, 22, 23, 24, 25])) (.leaf [14, 30, 31, 32, 33])))
  (.leaf [20, 21])))) (.leaf [93])) (.cases [81, 18, 19] 22 (.leaf [48, 49, 50, 81, 18, 19])
  (.cases [] 12 (.cases [] 20 (.leaf [43, 49, 45, 50, 2, 81, 18, 19]) (.leaf [41, 42, 2])) (.leaf
  [16])))) (.leaf [26]))) (.leaf [88, 24, 25, 89, 90, 91, 92, 13]))) (.leaf [79])) (.cases [12, 13]
  21 (.cases [52, 1, 2] 12 (.cases [] 20 (.leaf [43, 52, 1, 2]) (.cases [41, 42, 2] 15 (.cases
  [22, 23, 24, 25] 23 (.leaf [46, 1, 2]) (.leaf [44, 42, 2])) (.leaf [20, 21]))) (.leaf [16]))
  (.cases [47] 15 (.cases [22, 23, 24, 25] 14 (.leaf [55]) (.cases [] 23 (.cases
  [46, 1, 47, 2, 49, 50, 51] 19 (.leaf [53, 54, 23, 24, 25]) (.cases [77, 22, 23, 24, 25] 22 (.leaf
  [48, 49, 50, 51, 77, 21]) (.leaf [45, 2]))) (.cases [44] 12 (.cases [42, 2] 20 (.cases
  [43, 49, 50, 51] 19 (.leaf [53, 54, 23, 24, 25]) (.cases [77, 22, 23, 24, 25] 22 (.leaf
  [48, 49, 50, 51, 77, 22, 23, 24, 25]) (.leaf [45, 2]))) (.leaf [41, 42, 2])) (.cases [16] 22
  (.leaf [48, 49, 50, 51]) (.leaf [45, 2, 16]))))) (.cases [20, 21] 12 (.cases [] 20 (.cases [] 23
  (.leaf [46, 1, 2]) (.leaf [44, 42, 43, 2, 49, 50, 51])) (.leaf [41, 42, 2])) (.leaf [16]))))))

/-- some of the cases -/
def ko3n5Case7 : SumTree :=
  .cases [84, 38, 39] 8 (.leaf [64, 60, 62, 57, 58]) (.cases [] 11 (.leaf
  [59, 60, 61, 62, 2, 57, 58]) (.cases [15] 12 (.cases [] 28 (.cases [] 13 (.leaf [56, 57, 58])
  (.cases [17, 18, 19] 29 (.cases [] 15 (.cases [22, 23, 24, 25] 30 (.cases [82, 51] 9 (.leaf
  [63, 31, 32, 33]) (.cases [12, 13] 23 (.leaf [46, 1, 2]) (.leaf [44, 42, 2]))) (.leaf
  [81, 18, 85, 19, 69, 21])) (.leaf [20, 21])) (.leaf [80, 18, 19]))) (.leaf [79])) (.leaf [16])))

/-- some of the cases -/
def ko3n5Case8 : SumTree :=
  .cases [] 7 (.cases [65] 24 (.cases [] 21 (.cases [52, 1, 2] 11 (.leaf [59, 60, 62, 57, 58])
  (.cases [15] 12 (.cases [] 28 (.cases [] 13 (.leaf [56, 57, 58]) (.cases [17, 18, 19] 29 (.cases
  [] 15 (.cases [22, 23, 24, 25] 20 (.leaf [43, 52, 1, 2]) (.cases [41, 42, 2] 30 (.cases [82, 51]
  9 (.cases [63, 31, 32, 33] 31 (.cases [] 23 (.leaf [46, 1, 2]) (.leaf [44, 42, 2])) (.leaf
  [83, 2])) (.leaf [12, 13])) (.leaf [81, 18, 19]))) (.leaf [20, 21])) (.leaf [80, 18, 19])))
  (.leaf [79])) (.leaf [16]))) (.cases [47, 49, 50, 51] 13 (.cases [56, 57, 58, 78] 23 (.leaf
  [46, 1, 47, 2, 49, 50, 51]) (.leaf [44])) (.cases [17, 18, 19] 23 (.cases
  [46, 1, 47, 2, 49, 50, 51] 11 (.leaf [59, 60, 62, 57, 58]) (.cases [15, 46, 1, 47, 2, 49, 50, 51]
  17 (.cases [] 14 (.leaf [55]) (.cases [54, 23, 24, 25] 15 (.cases [] 18 (.cases [40] 9 (.cases
  [63, 31, 32, 33] 22 (.leaf [48, 49, 50, 51, 54, 23, 24, 25]) (.leaf [45, 2])) (.leaf [12, 13]))
  (.leaf [34, 35, 36, 37, 38, 39])) (.leaf [20, 21]))) (.leaf [28, 29]))) (.cases [44] 14 (.leaf
  [55]) (.cases [] 9 (.cases [63, 31, 32, 33] 12 (.cases [42, 2] 15 (.cases [] 20 (.cases
  [43, 49, 50, 51] 19 (.leaf [53, 54, 23, 24, 25]) (.cases [77, 22, 23, 24, 25] 22 (.leaf
  [48, 49, 50, 51, 77, 22, 23, 24, 25]) (.leaf [45, 2]))) (.leaf [41, 42, 2])) (.leaf [20, 21]))
  (.cases [16] 25 (.leaf [76, 49, 50, 51]) (.cases [] 26 (.cycle 48 [73, 74, 75]) (.cases [] 27
  (.cycle 41 [70, 71, 72]) (.cases [] 19 (.cycle 27 [67, 68, 69]) (.cases [] 20 (.leaf
  [43, 49, 50, 51]) (.cases [] 15 (.cases [] 22 (.leaf [48, 49, 41, 50, 51]) (.leaf [45, 2, 16]))
  (.leaf [20, 21])))))))) (.cases [12, 13] 12 (.cases [42, 2] 20 (.cases
  [43, 49, 50, 51, 54, 23, 24, 25] 18 (.cases [] 22 (.leaf [48, 49, 50, 51]) (.leaf [45, 2]))
  (.leaf [34, 35, 36, 29])) (.leaf [41, 42, 2])) (.leaf [16]))))))) (.leaf [66, 58])) (.cases
  [8, 9, 10, 11, 4, 5, 6, 7] 8 (.leaf [64, 60, 62, 57, 58]) (.cases [] 9 (.leaf
  [63, 31, 32, 33, 8, 9, 10, 11, 4, 5, 6, 7]) (.cases [12, 13] 10 (.cases [] 11 (.leaf
  [59, 60, 61, 62, 2, 57, 58]) (.cases [15] 12 (.cases [] 13 (.leaf [56, 57, 58]) (.cases
  [17, 18, 19] 14 (.leaf [55]) (.cases [] 15 (.cases [22, 23, 24, 25] 16 (.cases [] 17 (.cases []
  18 (.cases [40] 19 (.leaf [53, 54, 23, 24, 25]) (.cases [] 20 (.cases [43] 21 (.leaf [52])
  (.cases [] 22 (.cases [] 23 (.leaf [46, 1, 2, 48, 49, 50, 51]) (.leaf
  [44, 42, 2, 48, 49, 50, 51])) (.cases [] 23 (.leaf [46, 47, 45, 2]) (.leaf [44, 43, 45, 2]))))
  (.leaf [41, 42, 2]))) (.leaf [34, 35, 36, 29, 37, 30, 38, 31, 39, 32, 33, 8, 9, 10, 11, 4, 5, 6,
  7])) (.leaf [28, 29, 30, 31, 12, 32, 13, 33, 8, 9, 10, 11])) (.leaf [26, 27, 13])) (.leaf
  [20, 21])))) (.leaf [16]))) (.leaf [14]))))

/-- all cases -/
def ko3n5Cases : SumTree :=
  .cases [] 0 (.cases [] 1 (.leaf [118]) (.cases [] 2 (.leaf [116, 117]) (.cases [] 3 (.cases [108]
  11 ko3n5Case0 (.cases [15] 12 ko3n5Case1 ko3n5Case2)) (.cases [1, 2] 4 ko3n5Case3 (.cases [3] 5
  (.cases [86] 6 ko3n5Case4 (.cases [] 32 ko3n5Case5 ko3n5Case6)) (.cases [4, 5, 6, 7] 6 ko3n5Case7
  ko3n5Case8)))))) (.leaf [0])

theorem ko3n5_cases : ko3n5Cases.check ko3n5Arcs 166 ko3n5Choices.length [] ko3n5Times 0 = true := by
  decide +kernel

theorem ko3n5_choices : ko3n5Choices.all (CodedNet.Choice.ok netKoR netKoRSpecial ko3n5Plan) = true := by
  decide +kernel

theorem ko3n5_arcs : ko3n5Arcs.toList.all
    (netKoR.arcOK netKoRSpecial ko3n5Plan ko3n5Nodes ko3n5Choices) = true := by decide +kernel

theorem ko3n5_times : netKoR.startOK ko3n5Plan ko3n5Nodes 0 40 ko3n5Times = true := by decide +kernel

end Verif.Real
