import Verif.Proofs.PlanSum
import Verif.Proofs.PlanAgain
import Verif.Real.PlanKo3

/-!
# The sheet of `Verif.Real.Ko3` with given delays: a plan, and that no plan is better

Generated; see `CodedNet.Item` and `Verif/Proofs/SumTree.lean`. Case 3,
`disturbances[10]`, of `/repo/solve_KO_GLC_problems.py`, line 126;
`d_max` is 40. The sum of the delays that count is 256/4.
-/

namespace Verif.Real

set_option maxRecDepth 100000

/-- the given delays -/
def ko3n10Delays : List (Int × ℚ) := [
  (1, 29), (2, 36), (4602, 20), (9, 12), (4606, 30), (102, 45), (101, 47), (6401, 35), (6403, 20),
  (5, 25), (103, 30), (3, 60), (4604, 10), (10, 25)]

/-- the plan, items by sections -/
def ko3n10Plan : CodedNet.Plan := [
  (train_ko3_2, [
   ⟨0, 2, 0, (some 14), true, false, 36, 36, 360,
    none,
    (some ⟨1, [83, 101, 84, 121], [9, 19, 8, 8], 4, [5, 8]⟩), [], [61, 64, 69, 71, 87, 92], [36]⟩,
   ⟨0, 2, 1, (some 1), true, false, 42, 42, 420,
    (some ⟨0, 40, 360, [83, 101, 84, 121]⟩),
    (some ⟨2, [77, 144, 119], [15, 14, 8], 4, [107]⟩), [5, 8], [16, 2], [40]⟩,
   ⟨0, 2, 2, (some 40), true, false, 47, 47, 470,
    (some ⟨1, 46, 420, [77, 144, 119]⟩),
    (some ⟨3, [86, 142, 87, 126], [13, 13, 7, 9], 4, [18, 23]⟩), [107], [161, 164], [46]⟩,
   ⟨0, 2, 3, (some 30), true, false, 53, 53, 530,
    (some ⟨2, 51, 470, [86, 142, 87, 126]⟩),
    (some ⟨4, [90, 91, 92, 93, 127], [13, 9, 5, 7, 20], 5, [31, 33, 41]⟩), [18, 23], [47, 48], [51]⟩,
   ⟨0, 2, 4, (some 35), false, true, 58, 58, 580,
    (some ⟨3, 58, 530, [90, 91, 92, 93, 127]⟩),
    none, [31, 33, 41], [], [58]⟩]),
  (train_ko3_4602, [
   ⟨1, 4602, 0, (some 10), true, false, 74, 74, 740,
    none,
    (some ⟨1, [83, 101, 84, 121], [9, 12, 6, 7], 3, [5, 8]⟩), [], [66, 68, 71, 87, 92], [74]⟩,
   ⟨1, 4602, 1, (some 1), true, false, 79, 79, 790,
    (some ⟨0, 77, 740, [83, 101, 84, 121]⟩),
    (some ⟨2, [77, 144, 119], [11, 9, 8], 3, [107]⟩), [5, 8], [16, 2], [77]⟩,
   ⟨1, 4602, 2, (some 40), true, false, 83, 83, 830,
    (some ⟨1, 82, 790, [77, 144, 119]⟩),
    (some ⟨3, [86, 142, 87, 126], [13, 7, 7, 9], 4, [18, 23]⟩), [107], [161, 164], [82]⟩,
   ⟨1, 4602, 3, (some 30), true, false, 89, 89, 890,
    (some ⟨2, 87, 830, [86, 142, 87, 126]⟩),
    (some ⟨4, [90, 91, 92, 93, 127], [13, 9, 5, 7, 20], 5, [31, 34, 43]⟩), [18, 23], [47, 48], [87]⟩,
   ⟨1, 4602, 4, (some 38), true, false, 95, 95, 950,
    (some ⟨3, 94, 890, [90, 91, 92, 93, 127]⟩),
    none, [31, 34, 43], [], [94]⟩]),
  (train_ko3_4, [
   ⟨2, 4, 0, (some 14), true, false, 38, 39, 390,
    none,
    (some ⟨1, [83, 101, 84, 121], [9, 19, 8, 8], 4, [5, 8]⟩), [], [61, 64, 69, 71, 87, 92], [38]⟩,
   ⟨2, 4, 1, (some 1), true, false, 46, 46, 460,
    (some ⟨0, 43, 390, [83, 101, 84, 121]⟩),
    (some ⟨2, [77, 144, 119], [15, 14, 8], 4, [107]⟩), [5, 8], [16, 2], [43]⟩,
   ⟨2, 4, 2, (some 40), true, false, 55, 55, 550,
    (some ⟨1, 50, 460, [77, 144, 119]⟩),
    (some ⟨3, [86, 142, 87, 126], [13, 13, 7, 9], 4, [18, 23]⟩), [107], [161, 164], [50]⟩,
   ⟨2, 4, 3, (some 30), true, false, 64, 64, 640,
    (some ⟨2, 59, 550, [86, 142, 87, 126]⟩),
    (some ⟨4, [90, 91, 92, 93, 127], [13, 9, 5, 7, 20], 5, [31, 33, 41]⟩), [18, 23], [47, 48], [59]⟩,
   ⟨2, 4, 4, (some 35), false, true, 69, 69, 690,
    (some ⟨3, 69, 640, [90, 91, 92, 93, 127]⟩),
    none, [31, 33, 41], [], [69]⟩]),
  (train_ko3_102, [
   ⟨3, 102, 0, (some 16), true, false, 124, 124, 1240,
    none,
    (some ⟨1, [83, 101, 84, 121], [9, 19, 8, 10], 5, [5, 8, 9]⟩), [], [62, 64, 69, 71, 87, 92], [124]⟩,
   ⟨3, 102, 1, (some 3), true, false, 131, 131, 1310,
    (some ⟨0, 129, 1240, [83, 101, 84, 121]⟩),
    none, [5, 8, 9], [], [129]⟩]),
  (train_ko3_6, [
   ⟨4, 6, 0, (some 14), true, false, 77, 77, 770,
    none,
    (some ⟨1, [83, 101, 84, 121], [9, 19, 8, 8], 4, [5, 8]⟩), [], [61, 64, 69, 71, 87, 92], [77]⟩,
   ⟨4, 6, 1, (some 1), true, false, 83, 83, 830,
    (some ⟨0, 81, 770, [83, 101, 84, 121]⟩),
    (some ⟨2, [77, 144, 119], [15, 14, 8], 4, [107]⟩), [5, 8], [16, 2], [81]⟩,
   ⟨4, 6, 2, (some 40), true, false, 91, 91, 910,
    (some ⟨1, 87, 830, [77, 144, 119]⟩),
    (some ⟨3, [86, 142, 87, 126], [13, 13, 7, 9], 4, [18, 23]⟩), [107], [161, 164], [87]⟩,
   ⟨4, 6, 3, (some 30), true, false, 100, 102, 1020,
    (some ⟨2, 95, 910, [86, 142, 87, 126]⟩),
    (some ⟨4, [90, 91, 92, 93, 127], [13, 9, 5, 7, 20], 5, [31, 33, 41]⟩), [18, 23], [47, 48], [95]⟩,
   ⟨4, 6, 4, (some 35), false, true, 105, 107, 1070,
    (some ⟨3, 107, 1020, [90, 91, 92, 93, 127]⟩),
    none, [31, 33, 41], [], [107]⟩]),
  (train_ko3_4604, [
   ⟨5, 4604, 0, (some 10), true, false, 98, 98, 980,
    none,
    (some ⟨1, [83, 101, 84, 121], [9, 12, 6, 7], 3, [5, 8]⟩), [], [66, 68, 71, 87, 92], [98]⟩,
   ⟨5, 4604, 1, (some 1), true, false, 102, 102, 1020,
    (some ⟨0, 101, 980, [83, 101, 84, 121]⟩),
    (some ⟨2, [77, 144, 119], [11, 9, 8], 3, [107]⟩), [5, 8], [16, 2], [101]⟩,
   ⟨5, 4604, 2, (some 40), true, false, 106, 109, 1090,
    (some ⟨1, 105, 1020, [77, 144, 119]⟩),
    (some ⟨3, [86, 142, 87, 126], [13, 7, 7, 9], 4, [18, 23]⟩), [107], [161, 164], [105]⟩,
   ⟨5, 4604, 3, (some 30), true, false, 112, 120, 1200,
    (some ⟨2, 113, 1090, [86, 142, 87, 126]⟩),
    (some ⟨4, [90, 91, 92, 93, 127], [13, 9, 5, 7, 20], 5, [31, 34, 43]⟩), [18, 23], [47, 48], [113]⟩,
   ⟨5, 4604, 4, (some 38), true, false, 118, 126, 1260,
    (some ⟨3, 125, 1200, [90, 91, 92, 93, 127]⟩),
    none, [31, 34, 43], [], [125]⟩]),
  (train_ko3_8, [
   ⟨6, 8, 0, (some 14), true, false, 114, 119, 1190,
    none,
    (some ⟨1, [83, 101, 84, 121], [9, 19, 8, 8], 4, [5, 8]⟩), [], [61, 64, 69, 71, 87, 92], [114]⟩,
   ⟨6, 8, 1, (some 1), true, false, 120, 125, 1250,
    (some ⟨0, 123, 1190, [83, 101, 84, 121]⟩),
    (some ⟨2, [77, 144, 119], [15, 14, 8], 4, [107]⟩), [5, 8], [16, 2], [123]⟩,
   ⟨6, 8, 2, (some 40), true, false, 126, 130, 1300,
    (some ⟨1, 129, 1250, [77, 144, 119]⟩),
    (some ⟨3, [86, 142, 87, 126], [13, 13, 7, 9], 4, [18, 23]⟩), [107], [161, 164], [129]⟩,
   ⟨6, 8, 3, (some 30), true, false, 133, 136, 1360,
    (some ⟨2, 134, 1300, [86, 142, 87, 126]⟩),
    (some ⟨4, [90, 91, 92, 93, 127], [13, 9, 5, 7, 20], 5, [31, 33, 41]⟩), [18, 23], [47, 48], [134]⟩,
   ⟨6, 8, 4, (some 35), false, true, 138, 141, 1410,
    (some ⟨3, 141, 1360, [90, 91, 92, 93, 127]⟩),
    none, [31, 33, 41], [], [141]⟩]),
  (train_ko3_10, [
   ⟨7, 10, 0, (some 14), true, false, 152, 159, 1590,
    none,
    (some ⟨1, [83, 101, 84, 121], [9, 19, 8, 8], 4, [5, 8]⟩), [], [61, 64, 69, 71, 87, 92], [152]⟩,
   ⟨7, 10, 1, (some 1), true, false, 158, 165, 1650,
    (some ⟨0, 163, 1590, [83, 101, 84, 121]⟩),
    (some ⟨2, [77, 144, 119], [15, 14, 8], 4, [107]⟩), [5, 8], [16, 2], [163]⟩,
   ⟨7, 10, 2, (some 40), true, false, 163, 172, 1720,
    (some ⟨1, 169, 1650, [77, 144, 119]⟩),
    (some ⟨3, [86, 142, 87, 126], [13, 13, 7, 9], 4, [18, 23]⟩), [107], [161, 164], [169]⟩,
   ⟨7, 10, 3, (some 30), true, false, 169, 178, 1780,
    (some ⟨2, 176, 1720, [86, 142, 87, 126]⟩),
    (some ⟨4, [90, 91, 92, 93, 127], [13, 9, 5, 7, 20], 5, [31, 33, 41]⟩), [18, 23], [47, 48], [176]⟩,
   ⟨7, 10, 4, (some 35), false, true, 174, 183, 1830,
    (some ⟨3, 183, 1780, [90, 91, 92, 93, 127]⟩),
    none, [31, 33, 41], [], [183]⟩]),
  (train_ko3_4606, [
   ⟨8, 4606, 0, (some 10), true, false, 172, 172, 1720,
    none,
    (some ⟨1, [83, 101, 84, 121], [9, 12, 6, 7], 3, [5, 8]⟩), [], [66, 68, 71, 87, 92], [172]⟩,
   ⟨8, 4606, 1, (some 1), true, false, 177, 177, 1770,
    (some ⟨0, 175, 1720, [83, 101, 84, 121]⟩),
    (some ⟨2, [77, 144, 119], [11, 9, 8], 3, [107]⟩), [5, 8], [16, 2], [175]⟩,
   ⟨8, 4606, 2, (some 40), true, false, 181, 181, 1810,
    (some ⟨1, 180, 1770, [77, 144, 119]⟩),
    (some ⟨3, [86, 142, 87, 126], [13, 7, 7, 9], 4, [18, 23]⟩), [107], [161, 164], [180]⟩,
   ⟨8, 4606, 3, (some 30), true, false, 187, 187, 1870,
    (some ⟨2, 185, 1810, [86, 142, 87, 126]⟩),
    (some ⟨4, [90, 91, 92, 93, 127], [13, 9, 5, 7, 20], 5, [31, 34, 43]⟩), [18, 23], [47, 48], [185]⟩,
   ⟨8, 4606, 4, (some 38), true, false, 193, 193, 1930,
    (some ⟨3, 192, 1870, [90, 91, 92, 93, 127]⟩),
    none, [31, 34, 43], [], [192]⟩]),
  (train_ko3_12, [
   ⟨9, 12, 0, (some 14), true, false, 180, 185, 1850,
    none,
    (some ⟨1, [83, 101, 84, 121], [9, 19, 8, 8], 4, [5, 8]⟩), [], [61, 64, 69, 71, 87, 92], [180]⟩,
   ⟨9, 12, 1, (some 1), true, false, 186, 191, 1910,
    (some ⟨0, 189, 1850, [83, 101, 84, 121]⟩),
    (some ⟨2, [77, 144, 119], [15, 14, 8], 4, [107]⟩), [5, 8], [16, 2], [189]⟩,
   ⟨9, 12, 2, (some 40), true, false, 191, 196, 1960,
    (some ⟨1, 195, 1910, [77, 144, 119]⟩),
    (some ⟨3, [86, 142, 87, 126], [13, 13, 7, 9], 4, [18, 23]⟩), [107], [161, 164], [195]⟩,
   ⟨9, 12, 3, (some 30), true, false, 197, 203, 2030,
    (some ⟨2, 200, 1960, [86, 142, 87, 126]⟩),
    (some ⟨4, [90, 91, 92, 93, 127], [13, 9, 5, 7, 20], 5, [31, 33, 41]⟩), [18, 23], [47, 48], [200]⟩,
   ⟨9, 12, 4, (some 35), false, true, 202, 208, 2080,
    (some ⟨3, 208, 2030, [90, 91, 92, 93, 127]⟩),
    none, [31, 33, 41], [], [208]⟩]),
  (train_ko3_14, [
   ⟨10, 14, 0, (some 14), true, false, 164, 174, 1740,
    none,
    (some ⟨1, [83, 101, 84, 121], [9, 19, 8, 8], 4, [5, 8]⟩), [], [61, 64, 69, 71, 87, 92], [164]⟩,
   ⟨10, 14, 1, (some 1), true, false, 180, 180, 1800,
    (some ⟨0, 178, 1740, [83, 101, 84, 121]⟩),
    (some ⟨2, [77, 144, 119], [15, 14, 8], 4, [107]⟩), [5, 8], [16, 2], [178]⟩,
   ⟨10, 14, 2, (some 40), true, false, 185, 185, 1850,
    (some ⟨1, 184, 1800, [77, 144, 119]⟩),
    (some ⟨3, [86, 142, 87, 126], [13, 13, 7, 9], 4, [18, 23]⟩), [107], [161, 164], [184]⟩,
   ⟨10, 14, 3, (some 30), true, false, 192, 200, 2000,
    (some ⟨2, 189, 1850, [86, 142, 87, 126]⟩),
    (some ⟨4, [90, 91, 92, 93, 127], [13, 9, 5, 7, 20], 5, [31, 33, 41]⟩), [18, 23], [47, 48], [189]⟩,
   ⟨10, 14, 4, (some 35), false, true, 197, 205, 2050,
    (some ⟨3, 205, 2000, [90, 91, 92, 93, 127]⟩),
    none, [31, 33, 41], [], [205]⟩]),
  (train_ko3_1, [
   ⟨11, 1, 4, (some 36), true, false, 27, 27, 270,
    none,
    (some ⟨3, [127, 93, 92, 91, 90], [18, 7, 6, 8, 12], 5, [48, 47, 46]⟩), [], [31, 33], [27]⟩,
   ⟨11, 1, 3, (some 31), true, false, 34, 34, 340,
    (some ⟨4, 32, 270, [127, 93, 92, 91, 90]⟩),
    (some ⟨2, [126, 87, 142, 86], [23, 5, 19, 16], 6, [160, 161, 164]⟩), [48, 47, 46], [18, 23, 24], [32]⟩,
   ⟨11, 1, 2, (some 41), true, false, 42, 42, 420,
    (some ⟨3, 40, 340, [126, 87, 142, 86]⟩),
    (some ⟨1, [85, 145, 125], [11, 17, 9], 4, [17, 19]⟩), [160, 161, 164], [106], [40]⟩,
   ⟨11, 1, 1, (some 2), true, false, 48, 48, 480,
    (some ⟨2, 46, 420, [85, 145, 125]⟩),
    (some ⟨0, [121, 84, 101, 83], [8, 13, 22, 10], 5, [82, 84, 86, 89, 90, 92]⟩), [17, 19], [5, 8], [46]⟩,
   ⟨11, 1, 0, (some 15), false, true, 53, 53, 530,
    (some ⟨1, 53, 480, [121, 84, 101, 83]⟩),
    none, [82, 84, 86, 89, 90, 92], [], [53]⟩]),
  (train_ko3_101, [
   ⟨12, 101, 1, (some 4), true, false, 106, 106, 1060,
    none,
    (some ⟨0, [121, 84, 101, 83], [8, 13, 22, 10], 5, [82, 84, 86, 89, 90, 92]⟩), [], [5, 6, 7], [106]⟩,
   ⟨12, 101, 0, (some 39), false, true, 111, 111, 1110,
    (some ⟨1, 111, 1060, [121, 84, 101, 83]⟩),
    none, [82, 84, 86, 89, 90, 92], [], [111]⟩]),
  (train_ko3_6401, [
   ⟨13, 6401, 4, (some 36), true, false, 96, 96, 960,
    none,
    (some ⟨3, [127, 93, 92, 91, 90], [18, 7, 6, 8, 12], 5, [48, 47, 46]⟩), [], [31, 33], [96]⟩,
   ⟨13, 6401, 3, (some 31), true, false, 103, 103, 1030,
    (some ⟨4, 101, 960, [127, 93, 92, 91, 90]⟩),
    (some ⟨2, [126, 87, 142, 86], [23, 5, 9, 16], 5, [160, 161, 164]⟩), [48, 47, 46], [18, 23, 24], [101]⟩,
   ⟨13, 6401, 2, (some 41), true, false, 109, 109, 1090,
    (some ⟨3, 108, 1030, [126, 87, 142, 86]⟩),
    (some ⟨1, [85, 145, 125], [11, 7, 9], 3, [17, 19]⟩), [160, 161, 164], [106], [108]⟩,
   ⟨13, 6401, 1, (some 2), true, false, 114, 114, 1140,
    (some ⟨2, 112, 1090, [85, 145, 125]⟩),
    (some ⟨0, [121, 84, 101, 83], [8, 11, 12, 10], 4, [81, 85, 88, 81, 92]⟩), [17, 19], [5, 8], [112]⟩,
   ⟨13, 6401, 0, (some 13), false, true, 118, 118, 1180,
    (some ⟨1, 118, 1140, [121, 84, 101, 83]⟩),
    none, [81, 85, 88, 81, 92], [], [118]⟩]),
  (train_ko3_3, [
   ⟨14, 3, 4, (some 36), true, false, 114, 114, 1140,
    none,
    (some ⟨3, [127, 93, 92, 91, 90], [18, 7, 6, 8, 12], 5, [48, 47, 46]⟩), [], [31, 33], [114]⟩,
   ⟨14, 3, 3, (some 31), true, false, 121, 121, 1210,
    (some ⟨4, 119, 1140, [127, 93, 92, 91, 90]⟩),
    (some ⟨2, [126, 87, 142, 86], [23, 5, 19, 16], 6, [160, 161, 164]⟩), [48, 47, 46], [18, 23, 24], [119]⟩,
   ⟨14, 3, 2, (some 41), true, false, 129, 129, 1290,
    (some ⟨3, 127, 1210, [126, 87, 142, 86]⟩),
    (some ⟨1, [85, 145, 125], [11, 17, 9], 4, [17, 19]⟩), [160, 161, 164], [106], [127]⟩,
   ⟨14, 3, 1, (some 2), true, false, 135, 135, 1350,
    (some ⟨2, 133, 1290, [85, 145, 125]⟩),
    (some ⟨0, [121, 84, 101, 83], [8, 13, 22, 10], 5, [82, 84, 86, 89, 90, 92]⟩), [17, 19], [5, 8], [133]⟩,
   ⟨14, 3, 0, (some 15), false, true, 140, 140, 1400,
    (some ⟨1, 140, 1350, [121, 84, 101, 83]⟩),
    none, [82, 84, 86, 89, 90, 92], [], [140]⟩]),
  (train_ko3_103, [
   ⟨15, 103, 1, (some 4), true, false, 270, 270, 2700,
    none,
    (some ⟨0, [121, 84, 101, 83], [8, 13, 22, 10], 5, [82, 84, 86, 89, 90, 92]⟩), [], [5, 6, 7], [270]⟩,
   ⟨15, 103, 0, (some 39), false, true, 275, 275, 2750,
    (some ⟨1, 275, 2700, [121, 84, 101, 83]⟩),
    none, [82, 84, 86, 89, 90, 92], [], [275]⟩]),
  (train_ko3_5, [
   ⟨16, 5, 4, (some 36), true, false, 119, 126, 1260,
    none,
    (some ⟨3, [127, 93, 92, 91, 90], [18, 7, 6, 8, 12], 5, [48, 47, 46]⟩), [], [31, 33], [119]⟩,
   ⟨16, 5, 3, (some 31), true, false, 126, 135, 1350,
    (some ⟨4, 131, 1260, [127, 93, 92, 91, 90]⟩),
    (some ⟨2, [126, 87, 142, 86], [23, 5, 19, 16], 6, [160, 161, 164]⟩), [48, 47, 46], [18, 23, 24], [131]⟩,
   ⟨16, 5, 2, (some 41), true, false, 134, 143, 1430,
    (some ⟨3, 141, 1350, [126, 87, 142, 86]⟩),
    (some ⟨1, [85, 145, 125], [11, 17, 9], 4, [17, 19]⟩), [160, 161, 164], [106], [141]⟩,
   ⟨16, 5, 1, (some 2), true, false, 140, 149, 1490,
    (some ⟨2, 147, 1430, [85, 145, 125]⟩),
    (some ⟨0, [121, 84, 101, 83], [8, 13, 22, 10], 5, [82, 84, 86, 89, 90, 92]⟩), [17, 19], [5, 8], [147]⟩,
   ⟨16, 5, 0, (some 15), false, true, 145, 154, 1540,
    (some ⟨1, 154, 1490, [121, 84, 101, 83]⟩),
    none, [82, 84, 86, 89, 90, 92], [], [154]⟩]),
  (train_ko3_6403, [
   ⟨17, 6403, 4, (some 36), true, false, 194, 194, 1940,
    none,
    (some ⟨3, [127, 93, 92, 91, 90], [18, 7, 6, 8, 12], 5, [48, 47, 46]⟩), [], [31, 33], [194]⟩,
   ⟨17, 6403, 3, (some 31), true, false, 201, 201, 2010,
    (some ⟨4, 199, 1940, [127, 93, 92, 91, 90]⟩),
    (some ⟨2, [126, 87, 142, 86], [23, 5, 9, 16], 5, [160, 161, 164]⟩), [48, 47, 46], [18, 23, 24], [199]⟩,
   ⟨17, 6403, 2, (some 41), true, false, 207, 207, 2070,
    (some ⟨3, 206, 2010, [126, 87, 142, 86]⟩),
    (some ⟨1, [85, 145, 125], [11, 7, 9], 3, [17, 19]⟩), [160, 161, 164], [106], [206]⟩,
   ⟨17, 6403, 1, (some 2), true, false, 212, 212, 2120,
    (some ⟨2, 210, 2070, [85, 145, 125]⟩),
    (some ⟨0, [121, 84, 101, 83], [8, 11, 12, 10], 4, [81, 85, 88, 81, 92]⟩), [17, 19], [5, 8], [210]⟩,
   ⟨17, 6403, 0, (some 13), false, true, 216, 216, 2160,
    (some ⟨1, 216, 2120, [121, 84, 101, 83]⟩),
    none, [81, 85, 88, 81, 92], [], [216]⟩]),
  (train_ko3_7, [
   ⟨18, 7, 4, (some 36), true, false, 127, 130, 1300,
    none,
    (some ⟨3, [127, 93, 92, 91, 90], [18, 7, 6, 8, 12], 5, [48, 47, 46]⟩), [], [31, 33], [127]⟩,
   ⟨18, 7, 3, (some 31), true, false, 134, 139, 1390,
    (some ⟨4, 135, 1300, [127, 93, 92, 91, 90]⟩),
    (some ⟨2, [126, 87, 142, 86], [23, 5, 19, 16], 6, [160, 161, 164]⟩), [48, 47, 46], [18, 23, 24], [135]⟩,
   ⟨18, 7, 2, (some 41), true, false, 143, 147, 1470,
    (some ⟨3, 145, 1390, [126, 87, 142, 86]⟩),
    (some ⟨1, [85, 145, 125], [11, 17, 9], 4, [17, 19]⟩), [160, 161, 164], [106], [145]⟩,
   ⟨18, 7, 1, (some 2), true, false, 151, 153, 1530,
    (some ⟨2, 151, 1470, [85, 145, 125]⟩),
    (some ⟨0, [121, 84, 101, 83], [8, 13, 22, 10], 5, [82, 84, 86, 89, 90, 92]⟩), [17, 19], [5, 8], [151]⟩,
   ⟨18, 7, 0, (some 15), false, true, 156, 158, 1580,
    (some ⟨1, 158, 1530, [121, 84, 101, 83]⟩),
    none, [82, 84, 86, 89, 90, 92], [], [158]⟩]),
  (train_ko3_9, [
   ⟨19, 9, 4, (some 36), true, false, 158, 158, 1580,
    none,
    (some ⟨3, [127, 93, 92, 91, 90], [18, 7, 6, 8, 12], 5, [48, 47, 46]⟩), [], [31, 33], [158]⟩,
   ⟨19, 9, 3, (some 31), true, false, 165, 165, 1650,
    (some ⟨4, 163, 1580, [127, 93, 92, 91, 90]⟩),
    (some ⟨2, [126, 87, 142, 86], [23, 5, 19, 16], 6, [160, 161, 164]⟩), [48, 47, 46], [18, 23, 24], [163]⟩,
   ⟨19, 9, 2, (some 41), true, false, 173, 173, 1730,
    (some ⟨3, 171, 1650, [126, 87, 142, 86]⟩),
    (some ⟨1, [85, 145, 125], [11, 17, 9], 4, [17, 19]⟩), [160, 161, 164], [106], [171]⟩,
   ⟨19, 9, 1, (some 2), true, false, 179, 179, 1790,
    (some ⟨2, 177, 1730, [85, 145, 125]⟩),
    (some ⟨0, [121, 84, 101, 83], [8, 13, 22, 10], 5, [82, 84, 86, 89, 90, 92]⟩), [17, 19], [5, 8], [177]⟩,
   ⟨19, 9, 0, (some 15), false, true, 184, 184, 1840,
    (some ⟨1, 184, 1790, [121, 84, 101, 83]⟩),
    none, [82, 84, 86, 89, 90, 92], [], [184]⟩]),
  (train_ko3_11, [
   ⟨20, 11, 4, (some 36), true, false, 196, 209, 2090,
    none,
    (some ⟨3, [127, 93, 92, 91, 90], [18, 7, 6, 8, 12], 5, [48, 47, 46]⟩), [], [31, 33], [196]⟩,
   ⟨20, 11, 3, (some 31), true, false, 203, 216, 2160,
    (some ⟨4, 214, 2090, [127, 93, 92, 91, 90]⟩),
    (some ⟨2, [126, 87, 142, 86], [23, 5, 19, 16], 6, [160, 161, 164]⟩), [48, 47, 46], [18, 23, 24], [214]⟩,
   ⟨20, 11, 2, (some 41), true, false, 211, 224, 2240,
    (some ⟨3, 222, 2160, [126, 87, 142, 86]⟩),
    (some ⟨1, [85, 145, 125], [11, 17, 9], 4, [17, 19]⟩), [160, 161, 164], [106], [222]⟩,
   ⟨20, 11, 1, (some 2), true, false, 217, 230, 2300,
    (some ⟨2, 228, 2240, [85, 145, 125]⟩),
    (some ⟨0, [121, 84, 101, 83], [8, 13, 22, 10], 5, [82, 84, 86, 89, 90, 92]⟩), [17, 19], [5, 8], [228]⟩,
   ⟨20, 11, 0, (some 15), false, true, 222, 235, 2350,
    (some ⟨1, 235, 2300, [121, 84, 101, 83]⟩),
    none, [82, 84, 86, 89, 90, 92], [], [235]⟩])]

theorem ko3n10Plan_sections : ko3n10Plan.map Prod.fst = ko3 := rfl

theorem ko3n10Plan_ok : netKoR.PlanOK "14:00" ko3n10Delays 40 netKoRSpecial ko3n10Plan :=
  ko3Plan_ok.again rfl (by decide +kernel) (by decide +kernel) (by decide +kernel) (by decide +kernel)

theorem ko3n10_cost : netKoR.costOK ko3n10Plan 256 = true := by decide +kernel

/-- the departures: train and station -/
def ko3n10Nodes : List (Nat × Nat) := [
  (10, 0), (16, 4), (18, 4), (17, 4), (9, 3), (10, 3), (16, 3), (14, 4), (18, 3), (17, 3), (20, 3),
  (20, 2), (20, 1), (5, 3), (14, 3), (14, 2), (14, 1), (16, 2), (16, 1), (13, 3), (5, 2), (13, 2),
  (13, 1), (6, 2), (18, 2), (18, 1), (7, 0), (7, 1), (7, 2), (7, 3), (3, 0), (3, 1), (19, 3),
  (6, 3), (20, 4), (19, 2), (19, 1), (9, 2), (10, 2), (9, 0), (9, 1), (10, 1), (5, 4), (6, 1),
  (5, 1), (13, 4), (4, 3), (6, 0), (17, 2), (17, 1)]

/-- the choices -/
def ko3n10Choices : List CodedNet.Choice := [
  .first 7 10 0, .first 9 10 0, .first 9 10 1, .first 14 16 4, .first 16 18 4, .first 20 17 4,
  .against 9 17 3 4, .against 10 17 3 4, .first 14 16 3, .first 16 18 3, .first 20 17 3,
  .against 14 5 4 3, .against 5 13 2 3, .against 14 6 3 2, .against 7 18 0 1, .against 3 13 0 1,
  .against 7 19 2 3, .against 18 6 4 3, .against 20 9 4 3, .against 20 10 4 3, .against 20 9 3 2,
  .against 20 10 3 2, .first 9 10 3, .against 9 17 2 3, .against 10 17 2 3, .against 16 6 3 2,
  .against 7 16 0 1, .first 16 18 1, .against 9 19 0 1, .against 18 6 3 2, .first 9 10 2,
  .against 5 16 3 4, .first 5 6 1, .first 5 6 2, .first 5 6 3, .against 5 18 3 4,
  .against 4 13 3 4, .against 13 6 1 0, .against 5 16 2 3, .against 14 5 3 2]

/-- the inequalities -/
def ko3n10Arcs : ArcTree :=
  .node ⟨.track, 2, 1, 0, 0, 152, false⟩ (.node ⟨.track, 8, 2, 0, 0, 114, false⟩ (.node
  ⟨.come, 14, 4, 5, 6, 0, false⟩ (.node ⟨.track, 20, 9, 2, 0, 5, false⟩ (.node
  ⟨.follow, 17, 15, 7, 4, 0, false⟩ (.node ⟨.run, 0, 28, 29, 5, 0, false⟩ (.node
  ⟨.come, 41, 11, 38, 7, 0, false⟩ .none .none) (.node ⟨.come, 76, 48, 23, 5, 0, false⟩ .none
  .none)) (.node ⟨.run, 0, 36, 37, 6, 0, false⟩ (.node ⟨.come, 59, 9, 24, 7, 0, false⟩ .none .none)
  (.node ⟨.follow, 9, 2, 3, 2, 0, false⟩ .none .none))) (.node ⟨.run, 0, 22, 23, 5, 0, false⟩
  (.node ⟨.come, 35, 3, 34, 6, 0, false⟩ (.node ⟨.run, 0, 40, 41, 6, 0, false⟩ .none .none) (.node
  ⟨.run, 0, 49, 50, 5, 0, false⟩ .none .none)) (.node ⟨.come, 47, 38, 10, 5, 0, false⟩ (.node
  ⟨.follow, 65, 45, 44, 2, 0, false⟩ .none .none) (.node ⟨.track, 3, 40, 0, 0, 164, false⟩ .none
  .none)))) (.node ⟨.run, 0, 12, 13, 6, 0, false⟩ (.node ⟨.come, 26, 20, 21, 6, 0, false⟩ (.node
  ⟨.come, 34, 33, 29, 7, 0, false⟩ (.node ⟨.come, 54, 19, 27, 6, 0, false⟩ .none .none) (.node
  ⟨.run, 0, 46, 20, 7, 0, false⟩ .none .none)) (.node ⟨.come, 48, 10, 38, 6, 0, false⟩ (.node
  ⟨.come, 64, 2, 14, 6, 0, false⟩ .none .none) (.node ⟨.come, 13, 5, 4, 6, 0, false⟩ .none .none)))
  (.node ⟨.run, 0, 9, 25, 8, 0, false⟩ (.node ⟨.come, 40, 6, 35, 6, 0, false⟩ (.node
  ⟨.come, 60, 24, 9, 5, 0, false⟩ .none .none) (.node ⟨.come, 79, 15, 21, 7, 0, false⟩ .none
  .none)) (.node ⟨.run, 0, 39, 6, 6, 0, false⟩ (.node ⟨.track, 17, 15, 2, 0, 5, false⟩ .none .none)
  .none)))) (.node ⟨.track, 18, 7, 8, 0, 5, false⟩ (.node ⟨.follow, 22, 10, 11, 3, 0, false⟩ (.node
  ⟨.run, 0, 7, 18, 8, 0, false⟩ (.node ⟨.come, 32, 23, 31, 5, 0, false⟩ (.node
  ⟨.run, 0, 24, 34, 6, 0, false⟩ .none .none) (.node ⟨.run, 0, 48, 44, 6, 0, false⟩ .none .none))
  (.node ⟨.come, 29, 27, 26, 5, 0, false⟩ (.node ⟨.come, 23, 8, 14, 6, 0, false⟩ .none .none)
  (.node ⟨.track, 12, 4, 0, 0, 196, false⟩ .none .none))) (.node ⟨.follow, 19, 7, 9, 4, 0, false⟩
  (.node ⟨.run, 0, 35, 11, 7, 0, false⟩ (.node ⟨.come, 57, 40, 37, 5, 0, false⟩ .none .none) (.node
  ⟨.come, 78, 7, 21, 7, 0, false⟩ .none .none)) (.node ⟨.follow, 45, 5, 6, 3, 0, false⟩ (.node
  ⟨.track, 70, 34, 21, 0, 4, false⟩ .none .none) .none))) (.node ⟨.run, 0, 8, 15, 7, 0, false⟩
  (.node ⟨.come, 25, 21, 20, 5, 0, false⟩ (.node ⟨.run, 0, 3, 9, 7, 0, false⟩ (.node
  ⟨.come, 53, 27, 19, 5, 0, false⟩ .none .none) (.node ⟨.follow, 55, 19, 26, 4, 0, false⟩ .none
  .none)) (.node ⟨.come, 42, 38, 11, 5, 0, false⟩ (.node ⟨.run, 0, 45, 21, 4, 0, false⟩ .none
  .none) (.node ⟨.track, 5, 41, 1, 0, 4, false⟩ .none .none))) (.node
  ⟨.come, 30, 26, 27, 6, 0, false⟩ (.node ⟨.come, 33, 29, 33, 5, 0, false⟩ (.node
  ⟨.track, 61, 38, 42, 0, 4, false⟩ .none .none) (.node ⟨.come, 63, 14, 2, 6, 0, false⟩ .none
  .none)) (.node ⟨.come, 49, 39, 10, 5, 0, false⟩ (.node ⟨.come, 72, 3, 14, 6, 0, false⟩ .none
  .none) .none))))) (.node ⟨.track, 10, 3, 0, 0, 119, false⟩ (.node ⟨.come, 16, 4, 6, 6, 0, false⟩
  (.node ⟨.track, 9, 2, 0, 0, 127, false⟩ (.node ⟨.run, 0, 16, 17, 6, 0, false⟩ (.node
  ⟨.run, 0, 29, 30, 6, 0, false⟩ (.node ⟨.come, 27, 15, 24, 7, 0, false⟩ .none .none) (.node
  ⟨.come, 75, 23, 48, 5, 0, false⟩ .none .none)) (.node ⟨.come, 31, 31, 23, 6, 0, false⟩ (.node
  ⟨.come, 44, 39, 11, 5, 0, false⟩ .none .none) (.node ⟨.track, 21, 11, 4, 0, 5, false⟩ .none
  .none))) (.node ⟨.come, 28, 24, 15, 5, 0, false⟩ (.node ⟨.come, 38, 5, 35, 6, 0, false⟩ (.node
  ⟨.run, 0, 41, 38, 5, 0, false⟩ .none .none) (.node ⟨.follow, 68, 24, 21, 3, 0, false⟩ .none
  .none)) (.node ⟨.track, 22, 10, 35, 0, 5, false⟩ (.node ⟨.run, 0, 44, 24, 5, 0, false⟩ .none
  .none) .none))) (.node ⟨.come, 24, 14, 8, 6, 0, false⟩ (.node ⟨.run, 0, 21, 14, 6, 0, false⟩
  (.node ⟨.come, 36, 34, 3, 6, 0, false⟩ (.node ⟨.follow, 56, 26, 19, 4, 0, false⟩ .none .none)
  (.node ⟨.come, 71, 14, 3, 6, 0, false⟩ .none .none)) (.node ⟨.run, 0, 38, 5, 6, 0, false⟩ (.node
  ⟨.follow, 66, 44, 45, 3, 0, false⟩ .none .none) (.node ⟨.track, 11, 35, 0, 0, 194, false⟩ .none
  .none))) (.node ⟨.run, 0, 25, 26, 6, 0, false⟩ (.node ⟨.come, 39, 35, 6, 6, 0, false⟩ (.node
  ⟨.follow, 62, 39, 38, 3, 0, false⟩ .none .none) (.node ⟨.come, 77, 21, 7, 5, 0, false⟩ .none
  .none)) (.node ⟨.track, 45, 5, 39, 0, 4, false⟩ (.node ⟨.track, 69, 14, 24, 0, 4, false⟩ .none
  .none) .none)))) (.node ⟨.track, 7, 8, 0, 0, 119, false⟩ (.node ⟨.run, 0, 11, 12, 8, 0, false⟩
  (.node ⟨.run, 0, 18, 19, 6, 0, false⟩ (.node ⟨.run, 0, 31, 32, 7, 0, false⟩ (.node
  ⟨.come, 52, 24, 7, 5, 0, false⟩ .none .none) (.node ⟨.come, 73, 47, 46, 6, 0, false⟩ .none
  .none)) (.node ⟨.follow, 46, 6, 5, 3, 0, false⟩ (.node ⟨.run, 0, 14, 43, 6, 0, false⟩ .none
  .none) (.node ⟨.come, 15, 6, 4, 6, 0, false⟩ .none .none))) (.node
  ⟨.track, 19, 7, 3, 0, 5, false⟩ (.node ⟨.come, 37, 35, 5, 6, 0, false⟩ (.node
  ⟨.come, 51, 7, 24, 7, 0, false⟩ .none .none) (.node ⟨.come, 80, 21, 15, 5, 0, false⟩ .none
  .none)) (.node ⟨.come, 50, 10, 39, 6, 0, false⟩ (.node ⟨.follow, 67, 21, 24, 2, 0, false⟩ .none
  .none) .none))) (.node ⟨.run, 0, 15, 16, 8, 0, false⟩ (.node ⟨.run, 0, 20, 22, 6, 0, false⟩
  (.node ⟨.track, 1, 27, 0, 0, 164, false⟩ (.node ⟨.come, 58, 37, 40, 6, 0, false⟩ .none .none)
  (.node ⟨.run, 0, 10, 49, 6, 0, false⟩ .none .none)) (.node ⟨.track, 46, 6, 38, 0, 4, false⟩
  (.node ⟨.track, 68, 24, 45, 0, 3, false⟩ .none .none) (.node ⟨.track, 4, 1, 0, 0, 180, false⟩
  .none .none))) (.node ⟨.run, 0, 27, 28, 6, 0, false⟩ (.node ⟨.run, 0, 33, 36, 8, 0, false⟩ (.node
  ⟨.follow, 6, 42, 41, 3, 0, false⟩ .none .none) (.node ⟨.run, 0, 2, 7, 7, 0, false⟩ .none .none))
  (.node ⟨.come, 43, 11, 39, 7, 0, false⟩ (.node ⟨.come, 74, 46, 47, 6, 0, false⟩ .none .none)
  .none)))))

/-- the bounds of the departures -/
def ko3n10Times : TimeTree :=
  .node 0 0 0 (.node 164 0 204 (.node 127 0 167 (.node 126 0 166 (.node 121 0 161 (.node 124 0 164
  .none .none) (.node 100 4 140 .none .none)) (.node 114 6 154 (.node 185 0 225 .none .none)
  .none)) (.node 203 0 243 (.node 140 4 180 (.node 196 0 236 .none .none) .none) (.node 152 0 192
  (.node 118 6 158 .none .none) .none))) (.node 197 4 237 (.node 134 0 174 (.node 135 4 175 (.node
  165 0 205 .none .none) (.node 207 0 247 .none .none)) (.node 143 0 183 (.node 186 0 226 .none
  .none) .none)) (.node 217 4 257 (.node 106 0 146 (.node 179 4 219 .none .none) .none) (.node 163
  0 203 (.node 102 0 142 .none .none) .none)))) (.node 119 0 159 (.node 194 0 234 (.node 114 0 154
  (.node 129 0 169 (.node 131 4 171 .none .none) (.node 114 0 154 .none .none)) (.node 126 0 166
  (.node 180 0 220 .none .none) .none)) (.node 211 0 251 (.node 103 0 143 (.node 173 0 213 .none
  .none) .none) (.node 158 0 198 (.node 120 0 160 .none .none) .none))) (.node 192 4 232 (.node 201
  0 241 (.node 134 0 174 (.node 133 4 173 .none .none) (.node 212 6 252 .none .none)) (.node 151 4
  191 (.node 180 0 220 .none .none) .none)) (.node 112 0 152 (.node 109 0 149 (.node 191 0 231
  .none .none) .none) (.node 169 4 209 (.node 96 0 136 .none .none) .none))))

/-- some of the cases -/
def ko3n10Case0 : SumTree :=
  .cases [98, 99, 22, 23] 25 (.leaf [74, 65]) (.cases [] 23 (.cases [] 22 (.cases [57] 15 (.leaf
  [48]) (.cases [33, 34] 28 (.leaf [73]) (.leaf [70, 71, 72, 52, 57]))) (.cases [50] 15 (.leaf
  [48]) (.cases [33, 34] 28 (.leaf [73]) (.cases [] 16 (.leaf [45, 46, 47, 70, 71, 72, 52]) (.leaf
  [35, 32]))))) (.leaf [51, 52]))

/-- some of the cases -/
def ko3n10Case1 : SumTree :=
  .cases [94] 16 (.cases [45, 46, 47] 26 (.cases [69] 23 (.cases [] 27 (.cases [101] 37 (.cases
  [96, 97, 88, 65] 28 (.cases [73] 18 (.leaf [42]) (.leaf [40, 41, 10, 11])) (.leaf
  [70, 71, 72, 52, 55, 102, 103])) (.leaf [95])) (.cases [68] 37 (.cases [96, 97, 88, 65] 28
  (.cases [73] 18 (.leaf [42]) (.leaf [40, 41, 10, 11])) (.leaf [70, 71, 72, 52, 55, 102, 103]))
  (.leaf [95]))) (.leaf [51, 52])) (.cases [67, 30, 49, 31, 32, 45, 46, 47] 19 (.cases [44] 29
  (.leaf [79, 65]) (.cases [] 20 (.leaf [63, 52]) (.cases [] 18 (.cases [42] 21 (.leaf [62, 59])
  (.cases [] 37 (.cases [96, 97, 88] 22 (.cases [57] 25 (.leaf [74, 65, 75, 27, 28]) (.cases
  [66, 17, 18, 67, 49] 24 (.cycle 35 [42, 60, 61, 56]) (.leaf [58, 59, 80, 10, 11]))) (.cases [50]
  25 (.leaf [74, 65, 75, 27, 28]) (.cases [66, 17, 18, 67, 49] 23 (.cycle 35 [44, 54, 55, 56])
  (.leaf [51, 52, 53, 10, 11])))) (.cases [95] 25 (.leaf [74, 65, 75, 27, 28]) (.cases [] 23
  (.cases [] 24 (.cases [] 22 (.cycle 35 [42, 60, 61, 56]) (.cycle 35 [44, 54, 55, 56])) (.leaf
  [58, 59])) (.leaf [51, 52]))))) (.leaf [40, 41, 44, 10, 11])))) (.cases [43, 41, 10, 11] 25
  (.leaf [74, 65]) (.cases [] 18 (.leaf [42]) (.cases [] 22 (.cases [] 30 (.cycle 38 [77, 78, 72])
  (.cycle 5 [60, 76, 52])) (.cases [50, 40, 41, 10, 11] 37 (.leaf
  [96, 97, 88, 65, 66, 17, 18, 67, 30, 49, 31, 32]) (.leaf [95]))))))) (.cases [35, 32] 29 (.leaf
  [79, 65]) (.cases [] 20 (.leaf [63, 52]) (.cases [] 28 (.cases [73] 27 (.cases [] 26 (.leaf
  [69, 101]) (.cases [67, 49] 25 (.leaf [74, 65, 75, 27, 28]) (.cases [] 18 (.cases [42] 19 (.cases
  [44] 37 (.leaf [96, 97, 88, 65, 66, 17, 18, 67, 49]) (.leaf [95])) (.leaf [43, 42])) (.leaf
  [40, 41, 10, 11])))) (.leaf [68])) (.cases [70, 71, 72, 52] 37 (.cases [96, 97, 88, 65] 23
  (.cases [] 18 (.cases [] 25 (.leaf [74, 65, 75, 27, 28]) (.cases [] 19 (.cases [] 30 (.cycle 41
  [72, 77, 78]) (.cases [] 22 (.cycle 38 [52, 60, 76]) (.cycle 35 [44, 54, 55, 56]))) (.leaf
  [43, 41, 42, 10, 11]))) (.leaf [40, 41, 10, 11])) (.leaf [51, 52, 53, 10, 11])) (.cases [95] 25
  (.leaf [74, 65]) (.cases [] 23 (.cases [] 18 (.cases [] 19 (.cases [] 30 (.cycle 41 [72, 77, 78])
  (.cases [] 22 (.cycle 38 [52, 60, 76]) (.cycle 35 [44, 54, 55, 56]))) (.leaf [43, 42])) (.leaf
  [40, 41, 10, 11])) (.leaf [51, 52])))))))

/-- some of the cases -/
def ko3n10Case2 : SumTree :=
  .cases [24, 14, 15, 16, 17, 18] 37 (.leaf [96, 97, 88, 24, 91, 8]) (.cases [95] 26 (.leaf [69])
  (.cases [67, 30, 49, 31, 32] 28 (.leaf [73]) (.leaf [70, 71, 72, 52])))

/-- some of the cases -/
def ko3n10Case3 : SumTree :=
  .cases [29, 30, 31, 32] 17 (.cases [39] 13 (.cases [] 36 (.cases [98, 99, 22, 23] 25 (.leaf
  [74, 65]) (.cases [] 23 (.cases [] 24 (.cases [] 22 (.cases [57] 15 (.leaf [48]) (.cases [33, 34]
  28 (.leaf [73]) (.leaf [70, 71, 72, 52, 57, 60, 61, 102, 103]))) (.cases [50] 15 (.leaf [48])
  (.cases [33, 34] 28 (.leaf [73]) (.cases [] 16 (.leaf [45, 46, 47, 70, 71, 72, 52]) (.leaf
  [35, 32]))))) (.leaf [58, 59])) (.leaf [51, 52]))) (.cases [94] 16 (.cases [45, 46, 47] 20 (.leaf
  [63, 52]) (.cases [] 21 (.leaf [62, 59]) (.cases [] 19 (.cases [44] 26 (.leaf [69]) (.cases [] 29
  (.leaf [79, 65]) (.cases [] 25 (.leaf [74, 75, 27, 28, 29, 38]) (.cases [] 37 (.cases [96, 97,
  88, 65, 66, 17, 25, 18, 27, 28, 29, 30, 31, 32, 45, 46, 47] 27 (.cases [] 22 (.cases [] 24
  (.cases [] 18 (.cycle 35 [42, 60, 61, 56]) (.leaf [40, 44])) (.leaf [58, 59])) (.leaf [50]))
  (.leaf [68, 67, 30, 31, 45, 46, 47])) (.cases [95] 23 (.cases [] 24 (.cases [] 18 (.cases [] 22
  (.cycle 35 [42, 60, 61, 56]) (.cycle 35 [44, 54, 55, 56])) (.leaf [40, 44])) (.leaf [58, 59]))
  (.leaf [51, 52])))))) (.cases [43, 41, 10, 11] 25 (.leaf [74, 65]) (.cases [] 18 (.leaf [42])
  (.cases [] 22 (.cases [] 30 (.cycle 38 [77, 78, 72]) (.cycle 5 [60, 76, 52])) (.cases
  [50, 40, 41, 10, 11] 37 (.leaf [96, 97, 88, 65, 66, 17, 25, 18, 27, 28, 29, 30, 31, 45, 46, 47])
  (.leaf [95])))))))) (.cases [35, 32] 19 (.cases [44] 18 (.cases [42] 37 (.cases [96, 97, 88, 65]
  20 (.leaf [63, 52]) (.cases [] 21 (.leaf [62, 59]) (.cases [] 22 (.cases [57] 29 (.leaf [79, 65])
  (.cases [] 25 (.leaf [74, 75, 27, 28, 29, 38]) (.cases [66, 17, 18] 24 (.cycle 35
  [42, 60, 61, 56]) (.leaf [58, 59, 80, 10, 11])))) (.cases [50] 29 (.leaf [79, 65]) (.cases [] 25
  (.leaf [74, 75, 27, 28, 29, 38]) (.cases [66, 17, 18] 23 (.cycle 35 [44, 54, 55, 56]) (.leaf
  [51, 52, 53, 10, 11]))))))) (.cases [95] 25 (.leaf [74, 65]) (.cases [] 23 (.cases [] 24 (.cases
  [] 22 (.cycle 35 [42, 60, 61, 56]) (.cycle 35 [44, 54, 55, 56])) (.leaf [58, 59])) (.leaf
  [51, 52])))) (.leaf [40, 41, 44, 10, 11])) (.cases [43, 41, 10, 11] 25 (.leaf [74, 65]) (.cases
  [] 18 (.leaf [42]) (.cases [] 22 (.cases [] 30 (.cycle 38 [77, 78, 72]) (.cycle 5 [60, 76, 52]))
  (.cases [50, 40, 41, 10, 11] 27 (.cases [] 37 (.leaf [96, 97, 88, 65, 66, 17, 18, 101]) (.leaf
  [95])) (.leaf [68])))))))) (.cases [24, 14, 15, 16, 17, 25, 26, 18, 27, 39, 28, 29, 30, 31, 32]
  37 (.leaf [96, 97, 88, 24, 91, 8]) (.cases [95] 28 (.leaf [73]) (.leaf [70, 71, 72, 52]))))
  (.leaf [36, 37, 27, 28, 29, 38])

/-- some of the cases -/
def ko3n10Case4 : SumTree :=
  .cases [74, 65] 14 (.cases [49] 15 (.leaf [48]) (.cases [] 36 (.cases [98, 99, 22, 23, 33, 34] 30
  (.cycle 38 [77, 78, 72]) (.cases [] 22 (.cycle 5 [60, 76, 52]) (.leaf [50]))) (.cases [94] 16
  (.cases [45, 46, 47] 20 (.leaf [63, 52]) (.cases [] 21 (.leaf [62, 59]) (.cases [] 19 (.cases
  [44] 18 (.cases [42] 28 (.cases [73] 23 (.cases [] 24 (.cases [] 22 (.cycle 35 [42, 60, 61, 56])
  (.cycle 35 [44, 54, 55, 56])) (.leaf [58, 59])) (.leaf [51, 52])) (.cases [70, 71, 72, 52] 23
  (.leaf [55, 102, 9, 56, 103, 10, 44, 11]) (.leaf [51, 52, 53, 10, 11]))) (.leaf
  [40, 41, 44, 10, 11])) (.cases [43, 41, 10, 11] 18 (.leaf [42]) (.cases [] 22 (.cases [] 30
  (.cycle 38 [77, 78, 72]) (.cycle 5 [60, 76, 52])) (.cases [50, 40, 41, 10, 11] 28 (.leaf [73])
  (.leaf [70, 71, 72, 52, 40, 41, 10, 11]))))))) (.cases [35, 32] 23 (.cases [] 22 (.cases [] 30
  (.cycle 38 [77, 78, 72]) (.cycle 5 [60, 76, 52])) (.cases [50] 18 (.cases [] 19 (.cycle 35
  [44, 54, 55, 56]) (.leaf [43, 42])) (.leaf [40, 41, 10, 11]))) (.leaf [51, 52]))))) (.cases
  [29, 30, 31, 32] 33 (.cases [] 15 (.leaf [48]) (.cases [] 29 (.cases [79, 65] 36 (.leaf
  [98, 99, 22, 23]) (.cases [94] 35 (.cases [100, 37, 27, 79, 28, 65, 29, 30, 31, 32] 18 (.cases
  [42] 19 (.cases [44] 22 (.leaf [57]) (.leaf [50])) (.leaf [43, 42])) (.leaf [40, 41, 10, 11]))
  (.leaf [93, 82]))) (.cases [75, 27, 28, 29, 30, 31, 32] 38 (.cases [] 39 (.leaf
  [107, 108, 74, 75, 27, 28, 29, 38]) (.cases [] 12 (.cases [21, 22, 23, 33, 34] 28 (.leaf [73])
  (.cases [70, 71, 72, 52] 16 (.leaf [45, 46, 47]) (.leaf [35, 32]))) (.cases [] 36 (.leaf
  [98, 99, 22, 19, 23, 106, 33, 14, 15, 34, 16, 17, 74, 18, 65]) (.cases [94] 18 (.cases [42] 21
  (.leaf [62, 59]) (.cases [] 19 (.cases [44] 20 (.leaf [63, 52]) (.cases [] 16 (.cases [] 23
  (.cases [] 24 (.cases [] 22 (.cycle 35 [42, 60, 61, 56]) (.cycle 35 [44, 54, 55, 56])) (.leaf
  [58, 59, 80, 10, 11])) (.leaf [51, 52, 53, 10, 11])) (.cases [35, 32] 23 (.cases [] 24 (.cases []
  22 (.cycle 35 [42, 60, 61, 56]) (.cycle 35 [44, 54, 55, 56])) (.leaf [58, 59, 80, 10, 11]))
  (.leaf [51, 52, 53, 10, 11])))) (.leaf [43, 41, 42, 10, 11]))) (.cases [40, 41, 10, 11] 16 (.leaf
  [45, 46, 47]) (.cases [35, 32] 30 (.cycle 38 [77, 78, 72]) (.cases [] 22 (.cycle 5 [60, 76, 52])
  (.leaf [50, 40, 41, 10, 11])))))))) (.leaf [105, 20, 90, 82, 65, 75, 27, 28, 29, 30, 31, 32]))))
  (.leaf [104, 20, 82]))

/-- some of the cases -/
def ko3n10Case5 : SumTree :=
  .cases [66, 17, 26, 18] 35 (.cases [100, 37, 27, 28] 15 (.leaf [48]) (.cases [] 36 (.cases
  [98, 99, 22, 23, 33, 34] 14 (.leaf [49]) (.leaf [29, 30, 31, 32])) (.cases [94] 14 (.cases [49]
  20 (.leaf [63, 52]) (.cases [] 37 (.cases [96, 97, 88, 65, 66, 17, 18] 23 (.cases [] 28 (.cases
  [73] 27 (.cases [] 26 (.leaf [69, 101]) (.cases [67, 30, 49, 31, 32] 17 (.leaf [39]) (.leaf
  [36, 37, 27, 28]))) (.leaf [68])) (.cases [70, 71, 72, 52] 27 (.cases [] 16 (.leaf
  [45, 46, 47, 70, 71, 72, 52, 55, 102, 9, 103, 10, 11]) (.cases [35, 32] 30 (.cycle 41
  [72, 77, 78]) (.cases [] 22 (.cycle 38 [52, 60, 76]) (.cases [50] 26 (.leaf [69]) (.leaf
  [67, 49]))))) (.leaf [68]))) (.leaf [51, 52, 53, 10, 11])) (.cases [95] 27 (.cases [] 26 (.leaf
  [69, 101]) (.cases [67, 30, 49, 31, 32] 16 (.cases [45, 46, 47] 17 (.leaf [39]) (.leaf
  [36, 37, 27, 28])) (.leaf [35, 32]))) (.leaf [68])))) (.cases [29, 30, 31, 32] 26 (.leaf [69])
  (.cases [] 20 (.leaf [63, 52]) (.cases [] 17 (.cases [39] 23 (.cases [] 28 (.cases [73] 27
  (.cases [] 37 (.cases [96, 97, 88, 66, 17, 18, 101, 29, 30, 31, 32] 16 (.leaf [45, 46, 47])
  (.cases [35, 32] 18 (.leaf [42]) (.leaf [40, 41, 10, 11]))) (.leaf [95])) (.leaf
  [68, 67, 30, 31, 32])) (.cases [70, 71, 72, 52] 16 (.leaf [45, 46, 47, 70, 71, 72, 52]) (.cases
  [35, 32] 18 (.cases [] 19 (.cases [] 30 (.cycle 41 [72, 77, 78]) (.cases [] 22 (.cycle 38
  [52, 60, 76]) (.cycle 35 [44, 54, 55, 56]))) (.leaf [43, 42])) (.leaf [40, 41, 10, 11])))) (.leaf
  [51, 52, 53, 10, 11])) (.leaf [36, 37, 27, 28, 29, 38]))))))) (.cases [93, 82] 36 (.leaf
  [98, 99, 22, 23]) (.cases [94] 18 (.cases [42] 19 (.cases [44] 37 (.leaf
  [96, 97, 88, 65, 66, 17, 26, 18, 93, 82]) (.leaf [95])) (.leaf [43, 42])) (.leaf
  [40, 41, 10, 11])))

/-- some of the cases -/
def ko3n10Case6 : SumTree :=
  .cases [24, 14, 15, 16, 17, 25, 18, 27, 28] 32 (.cases [] 33 (.cases [] 34 (.cycle 24
  [24, 91, 83, 92]) (.leaf [89, 90, 24, 91, 8])) (.cycle 24 [86, 87, 88])) (.leaf [84, 85, 20, 82])

/-- some of the cases -/
def ko3n10Case7 : SumTree :=
  .cases [64, 65] 25 (.cases [74, 65] 14 (.cases [49] 16 (.cases [45, 46, 47] 20 (.leaf [63, 52])
  (.cases [] 21 (.leaf [62, 59]) (.cases [] 22 (.cases [57] 15 (.leaf [48]) (.cases [33, 34] 24
  (.cases [] 18 (.cycle 35 [42, 60, 61, 56]) (.leaf [40, 41, 10, 11])) (.leaf
  [58, 59, 80, 10, 11]))) (.cases [50] 23 (.cases [] 18 (.cases [] 19 (.cycle 35 [44, 54, 55, 56])
  (.leaf [43, 41, 42, 10, 11])) (.leaf [40, 41, 10, 11])) (.leaf [51, 52, 53, 10, 11]))))) (.cases
  [35, 32] 15 (.leaf [48]) (.cases [33, 34] 28 (.leaf [73]) (.cases [70, 71, 72, 52] 23 (.cases []
  18 (.cases [] 19 (.cases [] 30 (.cycle 41 [72, 77, 78]) (.cases [] 22 (.cycle 38 [52, 60, 76])
  (.cycle 35 [44, 54, 55, 56]))) (.leaf [43, 42])) (.leaf [40, 41, 10, 11])) (.leaf [51, 52])))))
  (.cases [29, 30, 31, 32] 29 (.cases [79, 65] 20 (.leaf [63, 52]) (.cases [] 21 (.leaf [62, 59])
  (.cases [] 22 (.cases [57] 15 (.leaf [48]) (.cases [33, 34] 16 (.leaf [45, 46, 47]) (.cases
  [35, 32] 24 (.cases [] 18 (.cycle 35 [42, 60, 61, 56]) (.leaf [40, 41, 10, 11])) (.leaf
  [58, 59])))) (.cases [50] 15 (.leaf [48]) (.cases [33, 34] 16 (.leaf [45, 46, 47]) (.cases
  [35, 32] 23 (.cases [] 18 (.cases [] 19 (.cycle 35 [44, 54, 55, 56]) (.leaf [43, 42])) (.leaf
  [40, 41, 10, 11])) (.leaf [51, 52]))))))) (.cases [75, 27, 28, 29, 30, 31, 32] 15 (.leaf [48])
  (.cases [33, 34] 16 (.leaf [45, 46, 47]) (.cases [] 23 (.cases [] 18 (.cases [] 19 (.cases [] 30
  (.cycle 38 [77, 78, 72]) (.cases [] 22 (.cycle 5 [60, 76, 52]) (.cycle 35 [44, 54, 55, 56])))
  (.leaf [43, 42])) (.leaf [40, 41, 10, 11])) (.leaf [51, 52])))))) (.cases
  [66, 17, 25, 18, 27, 28] 26 (.cases [69] 15 (.leaf [48]) (.cases [33, 34] 14 (.cases [49] 28
  (.leaf [73]) (.cases [] 16 (.leaf [45, 46, 47, 70, 71, 72, 52]) (.leaf [35, 32]))) (.leaf
  [29, 69]))) (.cases [67, 30, 31, 32] 27 (.cases [] 15 (.leaf [48]) (.cases [33, 34] 16 (.leaf
  [45, 46, 47]) (.cases [35, 32] 18 (.cases [42] 19 (.leaf [44]) (.leaf [43, 42])) (.leaf
  [40, 41, 10, 11])))) (.leaf [68, 67, 38])))

/-- some of the cases -/
def ko3n10Case8 : SumTree :=
  .cases [24, 14, 15, 16, 17, 25, 26, 18, 27, 28] 14 (.cases [49] 20 (.leaf [63, 52]) (.cases [] 21
  (.leaf [62, 59]) (.cases [] 22 (.cases [57] 15 (.leaf [48]) (.cases [33, 34] 16 (.cases [] 24
  (.cases [] 18 (.cycle 35 [42, 60, 61, 56]) (.leaf [40, 41, 10, 11])) (.leaf [58, 59])) (.leaf
  [35, 32]))) (.cases [50] 23 (.cases [] 18 (.cases [] 19 (.cycle 35 [44, 54, 55, 56]) (.leaf
  [43, 41, 42, 10, 11])) (.leaf [40, 41, 10, 11])) (.leaf [51, 52, 53, 10, 11]))))) (.cases
  [29, 30, 31, 32] 15 (.leaf [48]) (.cases [33, 34] 16 (.leaf [45, 46, 47]) (.cases [35, 32] 17
  (.cases [39] 18 (.cases [42] 19 (.leaf [44]) (.leaf [43, 42])) (.leaf [40, 41, 10, 11])) (.leaf
  [36, 37, 27, 28, 29, 38]))))

/-- all cases -/
def ko3n10Cases : SumTree :=
  .cases [] 0 (.cases [] 1 (.leaf [119]) (.cases [] 2 (.leaf [117, 118]) (.cases [] 3 (.cases [] 4
  (.cases [] 5 (.leaf [116]) (.cases [] 6 (.leaf [115, 113]) (.cases [3] 7 (.leaf [114, 113])
  (.cases [4] 8 (.cases [] 9 (.cases [] 10 (.leaf [112, 113]) (.cases [9, 10, 11] 11 (.cases
  [81, 82] 31 (.cases [109, 110, 111, 17, 25, 18] 14 (.cases [49] 13 (.cases [64, 65] 36
  ko3n10Case0 ko3n10Case1) ko3n10Case2) ko3n10Case3) (.cases [83, 82] 13 (.cases [64, 65] 25
  ko3n10Case4 ko3n10Case5) ko3n10Case6)) (.cases [12, 13, 14, 15, 16, 17, 18] 12 (.cases
  [21, 22, 23] 13 ko3n10Case7 ko3n10Case8) (.leaf [19, 20, 12, 6])))) (.leaf [7, 8])) (.leaf
  [5, 6]))))) (.leaf [2])) (.leaf [1])))) (.leaf [0])

theorem ko3n10_cases : ko3n10Cases.check ko3n10Arcs 256 ko3n10Choices.length [] ko3n10Times 0 = true := by
  decide +kernel

theorem ko3n10_choices : ko3n10Choices.all (CodedNet.Choice.ok netKoR netKoRSpecial ko3n10Plan) = true := by
  decide +kernel

theorem ko3n10_arcs : ko3n10Arcs.toList.all
    (netKoR.arcOK netKoRSpecial ko3n10Plan ko3n10Nodes ko3n10Choices) = true := by decide +kernel

theorem ko3n10_times : netKoR.startOK ko3n10Plan ko3n10Nodes 0 40 ko3n10Times = true := by decide +kernel

end Verif.Real
