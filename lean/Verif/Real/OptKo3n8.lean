import Verif.Proofs.PlanSum
import Verif.Proofs.PlanAgain
import Verif.Real.PlanKo3

/-!
# The sheet of `Verif.Real.Ko3` with given delays: a plan, and that no plan is better

Generated; see `CodedNet.Item` and `Verif/Proofs/SumTree.lean`. Case 3,
`disturbances[8]`, of `/repo/solve_KO_GLC_problems.py`, line 124;
`d_max` is 40. The sum of the delays that count is 168/4.
-/

namespace Verif.Real

set_option maxRecDepth 100000

/-- the given delays -/
def ko3n8Delays : List (Int × ℚ) := [
  (2, 90), (4602, 72), (4, 72), (102, 45), (4604, 10), (101, 47), (6401, 35), (3, 20)]

/-- the plan, items by sections -/
def ko3n8Plan : CodedNet.Plan := [
  (train_ko3_2, [
   ⟨0, 2, 0, (some 14), true, false, 90, 91, 910,
    none,
    (some ⟨1, [83, 101, 84, 121], [9, 19, 8, 8], 4, [5, 8]⟩), [], [61, 64, 69, 71, 87, 92], [90]⟩,
   ⟨0, 2, 1, (some 1), true, false, 96, 97, 970,
    (some ⟨0, 95, 910, [83, 101, 84, 121]⟩),
    (some ⟨2, [77, 144, 119], [15, 14, 8], 4, [107]⟩), [5, 8], [16, 2], [95]⟩,
   ⟨0, 2, 2, (some 40), true, false, 101, 102, 1020,
    (some ⟨1, 101, 970, [77, 144, 119]⟩),
    (some ⟨3, [86, 142, 87, 126], [13, 13, 7, 9], 4, [18, 23]⟩), [107], [161, 164], [101]⟩,
   ⟨0, 2, 3, (some 30), true, false, 107, 108, 1080,
    (some ⟨2, 106, 1020, [86, 142, 87, 126]⟩),
    (some ⟨4, [90, 91, 92, 93, 127], [13, 9, 5, 7, 20], 5, [31, 33, 41]⟩), [18, 23], [47, 48], [106]⟩,
   ⟨0, 2, 4, (some 35), false, true, 112, 113, 1130,
    (some ⟨3, 113, 1080, [90, 91, 92, 93, 127]⟩),
    none, [31, 33, 41], [], [113]⟩]),
  (train_ko3_4602, [
   ⟨1, 4602, 0, (some 10), true, false, 180, 180, 1800,
    none,
    (some ⟨1, [83, 101, 84, 121], [9, 12, 6, 7], 3, [5, 8]⟩), [], [66, 68, 71, 87, 92], [180]⟩,
   ⟨1, 4602, 1, (some 1), true, false, 185, 185, 1850,
    (some ⟨0, 183, 1800, [83, 101, 84, 121]⟩),
    (some ⟨2, [77, 144, 119], [11, 9, 8], 3, [107]⟩), [5, 8], [16, 2], [183]⟩,
   ⟨1, 4602, 2, (some 40), true, false, 189, 190, 1900,
    (some ⟨1, 188, 1850, [77, 144, 119]⟩),
    (some ⟨3, [86, 142, 87, 126], [13, 7, 7, 9], 4, [18, 23]⟩), [107], [161, 164], [188]⟩,
   ⟨1, 4602, 3, (some 30), true, false, 195, 196, 1960,
    (some ⟨2, 194, 1900, [86, 142, 87, 126]⟩),
    (some ⟨4, [90, 91, 92, 93, 127], [13, 9, 5, 7, 20], 5, [31, 34, 43]⟩), [18, 23], [47, 48], [194]⟩,
   ⟨1, 4602, 4, (some 38), true, false, 201, 202, 2020,
    (some ⟨3, 201, 1960, [90, 91, 92, 93, 127]⟩),
    none, [31, 34, 43], [], [201]⟩]),
  (train_ko3_4, [
   ⟨2, 4, 0, (some 14), true, false, 110, 110, 1100,
    none,
    (some ⟨1, [83, 101, 84, 121], [9, 19, 8, 8], 4, [5, 8]⟩), [], [61, 64, 69, 71, 87, 92], [110]⟩,
   ⟨2, 4, 1, (some 1), true, false, 116, 116, 1160,
    (some ⟨0, 114, 1100, [83, 101, 84, 121]⟩),
    (some ⟨2, [77, 144, 119], [15, 14, 8], 4, [107]⟩), [5, 8], [16, 2], [114]⟩,
   ⟨2, 4, 2, (some 40), true, false, 121, 121, 1210,
    (some ⟨1, 120, 1160, [77, 144, 119]⟩),
    (some ⟨3, [86, 142, 87, 126], [13, 13, 7, 9], 4, [18, 23]⟩), [107], [161, 164], [120]⟩,
   ⟨2, 4, 3, (some 30), true, false, 127, 133, 1330,
    (some ⟨2, 125, 1210, [86, 142, 87, 126]⟩),
    (some ⟨4, [90, 91, 92, 93, 127], [13, 9, 5, 7, 20], 5, [31, 33, 41]⟩), [18, 23], [47, 48], [125]⟩,
   ⟨2, 4, 4, (some 35), false, true, 132, 138, 1380,
    (some ⟨3, 138, 1330, [90, 91, 92, 93, 127]⟩),
    none, [31, 33, 41], [], [138]⟩]),
  (train_ko3_102, [
   ⟨3, 102, 0, (some 16), true, false, 178, 182, 1820,
    none,
    (some ⟨1, [83, 101, 84, 121], [9, 19, 8, 10], 5, [5, 8, 9]⟩), [], [62, 64, 69, 71, 87, 92], [178]⟩,
   ⟨3, 102, 1, (some 3), true, false, 185, 189, 1890,
    (some ⟨0, 187, 1820, [83, 101, 84, 121]⟩),
    none, [5, 8, 9], [], [187]⟩]),
  (train_ko3_6, [
   ⟨4, 6, 0, (some 14), true, false, 77, 77, 770,
    none,
    (some ⟨1, [83, 101, 84, 121], [9, 19, 8, 8], 4, [5, 8]⟩), [], [61, 64, 69, 71, 87, 92], [77]⟩,
   ⟨4, 6, 1, (some 1), true, false, 83, 83, 830,
    (some ⟨0, 81, 770, [83, 101, 84, 121]⟩),
    (some ⟨2, [77, 144, 119], [15, 14, 8], 4, [107]⟩), [5, 8], [16, 2], [81]⟩,
   ⟨4, 6, 2, (some 40), true, false, 91, 91, 910,
    (some ⟨1, 87, 830, [77, 144, 119]⟩),
    (some ⟨3, [86, 142, 87, 126], [13, 13, 7, 9], 4, [18, 23]⟩), [107], [161, 164], [87]⟩,
   ⟨4, 6, 3, (some 30), true, false, 100, 100, 1000,
    (some ⟨2, 95, 910, [86, 142, 87, 126]⟩),
    (some ⟨4, [90, 91, 92, 93, 127], [13, 9, 5, 7, 20], 5, [31, 33, 41]⟩), [18, 23], [47, 48], [95]⟩,
   ⟨4, 6, 4, (some 35), false, true, 105, 105, 1050,
    (some ⟨3, 105, 1000, [90, 91, 92, 93, 127]⟩),
    none, [31, 33, 41], [], [105]⟩]),
  (train_ko3_4604, [
   ⟨5, 4604, 0, (some 10), true, false, 170, 170, 1700,
    none,
    (some ⟨1, [83, 101, 84, 121], [9, 12, 6, 7], 3, [5, 8]⟩), [], [66, 68, 71, 87, 92], [170]⟩,
   ⟨5, 4604, 1, (some 1), true, false, 174, 174, 1740,
    (some ⟨0, 173, 1700, [83, 101, 84, 121]⟩),
    (some ⟨2, [77, 144, 119], [11, 9, 8], 3, [107]⟩), [5, 8], [16, 2], [173]⟩,
   ⟨5, 4604, 2, (some 40), true, false, 178, 178, 1780,
    (some ⟨1, 177, 1740, [77, 144, 119]⟩),
    (some ⟨3, [86, 142, 87, 126], [13, 7, 7, 9], 4, [18, 23]⟩), [107], [161, 164], [177]⟩,
   ⟨5, 4604, 3, (some 30), true, false, 184, 184, 1840,
    (some ⟨2, 182, 1780, [86, 142, 87, 126]⟩),
    (some ⟨4, [90, 91, 92, 93, 127], [13, 9, 5, 7, 20], 5, [31, 34, 43]⟩), [18, 23], [47, 48], [182]⟩,
   ⟨5, 4604, 4, (some 38), true, false, 190, 190, 1900,
    (some ⟨3, 189, 1840, [90, 91, 92, 93, 127]⟩),
    none, [31, 34, 43], [], [189]⟩]),
  (train_ko3_8, [
   ⟨6, 8, 0, (some 14), true, false, 114, 114, 1140,
    none,
    (some ⟨1, [83, 101, 84, 121], [9, 19, 8, 8], 4, [5, 8]⟩), [], [61, 64, 69, 71, 87, 92], [114]⟩,
   ⟨6, 8, 1, (some 1), true, false, 120, 120, 1200,
    (some ⟨0, 118, 1140, [83, 101, 84, 121]⟩),
    (some ⟨2, [77, 144, 119], [15, 14, 8], 4, [107]⟩), [5, 8], [16, 2], [118]⟩,
   ⟨6, 8, 2, (some 40), true, false, 126, 129, 1290,
    (some ⟨1, 124, 1200, [77, 144, 119]⟩),
    (some ⟨3, [86, 142, 87, 126], [13, 13, 7, 9], 4, [18, 23]⟩), [107], [161, 164], [124]⟩,
   ⟨6, 8, 3, (some 30), true, false, 133, 136, 1360,
    (some ⟨2, 133, 1290, [86, 142, 87, 126]⟩),
    (some ⟨4, [90, 91, 92, 93, 127], [13, 9, 5, 7, 20], 5, [31, 33, 41]⟩), [18, 23], [47, 48], [133]⟩,
   ⟨6, 8, 4, (some 35), false, true, 138, 141, 1410,
    (some ⟨3, 141, 1360, [90, 91, 92, 93, 127]⟩),
    none, [31, 33, 41], [], [141]⟩]),
  (train_ko3_10, [
   ⟨7, 10, 0, (some 14), true, false, 127, 127, 1270,
    none,
    (some ⟨1, [83, 101, 84, 121], [9, 19, 8, 8], 4, [5, 8]⟩), [], [61, 64, 69, 71, 87, 92], [127]⟩,
   ⟨7, 10, 1, (some 1), true, false, 133, 133, 1330,
    (some ⟨0, 131, 1270, [83, 101, 84, 121]⟩),
    (some ⟨2, [77, 144, 119], [15, 14, 8], 4, [107]⟩), [5, 8], [16, 2], [131]⟩,
   ⟨7, 10, 2, (some 40), true, false, 141, 141, 1410,
    (some ⟨1, 137, 1330, [77, 144, 119]⟩),
    (some ⟨3, [86, 142, 87, 126], [13, 13, 7, 9], 4, [18, 23]⟩), [107], [161, 164], [137]⟩,
   ⟨7, 10, 3, (some 30), true, false, 152, 152, 1520,
    (some ⟨2, 145, 1410, [86, 142, 87, 126]⟩),
    (some ⟨4, [90, 91, 92, 93, 127], [13, 9, 5, 7, 20], 5, [31, 33, 41]⟩), [18, 23], [47, 48], [145]⟩,
   ⟨7, 10, 4, (some 35), false, true, 157, 157, 1570,
    (some ⟨3, 157, 1520, [90, 91, 92, 93, 127]⟩),
    none, [31, 33, 41], [], [157]⟩]),
  (train_ko3_4606, [
   ⟨8, 4606, 0, (some 10), true, false, 142, 142, 1420,
    none,
    (some ⟨1, [83, 101, 84, 121], [9, 12, 6, 7], 3, [5, 8]⟩), [], [66, 68, 71, 87, 92], [142]⟩,
   ⟨8, 4606, 1, (some 1), true, false, 147, 147, 1470,
    (some ⟨0, 145, 1420, [83, 101, 84, 121]⟩),
    (some ⟨2, [77, 144, 119], [11, 9, 8], 3, [107]⟩), [5, 8], [16, 2], [145]⟩,
   ⟨8, 4606, 2, (some 40), true, false, 151, 155, 1550,
    (some ⟨1, 150, 1470, [77, 144, 119]⟩),
    (some ⟨3, [86, 142, 87, 126], [13, 7, 7, 9], 4, [18, 23]⟩), [107], [161, 164], [150]⟩,
   ⟨8, 4606, 3, (some 30), true, false, 159, 161, 1610,
    (some ⟨2, 159, 1550, [86, 142, 87, 126]⟩),
    (some ⟨4, [90, 91, 92, 93, 127], [13, 9, 5, 7, 20], 5, [31, 34, 43]⟩), [18, 23], [47, 48], [159]⟩,
   ⟨8, 4606, 4, (some 38), true, false, 167, 167, 1670,
    (some ⟨3, 166, 1610, [90, 91, 92, 93, 127]⟩),
    none, [31, 34, 43], [], [166]⟩]),
  (train_ko3_12, [
   ⟨9, 12, 0, (some 14), true, false, 234, 234, 2340,
    none,
    (some ⟨1, [83, 101, 84, 121], [9, 19, 8, 8], 4, [5, 8]⟩), [], [61, 64, 69, 71, 87, 92], [234]⟩,
   ⟨9, 12, 1, (some 1), true, false, 240, 240, 2400,
    (some ⟨0, 238, 2340, [83, 101, 84, 121]⟩),
    (some ⟨2, [77, 144, 119], [15, 14, 8], 4, [107]⟩), [5, 8], [16, 2], [238]⟩,
   ⟨9, 12, 2, (some 40), true, false, 245, 245, 2450,
    (some ⟨1, 244, 2400, [77, 144, 119]⟩),
    (some ⟨3, [86, 142, 87, 126], [13, 13, 7, 9], 4, [18, 23]⟩), [107], [161, 164], [244]⟩,
   ⟨9, 12, 3, (some 30), true, false, 251, 251, 2510,
    (some ⟨2, 249, 2450, [86, 142, 87, 126]⟩),
    (some ⟨4, [90, 91, 92, 93, 127], [13, 9, 5, 7, 20], 5, [31, 33, 41]⟩), [18, 23], [47, 48], [249]⟩,
   ⟨9, 12, 4, (some 35), false, true, 256, 256, 2560,
    (some ⟨3, 256, 2510, [90, 91, 92, 93, 127]⟩),
    none, [31, 33, 41], [], [256]⟩]),
  (train_ko3_14, [
   ⟨10, 14, 0, (some 14), true, false, 236, 237, 2370,
    none,
    (some ⟨1, [83, 101, 84, 121], [9, 19, 8, 8], 4, [5, 8]⟩), [], [61, 64, 69, 71, 87, 92], [236]⟩,
   ⟨10, 14, 1, (some 1), true, false, 242, 243, 2430,
    (some ⟨0, 241, 2370, [83, 101, 84, 121]⟩),
    (some ⟨2, [77, 144, 119], [15, 14, 8], 4, [107]⟩), [5, 8], [16, 2], [241]⟩,
   ⟨10, 14, 2, (some 40), true, false, 247, 248, 2480,
    (some ⟨1, 247, 2430, [77, 144, 119]⟩),
    (some ⟨3, [86, 142, 87, 126], [13, 13, 7, 9], 4, [18, 23]⟩), [107], [161, 164], [247]⟩,
   ⟨10, 14, 3, (some 30), true, false, 253, 254, 2540,
    (some ⟨2, 252, 2480, [86, 142, 87, 126]⟩),
    (some ⟨4, [90, 91, 92, 93, 127], [13, 9, 5, 7, 20], 5, [31, 33, 41]⟩), [18, 23], [47, 48], [252]⟩,
   ⟨10, 14, 4, (some 35), false, true, 258, 259, 2590,
    (some ⟨3, 259, 2540, [90, 91, 92, 93, 127]⟩),
    none, [31, 33, 41], [], [259]⟩]),
  (train_ko3_1, [
   ⟨11, 1, 4, (some 36), true, false, -2, -2, -20,
    none,
    (some ⟨3, [127, 93, 92, 91, 90], [18, 7, 6, 8, 12], 5, [48, 47, 46]⟩), [], [31, 33], [-2]⟩,
   ⟨11, 1, 3, (some 31), true, false, 8, 8, 80,
    (some ⟨4, 3, -20, [127, 93, 92, 91, 90]⟩),
    (some ⟨2, [126, 87, 142, 86], [23, 5, 19, 16], 6, [160, 161, 164]⟩), [48, 47, 46], [18, 23, 24], [3]⟩,
   ⟨11, 1, 2, (some 41), true, false, 17, 17, 170,
    (some ⟨3, 14, 80, [126, 87, 142, 86]⟩),
    (some ⟨1, [85, 145, 125], [11, 17, 9], 4, [17, 19]⟩), [160, 161, 164], [106], [14]⟩,
   ⟨11, 1, 1, (some 2), true, false, 26, 26, 260,
    (some ⟨2, 21, 170, [85, 145, 125]⟩),
    (some ⟨0, [121, 84, 101, 83], [8, 13, 22, 10], 5, [82, 84, 86, 89, 90, 92]⟩), [17, 19], [5, 8], [21]⟩,
   ⟨11, 1, 0, (some 15), false, true, 31, 31, 310,
    (some ⟨1, 31, 260, [121, 84, 101, 83]⟩),
    none, [82, 84, 86, 89, 90, 92], [], [31]⟩]),
  (train_ko3_101, [
   ⟨12, 101, 1, (some 4), true, false, 77, 82, 820,
    none,
    (some ⟨0, [121, 84, 101, 83], [8, 13, 22, 10], 5, [82, 84, 86, 89, 90, 92]⟩), [], [5, 6, 7], [77]⟩,
   ⟨12, 101, 0, (some 39), false, true, 82, 87, 870,
    (some ⟨1, 87, 820, [121, 84, 101, 83]⟩),
    none, [82, 84, 86, 89, 90, 92], [], [87]⟩]),
  (train_ko3_6401, [
   ⟨13, 6401, 4, (some 36), true, false, 67, 67, 670,
    none,
    (some ⟨3, [127, 93, 92, 91, 90], [18, 7, 6, 8, 12], 5, [48, 47, 46]⟩), [], [31, 33], [67]⟩,
   ⟨13, 6401, 3, (some 31), true, false, 74, 74, 740,
    (some ⟨4, 72, 670, [127, 93, 92, 91, 90]⟩),
    (some ⟨2, [126, 87, 142, 86], [23, 5, 9, 16], 5, [160, 161, 164]⟩), [48, 47, 46], [18, 23, 24], [72]⟩,
   ⟨13, 6401, 2, (some 41), true, false, 80, 80, 800,
    (some ⟨3, 79, 740, [126, 87, 142, 86]⟩),
    (some ⟨1, [85, 145, 125], [11, 7, 9], 3, [17, 19]⟩), [160, 161, 164], [106], [79]⟩,
   ⟨13, 6401, 1, (some 2), true, false, 85, 86, 860,
    (some ⟨2, 83, 800, [85, 145, 125]⟩),
    (some ⟨0, [121, 84, 101, 83], [8, 11, 12, 10], 4, [81, 85, 88, 81, 92]⟩), [17, 19], [5, 8], [83]⟩,
   ⟨13, 6401, 0, (some 13), false, true, 89, 90, 900,
    (some ⟨1, 90, 860, [121, 84, 101, 83]⟩),
    none, [81, 85, 88, 81, 92], [], [90]⟩]),
  (train_ko3_3, [
   ⟨14, 3, 4, (some 36), true, false, 74, 74, 740,
    none,
    (some ⟨3, [127, 93, 92, 91, 90], [18, 7, 6, 8, 12], 5, [48, 47, 46]⟩), [], [31, 33], [74]⟩,
   ⟨14, 3, 3, (some 31), true, false, 81, 81, 810,
    (some ⟨4, 79, 740, [127, 93, 92, 91, 90]⟩),
    (some ⟨2, [126, 87, 142, 86], [23, 5, 19, 16], 6, [160, 161, 164]⟩), [48, 47, 46], [18, 23, 24], [79]⟩,
   ⟨14, 3, 2, (some 41), true, false, 89, 89, 890,
    (some ⟨3, 87, 810, [126, 87, 142, 86]⟩),
    (some ⟨1, [85, 145, 125], [11, 17, 9], 4, [17, 19]⟩), [160, 161, 164], [106], [87]⟩,
   ⟨14, 3, 1, (some 2), true, false, 95, 96, 960,
    (some ⟨2, 93, 890, [85, 145, 125]⟩),
    (some ⟨0, [121, 84, 101, 83], [8, 13, 22, 10], 5, [82, 84, 86, 89, 90, 92]⟩), [17, 19], [5, 8], [93]⟩,
   ⟨14, 3, 0, (some 15), false, true, 100, 101, 1010,
    (some ⟨1, 101, 960, [121, 84, 101, 83]⟩),
    none, [82, 84, 86, 89, 90, 92], [], [101]⟩]),
  (train_ko3_103, [
   ⟨15, 103, 1, (some 4), true, false, 200, 201, 2010,
    none,
    (some ⟨0, [121, 84, 101, 83], [8, 13, 22, 10], 5, [82, 84, 86, 89, 90, 92]⟩), [], [5, 6, 7], [200]⟩,
   ⟨15, 103, 0, (some 39), false, true, 205, 206, 2060,
    (some ⟨1, 206, 2010, [121, 84, 101, 83]⟩),
    none, [82, 84, 86, 89, 90, 92], [], [206]⟩]),
  (train_ko3_5, [
   ⟨16, 5, 4, (some 36), true, false, 94, 94, 940,
    none,
    (some ⟨3, [127, 93, 92, 91, 90], [18, 7, 6, 8, 12], 5, [48, 47, 46]⟩), [], [31, 33], [94]⟩,
   ⟨16, 5, 3, (some 31), true, false, 102, 107, 1070,
    (some ⟨4, 99, 940, [127, 93, 92, 91, 90]⟩),
    (some ⟨2, [126, 87, 142, 86], [23, 5, 19, 16], 6, [160, 161, 164]⟩), [48, 47, 46], [18, 23, 24], [99]⟩,
   ⟨16, 5, 2, (some 41), true, false, 110, 115, 1150,
    (some ⟨3, 113, 1070, [126, 87, 142, 86]⟩),
    (some ⟨1, [85, 145, 125], [11, 17, 9], 4, [17, 19]⟩), [160, 161, 164], [106], [113]⟩,
   ⟨16, 5, 1, (some 2), true, false, 119, 121, 1210,
    (some ⟨2, 119, 1150, [85, 145, 125]⟩),
    (some ⟨0, [121, 84, 101, 83], [8, 13, 22, 10], 5, [82, 84, 86, 89, 90, 92]⟩), [17, 19], [5, 8], [119]⟩,
   ⟨16, 5, 0, (some 15), false, true, 124, 126, 1260,
    (some ⟨1, 126, 1210, [121, 84, 101, 83]⟩),
    none, [82, 84, 86, 89, 90, 92], [], [126]⟩]),
  (train_ko3_6403, [
   ⟨17, 6403, 4, (some 36), true, false, 134, 142, 1420,
    none,
    (some ⟨3, [127, 93, 92, 91, 90], [18, 7, 6, 8, 12], 5, [48, 47, 46]⟩), [], [31, 33], [134]⟩,
   ⟨17, 6403, 3, (some 31), true, false, 141, 149, 1490,
    (some ⟨4, 147, 1420, [127, 93, 92, 91, 90]⟩),
    (some ⟨2, [126, 87, 142, 86], [23, 5, 9, 16], 5, [160, 161, 164]⟩), [48, 47, 46], [18, 23, 24], [147]⟩,
   ⟨17, 6403, 2, (some 41), true, false, 147, 155, 1550,
    (some ⟨3, 154, 1490, [126, 87, 142, 86]⟩),
    (some ⟨1, [85, 145, 125], [11, 7, 9], 3, [17, 19]⟩), [160, 161, 164], [106], [154]⟩,
   ⟨17, 6403, 1, (some 2), true, false, 152, 160, 1600,
    (some ⟨2, 158, 1550, [85, 145, 125]⟩),
    (some ⟨0, [121, 84, 101, 83], [8, 11, 12, 10], 4, [81, 85, 88, 81, 92]⟩), [17, 19], [5, 8], [158]⟩,
   ⟨17, 6403, 0, (some 13), false, true, 156, 164, 1640,
    (some ⟨1, 164, 1600, [121, 84, 101, 83]⟩),
    none, [81, 85, 88, 81, 92], [], [164]⟩]),
  (train_ko3_7, [
   ⟨18, 7, 4, (some 36), true, false, 127, 127, 1270,
    none,
    (some ⟨3, [127, 93, 92, 91, 90], [18, 7, 6, 8, 12], 5, [48, 47, 46]⟩), [], [31, 33], [127]⟩,
   ⟨18, 7, 3, (some 31), true, false, 134, 134, 1340,
    (some ⟨4, 132, 1270, [127, 93, 92, 91, 90]⟩),
    (some ⟨2, [126, 87, 142, 86], [23, 5, 19, 16], 6, [160, 161, 164]⟩), [48, 47, 46], [18, 23, 24], [132]⟩,
   ⟨18, 7, 2, (some 41), true, false, 143, 143, 1430,
    (some ⟨3, 140, 1340, [126, 87, 142, 86]⟩),
    (some ⟨1, [85, 145, 125], [11, 17, 9], 4, [17, 19]⟩), [160, 161, 164], [106], [140]⟩,
   ⟨18, 7, 1, (some 2), true, false, 151, 151, 1510,
    (some ⟨2, 147, 1430, [85, 145, 125]⟩),
    (some ⟨0, [121, 84, 101, 83], [8, 13, 22, 10], 5, [82, 84, 86, 89, 90, 92]⟩), [17, 19], [5, 8], [147]⟩,
   ⟨18, 7, 0, (some 15), false, true, 156, 156, 1560,
    (some ⟨1, 156, 1510, [121, 84, 101, 83]⟩),
    none, [82, 84, 86, 89, 90, 92], [], [156]⟩]),
  (train_ko3_9, [
   ⟨19, 9, 4, (some 36), true, false, 146, 146, 1460,
    none,
    (some ⟨3, [127, 93, 92, 91, 90], [18, 7, 6, 8, 12], 5, [48, 47, 46]⟩), [], [31, 33], [146]⟩,
   ⟨19, 9, 3, (some 31), true, false, 159, 160, 1600,
    (some ⟨4, 151, 1460, [127, 93, 92, 91, 90]⟩),
    (some ⟨2, [126, 87, 142, 86], [23, 5, 19, 16], 6, [160, 161, 164]⟩), [48, 47, 46], [18, 23, 24], [151]⟩,
   ⟨19, 9, 2, (some 41), true, false, 167, 168, 1680,
    (some ⟨3, 166, 1600, [126, 87, 142, 86]⟩),
    (some ⟨1, [85, 145, 125], [11, 17, 9], 4, [17, 19]⟩), [160, 161, 164], [106], [166]⟩,
   ⟨19, 9, 1, (some 2), true, false, 174, 174, 1740,
    (some ⟨2, 172, 1680, [85, 145, 125]⟩),
    (some ⟨0, [121, 84, 101, 83], [8, 13, 22, 10], 5, [82, 84, 86, 89, 90, 92]⟩), [17, 19], [5, 8], [172]⟩,
   ⟨19, 9, 0, (some 15), false, true, 179, 179, 1790,
    (some ⟨1, 179, 1740, [121, 84, 101, 83]⟩),
    none, [82, 84, 86, 89, 90, 92], [], [179]⟩]),
  (train_ko3_11, [
   ⟨20, 11, 4, (some 36), true, false, 167, 167, 1670,
    none,
    (some ⟨3, [127, 93, 92, 91, 90], [18, 7, 6, 8, 12], 5, [48, 47, 46]⟩), [], [31, 33], [167]⟩,
   ⟨20, 11, 3, (some 31), true, false, 175, 183, 1830,
    (some ⟨4, 172, 1670, [127, 93, 92, 91, 90]⟩),
    (some ⟨2, [126, 87, 142, 86], [23, 5, 19, 16], 6, [160, 161, 164]⟩), [48, 47, 46], [18, 23, 24], [172]⟩,
   ⟨20, 11, 2, (some 41), true, false, 187, 191, 1910,
    (some ⟨3, 189, 1830, [126, 87, 142, 86]⟩),
    (some ⟨1, [85, 145, 125], [11, 17, 9], 4, [17, 19]⟩), [160, 161, 164], [106], [189]⟩,
   ⟨20, 11, 1, (some 2), true, false, 194, 197, 1970,
    (some ⟨2, 195, 1910, [85, 145, 125]⟩),
    (some ⟨0, [121, 84, 101, 83], [8, 13, 22, 10], 5, [82, 84, 86, 89, 90, 92]⟩), [17, 19], [5, 8], [195]⟩,
   ⟨20, 11, 0, (some 15), false, true, 199, 202, 2020,
    (some ⟨1, 202, 1970, [121, 84, 101, 83]⟩),
    none, [82, 84, 86, 89, 90, 92], [], [202]⟩])]

theorem ko3n8Plan_sections : ko3n8Plan.map Prod.fst = ko3 := rfl

theorem ko3n8Plan_ok : netKoR.PlanOK "14:00" ko3n8Delays 40 netKoRSpecial ko3n8Plan :=
  ko3Plan_ok.again rfl (by decide +kernel) (by decide +kernel) (by decide +kernel) (by decide +kernel)

theorem ko3n8_cost : netKoR.costOK ko3n8Plan 168 = true := by decide +kernel

/-- the departures: train and station -/
def ko3n8Nodes : List (Nat × Nat) := [
  (6, 0), (10, 0), (9, 0), (10, 1), (10, 2), (10, 3), (6, 1), (2, 0), (19, 4), (6, 3), (18, 4),
  (19, 3), (17, 4), (2, 3), (6, 2), (2, 1), (2, 2), (17, 3), (17, 2), (17, 1), (14, 1), (12, 1),
  (19, 1), (3, 0), (3, 1), (0, 0), (5, 2), (20, 3), (20, 2), (20, 1), (16, 3), (0, 2), (0, 3),
  (13, 1), (15, 1), (9, 1), (9, 2), (4, 0), (4, 1), (4, 2), (4, 3), (1, 2), (1, 3), (1, 4),
  (16, 2), (16, 1), (1, 0), (1, 1), (0, 1), (5, 3), (5, 4), (18, 3), (7, 2), (7, 3), (7, 1),
  (19, 2), (8, 3), (8, 4), (18, 2), (18, 1), (5, 0), (5, 1), (8, 2), (8, 0), (7, 0), (8, 1),
  (20, 4)]

/-- the choices -/
def ko3n8Choices : List CodedNet.Choice := [
  .first 0 4 0, .first 1 5 0, .first 2 6 0, .first 3 5 0, .first 7 6 0, .first 9 10 0,
  .first 0 4 1, .first 2 6 1, .first 7 6 1, .first 9 10 1, .first 7 2 2, .first 17 18 4,
  .first 17 19 4, .against 18 6 4 3, .first 17 18 3, .first 17 19 3, .against 2 18 3 4,
  .against 17 6 4 3, .first 2 6 3, .first 2 6 2, .first 12 14 1, .first 14 13 1, .against 3 19 0 1,
  .against 12 0 1 0, .against 20 5 3 2, .against 0 13 0 1, .against 16 4 3 2, .against 0 16 2 3,
  .first 12 13 1, .first 15 20 1, .first 9 10 2, .first 9 10 3, .against 4 13 0 1,
  .against 20 1 3 2, .against 12 4 1 0, .first 3 1 0, .against 0 14 0 1, .first 0 4 2,
  .against 1 19 0 1, .against 2 17 3 4, .against 7 17 2 3, .first 7 6 2, .first 7 6 3,
  .against 17 6 3 2, .against 18 6 3 2, .against 2 18 2 3, .against 2 17 2 3, .against 5 19 2 3,
  .against 6 19 3 4, .against 7 19 3 4, .against 8 19 3 4, .against 5 17 0 1, .first 17 18 2,
  .first 17 18 1, .against 7 18 2 3, .against 2 16 2 3, .against 5 19 0 1, .against 8 19 2 3,
  .against 20 8 4 3, .first 7 8 0, .first 7 8 1, .first 7 8 2, .first 7 8 3, .against 8 17 2 3]

/-- the inequalities -/
def ko3n8Arcs : ArcTree :=
  .node ⟨.track, 6, 1, 0, 0, 110, false⟩ (.node ⟨.track, 12, 2, 0, 0, 234, false⟩ (.node
  ⟨.run, 0, 2, 4, 6, 0, false⟩ (.node ⟨.track, 5, 8, 0, 0, 114, false⟩ (.node
  ⟨.track, 40, 15, 16, 0, 4, false⟩ (.node ⟨.come, 50, 27, 28, 5, 0, false⟩ (.node
  ⟨.come, 47, 22, 26, 6, 0, false⟩ (.node ⟨.come, 110, 52, 53, 7, 0, false⟩ .none .none) .none)
  (.node ⟨.track, 83, 53, 7, 0, 4, false⟩ (.node ⟨.come, 103, 61, 20, 4, 0, false⟩ .none .none)
  .none)) (.node ⟨.come, 68, 42, 28, 5, 0, false⟩ (.node ⟨.follow, 76, 40, 32, 3, 0, false⟩ (.node
  ⟨.track, 126, 57, 53, 0, 4, false⟩ .none .none) .none) (.node ⟨.run, 0, 9, 12, 7, 0, false⟩ .none
  .none))) (.node ⟨.run, 0, 13, 18, 7, 0, false⟩ (.node ⟨.follow, 19, 36, 4, 3, 0, false⟩ (.node
  ⟨.come, 53, 31, 40, 7, 0, false⟩ (.node ⟨.follow, 120, 64, 65, 2, 0, false⟩ .none .none) .none)
  (.node ⟨.follow, 85, 54, 10, 3, 0, false⟩ (.node ⟨.track, 2, 38, 0, 0, 90, false⟩ .none .none)
  .none)) (.node ⟨.follow, 59, 35, 30, 4, 0, false⟩ (.node ⟨.come, 89, 52, 15, 7, 0, false⟩ (.node
  ⟨.run, 0, 67, 28, 7, 0, false⟩ .none .none) .none) (.node ⟨.come, 33, 14, 11, 6, 0, false⟩ .none
  .none)))) (.node ⟨.track, 24, 11, 0, 0, 134, false⟩ (.node ⟨.follow, 39, 17, 15, 3, 0, false⟩
  (.node ⟨.run, 0, 32, 33, 6, 0, false⟩ (.node ⟨.come, 52, 34, 26, 5, 0, false⟩ (.node
  ⟨.run, 0, 61, 62, 4, 0, false⟩ .none .none) .none) (.node ⟨.run, 0, 17, 14, 6, 0, false⟩ (.node
  ⟨.track, 15, 16, 1, 0, 4, false⟩ .none .none) .none)) (.node ⟨.come, 70, 38, 22, 5, 0, false⟩
  (.node ⟨.come, 80, 13, 14, 6, 0, false⟩ (.node ⟨.come, 127, 63, 18, 5, 0, false⟩ .none .none)
  .none) (.node ⟨.run, 0, 57, 58, 6, 0, false⟩ .none .none))) (.node
  ⟨.come, 46, 23, 24, 6, 0, false⟩ (.node ⟨.run, 0, 38, 39, 6, 0, false⟩ (.node
  ⟨.run, 0, 50, 51, 6, 0, false⟩ (.node ⟨.run, 0, 64, 66, 5, 0, false⟩ .none .none) .none) (.node
  ⟨.come, 98, 9, 10, 6, 0, false⟩ (.node ⟨.track, 3, 47, 0, 0, 170, false⟩ .none .none) .none))
  (.node ⟨.follow, 72, 47, 24, 2, 0, false⟩ (.node ⟨.come, 87, 18, 15, 6, 0, false⟩ (.node
  ⟨.come, 109, 53, 52, 5, 0, false⟩ .none .none) .none) (.node ⟨.run, 0, 52, 59, 8, 0, false⟩ .none
  .none))))) (.node ⟨.run, 0, 5, 6, 6, 0, false⟩ (.node ⟨.track, 26, 9, 0, 0, 134, false⟩ (.node
  ⟨.run, 0, 7, 15, 5, 0, false⟩ (.node ⟨.run, 0, 29, 30, 6, 0, false⟩ (.node
  ⟨.run, 0, 49, 32, 5, 0, false⟩ (.node ⟨.come, 111, 17, 31, 5, 0, false⟩ .none .none) .none)
  (.node ⟨.run, 0, 55, 53, 5, 0, false⟩ (.node ⟨.track, 23, 13, 0, 0, 127, false⟩ .none .none)
  .none)) (.node ⟨.run, 0, 42, 43, 6, 0, false⟩ (.node ⟨.follow, 43, 21, 34, 4, 0, false⟩ (.node
  ⟨.come, 128, 18, 63, 6, 0, false⟩ .none .none) .none) (.node ⟨.run, 0, 56, 23, 6, 0, false⟩ .none
  .none))) (.node ⟨.run, 0, 19, 20, 5, 0, false⟩ (.node ⟨.follow, 61, 37, 5, 3, 0, false⟩ (.node
  ⟨.come, 49, 28, 27, 7, 0, false⟩ (.node ⟨.track, 122, 66, 65, 0, 4, false⟩ .none .none) .none)
  (.node ⟨.come, 93, 17, 18, 5, 0, false⟩ (.node ⟨.follow, 7, 24, 61, 3, 0, false⟩ .none .none)
  .none)) (.node ⟨.run, 0, 31, 45, 8, 0, false⟩ (.node ⟨.come, 82, 18, 53, 6, 0, false⟩ (.node
  ⟨.come, 113, 61, 23, 4, 0, false⟩ .none .none) .none) (.node ⟨.follow, 24, 11, 13, 2, 0, false⟩
  .none .none)))) (.node ⟨.track, 25, 13, 0, 0, 146, false⟩ (.node
  ⟨.follow, 37, 14, 10, 3, 0, false⟩ (.node ⟨.follow, 60, 30, 35, 4, 0, false⟩ (.node
  ⟨.follow, 2, 38, 26, 3, 0, false⟩ (.node ⟨.come, 116, 12, 63, 7, 0, false⟩ .none .none) .none)
  (.node ⟨.come, 81, 53, 18, 5, 0, false⟩ (.node ⟨.track, 17, 55, 1, 0, 4, false⟩ .none .none)
  .none)) (.node ⟨.come, 69, 22, 38, 6, 0, false⟩ (.node ⟨.come, 90, 15, 52, 5, 0, false⟩ (.node
  ⟨.track, 125, 54, 63, 0, 4, false⟩ .none .none) .none) (.node ⟨.come, 96, 12, 27, 7, 0, false⟩
  .none .none))) (.node ⟨.come, 48, 26, 22, 5, 0, false⟩ (.node ⟨.run, 0, 40, 41, 6, 0, false⟩
  (.node ⟨.come, 78, 23, 47, 6, 0, false⟩ (.node ⟨.follow, 121, 55, 66, 3, 0, false⟩ .none .none)
  .none) (.node ⟨.come, 100, 9, 54, 6, 0, false⟩ .none .none)) (.node
  ⟨.run, 0, 47, 48, 5, 0, false⟩ (.node ⟨.track, 85, 54, 15, 0, 4, false⟩ (.node
  ⟨.track, 107, 20, 59, 0, 4, false⟩ .none .none) .none) (.node ⟨.run, 0, 59, 60, 6, 0, false⟩
  .none .none)))))) (.node ⟨.follow, 11, 3, 2, 3, 0, false⟩ (.node ⟨.run, 0, 4, 5, 5, 0, false⟩
  (.node ⟨.track, 20, 4, 3, 0, 4, false⟩ (.node ⟨.follow, 15, 16, 7, 3, 0, false⟩ (.node
  ⟨.run, 0, 28, 29, 8, 0, false⟩ (.node ⟨.run, 0, 26, 49, 6, 0, false⟩ (.node
  ⟨.come, 112, 31, 17, 7, 0, false⟩ .none .none) .none) (.node ⟨.follow, 18, 7, 55, 3, 0, false⟩
  (.node ⟨.track, 29, 18, 11, 0, 5, false⟩ .none .none) .none)) (.node
  ⟨.come, 67, 28, 42, 7, 0, false⟩ (.node ⟨.track, 75, 32, 39, 0, 4, false⟩ (.node
  ⟨.follow, 123, 53, 63, 3, 0, false⟩ .none .none) .none) (.node ⟨.run, 0, 12, 56, 8, 0, false⟩
  .none .none))) (.node ⟨.run, 0, 18, 19, 6, 0, false⟩ (.node ⟨.track, 64, 6, 37, 0, 4, false⟩
  (.node ⟨.come, 51, 26, 34, 5, 0, false⟩ (.node ⟨.run, 0, 65, 55, 6, 0, false⟩ .none .none) .none)
  (.node ⟨.come, 94, 18, 17, 6, 0, false⟩ (.node ⟨.track, 9, 65, 0, 0, 114, false⟩ .none .none)
  .none)) (.node ⟨.come, 55, 32, 31, 5, 0, false⟩ (.node ⟨.come, 88, 15, 18, 5, 0, false⟩ (.node
  ⟨.come, 104, 20, 61, 5, 0, false⟩ .none .none) .none) (.node ⟨.run, 0, 11, 52, 7, 0, false⟩ .none
  .none)))) (.node ⟨.track, 32, 12, 13, 0, 5, false⟩ (.node ⟨.run, 0, 15, 10, 6, 0, false⟩ (.node
  ⟨.follow, 58, 34, 22, 2, 0, false⟩ (.node ⟨.come, 73, 26, 21, 5, 0, false⟩ (.node
  ⟨.run, 0, 62, 27, 4, 0, false⟩ .none .none) .none) (.node ⟨.follow, 22, 17, 53, 3, 0, false⟩
  (.node ⟨.track, 10, 1, 0, 0, 127, false⟩ .none .none) .none)) (.node
  ⟨.follow, 57, 22, 34, 4, 0, false⟩ (.node ⟨.track, 37, 14, 15, 0, 4, false⟩ (.node
  ⟨.track, 31, 18, 9, 0, 5, false⟩ .none .none) .none) (.node ⟨.come, 101, 57, 9, 6, 0, false⟩
  .none .none))) (.node ⟨.run, 0, 24, 25, 7, 0, false⟩ (.node ⟨.run, 0, 39, 40, 5, 0, false⟩ (.node
  ⟨.come, 45, 24, 23, 6, 0, false⟩ (.node ⟨.track, 124, 63, 55, 0, 4, false⟩ .none .none) .none)
  (.node ⟨.come, 97, 10, 9, 6, 0, false⟩ (.node ⟨.track, 1, 26, 0, 0, 77, false⟩ .none .none)
  .none)) (.node ⟨.follow, 71, 24, 47, 3, 0, false⟩ (.node ⟨.follow, 86, 10, 54, 3, 0, false⟩
  (.node ⟨.follow, 106, 59, 19, 3, 0, false⟩ .none .none) .none) (.node
  ⟨.follow, 30, 52, 18, 4, 0, false⟩ .none .none))))) (.node ⟨.track, 16, 7, 8, 0, 4, false⟩ (.node
  ⟨.come, 28, 10, 11, 6, 0, false⟩ (.node ⟨.track, 38, 10, 17, 0, 4, false⟩ (.node
  ⟨.come, 56, 31, 32, 7, 0, false⟩ (.node ⟨.come, 74, 21, 26, 6, 0, false⟩ (.node
  ⟨.come, 114, 23, 61, 6, 0, false⟩ .none .none) .none) (.node ⟨.come, 92, 52, 17, 7, 0, false⟩
  (.node ⟨.track, 21, 53, 16, 0, 4, false⟩ .none .none) .none)) (.node
  ⟨.run, 0, 43, 44, 6, 0, false⟩ (.node ⟨.come, 35, 13, 10, 6, 0, false⟩ (.node
  ⟨.come, 115, 63, 12, 5, 0, false⟩ .none .none) .none) (.node ⟨.come, 102, 9, 57, 6, 0, false⟩
  .none .none))) (.node ⟨.follow, 42, 21, 22, 4, 0, false⟩ (.node ⟨.come, 66, 34, 38, 5, 0, false⟩
  (.node ⟨.run, 0, 27, 50, 6, 0, false⟩ (.node ⟨.follow, 119, 65, 64, 3, 0, false⟩ .none .none)
  .none) (.node ⟨.come, 79, 14, 13, 6, 0, false⟩ (.node ⟨.track, 4, 61, 0, 0, 180, false⟩ .none
  .none) .none)) (.node ⟨.run, 0, 45, 46, 6, 0, false⟩ (.node ⟨.run, 0, 53, 54, 6, 0, false⟩ (.node
  ⟨.come, 117, 67, 57, 6, 0, false⟩ .none .none) .none) (.node ⟨.come, 27, 11, 10, 6, 0, false⟩
  .none .none)))) (.node ⟨.come, 34, 11, 14, 6, 0, false⟩ (.node ⟨.come, 36, 10, 13, 6, 0, false⟩
  (.node ⟨.track, 62, 5, 36, 0, 4, false⟩ (.node ⟨.follow, 14, 39, 49, 3, 0, false⟩ (.node
  ⟨.run, 0, 63, 57, 6, 0, false⟩ .none .none) .none) (.node ⟨.come, 91, 17, 52, 5, 0, false⟩ (.node
  ⟨.track, 13, 49, 38, 0, 4, false⟩ .none .none) .none)) (.node ⟨.come, 65, 38, 34, 5, 0, false⟩
  (.node ⟨.track, 30, 52, 13, 0, 5, false⟩ (.node ⟨.come, 118, 57, 67, 6, 0, false⟩ .none .none)
  .none) (.node ⟨.come, 95, 27, 12, 5, 0, false⟩ .none .none))) (.node
  ⟨.follow, 41, 22, 21, 4, 0, false⟩ (.node ⟨.come, 54, 40, 31, 5, 0, false⟩ (.node
  ⟨.come, 77, 47, 23, 4, 0, false⟩ (.node ⟨.run, 0, 66, 63, 4, 0, false⟩ .none .none) .none) (.node
  ⟨.come, 99, 54, 9, 6, 0, false⟩ .none .none)) (.node ⟨.run, 0, 48, 42, 4, 0, false⟩ (.node
  ⟨.follow, 84, 15, 53, 3, 0, false⟩ (.node ⟨.track, 105, 19, 52, 0, 6, false⟩ .none .none) .none)
  (.node ⟨.follow, 108, 60, 20, 4, 0, false⟩ .none .none))))))

/-- the bounds of the departures -/
def ko3n8Times : TimeTree :=
  .node 2 0 2 (.node 116 0 156 (.node 236 0 276 (.node 122 0 162 (.node 128 0 168 (.node 104 0 144
  (.node 153 0 193 .none .none) .none) (.node 182 0 222 .none .none)) (.node 176 4 216 (.node 85 0
  125 .none .none) (.node 135 0 175 .none .none))) (.node 129 0 169 (.node 149 0 189 (.node 202 4
  242 (.node 169 0 209 .none .none) .none) (.node 192 6 232 .none .none)) (.node 180 0 220 (.node
  197 0 237 .none .none) (.node 145 0 185 .none .none)))) (.node 249 0 289 (.node 148 0 188 (.node
  123 0 163 (.node 109 4 149 (.node 129 0 169 .none .none) .none) (.node 98 0 138 .none .none))
  (.node 187 4 227 (.node 102 4 142 .none .none) (.node 161 0 201 .none .none))) (.node 136 0 176
  (.node 97 4 137 (.node 247 0 287 .none .none) (.node 143 0 183 .none .none)) (.node 189 0 229
  (.node 112 0 152 .none .none) (.node 172 0 212 .none .none))))) (.node 238 0 278 (.node 244 0 284
  (.node 112 0 152 (.node 118 0 158 (.node 103 0 143 (.node 144 0 184 .none .none) .none) (.node
  187 0 227 .none .none)) (.node 180 0 220 (.node 93 0 133 .none .none) (.node 169 0 209 .none
  .none))) (.node 161 0 201 (.node 154 6 194 (.node 242 0 282 .none .none) (.node 136 0 176 .none
  .none)) (.node 177 0 217 (.node 203 6 243 .none .none) (.node 153 4 193 .none .none)))) (.node
  255 4 295 (.node 135 4 175 (.node 143 0 183 (.node 87 6 127 (.node 149 0 189 .none .none) .none)
  (.node 186 0 226 .none .none)) (.node 92 0 132 (.node 191 0 231 .none .none) (.node 169 6 209
  .none .none))) (.node 129 4 169 (.node 79 4 119 (.node 79 0 119 .none .none) (.node 154 4 194
  .none .none)) (.node 196 4 236 (.node 121 4 161 .none .none) (.node 176 0 216 .none .none)))))

/-- some of the cases -/
def ko3n8Case0 : SumTree :=
  .cases [155, 123, 125, 126] 29 (.leaf [55]) (.cases [] 38 (.leaf [78]) (.cases [] 22 (.leaf [76])
  (.cases [27, 28] 27 (.cases [56, 57, 58] 33 (.cases [] 24 (.leaf [73, 74, 75]) (.leaf
  [31, 32, 48, 33, 49, 37, 50])) (.leaf [47, 32, 33])) (.leaf [34, 35]))))

/-- some of the cases -/
def ko3n8Case1 : SumTree :=
  .cases [127, 90] 20 (.cases [] 40 (.cases [101, 24, 25] 56 (.cases [] 26 (.leaf [71, 45]) (.cases
  [] 57 (.cases [] 58 (.leaf [154, 115]) (.cases [] 27 (.cases [56, 57, 58] 33 (.cases [] 24
  (.cases [73, 74, 75] 38 (.leaf [78]) (.cases [] 63 (.leaf [147, 24, 25, 152, 153]) (.leaf
  [145, 134, 115, 150, 151, 73, 74, 75]))) (.cases [31, 32, 48, 33, 49, 50] 59 (.cases [] 60
  (.cases [] 61 (.cases [] 62 (.cases [] 38 (.leaf [78]) (.cases [] 22 (.leaf
  [76, 77, 61, 62, 49, 50]) (.cases [] 49 (.leaf [110, 111, 112, 113, 27, 28]) (.cases [] 63
  (.cycle 63 [147, 148, 109, 149]) (.leaf [145, 134, 146, 115, 112, 113, 27, 28]))))) (.cycle 57
  [143, 144, 134])) (.cycle 63 [140, 141, 142])) (.cycle 66 [137, 138, 139])) (.leaf
  [135, 136, 97, 90, 101, 24, 25]))) (.leaf [47, 32, 33])) (.cases [34, 35] 28 (.cases [] 38 (.leaf
  [78]) (.cases [] 22 (.leaf [76]) (.cases [27, 28] 34 (.cases [53] 32 (.leaf [54]) (.leaf
  [42, 43, 44, 45, 46, 34, 35])) (.leaf [51])))) (.leaf [36])))) (.leaf [133, 134, 115]))) (.leaf
  [130, 131, 132, 74, 75])) (.cases [89, 90] 21 (.leaf [81]) (.cases [] 55 (.leaf [129, 57, 58])
  (.cases [] 17 (.cases [82] 23 (.cases [] 22 (.cases [76] 29 (.leaf [55]) (.cases [] 38 (.cases []
  27 (.cases [56, 57, 58] 24 (.leaf [73, 74, 75]) (.cases [31, 32, 33, 37] 35 (.leaf
  [60, 61, 78, 62, 49, 50]) (.leaf [59, 28, 76]))) (.leaf [34, 35])) (.leaf [77, 61, 62, 49, 50])))
  (.cases [27, 28] 25 (.leaf [72]) (.cases [] 26 (.leaf [71, 45]) (.cases [] 24 (.cases
  [73, 74, 75] 28 (.cases [] 36 (.cases [] 34 (.cases [53] 27 (.cases [] 32 (.leaf
  [54, 67, 64, 68, 65, 35]) (.leaf [42, 43, 69, 44, 68, 45])) (.cases [34, 35] 35 (.leaf
  [60, 61, 62, 49, 50]) (.leaf [59, 28]))) (.cases [51, 52, 67, 68] 35 (.leaf [60, 61, 62, 49, 50])
  (.leaf [59, 28]))) (.leaf [66, 64, 65, 35])) (.leaf [36])) (.cases [31, 32, 33] 34 (.cases [53]
  27 (.cases [] 36 (.cases [] 32 (.leaf [54, 67, 64, 68, 65, 35, 56, 57, 58]) (.leaf
  [42, 43, 69, 44, 70, 68, 45, 65, 35])) (.leaf [66, 64, 65, 56, 128, 99, 119, 11])) (.cases
  [34, 35] 35 (.leaf [60, 61, 62, 49, 50]) (.cases [59, 28] 32 (.leaf [54]) (.leaf
  [42, 43, 44, 46, 34, 35])))) (.cases [51] 29 (.leaf [55]) (.cases [37] 30 (.cases [] 31 (.cases
  [] 36 (.cases [] 27 (.cases [] 33 (.cases [48, 49, 50] 28 (.leaf
  [52, 67, 64, 68, 65, 56, 57, 58]) (.leaf [36, 63, 68])) (.leaf [47, 32, 33])) (.leaf [34, 35]))
  (.leaf [66, 64, 65, 35])) (.cycle 5 [5, 40, 41])) (.cycle 4 [4, 38, 39])))))))) (.leaf [29, 30]))
  (.cases [22, 23, 24, 89, 25, 90] 35 (.cases [] 22 (.leaf [76]) (.leaf [27, 60, 61, 62, 49, 50]))
  (.leaf [59, 28])))))) (.leaf [26])

/-- some of the cases -/
def ko3n8Case2 : SumTree :=
  .cases [82] 39 (.cases [106, 23, 82, 24, 25] 21 (.leaf [81]) (.cases [] 23 (.cases [] 47 (.leaf
  [118, 112, 113]) (.cases [] 48 (.cases [108] 27 (.cases [56, 57, 58] 25 (.leaf [72]) (.cases []
  34 (.cases [53] 24 (.cases [73, 74, 75] 37 (.cycle 32 [80, 70, 65]) (.cases [] 32 (.leaf
  [54, 67, 64, 65, 35, 56, 57, 58]) (.leaf [42, 43, 44, 45, 79, 35]))) (.cases [31, 32, 33] 50
  (.leaf [116, 111, 112, 117, 113, 31, 32, 33]) (.cases [] 49 (.cases
  [110, 111, 114, 112, 115, 113] 35 (.cases [60, 61, 62, 49, 50] 29 (.leaf [55]) (.leaf [37]))
  (.leaf [59, 28])) (.cases [109] 37 (.cycle 32 [80, 70, 65]) (.cases [] 32 (.leaf
  [54, 67, 64, 65, 35]) (.leaf [42, 43, 44, 45, 79, 35])))))) (.cases [51] 38 (.leaf [78]) (.cases
  [] 22 (.leaf [76]) (.cases [27, 28] 49 (.leaf [110, 111, 112, 113, 27, 28]) (.cases [109] 35
  (.leaf [60, 61, 62, 49, 50]) (.cases [59, 28] 28 (.leaf [52]) (.leaf [36])))))))) (.cases
  [34, 35] 29 (.leaf [55]) (.cases [] 22 (.leaf [76]) (.cases [27, 28] 33 (.cases [] 24 (.leaf
  [73, 74, 75]) (.leaf [31, 32, 48, 33, 49, 37, 50])) (.leaf [47, 32, 33]))))) (.cases [107] 29
  (.leaf [55]) (.cases [] 38 (.leaf [78]) (.cases [] 22 (.leaf [76]) (.cases [27, 28] 27 (.cases
  [56, 57, 58] 33 (.cases [] 24 (.leaf [73, 74, 75]) (.leaf [31, 32, 48, 33, 49, 37, 50])) (.leaf
  [47, 32, 33])) (.leaf [34, 35]))))))) (.leaf [29]))) (.cases [83] 22 (.cases [76] 46 (.cases []
  43 (.leaf [91, 20]) (.cases [] 18 (.cases [] 44 (.leaf [87, 20, 88, 24, 25]) (.cycle 13
  [83, 84, 85, 86])) (.cases [] 45 (.cycle 13 [82, 18, 102, 86]) (.leaf [98, 99, 105, 24, 25]))))
  (.leaf [104, 99])) (.cases [27, 28] 24 (.cases [73, 74, 75] 42 (.leaf [103]) (.cases [] 43 (.leaf
  [91, 20]) (.cases [] 18 (.cases [] 44 (.leaf [87, 20, 88, 24, 25]) (.cycle 13 [83, 84, 85, 86]))
  (.cases [] 19 (.cycle 10 [18, 19, 20]) (.cycle 15 [15, 16, 17]))))) (.cases [31, 32, 33] 40
  (.cases [] 41 (.cycle 53 [95, 96, 97]) (.cases [] 45 (.cases [] 44 (.leaf
  [87, 20, 94, 101, 24, 25]) (.cases [] 18 (.cycle 13 [83, 84, 85, 86]) (.cycle 13
  [82, 18, 102, 86]))) (.leaf [98, 99, 100, 101, 24, 25]))) (.cases [] 41 (.cycle 53 [95, 96, 97])
  (.cases [] 42 (.cycle 53 [90, 93, 94]) (.cases [] 18 (.cases [] 43 (.leaf [91, 20, 92]) (.cases
  [] 44 (.leaf [87, 20, 88, 24, 89, 25, 90]) (.cycle 13 [83, 84, 85, 86]))) (.cases [] 19 (.cycle
  10 [18, 19, 20]) (.cycle 15 [15, 16, 17]))))))))

/-- some of the cases -/
def ko3n8Case3 : SumTree :=
  .cases [] 18 (.cases [21, 22, 23, 24, 25] 20 (.cases [] 21 (.leaf [81]) (.cases [] 22 (.cases
  [76] 28 (.cases [] 37 (.cycle 32 [80, 70, 65]) (.cases [] 25 (.leaf [72]) (.cases [] 38 (.cases
  [] 34 (.cases [53] 27 (.cases [] 32 (.leaf [54, 67, 64, 65, 35, 56, 57, 58]) (.leaf
  [42, 43, 44, 45, 79, 35])) (.cases [34, 35] 35 (.leaf [60, 61, 78, 62, 49, 50]) (.leaf
  [59, 76]))) (.cases [51, 52, 67, 64, 65, 35] 35 (.leaf [60, 61, 78, 62, 49, 50]) (.leaf
  [59, 28, 76]))) (.leaf [77, 61, 62, 49, 50])))) (.leaf [36])) (.cases [27, 28] 23 (.cases [] 24
  (.cases [73, 74, 75] 25 (.leaf [72]) (.cases [] 27 (.cases [] 36 (.cases [] 35 (.cases
  [60, 61, 62, 49, 50] 28 (.cases [] 32 (.cases [] 34 (.leaf [53, 54, 67, 68]) (.leaf
  [51, 52, 67, 68])) (.leaf [42, 43, 69, 44, 70, 68, 45, 65, 35])) (.leaf [36, 63, 68])) (.cases
  [59, 28] 28 (.cases [] 34 (.cases [53] 32 (.leaf [54, 67, 64, 68, 65, 35]) (.leaf
  [42, 43, 69, 44, 68, 45])) (.leaf [51, 52, 67, 64, 68, 65, 35, 56, 57, 58])) (.leaf [36])))
  (.leaf [66, 64, 65, 56, 57, 58])) (.cases [34, 35] 35 (.leaf [60, 61, 62, 49, 50]) (.cases
  [59, 28] 34 (.cases [53] 32 (.leaf [54]) (.leaf [42, 43, 44, 45])) (.leaf [51]))))) (.cases
  [31, 32, 33] 25 (.leaf [72]) (.cases [] 26 (.leaf [71, 45]) (.cases [] 27 (.cases [56, 57, 58] 33
  (.cases [48, 49, 50] 29 (.cases [55] 28 (.cases [] 32 (.cases [] 34 (.leaf
  [53, 54, 67, 64, 65, 35]) (.leaf [51, 52])) (.leaf [42, 43, 44, 45])) (.leaf [36])) (.cases [37]
  35 (.cases [60, 61, 62, 49, 50] 28 (.cases [] 34 (.cases [53] 32 (.leaf
  [54, 67, 64, 65, 35, 56, 57, 58]) (.leaf [42, 43, 44, 70, 45, 65, 35])) (.leaf
  [51, 52, 67, 64, 65, 35, 56, 57, 58])) (.leaf [36])) (.cases [59, 28] 28 (.cases [] 36 (.cases []
  34 (.cases [53] 32 (.leaf [54, 67, 64, 68, 65, 35]) (.leaf [42, 43, 69, 44, 70, 68, 45, 65, 35]))
  (.leaf [51, 52, 67, 64, 68, 65, 35, 56, 57, 58])) (.leaf [66, 64, 65, 35])) (.leaf
  [36, 63, 64, 65, 35])))) (.cases [47, 32, 33] 35 (.leaf [60, 61, 62, 47, 32, 33]) (.cases
  [59, 28] 34 (.cases [53] 32 (.leaf [54]) (.leaf [42, 43, 44, 45])) (.leaf [51])))) (.cases
  [34, 35] 28 (.cases [] 29 (.leaf [55]) (.cases [37] 30 (.cases [] 31 (.cases [] 32 (.cases [] 33
  (.cases [48, 49, 50] 34 (.leaf [53, 54]) (.leaf [51, 52])) (.leaf [47, 32, 33])) (.leaf
  [42, 43, 44, 45, 46, 34, 35])) (.cycle 5 [5, 40, 41])) (.cycle 4 [4, 38, 39]))) (.leaf [36]))))))
  (.leaf [29, 30])))) (.leaf [26])) (.cases [] 19 (.cycle 10 [18, 19, 20]) (.cycle 15
  [15, 16, 17]))

/-- all cases -/
def ko3n8Cases : SumTree :=
  .cases [] 0 (.leaf [172]) (.cases [] 1 (.leaf [171]) (.cases [] 2 (.cases [] 3 (.leaf [169, 170])
  (.cases [] 4 (.leaf [168]) (.cases [] 5 (.cases [2, 3, 4, 5] 6 (.leaf [166, 167]) (.cases [] 7
  (.cases [] 8 (.leaf [165, 164]) (.cases [] 9 (.cases [] 10 (.leaf [162, 163, 164]) (.cases [] 11
  (.leaf [161]) (.cases [] 12 (.cases [] 13 (.cases [] 14 (.leaf [160, 11]) (.cases [] 15 (.cases
  [] 16 (.cases [119, 120, 121, 122, 123, 124, 125] 51 (.leaf [159]) (.cases [] 52 (.cycle 52
  [124, 24, 158]) (.cases [] 53 (.cycle 59 [156, 25, 157]) (.cases [126] 54 ko3n8Case0
  ko3n8Case1)))) (.cases [14] 17 ko3n8Case2 ko3n8Case3)) (.leaf [12, 13]))) (.leaf [10, 11]))
  (.leaf [9])))) (.cycle 3 [2, 3, 8]))) (.leaf [6, 7]))) (.leaf [1])))) (.leaf [0])))

theorem ko3n8_cases : ko3n8Cases.check ko3n8Arcs 168 ko3n8Choices.length [] ko3n8Times 0 = true := by
  decide +kernel

theorem ko3n8_choices : ko3n8Choices.all (CodedNet.Choice.ok netKoR netKoRSpecial ko3n8Plan) = true := by
  decide +kernel

theorem ko3n8_arcs : ko3n8Arcs.toList.all
    (netKoR.arcOK netKoRSpecial ko3n8Plan ko3n8Nodes ko3n8Choices) = true := by decide +kernel

theorem ko3n8_times : netKoR.startOK ko3n8Plan ko3n8Nodes 2 40 ko3n8Times = true := by decide +kernel

end Verif.Real
