import Verif.Proofs.PlanSum
import Verif.Proofs.PlanAgain
import Verif.Real.PlanKo3

/-!
# The sheet of `Verif.Real.Ko3` with given delays: a plan, and that no plan is better

Generated; see `CodedNet.Item` and `Verif/Proofs/SumTree.lean`. Case 3,
`disturbances[9]`, of `/repo/solve_KO_GLC_problems.py`, line 125;
`d_max` is 40. The sum of the delays that count is 208/4.
-/

namespace Verif.Real

set_option maxRecDepth 100000

/-- the given delays -/
def ko3n9Delays : List (Int × ℚ) := [
  (2, 90), (4602, 72), (4, 72), (102, 45), (4604, 10), (101, 47), (6401, 35), (6403, 20), (5, 25),
  (103, 30), (3, 60), (10, 25)]

/-- the plan, items by sections -/
def ko3n9Plan : CodedNet.Plan := [
  (train_ko3_2, [
   ⟨0, 2, 0, (some 14), true, false, 90, 91, 910,
    none,
    (some ⟨1, [83, 101, 84, 121], [9, 19, 8, 8], 4, [5, 8]⟩), [], [61, 64, 69, 71, 87, 92], [90]⟩,
   ⟨0, 2, 1, (some 1), true, false, 96, 97, 970,
    (some ⟨0, 95, 910, [83, 101, 84, 121]⟩),
    (some ⟨2, [77, 144, 119], [15, 14, 8], 4, [107]⟩), [5, 8], [16, 2], [95]⟩,
   ⟨0, 2, 2, (some 40), true, false, 101, 102, 1020,
    (some ⟨1, 101, 970, [77, 144, 119]⟩),
    (some ⟨3, [86, 142, 87, 126], [13, 13, 7, 9], 4, [18, 23]⟩), [107], [161, 164], [101]⟩,
   ⟨0, 2, 3, (some 30), true, false, 107, 108, 1080,
    (some ⟨2, 106, 1020, [86, 142, 87, 126]⟩),
    (some ⟨4, [90, 91, 92, 93, 127], [13, 9, 5, 7, 20], 5, [31, 33, 41]⟩), [18, 23], [47, 48], [106]⟩,
   ⟨0, 2, 4, (some 35), false, true, 112, 113, 1130,
    (some ⟨3, 113, 1080, [90, 91, 92, 93, 127]⟩),
    none, [31, 33, 41], [], [113]⟩]),
  (train_ko3_4602, [
   ⟨1, 4602, 0, (some 10), true, false, 180, 183, 1830,
    none,
    (some ⟨1, [83, 101, 84, 121], [9, 12, 6, 7], 3, [5, 8]⟩), [], [66, 68, 71, 87, 92], [180]⟩,
   ⟨1, 4602, 1, (some 1), true, false, 185, 188, 1880,
    (some ⟨0, 186, 1830, [83, 101, 84, 121]⟩),
    (some ⟨2, [77, 144, 119], [11, 9, 8], 3, [107]⟩), [5, 8], [16, 2], [186]⟩,
   ⟨1, 4602, 2, (some 40), true, false, 189, 192, 1920,
    (some ⟨1, 191, 1880, [77, 144, 119]⟩),
    (some ⟨3, [86, 142, 87, 126], [13, 7, 7, 9], 4, [18, 23]⟩), [107], [161, 164], [191]⟩,
   ⟨1, 4602, 3, (some 30), true, false, 195, 200, 2000,
    (some ⟨2, 196, 1920, [86, 142, 87, 126]⟩),
    (some ⟨4, [90, 91, 92, 93, 127], [13, 9, 5, 7, 20], 5, [31, 34, 43]⟩), [18, 23], [47, 48], [196]⟩,
   ⟨1, 4602, 4, (some 38), true, false, 201, 206, 2060,
    (some ⟨3, 205, 2000, [90, 91, 92, 93, 127]⟩),
    none, [31, 34, 43], [], [205]⟩]),
  (train_ko3_4, [
   ⟨2, 4, 0, (some 14), true, false, 110, 110, 1100,
    none,
    (some ⟨1, [83, 101, 84, 121], [9, 19, 8, 8], 4, [5, 8]⟩), [], [61, 64, 69, 71, 87, 92], [110]⟩,
   ⟨2, 4, 1, (some 1), true, false, 116, 116, 1160,
    (some ⟨0, 114, 1100, [83, 101, 84, 121]⟩),
    (some ⟨2, [77, 144, 119], [15, 14, 8], 4, [107]⟩), [5, 8], [16, 2], [114]⟩,
   ⟨2, 4, 2, (some 40), true, false, 121, 133, 1330,
    (some ⟨1, 120, 1160, [77, 144, 119]⟩),
    (some ⟨3, [86, 142, 87, 126], [13, 13, 7, 9], 4, [18, 23]⟩), [107], [161, 164], [120]⟩,
   ⟨2, 4, 3, (some 30), true, false, 127, 139, 1390,
    (some ⟨2, 137, 1330, [86, 142, 87, 126]⟩),
    (some ⟨4, [90, 91, 92, 93, 127], [13, 9, 5, 7, 20], 5, [31, 33, 41]⟩), [18, 23], [47, 48], [137]⟩,
   ⟨2, 4, 4, (some 35), false, true, 132, 144, 1440,
    (some ⟨3, 144, 1390, [90, 91, 92, 93, 127]⟩),
    none, [31, 33, 41], [], [144]⟩]),
  (train_ko3_102, [
   ⟨3, 102, 0, (some 16), true, false, 178, 180, 1800,
    none,
    (some ⟨1, [83, 101, 84, 121], [9, 19, 8, 10], 5, [5, 8, 9]⟩), [], [62, 64, 69, 71, 87, 92], [178]⟩,
   ⟨3, 102, 1, (some 3), true, false, 185, 187, 1870,
    (some ⟨0, 185, 1800, [83, 101, 84, 121]⟩),
    none, [5, 8, 9], [], [185]⟩]),
  (train_ko3_6, [
   ⟨4, 6, 0, (some 14), true, false, 77, 77, 770,
    none,
    (some ⟨1, [83, 101, 84, 121], [9, 19, 8, 8], 4, [5, 8]⟩), [], [61, 64, 69, 71, 87, 92], [77]⟩,
   ⟨4, 6, 1, (some 1), true, false, 83, 83, 830,
    (some ⟨0, 81, 770, [83, 101, 84, 121]⟩),
    (some ⟨2, [77, 144, 119], [15, 14, 8], 4, [107]⟩), [5, 8], [16, 2], [81]⟩,
   ⟨4, 6, 2, (some 40), true, false, 91, 91, 910,
    (some ⟨1, 87, 830, [77, 144, 119]⟩),
    (some ⟨3, [86, 142, 87, 126], [13, 13, 7, 9], 4, [18, 23]⟩), [107], [161, 164], [87]⟩,
   ⟨4, 6, 3, (some 30), true, false, 100, 100, 1000,
    (some ⟨2, 95, 910, [86, 142, 87, 126]⟩),
    (some ⟨4, [90, 91, 92, 93, 127], [13, 9, 5, 7, 20], 5, [31, 33, 41]⟩), [18, 23], [47, 48], [95]⟩,
   ⟨4, 6, 4, (some 35), false, true, 105, 105, 1050,
    (some ⟨3, 105, 1000, [90, 91, 92, 93, 127]⟩),
    none, [31, 33, 41], [], [105]⟩]),
  (train_ko3_4604, [
   ⟨5, 4604, 0, (some 10), true, false, 170, 170, 1700,
    none,
    (some ⟨1, [83, 101, 84, 121], [9, 12, 6, 7], 3, [5, 8]⟩), [], [66, 68, 71, 87, 92], [170]⟩,
   ⟨5, 4604, 1, (some 1), true, false, 174, 174, 1740,
    (some ⟨0, 173, 1700, [83, 101, 84, 121]⟩),
    (some ⟨2, [77, 144, 119], [11, 9, 8], 3, [107]⟩), [5, 8], [16, 2], [173]⟩,
   ⟨5, 4604, 2, (some 40), true, false, 178, 178, 1780,
    (some ⟨1, 177, 1740, [77, 144, 119]⟩),
    (some ⟨3, [86, 142, 87, 126], [13, 7, 7, 9], 4, [18, 23]⟩), [107], [161, 164], [177]⟩,
   ⟨5, 4604, 3, (some 30), true, false, 184, 184, 1840,
    (some ⟨2, 182, 1780, [86, 142, 87, 126]⟩),
    (some ⟨4, [90, 91, 92, 93, 127], [13, 9, 5, 7, 20], 5, [31, 34, 43]⟩), [18, 23], [47, 48], [182]⟩,
   ⟨5, 4604, 4, (some 38), true, false, 190, 190, 1900,
    (some ⟨3, 189, 1840, [90, 91, 92, 93, 127]⟩),
    none, [31, 34, 43], [], [189]⟩]),
  (train_ko3_8, [
   ⟨6, 8, 0, (some 14), true, false, 114, 114, 1140,
    none,
    (some ⟨1, [83, 101, 84, 121], [9, 19, 8, 8], 4, [5, 8]⟩), [], [61, 64, 69, 71, 87, 92], [114]⟩,
   ⟨6, 8, 1, (some 1), true, false, 120, 129, 1290,
    (some ⟨0, 118, 1140, [83, 101, 84, 121]⟩),
    (some ⟨2, [77, 144, 119], [15, 14, 8], 4, [107]⟩), [5, 8], [16, 2], [118]⟩,
   ⟨6, 8, 2, (some 40), true, false, 126, 136, 1360,
    (some ⟨1, 133, 1290, [77, 144, 119]⟩),
    (some ⟨3, [86, 142, 87, 126], [13, 13, 7, 9], 4, [18, 23]⟩), [107], [161, 164], [133]⟩,
   ⟨6, 8, 3, (some 30), true, false, 133, 142, 1420,
    (some ⟨2, 140, 1360, [86, 142, 87, 126]⟩),
    (some ⟨4, [90, 91, 92, 93, 127], [13, 9, 5, 7, 20], 5, [31, 33, 41]⟩), [18, 23], [47, 48], [140]⟩,
   ⟨6, 8, 4, (some 35), false, true, 138, 147, 1470,
    (some ⟨3, 147, 1420, [90, 91, 92, 93, 127]⟩),
    none, [31, 33, 41], [], [147]⟩]),
  (train_ko3_10, [
   ⟨7, 10, 0, (some 14), true, false, 152, 152, 1520,
    none,
    (some ⟨1, [83, 101, 84, 121], [9, 19, 8, 8], 4, [5, 8]⟩), [], [61, 64, 69, 71, 87, 92], [152]⟩,
   ⟨7, 10, 1, (some 1), true, false, 158, 158, 1580,
    (some ⟨0, 156, 1520, [83, 101, 84, 121]⟩),
    (some ⟨2, [77, 144, 119], [15, 14, 8], 4, [107]⟩), [5, 8], [16, 2], [156]⟩,
   ⟨7, 10, 2, (some 40), true, false, 163, 167, 1670,
    (some ⟨1, 162, 1580, [77, 144, 119]⟩),
    (some ⟨3, [86, 142, 87, 126], [13, 13, 7, 9], 4, [18, 23]⟩), [107], [161, 164], [162]⟩,
   ⟨7, 10, 3, (some 30), true, false, 169, 173, 1730,
    (some ⟨2, 171, 1670, [86, 142, 87, 126]⟩),
    (some ⟨4, [90, 91, 92, 93, 127], [13, 9, 5, 7, 20], 5, [31, 33, 41]⟩), [18, 23], [47, 48], [171]⟩,
   ⟨7, 10, 4, (some 35), false, true, 174, 178, 1780,
    (some ⟨3, 178, 1730, [90, 91, 92, 93, 127]⟩),
    none, [31, 33, 41], [], [178]⟩]),
  (train_ko3_4606, [
   ⟨8, 4606, 0, (some 10), true, false, 142, 146, 1460,
    none,
    (some ⟨1, [83, 101, 84, 121], [9, 12, 6, 7], 3, [5, 8]⟩), [], [66, 68, 71, 87, 92], [142]⟩,
   ⟨8, 4606, 1, (some 1), true, false, 147, 151, 1510,
    (some ⟨0, 149, 1460, [83, 101, 84, 121]⟩),
    (some ⟨2, [77, 144, 119], [11, 9, 8], 3, [107]⟩), [5, 8], [16, 2], [149]⟩,
   ⟨8, 4606, 2, (some 40), true, false, 151, 155, 1550,
    (some ⟨1, 154, 1510, [77, 144, 119]⟩),
    (some ⟨3, [86, 142, 87, 126], [13, 7, 7, 9], 4, [18, 23]⟩), [107], [161, 164], [154]⟩,
   ⟨8, 4606, 3, (some 30), true, false, 159, 161, 1610,
    (some ⟨2, 159, 1550, [86, 142, 87, 126]⟩),
    (some ⟨4, [90, 91, 92, 93, 127], [13, 9, 5, 7, 20], 5, [31, 34, 43]⟩), [18, 23], [47, 48], [159]⟩,
   ⟨8, 4606, 4, (some 38), true, false, 167, 167, 1670,
    (some ⟨3, 166, 1610, [90, 91, 92, 93, 127]⟩),
    none, [31, 34, 43], [], [166]⟩]),
  (train_ko3_12, [
   ⟨9, 12, 0, (some 14), true, false, 234, 234, 2340,
    none,
    (some ⟨1, [83, 101, 84, 121], [9, 19, 8, 8], 4, [5, 8]⟩), [], [61, 64, 69, 71, 87, 92], [234]⟩,
   ⟨9, 12, 1, (some 1), true, false, 240, 240, 2400,
    (some ⟨0, 238, 2340, [83, 101, 84, 121]⟩),
    (some ⟨2, [77, 144, 119], [15, 14, 8], 4, [107]⟩), [5, 8], [16, 2], [238]⟩,
   ⟨9, 12, 2, (some 40), true, false, 245, 245, 2450,
    (some ⟨1, 244, 2400, [77, 144, 119]⟩),
    (some ⟨3, [86, 142, 87, 126], [13, 13, 7, 9], 4, [18, 23]⟩), [107], [161, 164], [244]⟩,
   ⟨9, 12, 3, (some 30), true, false, 251, 251, 2510,
    (some ⟨2, 249, 2450, [86, 142, 87, 126]⟩),
    (some ⟨4, [90, 91, 92, 93, 127], [13, 9, 5, 7, 20], 5, [31, 33, 41]⟩), [18, 23], [47, 48], [249]⟩,
   ⟨9, 12, 4, (some 35), false, true, 256, 256, 2560,
    (some ⟨3, 256, 2510, [90, 91, 92, 93, 127]⟩),
    none, [31, 33, 41], [], [256]⟩]),
  (train_ko3_14, [
   ⟨10, 14, 0, (some 14), true, false, 236, 237, 2370,
    none,
    (some ⟨1, [83, 101, 84, 121], [9, 19, 8, 8], 4, [5, 8]⟩), [], [61, 64, 69, 71, 87, 92], [236]⟩,
   ⟨10, 14, 1, (some 1), true, false, 242, 243, 2430,
    (some ⟨0, 241, 2370, [83, 101, 84, 121]⟩),
    (some ⟨2, [77, 144, 119], [15, 14, 8], 4, [107]⟩), [5, 8], [16, 2], [241]⟩,
   ⟨10, 14, 2, (some 40), true, false, 247, 248, 2480,
    (some ⟨1, 247, 2430, [77, 144, 119]⟩),
    (some ⟨3, [86, 142, 87, 126], [13, 13, 7, 9], 4, [18, 23]⟩), [107], [161, 164], [247]⟩,
   ⟨10, 14, 3, (some 30), true, false, 253, 254, 2540,
    (some ⟨2, 252, 2480, [86, 142, 87, 126]⟩),
    (some ⟨4, [90, 91, 92, 93, 127], [13, 9, 5, 7, 20], 5, [31, 33, 41]⟩), [18, 23], [47, 48], [252]⟩,
   ⟨10, 14, 4, (some 35), false, true, 258, 259, 2590,
    (some ⟨3, 259, 2540, [90, 91, 92, 93, 127]⟩),
    none, [31, 33, 41], [], [259]⟩]),
  (train_ko3_1, [
   ⟨11, 1, 4, (some 36), true, false, -2, -2, -20,
    none,
    (some ⟨3, [127, 93, 92, 91, 90], [18, 7, 6, 8, 12], 5, [48, 47, 46]⟩), [], [31, 33], [-2]⟩,
   ⟨11, 1, 3, (some 31), true, false, 8, 8, 80,
    (some ⟨4, 3, -20, [127, 93, 92, 91, 90]⟩),
    (some ⟨2, [126, 87, 142, 86], [23, 5, 19, 16], 6, [160, 161, 164]⟩), [48, 47, 46], [18, 23, 24], [3]⟩,
   ⟨11, 1, 2, (some 41), true, false, 17, 17, 170,
    (some ⟨3, 14, 80, [126, 87, 142, 86]⟩),
    (some ⟨1, [85, 145, 125], [11, 17, 9], 4, [17, 19]⟩), [160, 161, 164], [106], [14]⟩,
   ⟨11, 1, 1, (some 2), true, false, 26, 26, 260,
    (some ⟨2, 21, 170, [85, 145, 125]⟩),
    (some ⟨0, [121, 84, 101, 83], [8, 13, 22, 10], 5, [82, 84, 86, 89, 90, 92]⟩), [17, 19], [5, 8], [21]⟩,
   ⟨11, 1, 0, (some 15), false, true, 31, 31, 310,
    (some ⟨1, 31, 260, [121, 84, 101, 83]⟩),
    none, [82, 84, 86, 89, 90, 92], [], [31]⟩]),
  (train_ko3_101, [
   ⟨12, 101, 1, (some 4), true, false, 77, 82, 820,
    none,
    (some ⟨0, [121, 84, 101, 83], [8, 13, 22, 10], 5, [82, 84, 86, 89, 90, 92]⟩), [], [5, 6, 7], [77]⟩,
   ⟨12, 101, 0, (some 39), false, true, 82, 87, 870,
    (some ⟨1, 87, 820, [121, 84, 101, 83]⟩),
    none, [82, 84, 86, 89, 90, 92], [], [87]⟩]),
  (train_ko3_6401, [
   ⟨13, 6401, 4, (some 36), true, false, 67, 67, 670,
    none,
    (some ⟨3, [127, 93, 92, 91, 90], [18, 7, 6, 8, 12], 5, [48, 47, 46]⟩), [], [31, 33], [67]⟩,
   ⟨13, 6401, 3, (some 31), true, false, 74, 74, 740,
    (some ⟨4, 72, 670, [127, 93, 92, 91, 90]⟩),
    (some ⟨2, [126, 87, 142, 86], [23, 5, 9, 16], 5, [160, 161, 164]⟩), [48, 47, 46], [18, 23, 24], [72]⟩,
   ⟨13, 6401, 2, (some 41), true, false, 80, 80, 800,
    (some ⟨3, 79, 740, [126, 87, 142, 86]⟩),
    (some ⟨1, [85, 145, 125], [11, 7, 9], 3, [17, 19]⟩), [160, 161, 164], [106], [79]⟩,
   ⟨13, 6401, 1, (some 2), true, false, 85, 86, 860,
    (some ⟨2, 83, 800, [85, 145, 125]⟩),
    (some ⟨0, [121, 84, 101, 83], [8, 11, 12, 10], 4, [81, 85, 88, 81, 92]⟩), [17, 19], [5, 8], [83]⟩,
   ⟨13, 6401, 0, (some 13), false, true, 89, 90, 900,
    (some ⟨1, 90, 860, [121, 84, 101, 83]⟩),
    none, [81, 85, 88, 81, 92], [], [90]⟩]),
  (train_ko3_3, [
   ⟨14, 3, 4, (some 36), true, false, 114, 114, 1140,
    none,
    (some ⟨3, [127, 93, 92, 91, 90], [18, 7, 6, 8, 12], 5, [48, 47, 46]⟩), [], [31, 33], [114]⟩,
   ⟨14, 3, 3, (some 31), true, false, 121, 121, 1210,
    (some ⟨4, 119, 1140, [127, 93, 92, 91, 90]⟩),
    (some ⟨2, [126, 87, 142, 86], [23, 5, 19, 16], 6, [160, 161, 164]⟩), [48, 47, 46], [18, 23, 24], [119]⟩,
   ⟨14, 3, 2, (some 41), true, false, 129, 129, 1290,
    (some ⟨3, 127, 1210, [126, 87, 142, 86]⟩),
    (some ⟨1, [85, 145, 125], [11, 17, 9], 4, [17, 19]⟩), [160, 161, 164], [106], [127]⟩,
   ⟨14, 3, 1, (some 2), true, false, 135, 135, 1350,
    (some ⟨2, 133, 1290, [85, 145, 125]⟩),
    (some ⟨0, [121, 84, 101, 83], [8, 13, 22, 10], 5, [82, 84, 86, 89, 90, 92]⟩), [17, 19], [5, 8], [133]⟩,
   ⟨14, 3, 0, (some 15), false, true, 140, 140, 1400,
    (some ⟨1, 140, 1350, [121, 84, 101, 83]⟩),
    none, [82, 84, 86, 89, 90, 92], [], [140]⟩]),
  (train_ko3_103, [
   ⟨15, 103, 1, (some 4), true, false, 270, 270, 2700,
    none,
    (some ⟨0, [121, 84, 101, 83], [8, 13, 22, 10], 5, [82, 84, 86, 89, 90, 92]⟩), [], [5, 6, 7], [270]⟩,
   ⟨15, 103, 0, (some 39), false, true, 275, 275, 2750,
    (some ⟨1, 275, 2700, [121, 84, 101, 83]⟩),
    none, [82, 84, 86, 89, 90, 92], [], [275]⟩]),
  (train_ko3_5, [
   ⟨16, 5, 4, (some 36), true, false, 119, 119, 1190,
    none,
    (some ⟨3, [127, 93, 92, 91, 90], [18, 7, 6, 8, 12], 5, [48, 47, 46]⟩), [], [31, 33], [119]⟩,
   ⟨16, 5, 3, (some 31), true, false, 126, 126, 1260,
    (some ⟨4, 124, 1190, [127, 93, 92, 91, 90]⟩),
    (some ⟨2, [126, 87, 142, 86], [23, 5, 19, 16], 6, [160, 161, 164]⟩), [48, 47, 46], [18, 23, 24], [124]⟩,
   ⟨16, 5, 2, (some 41), true, false, 134, 134, 1340,
    (some ⟨3, 132, 1260, [126, 87, 142, 86]⟩),
    (some ⟨1, [85, 145, 125], [11, 17, 9], 4, [17, 19]⟩), [160, 161, 164], [106], [132]⟩,
   ⟨16, 5, 1, (some 2), true, false, 140, 140, 1400,
    (some ⟨2, 138, 1340, [85, 145, 125]⟩),
    (some ⟨0, [121, 84, 101, 83], [8, 13, 22, 10], 5, [82, 84, 86, 89, 90, 92]⟩), [17, 19], [5, 8], [138]⟩,
   ⟨16, 5, 0, (some 15), false, true, 145, 145, 1450,
    (some ⟨1, 145, 1400, [121, 84, 101, 83]⟩),
    none, [82, 84, 86, 89, 90, 92], [], [145]⟩]),
  (train_ko3_6403, [
   ⟨17, 6403, 4, (some 36), true, false, 194, 194, 1940,
    none,
    (some ⟨3, [127, 93, 92, 91, 90], [18, 7, 6, 8, 12], 5, [48, 47, 46]⟩), [], [31, 33], [194]⟩,
   ⟨17, 6403, 3, (some 31), true, false, 201, 201, 2010,
    (some ⟨4, 199, 1940, [127, 93, 92, 91, 90]⟩),
    (some ⟨2, [126, 87, 142, 86], [23, 5, 9, 16], 5, [160, 161, 164]⟩), [48, 47, 46], [18, 23, 24], [199]⟩,
   ⟨17, 6403, 2, (some 41), true, false, 207, 207, 2070,
    (some ⟨3, 206, 2010, [126, 87, 142, 86]⟩),
    (some ⟨1, [85, 145, 125], [11, 7, 9], 3, [17, 19]⟩), [160, 161, 164], [106], [206]⟩,
   ⟨17, 6403, 1, (some 2), true, false, 212, 212, 2120,
    (some ⟨2, 210, 2070, [85, 145, 125]⟩),
    (some ⟨0, [121, 84, 101, 83], [8, 11, 12, 10], 4, [81, 85, 88, 81, 92]⟩), [17, 19], [5, 8], [210]⟩,
   ⟨17, 6403, 0, (some 13), false, true, 216, 216, 2160,
    (some ⟨1, 216, 2120, [121, 84, 101, 83]⟩),
    none, [81, 85, 88, 81, 92], [], [216]⟩]),
  (train_ko3_7, [
   ⟨18, 7, 4, (some 36), true, false, 127, 127, 1270,
    none,
    (some ⟨3, [127, 93, 92, 91, 90], [18, 7, 6, 8, 12], 5, [48, 47, 46]⟩), [], [31, 33], [127]⟩,
   ⟨18, 7, 3, (some 31), true, false, 134, 141, 1410,
    (some ⟨4, 132, 1270, [127, 93, 92, 91, 90]⟩),
    (some ⟨2, [126, 87, 142, 86], [23, 5, 19, 16], 6, [160, 161, 164]⟩), [48, 47, 46], [18, 23, 24], [132]⟩,
   ⟨18, 7, 2, (some 41), true, false, 143, 149, 1490,
    (some ⟨3, 147, 1410, [126, 87, 142, 86]⟩),
    (some ⟨1, [85, 145, 125], [11, 17, 9], 4, [17, 19]⟩), [160, 161, 164], [106], [147]⟩,
   ⟨18, 7, 1, (some 2), true, false, 151, 157, 1570,
    (some ⟨2, 153, 1490, [85, 145, 125]⟩),
    (some ⟨0, [121, 84, 101, 83], [8, 13, 22, 10], 5, [82, 84, 86, 89, 90, 92]⟩), [17, 19], [5, 8], [153]⟩,
   ⟨18, 7, 0, (some 15), false, true, 156, 162, 1620,
    (some ⟨1, 162, 1570, [121, 84, 101, 83]⟩),
    none, [82, 84, 86, 89, 90, 92], [], [162]⟩]),
  (train_ko3_9, [
   ⟨19, 9, 4, (some 36), true, false, 146, 148, 1480,
    none,
    (some ⟨3, [127, 93, 92, 91, 90], [18, 7, 6, 8, 12], 5, [48, 47, 46]⟩), [], [31, 33], [146]⟩,
   ⟨19, 9, 3, (some 31), true, false, 159, 160, 1600,
    (some ⟨4, 153, 1480, [127, 93, 92, 91, 90]⟩),
    (some ⟨2, [126, 87, 142, 86], [23, 5, 19, 16], 6, [160, 161, 164]⟩), [48, 47, 46], [18, 23, 24], [153]⟩,
   ⟨19, 9, 2, (some 41), true, false, 167, 168, 1680,
    (some ⟨3, 166, 1600, [126, 87, 142, 86]⟩),
    (some ⟨1, [85, 145, 125], [11, 17, 9], 4, [17, 19]⟩), [160, 161, 164], [106], [166]⟩,
   ⟨19, 9, 1, (some 2), true, false, 174, 174, 1740,
    (some ⟨2, 172, 1680, [85, 145, 125]⟩),
    (some ⟨0, [121, 84, 101, 83], [8, 13, 22, 10], 5, [82, 84, 86, 89, 90, 92]⟩), [17, 19], [5, 8], [172]⟩,
   ⟨19, 9, 0, (some 15), false, true, 179, 179, 1790,
    (some ⟨1, 179, 1740, [121, 84, 101, 83]⟩),
    none, [82, 84, 86, 89, 90, 92], [], [179]⟩]),
  (train_ko3_11, [
   ⟨20, 11, 4, (some 36), true, false, 167, 167, 1670,
    none,
    (some ⟨3, [127, 93, 92, 91, 90], [18, 7, 6, 8, 12], 5, [48, 47, 46]⟩), [], [31, 33], [167]⟩,
   ⟨20, 11, 3, (some 31), true, false, 175, 183, 1830,
    (some ⟨4, 172, 1670, [127, 93, 92, 91, 90]⟩),
    (some ⟨2, [126, 87, 142, 86], [23, 5, 19, 16], 6, [160, 161, 164]⟩), [48, 47, 46], [18, 23, 24], [172]⟩,
   ⟨20, 11, 2, (some 41), true, false, 187, 191, 1910,
    (some ⟨3, 189, 1830, [126, 87, 142, 86]⟩),
    (some ⟨1, [85, 145, 125], [11, 17, 9], 4, [17, 19]⟩), [160, 161, 164], [106], [189]⟩,
   ⟨20, 11, 1, (some 2), true, false, 194, 197, 1970,
    (some ⟨2, 195, 1910, [85, 145, 125]⟩),
    (some ⟨0, [121, 84, 101, 83], [8, 13, 22, 10], 5, [82, 84, 86, 89, 90, 92]⟩), [17, 19], [5, 8], [195]⟩,
   ⟨20, 11, 0, (some 15), false, true, 199, 202, 2020,
    (some ⟨1, 202, 1970, [121, 84, 101, 83]⟩),
    none, [82, 84, 86, 89, 90, 92], [], [202]⟩])]

theorem ko3n9Plan_sections : ko3n9Plan.map Prod.fst = ko3 := rfl

theorem ko3n9Plan_ok : netKoR.PlanOK "14:00" ko3n9Delays 40 netKoRSpecial ko3n9Plan :=
  ko3Plan_ok.again rfl (by decide +kernel) (by decide +kernel) (by decide +kernel) (by decide +kernel)

theorem ko3n9_cost : netKoR.costOK ko3n9Plan 208 = true := by decide +kernel

/-- the departures: train and station -/
def ko3n9Nodes : List (Nat × Nat) := [
  (6, 0), (10, 0), (9, 0), (10, 1), (10, 2), (10, 3), (6, 1), (2, 0), (16, 4), (18, 4), (16, 3),
  (14, 4), (18, 3), (18, 2), (14, 3), (6, 2), (2, 1), (6, 3), (2, 2), (2, 3), (14, 2), (14, 1),
  (16, 2), (16, 1), (17, 4), (1, 3), (1, 4), (18, 1), (5, 0), (7, 0), (7, 1), (7, 2), (7, 3),
  (5, 1), (5, 2), (5, 3), (20, 3), (5, 4), (20, 2), (20, 1), (4, 0), (12, 1), (19, 1), (3, 0),
  (3, 1), (1, 0), (1, 1), (1, 2), (13, 1), (4, 1), (4, 2), (4, 3), (0, 0), (0, 1), (0, 2), (0, 3),
  (19, 3), (20, 4), (19, 2), (17, 3), (8, 2), (8, 3), (8, 4), (8, 0), (8, 1), (17, 2), (17, 1),
  (9, 1), (9, 2), (19, 4)]

/-- the choices -/
def ko3n9Choices : List CodedNet.Choice := [
  .first 0 4 0, .first 1 5 0, .first 2 6 0, .first 9 10 0, .first 0 4 1, .first 1 5 1,
  .first 2 6 1, .first 9 10 1, .first 14 16 4, .first 16 18 4, .against 2 16 3 4, .first 14 16 3,
  .first 16 18 3, .first 14 18 2, .against 14 6 3 2, .first 2 6 2, .first 2 6 3, .against 14 2 3 2,
  .against 1 17 3 4, .first 1 5 3, .against 16 6 3 2, .first 7 5 0, .first 7 5 1, .first 7 5 2,
  .first 7 5 3, .against 7 20 2 3, .against 5 17 3 4, .against 20 5 3 2, .against 0 13 0 1,
  .against 12 4 1 0, .first 16 18 1, .against 1 19 0 1, .against 3 19 0 1, .against 7 16 0 1,
  .first 0 4 2, .first 0 4 3, .against 4 13 0 1, .against 7 18 0 1, .against 7 19 2 3,
  .against 7 20 3 4, .against 18 6 3 2, .first 12 13 1, .against 12 0 1 0, .against 2 18 3 4,
  .first 14 18 1, .first 14 16 1, .against 1 17 2 3, .first 7 8 2, .first 7 8 3, .against 7 14 0 1,
  .against 8 19 2 3, .against 14 8 1 0, .against 8 16 0 1, .first 3 1 0, .first 1 5 2,
  .against 20 5 4 3, .against 1 18 0 1, .against 3 18 0 1, .against 2 16 2 3, .against 2 18 2 3,
  .against 0 16 3 4, .against 0 14 3 4, .first 9 10 2, .first 9 10 3, .first 18 19 1,
  .against 5 18 0 1, .first 7 8 0, .first 7 8 1, .against 8 18 2 3, .against 18 6 4 3,
  .first 16 18 2, .against 6 19 3 4, .against 20 1 3 2]

/-- the inequalities -/
def ko3n9Arcs : ArcTree :=
  .node ⟨.track, 6, 1, 0, 0, 110, false⟩ (.node ⟨.track, 8, 2, 0, 0, 234, false⟩ (.node
  ⟨.run, 0, 2, 4, 6, 0, false⟩ (.node ⟨.track, 5, 8, 0, 0, 114, false⟩ (.node
  ⟨.track, 28, 14, 15, 0, 6, false⟩ (.node ⟨.run, 0, 16, 18, 6, 0, false⟩ (.node
  ⟨.come, 67, 30, 24, 5, 0, false⟩ (.node ⟨.come, 99, 30, 22, 5, 0, false⟩ .none .none) (.node
  ⟨.track, 1, 53, 0, 0, 77, false⟩ .none .none)) (.node ⟨.come, 77, 32, 57, 5, 0, false⟩ (.node
  ⟨.follow, 125, 69, 5, 3, 0, false⟩ .none .none) .none)) (.node ⟨.follow, 45, 31, 34, 3, 0, false⟩
  (.node ⟨.run, 0, 54, 55, 5, 0, false⟩ (.node ⟨.come, 35, 15, 19, 7, 0, false⟩ .none .none) .none)
  (.node ⟨.come, 94, 60, 48, 6, 0, false⟩ (.node ⟨.follow, 141, 23, 14, 3, 0, false⟩ .none .none)
  .none))) (.node ⟨.come, 22, 9, 20, 6, 0, false⟩ (.node ⟨.follow, 44, 29, 30, 2, 0, false⟩ (.node
  ⟨.come, 59, 42, 41, 6, 0, false⟩ (.node ⟨.run, 0, 66, 67, 5, 0, false⟩ .none .none) .none) (.node
  ⟨.come, 88, 10, 20, 6, 0, false⟩ (.node ⟨.come, 137, 61, 13, 5, 0, false⟩ .none .none) .none))
  (.node ⟨.come, 56, 35, 37, 5, 0, false⟩ (.node ⟨.come, 76, 28, 30, 6, 0, false⟩ (.node
  ⟨.run, 0, 9, 11, 7, 0, false⟩ .none .none) .none) (.node ⟨.come, 105, 64, 24, 4, 0, false⟩ (.node
  ⟨.come, 143, 18, 70, 6, 0, false⟩ .none .none) .none)))) (.node ⟨.track, 24, 11, 12, 0, 5, false⟩
  (.node ⟨.run, 0, 7, 16, 5, 0, false⟩ (.node ⟨.come, 42, 16, 11, 5, 0, false⟩ (.node
  ⟨.run, 0, 46, 47, 5, 0, false⟩ (.node ⟨.follow, 39, 26, 36, 3, 0, false⟩ .none .none) .none)
  (.node ⟨.come, 82, 16, 13, 5, 0, false⟩ (.node ⟨.come, 116, 28, 44, 6, 0, false⟩ .none .none)
  .none)) (.node ⟨.run, 0, 35, 36, 6, 0, false⟩ (.node ⟨.track, 69, 55, 50, 0, 4, false⟩ (.node
  ⟨.come, 119, 19, 13, 5, 0, false⟩ .none .none) .none) (.node ⟨.follow, 98, 62, 33, 3, 0, false⟩
  (.node ⟨.come, 114, 28, 46, 6, 0, false⟩ .none .none) .none))) (.node
  ⟨.follow, 23, 15, 11, 4, 0, false⟩ (.node ⟨.track, 46, 34, 30, 0, 4, false⟩ (.node
  ⟨.run, 0, 51, 52, 6, 0, false⟩ (.node ⟨.track, 39, 26, 35, 0, 4, false⟩ .none .none) .none)
  (.node ⟨.follow, 89, 22, 28, 4, 0, false⟩ (.node ⟨.follow, 134, 64, 30, 2, 0, false⟩ .none .none)
  .none)) (.node ⟨.follow, 62, 28, 24, 4, 0, false⟩ (.node ⟨.come, 78, 57, 32, 7, 0, false⟩ (.node
  ⟨.follow, 49, 33, 36, 3, 0, false⟩ .none .none) .none) (.node ⟨.run, 0, 65, 61, 4, 0, false⟩
  (.node ⟨.track, 4, 29, 0, 0, 180, false⟩ .none .none) .none))))) (.node
  ⟨.run, 0, 5, 6, 6, 0, false⟩ (.node ⟨.track, 18, 9, 0, 0, 114, false⟩ (.node
  ⟨.track, 32, 16, 17, 0, 4, false⟩ (.node ⟨.come, 38, 25, 26, 6, 0, false⟩ (.node
  ⟨.come, 65, 44, 43, 6, 0, false⟩ (.node ⟨.follow, 96, 61, 32, 2, 0, false⟩ .none .none) .none)
  (.node ⟨.run, 0, 59, 43, 6, 0, false⟩ (.node ⟨.come, 117, 19, 11, 5, 0, false⟩ .none .none)
  .none)) (.node ⟨.track, 50, 36, 32, 0, 4, false⟩ (.node ⟨.track, 71, 56, 51, 0, 4, false⟩ (.node
  ⟨.come, 118, 11, 19, 7, 0, false⟩ .none .none) .none) (.node ⟨.run, 0, 61, 62, 6, 0, false⟩
  (.node ⟨.come, 144, 70, 18, 6, 0, false⟩ .none .none) .none))) (.node
  ⟨.come, 36, 19, 15, 5, 0, false⟩ (.node ⟨.run, 0, 31, 32, 5, 0, false⟩ (.node
  ⟨.run, 0, 41, 50, 6, 0, false⟩ (.node ⟨.come, 111, 58, 36, 6, 0, false⟩ .none .none) .none)
  (.node ⟨.follow, 27, 21, 14, 3, 0, false⟩ (.node ⟨.follow, 136, 65, 31, 2, 0, false⟩ .none .none)
  .none)) (.node ⟨.run, 0, 39, 40, 6, 0, false⟩ (.node ⟨.come, 53, 36, 25, 6, 0, false⟩ (.node
  ⟨.come, 123, 56, 12, 6, 0, false⟩ .none .none) .none) (.node ⟨.come, 103, 22, 64, 6, 0, false⟩
  (.node ⟨.come, 21, 20, 9, 6, 0, false⟩ .none .none) .none)))) (.node
  ⟨.track, 26, 13, 9, 0, 5, false⟩ (.node ⟨.follow, 31, 19, 16, 3, 0, false⟩ (.node
  ⟨.run, 0, 13, 14, 8, 0, false⟩ (.node ⟨.run, 0, 48, 26, 6, 0, false⟩ (.node
  ⟨.run, 0, 25, 60, 7, 0, false⟩ .none .none) .none) (.node ⟨.come, 81, 13, 16, 7, 0, false⟩ (.node
  ⟨.come, 140, 18, 10, 6, 0, false⟩ .none .none) .none)) (.node ⟨.come, 54, 25, 36, 6, 0, false⟩
  (.node ⟨.come, 57, 53, 49, 5, 0, false⟩ (.node ⟨.come, 124, 12, 56, 6, 0, false⟩ .none .none)
  .none) (.node ⟨.come, 106, 24, 64, 6, 0, false⟩ (.node ⟨.come, 146, 48, 37, 5, 0, false⟩ .none
  .none) .none))) (.node ⟨.run, 0, 21, 22, 6, 0, false⟩ (.node ⟨.run, 0, 29, 34, 4, 0, false⟩
  (.node ⟨.come, 58, 49, 53, 5, 0, false⟩ (.node ⟨.track, 109, 48, 34, 0, 3, false⟩ .none .none)
  .none) (.node ⟨.come, 87, 20, 10, 6, 0, false⟩ (.node ⟨.track, 142, 14, 11, 0, 6, false⟩ .none
  .none) .none)) (.node ⟨.run, 0, 44, 45, 7, 0, false⟩ (.node ⟨.come, 79, 33, 58, 6, 0, false⟩
  (.node ⟨.follow, 15, 68, 4, 3, 0, false⟩ .none .none) .none) (.node
  ⟨.follow, 108, 46, 44, 2, 0, false⟩ (.node ⟨.track, 2, 41, 0, 0, 90, false⟩ .none .none)
  .none)))))) (.node ⟨.follow, 7, 3, 2, 3, 0, false⟩ (.node ⟨.run, 0, 4, 5, 5, 0, false⟩ (.node
  ⟨.track, 16, 4, 3, 0, 4, false⟩ (.node ⟨.track, 23, 15, 9, 0, 5, false⟩ (.node
  ⟨.run, 0, 23, 24, 6, 0, false⟩ (.node ⟨.follow, 61, 24, 28, 4, 0, false⟩ (.node
  ⟨.track, 97, 33, 61, 0, 4, false⟩ .none .none) .none) (.node ⟨.run, 0, 57, 59, 8, 0, false⟩
  (.node ⟨.come, 85, 42, 53, 6, 0, false⟩ .none .none) .none)) (.node
  ⟨.run, 0, 34, 35, 4, 0, false⟩ (.node ⟨.run, 0, 55, 56, 6, 0, false⟩ (.node
  ⟨.run, 0, 19, 20, 6, 0, false⟩ .none .none) .none) (.node ⟨.come, 102, 57, 61, 7, 0, false⟩
  (.node ⟨.come, 131, 29, 28, 4, 0, false⟩ .none .none) .none))) (.node
  ⟨.track, 33, 20, 16, 0, 4, false⟩ (.node ⟨.run, 0, 30, 31, 6, 0, false⟩ (.node
  ⟨.come, 74, 49, 41, 5, 0, false⟩ (.node ⟨.come, 112, 36, 58, 6, 0, false⟩ .none .none) .none)
  (.node ⟨.track, 90, 28, 21, 0, 4, false⟩ (.node ⟨.track, 95, 32, 65, 0, 3, false⟩ .none .none)
  .none)) (.node ⟨.run, 0, 37, 39, 8, 0, false⟩ (.node ⟨.come, 51, 32, 37, 5, 0, false⟩ (.node
  ⟨.follow, 72, 52, 56, 3, 0, false⟩ .none .none) .none) (.node ⟨.follow, 91, 22, 24, 4, 0, false⟩
  (.node ⟨.run, 0, 70, 57, 7, 0, false⟩ .none .none) .none)))) (.node
  ⟨.track, 17, 12, 0, 0, 119, false⟩ (.node ⟨.track, 34, 18, 19, 0, 4, false⟩ (.node
  ⟨.follow, 25, 11, 13, 4, 0, false⟩ (.node ⟨.run, 0, 47, 48, 4, 0, false⟩ (.node
  ⟨.come, 37, 26, 25, 6, 0, false⟩ .none .none) .none) (.node ⟨.follow, 84, 49, 42, 2, 0, false⟩
  (.node ⟨.track, 25, 11, 10, 0, 5, false⟩ .none .none) .none)) (.node
  ⟨.come, 52, 37, 32, 7, 0, false⟩ (.node ⟨.follow, 10, 50, 54, 3, 0, false⟩ (.node
  ⟨.come, 122, 9, 56, 6, 0, false⟩ .none .none) .none) (.node ⟨.come, 104, 64, 22, 4, 0, false⟩
  (.node ⟨.come, 113, 46, 28, 4, 0, false⟩ .none .none) .none))) (.node
  ⟨.come, 29, 15, 16, 7, 0, false⟩ (.node ⟨.follow, 43, 30, 29, 3, 0, false⟩ (.node
  ⟨.come, 73, 41, 49, 5, 0, false⟩ (.node ⟨.follow, 110, 35, 48, 2, 0, false⟩ .none .none) .none)
  (.node ⟨.follow, 83, 42, 49, 4, 0, false⟩ (.node ⟨.follow, 133, 30, 64, 3, 0, false⟩ .none .none)
  .none)) (.node ⟨.come, 66, 43, 44, 6, 0, false⟩ (.node ⟨.come, 80, 58, 33, 6, 0, false⟩ (.node
  ⟨.track, 126, 5, 68, 0, 4, false⟩ .none .none) .none) (.node ⟨.come, 101, 61, 57, 5, 0, false⟩
  (.node ⟨.track, 9, 54, 41, 0, 4, false⟩ .none .none) .none))))) (.node
  ⟨.track, 14, 7, 8, 0, 4, false⟩ (.node ⟨.track, 20, 10, 0, 0, 119, false⟩ (.node
  ⟨.follow, 13, 17, 7, 3, 0, false⟩ (.node ⟨.run, 0, 26, 27, 6, 0, false⟩ (.node
  ⟨.come, 64, 43, 46, 6, 0, false⟩ (.node ⟨.follow, 95, 32, 61, 3, 0, false⟩ .none .none) .none)
  (.node ⟨.come, 41, 11, 16, 7, 0, false⟩ (.node ⟨.follow, 130, 43, 28, 4, 0, false⟩ .none .none)
  .none)) (.node ⟨.follow, 47, 32, 35, 3, 0, false⟩ (.node ⟨.follow, 70, 51, 55, 3, 0, false⟩
  (.node ⟨.come, 120, 13, 19, 7, 0, false⟩ .none .none) .none) (.node
  ⟨.run, 0, 62, 63, 6, 0, false⟩ (.node ⟨.come, 115, 44, 28, 6, 0, false⟩ .none .none) .none)))
  (.node ⟨.run, 0, 15, 21, 8, 0, false⟩ (.node ⟨.run, 0, 32, 33, 6, 0, false⟩ (.node
  ⟨.run, 0, 50, 51, 5, 0, false⟩ (.node ⟨.follow, 40, 36, 26, 3, 0, false⟩ .none .none) .none)
  (.node ⟨.follow, 92, 24, 22, 4, 0, false⟩ (.node ⟨.track, 135, 31, 64, 0, 3, false⟩ .none .none)
  .none)) (.node ⟨.come, 60, 41, 42, 5, 0, false⟩ (.node ⟨.come, 75, 30, 28, 5, 0, false⟩ (.node
  ⟨.run, 0, 12, 15, 7, 0, false⟩ .none .none) .none) (.node ⟨.run, 0, 64, 65, 5, 0, false⟩ (.node
  ⟨.track, 11, 47, 29, 0, 3, false⟩ .none .none) .none)))) (.node ⟨.track, 19, 9, 0, 0, 127, false⟩
  (.node ⟨.come, 30, 16, 15, 5, 0, false⟩ (.node ⟨.run, 0, 14, 28, 6, 0, false⟩ (.node
  ⟨.come, 63, 46, 43, 4, 0, false⟩ (.node ⟨.run, 0, 60, 66, 6, 0, false⟩ .none .none) .none) (.node
  ⟨.come, 86, 53, 42, 5, 0, false⟩ (.node ⟨.come, 139, 10, 18, 6, 0, false⟩ .none .none) .none))
  (.node ⟨.run, 0, 36, 38, 6, 0, false⟩ (.node ⟨.come, 55, 37, 35, 7, 0, false⟩ (.node
  ⟨.come, 121, 56, 9, 6, 0, false⟩ .none .none) .none) (.node ⟨.come, 100, 22, 30, 6, 0, false⟩
  (.node ⟨.come, 145, 37, 48, 7, 0, false⟩ .none .none) .none))) (.node
  ⟨.run, 0, 11, 23, 8, 0, false⟩ (.node ⟨.track, 48, 35, 31, 0, 4, false⟩ (.node
  ⟨.run, 0, 53, 54, 6, 0, false⟩ (.node ⟨.follow, 12, 34, 47, 2, 0, false⟩ .none .none) .none)
  (.node ⟨.run, 0, 10, 13, 7, 0, false⟩ (.node ⟨.track, 62, 28, 23, 0, 4, false⟩ .none .none)
  .none)) (.node ⟨.come, 68, 24, 30, 6, 0, false⟩ (.node ⟨.run, 0, 58, 37, 7, 0, false⟩ (.node
  ⟨.track, 128, 6, 69, 0, 4, false⟩ .none .none) .none) (.node ⟨.follow, 107, 44, 46, 3, 0, false⟩
  (.node ⟨.track, 3, 46, 0, 0, 170, false⟩ .none .none) .none))))))

/-- the bounds of the departures -/
def ko3n9Times : TimeTree :=
  .node 2 0 2 (.node 116 0 156 (.node 236 0 276 (.node 122 0 162 (.node 123 0 163 (.node 160 0 200
  (.node 169 6 209 .none .none) .none) (.node 187 0 227 .none .none)) (.node 136 0 176 (.node 189 0
  229 .none .none) (.node 103 0 143 .none .none))) (.node 128 0 168 (.node 123 0 163 (.node 180 0
  220 (.node 214 6 254 .none .none) .none) (.node 93 0 133 .none .none)) (.node 203 6 243 (.node
  176 4 216 .none .none) (.node 169 0 209 .none .none)))) (.node 249 0 289 (.node 121 0 161 (.node
  118 0 158 (.node 171 4 211 (.node 149 0 189 .none .none) .none) (.node 87 6 127 .none .none))
  (.node 196 0 236 (.node 79 0 119 .none .none) (.node 161 0 201 .none .none))) (.node 136 0 176
  (.node 131 0 171 (.node 177 0 217 (.node 247 0 287 .none .none) .none) (.node 92 0 132 .none
  .none)) (.node 172 0 212 (.node 187 4 227 .none .none) (.node 153 0 193 .none .none))))) (.node
  238 0 278 (.node 244 0 284 (.node 112 0 152 (.node 128 0 168 (.node 165 0 205 (.node 144 0 184
  .none .none) .none) (.node 191 0 231 .none .none)) (.node 142 4 182 (.node 196 4 236 .none .none)
  (.node 109 4 149 .none .none))) (.node 116 0 156 (.node 129 4 169 (.node 186 0 226 (.node 242 0
  282 .none .none) .none) (.node 102 4 142 .none .none)) (.node 153 4 193 (.node 180 0 220 .none
  .none) (.node 203 0 243 .none .none)))) (.node 255 4 295 (.node 129 0 169 (.node 135 4 175 (.node
  176 0 216 (.node 209 0 249 .none .none) .none) (.node 85 0 125 .none .none)) (.node 197 0 237
  (.node 79 4 119 .none .none) (.node 169 0 209 .none .none))) (.node 145 0 185 (.node 137 4 177
  (.node 192 6 232 (.node 148 0 188 .none .none) .none) (.node 98 0 138 .none .none)) (.node 154 0
  194 (.node 182 0 222 .none .none) (.node 161 0 201 .none .none)))))

/-- some of the cases -/
def ko3n9Case0 : SumTree :=
  .cases [161, 30, 32] 20 (.cases [98, 31] 28 (.leaf [85]) (.cases [] 72 (.cases [] 29 (.cases [71]
  37 (.cases [90] 34 (.cycle 55 [83, 84, 79]) (.cases [] 35 (.cycle 56 [81, 82, 80]) (.cases [] 31
  (.leaf [70]) (.cases [] 32 (.leaf [65, 66, 67, 68, 69, 34]) (.cases [60, 61] 36 (.leaf
  [76, 77, 78, 79, 80]) (.leaf [72, 73, 74, 75])))))) (.cases [87, 40, 41, 42] 34 (.cycle 55
  [83, 84, 79]) (.cases [] 35 (.cycle 56 [81, 82, 80]) (.cases [] 31 (.leaf [70]) (.cases [] 32
  (.leaf [65, 66, 67, 68, 69, 34]) (.cases [60, 61] 36 (.leaf [76, 77, 78, 79, 80]) (.leaf
  [72, 73, 74, 75]))))))) (.cases [58] 31 (.leaf [70]) (.cases [] 32 (.leaf
  [65, 66, 67, 68, 69, 34]) (.cases [60, 61] 33 (.leaf [63]) (.cases [62] 37 (.leaf [90]) (.cases
  [87, 40, 41, 42] 27 (.leaf [86, 51, 54]) (.leaf [55, 182, 69, 132, 133, 134, 135]))))))) (.leaf
  [181, 56, 57]))) (.cases [35, 30, 36, 164, 32, 37, 38] 54 (.cycle 48 [141, 142, 68]) (.cases []
  19 (.cycle 26 [139, 140, 69]) (.cases [] 42 (.cases [] 27 (.cases [86, 51, 54] 28 (.leaf [85])
  (.cases [] 61 (.cases [] 39 (.leaf [93, 94, 86, 51, 54, 138, 132, 133, 134, 135]) (.cases [92] 41
  (.cases [] 30 (.cases [] 34 (.cycle 55 [83, 84, 79]) (.cases [] 35 (.cycle 56 [81, 82, 80])
  (.cases [] 31 (.leaf [70]) (.cases [] 32 (.leaf [65, 66, 67, 68, 69, 34]) (.cases [60, 61] 29
  (.cases [71] 36 (.leaf [76, 77, 78, 79, 80, 153, 154, 143, 144, 21, 35, 30, 32]) (.leaf
  [72, 73, 74, 75, 152, 153, 154, 143, 144, 21, 35, 30, 32])) (.leaf [58])))))) (.leaf [59]))
  (.leaf [100, 160, 78, 79, 80, 153, 154, 143, 144, 21, 35, 30, 32]))) (.leaf [149]))) (.cases
  [55, 56, 57] 28 (.leaf [85]) (.cases [] 29 (.cases [71] 39 (.cases [] 33 (.cases [63] 30 (.leaf
  [64]) (.cases [] 70 (.cycle 14 [38, 174, 175]) (.cycle 11 [36, 37, 173]))) (.cases
  [62, 40, 41, 42, 93, 94, 56, 57] 30 (.cases [] 34 (.cycle 55 [83, 84, 79]) (.cases [] 35 (.cycle
  56 [81, 82, 80]) (.cases [] 36 (.leaf [76, 77, 78, 79, 80]) (.leaf [72, 73, 74, 75])))) (.leaf
  [59, 62, 40, 41, 42]))) (.cases [92] 31 (.leaf [70]) (.cases [] 32 (.leaf
  [65, 66, 67, 68, 69, 34]) (.cases [60, 61] 72 (.cases [182, 69, 34, 132, 133, 134, 135] 43 (.leaf
  [109, 110, 37, 38]) (.cases [103] 53 (.leaf [126, 67, 68, 69, 132, 133, 134, 135]) (.leaf
  [125, 61]))) (.leaf [181, 56, 57]))))) (.cases [58] 31 (.leaf [70]) (.cases [] 32 (.leaf
  [65, 66, 67, 68, 69, 34]) (.cases [60, 61] 33 (.leaf [63]) (.cases [62] 37 (.leaf [90]) (.leaf
  [87, 40, 41, 42])))))))) (.leaf [102]))))

/-- some of the cases -/
def ko3n9Case1 : SumTree :=
  .cases [145, 144, 21, 31] 54 (.cycle 48 [141, 142, 68]) (.cases [] 19 (.cycle 26 [139, 140, 69])
  (.cases [] 59 (.cases [147, 37, 38] 25 (.cases [] 40 (.cases [101, 31] 34 (.cycle 55
  [83, 84, 79]) (.cases [] 35 (.cycle 56 [81, 82, 80]) (.cases [] 28 (.leaf [85]) (.cases [] 31
  (.leaf [70]) (.cases [] 32 (.leaf [65, 66, 67, 68, 69, 34]) (.cases [60, 61] 72 (.cases [] 38
  (.leaf [95, 96, 97, 66, 67, 68, 69, 34]) (.cases [91, 42] 61 (.cases [] 71 (.leaf
  [183, 184, 96, 91, 97, 42, 66, 60, 67, 61, 68, 69, 34]) (.cases [177] 39 (.leaf
  [93, 94, 182, 69, 132, 133, 134, 135]) (.cases [92] 53 (.leaf
  [126, 67, 68, 69, 132, 133, 134, 135]) (.cases [] 29 (.cases [71] 36 (.leaf
  [76, 77, 78, 79, 80, 153, 154, 27, 145, 144]) (.leaf
  [72, 73, 74, 75, 152, 153, 154, 27, 145, 144])) (.leaf [58]))))) (.leaf [149]))) (.leaf
  [181, 56, 57]))))))) (.cases [99, 37, 38] 60 (.cases [] 27 (.cases [86, 51, 54] 31 (.leaf [70])
  (.cases [] 32 (.leaf [65, 66, 67, 68, 69, 34]) (.cases [60] 37 (.cases [90] 38 (.leaf
  [95, 96, 97, 60, 61]) (.cases [91, 42] 39 (.leaf [93, 94, 86, 51, 54]) (.cases [92] 53 (.leaf
  [126, 67, 68, 69, 132, 133, 134, 135]) (.leaf [125, 61])))) (.leaf
  [87, 40, 41, 42, 88, 86, 51, 54])))) (.cases [55, 56, 57] 28 (.leaf [85]) (.cases [] 61 (.cases
  [] 29 (.cases [71] 34 (.cycle 55 [83, 84, 79]) (.cases [] 35 (.cycle 56 [81, 82, 80]) (.cases []
  36 (.leaf [76, 77, 78, 79, 80, 153, 154, 26, 27, 29, 145, 144, 21, 31, 99, 37, 38]) (.leaf [72,
  73, 74, 75, 152, 153, 154, 27, 145, 144, 21, 31, 99, 37, 38])))) (.cases [58] 31 (.leaf [70])
  (.cases [] 32 (.leaf [65, 66, 67, 68, 69, 34]) (.cases [60, 61] 37 (.cases [90] 72 (.cases
  [182, 69, 132, 133, 134, 135] 38 (.leaf [95, 96, 97, 60, 61]) (.leaf [91, 42])) (.leaf
  [181, 56, 57])) (.leaf [87, 40, 41, 42]))))) (.leaf [149, 150, 151, 30, 145, 32, 144])))) (.leaf
  [148]))) (.leaf [52, 42])) (.cases [146, 144, 21, 31] 53 (.cases
  [126, 67, 68, 69, 132, 133, 134, 135] 16 (.cases [] 32 (.leaf [65]) (.leaf
  [60, 126, 67, 68, 69, 132, 133, 134, 135])) (.cycle 19 [21, 31, 20])) (.leaf [125, 61]))))

/-- some of the cases -/
def ko3n9Case2 : SumTree :=
  .cases [98, 31] 42 (.cases [] 27 (.cases [86, 51, 54] 28 (.leaf [85]) (.cases [] 61 (.cases [] 39
  (.leaf [93, 94, 86, 51, 54]) (.cases [92] 41 (.cases [] 34 (.cycle 55 [83, 84, 79]) (.cases [] 35
  (.cycle 56 [81, 82, 80]) (.cases [] 31 (.leaf [70]) (.cases [] 32 (.leaf
  [65, 66, 67, 68, 69, 34]) (.cases [60, 61] 29 (.cases [71] 36 (.leaf
  [76, 77, 78, 79, 80, 153, 154, 143, 144, 161, 98, 31]) (.leaf
  [72, 73, 74, 75, 152, 153, 154, 143, 144, 161, 98, 31])) (.leaf [58])))))) (.leaf
  [100, 160, 78, 79, 80, 153, 154, 143, 144, 161, 98, 31]))) (.leaf [149]))) (.cases [55, 56, 57]
  28 (.leaf [85]) (.cases [] 71 (.cases [] 29 (.cases [71] 37 (.cases [90] 34 (.cycle 55
  [83, 84, 79]) (.cases [] 35 (.cycle 56 [81, 82, 80]) (.cases [] 31 (.leaf [70]) (.cases [] 32
  (.leaf [65, 66, 67, 68, 69, 34]) (.cases [60, 61] 36 (.leaf [76, 77, 78, 79, 80]) (.leaf
  [72, 73, 74, 75])))))) (.cases [87, 40, 41, 42] 34 (.cycle 55 [83, 84, 79]) (.cases [] 35 (.cycle
  56 [81, 82, 80]) (.cases [] 31 (.leaf [70]) (.cases [] 32 (.leaf [65, 66, 67, 68, 69, 34])
  (.cases [60, 61] 36 (.leaf [76, 77, 78, 79, 80]) (.leaf [72, 73, 74, 75]))))))) (.cases [58] 31
  (.leaf [70]) (.cases [] 32 (.leaf [65, 66, 67, 68, 69, 34]) (.cases [60, 61] 33 (.leaf [63])
  (.cases [62] 37 (.leaf [90]) (.cases [87, 40, 41, 42] 40 (.leaf [101, 31]) (.leaf
  [99, 37, 38]))))))) (.cases [177] 30 (.cases [] 34 (.cycle 55 [83, 84, 79]) (.cases [] 35 (.cycle
  56 [81, 82, 80]) (.cases [] 31 (.leaf [70]) (.cases [] 32 (.leaf [65, 66, 67, 68, 69, 34])
  (.cases [60, 61] 36 (.cases [] 33 (.leaf [63]) (.cases [62] 37 (.leaf [90]) (.cases
  [87, 40, 41, 42] 29 (.leaf [71, 76]) (.leaf [58])))) (.leaf [72, 73, 74, 75])))))) (.leaf
  [59]))))) (.leaf [102])

/-- some of the cases -/
def ko3n9Case3 : SumTree :=
  .cases [35, 30, 36, 164, 32, 37, 38] 65 (.leaf [176]) (.cases [] 46 (.cases [] 33 (.cases [63] 28
  (.leaf [85]) (.cases [] 30 (.cases [64] 31 (.leaf [70]) (.cases [] 32 (.leaf
  [65, 66, 67, 68, 69, 34]) (.cases [60, 61] 29 (.cases [71] 36 (.leaf [76]) (.leaf
  [72, 73, 74, 75])) (.leaf [58])))) (.cases [] 70 (.cycle 14 [38, 174, 175]) (.cycle 11
  [36, 37, 173])))) (.cases [62, 40, 41, 42] 66 (.leaf [172, 122, 123, 113, 114]) (.cases [] 67
  (.cycle 30 [40, 170, 171]) (.cases [] 47 (.cycle 31 [41, 168, 169]) (.cases [] 48 (.cycle 32
  [42, 128, 129]) (.cases [] 68 (.leaf [167, 37, 38]) (.cases [] 50 (.cases [] 27 (.cases
  [86, 51, 54] 69 (.cases [] 43 (.leaf [109, 110, 166, 37, 38]) (.cases [] 16 (.cycle 16
  [35, 164, 103, 24]) (.cycle 19 [21, 31, 20]))) (.leaf [165, 110, 37, 38])) (.cases [55, 56, 57]
  28 (.leaf [85]) (.cases [] 61 (.cases [] 29 (.cases [71] 37 (.cases [] 34 (.cycle 55
  [83, 84, 79]) (.cases [] 35 (.cycle 56 [81, 82, 80]) (.cases [] 36 (.leaf [76, 77, 78, 79, 80,
  153, 154, 143, 144, 21, 35, 30, 32, 62, 90]) (.leaf [72, 73, 74, 75, 152, 153, 154, 143, 144, 21,
  35, 30, 32, 62, 90])))) (.cases [] 34 (.cycle 55 [83, 84, 79]) (.cases [] 35 (.cycle 56
  [81, 82, 80]) (.cases [] 36 (.leaf [76, 77, 78, 79, 80, 153, 154, 26, 143, 29, 144, 21, 31, 35,
  30, 36, 32, 37, 38]) (.leaf [72, 73, 74, 75, 152, 153, 154, 143, 144, 21, 31, 35, 30, 36, 32, 37,
  38]))))) (.cases [58] 30 (.cases [] 31 (.leaf [70]) (.cases [] 32 (.leaf
  [65, 66, 67, 68, 69, 34]) (.cases [60, 61] 37 (.leaf [90]) (.cases [87, 40, 41, 42] 43 (.leaf
  [109, 110, 37, 38, 87, 40, 41, 42]) (.leaf [103]))))) (.leaf [59, 62, 40, 41, 42]))) (.leaf
  [149])))) (.leaf [112, 113, 114, 115])))))))) (.leaf [111, 69, 34]))

/-- some of the cases -/
def ko3n9Case4 : SumTree :=
  .cases [90] 47 (.leaf [130, 113, 114]) (.cases [] 48 (.cycle 33 [128, 129, 42]) (.cases [] 42
  (.cases [] 50 (.cases [] 60 (.cases [] 27 (.cases [86, 51, 54] 28 (.leaf [85]) (.cases [] 61
  (.cases [] 39 (.leaf [93, 94, 86, 51, 54, 89, 33, 34]) (.cases [92] 41 (.cases [] 34 (.cycle 55
  [83, 84, 79]) (.cases [] 35 (.cycle 56 [81, 82, 80]) (.cases [] 31 (.leaf [70]) (.cases [] 32
  (.leaf [65, 66, 67, 68, 69, 34]) (.cases [60, 61] 29 (.cases [71] 36 (.leaf
  [76, 77, 78, 79, 80, 153, 154, 27, 145, 144, 21, 31]) (.leaf
  [72, 73, 74, 75, 152, 153, 154, 26, 27, 29, 30, 145, 32, 144])) (.leaf [58])))))) (.leaf
  [100, 160, 78, 79, 80, 153, 154, 26, 27, 29, 145, 144]))) (.leaf
  [149, 150, 151, 30, 145, 32, 144]))) (.cases [55, 56, 57] 28 (.leaf [85]) (.cases [] 29 (.cases
  [71] 52 (.cases [119] 34 (.cycle 55 [83, 84, 79]) (.cases [] 35 (.cycle 56 [81, 82, 80]) (.cases
  [] 31 (.leaf [70]) (.cases [] 32 (.leaf [65, 66, 67, 68, 69, 34]) (.cases [60, 61] 36 (.leaf
  [76, 77, 78, 79, 80]) (.leaf [72, 73, 74, 75])))))) (.cases [117, 122, 123, 124] 38 (.cases
  [95, 96, 97] 16 (.cases [] 32 (.cases [65] 36 (.leaf [76]) (.leaf [72, 73, 74, 75])) (.leaf
  [60, 61])) (.cycle 19 [21, 31, 20])) (.cases [91, 42] 34 (.cycle 55 [83, 84, 79]) (.cases [] 35
  (.cycle 56 [81, 82, 80]) (.cases [] 31 (.leaf [70]) (.cases [] 32 (.leaf
  [65, 66, 67, 68, 69, 34]) (.cases [] 61 (.cases [] 36 (.leaf [76, 77, 78, 79, 80, 153, 154, 26,
  27, 29, 30, 145, 32, 144, 21, 117, 31, 122, 123, 113, 114]) (.leaf
  [72, 73, 74, 75, 152, 153, 154, 26, 27, 29, 145, 144, 21, 31])) (.leaf
  [149, 150, 151, 145, 144, 21, 31])))))))) (.cases [58] 31 (.leaf [70]) (.cases [] 32 (.leaf
  [65, 66, 67, 68, 69, 34]) (.cases [60, 61] 38 (.leaf [95, 96, 97, 60, 61]) (.cases [91, 42] 41
  (.cases [108, 77, 78, 79, 80] 62 (.cases [] 16 (.cases [] 63 (.cases [] 52 (.leaf [119]) (.leaf
  [117, 122, 123, 124, 91, 42])) (.cycle 5 [5, 158, 159])) (.cycle 19 [21, 31, 20])) (.cycle 4
  [4, 156, 157])) (.leaf [100])))))))) (.leaf [148])) (.leaf [112, 113, 114])) (.leaf [102])))

/-- some of the cases -/
def ko3n9Case5 : SumTree :=
  .cases [87, 40, 41, 42] 60 (.cases [] 27 (.cases [86, 51, 54] 21 (.cases [] 22 (.cases [] 23
  (.cases [] 24 (.cases [] 31 (.leaf [70]) (.cases [] 32 (.leaf [65, 66, 67, 68, 69, 34]) (.cases
  [60, 61] 40 (.leaf [101, 31]) (.cases [99, 37, 38, 87, 40, 41, 42] 25 (.leaf
  [88, 86, 51, 54, 89, 33, 34]) (.leaf [52, 42, 155, 54]))))) (.cycle 35 [51, 49, 50])) (.cycle 35
  [46, 47, 48])) (.cycle 34 [43, 44, 45])) (.leaf [39, 40, 41, 42])) (.cases [55, 56, 57] 28 (.leaf
  [85]) (.cases [] 61 (.cases [] 29 (.cases [71] 40 (.cases [] 34 (.cycle 55 [83, 84, 79]) (.cases
  [] 35 (.cycle 56 [81, 82, 80]) (.cases [] 36 (.leaf [76, 77, 78, 79, 80, 153, 154, 26, 27, 29,
  145, 144, 147, 101, 31]) (.leaf [72, 73, 74, 75, 152, 153, 154, 27, 145, 144, 147, 101, 31]))))
  (.cases [] 34 (.cycle 55 [83, 84, 79]) (.cases [] 35 (.cycle 56 [81, 82, 80]) (.cases [] 36
  (.leaf [76, 77, 78, 79, 80, 153, 154, 27, 145, 144, 21, 31, 99, 37, 38, 87, 40, 41, 42]) (.leaf
  [72, 73, 74, 75, 152, 153, 154, 26, 27, 29, 30, 145, 32, 144, 21, 31, 99, 37, 38]))))) (.cases
  [58] 31 (.leaf [70]) (.cases [] 32 (.leaf [65, 66, 67, 68, 69, 34]) (.cases [60, 61] 40 (.leaf
  [101, 31]) (.leaf [99, 37, 38, 87, 40, 41, 42]))))) (.leaf [149, 150, 151, 145, 144, 21, 31]))))
  (.leaf [148])

/-- some of the cases -/
def ko3n9Case6 : SumTree :=
  .cases [146, 144, 21, 31] 41 (.cases [] 34 (.cycle 55 [83, 84, 79]) (.cases [] 35 (.cycle 56
  [81, 82, 80]) (.cases [] 28 (.leaf [85]) (.cases [] 31 (.leaf [70]) (.cases [] 32 (.leaf
  [65, 66, 67, 68, 69, 34]) (.cases [60, 61] 29 (.cases [71] 36 (.leaf [76]) (.leaf
  [72, 73, 74, 75])) (.leaf [58]))))))) (.leaf [100])

/-- some of the cases -/
def ko3n9Case7 : SumTree :=
  .cases [98, 31] 37 (.cases [90] 44 (.cases [] 30 (.cases [] 54 (.cycle 48 [141, 142, 68]) (.cases
  [] 19 (.cycle 26 [139, 140, 69]) (.cases [] 49 (.leaf [127, 107]) (.cases [] 50 (.cases [] 55
  (.cases [] 27 (.cases [86, 51, 54] 31 (.leaf [70]) (.cases [] 32 (.leaf [65, 66, 67, 68, 69, 34])
  (.cases [60, 61] 39 (.leaf [93, 94, 86, 51, 54, 138, 132, 133, 134, 135]) (.cases [92] 53 (.leaf
  [126, 67, 68, 69, 132, 133, 134, 135]) (.cases [125, 61] 29 (.cases [71] 36 (.leaf [76]) (.leaf
  [72, 73, 74, 75])) (.leaf [58])))))) (.cases [55, 56, 57] 28 (.leaf [85]) (.cases [] 33 (.leaf
  [63, 64]) (.cases [] 29 (.cases [71] 39 (.cases [] 51 (.cases [121, 122, 123, 124] 38 (.cases
  [95, 96, 97] 31 (.cases [70] 36 (.leaf [76]) (.leaf [72, 73, 74, 75])) (.leaf
  [66, 67, 68, 69, 132, 133, 134, 135])) (.cases [91, 42, 93, 94, 137, 56, 54, 57] 53 (.cases
  [126, 67, 68, 69, 132, 133, 134, 135] 31 (.leaf [70]) (.cases [] 32 (.leaf
  [65, 66, 67, 68, 69, 34]) (.leaf [60, 126, 67, 68, 69, 132, 133, 134, 135]))) (.leaf [125, 61])))
  (.cases [116] 34 (.cycle 55 [83, 84, 79]) (.cases [] 35 (.cycle 56 [81, 82, 80]) (.cases [] 36
  (.leaf [76, 77, 78, 79, 80]) (.leaf [72, 73, 74, 75]))))) (.cases [92] 34 (.cycle 55
  [83, 84, 79]) (.cases [] 35 (.cycle 56 [81, 82, 80]) (.cases [] 31 (.leaf [70]) (.cases [] 32
  (.leaf [65, 66, 67, 68, 69, 34]) (.cases [60, 61] 36 (.leaf [76, 77, 78, 79, 80]) (.leaf
  [72, 73, 74, 75]))))))) (.cases [58] 45 (.cases [] 31 (.leaf [70]) (.cases [] 51 (.cases [121] 52
  (.leaf [119, 62, 90]) (.leaf [117, 122, 123, 124, 96, 97, 66, 67, 68, 69, 132, 133, 134, 135]))
  (.leaf [116, 120, 62, 90]))) (.leaf [106, 118, 90])))))) (.leaf [136, 94, 56, 57])) (.leaf
  [112, 113, 114]))))) (.leaf [59])) (.cycle 28 [104, 105, 38])) (.cases [87, 40, 41, 42] 40
  (.cases [101, 31] 28 (.leaf [85]) (.cases [] 43 (.cases
  [109, 110, 37, 101, 38, 31, 87, 40, 41, 42] 53 (.leaf [126, 67, 68, 69, 132, 133, 134, 135])
  (.leaf [125, 61])) (.cases [103] 41 (.cases [] 45 (.cases [] 34 (.cycle 55 [83, 84, 79]) (.cases
  [] 35 (.cycle 56 [81, 82, 80]) (.cases [] 31 (.leaf [70]) (.cases [] 32 (.leaf
  [65, 66, 67, 68, 69, 34]) (.cases [60, 61] 29 (.cases [71] 36 (.leaf [76]) (.leaf
  [72, 73, 74, 75])) (.leaf [58])))))) (.leaf [106])) (.leaf [100])))) (.cases
  [99, 37, 38, 87, 40, 41, 42] 41 (.cases [] 34 (.cycle 55 [83, 84, 79]) (.cases [] 35 (.cycle 56
  [81, 82, 80]) (.cases [] 28 (.leaf [85]) (.cases [] 32 (.leaf [65]) (.cases [60, 61] 29 (.cases
  [71] 36 (.leaf [76]) (.leaf [72, 73, 74, 75])) (.leaf [58])))))) (.leaf [100])))

/-- some of the cases -/
def ko3n9Case8 : SumTree :=
  .cases [35, 30, 36, 32, 37, 38] 28 (.leaf [85]) (.cases [] 29 (.cases [71] 33 (.cases [63] 34
  (.cycle 55 [83, 84, 79]) (.cases [] 35 (.cycle 56 [81, 82, 80]) (.cases [] 31 (.leaf [70])
  (.cases [] 32 (.leaf [65, 66, 67, 68, 69, 34]) (.cases [60, 61] 36 (.leaf [76, 77, 78, 79, 80])
  (.leaf [72, 73, 74, 75])))))) (.cases [62, 40, 41, 42] 30 (.cases [] 34 (.cycle 55 [83, 84, 79])
  (.cases [] 35 (.cycle 56 [81, 82, 80]) (.cases [] 36 (.leaf [76, 77, 78, 79, 80]) (.leaf
  [72, 73, 74, 75])))) (.leaf [59, 62, 40, 41, 42]))) (.cases [58] 30 (.cases [] 31 (.leaf [70])
  (.cases [] 32 (.leaf [65, 66, 67, 68, 69, 34]) (.cases [60, 61] 33 (.leaf [63, 64]) (.leaf
  [62, 40, 41, 42])))) (.leaf [59])))

/-- some of the cases -/
def ko3n9Case9 : SumTree :=
  .cases [90] 44 (.cases [] 46 (.cases [] 38 (.cases [95, 96, 97] 30 (.cases [] 28 (.leaf [85])
  (.cases [] 49 (.leaf [127]) (.cases [] 33 (.leaf [63, 64]) (.cases [] 29 (.cases [71] 27 (.cases
  [86, 51, 54] 31 (.cases [70] 36 (.leaf [76]) (.leaf [72, 73, 74, 75])) (.leaf
  [66, 67, 68, 69, 34])) (.cases [55, 56, 57] 32 (.cases [65] 36 (.leaf [76, 77, 78, 79, 80])
  (.leaf [72, 73, 74, 75])) (.leaf [60, 61]))) (.cases [58] 45 (.cases [] 32 (.cases [65] 51
  (.cases [121] 52 (.leaf [119, 62, 40, 90, 41, 42]) (.leaf [117, 122, 123, 113, 114])) (.leaf
  [116, 120, 62, 90])) (.leaf [60, 61])) (.leaf [106, 118, 40, 90, 41, 95, 96, 97])))))) (.leaf
  [59])) (.cases [91, 42] 30 (.cases [] 47 (.leaf [130, 113, 114]) (.cases [] 48 (.cycle 32
  [42, 128, 129]) (.cases [] 49 (.leaf [127, 107]) (.cases [] 50 (.cases [] 51 (.cases
  [121, 122, 123, 124, 91, 42] 52 (.cases [119] 31 (.leaf [70]) (.cases [] 32 (.leaf
  [65, 66, 67, 68, 69, 34]) (.cases [60, 61] 33 (.leaf [63, 64]) (.cases [62, 90] 27 (.leaf
  [86, 51, 54]) (.leaf [55, 56, 57]))))) (.cases [117, 122, 123, 113, 124, 114, 96, 91, 97, 42] 53
  (.cases [126] 31 (.leaf [70]) (.cases [] 32 (.leaf [65, 66, 67, 68, 69, 34]) (.leaf
  [60, 126, 67, 68, 69, 34]))) (.leaf [125, 61]))) (.cases [116] 33 (.leaf [63, 64]) (.cases [] 52
  (.cases [119] 45 (.leaf [120, 62, 40, 90, 41, 42]) (.leaf [106, 118, 40, 90, 41, 42])) (.leaf
  [117, 116, 118, 90])))) (.leaf [112, 113, 114, 115]))))) (.leaf [59]))) (.leaf [111, 69, 34]))
  (.cycle 28 [104, 105, 38])

/-- some of the cases -/
def ko3n9Case10 : SumTree :=
  .cases [87, 40, 41, 42] 40 (.cases [101, 31] 42 (.cases [] 43 (.cases
  [109, 110, 37, 101, 38, 31, 87, 40, 41, 42] 45 (.cases [] 29 (.cases [71] 36 (.leaf [76]) (.leaf
  [72, 73, 74, 75])) (.leaf [58])) (.leaf [106])) (.cases [103] 41 (.cases [] 44 (.cases [] 34
  (.cycle 55 [83, 84, 79]) (.cases [] 35 (.cycle 56 [81, 82, 80]) (.cases [] 28 (.leaf [85])
  (.cases [] 31 (.leaf [70]) (.cases [] 32 (.leaf [65, 66, 67, 68, 69, 34]) (.cases [60, 61] 45
  (.cases [] 29 (.cases [71] 27 (.cases [86, 51, 54] 36 (.leaf [76]) (.leaf [72, 73, 74, 75]))
  (.cases [55, 56, 57] 36 (.leaf [76]) (.leaf [72, 73, 74, 75]))) (.leaf
  [58, 108, 77, 78, 79, 80])) (.leaf [106, 107, 87, 40, 41, 42]))))))) (.cycle 28 [104, 105, 38]))
  (.leaf [100]))) (.leaf [102])) (.cases [99, 37, 38, 87, 40, 41, 42] 41 (.cases [] 34 (.cycle 55
  [83, 84, 79]) (.cases [] 35 (.cycle 56 [81, 82, 80]) (.cases [] 28 (.leaf [85]) (.cases [] 31
  (.leaf [70]) (.cases [] 32 (.leaf [65, 66, 67, 68, 69, 34]) (.cases [60, 61] 25 (.cases [88] 27
  (.leaf [86, 51, 54]) (.cases [55, 56, 57] 29 (.cases [71] 36 (.leaf [76]) (.leaf
  [72, 73, 74, 75])) (.leaf [58]))) (.leaf [52, 42]))))))) (.leaf [100]))

/-- some of the cases -/
def ko3n9Case11 : SumTree :=
  .cases [35, 30, 36, 32, 37, 38] 21 (.cases [] 22 (.cases [] 23 (.cases [] 24 (.cases [] 25
  (.cases [] 26 (.cases [] 27 (.cases [86, 51, 54] 28 (.leaf [85]) (.cases [] 31 (.leaf [70])
  (.cases [] 32 (.leaf [65, 66, 67, 68, 69, 34]) (.cases [60, 61] 37 (.cases [90] 38 (.leaf
  [95, 96, 97, 60, 61]) (.cases [91, 42] 39 (.leaf [93, 94, 86, 51, 54]) (.cases [92] 29 (.cases
  [71] 36 (.leaf [76]) (.leaf [72, 73, 74, 75])) (.leaf [58])))) (.leaf
  [87, 40, 41, 42, 88, 86, 51, 89, 33, 34]))))) (.cases [55, 56, 57] 28 (.leaf [85]) (.cases [] 29
  (.cases [71] 33 (.cases [63] 34 (.cycle 55 [83, 84, 79]) (.cases [] 35 (.cycle 56 [81, 82, 80])
  (.cases [] 31 (.leaf [70]) (.cases [] 32 (.leaf [65, 66, 67, 68, 69, 34]) (.cases [60, 61] 36
  (.leaf [76, 77, 78, 79, 80]) (.leaf [72, 73, 74, 75])))))) (.cases [62, 40, 41, 42] 30 (.cases []
  34 (.cycle 55 [83, 84, 79]) (.cases [] 35 (.cycle 56 [81, 82, 80]) (.cases [] 36 (.leaf
  [76, 77, 78, 79, 80]) (.leaf [72, 73, 74, 75])))) (.leaf [59, 62, 40, 41, 42]))) (.cases [58] 30
  (.cases [] 31 (.leaf [70]) (.cases [] 32 (.leaf [65, 66, 67, 68, 69, 34]) (.cases [60, 61] 33
  (.leaf [63, 64]) (.leaf [62, 40, 41, 42])))) (.leaf [59]))))) (.leaf [53, 54])) (.leaf [52, 42]))
  (.cycle 36 [49, 50, 51])) (.cycle 35 [46, 47, 48])) (.cycle 34 [43, 44, 45])) (.leaf
  [39, 40, 41, 42])

/-- some of the cases -/
def ko3n9Case12 : SumTree :=
  .cases [] 15 (.cases [] 16 (.cycle 16 [22, 16, 23, 24]) (.leaf [20, 21, 22, 16, 14])) (.cycle 16
  [17, 18, 19])

/-- all cases -/
def ko3n9Cases : SumTree :=
  .cases [] 0 (.leaf [191]) (.cases [] 1 (.leaf [190]) (.cases [] 2 (.cases [] 3 (.cases
  [2, 3, 4, 5] 4 (.leaf [188, 189]) (.cases [] 5 (.leaf [186, 187]) (.cases [] 6 (.cases [] 7
  (.cases [] 8 (.cases [] 9 (.cases [] 10 (.leaf [185, 14]) (.cases [] 11 (.cases [] 12 (.cases []
  13 (.cases [] 14 (.cases [] 17 (.cases [143, 144] 15 (.cases [21, 31] 18 (.cases
  [132, 133, 134, 135] 58 ko3n9Case0 ko3n9Case1) (.cases [33, 34] 56 (.leaf [180]) (.cases [] 57
  (.leaf [178, 179, 67, 68, 69, 34]) (.cases [] 58 (.cases [161, 30, 36, 32] 64 (.cases [] 20
  ko3n9Case2 ko3n9Case3) (.leaf [162, 163, 61])) (.cases [145, 144, 21, 31] 19 (.leaf [131, 54])
  (.cases [] 26 (.cases [] 59 (.cases [147, 37, 38] 37 ko3n9Case4 ko3n9Case5) ko3n9Case6) (.leaf
  [53, 54, 138, 34]))))))) (.cycle 16 [17, 18, 19])) (.cases [25, 26, 27, 28, 29, 30, 31, 32] 18
  (.cases [132, 133, 134, 135] 20 ko3n9Case7 ko3n9Case8) (.cases [33, 34] 19 (.leaf [131, 54])
  (.cases [] 20 (.cases [98, 31] 37 ko3n9Case9 ko3n9Case10) ko3n9Case11)))) ko3n9Case12) (.leaf
  [15, 16, 14])) (.leaf [13, 14])) (.leaf [11, 12]))) (.leaf [10])) (.leaf [9])) (.cycle 3
  [2, 3, 8])) (.leaf [6, 7])))) (.leaf [1])) (.leaf [0])))

theorem ko3n9_cases : ko3n9Cases.check ko3n9Arcs 208 ko3n9Choices.length [] ko3n9Times 0 = true := by
  decide +kernel

theorem ko3n9_choices : ko3n9Choices.all (CodedNet.Choice.ok netKoR netKoRSpecial ko3n9Plan) = true := by
  decide +kernel

theorem ko3n9_arcs : ko3n9Arcs.toList.all
    (netKoR.arcOK netKoRSpecial ko3n9Plan ko3n9Nodes ko3n9Choices) = true := by decide +kernel

theorem ko3n9_times : netKoR.startOK ko3n9Plan ko3n9Nodes 2 40 ko3n9Times = true := by decide +kernel

end Verif.Real
