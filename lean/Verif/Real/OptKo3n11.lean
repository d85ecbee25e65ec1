import Verif.Proofs.PlanSum
import Verif.Proofs.PlanAgain
import Verif.Real.PlanKo3

/-!
# The sheet of `Verif.Real.Ko3` with given delays: a plan, and that no plan is better

Generated; see `CodedNet.Item` and `Verif/Proofs/SumTree.lean`. Case 3,
`disturbances[11]`, of `/repo/solve_KO_GLC_problems.py`, line 127;
`d_max` is 40. The sum of the delays that count is 222/4.
-/

namespace Verif.Real

set_option maxRecDepth 100000

/-- the given delays -/
def ko3n11Delays : List (Int × ℚ) := [
  (2, 92), (4602, 70), (4, 72), (102, 46), (101, 45), (6401, 33), (6403, 20), (5, 25), (103, 28),
  (3, 59), (4604, 12), (10, 25)]

/-- the plan, items by sections -/
def ko3n11Plan : CodedNet.Plan := [
  (train_ko3_2, [
   ⟨0, 2, 0, (some 14), true, false, 92, 92, 920,
    none,
    (some ⟨1, [83, 101, 84, 121], [9, 19, 8, 8], 4, [5, 8]⟩), [], [61, 64, 69, 71, 87, 92], [92]⟩,
   ⟨0, 2, 1, (some 1), true, false, 98, 98, 980,
    (some ⟨0, 96, 920, [83, 101, 84, 121]⟩),
    (some ⟨2, [77, 144, 119], [15, 14, 8], 4, [107]⟩), [5, 8], [16, 2], [96]⟩,
   ⟨0, 2, 2, (some 40), true, false, 103, 103, 1030,
    (some ⟨1, 102, 980, [77, 144, 119]⟩),
    (some ⟨3, [86, 142, 87, 126], [13, 13, 7, 9], 4, [18, 23]⟩), [107], [161, 164], [102]⟩,
   ⟨0, 2, 3, (some 30), true, false, 109, 109, 1090,
    (some ⟨2, 107, 1030, [86, 142, 87, 126]⟩),
    (some ⟨4, [90, 91, 92, 93, 127], [13, 9, 5, 7, 20], 5, [31, 33, 41]⟩), [18, 23], [47, 48], [107]⟩,
   ⟨0, 2, 4, (some 35), false, true, 114, 114, 1140,
    (some ⟨3, 114, 1090, [90, 91, 92, 93, 127]⟩),
    none, [31, 33, 41], [], [114]⟩]),
  (train_ko3_4602, [
   ⟨1, 4602, 0, (some 10), true, false, 180, 185, 1850,
    none,
    (some ⟨1, [83, 101, 84, 121], [9, 12, 6, 7], 3, [5, 8]⟩), [], [66, 68, 71, 87, 92], [180]⟩,
   ⟨1, 4602, 1, (some 1), true, false, 185, 190, 1900,
    (some ⟨0, 188, 1850, [83, 101, 84, 121]⟩),
    (some ⟨2, [77, 144, 119], [11, 9, 8], 3, [107]⟩), [5, 8], [16, 2], [188]⟩,
   ⟨1, 4602, 2, (some 40), true, false, 189, 194, 1940,
    (some ⟨1, 193, 1900, [77, 144, 119]⟩),
    (some ⟨3, [86, 142, 87, 126], [13, 7, 7, 9], 4, [18, 23]⟩), [107], [161, 164], [193]⟩,
   ⟨1, 4602, 3, (some 30), true, false, 195, 200, 2000,
    (some ⟨2, 198, 1940, [86, 142, 87, 126]⟩),
    (some ⟨4, [90, 91, 92, 93, 127], [13, 9, 5, 7, 20], 5, [31, 34, 43]⟩), [18, 23], [47, 48], [198]⟩,
   ⟨1, 4602, 4, (some 38), true, false, 201, 206, 2060,
    (some ⟨3, 205, 2000, [90, 91, 92, 93, 127]⟩),
    none, [31, 34, 43], [], [205]⟩]),
  (train_ko3_4, [
   ⟨2, 4, 0, (some 14), true, false, 110, 110, 1100,
    none,
    (some ⟨1, [83, 101, 84, 121], [9, 19, 8, 8], 4, [5, 8]⟩), [], [61, 64, 69, 71, 87, 92], [110]⟩,
   ⟨2, 4, 1, (some 1), true, false, 116, 116, 1160,
    (some ⟨0, 114, 1100, [83, 101, 84, 121]⟩),
    (some ⟨2, [77, 144, 119], [15, 14, 8], 4, [107]⟩), [5, 8], [16, 2], [114]⟩,
   ⟨2, 4, 2, (some 40), true, false, 121, 133, 1330,
    (some ⟨1, 120, 1160, [77, 144, 119]⟩),
    (some ⟨3, [86, 142, 87, 126], [13, 13, 7, 9], 4, [18, 23]⟩), [107], [161, 164], [120]⟩,
   ⟨2, 4, 3, (some 30), true, false, 127, 139, 1390,
    (some ⟨2, 137, 1330, [86, 142, 87, 126]⟩),
    (some ⟨4, [90, 91, 92, 93, 127], [13, 9, 5, 7, 20], 5, [31, 33, 41]⟩), [18, 23], [47, 48], [137]⟩,
   ⟨2, 4, 4, (some 35), false, true, 132, 144, 1440,
    (some ⟨3, 144, 1390, [90, 91, 92, 93, 127]⟩),
    none, [31, 33, 41], [], [144]⟩]),
  (train_ko3_102, [
   ⟨3, 102, 0, (some 16), true, false, 181, 182, 1820,
    none,
    (some ⟨1, [83, 101, 84, 121], [9, 19, 8, 10], 5, [5, 8, 9]⟩), [], [62, 64, 69, 71, 87, 92], [181]⟩,
   ⟨3, 102, 1, (some 3), true, false, 188, 189, 1890,
    (some ⟨0, 187, 1820, [83, 101, 84, 121]⟩),
    none, [5, 8, 9], [], [187]⟩]),
  (train_ko3_6, [
   ⟨4, 6, 0, (some 14), true, false, 77, 81, 810,
    none,
    (some ⟨1, [83, 101, 84, 121], [9, 19, 8, 8], 4, [5, 8]⟩), [], [61, 64, 69, 71, 87, 92], [77]⟩,
   ⟨4, 6, 1, (some 1), true, false, 83, 87, 870,
    (some ⟨0, 85, 810, [83, 101, 84, 121]⟩),
    (some ⟨2, [77, 144, 119], [15, 14, 8], 4, [107]⟩), [5, 8], [16, 2], [85]⟩,
   ⟨4, 6, 2, (some 40), true, false, 91, 92, 920,
    (some ⟨1, 91, 870, [77, 144, 119]⟩),
    (some ⟨3, [86, 142, 87, 126], [13, 13, 7, 9], 4, [18, 23]⟩), [107], [161, 164], [91]⟩,
   ⟨4, 6, 3, (some 30), true, false, 100, 100, 1000,
    (some ⟨2, 96, 920, [86, 142, 87, 126]⟩),
    (some ⟨4, [90, 91, 92, 93, 127], [13, 9, 5, 7, 20], 5, [31, 33, 41]⟩), [18, 23], [47, 48], [96]⟩,
   ⟨4, 6, 4, (some 35), false, true, 105, 105, 1050,
    (some ⟨3, 105, 1000, [90, 91, 92, 93, 127]⟩),
    none, [31, 33, 41], [], [105]⟩]),
  (train_ko3_4604, [
   ⟨5, 4604, 0, (some 10), true, false, 172, 172, 1720,
    none,
    (some ⟨1, [83, 101, 84, 121], [9, 12, 6, 7], 3, [5, 8]⟩), [], [66, 68, 71, 87, 92], [172]⟩,
   ⟨5, 4604, 1, (some 1), true, false, 176, 176, 1760,
    (some ⟨0, 175, 1720, [83, 101, 84, 121]⟩),
    (some ⟨2, [77, 144, 119], [11, 9, 8], 3, [107]⟩), [5, 8], [16, 2], [175]⟩,
   ⟨5, 4604, 2, (some 40), true, false, 180, 182, 1820,
    (some ⟨1, 179, 1760, [77, 144, 119]⟩),
    (some ⟨3, [86, 142, 87, 126], [13, 7, 7, 9], 4, [18, 23]⟩), [107], [161, 164], [179]⟩,
   ⟨5, 4604, 3, (some 30), true, false, 186, 188, 1880,
    (some ⟨2, 186, 1820, [86, 142, 87, 126]⟩),
    (some ⟨4, [90, 91, 92, 93, 127], [13, 9, 5, 7, 20], 5, [31, 34, 43]⟩), [18, 23], [47, 48], [186]⟩,
   ⟨5, 4604, 4, (some 38), true, false, 192, 194, 1940,
    (some ⟨3, 193, 1880, [90, 91, 92, 93, 127]⟩),
    none, [31, 34, 43], [], [193]⟩]),
  (train_ko3_8, [
   ⟨6, 8, 0, (some 14), true, false, 114, 114, 1140,
    none,
    (some ⟨1, [83, 101, 84, 121], [9, 19, 8, 8], 4, [5, 8]⟩), [], [61, 64, 69, 71, 87, 92], [114]⟩,
   ⟨6, 8, 1, (some 1), true, false, 120, 129, 1290,
    (some ⟨0, 118, 1140, [83, 101, 84, 121]⟩),
    (some ⟨2, [77, 144, 119], [15, 14, 8], 4, [107]⟩), [5, 8], [16, 2], [118]⟩,
   ⟨6, 8, 2, (some 40), true, false, 126, 136, 1360,
    (some ⟨1, 133, 1290, [77, 144, 119]⟩),
    (some ⟨3, [86, 142, 87, 126], [13, 13, 7, 9], 4, [18, 23]⟩), [107], [161, 164], [133]⟩,
   ⟨6, 8, 3, (some 30), true, false, 133, 142, 1420,
    (some ⟨2, 140, 1360, [86, 142, 87, 126]⟩),
    (some ⟨4, [90, 91, 92, 93, 127], [13, 9, 5, 7, 20], 5, [31, 33, 41]⟩), [18, 23], [47, 48], [140]⟩,
   ⟨6, 8, 4, (some 35), false, true, 138, 147, 1470,
    (some ⟨3, 147, 1420, [90, 91, 92, 93, 127]⟩),
    none, [31, 33, 41], [], [147]⟩]),
  (train_ko3_10, [
   ⟨7, 10, 0, (some 14), true, false, 152, 152, 1520,
    none,
    (some ⟨1, [83, 101, 84, 121], [9, 19, 8, 8], 4, [5, 8]⟩), [], [61, 64, 69, 71, 87, 92], [152]⟩,
   ⟨7, 10, 1, (some 1), true, false, 158, 158, 1580,
    (some ⟨0, 156, 1520, [83, 101, 84, 121]⟩),
    (some ⟨2, [77, 144, 119], [15, 14, 8], 4, [107]⟩), [5, 8], [16, 2], [156]⟩,
   ⟨7, 10, 2, (some 40), true, false, 163, 167, 1670,
    (some ⟨1, 162, 1580, [77, 144, 119]⟩),
    (some ⟨3, [86, 142, 87, 126], [13, 13, 7, 9], 4, [18, 23]⟩), [107], [161, 164], [162]⟩,
   ⟨7, 10, 3, (some 30), true, false, 169, 173, 1730,
    (some ⟨2, 171, 1670, [86, 142, 87, 126]⟩),
    (some ⟨4, [90, 91, 92, 93, 127], [13, 9, 5, 7, 20], 5, [31, 33, 41]⟩), [18, 23], [47, 48], [171]⟩,
   ⟨7, 10, 4, (some 35), false, true, 174, 178, 1780,
    (some ⟨3, 178, 1730, [90, 91, 92, 93, 127]⟩),
    none, [31, 33, 41], [], [178]⟩]),
  (train_ko3_4606, [
   ⟨8, 4606, 0, (some 10), true, false, 142, 146, 1460,
    none,
    (some ⟨1, [83, 101, 84, 121], [9, 12, 6, 7], 3, [5, 8]⟩), [], [66, 68, 71, 87, 92], [142]⟩,
   ⟨8, 4606, 1, (some 1), true, false, 147, 151, 1510,
    (some ⟨0, 149, 1460, [83, 101, 84, 121]⟩),
    (some ⟨2, [77, 144, 119], [11, 9, 8], 3, [107]⟩), [5, 8], [16, 2], [149]⟩,
   ⟨8, 4606, 2, (some 40), true, false, 151, 155, 1550,
    (some ⟨1, 154, 1510, [77, 144, 119]⟩),
    (some ⟨3, [86, 142, 87, 126], [13, 7, 7, 9], 4, [18, 23]⟩), [107], [161, 164], [154]⟩,
   ⟨8, 4606, 3, (some 30), true, false, 159, 161, 1610,
    (some ⟨2, 159, 1550, [86, 142, 87, 126]⟩),
    (some ⟨4, [90, 91, 92, 93, 127], [13, 9, 5, 7, 20], 5, [31, 34, 43]⟩), [18, 23], [47, 48], [159]⟩,
   ⟨8, 4606, 4, (some 38), true, false, 167, 167, 1670,
    (some ⟨3, 166, 1610, [90, 91, 92, 93, 127]⟩),
    none, [31, 34, 43], [], [166]⟩]),
  (train_ko3_12, [
   ⟨9, 12, 0, (some 14), true, false, 236, 239, 2390,
    none,
    (some ⟨1, [83, 101, 84, 121], [9, 19, 8, 8], 4, [5, 8]⟩), [], [61, 64, 69, 71, 87, 92], [236]⟩,
   ⟨9, 12, 1, (some 1), true, false, 242, 245, 2450,
    (some ⟨0, 243, 2390, [83, 101, 84, 121]⟩),
    (some ⟨2, [77, 144, 119], [15, 14, 8], 4, [107]⟩), [5, 8], [16, 2], [243]⟩,
   ⟨9, 12, 2, (some 40), true, false, 247, 250, 2500,
    (some ⟨1, 249, 2450, [77, 144, 119]⟩),
    (some ⟨3, [86, 142, 87, 126], [13, 13, 7, 9], 4, [18, 23]⟩), [107], [161, 164], [249]⟩,
   ⟨9, 12, 3, (some 30), true, false, 253, 256, 2560,
    (some ⟨2, 254, 2500, [86, 142, 87, 126]⟩),
    (some ⟨4, [90, 91, 92, 93, 127], [13, 9, 5, 7, 20], 5, [31, 33, 41]⟩), [18, 23], [47, 48], [254]⟩,
   ⟨9, 12, 4, (some 35), false, true, 258, 261, 2610,
    (some ⟨3, 261, 2560, [90, 91, 92, 93, 127]⟩),
    none, [31, 33, 41], [], [261]⟩]),
  (train_ko3_14, [
   ⟨10, 14, 0, (some 14), true, false, 236, 236, 2360,
    none,
    (some ⟨1, [83, 101, 84, 121], [9, 19, 8, 8], 4, [5, 8]⟩), [], [61, 64, 69, 71, 87, 92], [236]⟩,
   ⟨10, 14, 1, (some 1), true, false, 242, 242, 2420,
    (some ⟨0, 240, 2360, [83, 101, 84, 121]⟩),
    (some ⟨2, [77, 144, 119], [15, 14, 8], 4, [107]⟩), [5, 8], [16, 2], [240]⟩,
   ⟨10, 14, 2, (some 40), true, false, 247, 247, 2470,
    (some ⟨1, 246, 2420, [77, 144, 119]⟩),
    (some ⟨3, [86, 142, 87, 126], [13, 13, 7, 9], 4, [18, 23]⟩), [107], [161, 164], [246]⟩,
   ⟨10, 14, 3, (some 30), true, false, 253, 253, 2530,
    (some ⟨2, 251, 2470, [86, 142, 87, 126]⟩),
    (some ⟨4, [90, 91, 92, 93, 127], [13, 9, 5, 7, 20], 5, [31, 33, 41]⟩), [18, 23], [47, 48], [251]⟩,
   ⟨10, 14, 4, (some 35), false, true, 258, 258, 2580,
    (some ⟨3, 258, 2530, [90, 91, 92, 93, 127]⟩),
    none, [31, 33, 41], [], [258]⟩]),
  (train_ko3_1, [
   ⟨11, 1, 4, (some 36), true, false, -2, -2, -20,
    none,
    (some ⟨3, [127, 93, 92, 91, 90], [18, 7, 6, 8, 12], 5, [48, 47, 46]⟩), [], [31, 33], [-2]⟩,
   ⟨11, 1, 3, (some 31), true, false, 8, 8, 80,
    (some ⟨4, 3, -20, [127, 93, 92, 91, 90]⟩),
    (some ⟨2, [126, 87, 142, 86], [23, 5, 19, 16], 6, [160, 161, 164]⟩), [48, 47, 46], [18, 23, 24], [3]⟩,
   ⟨11, 1, 2, (some 41), true, false, 17, 17, 170,
    (some ⟨3, 14, 80, [126, 87, 142, 86]⟩),
    (some ⟨1, [85, 145, 125], [11, 17, 9], 4, [17, 19]⟩), [160, 161, 164], [106], [14]⟩,
   ⟨11, 1, 1, (some 2), true, false, 26, 26, 260,
    (some ⟨2, 21, 170, [85, 145, 125]⟩),
    (some ⟨0, [121, 84, 101, 83], [8, 13, 22, 10], 5, [82, 84, 86, 89, 90, 92]⟩), [17, 19], [5, 8], [21]⟩,
   ⟨11, 1, 0, (some 15), false, true, 31, 31, 310,
    (some ⟨1, 31, 260, [121, 84, 101, 83]⟩),
    none, [82, 84, 86, 89, 90, 92], [], [31]⟩]),
  (train_ko3_101, [
   ⟨12, 101, 1, (some 4), true, false, 75, 75, 750,
    none,
    (some ⟨0, [121, 84, 101, 83], [8, 13, 22, 10], 5, [82, 84, 86, 89, 90, 92]⟩), [], [5, 6, 7], [75]⟩,
   ⟨12, 101, 0, (some 39), false, true, 80, 80, 800,
    (some ⟨1, 80, 750, [121, 84, 101, 83]⟩),
    none, [82, 84, 86, 89, 90, 92], [], [80]⟩]),
  (train_ko3_6401, [
   ⟨13, 6401, 4, (some 36), true, false, 65, 65, 650,
    none,
    (some ⟨3, [127, 93, 92, 91, 90], [18, 7, 6, 8, 12], 5, [48, 47, 46]⟩), [], [31, 33], [65]⟩,
   ⟨13, 6401, 3, (some 31), true, false, 72, 72, 720,
    (some ⟨4, 70, 650, [127, 93, 92, 91, 90]⟩),
    (some ⟨2, [126, 87, 142, 86], [23, 5, 9, 16], 5, [160, 161, 164]⟩), [48, 47, 46], [18, 23, 24], [70]⟩,
   ⟨13, 6401, 2, (some 41), true, false, 78, 78, 780,
    (some ⟨3, 77, 720, [126, 87, 142, 86]⟩),
    (some ⟨1, [85, 145, 125], [11, 7, 9], 3, [17, 19]⟩), [160, 161, 164], [106], [77]⟩,
   ⟨13, 6401, 1, (some 2), true, false, 83, 86, 860,
    (some ⟨2, 81, 780, [85, 145, 125]⟩),
    (some ⟨0, [121, 84, 101, 83], [8, 11, 12, 10], 4, [81, 85, 88, 81, 92]⟩), [17, 19], [5, 8], [81]⟩,
   ⟨13, 6401, 0, (some 13), false, true, 87, 90, 900,
    (some ⟨1, 90, 860, [121, 84, 101, 83]⟩),
    none, [81, 85, 88, 81, 92], [], [90]⟩]),
  (train_ko3_3, [
   ⟨14, 3, 4, (some 36), true, false, 113, 115, 1150,
    none,
    (some ⟨3, [127, 93, 92, 91, 90], [18, 7, 6, 8, 12], 5, [48, 47, 46]⟩), [], [31, 33], [113]⟩,
   ⟨14, 3, 3, (some 31), true, false, 120, 122, 1220,
    (some ⟨4, 120, 1150, [127, 93, 92, 91, 90]⟩),
    (some ⟨2, [126, 87, 142, 86], [23, 5, 19, 16], 6, [160, 161, 164]⟩), [48, 47, 46], [18, 23, 24], [120]⟩,
   ⟨14, 3, 2, (some 41), true, false, 128, 130, 1300,
    (some ⟨3, 128, 1220, [126, 87, 142, 86]⟩),
    (some ⟨1, [85, 145, 125], [11, 17, 9], 4, [17, 19]⟩), [160, 161, 164], [106], [128]⟩,
   ⟨14, 3, 1, (some 2), true, false, 134, 136, 1360,
    (some ⟨2, 134, 1300, [85, 145, 125]⟩),
    (some ⟨0, [121, 84, 101, 83], [8, 13, 22, 10], 5, [82, 84, 86, 89, 90, 92]⟩), [17, 19], [5, 8], [134]⟩,
   ⟨14, 3, 0, (some 15), false, true, 139, 141, 1410,
    (some ⟨1, 141, 1360, [121, 84, 101, 83]⟩),
    none, [82, 84, 86, 89, 90, 92], [], [141]⟩]),
  (train_ko3_103, [
   ⟨15, 103, 1, (some 4), true, false, 267, 267, 2670,
    none,
    (some ⟨0, [121, 84, 101, 83], [8, 13, 22, 10], 5, [82, 84, 86, 89, 90, 92]⟩), [], [5, 6, 7], [267]⟩,
   ⟨15, 103, 0, (some 39), false, true, 272, 272, 2720,
    (some ⟨1, 272, 2670, [121, 84, 101, 83]⟩),
    none, [82, 84, 86, 89, 90, 92], [], [272]⟩]),
  (train_ko3_5, [
   ⟨16, 5, 4, (some 36), true, false, 119, 119, 1190,
    none,
    (some ⟨3, [127, 93, 92, 91, 90], [18, 7, 6, 8, 12], 5, [48, 47, 46]⟩), [], [31, 33], [119]⟩,
   ⟨16, 5, 3, (some 31), true, false, 126, 126, 1260,
    (some ⟨4, 124, 1190, [127, 93, 92, 91, 90]⟩),
    (some ⟨2, [126, 87, 142, 86], [23, 5, 19, 16], 6, [160, 161, 164]⟩), [48, 47, 46], [18, 23, 24], [124]⟩,
   ⟨16, 5, 2, (some 41), true, false, 134, 134, 1340,
    (some ⟨3, 132, 1260, [126, 87, 142, 86]⟩),
    (some ⟨1, [85, 145, 125], [11, 17, 9], 4, [17, 19]⟩), [160, 161, 164], [106], [132]⟩,
   ⟨16, 5, 1, (some 2), true, false, 140, 140, 1400,
    (some ⟨2, 138, 1340, [85, 145, 125]⟩),
    (some ⟨0, [121, 84, 101, 83], [8, 13, 22, 10], 5, [82, 84, 86, 89, 90, 92]⟩), [17, 19], [5, 8], [138]⟩,
   ⟨16, 5, 0, (some 15), false, true, 145, 145, 1450,
    (some ⟨1, 145, 1400, [121, 84, 101, 83]⟩),
    none, [82, 84, 86, 89, 90, 92], [], [145]⟩]),
  (train_ko3_6403, [
   ⟨17, 6403, 4, (some 36), true, false, 193, 194, 1940,
    none,
    (some ⟨3, [127, 93, 92, 91, 90], [18, 7, 6, 8, 12], 5, [48, 47, 46]⟩), [], [31, 33], [193]⟩,
   ⟨17, 6403, 3, (some 31), true, false, 200, 201, 2010,
    (some ⟨4, 199, 1940, [127, 93, 92, 91, 90]⟩),
    (some ⟨2, [126, 87, 142, 86], [23, 5, 9, 16], 5, [160, 161, 164]⟩), [48, 47, 46], [18, 23, 24], [199]⟩,
   ⟨17, 6403, 2, (some 41), true, false, 206, 207, 2070,
    (some ⟨3, 206, 2010, [126, 87, 142, 86]⟩),
    (some ⟨1, [85, 145, 125], [11, 7, 9], 3, [17, 19]⟩), [160, 161, 164], [106], [206]⟩,
   ⟨17, 6403, 1, (some 2), true, false, 211, 212, 2120,
    (some ⟨2, 210, 2070, [85, 145, 125]⟩),
    (some ⟨0, [121, 84, 101, 83], [8, 11, 12, 10], 4, [81, 85, 88, 81, 92]⟩), [17, 19], [5, 8], [210]⟩,
   ⟨17, 6403, 0, (some 13), false, true, 215, 216, 2160,
    (some ⟨1, 216, 2120, [121, 84, 101, 83]⟩),
    none, [81, 85, 88, 81, 92], [], [216]⟩]),
  (train_ko3_7, [
   ⟨18, 7, 4, (some 36), true, false, 127, 127, 1270,
    none,
    (some ⟨3, [127, 93, 92, 91, 90], [18, 7, 6, 8, 12], 5, [48, 47, 46]⟩), [], [31, 33], [127]⟩,
   ⟨18, 7, 3, (some 31), true, false, 134, 141, 1410,
    (some ⟨4, 132, 1270, [127, 93, 92, 91, 90]⟩),
    (some ⟨2, [126, 87, 142, 86], [23, 5, 19, 16], 6, [160, 161, 164]⟩), [48, 47, 46], [18, 23, 24], [132]⟩,
   ⟨18, 7, 2, (some 41), true, false, 143, 149, 1490,
    (some ⟨3, 147, 1410, [126, 87, 142, 86]⟩),
    (some ⟨1, [85, 145, 125], [11, 17, 9], 4, [17, 19]⟩), [160, 161, 164], [106], [147]⟩,
   ⟨18, 7, 1, (some 2), true, false, 151, 157, 1570,
    (some ⟨2, 153, 1490, [85, 145, 125]⟩),
    (some ⟨0, [121, 84, 101, 83], [8, 13, 22, 10], 5, [82, 84, 86, 89, 90, 92]⟩), [17, 19], [5, 8], [153]⟩,
   ⟨18, 7, 0, (some 15), false, true, 156, 162, 1620,
    (some ⟨1, 162, 1570, [121, 84, 101, 83]⟩),
    none, [82, 84, 86, 89, 90, 92], [], [162]⟩]),
  (train_ko3_9, [
   ⟨19, 9, 4, (some 36), true, false, 146, 148, 1480,
    none,
    (some ⟨3, [127, 93, 92, 91, 90], [18, 7, 6, 8, 12], 5, [48, 47, 46]⟩), [], [31, 33], [146]⟩,
   ⟨19, 9, 3, (some 31), true, false, 159, 160, 1600,
    (some ⟨4, 153, 1480, [127, 93, 92, 91, 90]⟩),
    (some ⟨2, [126, 87, 142, 86], [23, 5, 19, 16], 6, [160, 161, 164]⟩), [48, 47, 46], [18, 23, 24], [153]⟩,
   ⟨19, 9, 2, (some 41), true, false, 167, 168, 1680,
    (some ⟨3, 166, 1600, [126, 87, 142, 86]⟩),
    (some ⟨1, [85, 145, 125], [11, 17, 9], 4, [17, 19]⟩), [160, 161, 164], [106], [166]⟩,
   ⟨19, 9, 1, (some 2), true, false, 174, 176, 1760,
    (some ⟨2, 172, 1680, [85, 145, 125]⟩),
    (some ⟨0, [121, 84, 101, 83], [8, 13, 22, 10], 5, [82, 84, 86, 89, 90, 92]⟩), [17, 19], [5, 8], [172]⟩,
   ⟨19, 9, 0, (some 15), false, true, 179, 181, 1810,
    (some ⟨1, 181, 1760, [121, 84, 101, 83]⟩),
    none, [82, 84, 86, 89, 90, 92], [], [181]⟩]),
  (train_ko3_11, [
   ⟨20, 11, 4, (some 36), true, false, 167, 167, 1670,
    none,
    (some ⟨3, [127, 93, 92, 91, 90], [18, 7, 6, 8, 12], 5, [48, 47, 46]⟩), [], [31, 33], [167]⟩,
   ⟨20, 11, 3, (some 31), true, false, 175, 175, 1750,
    (some ⟨4, 172, 1670, [127, 93, 92, 91, 90]⟩),
    (some ⟨2, [126, 87, 142, 86], [23, 5, 19, 16], 6, [160, 161, 164]⟩), [48, 47, 46], [18, 23, 24], [172]⟩,
   ⟨20, 11, 2, (some 41), true, false, 187, 187, 1870,
    (some ⟨3, 181, 1750, [126, 87, 142, 86]⟩),
    (some ⟨1, [85, 145, 125], [11, 17, 9], 4, [17, 19]⟩), [160, 161, 164], [106], [181]⟩,
   ⟨20, 11, 1, (some 2), true, false, 194, 194, 1940,
    (some ⟨2, 191, 1870, [85, 145, 125]⟩),
    (some ⟨0, [121, 84, 101, 83], [8, 13, 22, 10], 5, [82, 84, 86, 89, 90, 92]⟩), [17, 19], [5, 8], [191]⟩,
   ⟨20, 11, 0, (some 15), false, true, 199, 199, 1990,
    (some ⟨1, 199, 1940, [121, 84, 101, 83]⟩),
    none, [82, 84, 86, 89, 90, 92], [], [199]⟩])]

theorem ko3n11Plan_sections : ko3n11Plan.map Prod.fst = ko3 := rfl

theorem ko3n11Plan_ok : netKoR.PlanOK "14:00" ko3n11Delays 40 netKoRSpecial ko3n11Plan :=
  ko3Plan_ok.again rfl (by decide +kernel) (by decide +kernel) (by decide +kernel) (by decide +kernel)

theorem ko3n11_cost : netKoR.costOK ko3n11Plan 222 = true := by decide +kernel

/-- the departures: train and station -/
def ko3n11Nodes : List (Nat × Nat) := [
  (6, 0), (6, 1), (2, 0), (16, 4), (18, 4), (16, 3), (14, 4), (18, 3), (18, 2), (14, 3), (6, 2),
  (2, 1), (6, 3), (2, 2), (2, 3), (14, 2), (14, 1), (16, 2), (16, 1), (17, 4), (1, 3), (1, 4),
  (18, 1), (5, 0), (7, 0), (7, 1), (7, 2), (7, 3), (19, 1), (8, 0), (8, 1), (8, 2), (8, 3), (8, 4),
  (5, 1), (3, 0), (5, 2), (3, 1), (5, 3), (5, 4), (17, 3), (1, 2), (20, 3), (20, 2), (20, 1),
  (10, 0), (9, 0), (9, 1), (9, 2), (9, 3), (10, 1), (10, 2), (10, 3), (13, 1), (12, 1), (4, 0),
  (4, 1), (4, 2), (4, 3), (1, 0), (1, 1), (19, 3), (20, 4), (19, 2), (17, 2), (17, 1), (0, 3),
  (19, 4)]

/-- the choices -/
def ko3n11Choices : List CodedNet.Choice := [
  .first 1 5 0, .first 2 6 0, .first 3 5 0, .first 1 5 1, .first 2 6 1, .first 14 16 4,
  .first 16 18 4, .against 2 16 3 4, .first 14 16 3, .first 16 18 3, .first 14 18 2,
  .against 14 6 3 2, .first 2 6 2, .first 2 6 3, .against 14 2 3 2, .against 1 17 3 4,
  .against 16 6 3 2, .first 7 5 0, .first 18 19 1, .first 1 5 3, .against 8 18 0 1,
  .against 5 19 0 1, .first 16 18 1, .against 7 18 0 1, .against 5 17 3 4, .first 7 5 1,
  .first 7 5 2, .first 7 5 3, .against 5 18 0 1, .against 1 17 2 3, .against 7 20 2 3,
  .against 3 19 0 1, .against 20 5 3 2, .first 9 10 0, .against 8 16 0 1, .against 7 16 0 1,
  .first 12 13 1, .against 1 19 0 1, .against 12 4 1 0, .against 4 13 0 1, .first 7 8 0,
  .first 7 8 1, .first 7 8 2, .first 7 8 3, .against 8 18 2 3, .against 8 19 2 3,
  .against 14 8 1 0, .against 7 19 2 3, .against 2 18 3 4, .against 18 6 4 3, .against 7 20 3 4,
  .first 3 1 0, .first 16 18 2, .first 7 1 3, .against 7 17 3 4, .first 14 16 1, .against 18 6 3 2,
  .first 14 18 1, .against 7 14 0 1, .against 20 8 4 3, .first 9 10 2, .against 20 1 3 2,
  .against 2 16 2 3, .first 1 5 2, .against 2 18 2 3, .against 0 14 3 4, .against 0 16 3 4,
  .against 3 20 0 1, .against 1 18 0 1, .against 6 19 3 4]

/-- the inequalities -/
def ko3n11Arcs : ArcTree :=
  .node ⟨.track, 4, 1, 0, 0, 110, false⟩ (.node ⟨.track, 10, 2, 3, 0, 4, false⟩ (.node
  ⟨.track, 12, 4, 0, 0, 113, false⟩ (.node ⟨.track, 20, 8, 4, 0, 5, false⟩ (.node
  ⟨.follow, 25, 14, 11, 3, 0, false⟩ (.node ⟨.run, 0, 8, 9, 8, 0, false⟩ (.node
  ⟨.come, 60, 41, 42, 6, 0, false⟩ (.node ⟨.follow, 81, 25, 30, 3, 0, false⟩ .none .none) (.node
  ⟨.follow, 5, 36, 24, 3, 0, false⟩ .none .none)) (.node ⟨.come, 75, 60, 29, 4, 0, false⟩ (.node
  ⟨.run, 0, 41, 65, 6, 0, false⟩ .none .none) .none)) (.node ⟨.run, 0, 36, 38, 7, 0, false⟩ (.node
  ⟨.come, 65, 43, 37, 7, 0, false⟩ (.node ⟨.follow, 85, 27, 32, 3, 0, false⟩ .none .none) .none)
  (.node ⟨.run, 0, 64, 29, 6, 0, false⟩ (.node ⟨.come, 134, 4, 67, 6, 0, false⟩ .none .none)
  .none))) (.node ⟨.run, 0, 16, 17, 6, 0, false⟩ (.node ⟨.run, 0, 30, 31, 5, 0, false⟩ (.node
  ⟨.follow, 68, 46, 47, 3, 0, false⟩ (.node ⟨.follow, 107, 28, 21, 3, 0, false⟩ .none .none) .none)
  (.node ⟨.run, 0, 5, 8, 7, 0, false⟩ (.node ⟨.come, 126, 6, 14, 7, 0, false⟩ .none .none) .none))
  (.node ⟨.come, 49, 39, 20, 6, 0, false⟩ (.node ⟨.come, 80, 54, 56, 5, 0, false⟩ (.node
  ⟨.come, 118, 17, 25, 6, 0, false⟩ .none .none) .none) (.node ⟨.come, 89, 32, 8, 5, 0, false⟩
  (.node ⟨.come, 125, 14, 6, 5, 0, false⟩ .none .none) .none)))) (.node
  ⟨.track, 26, 11, 12, 0, 4, false⟩ (.node ⟨.come, 30, 14, 10, 5, 0, false⟩ (.node
  ⟨.run, 0, 26, 27, 5, 0, false⟩ (.node ⟨.come, 64, 29, 36, 6, 0, false⟩ (.node
  ⟨.follow, 39, 21, 39, 3, 0, false⟩ .none .none) .none) (.node ⟨.come, 96, 62, 27, 7, 0, false⟩
  (.node ⟨.come, 123, 43, 42, 7, 0, false⟩ .none .none) .none)) (.node
  ⟨.come, 48, 23, 25, 6, 0, false⟩ (.node ⟨.come, 72, 19, 25, 6, 0, false⟩ (.node
  ⟨.come, 109, 28, 20, 6, 0, false⟩ .none .none) .none) (.node ⟨.track, 106, 9, 6, 0, 6, false⟩
  (.node ⟨.run, 0, 7, 10, 7, 0, false⟩ .none .none) .none))) (.node
  ⟨.come, 32, 20, 21, 6, 0, false⟩ (.node ⟨.come, 44, 29, 24, 6, 0, false⟩ (.node
  ⟨.follow, 67, 47, 46, 3, 0, false⟩ (.node ⟨.follow, 111, 17, 19, 4, 0, false⟩ .none .none) .none)
  (.node ⟨.come, 101, 28, 63, 6, 0, false⟩ (.node ⟨.follow, 8, 35, 61, 2, 0, false⟩ .none .none)
  .none)) (.node ⟨.track, 54, 37, 26, 0, 4, false⟩ (.node ⟨.come, 79, 56, 54, 5, 0, false⟩ (.node
  ⟨.come, 120, 33, 63, 6, 0, false⟩ .none .none) .none) (.node ⟨.track, 85, 27, 31, 0, 3, false⟩
  (.node ⟨.run, 0, 68, 62, 7, 0, false⟩ .none .none) .none))))) (.node
  ⟨.track, 18, 6, 7, 0, 5, false⟩ (.node ⟨.track, 22, 9, 10, 0, 6, false⟩ (.node
  ⟨.come, 16, 4, 15, 6, 0, false⟩ (.node ⟨.follow, 36, 24, 25, 2, 0, false⟩ (.node
  ⟨.come, 62, 43, 27, 7, 0, false⟩ (.node ⟨.come, 57, 24, 23, 4, 0, false⟩ .none .none) .none)
  (.node ⟨.come, 92, 62, 32, 7, 0, false⟩ (.node ⟨.follow, 2, 24, 60, 2, 0, false⟩ .none .none)
  .none)) (.node ⟨.run, 0, 39, 40, 6, 0, false⟩ (.node ⟨.come, 70, 19, 30, 6, 0, false⟩ (.node
  ⟨.follow, 21, 16, 9, 3, 0, false⟩ .none .none) .none) (.node ⟨.come, 91, 32, 62, 5, 0, false⟩
  (.node ⟨.run, 0, 4, 6, 7, 0, false⟩ .none .none) .none))) (.node ⟨.run, 0, 11, 13, 6, 0, false⟩
  (.node ⟨.run, 0, 32, 33, 6, 0, false⟩ (.node ⟨.run, 0, 48, 49, 5, 0, false⟩ (.node
  ⟨.track, 2, 24, 0, 0, 180, false⟩ .none .none) .none) (.node ⟨.follow, 104, 60, 36, 2, 0, false⟩
  (.node ⟨.follow, 128, 37, 42, 2, 0, false⟩ .none .none) .none)) (.node
  ⟨.track, 52, 35, 25, 0, 4, false⟩ (.node ⟨.run, 0, 57, 58, 5, 0, false⟩ (.node
  ⟨.follow, 122, 52, 49, 3, 0, false⟩ .none .none) .none) (.node ⟨.track, 87, 28, 32, 0, 4, false⟩
  (.node ⟨.come, 140, 68, 13, 6, 0, false⟩ .none .none) .none)))) (.node
  ⟨.run, 0, 2, 11, 5, 0, false⟩ (.node ⟨.follow, 17, 10, 6, 4, 0, false⟩ (.node
  ⟨.follow, 38, 29, 23, 4, 0, false⟩ (.node ⟨.run, 0, 43, 44, 8, 0, false⟩ (.node
  ⟨.follow, 108, 21, 28, 3, 0, false⟩ .none .none) .none) (.node ⟨.come, 98, 5, 15, 6, 0, false⟩
  (.node ⟨.come, 29, 10, 14, 7, 0, false⟩ .none .none) .none)) (.node
  ⟨.come, 50, 20, 39, 6, 0, false⟩ (.node ⟨.come, 78, 56, 55, 5, 0, false⟩ (.node
  ⟨.track, 84, 31, 25, 0, 4, false⟩ .none .none) .none) (.node ⟨.follow, 105, 18, 9, 3, 0, false⟩
  (.node ⟨.follow, 56, 39, 28, 3, 0, false⟩ .none .none) .none))) (.node
  ⟨.come, 34, 11, 6, 5, 0, false⟩ (.node ⟨.follow, 6, 24, 36, 2, 0, false⟩ (.node
  ⟨.run, 0, 51, 52, 5, 0, false⟩ (.node ⟨.come, 114, 11, 8, 5, 0, false⟩ .none .none) .none) (.node
  ⟨.come, 95, 27, 62, 5, 0, false⟩ (.node ⟨.come, 129, 14, 8, 5, 0, false⟩ .none .none) .none))
  (.node ⟨.track, 56, 39, 27, 0, 4, false⟩ (.node ⟨.run, 0, 60, 61, 5, 0, false⟩ (.node
  ⟨.come, 31, 21, 20, 6, 0, false⟩ .none .none) .none) (.node ⟨.track, 83, 26, 30, 0, 3, false⟩
  (.node ⟨.come, 15, 15, 4, 6, 0, false⟩ .none .none) .none)))))) (.node
  ⟨.track, 3, 3, 0, 0, 114, false⟩ (.node ⟨.track, 14, 5, 0, 0, 119, false⟩ (.node
  ⟨.track, 13, 4, 0, 0, 127, false⟩ (.node ⟨.come, 24, 11, 10, 5, 0, false⟩ (.node
  ⟨.run, 0, 9, 23, 6, 0, false⟩ (.node ⟨.run, 0, 42, 21, 6, 0, false⟩ (.node
  ⟨.come, 69, 30, 19, 4, 0, false⟩ .none .none) (.node ⟨.track, 1, 60, 0, 0, 172, false⟩ .none
  .none)) (.node ⟨.come, 71, 25, 19, 5, 0, false⟩ (.node ⟨.run, 0, 65, 66, 5, 0, false⟩ .none
  .none) .none)) (.node ⟨.run, 0, 37, 39, 6, 0, false⟩ (.node ⟨.come, 63, 36, 29, 6, 0, false⟩
  (.node ⟨.track, 116, 23, 16, 0, 4, false⟩ .none .none) .none) (.node
  ⟨.come, 93, 17, 30, 6, 0, false⟩ (.node ⟨.come, 133, 67, 4, 6, 0, false⟩ .none .none) .none)))
  (.node ⟨.run, 0, 6, 18, 8, 0, false⟩ (.node ⟨.run, 0, 31, 32, 4, 0, false⟩ (.node
  ⟨.run, 0, 47, 48, 6, 0, false⟩ (.node ⟨.follow, 88, 33, 28, 3, 0, false⟩ .none .none) .none)
  (.node ⟨.come, 102, 63, 28, 6, 0, false⟩ (.node ⟨.track, 39, 21, 37, 0, 4, false⟩ .none .none)
  .none)) (.node ⟨.come, 43, 24, 29, 4, 0, false⟩ (.node ⟨.run, 0, 56, 57, 6, 0, false⟩ (.node
  ⟨.come, 117, 25, 17, 5, 0, false⟩ .none .none) .none) (.node ⟨.come, 58, 23, 24, 6, 0, false⟩
  (.node ⟨.come, 99, 5, 13, 6, 0, false⟩ .none .none) .none)))) (.node
  ⟨.follow, 9, 12, 2, 3, 0, false⟩ (.node ⟨.run, 0, 10, 16, 8, 0, false⟩ (.node
  ⟨.run, 0, 27, 28, 6, 0, false⟩ (.node ⟨.come, 66, 37, 43, 5, 0, false⟩ (.node
  ⟨.come, 33, 6, 11, 7, 0, false⟩ .none .none) .none) (.node ⟨.track, 19, 6, 5, 0, 5, false⟩ (.node
  ⟨.follow, 73, 55, 54, 4, 0, false⟩ .none .none) .none)) (.node ⟨.come, 47, 25, 23, 5, 0, false⟩
  (.node ⟨.follow, 74, 54, 55, 2, 0, false⟩ (.node ⟨.follow, 55, 28, 39, 3, 0, false⟩ .none .none)
  .none) (.node ⟨.track, 46, 23, 18, 0, 4, false⟩ (.node ⟨.come, 136, 45, 36, 6, 0, false⟩ .none
  .none) .none))) (.node ⟨.run, 0, 21, 22, 6, 0, false⟩ (.node ⟨.run, 0, 24, 35, 4, 0, false⟩
  (.node ⟨.run, 0, 46, 51, 6, 0, false⟩ (.node ⟨.come, 97, 15, 5, 6, 0, false⟩ .none .none) .none)
  (.node ⟨.run, 0, 63, 43, 7, 0, false⟩ (.node ⟨.come, 130, 8, 14, 7, 0, false⟩ .none .none)
  .none)) (.node ⟨.follow, 51, 26, 35, 3, 0, false⟩ (.node ⟨.come, 76, 29, 60, 6, 0, false⟩ (.node
  ⟨.come, 119, 63, 33, 6, 0, false⟩ .none .none) .none) (.node ⟨.follow, 84, 31, 26, 2, 0, false⟩
  (.node ⟨.come, 137, 60, 23, 4, 0, false⟩ .none .none) .none))))) (.node
  ⟨.track, 11, 7, 0, 0, 119, false⟩ (.node ⟨.track, 17, 10, 4, 0, 5, false⟩ (.node
  ⟨.track, 27, 15, 11, 0, 4, false⟩ (.node ⟨.run, 0, 25, 26, 6, 0, false⟩ (.node
  ⟨.come, 61, 27, 43, 5, 0, false⟩ (.node ⟨.follow, 37, 23, 29, 4, 0, false⟩ .none .none) .none)
  (.node ⟨.come, 94, 30, 17, 4, 0, false⟩ (.node ⟨.come, 124, 42, 43, 5, 0, false⟩ .none .none)
  .none)) (.node ⟨.follow, 46, 23, 19, 4, 0, false⟩ (.node ⟨.come, 41, 30, 23, 4, 0, false⟩ (.node
  ⟨.follow, 115, 17, 23, 4, 0, false⟩ .none .none) .none) (.node ⟨.come, 90, 8, 32, 7, 0, false⟩
  (.node ⟨.come, 131, 67, 7, 6, 0, false⟩ .none .none) .none))) (.node
  ⟨.run, 0, 18, 19, 6, 0, false⟩ (.node ⟨.run, 0, 33, 34, 6, 0, false⟩ (.node
  ⟨.run, 0, 49, 50, 6, 0, false⟩ (.node ⟨.follow, 112, 19, 17, 4, 0, false⟩ .none .none) .none)
  (.node ⟨.follow, 103, 36, 60, 3, 0, false⟩ (.node ⟨.track, 127, 42, 35, 0, 3, false⟩ .none .none)
  .none)) (.node ⟨.follow, 35, 25, 24, 3, 0, false⟩ (.node ⟨.run, 0, 58, 59, 6, 0, false⟩ (.node
  ⟨.follow, 121, 49, 52, 3, 0, false⟩ .none .none) .none) (.node ⟨.follow, 86, 32, 27, 2, 0, false⟩
  (.node ⟨.come, 139, 13, 68, 6, 0, false⟩ .none .none) .none)))) (.node
  ⟨.track, 28, 13, 14, 0, 4, false⟩ (.node ⟨.come, 23, 10, 11, 7, 0, false⟩ (.node
  ⟨.come, 42, 23, 30, 6, 0, false⟩ (.node ⟨.run, 0, 44, 45, 6, 0, false⟩ (.node
  ⟨.come, 110, 20, 28, 6, 0, false⟩ .none .none) .none) (.node ⟨.come, 100, 13, 5, 6, 0, false⟩
  (.node ⟨.run, 0, 14, 15, 6, 0, false⟩ .none .none) .none)) (.node
  ⟨.follow, 40, 39, 21, 3, 0, false⟩ (.node ⟨.come, 77, 55, 56, 6, 0, false⟩ (.node
  ⟨.follow, 83, 26, 31, 3, 0, false⟩ .none .none) .none) (.node ⟨.follow, 45, 19, 23, 4, 0, false⟩
  (.node ⟨.come, 135, 36, 45, 6, 0, false⟩ .none .none) .none))) (.node
  ⟨.follow, 19, 6, 8, 4, 0, false⟩ (.node ⟨.run, 0, 35, 37, 4, 0, false⟩ (.node
  ⟨.run, 0, 52, 53, 6, 0, false⟩ (.node ⟨.come, 113, 8, 11, 7, 0, false⟩ .none .none) .none) (.node
  ⟨.run, 0, 62, 64, 8, 0, false⟩ (.node ⟨.come, 132, 7, 67, 6, 0, false⟩ .none .none) .none))
  (.node ⟨.follow, 53, 27, 37, 3, 0, false⟩ (.node ⟨.run, 0, 61, 42, 4, 0, false⟩ (.node
  ⟨.run, 0, 20, 41, 7, 0, false⟩ .none .none) .none) (.node ⟨.follow, 82, 30, 25, 2, 0, false⟩
  (.node ⟨.track, 7, 61, 24, 0, 3, false⟩ .none .none) .none))))))

/-- the bounds of the departures -/
def ko3n11Times : TimeTree :=
  .node 2 0 2 (.node 116 0 156 (.node 112 0 152 (.node 115 0 155 (.node 129 4 169 (.node 149 0 189
  (.node 169 0 209 .none .none) .none) (.node 238 0 278 .none .none)) (.node 153 4 193 (.node 188 0
  228 .none .none) (.node 77 4 117 .none .none))) (.node 128 0 168 (.node 142 4 182 (.node 178 0
  218 (.node 111 4 151 .none .none) .none) (.node 244 0 284 .none .none)) (.node 165 0 205 (.node
  177 0 217 .none .none) (.node 102 4 142 .none .none)))) (.node 129 0 169 (.node 145 0 185 (.node
  136 4 176 (.node 161 0 201 (.node 208 0 248 .none .none) .none) (.node 249 0 289 .none .none))
  (.node 154 0 194 (.node 202 0 242 .none .none) (.node 85 0 125 .none .none))) (.node 135 4 175
  (.node 197 0 237 (.node 182 0 222 .none .none) (.node 255 4 295 .none .none)) (.node 176 4 216
  (.node 196 4 236 .none .none) (.node 187 0 227 .none .none))))) (.node 122 0 162 (.node 121 0 161
  (.node 136 0 176 (.node 130 0 170 (.node 153 0 193 (.node 169 0 209 .none .none) .none) (.node
  244 0 284 .none .none)) (.node 174 0 214 (.node 194 6 234 .none .none) (.node 79 0 119 .none
  .none))) (.node 118 0 158 (.node 195 0 235 (.node 183 0 223 (.node 148 0 188 .none .none) .none)
  (.node 249 0 289 .none .none)) (.node 171 4 211 (.node 189 0 229 .none .none) (.node 182 0 222
  .none .none)))) (.node 128 0 168 (.node 122 0 162 (.node 136 0 176 (.node 169 6 209 (.node 213 6
  253 .none .none) .none) (.node 255 4 295 .none .none)) (.node 160 0 200 (.node 191 0 231 .none
  .none) (.node 93 0 133 .none .none))) (.node 123 0 163 (.node 203 6 243 (.node 190 4 230 .none
  .none) (.node 85 6 125 .none .none)) (.node 144 0 184 (.node 238 0 278 .none .none) (.node 161 0
  201 .none .none)))))

/-- some of the cases -/
def ko3n11Case0 : SumTree :=
  .cases [178, 179, 20, 165, 23, 166, 15, 183, 25, 24, 30, 26, 31, 32] 21 (.cases [56] 15 (.cases
  [157, 158, 159, 160] 16 (.cases [132, 25] 35 (.leaf [96]) (.cases [83, 34, 35, 36] 23 (.leaf
  [52]) (.cases [51, 34, 35, 36] 32 (.leaf [79, 48, 49]) (.leaf [68, 69, 70])))) (.cases
  [29, 24, 30, 26, 31, 32] 35 (.cases [96] 51 (.leaf [106, 93, 94, 64, 157, 158, 159, 160]) (.cases
  [105, 47] 22 (.leaf [118]) (.cases [50] 60 (.leaf [154, 78]) (.leaf [153, 74])))) (.cases
  [83, 34, 35, 36] 22 (.cases [] 37 (.leaf [95]) (.cases [92, 93, 94, 64, 28, 157, 158, 159, 160]
  31 (.leaf [80, 92, 93, 94, 64, 28]) (.leaf [67, 47]))) (.leaf [50, 83, 34, 35, 36])))) (.cases
  [27, 28] 19 (.leaf [131, 49]) (.cases [] 16 (.cases [132, 25] 24 (.cases [] 69 (.cases [] 23
  (.cases [52] 22 (.cases [] 31 (.leaf [80]) (.cases [67, 47] 35 (.leaf [96, 118]) (.cases
  [83, 34, 52, 35, 36] 32 (.leaf [79, 48, 49, 55, 27, 28]) (.leaf [68, 69, 70])))) (.leaf [50]))
  (.cases [51, 34, 35, 36] 31 (.leaf [80]) (.cases [] 56 (.leaf
  [142, 25, 186, 187, 110, 111, 67, 47]) (.leaf [141, 31, 32, 51, 34, 35, 36])))) (.cases [185] 31
  (.leaf [80]) (.cases [67, 47] 35 (.leaf [96]) (.cases [83, 34, 35, 36] 23 (.leaf [52]) (.cases
  [51, 34, 35, 36] 32 (.leaf [79, 48, 49, 55, 27, 28]) (.leaf [68, 69, 70])))))) (.leaf
  [53, 49, 54, 28])) (.cases [29, 24, 26] 23 (.cases [52] 35 (.cases [96] 36 (.cases [] 31 (.leaf
  [80]) (.cases [67, 47] 22 (.cases [118] 38 (.cases [86] 39 (.leaf [91]) (.leaf [87, 88, 89, 90]))
  (.leaf [85])) (.cases [] 52 (.cycle 23 [116, 117, 32]) (.cycle 6 [30, 31, 115])))) (.leaf [84]))
  (.cases [83, 34, 52, 35, 36] 36 (.cases [] 37 (.leaf [95]) (.cases [] 31 (.leaf
  [80, 92, 93, 94, 64, 28]) (.cases [67, 47] 38 (.cases [86] 39 (.leaf [91]) (.leaf
  [87, 88, 89, 90])) (.leaf [85])))) (.leaf [84]))) (.cases [] 49 (.cases [] 48 (.leaf
  [140, 103, 184, 31, 32, 51, 34, 35, 36]) (.cases [] 13 (.cycle 11 [29, 100, 101, 18]) (.cycle 14
  [15, 25, 14]))) (.leaf [102, 103, 31, 32, 51, 34, 35, 36])))))) (.cases
  [43, 44, 161, 45, 46, 93, 47, 48, 94, 49, 64, 28] 47 (.leaf [109, 110, 111, 43, 137]) (.cases
  [99, 36] 15 (.leaf [157, 158, 159, 160]) (.cases [27, 28] 24 (.leaf [55, 27, 28]) (.cases
  [53, 49] 50 (.leaf [107, 108, 69, 70]) (.cases [104] 51 (.leaf [106, 93, 94, 64, 28]) (.leaf
  [105, 47]))))))

/-- some of the cases -/
def ko3n11Case1 : SumTree :=
  .cases [56] 18 (.cases [] 15 (.cases [157, 158, 159, 160] 63 (.cycle 42 [170, 171, 94]) (.cases
  [] 19 (.cycle 21 [168, 169, 64]) (.cases [] 38 (.cases [86] 16 (.cases [132, 25] 37 (.leaf [95])
  (.cases [92, 93, 94, 64, 157, 158, 159, 160] 39 (.leaf [91]) (.leaf [87, 88, 89, 90]))) (.cases
  [29, 24, 30, 26, 31, 32] 61 (.cases [] 50 (.cases [107, 108, 69, 70] 23 (.cases [52] 32 (.leaf
  [79, 48, 49, 54, 28]) (.leaf [68, 69, 163, 70, 64, 157, 158, 159, 160])) (.leaf
  [51, 34, 35, 36, 107, 108, 69, 163, 70, 64, 28])) (.cases [104] 22 (.cases [] 37 (.leaf [95])
  (.cases [92, 93, 94, 64, 157, 158, 159, 160] 39 (.leaf [91]) (.leaf [87, 88, 89, 90]))) (.leaf
  [50]))) (.leaf [162, 69, 70]))) (.cases [85] 31 (.leaf [80]) (.cases [67, 47] 16 (.leaf
  [132, 25]) (.cases [29, 24, 100, 26] 47 (.leaf [109, 110, 111, 67, 47]) (.cases [99, 36] 48
  (.leaf [140, 103, 31, 32]) (.leaf [101])))))))) (.cases [27, 28] 19 (.leaf [131, 49]) (.cases []
  28 (.leaf [129]) (.cases [] 16 (.cases [132, 25] 40 (.leaf [127, 39, 40, 41, 42]) (.cases [] 41
  (.cycle 26 [125, 126, 34]) (.cases [] 42 (.cycle 27 [123, 124, 35]) (.cases [] 43 (.cycle 28
  [121, 122, 36]) (.cases [] 29 (.cases [] 45 (.cases [] 24 (.cases [] 69 (.cases [] 56 (.cases
  [142, 25, 186, 187] 31 (.leaf [80]) (.cases [67, 47] 47 (.leaf [109, 110, 111, 67, 47]) (.cases
  [99, 36] 33 (.leaf [75, 76, 77, 78]) (.leaf [71, 72, 73, 74])))) (.cases [141, 31, 32] 37 (.leaf
  [95]) (.cases [92] 31 (.leaf [80, 92, 93, 94, 64, 28]) (.cases [67, 47] 47 (.leaf
  [109, 110, 111, 67, 47]) (.cases [99, 36] 50 (.leaf [107, 108, 69, 70]) (.cases [104] 51 (.leaf
  [106, 93, 94, 64, 28]) (.leaf [105, 47]))))))) (.cases [185] 37 (.leaf [95]) (.cases [] 31 (.leaf
  [80, 92, 93, 94, 64, 28]) (.cases [67, 47] 23 (.leaf [52]) (.cases [51, 34, 35, 36] 34 (.cases []
  32 (.leaf [79, 48, 55, 27, 28]) (.leaf [68, 69, 70])) (.leaf
  [81, 39, 40, 41, 113, 42, 110, 111])))))) (.leaf [53, 49])) (.leaf [97, 41, 42])) (.leaf
  [63, 64, 28])))))) (.cases [29, 24, 30, 100, 26, 31, 32] 29 (.cases [] 59 (.leaf [156, 42])
  (.cases [] 35 (.cases [96] 49 (.cases [] 48 (.leaf [140, 103, 184, 31, 32]) (.cases [101] 22
  (.leaf [118]) (.cases [] 52 (.cycle 9 [32, 116, 117]) (.cycle 6 [30, 31, 115])))) (.leaf
  [102, 103, 31, 32])) (.cases [83, 34, 35, 36] 44 (.leaf [119, 31, 32]) (.cases [] 45 (.cases []
  48 (.cases [140, 103, 31, 32] 37 (.leaf [95]) (.cases [] 31 (.leaf [80, 92, 93, 94, 64, 28])
  (.cases [67, 47] 47 (.leaf [109, 110, 111, 67, 47]) (.cases [] 49 (.leaf [184]) (.leaf
  [102, 103, 31, 114, 32, 41, 113, 42, 99, 36]))))) (.cases [] 13 (.cycle 11 [29, 100, 101, 18])
  (.cycle 14 [15, 25, 14]))) (.leaf [97, 41, 42, 155, 108, 69, 70]))))) (.leaf [63, 64, 28]))))))
  (.leaf [37])

/-- some of the cases -/
def ko3n11Case2 : SumTree :=
  .cases [43, 44, 161, 45, 46, 93, 47, 48, 94, 49, 64] 47 (.leaf [109, 110, 111, 43, 137]) (.cases
  [99, 36] 15 (.leaf [157, 158, 159, 160]) (.cases [27, 28] 24 (.leaf [55, 27, 28]) (.cases
  [53, 49] 50 (.leaf [107, 108, 69, 70]) (.leaf [104]))))

/-- some of the cases -/
def ko3n11Case3 : SumTree :=
  .cases [157, 158, 159, 160] 64 (.cases [173, 31, 32] 65 (.cases [178, 179, 20, 23] 56 (.cases
  [142, 25] 63 (.cycle 42 [170, 171, 94]) (.cases [] 19 (.cycle 21 [168, 169, 64]) (.cases [] 31
  (.leaf [80]) (.cases [] 21 (.cases [56, 67, 47] 51 (.leaf [106, 93, 94, 64, 157, 158, 159, 160])
  (.cases [] 37 (.leaf [95, 67, 47]) (.leaf [92, 93, 105, 94, 47, 64, 28, 157, 158, 159, 160])))
  (.leaf [43, 44, 46, 48, 49, 54, 157, 158, 159, 160]))))) (.cases [141, 31, 32] 63 (.cycle 42
  [170, 171, 94]) (.cases [] 42 (.leaf [143, 41, 42]) (.cases [] 19 (.cycle 21 [168, 169, 64])
  (.cases [] 43 (.cycle 28 [121, 122, 36]) (.cases [] 45 (.cases [] 38 (.cases [86] 34 (.cases
  [128] 31 (.leaf [80]) (.cases [] 21 (.cases [56] 23 (.cases [52] 61 (.cases [] 47 (.leaf
  [109, 110, 111, 67, 47]) (.cases [99, 36] 50 (.leaf [107, 108, 163, 64, 157, 158, 159, 160])
  (.cases [104] 33 (.leaf [75, 76, 77, 78]) (.leaf [71, 72, 73, 74])))) (.leaf [162, 69, 70]))
  (.leaf [51, 34, 35, 36])) (.leaf [43, 44, 46, 48, 49, 54, 157, 158, 159, 160]))) (.cases
  [81, 39, 40, 113] 47 (.cases [109, 110, 111] 37 (.cases [95] 31 (.cases [80] 39 (.leaf [91])
  (.leaf [87, 88, 89, 90])) (.leaf [67, 47])) (.leaf [92, 93, 94, 64, 157, 158, 159, 160])) (.cases
  [99, 36] 31 (.leaf [80]) (.cases [] 39 (.cases [91] 37 (.leaf [95]) (.cases [] 21 (.leaf
  [56, 92, 93, 94, 64, 28, 157, 158, 159, 160]) (.leaf
  [43, 44, 46, 48, 49, 54, 157, 158, 159, 160]))) (.cases [87, 88, 89, 90] 37 (.leaf [95]) (.cases
  [] 21 (.leaf [56, 92, 93, 94, 64, 28, 157, 158, 159, 160]) (.leaf
  [43, 44, 46, 48, 49, 54, 157, 158, 159, 160]))))))) (.cases [85] 37 (.leaf [95]) (.cases [] 21
  (.cases [56, 92, 93, 94, 64, 28, 157, 158, 159, 160] 23 (.leaf [52]) (.leaf [51, 34, 35, 36]))
  (.leaf [43, 44, 45, 46, 47, 48, 49, 54, 157, 158, 159, 160])))) (.leaf [97, 41, 42, 136])))))))
  (.cases [174] 63 (.cycle 42 [170, 171, 94]) (.cases [] 19 (.cycle 21 [168, 169, 64]) (.cases []
  31 (.leaf [80]) (.cases [] 21 (.cases [56, 67, 47] 56 (.leaf [142, 25]) (.cases [141, 31, 32] 47
  (.leaf [109, 110, 111, 67, 47]) (.cases [99, 36] 66 (.leaf [176, 177, 167, 166, 15, 25]) (.leaf
  [175])))) (.leaf [43, 44, 46, 48, 49, 54, 157, 158, 159, 160])))))) (.cases [172, 166, 15, 25] 37
  (.leaf [95]) (.cases [] 21 (.leaf [56, 92, 93, 94, 64, 28, 157, 158, 159, 160]) (.leaf
  [43, 44, 161, 46, 93, 48, 94, 49, 64, 157, 158, 159, 160])))

/-- some of the cases -/
def ko3n11Case4 : SumTree :=
  .cases [52] 19 (.leaf [131, 49]) (.cases [] 20 (.cases [] 64 (.cases [] 65 (.cases
  [178, 179, 20, 23] 29 (.cases [] 24 (.cases [] 32 (.cases [79, 48, 49, 55, 158, 27, 159, 28, 160]
  50 (.leaf [107, 108, 79, 48, 49, 55, 27, 28]) (.cases [104] 36 (.cases [] 31 (.leaf [80]) (.cases
  [67, 47] 38 (.cases [86] 39 (.cases [91] 33 (.leaf [75, 76, 77, 78]) (.leaf [71, 72, 73, 74]))
  (.cases [87, 88, 89, 90] 33 (.leaf [75, 76, 77, 78]) (.leaf [71, 72, 73, 74]))) (.leaf
  [85, 164]))) (.leaf [84]))) (.cases [68, 69, 70] 40 (.leaf [127, 39, 82, 40, 41, 42]) (.cases []
  41 (.cycle 26 [125, 126, 34]) (.cases [] 42 (.cycle 27 [123, 124, 35]) (.cases [] 43 (.cycle 28
  [121, 122, 36]) (.cases [] 45 (.cases [] 38 (.cases [86] 37 (.cases [95] 13 (.cases [] 31 (.cases
  [80] 39 (.leaf [91]) (.leaf [87, 88, 89, 90])) (.leaf [67, 47])) (.cycle 14 [15, 25, 14]))
  (.cases [92] 31 (.leaf [80, 92, 93, 94, 64, 28]) (.cases [67, 47] 47 (.leaf
  [109, 110, 111, 92, 67, 93, 47, 94, 64, 28]) (.cases [99, 36] 34 (.cases [128] 13 (.cases [] 39
  (.leaf [91]) (.leaf [87, 88, 89, 90])) (.cycle 14 [15, 25, 14])) (.cases
  [81, 39, 40, 113, 99, 36] 39 (.cases [91] 13 (.cases [] 33 (.cases [75, 76, 77, 78] 51 (.leaf
  [106, 93, 94, 64, 28]) (.leaf [105, 47])) (.cases [71, 72, 73, 74] 51 (.leaf
  [106, 93, 94, 64, 28]) (.leaf [105, 47]))) (.cycle 14 [15, 25, 14])) (.cases [87, 88, 89, 90] 13
  (.cases [] 33 (.cases [75, 76, 77, 78] 51 (.leaf [106, 93, 94, 64, 28]) (.leaf [105, 47]))
  (.cases [71, 72, 73, 74] 51 (.leaf [106, 93, 94, 64, 28]) (.leaf [105, 47]))) (.cycle 14
  [15, 25, 14]))))))) (.cases [85] 37 (.leaf [95]) (.cases [92] 31 (.leaf [80, 92, 93, 94, 64, 28])
  (.cases [67, 47] 34 (.leaf [128]) (.cases [81, 39, 40, 113] 47 (.leaf [109, 110, 111, 67, 47])
  (.cases [99, 36] 51 (.leaf [106, 93, 94, 64, 28]) (.leaf [105, 47]))))))) (.leaf
  [97, 41, 42, 136]))))))) (.leaf [53, 49, 54, 28])) (.leaf [63, 64, 28])) (.cases [174] 66 (.leaf
  [176, 177, 24, 167, 26, 166, 15, 25]) (.cases [175] 13 (.cases [] 38 (.cases [86] 39 (.leaf [91])
  (.leaf [87, 88, 89, 90])) (.leaf [85])) (.cycle 14 [15, 25, 14])))) (.cases [172, 166, 15, 25] 13
  (.cases [] 38 (.cases [86] 39 (.leaf [91]) (.leaf [87, 88, 89, 90])) (.leaf [85])) (.cycle 14
  [15, 25, 14]))) (.leaf [38, 39, 40, 41, 42]))

/-- some of the cases -/
def ko3n11Case5 : SumTree :=
  .cases [51, 34, 35, 36] 19 (.leaf [131, 49]) (.cases [] 64 (.cases [173, 31, 32, 51, 34, 35, 36]
  29 (.cases [] 24 (.cases [] 65 (.cases [178, 179, 20, 23] 67 (.cases [] 31 (.cases [80] 37
  (.cases [] 56 (.leaf [142, 25]) (.cases [141, 31, 32, 51, 34, 35, 36] 51 (.leaf [106, 95]) (.leaf
  [105, 80]))) (.leaf [92, 93, 94, 64, 28])) (.cases [67, 47] 37 (.leaf [95, 67, 47, 182]) (.cases
  [92] 56 (.cases [142, 25] 36 (.cases [] 38 (.cases [86] 39 (.cases [91] 33 (.leaf
  [75, 76, 77, 78]) (.leaf [71, 72, 73, 74])) (.cases [87, 88, 89, 90] 33 (.leaf [75, 76, 77, 78])
  (.leaf [71, 72, 73, 74]))) (.leaf [85, 164])) (.leaf [84])) (.cases [141, 31, 32, 51, 34, 35, 36]
  27 (.cases [] 38 (.cases [86] 39 (.cases [91] 30 (.cases [66] 32 (.leaf [79, 48, 49, 55, 27, 28])
  (.cases [68, 69, 70] 51 (.leaf [106, 93, 94, 64, 28]) (.leaf [105, 47]))) (.leaf
  [65, 36, 148, 49])) (.cases [87, 88, 89, 90] 30 (.cases [66] 32 (.leaf [79, 48, 49, 55, 27, 28])
  (.cases [68, 69, 70] 51 (.leaf [106, 93, 94, 64, 28]) (.leaf [105, 47]))) (.leaf
  [65, 36, 148, 49]))) (.cases [85] 36 (.leaf [164]) (.cases [84] 60 (.leaf [154, 78]) (.leaf
  [153, 74])))) (.leaf [181, 147, 27, 28]))))) (.leaf [180, 47])) (.cases [174] 31 (.leaf [80])
  (.cases [67, 47] 56 (.leaf [142, 25]) (.cases [141, 31, 32, 51, 34, 35, 36] 66 (.leaf
  [176, 177, 24, 167, 26, 166, 15, 25]) (.leaf [175]))))) (.leaf [53, 49, 54, 28])) (.leaf
  [63, 64, 28])) (.cases [172, 166, 15, 25] 36 (.cases [] 13 (.cases [] 37 (.leaf [95]) (.cases []
  31 (.leaf [80, 92, 93, 94, 64, 28]) (.cases [67, 47] 38 (.cases [86] 39 (.leaf [91]) (.leaf
  [87, 88, 89, 90])) (.leaf [85])))) (.cycle 14 [15, 25, 14])) (.leaf [84])))

/-- some of the cases -/
def ko3n11Case6 : SumTree :=
  .cases [43, 44, 46, 48, 49] 47 (.leaf [109, 110, 111, 43, 137]) (.cases [99, 36] 56 (.cases
  [142, 25] 63 (.cycle 61 [94, 170, 171]) (.cases [] 19 (.cycle 21 [168, 169, 64]) (.cases [] 24
  (.leaf [55, 27, 28]) (.leaf [53, 49, 54, 28])))) (.cases [141, 31, 32] 19 (.leaf [131, 49])
  (.cases [] 24 (.leaf [55, 27, 28]) (.leaf [53, 49, 54, 28]))))

/-- some of the cases -/
def ko3n11Case7 : SumTree :=
  .cases [157, 158, 159, 160] 24 (.cases [] 21 (.cases [56] 16 (.cases [132, 25] 51 (.cases
  [106, 93, 94, 64, 28, 157, 158, 159, 160] 37 (.leaf [95]) (.cases [] 31 (.leaf
  [80, 92, 93, 94, 64, 157, 158, 159, 160]) (.cases
  [67, 47, 106, 93, 94, 64, 28, 157, 158, 159, 160] 23 (.leaf [52]) (.cases [51, 34, 35, 36] 34
  (.leaf [128]) (.leaf [81, 39, 40, 41, 42]))))) (.cases [105, 47] 37 (.cases [95] 48 (.cases
  [140, 103, 31, 32] 36 (.cases [] 56 (.leaf [142, 25]) (.cases [141, 31, 32] 31 (.cases [80] 38
  (.cases [86] 39 (.leaf [91]) (.leaf [87, 88, 89, 90])) (.leaf [85])) (.leaf [67, 47]))) (.leaf
  [84])) (.cases [101] 31 (.cases [80] 38 (.cases [86] 39 (.leaf [91]) (.leaf [87, 88, 89, 90]))
  (.leaf [85])) (.leaf [67, 47]))) (.cases [92, 93, 105, 94, 47, 64, 28, 157, 158, 159, 160] 48
  (.cases [140, 103, 31, 32] 36 (.cases [] 56 (.leaf [142, 25]) (.cases [141, 31, 32] 47 (.leaf
  [109, 110, 111, 92, 93, 94, 64, 157, 158, 159, 160]) (.cases [99, 36] 50 (.leaf
  [107, 108, 69, 70]) (.cases [104] 38 (.cases [86] 39 (.leaf [91]) (.leaf [87, 88, 89, 90]))
  (.leaf [85, 164]))))) (.leaf [84])) (.cases [101] 47 (.leaf
  [109, 110, 111, 92, 93, 94, 64, 157, 158, 159, 160]) (.cases [99, 36] 50 (.leaf
  [107, 108, 69, 70]) (.cases [104] 33 (.leaf [75, 76, 77, 78]) (.leaf [71, 72, 73, 74])))))))
  (.cases [29, 24, 30, 26, 31, 32] 35 (.cases [96] 37 (.leaf [95]) (.cases
  [92, 93, 94, 64, 157, 158, 159, 160] 38 (.cases [86] 39 (.leaf [91]) (.leaf [87, 88, 89, 90]))
  (.leaf [85]))) (.cases [83, 34, 35, 36] 22 (.cases [] 37 (.leaf [95]) (.cases
  [92, 93, 94, 64, 28, 157, 158, 159, 160] 31 (.leaf [80, 92, 93, 94, 64, 28]) (.leaf [67, 47])))
  (.leaf [50, 83, 34, 35, 36])))) (.cases [43, 44, 161, 45, 46, 93, 47, 48, 94, 49, 64, 28, 157,
  158, 159, 160] 40 (.leaf [127, 39, 40, 41, 42]) (.cases [] 41 (.cycle 26 [125, 126, 34]) (.cases
  [] 42 (.cycle 27 [123, 124, 35]) (.cases [] 19 (.leaf [131, 49, 55, 158, 159, 160]) (.cases [] 43
  (.cycle 28 [121, 122, 36]) (.cases [] 61 (.cases [] 32 (.cases [] 47 (.leaf
  [109, 110, 111, 43, 137]) (.cases [99, 36] 44 (.leaf [119, 31, 32]) (.cases [] 45 (.cases [] 48
  (.cases [140, 103, 31, 32] 49 (.cases [] 50 (.leaf
  [107, 108, 79, 48, 49, 54, 157, 158, 159, 160]) (.cases [104] 51 (.leaf
  [106, 93, 94, 64, 157, 158, 159, 160]) (.leaf [105, 47]))) (.leaf
  [102, 103, 114, 113, 110, 111, 43, 137])) (.leaf [101])) (.leaf [97, 41, 42])))) (.leaf
  [68, 69, 163, 70, 64, 28])) (.leaf [162, 69, 70])))))))) (.leaf [53, 49])

/-- some of the cases -/
def ko3n11Case8 : SumTree :=
  .cases [52] 19 (.leaf [131, 49]) (.cases [] 47 (.cases [109, 110, 111] 57 (.cases [] 58 (.leaf
  [152, 146]) (.cases [] 24 (.cases [] 32 (.cases [79, 48, 49, 55, 27, 28] 50 (.leaf
  [107, 108, 79, 48, 49, 55, 27, 28]) (.cases [104] 31 (.cases [80] 38 (.cases [86] 39 (.leaf [91])
  (.leaf [87, 88, 89, 90])) (.leaf [85])) (.leaf [67, 47]))) (.cases [68, 69, 70] 31 (.cases [80]
  55 (.cases [] 46 (.cases [112] 34 (.leaf [128]) (.leaf [81, 39, 40, 41, 42])) (.leaf [98, 139]))
  (.leaf [138, 151, 52])) (.cases [67] 51 (.leaf [106, 93, 94, 64, 28]) (.cases [] 37 (.leaf
  [95, 67, 47]) (.leaf [92, 93, 105, 94, 47, 64, 28]))))) (.leaf [53, 49, 54, 28]))) (.cycle 23
  [144, 145, 32])) (.cases [99, 36] 57 (.cases [] 42 (.leaf [143, 41, 42]) (.cases [] 43 (.cycle 27
  [36, 121, 122]) (.cases [] 29 (.cases [] 24 (.cases [] 32 (.cases [79, 48, 49, 55, 27, 28] 22
  (.cases [] 58 (.leaf [152, 146]) (.cases [] 35 (.leaf [96, 118]) (.cases [] 50 (.leaf
  [107, 108, 69, 79, 70, 48, 55, 27, 28]) (.cases [104] 59 (.leaf [156, 42]) (.cases [] 46 (.cases
  [112] 34 (.cases [128, 83, 52] 33 (.leaf [75, 76, 77, 78]) (.leaf [71, 72, 73, 74])) (.leaf
  [81, 39, 40, 41, 155, 108, 104, 79, 48, 49, 55, 27, 28])) (.cases [98] 55 (.leaf [139, 83, 52])
  (.cases [138, 151, 52] 60 (.leaf [154, 78]) (.leaf [153, 74])))))))) (.leaf [50])) (.cases
  [68, 69, 70] 22 (.cases [] 58 (.leaf [152, 146]) (.cases [] 45 (.cases [] 38 (.cases [86] 46
  (.cases [112, 39, 40, 113, 99, 36] 35 (.leaf [96, 118]) (.cases [] 34 (.cases [128, 83, 52] 33
  (.leaf [75, 76, 77, 78]) (.leaf [71, 72, 73, 74])) (.cases
  [81, 39, 40, 41, 113, 42, 110, 99, 111, 36] 33 (.leaf [75, 76, 77, 78]) (.leaf
  [71, 72, 73, 74])))) (.cases [98] 37 (.leaf [95]) (.cases [] 31 (.leaf [80, 92, 93, 94, 64, 28])
  (.cases [67, 47] 34 (.cases [128] 39 (.leaf [91]) (.leaf [87, 88, 89, 90])) (.leaf
  [81, 98, 151, 52]))))) (.cases [85] 55 (.cases [] 35 (.leaf [96]) (.cases [] 46 (.cases [112] 34
  (.leaf [128, 83, 52]) (.leaf [81, 39, 40, 41, 113, 42, 99, 36])) (.leaf [98, 139, 83, 52])))
  (.leaf [138, 151, 52]))) (.leaf [97, 41, 42]))) (.leaf [50]))) (.leaf [53, 49, 54, 28])) (.leaf
  [63, 64, 28])))) (.cycle 23 [144, 145, 32])))

/-- some of the cases -/
def ko3n11Case9 : SumTree :=
  .cases [51, 34, 35, 36] 41 (.leaf [150, 40, 41, 42]) (.cases [] 42 (.cycle 26 [35, 123, 124])
  (.cases [] 19 (.leaf [131, 49]) (.cases [] 43 (.cycle 27 [36, 121, 122]) (.cases [] 56 (.cases
  [142, 25] 40 (.cycle 25 [127, 39, 149]) (.cases [] 29 (.cases [] 24 (.cases [] 48 (.cases
  [140, 103, 31, 142, 32, 25, 51, 34, 35, 36] 55 (.cases [] 37 (.leaf [95]) (.cases [] 31 (.leaf
  [80, 92, 93, 94, 64, 28]) (.cases [67, 47] 46 (.cases [112] 34 (.leaf [128]) (.leaf
  [81, 39, 40, 41, 42])) (.leaf [98, 139])))) (.leaf [138])) (.cases [101] 57 (.cases [] 20 (.cases
  [] 45 (.cases [] 46 (.cases [112] 34 (.cases [128] 52 (.cases [] 37 (.leaf [95]) (.cases [] 31
  (.leaf [80, 92, 93, 94, 64, 28]) (.cases [67, 47] 22 (.leaf [118, 51, 34, 35, 36]) (.cycle 23
  [116, 117, 32])))) (.cycle 9 [115, 30, 31])) (.leaf
  [81, 39, 82, 40, 51, 41, 113, 34, 42, 110, 35, 111, 36])) (.cases [98] 34 (.cases [128] 32 (.leaf
  [79, 48, 49, 55, 27, 28]) (.leaf [68, 69, 70])) (.leaf [81, 98, 146]))) (.leaf
  [97, 41, 42, 136])) (.leaf [38, 39, 126, 40, 34, 41, 35, 42, 36])) (.cycle 23 [144, 145, 32])))
  (.leaf [53, 49, 54, 28])) (.leaf [63, 64, 28]))) (.cases [141, 31, 32, 51, 34, 35, 36] 57 (.cases
  [] 45 (.cases [] 24 (.cases [] 38 (.cases [86] 46 (.cases [112] 34 (.cases [128] 17 (.cases [] 25
  (.cases [] 26 (.cases [] 27 (.cases [] 37 (.leaf [95]) (.cases [92] 31 (.leaf
  [80, 92, 93, 94, 64, 28]) (.cases [67, 47] 30 (.cases [66] 32 (.leaf [79, 48, 55, 27, 28])
  (.cases [68, 69, 70] 51 (.leaf [106, 93, 94, 64, 28]) (.leaf [105, 47]))) (.leaf
  [65, 36, 148, 49])))) (.cycle 39 [61, 62, 48])) (.cycle 37 [59, 60, 46])) (.cycle 35
  [57, 58, 44])) (.leaf [33, 34, 35, 36, 147, 27, 28])) (.cases [81, 39, 40, 41, 113, 42, 110, 111]
  39 (.leaf [91]) (.leaf [87, 88, 89, 90]))) (.cases [98] 34 (.cases [128] 32 (.leaf
  [79, 48, 49, 55, 27, 28]) (.leaf [68, 69, 70])) (.leaf
  [81, 39, 98, 40, 146, 41, 113, 42, 110, 111]))) (.cases [85] 55 (.cases [] 46 (.cases [112] 34
  (.leaf [128]) (.leaf [81, 39, 40, 41, 113, 42, 110, 111])) (.leaf [98, 139])) (.leaf [138])))
  (.leaf [53, 49])) (.leaf [97, 41, 42])) (.cycle 9 [32, 144, 145]))))))

/-- some of the cases -/
def ko3n11Case10 : SumTree :=
  .cases [43, 44, 45, 46, 47, 48, 49] 42 (.leaf [143, 41, 42]) (.cases [] 43 (.cycle 28
  [121, 122, 36]) (.cases [] 47 (.leaf [109, 110, 111, 43, 137]) (.cases [99, 36] 45 (.cases [] 34
  (.cases [128] 19 (.leaf [131, 49]) (.cases [] 48 (.cases [140, 103, 31, 32] 56 (.leaf [142, 25])
  (.cases [141, 31, 32] 24 (.leaf [55, 27, 28]) (.leaf [53, 49, 54, 28]))) (.cases [101] 55 (.cases
  [] 22 (.cases [] 23 (.leaf [52]) (.cases [] 46 (.leaf [112, 128, 118, 51, 34, 35, 36]) (.leaf
  [98, 139]))) (.leaf [50])) (.leaf [138])))) (.leaf [81, 39, 40, 113, 110, 111, 43, 137])) (.leaf
  [97, 41, 42, 136]))))

/-- some of the cases -/
def ko3n11Case11 : SumTree :=
  .cases [29, 24, 30, 26, 31, 32] 17 (.cases [] 18 (.cases [] 19 (.leaf [131, 49]) (.cases [] 20
  (.cases [] 21 (.cases [56] 25 (.cases [] 26 (.cases [] 27 (.cases [] 28 (.leaf [129, 130])
  (.cases [] 29 (.cases [] 30 (.cases [] 24 (.cases [] 23 (.cases [52] 34 (.cases [] 35 (.cases
  [96] 40 (.leaf [127, 39, 82, 128, 40, 41, 42]) (.cases [] 41 (.cycle 26 [125, 126, 34]) (.cases
  [] 42 (.cycle 27 [123, 124, 35]) (.cases [] 43 (.cycle 28 [121, 122, 36]) (.cases [] 44 (.leaf
  [119, 31, 32, 120, 44, 56, 46, 48, 49]) (.cases [] 45 (.cases [] 38 (.cases [86] 46 (.cases
  [112, 39, 40, 113] 47 (.cases [109, 110, 111] 31 (.cases [80] 39 (.leaf [91]) (.leaf
  [87, 88, 89, 90])) (.leaf [67, 47])) (.cases [99, 36] 48 (.cases [] 49 (.cases [] 22 (.cases
  [118] 39 (.leaf [91]) (.leaf [87, 88, 89, 90])) (.cases [] 52 (.cycle 23 [116, 117, 32]) (.cycle
  6 [30, 31, 115]))) (.leaf [102, 103, 31, 114, 32, 41, 42])) (.cycle 11 [29, 100, 101, 18])))
  (.cases [98] 37 (.leaf [95]) (.cases [92] 31 (.leaf [80, 92, 93, 94, 64, 28]) (.cases [67, 47] 47
  (.leaf [109, 110, 111, 67, 47]) (.cases [99, 36] 48 (.cases [] 49 (.cases [] 50 (.leaf
  [107, 108, 69, 70]) (.cases [104] 51 (.leaf [106, 93, 94, 64, 28]) (.leaf [105, 47]))) (.leaf
  [102, 103, 31, 32])) (.cycle 11 [29, 100, 101, 18])))))) (.cases [85] 37 (.leaf [95]) (.cases []
  31 (.leaf [80, 92, 93, 94, 64, 28]) (.cases [67, 47] 32 (.leaf [79, 48, 49, 55, 27, 28]) (.leaf
  [68, 69, 70]))))) (.leaf [97, 41, 42]))))))) (.cases [83, 34, 52, 35, 36] 36 (.cases [] 37 (.leaf
  [95]) (.cases [] 31 (.leaf [80, 92, 93, 94, 64, 28]) (.cases [67, 47] 38 (.cases [86] 39 (.leaf
  [91]) (.leaf [87, 88, 89, 90])) (.leaf [85])))) (.leaf [84]))) (.leaf [81, 39, 82, 40, 41, 42]))
  (.cases [51, 34, 35, 36, 66] 31 (.leaf [80]) (.cases [67, 47] 32 (.leaf [79, 48, 49, 55, 27, 28])
  (.cases [68, 69, 70] 33 (.leaf [75, 76, 77, 78]) (.leaf [71, 72, 73, 74]))))) (.leaf
  [53, 49, 54, 28])) (.leaf [65, 36])) (.leaf [63, 64, 28]))) (.cycle 39 [61, 62, 48])) (.cycle 37
  [59, 60, 46])) (.cycle 35 [57, 58, 44])) (.cases [43, 44, 45, 46, 47, 48, 49] 22 (.cases [] 23
  (.cases [52] 24 (.leaf [55, 27, 28]) (.leaf [53, 49, 54, 28])) (.leaf [51, 34, 35, 36])) (.leaf
  [50]))) (.leaf [38, 39, 40, 41, 42]))) (.leaf [37])) (.leaf [33, 34, 35, 36])

/-- some of the cases -/
def ko3n11Case12 : SumTree :=
  .cases [] 12 (.cases [] 13 (.cycle 11 [16, 10, 17, 18]) (.leaf [14, 15, 16, 10, 8])) (.cycle 11
  [11, 12, 13])

/-- all cases -/
def ko3n11Cases : SumTree :=
  .cases [] 0 (.leaf [192]) (.cases [] 1 (.cases [] 2 (.leaf [191, 137]) (.cases [] 3 (.leaf
  [190, 137]) (.cases [] 4 (.cases [] 5 (.cases [] 6 (.cases [] 7 (.leaf [189, 8]) (.cases [] 8
  (.cases [] 9 (.cases [] 10 (.cases [] 11 (.cases [] 14 (.cases [165, 166] 12 (.cases [15, 25] 62
  (.cases [183, 24, 30, 26] 65 ko3n11Case0 (.cases [174] 68 (.leaf [188]) (.cases [] 21 ko3n11Case1
  ko3n11Case2))) (.cases [167, 166, 15, 25] 15 ko3n11Case3 (.cases [27, 28] 53 (.cases [] 54
  (.cases [] 21 (.cases [56] 23 ko3n11Case4 ko3n11Case5) ko3n11Case6) (.leaf [134, 135, 28]))
  (.leaf [133])))) (.cycle 11 [11, 12, 13])) (.cases [19, 20, 21, 22, 23, 24, 25, 26] 13 (.cases []
  15 ko3n11Case7 (.cases [27, 28] 16 (.cases [132, 25] 53 (.cases [] 54 (.cases [] 21 (.cases [56]
  23 ko3n11Case8 ko3n11Case9) ko3n11Case10) (.leaf [134, 135, 28])) (.leaf [133])) ko3n11Case11))
  (.cycle 14 [19, 22, 25, 14]))) ko3n11Case12) (.leaf [9, 10, 8])) (.leaf [7, 8])) (.leaf [5, 6])))
  (.leaf [4])) (.leaf [3])) (.leaf [1, 2])))) (.leaf [0]))

theorem ko3n11_cases : ko3n11Cases.check ko3n11Arcs 222 ko3n11Choices.length [] ko3n11Times 0 = true := by
  decide +kernel

theorem ko3n11_choices : ko3n11Choices.all (CodedNet.Choice.ok netKoR netKoRSpecial ko3n11Plan) = true := by
  decide +kernel

theorem ko3n11_arcs : ko3n11Arcs.toList.all
    (netKoR.arcOK netKoRSpecial ko3n11Plan ko3n11Nodes ko3n11Choices) = true := by decide +kernel

theorem ko3n11_times : netKoR.startOK ko3n11Plan ko3n11Nodes 2 40 ko3n11Times = true := by decide +kernel

end Verif.Real
