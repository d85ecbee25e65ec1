import Verif.Proofs.PlanSum
import Verif.Proofs.PlanAgain
import Verif.Real.PlanKo3

/-!
# The sheet of `Verif.Real.Ko3` with given delays: a plan, and that no plan is better

Generated; see `CodedNet.Item` and `Verif/Proofs/SumTree.lean`. Case 3,
`disturbances[1]`, of `/repo/solve_KO_GLC_problems.py`, line 117;
`d_max` is 40. The sum of the delays that count is 12/4.
-/

namespace Verif.Real

set_option maxRecDepth 100000

/-- the given delays -/
def ko3n1Delays : List (Int × ℚ) := [
  (2, 18)]

/-- the plan, items by sections -/
def ko3n1Plan : CodedNet.Plan := [
  (train_ko3_2, [
   ⟨0, 2, 0, (some 14), true, false, 18, 18, 180,
    none,
    (some ⟨1, [83, 101, 84, 121], [9, 19, 8, 8], 4, [5, 8]⟩), [], [61, 64, 69, 71, 87, 92], [18]⟩,
   ⟨0, 2, 1, (some 1), true, false, 24, 24, 240,
    (some ⟨0, 22, 180, [83, 101, 84, 121]⟩),
    (some ⟨2, [77, 144, 119], [15, 14, 8], 4, [107]⟩), [5, 8], [16, 2], [22]⟩,
   ⟨0, 2, 2, (some 40), true, false, 29, 29, 290,
    (some ⟨1, 28, 240, [77, 144, 119]⟩),
    (some ⟨3, [86, 142, 87, 126], [13, 13, 7, 9], 4, [18, 23]⟩), [107], [161, 164], [28]⟩,
   ⟨0, 2, 3, (some 30), true, false, 35, 38, 380,
    (some ⟨2, 33, 290, [86, 142, 87, 126]⟩),
    (some ⟨4, [90, 91, 92, 93, 127], [13, 9, 5, 7, 20], 5, [31, 33, 41]⟩), [18, 23], [47, 48], [33]⟩,
   ⟨0, 2, 4, (some 35), false, true, 40, 43, 430,
    (some ⟨3, 43, 380, [90, 91, 92, 93, 127]⟩),
    none, [31, 33, 41], [], [43]⟩]),
  (train_ko3_4602, [
   ⟨1, 4602, 0, (some 10), true, false, 36, 36, 360,
    none,
    (some ⟨1, [83, 101, 84, 121], [9, 12, 6, 7], 3, [5, 8]⟩), [], [66, 68, 71, 87, 92], [36]⟩,
   ⟨1, 4602, 1, (some 1), true, false, 41, 41, 410,
    (some ⟨0, 39, 360, [83, 101, 84, 121]⟩),
    (some ⟨2, [77, 144, 119], [11, 9, 8], 3, [107]⟩), [5, 8], [16, 2], [39]⟩,
   ⟨1, 4602, 2, (some 40), true, false, 45, 45, 450,
    (some ⟨1, 44, 410, [77, 144, 119]⟩),
    (some ⟨3, [86, 142, 87, 126], [13, 7, 7, 9], 4, [18, 23]⟩), [107], [161, 164], [44]⟩,
   ⟨1, 4602, 3, (some 30), true, false, 51, 51, 510,
    (some ⟨2, 49, 450, [86, 142, 87, 126]⟩),
    (some ⟨4, [90, 91, 92, 93, 127], [13, 9, 5, 7, 20], 5, [31, 34, 43]⟩), [18, 23], [47, 48], [49]⟩,
   ⟨1, 4602, 4, (some 38), true, false, 57, 57, 570,
    (some ⟨3, 56, 510, [90, 91, 92, 93, 127]⟩),
    none, [31, 34, 43], [], [56]⟩]),
  (train_ko3_4, [
   ⟨2, 4, 0, (some 14), true, false, 38, 38, 380,
    none,
    (some ⟨1, [83, 101, 84, 121], [9, 19, 8, 8], 4, [5, 8]⟩), [], [61, 64, 69, 71, 87, 92], [38]⟩,
   ⟨2, 4, 1, (some 1), true, false, 46, 46, 460,
    (some ⟨0, 42, 380, [83, 101, 84, 121]⟩),
    (some ⟨2, [77, 144, 119], [15, 14, 8], 4, [107]⟩), [5, 8], [16, 2], [42]⟩,
   ⟨2, 4, 2, (some 40), true, false, 55, 55, 550,
    (some ⟨1, 50, 460, [77, 144, 119]⟩),
    (some ⟨3, [86, 142, 87, 126], [13, 13, 7, 9], 4, [18, 23]⟩), [107], [161, 164], [50]⟩,
   ⟨2, 4, 3, (some 30), true, false, 64, 64, 640,
    (some ⟨2, 59, 550, [86, 142, 87, 126]⟩),
    (some ⟨4, [90, 91, 92, 93, 127], [13, 9, 5, 7, 20], 5, [31, 33, 41]⟩), [18, 23], [47, 48], [59]⟩,
   ⟨2, 4, 4, (some 35), false, true, 69, 69, 690,
    (some ⟨3, 69, 640, [90, 91, 92, 93, 127]⟩),
    none, [31, 33, 41], [], [69]⟩]),
  (train_ko3_102, [
   ⟨3, 102, 0, (some 16), true, false, 61, 61, 610,
    none,
    (some ⟨1, [83, 101, 84, 121], [9, 19, 8, 10], 5, [5, 8, 9]⟩), [], [62, 64, 69, 71, 87, 92], [61]⟩,
   ⟨3, 102, 1, (some 3), true, false, 68, 68, 680,
    (some ⟨0, 66, 610, [83, 101, 84, 121]⟩),
    none, [5, 8, 9], [], [66]⟩]),
  (train_ko3_6, [
   ⟨4, 6, 0, (some 14), true, false, 77, 77, 770,
    none,
    (some ⟨1, [83, 101, 84, 121], [9, 19, 8, 8], 4, [5, 8]⟩), [], [61, 64, 69, 71, 87, 92], [77]⟩,
   ⟨4, 6, 1, (some 1), true, false, 83, 83, 830,
    (some ⟨0, 81, 770, [83, 101, 84, 121]⟩),
    (some ⟨2, [77, 144, 119], [15, 14, 8], 4, [107]⟩), [5, 8], [16, 2], [81]⟩,
   ⟨4, 6, 2, (some 40), true, false, 91, 91, 910,
    (some ⟨1, 87, 830, [77, 144, 119]⟩),
    (some ⟨3, [86, 142, 87, 126], [13, 13, 7, 9], 4, [18, 23]⟩), [107], [161, 164], [87]⟩,
   ⟨4, 6, 3, (some 30), true, false, 100, 100, 1000,
    (some ⟨2, 95, 910, [86, 142, 87, 126]⟩),
    (some ⟨4, [90, 91, 92, 93, 127], [13, 9, 5, 7, 20], 5, [31, 33, 41]⟩), [18, 23], [47, 48], [95]⟩,
   ⟨4, 6, 4, (some 35), false, true, 105, 105, 1050,
    (some ⟨3, 105, 1000, [90, 91, 92, 93, 127]⟩),
    none, [31, 33, 41], [], [105]⟩]),
  (train_ko3_4604, [
   ⟨5, 4604, 0, (some 10), true, false, 88, 88, 880,
    none,
    (some ⟨1, [83, 101, 84, 121], [9, 12, 6, 7], 3, [5, 8]⟩), [], [66, 68, 71, 87, 92], [88]⟩,
   ⟨5, 4604, 1, (some 1), true, false, 92, 92, 920,
    (some ⟨0, 91, 880, [83, 101, 84, 121]⟩),
    (some ⟨2, [77, 144, 119], [11, 9, 8], 3, [107]⟩), [5, 8], [16, 2], [91]⟩,
   ⟨5, 4604, 2, (some 40), true, false, 96, 96, 960,
    (some ⟨1, 95, 920, [77, 144, 119]⟩),
    (some ⟨3, [86, 142, 87, 126], [13, 7, 7, 9], 4, [18, 23]⟩), [107], [161, 164], [95]⟩,
   ⟨5, 4604, 3, (some 30), true, false, 104, 104, 1040,
    (some ⟨2, 100, 960, [86, 142, 87, 126]⟩),
    (some ⟨4, [90, 91, 92, 93, 127], [13, 9, 5, 7, 20], 5, [31, 34, 43]⟩), [18, 23], [47, 48], [100]⟩,
   ⟨5, 4604, 4, (some 38), true, false, 114, 114, 1140,
    (some ⟨3, 109, 1040, [90, 91, 92, 93, 127]⟩),
    none, [31, 34, 43], [], [109]⟩]),
  (train_ko3_8, [
   ⟨6, 8, 0, (some 14), true, false, 114, 114, 1140,
    none,
    (some ⟨1, [83, 101, 84, 121], [9, 19, 8, 8], 4, [5, 8]⟩), [], [61, 64, 69, 71, 87, 92], [114]⟩,
   ⟨6, 8, 1, (some 1), true, false, 120, 120, 1200,
    (some ⟨0, 118, 1140, [83, 101, 84, 121]⟩),
    (some ⟨2, [77, 144, 119], [15, 14, 8], 4, [107]⟩), [5, 8], [16, 2], [118]⟩,
   ⟨6, 8, 2, (some 40), true, false, 126, 127, 1270,
    (some ⟨1, 124, 1200, [77, 144, 119]⟩),
    (some ⟨3, [86, 142, 87, 126], [13, 13, 7, 9], 4, [18, 23]⟩), [107], [161, 164], [124]⟩,
   ⟨6, 8, 3, (some 30), true, false, 133, 133, 1330,
    (some ⟨2, 131, 1270, [86, 142, 87, 126]⟩),
    (some ⟨4, [90, 91, 92, 93, 127], [13, 9, 5, 7, 20], 5, [31, 33, 41]⟩), [18, 23], [47, 48], [131]⟩,
   ⟨6, 8, 4, (some 35), false, true, 138, 138, 1380,
    (some ⟨3, 138, 1330, [90, 91, 92, 93, 127]⟩),
    none, [31, 33, 41], [], [138]⟩]),
  (train_ko3_10, [
   ⟨7, 10, 0, (some 14), true, false, 127, 127, 1270,
    none,
    (some ⟨1, [83, 101, 84, 121], [9, 19, 8, 8], 4, [5, 8]⟩), [], [61, 64, 69, 71, 87, 92], [127]⟩,
   ⟨7, 10, 1, (some 1), true, false, 133, 133, 1330,
    (some ⟨0, 131, 1270, [83, 101, 84, 121]⟩),
    (some ⟨2, [77, 144, 119], [15, 14, 8], 4, [107]⟩), [5, 8], [16, 2], [131]⟩,
   ⟨7, 10, 2, (some 40), true, false, 141, 141, 1410,
    (some ⟨1, 137, 1330, [77, 144, 119]⟩),
    (some ⟨3, [86, 142, 87, 126], [13, 13, 7, 9], 4, [18, 23]⟩), [107], [161, 164], [137]⟩,
   ⟨7, 10, 3, (some 30), true, false, 152, 152, 1520,
    (some ⟨2, 145, 1410, [86, 142, 87, 126]⟩),
    (some ⟨4, [90, 91, 92, 93, 127], [13, 9, 5, 7, 20], 5, [31, 33, 41]⟩), [18, 23], [47, 48], [145]⟩,
   ⟨7, 10, 4, (some 35), false, true, 157, 157, 1570,
    (some ⟨3, 157, 1520, [90, 91, 92, 93, 127]⟩),
    none, [31, 33, 41], [], [157]⟩]),
  (train_ko3_4606, [
   ⟨8, 4606, 0, (some 10), true, false, 142, 142, 1420,
    none,
    (some ⟨1, [83, 101, 84, 121], [9, 12, 6, 7], 3, [5, 8]⟩), [], [66, 68, 71, 87, 92], [142]⟩,
   ⟨8, 4606, 1, (some 1), true, false, 147, 147, 1470,
    (some ⟨0, 145, 1420, [83, 101, 84, 121]⟩),
    (some ⟨2, [77, 144, 119], [11, 9, 8], 3, [107]⟩), [5, 8], [16, 2], [145]⟩,
   ⟨8, 4606, 2, (some 40), true, false, 151, 151, 1510,
    (some ⟨1, 150, 1470, [77, 144, 119]⟩),
    (some ⟨3, [86, 142, 87, 126], [13, 7, 7, 9], 4, [18, 23]⟩), [107], [161, 164], [150]⟩,
   ⟨8, 4606, 3, (some 30), true, false, 159, 159, 1590,
    (some ⟨2, 155, 1510, [86, 142, 87, 126]⟩),
    (some ⟨4, [90, 91, 92, 93, 127], [13, 9, 5, 7, 20], 5, [31, 34, 43]⟩), [18, 23], [47, 48], [155]⟩,
   ⟨8, 4606, 4, (some 38), true, false, 167, 167, 1670,
    (some ⟨3, 164, 1590, [90, 91, 92, 93, 127]⟩),
    none, [31, 34, 43], [], [164]⟩]),
  (train_ko3_12, [
   ⟨9, 12, 0, (some 14), true, false, 162, 162, 1620,
    none,
    (some ⟨1, [83, 101, 84, 121], [9, 19, 8, 8], 4, [5, 8]⟩), [], [61, 64, 69, 71, 87, 92], [162]⟩,
   ⟨9, 12, 1, (some 1), true, false, 168, 168, 1680,
    (some ⟨0, 166, 1620, [83, 101, 84, 121]⟩),
    (some ⟨2, [77, 144, 119], [15, 14, 8], 4, [107]⟩), [5, 8], [16, 2], [166]⟩,
   ⟨9, 12, 2, (some 40), true, false, 173, 173, 1730,
    (some ⟨1, 172, 1680, [77, 144, 119]⟩),
    (some ⟨3, [86, 142, 87, 126], [13, 13, 7, 9], 4, [18, 23]⟩), [107], [161, 164], [172]⟩,
   ⟨9, 12, 3, (some 30), true, false, 179, 179, 1790,
    (some ⟨2, 177, 1730, [86, 142, 87, 126]⟩),
    (some ⟨4, [90, 91, 92, 93, 127], [13, 9, 5, 7, 20], 5, [31, 33, 41]⟩), [18, 23], [47, 48], [177]⟩,
   ⟨9, 12, 4, (some 35), false, true, 184, 184, 1840,
    (some ⟨3, 184, 1790, [90, 91, 92, 93, 127]⟩),
    none, [31, 33, 41], [], [184]⟩]),
  (train_ko3_14, [
   ⟨10, 14, 0, (some 14), true, false, 164, 165, 1650,
    none,
    (some ⟨1, [83, 101, 84, 121], [9, 19, 8, 8], 4, [5, 8]⟩), [], [61, 64, 69, 71, 87, 92], [164]⟩,
   ⟨10, 14, 1, (some 1), true, false, 180, 180, 1800,
    (some ⟨0, 169, 1650, [83, 101, 84, 121]⟩),
    (some ⟨2, [77, 144, 119], [15, 14, 8], 4, [107]⟩), [5, 8], [16, 2], [169]⟩,
   ⟨10, 14, 2, (some 40), true, false, 185, 185, 1850,
    (some ⟨1, 184, 1800, [77, 144, 119]⟩),
    (some ⟨3, [86, 142, 87, 126], [13, 13, 7, 9], 4, [18, 23]⟩), [107], [161, 164], [184]⟩,
   ⟨10, 14, 3, (some 30), true, false, 192, 192, 1920,
    (some ⟨2, 189, 1850, [86, 142, 87, 126]⟩),
    (some ⟨4, [90, 91, 92, 93, 127], [13, 9, 5, 7, 20], 5, [31, 33, 41]⟩), [18, 23], [47, 48], [189]⟩,
   ⟨10, 14, 4, (some 35), false, true, 197, 197, 1970,
    (some ⟨3, 197, 1920, [90, 91, 92, 93, 127]⟩),
    none, [31, 33, 41], [], [197]⟩]),
  (train_ko3_1, [
   ⟨11, 1, 4, (some 36), true, false, -2, -2, -20,
    none,
    (some ⟨3, [127, 93, 92, 91, 90], [18, 7, 6, 8, 12], 5, [48, 47, 46]⟩), [], [31, 33], [-2]⟩,
   ⟨11, 1, 3, (some 31), true, false, 8, 8, 80,
    (some ⟨4, 3, -20, [127, 93, 92, 91, 90]⟩),
    (some ⟨2, [126, 87, 142, 86], [23, 5, 19, 16], 6, [160, 161, 164]⟩), [48, 47, 46], [18, 23, 24], [3]⟩,
   ⟨11, 1, 2, (some 41), true, false, 17, 17, 170,
    (some ⟨3, 14, 80, [126, 87, 142, 86]⟩),
    (some ⟨1, [85, 145, 125], [11, 17, 9], 4, [17, 19]⟩), [160, 161, 164], [106], [14]⟩,
   ⟨11, 1, 1, (some 2), true, false, 26, 26, 260,
    (some ⟨2, 21, 170, [85, 145, 125]⟩),
    (some ⟨0, [121, 84, 101, 83], [8, 13, 22, 10], 5, [82, 84, 86, 89, 90, 92]⟩), [17, 19], [5, 8], [21]⟩,
   ⟨11, 1, 0, (some 15), false, true, 31, 31, 310,
    (some ⟨1, 31, 260, [121, 84, 101, 83]⟩),
    none, [82, 84, 86, 89, 90, 92], [], [31]⟩]),
  (train_ko3_101, [
   ⟨12, 101, 1, (some 4), true, false, 30, 30, 300,
    none,
    (some ⟨0, [121, 84, 101, 83], [8, 13, 22, 10], 5, [82, 84, 86, 89, 90, 92]⟩), [], [5, 6, 7], [30]⟩,
   ⟨12, 101, 0, (some 39), false, true, 35, 35, 350,
    (some ⟨1, 35, 300, [121, 84, 101, 83]⟩),
    none, [82, 84, 86, 89, 90, 92], [], [35]⟩]),
  (train_ko3_6401, [
   ⟨13, 6401, 4, (some 36), true, false, 32, 32, 320,
    none,
    (some ⟨3, [127, 93, 92, 91, 90], [18, 7, 6, 8, 12], 5, [48, 47, 46]⟩), [], [31, 33], [32]⟩,
   ⟨13, 6401, 3, (some 31), true, false, 39, 39, 390,
    (some ⟨4, 37, 320, [127, 93, 92, 91, 90]⟩),
    (some ⟨2, [126, 87, 142, 86], [23, 5, 9, 16], 5, [160, 161, 164]⟩), [48, 47, 46], [18, 23, 24], [37]⟩,
   ⟨13, 6401, 2, (some 41), true, false, 45, 45, 450,
    (some ⟨3, 44, 390, [126, 87, 142, 86]⟩),
    (some ⟨1, [85, 145, 125], [11, 7, 9], 3, [17, 19]⟩), [160, 161, 164], [106], [44]⟩,
   ⟨13, 6401, 1, (some 2), true, false, 50, 50, 500,
    (some ⟨2, 48, 450, [85, 145, 125]⟩),
    (some ⟨0, [121, 84, 101, 83], [8, 11, 12, 10], 4, [81, 85, 88, 81, 92]⟩), [17, 19], [5, 8], [48]⟩,
   ⟨13, 6401, 0, (some 13), false, true, 54, 54, 540,
    (some ⟨1, 54, 500, [121, 84, 101, 83]⟩),
    none, [81, 85, 88, 81, 92], [], [54]⟩]),
  (train_ko3_3, [
   ⟨14, 3, 4, (some 36), true, false, 54, 57, 570,
    none,
    (some ⟨3, [127, 93, 92, 91, 90], [18, 7, 6, 8, 12], 5, [48, 47, 46]⟩), [], [31, 33], [54]⟩,
   ⟨14, 3, 3, (some 31), true, false, 64, 64, 640,
    (some ⟨4, 62, 570, [127, 93, 92, 91, 90]⟩),
    (some ⟨2, [126, 87, 142, 86], [23, 5, 19, 16], 6, [160, 161, 164]⟩), [48, 47, 46], [18, 23, 24], [62]⟩,
   ⟨14, 3, 2, (some 41), true, false, 73, 73, 730,
    (some ⟨3, 70, 640, [126, 87, 142, 86]⟩),
    (some ⟨1, [85, 145, 125], [11, 17, 9], 4, [17, 19]⟩), [160, 161, 164], [106], [70]⟩,
   ⟨14, 3, 1, (some 2), true, false, 82, 82, 820,
    (some ⟨2, 77, 730, [85, 145, 125]⟩),
    (some ⟨0, [121, 84, 101, 83], [8, 13, 22, 10], 5, [82, 84, 86, 89, 90, 92]⟩), [17, 19], [5, 8], [77]⟩,
   ⟨14, 3, 0, (some 15), false, true, 87, 87, 870,
    (some ⟨1, 87, 820, [121, 84, 101, 83]⟩),
    none, [82, 84, 86, 89, 90, 92], [], [87]⟩]),
  (train_ko3_103, [
   ⟨15, 103, 1, (some 4), true, false, 180, 180, 1800,
    none,
    (some ⟨0, [121, 84, 101, 83], [8, 13, 22, 10], 5, [82, 84, 86, 89, 90, 92]⟩), [], [5, 6, 7], [180]⟩,
   ⟨15, 103, 0, (some 39), false, true, 185, 185, 1850,
    (some ⟨1, 185, 1800, [121, 84, 101, 83]⟩),
    none, [82, 84, 86, 89, 90, 92], [], [185]⟩]),
  (train_ko3_5, [
   ⟨16, 5, 4, (some 36), true, false, 94, 94, 940,
    none,
    (some ⟨3, [127, 93, 92, 91, 90], [18, 7, 6, 8, 12], 5, [48, 47, 46]⟩), [], [31, 33], [94]⟩,
   ⟨16, 5, 3, (some 31), true, false, 102, 102, 1020,
    (some ⟨4, 99, 940, [127, 93, 92, 91, 90]⟩),
    (some ⟨2, [126, 87, 142, 86], [23, 5, 19, 16], 6, [160, 161, 164]⟩), [48, 47, 46], [18, 23, 24], [99]⟩,
   ⟨16, 5, 2, (some 41), true, false, 110, 110, 1100,
    (some ⟨3, 108, 1020, [126, 87, 142, 86]⟩),
    (some ⟨1, [85, 145, 125], [11, 17, 9], 4, [17, 19]⟩), [160, 161, 164], [106], [108]⟩,
   ⟨16, 5, 1, (some 2), true, false, 119, 119, 1190,
    (some ⟨2, 114, 1100, [85, 145, 125]⟩),
    (some ⟨0, [121, 84, 101, 83], [8, 13, 22, 10], 5, [82, 84, 86, 89, 90, 92]⟩), [17, 19], [5, 8], [114]⟩,
   ⟨16, 5, 0, (some 15), false, true, 124, 124, 1240,
    (some ⟨1, 124, 1190, [121, 84, 101, 83]⟩),
    none, [82, 84, 86, 89, 90, 92], [], [124]⟩]),
  (train_ko3_6403, [
   ⟨17, 6403, 4, (some 36), true, false, 114, 114, 1140,
    none,
    (some ⟨3, [127, 93, 92, 91, 90], [18, 7, 6, 8, 12], 5, [48, 47, 46]⟩), [], [31, 33], [114]⟩,
   ⟨17, 6403, 3, (some 31), true, false, 121, 121, 1210,
    (some ⟨4, 119, 1140, [127, 93, 92, 91, 90]⟩),
    (some ⟨2, [126, 87, 142, 86], [23, 5, 9, 16], 5, [160, 161, 164]⟩), [48, 47, 46], [18, 23, 24], [119]⟩,
   ⟨17, 6403, 2, (some 41), true, false, 127, 127, 1270,
    (some ⟨3, 126, 1210, [126, 87, 142, 86]⟩),
    (some ⟨1, [85, 145, 125], [11, 7, 9], 3, [17, 19]⟩), [160, 161, 164], [106], [126]⟩,
   ⟨17, 6403, 1, (some 2), true, false, 132, 132, 1320,
    (some ⟨2, 130, 1270, [85, 145, 125]⟩),
    (some ⟨0, [121, 84, 101, 83], [8, 11, 12, 10], 4, [81, 85, 88, 81, 92]⟩), [17, 19], [5, 8], [130]⟩,
   ⟨17, 6403, 0, (some 13), false, true, 136, 136, 1360,
    (some ⟨1, 136, 1320, [121, 84, 101, 83]⟩),
    none, [81, 85, 88, 81, 92], [], [136]⟩]),
  (train_ko3_7, [
   ⟨18, 7, 4, (some 36), true, false, 127, 127, 1270,
    none,
    (some ⟨3, [127, 93, 92, 91, 90], [18, 7, 6, 8, 12], 5, [48, 47, 46]⟩), [], [31, 33], [127]⟩,
   ⟨18, 7, 3, (some 31), true, false, 134, 134, 1340,
    (some ⟨4, 132, 1270, [127, 93, 92, 91, 90]⟩),
    (some ⟨2, [126, 87, 142, 86], [23, 5, 19, 16], 6, [160, 161, 164]⟩), [48, 47, 46], [18, 23, 24], [132]⟩,
   ⟨18, 7, 2, (some 41), true, false, 143, 143, 1430,
    (some ⟨3, 140, 1340, [126, 87, 142, 86]⟩),
    (some ⟨1, [85, 145, 125], [11, 17, 9], 4, [17, 19]⟩), [160, 161, 164], [106], [140]⟩,
   ⟨18, 7, 1, (some 2), true, false, 151, 151, 1510,
    (some ⟨2, 147, 1430, [85, 145, 125]⟩),
    (some ⟨0, [121, 84, 101, 83], [8, 13, 22, 10], 5, [82, 84, 86, 89, 90, 92]⟩), [17, 19], [5, 8], [147]⟩,
   ⟨18, 7, 0, (some 15), false, true, 156, 156, 1560,
    (some ⟨1, 156, 1510, [121, 84, 101, 83]⟩),
    none, [82, 84, 86, 89, 90, 92], [], [156]⟩]),
  (train_ko3_9, [
   ⟨19, 9, 4, (some 36), true, false, 146, 146, 1460,
    none,
    (some ⟨3, [127, 93, 92, 91, 90], [18, 7, 6, 8, 12], 5, [48, 47, 46]⟩), [], [31, 33], [146]⟩,
   ⟨19, 9, 3, (some 31), true, false, 159, 159, 1590,
    (some ⟨4, 151, 1460, [127, 93, 92, 91, 90]⟩),
    (some ⟨2, [126, 87, 142, 86], [23, 5, 19, 16], 6, [160, 161, 164]⟩), [48, 47, 46], [18, 23, 24], [151]⟩,
   ⟨19, 9, 2, (some 41), true, false, 167, 167, 1670,
    (some ⟨3, 165, 1590, [126, 87, 142, 86]⟩),
    (some ⟨1, [85, 145, 125], [11, 17, 9], 4, [17, 19]⟩), [160, 161, 164], [106], [165]⟩,
   ⟨19, 9, 1, (some 2), true, false, 174, 174, 1740,
    (some ⟨2, 171, 1670, [85, 145, 125]⟩),
    (some ⟨0, [121, 84, 101, 83], [8, 13, 22, 10], 5, [82, 84, 86, 89, 90, 92]⟩), [17, 19], [5, 8], [171]⟩,
   ⟨19, 9, 0, (some 15), false, true, 179, 179, 1790,
    (some ⟨1, 179, 1740, [121, 84, 101, 83]⟩),
    none, [82, 84, 86, 89, 90, 92], [], [179]⟩]),
  (train_ko3_11, [
   ⟨20, 11, 4, (some 36), true, false, 167, 167, 1670,
    none,
    (some ⟨3, [127, 93, 92, 91, 90], [18, 7, 6, 8, 12], 5, [48, 47, 46]⟩), [], [31, 33], [167]⟩,
   ⟨20, 11, 3, (some 31), true, false, 175, 178, 1780,
    (some ⟨4, 172, 1670, [127, 93, 92, 91, 90]⟩),
    (some ⟨2, [126, 87, 142, 86], [23, 5, 19, 16], 6, [160, 161, 164]⟩), [48, 47, 46], [18, 23, 24], [172]⟩,
   ⟨20, 11, 2, (some 41), true, false, 187, 187, 1870,
    (some ⟨3, 184, 1780, [126, 87, 142, 86]⟩),
    (some ⟨1, [85, 145, 125], [11, 17, 9], 4, [17, 19]⟩), [160, 161, 164], [106], [184]⟩,
   ⟨20, 11, 1, (some 2), true, false, 194, 194, 1940,
    (some ⟨2, 191, 1870, [85, 145, 125]⟩),
    (some ⟨0, [121, 84, 101, 83], [8, 13, 22, 10], 5, [82, 84, 86, 89, 90, 92]⟩), [17, 19], [5, 8], [191]⟩,
   ⟨20, 11, 0, (some 15), false, true, 199, 199, 1990,
    (some ⟨1, 199, 1940, [121, 84, 101, 83]⟩),
    none, [82, 84, 86, 89, 90, 92], [], [199]⟩])]

theorem ko3n1Plan_sections : ko3n1Plan.map Prod.fst = ko3 := rfl

theorem ko3n1Plan_ok : netKoR.PlanOK "14:00" ko3n1Delays 40 netKoRSpecial ko3n1Plan :=
  ko3Plan_ok.again rfl (by decide +kernel) (by decide +kernel) (by decide +kernel) (by decide +kernel)

theorem ko3n1_cost : netKoR.costOK ko3n1Plan 12 = true := by decide +kernel

/-- the departures: train and station -/
def ko3n1Nodes : List (Nat × Nat) := [
  (13, 4), (0, 3), (13, 3), (13, 2), (13, 1)]

/-- the choices -/
def ko3n1Choices : List CodedNet.Choice := [
  .against 0 13 3 4]

/-- the inequalities -/
def ko3n1Arcs : ArcTree :=
  .node ⟨.come, 2, 1, 2, 6, 0, false⟩ (.node ⟨.come, 1, 2, 1, 6, 0, false⟩ (.node
  ⟨.run, 0, 3, 4, 6, 0, false⟩ .none .none) .none) (.node ⟨.run, 0, 1, 3, 7, 0, false⟩ (.node
  ⟨.run, 0, 4, 5, 5, 0, false⟩ .none .none) .none)

/-- the bounds of the departures -/
def ko3n1Times : TimeTree :=
  .node 2 0 2 (.node 34 0 74 (.node 41 0 81 .none .none) (.node 52 6 92 .none .none)) (.node 37 4
  77 (.node 47 0 87 .none .none) .none)

/-- some of the cases -/
def ko3n1Case0 : SumTree :=
  .cases [] 0 (.leaf [1, 2, 3, 4]) (.leaf [0])

/-- all cases -/
def ko3n1Cases : SumTree :=
  ko3n1Case0

theorem ko3n1_cases : ko3n1Cases.check ko3n1Arcs 12 ko3n1Choices.length [] ko3n1Times 0 = true := by
  decide +kernel

theorem ko3n1_choices : ko3n1Choices.all (CodedNet.Choice.ok netKoR netKoRSpecial ko3n1Plan) = true := by
  decide +kernel

theorem ko3n1_arcs : ko3n1Arcs.toList.all
    (netKoR.arcOK netKoRSpecial ko3n1Plan ko3n1Nodes ko3n1Choices) = true := by decide +kernel

theorem ko3n1_times : netKoR.startOK ko3n1Plan ko3n1Nodes 2 40 ko3n1Times = true := by decide +kernel

end Verif.Real
