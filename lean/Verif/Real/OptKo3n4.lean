import Verif.Proofs.PlanSum
import Verif.Proofs.PlanAgain
import Verif.Real.PlanKo3

/-!
# The sheet of `Verif.Real.Ko3` with given delays: a plan, and that no plan is better

Generated; see `CodedNet.Item` and `Verif/Proofs/SumTree.lean`. Case 3,
`disturbances[4]`, of `/repo/solve_KO_GLC_problems.py`, line 120;
`d_max` is 40. The sum of the delays that count is 56/4.
-/

namespace Verif.Real

set_option maxRecDepth 100000

/-- the given delays -/
def ko3n4Delays : List (Int × ℚ) := [
  (101, 18), (1, 29), (3, 25), (5, 15), (2, 18)]

/-- the plan, items by sections -/
def ko3n4Plan : CodedNet.Plan := [
  (train_ko3_2, [
   ⟨0, 2, 0, (some 14), true, false, 18, 18, 180,
    none,
    (some ⟨1, [83, 101, 84, 121], [9, 19, 8, 8], 4, [5, 8]⟩), [], [61, 64, 69, 71, 87, 92], [18]⟩,
   ⟨0, 2, 1, (some 1), true, false, 24, 24, 240,
    (some ⟨0, 22, 180, [83, 101, 84, 121]⟩),
    (some ⟨2, [77, 144, 119], [15, 14, 8], 4, [107]⟩), [5, 8], [16, 2], [22]⟩,
   ⟨0, 2, 2, (some 40), true, false, 29, 29, 290,
    (some ⟨1, 28, 240, [77, 144, 119]⟩),
    (some ⟨3, [86, 142, 87, 126], [13, 13, 7, 9], 4, [18, 23]⟩), [107], [161, 164], [28]⟩,
   ⟨0, 2, 3, (some 30), true, false, 35, 35, 350,
    (some ⟨2, 33, 290, [86, 142, 87, 126]⟩),
    (some ⟨4, [90, 91, 92, 93, 127], [13, 9, 5, 7, 20], 5, [31, 33, 41]⟩), [18, 23], [47, 48], [33]⟩,
   ⟨0, 2, 4, (some 35), false, true, 40, 40, 400,
    (some ⟨3, 40, 350, [90, 91, 92, 93, 127]⟩),
    none, [31, 33, 41], [], [40]⟩]),
  (train_ko3_4602, [
   ⟨1, 4602, 0, (some 10), true, false, 36, 36, 360,
    none,
    (some ⟨1, [83, 101, 84, 121], [9, 12, 6, 7], 3, [5, 8]⟩), [], [66, 68, 71, 87, 92], [36]⟩,
   ⟨1, 4602, 1, (some 1), true, false, 41, 41, 410,
    (some ⟨0, 39, 360, [83, 101, 84, 121]⟩),
    (some ⟨2, [77, 144, 119], [11, 9, 8], 3, [107]⟩), [5, 8], [16, 2], [39]⟩,
   ⟨1, 4602, 2, (some 40), true, false, 45, 45, 450,
    (some ⟨1, 44, 410, [77, 144, 119]⟩),
    (some ⟨3, [86, 142, 87, 126], [13, 7, 7, 9], 4, [18, 23]⟩), [107], [161, 164], [44]⟩,
   ⟨1, 4602, 3, (some 30), true, false, 51, 51, 510,
    (some ⟨2, 49, 450, [86, 142, 87, 126]⟩),
    (some ⟨4, [90, 91, 92, 93, 127], [13, 9, 5, 7, 20], 5, [31, 34, 43]⟩), [18, 23], [47, 48], [49]⟩,
   ⟨1, 4602, 4, (some 38), true, false, 57, 57, 570,
    (some ⟨3, 56, 510, [90, 91, 92, 93, 127]⟩),
    none, [31, 34, 43], [], [56]⟩]),
  (train_ko3_4, [
   ⟨2, 4, 0, (some 14), true, false, 38, 38, 380,
    none,
    (some ⟨1, [83, 101, 84, 121], [9, 19, 8, 8], 4, [5, 8]⟩), [], [61, 64, 69, 71, 87, 92], [38]⟩,
   ⟨2, 4, 1, (some 1), true, false, 46, 46, 460,
    (some ⟨0, 42, 380, [83, 101, 84, 121]⟩),
    (some ⟨2, [77, 144, 119], [15, 14, 8], 4, [107]⟩), [5, 8], [16, 2], [42]⟩,
   ⟨2, 4, 2, (some 40), true, false, 55, 55, 550,
    (some ⟨1, 50, 460, [77, 144, 119]⟩),
    (some ⟨3, [86, 142, 87, 126], [13, 13, 7, 9], 4, [18, 23]⟩), [107], [161, 164], [50]⟩,
   ⟨2, 4, 3, (some 30), true, false, 64, 67, 670,
    (some ⟨2, 59, 550, [86, 142, 87, 126]⟩),
    (some ⟨4, [90, 91, 92, 93, 127], [13, 9, 5, 7, 20], 5, [31, 33, 41]⟩), [18, 23], [47, 48], [59]⟩,
   ⟨2, 4, 4, (some 35), false, true, 69, 72, 720,
    (some ⟨3, 72, 670, [90, 91, 92, 93, 127]⟩),
    none, [31, 33, 41], [], [72]⟩]),
  (train_ko3_102, [
   ⟨3, 102, 0, (some 16), true, false, 61, 61, 610,
    none,
    (some ⟨1, [83, 101, 84, 121], [9, 19, 8, 10], 5, [5, 8, 9]⟩), [], [62, 64, 69, 71, 87, 92], [61]⟩,
   ⟨3, 102, 1, (some 3), true, false, 68, 68, 680,
    (some ⟨0, 66, 610, [83, 101, 84, 121]⟩),
    none, [5, 8, 9], [], [66]⟩]),
  (train_ko3_6, [
   ⟨4, 6, 0, (some 14), true, false, 77, 86, 860,
    none,
    (some ⟨1, [83, 101, 84, 121], [9, 19, 8, 8], 4, [5, 8]⟩), [], [61, 64, 69, 71, 87, 92], [77]⟩,
   ⟨4, 6, 1, (some 1), true, false, 83, 92, 920,
    (some ⟨0, 90, 860, [83, 101, 84, 121]⟩),
    (some ⟨2, [77, 144, 119], [15, 14, 8], 4, [107]⟩), [5, 8], [16, 2], [90]⟩,
   ⟨4, 6, 2, (some 40), true, false, 91, 97, 970,
    (some ⟨1, 96, 920, [77, 144, 119]⟩),
    (some ⟨3, [86, 142, 87, 126], [13, 13, 7, 9], 4, [18, 23]⟩), [107], [161, 164], [96]⟩,
   ⟨4, 6, 3, (some 30), true, false, 100, 103, 1030,
    (some ⟨2, 101, 970, [86, 142, 87, 126]⟩),
    (some ⟨4, [90, 91, 92, 93, 127], [13, 9, 5, 7, 20], 5, [31, 33, 41]⟩), [18, 23], [47, 48], [101]⟩,
   ⟨4, 6, 4, (some 35), false, true, 105, 108, 1080,
    (some ⟨3, 108, 1030, [90, 91, 92, 93, 127]⟩),
    none, [31, 33, 41], [], [108]⟩]),
  (train_ko3_4604, [
   ⟨5, 4604, 0, (some 10), true, false, 88, 89, 890,
    none,
    (some ⟨1, [83, 101, 84, 121], [9, 12, 6, 7], 3, [5, 8]⟩), [], [66, 68, 71, 87, 92], [88]⟩,
   ⟨5, 4604, 1, (some 1), true, false, 92, 95, 950,
    (some ⟨0, 92, 890, [83, 101, 84, 121]⟩),
    (some ⟨2, [77, 144, 119], [11, 9, 8], 3, [107]⟩), [5, 8], [16, 2], [92]⟩,
   ⟨5, 4604, 2, (some 40), true, false, 96, 100, 1000,
    (some ⟨1, 98, 950, [77, 144, 119]⟩),
    (some ⟨3, [86, 142, 87, 126], [13, 7, 7, 9], 4, [18, 23]⟩), [107], [161, 164], [98]⟩,
   ⟨5, 4604, 3, (some 30), true, false, 104, 106, 1060,
    (some ⟨2, 104, 1000, [86, 142, 87, 126]⟩),
    (some ⟨4, [90, 91, 92, 93, 127], [13, 9, 5, 7, 20], 5, [31, 34, 43]⟩), [18, 23], [47, 48], [104]⟩,
   ⟨5, 4604, 4, (some 38), true, false, 114, 114, 1140,
    (some ⟨3, 111, 1060, [90, 91, 92, 93, 127]⟩),
    none, [31, 34, 43], [], [111]⟩]),
  (train_ko3_8, [
   ⟨6, 8, 0, (some 14), true, false, 114, 114, 1140,
    none,
    (some ⟨1, [83, 101, 84, 121], [9, 19, 8, 8], 4, [5, 8]⟩), [], [61, 64, 69, 71, 87, 92], [114]⟩,
   ⟨6, 8, 1, (some 1), true, false, 120, 120, 1200,
    (some ⟨0, 118, 1140, [83, 101, 84, 121]⟩),
    (some ⟨2, [77, 144, 119], [15, 14, 8], 4, [107]⟩), [5, 8], [16, 2], [118]⟩,
   ⟨6, 8, 2, (some 40), true, false, 126, 126, 1260,
    (some ⟨1, 124, 1200, [77, 144, 119]⟩),
    (some ⟨3, [86, 142, 87, 126], [13, 13, 7, 9], 4, [18, 23]⟩), [107], [161, 164], [124]⟩,
   ⟨6, 8, 3, (some 30), true, false, 133, 133, 1330,
    (some ⟨2, 130, 1260, [86, 142, 87, 126]⟩),
    (some ⟨4, [90, 91, 92, 93, 127], [13, 9, 5, 7, 20], 5, [31, 33, 41]⟩), [18, 23], [47, 48], [130]⟩,
   ⟨6, 8, 4, (some 35), false, true, 138, 138, 1380,
    (some ⟨3, 138, 1330, [90, 91, 92, 93, 127]⟩),
    none, [31, 33, 41], [], [138]⟩]),
  (train_ko3_10, [
   ⟨7, 10, 0, (some 14), true, false, 127, 127, 1270,
    none,
    (some ⟨1, [83, 101, 84, 121], [9, 19, 8, 8], 4, [5, 8]⟩), [], [61, 64, 69, 71, 87, 92], [127]⟩,
   ⟨7, 10, 1, (some 1), true, false, 133, 133, 1330,
    (some ⟨0, 131, 1270, [83, 101, 84, 121]⟩),
    (some ⟨2, [77, 144, 119], [15, 14, 8], 4, [107]⟩), [5, 8], [16, 2], [131]⟩,
   ⟨7, 10, 2, (some 40), true, false, 141, 141, 1410,
    (some ⟨1, 137, 1330, [77, 144, 119]⟩),
    (some ⟨3, [86, 142, 87, 126], [13, 13, 7, 9], 4, [18, 23]⟩), [107], [161, 164], [137]⟩,
   ⟨7, 10, 3, (some 30), true, false, 152, 152, 1520,
    (some ⟨2, 145, 1410, [86, 142, 87, 126]⟩),
    (some ⟨4, [90, 91, 92, 93, 127], [13, 9, 5, 7, 20], 5, [31, 33, 41]⟩), [18, 23], [47, 48], [145]⟩,
   ⟨7, 10, 4, (some 35), false, true, 157, 157, 1570,
    (some ⟨3, 157, 1520, [90, 91, 92, 93, 127]⟩),
    none, [31, 33, 41], [], [157]⟩]),
  (train_ko3_4606, [
   ⟨8, 4606, 0, (some 10), true, false, 142, 142, 1420,
    none,
    (some ⟨1, [83, 101, 84, 121], [9, 12, 6, 7], 3, [5, 8]⟩), [], [66, 68, 71, 87, 92], [142]⟩,
   ⟨8, 4606, 1, (some 1), true, false, 147, 147, 1470,
    (some ⟨0, 145, 1420, [83, 101, 84, 121]⟩),
    (some ⟨2, [77, 144, 119], [11, 9, 8], 3, [107]⟩), [5, 8], [16, 2], [145]⟩,
   ⟨8, 4606, 2, (some 40), true, false, 151, 152, 1520,
    (some ⟨1, 150, 1470, [77, 144, 119]⟩),
    (some ⟨3, [86, 142, 87, 126], [13, 7, 7, 9], 4, [18, 23]⟩), [107], [161, 164], [150]⟩,
   ⟨8, 4606, 3, (some 30), true, false, 159, 159, 1590,
    (some ⟨2, 156, 1520, [86, 142, 87, 126]⟩),
    (some ⟨4, [90, 91, 92, 93, 127], [13, 9, 5, 7, 20], 5, [31, 34, 43]⟩), [18, 23], [47, 48], [156]⟩,
   ⟨8, 4606, 4, (some 38), true, false, 167, 167, 1670,
    (some ⟨3, 164, 1590, [90, 91, 92, 93, 127]⟩),
    none, [31, 34, 43], [], [164]⟩]),
  (train_ko3_12, [
   ⟨9, 12, 0, (some 14), true, false, 162, 162, 1620,
    none,
    (some ⟨1, [83, 101, 84, 121], [9, 19, 8, 8], 4, [5, 8]⟩), [], [61, 64, 69, 71, 87, 92], [162]⟩,
   ⟨9, 12, 1, (some 1), true, false, 168, 168, 1680,
    (some ⟨0, 166, 1620, [83, 101, 84, 121]⟩),
    (some ⟨2, [77, 144, 119], [15, 14, 8], 4, [107]⟩), [5, 8], [16, 2], [166]⟩,
   ⟨9, 12, 2, (some 40), true, false, 173, 173, 1730,
    (some ⟨1, 172, 1680, [77, 144, 119]⟩),
    (some ⟨3, [86, 142, 87, 126], [13, 13, 7, 9], 4, [18, 23]⟩), [107], [161, 164], [172]⟩,
   ⟨9, 12, 3, (some 30), true, false, 179, 179, 1790,
    (some ⟨2, 177, 1730, [86, 142, 87, 126]⟩),
    (some ⟨4, [90, 91, 92, 93, 127], [13, 9, 5, 7, 20], 5, [31, 33, 41]⟩), [18, 23], [47, 48], [177]⟩,
   ⟨9, 12, 4, (some 35), false, true, 184, 184, 1840,
    (some ⟨3, 184, 1790, [90, 91, 92, 93, 127]⟩),
    none, [31, 33, 41], [], [184]⟩]),
  (train_ko3_14, [
   ⟨10, 14, 0, (some 14), true, false, 164, 165, 1650,
    none,
    (some ⟨1, [83, 101, 84, 121], [9, 19, 8, 8], 4, [5, 8]⟩), [], [61, 64, 69, 71, 87, 92], [164]⟩,
   ⟨10, 14, 1, (some 1), true, false, 180, 180, 1800,
    (some ⟨0, 169, 1650, [83, 101, 84, 121]⟩),
    (some ⟨2, [77, 144, 119], [15, 14, 8], 4, [107]⟩), [5, 8], [16, 2], [169]⟩,
   ⟨10, 14, 2, (some 40), true, false, 185, 185, 1850,
    (some ⟨1, 184, 1800, [77, 144, 119]⟩),
    (some ⟨3, [86, 142, 87, 126], [13, 13, 7, 9], 4, [18, 23]⟩), [107], [161, 164], [184]⟩,
   ⟨10, 14, 3, (some 30), true, false, 192, 192, 1920,
    (some ⟨2, 189, 1850, [86, 142, 87, 126]⟩),
    (some ⟨4, [90, 91, 92, 93, 127], [13, 9, 5, 7, 20], 5, [31, 33, 41]⟩), [18, 23], [47, 48], [189]⟩,
   ⟨10, 14, 4, (some 35), false, true, 197, 197, 1970,
    (some ⟨3, 197, 1920, [90, 91, 92, 93, 127]⟩),
    none, [31, 33, 41], [], [197]⟩]),
  (train_ko3_1, [
   ⟨11, 1, 4, (some 36), true, false, 27, 27, 270,
    none,
    (some ⟨3, [127, 93, 92, 91, 90], [18, 7, 6, 8, 12], 5, [48, 47, 46]⟩), [], [31, 33], [27]⟩,
   ⟨11, 1, 3, (some 31), true, false, 34, 34, 340,
    (some ⟨4, 32, 270, [127, 93, 92, 91, 90]⟩),
    (some ⟨2, [126, 87, 142, 86], [23, 5, 19, 16], 6, [160, 161, 164]⟩), [48, 47, 46], [18, 23, 24], [32]⟩,
   ⟨11, 1, 2, (some 41), true, false, 42, 42, 420,
    (some ⟨3, 40, 340, [126, 87, 142, 86]⟩),
    (some ⟨1, [85, 145, 125], [11, 17, 9], 4, [17, 19]⟩), [160, 161, 164], [106], [40]⟩,
   ⟨11, 1, 1, (some 2), true, false, 48, 48, 480,
    (some ⟨2, 46, 420, [85, 145, 125]⟩),
    (some ⟨0, [121, 84, 101, 83], [8, 13, 22, 10], 5, [82, 84, 86, 89, 90, 92]⟩), [17, 19], [5, 8], [46]⟩,
   ⟨11, 1, 0, (some 15), false, true, 53, 53, 530,
    (some ⟨1, 53, 480, [121, 84, 101, 83]⟩),
    none, [82, 84, 86, 89, 90, 92], [], [53]⟩]),
  (train_ko3_101, [
   ⟨12, 101, 1, (some 4), true, false, 77, 77, 770,
    none,
    (some ⟨0, [121, 84, 101, 83], [8, 13, 22, 10], 5, [82, 84, 86, 89, 90, 92]⟩), [], [5, 6, 7], [77]⟩,
   ⟨12, 101, 0, (some 39), false, true, 82, 82, 820,
    (some ⟨1, 82, 770, [121, 84, 101, 83]⟩),
    none, [82, 84, 86, 89, 90, 92], [], [82]⟩]),
  (train_ko3_6401, [
   ⟨13, 6401, 4, (some 36), true, false, 61, 61, 610,
    none,
    (some ⟨3, [127, 93, 92, 91, 90], [18, 7, 6, 8, 12], 5, [48, 47, 46]⟩), [], [31, 33], [61]⟩,
   ⟨13, 6401, 3, (some 31), true, false, 68, 68, 680,
    (some ⟨4, 66, 610, [127, 93, 92, 91, 90]⟩),
    (some ⟨2, [126, 87, 142, 86], [23, 5, 9, 16], 5, [160, 161, 164]⟩), [48, 47, 46], [18, 23, 24], [66]⟩,
   ⟨13, 6401, 2, (some 41), true, false, 74, 74, 740,
    (some ⟨3, 73, 680, [126, 87, 142, 86]⟩),
    (some ⟨1, [85, 145, 125], [11, 7, 9], 3, [17, 19]⟩), [160, 161, 164], [106], [73]⟩,
   ⟨13, 6401, 1, (some 2), true, false, 79, 81, 810,
    (some ⟨2, 77, 740, [85, 145, 125]⟩),
    (some ⟨0, [121, 84, 101, 83], [8, 11, 12, 10], 4, [81, 85, 88, 81, 92]⟩), [17, 19], [5, 8], [77]⟩,
   ⟨13, 6401, 0, (some 13), false, true, 83, 85, 850,
    (some ⟨1, 85, 810, [121, 84, 101, 83]⟩),
    none, [81, 85, 88, 81, 92], [], [85]⟩]),
  (train_ko3_3, [
   ⟨14, 3, 4, (some 36), true, false, 79, 79, 790,
    none,
    (some ⟨3, [127, 93, 92, 91, 90], [18, 7, 6, 8, 12], 5, [48, 47, 46]⟩), [], [31, 33], [79]⟩,
   ⟨14, 3, 3, (some 31), true, false, 86, 86, 860,
    (some ⟨4, 84, 790, [127, 93, 92, 91, 90]⟩),
    (some ⟨2, [126, 87, 142, 86], [23, 5, 19, 16], 6, [160, 161, 164]⟩), [48, 47, 46], [18, 23, 24], [84]⟩,
   ⟨14, 3, 2, (some 41), true, false, 94, 94, 940,
    (some ⟨3, 92, 860, [126, 87, 142, 86]⟩),
    (some ⟨1, [85, 145, 125], [11, 17, 9], 4, [17, 19]⟩), [160, 161, 164], [106], [92]⟩,
   ⟨14, 3, 1, (some 2), true, false, 100, 100, 1000,
    (some ⟨2, 98, 940, [85, 145, 125]⟩),
    (some ⟨0, [121, 84, 101, 83], [8, 13, 22, 10], 5, [82, 84, 86, 89, 90, 92]⟩), [17, 19], [5, 8], [98]⟩,
   ⟨14, 3, 0, (some 15), false, true, 105, 105, 1050,
    (some ⟨1, 105, 1000, [121, 84, 101, 83]⟩),
    none, [82, 84, 86, 89, 90, 92], [], [105]⟩]),
  (train_ko3_103, [
   ⟨15, 103, 1, (some 4), true, false, 205, 205, 2050,
    none,
    (some ⟨0, [121, 84, 101, 83], [8, 13, 22, 10], 5, [82, 84, 86, 89, 90, 92]⟩), [], [5, 6, 7], [205]⟩,
   ⟨15, 103, 0, (some 39), false, true, 210, 210, 2100,
    (some ⟨1, 210, 2050, [121, 84, 101, 83]⟩),
    none, [82, 84, 86, 89, 90, 92], [], [210]⟩]),
  (train_ko3_5, [
   ⟨16, 5, 4, (some 36), true, false, 109, 112, 1120,
    none,
    (some ⟨3, [127, 93, 92, 91, 90], [18, 7, 6, 8, 12], 5, [48, 47, 46]⟩), [], [31, 33], [109]⟩,
   ⟨16, 5, 3, (some 31), true, false, 116, 119, 1190,
    (some ⟨4, 117, 1120, [127, 93, 92, 91, 90]⟩),
    (some ⟨2, [126, 87, 142, 86], [23, 5, 19, 16], 6, [160, 161, 164]⟩), [48, 47, 46], [18, 23, 24], [117]⟩,
   ⟨16, 5, 2, (some 41), true, false, 124, 127, 1270,
    (some ⟨3, 125, 1190, [126, 87, 142, 86]⟩),
    (some ⟨1, [85, 145, 125], [11, 17, 9], 4, [17, 19]⟩), [160, 161, 164], [106], [125]⟩,
   ⟨16, 5, 1, (some 2), true, false, 130, 133, 1330,
    (some ⟨2, 131, 1270, [85, 145, 125]⟩),
    (some ⟨0, [121, 84, 101, 83], [8, 13, 22, 10], 5, [82, 84, 86, 89, 90, 92]⟩), [17, 19], [5, 8], [131]⟩,
   ⟨16, 5, 0, (some 15), false, true, 135, 138, 1380,
    (some ⟨1, 138, 1330, [121, 84, 101, 83]⟩),
    none, [82, 84, 86, 89, 90, 92], [], [138]⟩]),
  (train_ko3_6403, [
   ⟨17, 6403, 4, (some 36), true, false, 139, 139, 1390,
    none,
    (some ⟨3, [127, 93, 92, 91, 90], [18, 7, 6, 8, 12], 5, [48, 47, 46]⟩), [], [31, 33], [139]⟩,
   ⟨17, 6403, 3, (some 31), true, false, 146, 146, 1460,
    (some ⟨4, 144, 1390, [127, 93, 92, 91, 90]⟩),
    (some ⟨2, [126, 87, 142, 86], [23, 5, 9, 16], 5, [160, 161, 164]⟩), [48, 47, 46], [18, 23, 24], [144]⟩,
   ⟨17, 6403, 2, (some 41), true, false, 152, 152, 1520,
    (some ⟨3, 151, 1460, [126, 87, 142, 86]⟩),
    (some ⟨1, [85, 145, 125], [11, 7, 9], 3, [17, 19]⟩), [160, 161, 164], [106], [151]⟩,
   ⟨17, 6403, 1, (some 2), true, false, 157, 157, 1570,
    (some ⟨2, 155, 1520, [85, 145, 125]⟩),
    (some ⟨0, [121, 84, 101, 83], [8, 11, 12, 10], 4, [81, 85, 88, 81, 92]⟩), [17, 19], [5, 8], [155]⟩,
   ⟨17, 6403, 0, (some 13), false, true, 161, 161, 1610,
    (some ⟨1, 161, 1570, [121, 84, 101, 83]⟩),
    none, [81, 85, 88, 81, 92], [], [161]⟩]),
  (train_ko3_7, [
   ⟨18, 7, 4, (some 36), true, false, 127, 127, 1270,
    none,
    (some ⟨3, [127, 93, 92, 91, 90], [18, 7, 6, 8, 12], 5, [48, 47, 46]⟩), [], [31, 33], [127]⟩,
   ⟨18, 7, 3, (some 31), true, false, 134, 134, 1340,
    (some ⟨4, 132, 1270, [127, 93, 92, 91, 90]⟩),
    (some ⟨2, [126, 87, 142, 86], [23, 5, 19, 16], 6, [160, 161, 164]⟩), [48, 47, 46], [18, 23, 24], [132]⟩,
   ⟨18, 7, 2, (some 41), true, false, 143, 143, 1430,
    (some ⟨3, 140, 1340, [126, 87, 142, 86]⟩),
    (some ⟨1, [85, 145, 125], [11, 17, 9], 4, [17, 19]⟩), [160, 161, 164], [106], [140]⟩,
   ⟨18, 7, 1, (some 2), true, false, 151, 151, 1510,
    (some ⟨2, 147, 1430, [85, 145, 125]⟩),
    (some ⟨0, [121, 84, 101, 83], [8, 13, 22, 10], 5, [82, 84, 86, 89, 90, 92]⟩), [17, 19], [5, 8], [147]⟩,
   ⟨18, 7, 0, (some 15), false, true, 156, 156, 1560,
    (some ⟨1, 156, 1510, [121, 84, 101, 83]⟩),
    none, [82, 84, 86, 89, 90, 92], [], [156]⟩]),
  (train_ko3_9, [
   ⟨19, 9, 4, (some 36), true, false, 146, 146, 1460,
    none,
    (some ⟨3, [127, 93, 92, 91, 90], [18, 7, 6, 8, 12], 5, [48, 47, 46]⟩), [], [31, 33], [146]⟩,
   ⟨19, 9, 3, (some 31), true, false, 159, 159, 1590,
    (some ⟨4, 151, 1460, [127, 93, 92, 91, 90]⟩),
    (some ⟨2, [126, 87, 142, 86], [23, 5, 19, 16], 6, [160, 161, 164]⟩), [48, 47, 46], [18, 23, 24], [151]⟩,
   ⟨19, 9, 2, (some 41), true, false, 167, 167, 1670,
    (some ⟨3, 165, 1590, [126, 87, 142, 86]⟩),
    (some ⟨1, [85, 145, 125], [11, 17, 9], 4, [17, 19]⟩), [160, 161, 164], [106], [165]⟩,
   ⟨19, 9, 1, (some 2), true, false, 174, 174, 1740,
    (some ⟨2, 171, 1670, [85, 145, 125]⟩),
    (some ⟨0, [121, 84, 101, 83], [8, 13, 22, 10], 5, [82, 84, 86, 89, 90, 92]⟩), [17, 19], [5, 8], [171]⟩,
   ⟨19, 9, 0, (some 15), false, true, 179, 179, 1790,
    (some ⟨1, 179, 1740, [121, 84, 101, 83]⟩),
    none, [82, 84, 86, 89, 90, 92], [], [179]⟩]),
  (train_ko3_11, [
   ⟨20, 11, 4, (some 36), true, false, 196, 198, 1980,
    none,
    (some ⟨3, [127, 93, 92, 91, 90], [18, 7, 6, 8, 12], 5, [48, 47, 46]⟩), [], [31, 33], [196]⟩,
   ⟨20, 11, 3, (some 31), true, false, 203, 205, 2050,
    (some ⟨4, 203, 1980, [127, 93, 92, 91, 90]⟩),
    (some ⟨2, [126, 87, 142, 86], [23, 5, 19, 16], 6, [160, 161, 164]⟩), [48, 47, 46], [18, 23, 24], [203]⟩,
   ⟨20, 11, 2, (some 41), true, false, 211, 213, 2130,
    (some ⟨3, 211, 2050, [126, 87, 142, 86]⟩),
    (some ⟨1, [85, 145, 125], [11, 17, 9], 4, [17, 19]⟩), [160, 161, 164], [106], [211]⟩,
   ⟨20, 11, 1, (some 2), true, false, 217, 219, 2190,
    (some ⟨2, 217, 2130, [85, 145, 125]⟩),
    (some ⟨0, [121, 84, 101, 83], [8, 13, 22, 10], 5, [82, 84, 86, 89, 90, 92]⟩), [17, 19], [5, 8], [217]⟩,
   ⟨20, 11, 0, (some 15), false, true, 222, 224, 2240,
    (some ⟨1, 224, 2190, [121, 84, 101, 83]⟩),
    none, [82, 84, 86, 89, 90, 92], [], [224]⟩])]

theorem ko3n4Plan_sections : ko3n4Plan.map Prod.fst = ko3 := rfl

theorem ko3n4Plan_ok : netKoR.PlanOK "14:00" ko3n4Delays 40 netKoRSpecial ko3n4Plan :=
  ko3Plan_ok.again rfl (by decide +kernel) (by decide +kernel) (by decide +kernel) (by decide +kernel)

theorem ko3n4_cost : netKoR.costOK ko3n4Plan 56 = true := by decide +kernel

/-- the departures: train and station -/
def ko3n4Nodes : List (Nat × Nat) := [
  (5, 0), (12, 1), (4, 0), (13, 4), (2, 3), (13, 1), (13, 3), (13, 2), (4, 1), (4, 2), (4, 3),
  (16, 4), (5, 3), (5, 4), (16, 3), (16, 2), (16, 1), (10, 3), (20, 4), (20, 3), (20, 2), (20, 1),
  (5, 2), (5, 1), (7, 0), (7, 1), (7, 2), (7, 3)]

/-- the choices -/
def ko3n4Choices : List CodedNet.Choice := [
  .against 12 5 1 0, .against 16 4 4 3, .against 12 4 1 0, .first 12 13 1, .against 2 13 3 4,
  .against 4 13 0 1, .against 5 16 3 4, .against 20 10 4 3, .first 5 4 0, .first 5 4 1,
  .first 5 4 2, .against 7 16 0 1]

/-- the inequalities -/
def ko3n4Arcs : ArcTree :=
  .node ⟨.come, 2, 1, 2, 4, 0, false⟩ (.node ⟨.come, 6, 3, 2, 5, 0, false⟩ (.node
  ⟨.come, 12, 6, 3, 5, 0, false⟩ (.node ⟨.run, 0, 4, 7, 7, 0, false⟩ (.node
  ⟨.come, 14, 12, 13, 6, 0, false⟩ (.node ⟨.run, 0, 1, 24, 4, 0, false⟩ .none .none) .none) (.node
  ⟨.run, 0, 20, 21, 8, 0, false⟩ (.node ⟨.come, 23, 25, 17, 5, 0, false⟩ .none .none) .none))
  (.node ⟨.come, 5, 2, 3, 6, 0, false⟩ (.node ⟨.run, 0, 15, 16, 8, 0, false⟩ (.node
  ⟨.come, 24, 17, 25, 6, 0, false⟩ .none .none) .none) (.node ⟨.follow, 20, 9, 24, 3, 0, false⟩
  .none .none))) (.node ⟨.follow, 8, 6, 2, 2, 0, false⟩ (.node ⟨.run, 0, 8, 6, 5, 0, false⟩ (.node
  ⟨.come, 13, 13, 12, 6, 0, false⟩ (.node ⟨.follow, 17, 1, 3, 2, 0, false⟩ .none .none) .none)
  (.node ⟨.follow, 22, 10, 23, 3, 0, false⟩ .none .none)) (.node ⟨.run, 0, 9, 10, 5, 0, false⟩
  (.node ⟨.come, 16, 18, 19, 6, 0, false⟩ (.node ⟨.run, 0, 26, 27, 5, 0, false⟩ .none .none) .none)
  (.node ⟨.track, 21, 23, 9, 0, 4, false⟩ .none .none)))) (.node ⟨.come, 10, 4, 5, 6, 0, false⟩
  (.node ⟨.come, 11, 3, 6, 5, 0, false⟩ (.node ⟨.run, 0, 7, 8, 6, 0, false⟩ (.node
  ⟨.run, 0, 13, 14, 6, 0, false⟩ (.node ⟨.track, 19, 24, 3, 0, 4, false⟩ .none .none) .none) (.node
  ⟨.run, 0, 21, 22, 6, 0, false⟩ (.node ⟨.come, 3, 12, 11, 6, 0, false⟩ .none .none) .none)) (.node
  ⟨.run, 0, 3, 9, 6, 0, false⟩ (.node ⟨.run, 0, 16, 17, 6, 0, false⟩ (.node
  ⟨.run, 0, 25, 26, 6, 0, false⟩ .none .none) .none) (.node ⟨.run, 0, 24, 23, 4, 0, false⟩ .none
  .none))) (.node ⟨.come, 9, 5, 4, 6, 0, false⟩ (.node ⟨.follow, 7, 2, 6, 4, 0, false⟩ (.node
  ⟨.run, 0, 12, 15, 7, 0, false⟩ (.node ⟨.come, 15, 19, 18, 6, 0, false⟩ .none .none) .none) (.node
  ⟨.run, 0, 23, 13, 6, 0, false⟩ .none .none)) (.node ⟨.run, 0, 10, 11, 6, 0, false⟩ (.node
  ⟨.run, 0, 19, 20, 7, 0, false⟩ (.node ⟨.run, 0, 27, 28, 6, 0, false⟩ .none .none) .none) (.node
  ⟨.follow, 18, 3, 1, 3, 0, false⟩ .none .none))))

/-- the bounds of the departures -/
def ko3n4Times : TimeTree :=
  .node 0 0 0 (.node 88 0 128 (.node 77 0 117 (.node 68 0 108 (.node 116 0 156 .none .none) (.node
  96 0 136 .none .none)) (.node 100 4 140 (.node 196 0 236 .none .none) (.node 141 0 181 .none
  .none))) (.node 64 4 104 (.node 83 0 123 (.node 130 4 170 .none .none) (.node 127 0 167 .none
  .none)) (.node 104 0 144 (.node 211 0 251 .none .none) .none))) (.node 77 4 117 (.node 61 0 101
  (.node 74 0 114 (.node 124 0 164 .none .none) (.node 92 0 132 .none .none)) (.node 109 0 149
  (.node 203 0 243 .none .none) (.node 152 4 192 .none .none))) (.node 79 6 119 (.node 91 0 131
  (.node 192 4 232 .none .none) (.node 133 0 173 .none .none)) (.node 114 6 154 (.node 217 4 257
  .none .none) .none)))

/-- some of the cases -/
def ko3n4Case0 : SumTree :=
  .cases [] 0 (.cases [] 1 (.leaf [40]) (.cases [] 2 (.cases [11] 4 (.cases [6, 7, 8, 9] 5 (.cases
  [] 11 (.leaf [39]) (.leaf [35, 36, 37, 38])) (.leaf [3, 12, 13, 14])) (.cases [2] 5 (.leaf [4])
  (.cases [3, 12, 13, 14] 6 (.cases [17, 18, 19, 20] 7 (.leaf [34]) (.cases [21, 22, 23, 24] 3
  (.cases [10, 3, 12, 13, 14] 8 (.leaf [33, 12, 13, 14]) (.cases [] 9 (.cycle 3 [30, 31, 32])
  (.cases [] 10 (.cycle 9 [27, 28, 29]) (.leaf [25, 26, 17, 18, 19, 20])))) (.leaf
  [5, 11, 12, 13, 14]))) (.leaf [15, 16])))) (.cases [1] 3 (.leaf [10]) (.cases [] 4 (.leaf
  [6, 7, 8, 9, 5]) (.cases [2] 5 (.leaf [4, 5]) (.leaf [3, 1])))))) (.leaf [0])

/-- all cases -/
def ko3n4Cases : SumTree :=
  ko3n4Case0

theorem ko3n4_cases : ko3n4Cases.check ko3n4Arcs 56 ko3n4Choices.length [] ko3n4Times 0 = true := by
  decide +kernel

theorem ko3n4_choices : ko3n4Choices.all (CodedNet.Choice.ok netKoR netKoRSpecial ko3n4Plan) = true := by
  decide +kernel

theorem ko3n4_arcs : ko3n4Arcs.toList.all
    (netKoR.arcOK netKoRSpecial ko3n4Plan ko3n4Nodes ko3n4Choices) = true := by decide +kernel

theorem ko3n4_times : netKoR.startOK ko3n4Plan ko3n4Nodes 0 40 ko3n4Times = true := by decide +kernel

end Verif.Real
