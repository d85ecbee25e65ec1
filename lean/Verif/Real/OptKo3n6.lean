import Verif.Proofs.PlanSum
import Verif.Proofs.PlanAgain
import Verif.Real.PlanKo3

/-!
# The sheet of `Verif.Real.Ko3` with given delays: a plan, and that no plan is better

Generated; see `CodedNet.Item` and `Verif/Proofs/SumTree.lean`. Case 3,
`disturbances[6]`, of `/repo/solve_KO_GLC_problems.py`, line 122;
`d_max` is 40. The sum of the delays that count is 176/4.
-/

namespace Verif.Real

set_option maxRecDepth 100000

/-- the given delays -/
def ko3n6Delays : List (Int × ℚ) := [
  (101, 18), (1, 29), (3, 25), (5, 15), (2, 36), (4602, 20), (9, 12), (103, 15), (10, 50),
  (4606, 30)]

/-- the plan, items by sections -/
def ko3n6Plan : CodedNet.Plan := [
  (train_ko3_2, [
   ⟨0, 2, 0, (some 14), true, false, 36, 36, 360,
    none,
    (some ⟨1, [83, 101, 84, 121], [9, 19, 8, 8], 4, [5, 8]⟩), [], [61, 64, 69, 71, 87, 92], [36]⟩,
   ⟨0, 2, 1, (some 1), true, false, 42, 42, 420,
    (some ⟨0, 40, 360, [83, 101, 84, 121]⟩),
    (some ⟨2, [77, 144, 119], [15, 14, 8], 4, [107]⟩), [5, 8], [16, 2], [40]⟩,
   ⟨0, 2, 2, (some 40), true, false, 47, 47, 470,
    (some ⟨1, 46, 420, [77, 144, 119]⟩),
    (some ⟨3, [86, 142, 87, 126], [13, 13, 7, 9], 4, [18, 23]⟩), [107], [161, 164], [46]⟩,
   ⟨0, 2, 3, (some 30), true, false, 53, 53, 530,
    (some ⟨2, 51, 470, [86, 142, 87, 126]⟩),
    (some ⟨4, [90, 91, 92, 93, 127], [13, 9, 5, 7, 20], 5, [31, 33, 41]⟩), [18, 23], [47, 48], [51]⟩,
   ⟨0, 2, 4, (some 35), false, true, 58, 58, 580,
    (some ⟨3, 58, 530, [90, 91, 92, 93, 127]⟩),
    none, [31, 33, 41], [], [58]⟩]),
  (train_ko3_4602, [
   ⟨1, 4602, 0, (some 10), true, false, 74, 74, 740,
    none,
    (some ⟨1, [83, 101, 84, 121], [9, 12, 6, 7], 3, [5, 8]⟩), [], [66, 68, 71, 87, 92], [74]⟩,
   ⟨1, 4602, 1, (some 1), true, false, 79, 79, 790,
    (some ⟨0, 77, 740, [83, 101, 84, 121]⟩),
    (some ⟨2, [77, 144, 119], [11, 9, 8], 3, [107]⟩), [5, 8], [16, 2], [77]⟩,
   ⟨1, 4602, 2, (some 40), true, false, 83, 83, 830,
    (some ⟨1, 82, 790, [77, 144, 119]⟩),
    (some ⟨3, [86, 142, 87, 126], [13, 7, 7, 9], 4, [18, 23]⟩), [107], [161, 164], [82]⟩,
   ⟨1, 4602, 3, (some 30), true, false, 89, 89, 890,
    (some ⟨2, 87, 830, [86, 142, 87, 126]⟩),
    (some ⟨4, [90, 91, 92, 93, 127], [13, 9, 5, 7, 20], 5, [31, 34, 43]⟩), [18, 23], [47, 48], [87]⟩,
   ⟨1, 4602, 4, (some 38), true, false, 95, 95, 950,
    (some ⟨3, 94, 890, [90, 91, 92, 93, 127]⟩),
    none, [31, 34, 43], [], [94]⟩]),
  (train_ko3_4, [
   ⟨2, 4, 0, (some 14), true, false, 38, 39, 390,
    none,
    (some ⟨1, [83, 101, 84, 121], [9, 19, 8, 8], 4, [5, 8]⟩), [], [61, 64, 69, 71, 87, 92], [38]⟩,
   ⟨2, 4, 1, (some 1), true, false, 46, 46, 460,
    (some ⟨0, 43, 390, [83, 101, 84, 121]⟩),
    (some ⟨2, [77, 144, 119], [15, 14, 8], 4, [107]⟩), [5, 8], [16, 2], [43]⟩,
   ⟨2, 4, 2, (some 40), true, false, 55, 55, 550,
    (some ⟨1, 50, 460, [77, 144, 119]⟩),
    (some ⟨3, [86, 142, 87, 126], [13, 13, 7, 9], 4, [18, 23]⟩), [107], [161, 164], [50]⟩,
   ⟨2, 4, 3, (some 30), true, false, 64, 67, 670,
    (some ⟨2, 59, 550, [86, 142, 87, 126]⟩),
    (some ⟨4, [90, 91, 92, 93, 127], [13, 9, 5, 7, 20], 5, [31, 33, 41]⟩), [18, 23], [47, 48], [59]⟩,
   ⟨2, 4, 4, (some 35), false, true, 69, 72, 720,
    (some ⟨3, 72, 670, [90, 91, 92, 93, 127]⟩),
    none, [31, 33, 41], [], [72]⟩]),
  (train_ko3_102, [
   ⟨3, 102, 0, (some 16), true, false, 79, 90, 900,
    none,
    (some ⟨1, [83, 101, 84, 121], [9, 19, 8, 10], 5, [5, 8, 9]⟩), [], [62, 64, 69, 71, 87, 92], [79]⟩,
   ⟨3, 102, 1, (some 3), true, false, 86, 97, 970,
    (some ⟨0, 95, 900, [83, 101, 84, 121]⟩),
    none, [5, 8, 9], [], [95]⟩]),
  (train_ko3_6, [
   ⟨4, 6, 0, (some 14), true, false, 77, 87, 870,
    none,
    (some ⟨1, [83, 101, 84, 121], [9, 19, 8, 8], 4, [5, 8]⟩), [], [61, 64, 69, 71, 87, 92], [77]⟩,
   ⟨4, 6, 1, (some 1), true, false, 83, 93, 930,
    (some ⟨0, 91, 870, [83, 101, 84, 121]⟩),
    (some ⟨2, [77, 144, 119], [15, 14, 8], 4, [107]⟩), [5, 8], [16, 2], [91]⟩,
   ⟨4, 6, 2, (some 40), true, false, 91, 98, 980,
    (some ⟨1, 97, 930, [77, 144, 119]⟩),
    (some ⟨3, [86, 142, 87, 126], [13, 13, 7, 9], 4, [18, 23]⟩), [107], [161, 164], [97]⟩,
   ⟨4, 6, 3, (some 30), true, false, 100, 104, 1040,
    (some ⟨2, 102, 980, [86, 142, 87, 126]⟩),
    (some ⟨4, [90, 91, 92, 93, 127], [13, 9, 5, 7, 20], 5, [31, 33, 41]⟩), [18, 23], [47, 48], [102]⟩,
   ⟨4, 6, 4, (some 35), false, true, 105, 109, 1090,
    (some ⟨3, 109, 1040, [90, 91, 92, 93, 127]⟩),
    none, [31, 33, 41], [], [109]⟩]),
  (train_ko3_4604, [
   ⟨5, 4604, 0, (some 10), true, false, 88, 93, 930,
    none,
    (some ⟨1, [83, 101, 84, 121], [9, 12, 6, 7], 3, [5, 8]⟩), [], [66, 68, 71, 87, 92], [88]⟩,
   ⟨5, 4604, 1, (some 1), true, false, 92, 97, 970,
    (some ⟨0, 96, 930, [83, 101, 84, 121]⟩),
    (some ⟨2, [77, 144, 119], [11, 9, 8], 3, [107]⟩), [5, 8], [16, 2], [96]⟩,
   ⟨5, 4604, 2, (some 40), true, false, 96, 101, 1010,
    (some ⟨1, 100, 970, [77, 144, 119]⟩),
    (some ⟨3, [86, 142, 87, 126], [13, 7, 7, 9], 4, [18, 23]⟩), [107], [161, 164], [100]⟩,
   ⟨5, 4604, 3, (some 30), true, false, 104, 107, 1070,
    (some ⟨2, 105, 1010, [86, 142, 87, 126]⟩),
    (some ⟨4, [90, 91, 92, 93, 127], [13, 9, 5, 7, 20], 5, [31, 34, 43]⟩), [18, 23], [47, 48], [105]⟩,
   ⟨5, 4604, 4, (some 38), true, false, 114, 114, 1140,
    (some ⟨3, 112, 1070, [90, 91, 92, 93, 127]⟩),
    none, [31, 34, 43], [], [112]⟩]),
  (train_ko3_8, [
   ⟨6, 8, 0, (some 14), true, false, 114, 114, 1140,
    none,
    (some ⟨1, [83, 101, 84, 121], [9, 19, 8, 8], 4, [5, 8]⟩), [], [61, 64, 69, 71, 87, 92], [114]⟩,
   ⟨6, 8, 1, (some 1), true, false, 120, 120, 1200,
    (some ⟨0, 118, 1140, [83, 101, 84, 121]⟩),
    (some ⟨2, [77, 144, 119], [15, 14, 8], 4, [107]⟩), [5, 8], [16, 2], [118]⟩,
   ⟨6, 8, 2, (some 40), true, false, 126, 127, 1270,
    (some ⟨1, 124, 1200, [77, 144, 119]⟩),
    (some ⟨3, [86, 142, 87, 126], [13, 13, 7, 9], 4, [18, 23]⟩), [107], [161, 164], [124]⟩,
   ⟨6, 8, 3, (some 30), true, false, 133, 133, 1330,
    (some ⟨2, 131, 1270, [86, 142, 87, 126]⟩),
    (some ⟨4, [90, 91, 92, 93, 127], [13, 9, 5, 7, 20], 5, [31, 33, 41]⟩), [18, 23], [47, 48], [131]⟩,
   ⟨6, 8, 4, (some 35), false, true, 138, 138, 1380,
    (some ⟨3, 138, 1330, [90, 91, 92, 93, 127]⟩),
    none, [31, 33, 41], [], [138]⟩]),
  (train_ko3_10, [
   ⟨7, 10, 0, (some 14), true, false, 177, 177, 1770,
    none,
    (some ⟨1, [83, 101, 84, 121], [9, 19, 8, 8], 4, [5, 8]⟩), [], [61, 64, 69, 71, 87, 92], [177]⟩,
   ⟨7, 10, 1, (some 1), true, false, 183, 183, 1830,
    (some ⟨0, 181, 1770, [83, 101, 84, 121]⟩),
    (some ⟨2, [77, 144, 119], [15, 14, 8], 4, [107]⟩), [5, 8], [16, 2], [181]⟩,
   ⟨7, 10, 2, (some 40), true, false, 188, 188, 1880,
    (some ⟨1, 187, 1830, [77, 144, 119]⟩),
    (some ⟨3, [86, 142, 87, 126], [13, 13, 7, 9], 4, [18, 23]⟩), [107], [161, 164], [187]⟩,
   ⟨7, 10, 3, (some 30), true, false, 194, 195, 1950,
    (some ⟨2, 192, 1880, [86, 142, 87, 126]⟩),
    (some ⟨4, [90, 91, 92, 93, 127], [13, 9, 5, 7, 20], 5, [31, 33, 41]⟩), [18, 23], [47, 48], [192]⟩,
   ⟨7, 10, 4, (some 35), false, true, 199, 200, 2000,
    (some ⟨3, 200, 1950, [90, 91, 92, 93, 127]⟩),
    none, [31, 33, 41], [], [200]⟩]),
  (train_ko3_4606, [
   ⟨8, 4606, 0, (some 10), true, false, 172, 172, 1720,
    none,
    (some ⟨1, [83, 101, 84, 121], [9, 12, 6, 7], 3, [5, 8]⟩), [], [66, 68, 71, 87, 92], [172]⟩,
   ⟨8, 4606, 1, (some 1), true, false, 177, 177, 1770,
    (some ⟨0, 175, 1720, [83, 101, 84, 121]⟩),
    (some ⟨2, [77, 144, 119], [11, 9, 8], 3, [107]⟩), [5, 8], [16, 2], [175]⟩,
   ⟨8, 4606, 2, (some 40), true, false, 181, 181, 1810,
    (some ⟨1, 180, 1770, [77, 144, 119]⟩),
    (some ⟨3, [86, 142, 87, 126], [13, 7, 7, 9], 4, [18, 23]⟩), [107], [161, 164], [180]⟩,
   ⟨8, 4606, 3, (some 30), true, false, 187, 187, 1870,
    (some ⟨2, 185, 1810, [86, 142, 87, 126]⟩),
    (some ⟨4, [90, 91, 92, 93, 127], [13, 9, 5, 7, 20], 5, [31, 34, 43]⟩), [18, 23], [47, 48], [185]⟩,
   ⟨8, 4606, 4, (some 38), true, false, 193, 193, 1930,
    (some ⟨3, 192, 1870, [90, 91, 92, 93, 127]⟩),
    none, [31, 34, 43], [], [192]⟩]),
  (train_ko3_12, [
   ⟨9, 12, 0, (some 14), true, false, 180, 180, 1800,
    none,
    (some ⟨1, [83, 101, 84, 121], [9, 19, 8, 8], 4, [5, 8]⟩), [], [61, 64, 69, 71, 87, 92], [180]⟩,
   ⟨9, 12, 1, (some 1), true, false, 186, 186, 1860,
    (some ⟨0, 184, 1800, [83, 101, 84, 121]⟩),
    (some ⟨2, [77, 144, 119], [15, 14, 8], 4, [107]⟩), [5, 8], [16, 2], [184]⟩,
   ⟨9, 12, 2, (some 40), true, false, 191, 191, 1910,
    (some ⟨1, 190, 1860, [77, 144, 119]⟩),
    (some ⟨3, [86, 142, 87, 126], [13, 13, 7, 9], 4, [18, 23]⟩), [107], [161, 164], [190]⟩,
   ⟨9, 12, 3, (some 30), true, false, 197, 198, 1980,
    (some ⟨2, 195, 1910, [86, 142, 87, 126]⟩),
    (some ⟨4, [90, 91, 92, 93, 127], [13, 9, 5, 7, 20], 5, [31, 33, 41]⟩), [18, 23], [47, 48], [195]⟩,
   ⟨9, 12, 4, (some 35), false, true, 202, 203, 2030,
    (some ⟨3, 203, 1980, [90, 91, 92, 93, 127]⟩),
    none, [31, 33, 41], [], [203]⟩]),
  (train_ko3_14, [
   ⟨10, 14, 0, (some 14), true, false, 164, 174, 1740,
    none,
    (some ⟨1, [83, 101, 84, 121], [9, 19, 8, 8], 4, [5, 8]⟩), [], [61, 64, 69, 71, 87, 92], [164]⟩,
   ⟨10, 14, 1, (some 1), true, false, 180, 180, 1800,
    (some ⟨0, 178, 1740, [83, 101, 84, 121]⟩),
    (some ⟨2, [77, 144, 119], [15, 14, 8], 4, [107]⟩), [5, 8], [16, 2], [178]⟩,
   ⟨10, 14, 2, (some 40), true, false, 185, 185, 1850,
    (some ⟨1, 184, 1800, [77, 144, 119]⟩),
    (some ⟨3, [86, 142, 87, 126], [13, 13, 7, 9], 4, [18, 23]⟩), [107], [161, 164], [184]⟩,
   ⟨10, 14, 3, (some 30), true, false, 192, 192, 1920,
    (some ⟨2, 189, 1850, [86, 142, 87, 126]⟩),
    (some ⟨4, [90, 91, 92, 93, 127], [13, 9, 5, 7, 20], 5, [31, 33, 41]⟩), [18, 23], [47, 48], [189]⟩,
   ⟨10, 14, 4, (some 35), false, true, 197, 197, 1970,
    (some ⟨3, 197, 1920, [90, 91, 92, 93, 127]⟩),
    none, [31, 33, 41], [], [197]⟩]),
  (train_ko3_1, [
   ⟨11, 1, 4, (some 36), true, false, 27, 27, 270,
    none,
    (some ⟨3, [127, 93, 92, 91, 90], [18, 7, 6, 8, 12], 5, [48, 47, 46]⟩), [], [31, 33], [27]⟩,
   ⟨11, 1, 3, (some 31), true, false, 34, 34, 340,
    (some ⟨4, 32, 270, [127, 93, 92, 91, 90]⟩),
    (some ⟨2, [126, 87, 142, 86], [23, 5, 19, 16], 6, [160, 161, 164]⟩), [48, 47, 46], [18, 23, 24], [32]⟩,
   ⟨11, 1, 2, (some 41), true, false, 42, 42, 420,
    (some ⟨3, 40, 340, [126, 87, 142, 86]⟩),
    (some ⟨1, [85, 145, 125], [11, 17, 9], 4, [17, 19]⟩), [160, 161, 164], [106], [40]⟩,
   ⟨11, 1, 1, (some 2), true, false, 48, 48, 480,
    (some ⟨2, 46, 420, [85, 145, 125]⟩),
    (some ⟨0, [121, 84, 101, 83], [8, 13, 22, 10], 5, [82, 84, 86, 89, 90, 92]⟩), [17, 19], [5, 8], [46]⟩,
   ⟨11, 1, 0, (some 15), false, true, 53, 53, 530,
    (some ⟨1, 53, 480, [121, 84, 101, 83]⟩),
    none, [82, 84, 86, 89, 90, 92], [], [53]⟩]),
  (train_ko3_101, [
   ⟨12, 101, 1, (some 4), true, false, 77, 81, 810,
    none,
    (some ⟨0, [121, 84, 101, 83], [8, 13, 22, 10], 5, [82, 84, 86, 89, 90, 92]⟩), [], [5, 6, 7], [77]⟩,
   ⟨12, 101, 0, (some 39), false, true, 82, 86, 860,
    (some ⟨1, 86, 810, [121, 84, 101, 83]⟩),
    none, [82, 84, 86, 89, 90, 92], [], [86]⟩]),
  (train_ko3_6401, [
   ⟨13, 6401, 4, (some 36), true, false, 61, 61, 610,
    none,
    (some ⟨3, [127, 93, 92, 91, 90], [18, 7, 6, 8, 12], 5, [48, 47, 46]⟩), [], [31, 33], [61]⟩,
   ⟨13, 6401, 3, (some 31), true, false, 68, 68, 680,
    (some ⟨4, 66, 610, [127, 93, 92, 91, 90]⟩),
    (some ⟨2, [126, 87, 142, 86], [23, 5, 9, 16], 5, [160, 161, 164]⟩), [48, 47, 46], [18, 23, 24], [66]⟩,
   ⟨13, 6401, 2, (some 41), true, false, 74, 74, 740,
    (some ⟨3, 73, 680, [126, 87, 142, 86]⟩),
    (some ⟨1, [85, 145, 125], [11, 7, 9], 3, [17, 19]⟩), [160, 161, 164], [106], [73]⟩,
   ⟨13, 6401, 1, (some 2), true, false, 79, 79, 790,
    (some ⟨2, 77, 740, [85, 145, 125]⟩),
    (some ⟨0, [121, 84, 101, 83], [8, 11, 12, 10], 4, [81, 85, 88, 81, 92]⟩), [17, 19], [5, 8], [77]⟩,
   ⟨13, 6401, 0, (some 13), false, true, 83, 83, 830,
    (some ⟨1, 83, 790, [121, 84, 101, 83]⟩),
    none, [81, 85, 88, 81, 92], [], [83]⟩]),
  (train_ko3_3, [
   ⟨14, 3, 4, (some 36), true, false, 79, 79, 790,
    none,
    (some ⟨3, [127, 93, 92, 91, 90], [18, 7, 6, 8, 12], 5, [48, 47, 46]⟩), [], [31, 33], [79]⟩,
   ⟨14, 3, 3, (some 31), true, false, 86, 88, 880,
    (some ⟨4, 84, 790, [127, 93, 92, 91, 90]⟩),
    (some ⟨2, [126, 87, 142, 86], [23, 5, 19, 16], 6, [160, 161, 164]⟩), [48, 47, 46], [18, 23, 24], [84]⟩,
   ⟨14, 3, 2, (some 41), true, false, 94, 96, 960,
    (some ⟨3, 94, 880, [126, 87, 142, 86]⟩),
    (some ⟨1, [85, 145, 125], [11, 17, 9], 4, [17, 19]⟩), [160, 161, 164], [106], [94]⟩,
   ⟨14, 3, 1, (some 2), true, false, 100, 102, 1020,
    (some ⟨2, 100, 960, [85, 145, 125]⟩),
    (some ⟨0, [121, 84, 101, 83], [8, 13, 22, 10], 5, [82, 84, 86, 89, 90, 92]⟩), [17, 19], [5, 8], [100]⟩,
   ⟨14, 3, 0, (some 15), false, true, 105, 107, 1070,
    (some ⟨1, 107, 1020, [121, 84, 101, 83]⟩),
    none, [82, 84, 86, 89, 90, 92], [], [107]⟩]),
  (train_ko3_103, [
   ⟨15, 103, 1, (some 4), true, false, 220, 220, 2200,
    none,
    (some ⟨0, [121, 84, 101, 83], [8, 13, 22, 10], 5, [82, 84, 86, 89, 90, 92]⟩), [], [5, 6, 7], [220]⟩,
   ⟨15, 103, 0, (some 39), false, true, 225, 225, 2250,
    (some ⟨1, 225, 2200, [121, 84, 101, 83]⟩),
    none, [82, 84, 86, 89, 90, 92], [], [225]⟩]),
  (train_ko3_5, [
   ⟨16, 5, 4, (some 36), true, false, 109, 113, 1130,
    none,
    (some ⟨3, [127, 93, 92, 91, 90], [18, 7, 6, 8, 12], 5, [48, 47, 46]⟩), [], [31, 33], [109]⟩,
   ⟨16, 5, 3, (some 31), true, false, 116, 120, 1200,
    (some ⟨4, 118, 1130, [127, 93, 92, 91, 90]⟩),
    (some ⟨2, [126, 87, 142, 86], [23, 5, 19, 16], 6, [160, 161, 164]⟩), [48, 47, 46], [18, 23, 24], [118]⟩,
   ⟨16, 5, 2, (some 41), true, false, 124, 128, 1280,
    (some ⟨3, 126, 1200, [126, 87, 142, 86]⟩),
    (some ⟨1, [85, 145, 125], [11, 17, 9], 4, [17, 19]⟩), [160, 161, 164], [106], [126]⟩,
   ⟨16, 5, 1, (some 2), true, false, 130, 134, 1340,
    (some ⟨2, 132, 1280, [85, 145, 125]⟩),
    (some ⟨0, [121, 84, 101, 83], [8, 13, 22, 10], 5, [82, 84, 86, 89, 90, 92]⟩), [17, 19], [5, 8], [132]⟩,
   ⟨16, 5, 0, (some 15), false, true, 135, 139, 1390,
    (some ⟨1, 139, 1340, [121, 84, 101, 83]⟩),
    none, [82, 84, 86, 89, 90, 92], [], [139]⟩]),
  (train_ko3_6403, [
   ⟨17, 6403, 4, (some 36), true, false, 139, 139, 1390,
    none,
    (some ⟨3, [127, 93, 92, 91, 90], [18, 7, 6, 8, 12], 5, [48, 47, 46]⟩), [], [31, 33], [139]⟩,
   ⟨17, 6403, 3, (some 31), true, false, 146, 146, 1460,
    (some ⟨4, 144, 1390, [127, 93, 92, 91, 90]⟩),
    (some ⟨2, [126, 87, 142, 86], [23, 5, 9, 16], 5, [160, 161, 164]⟩), [48, 47, 46], [18, 23, 24], [144]⟩,
   ⟨17, 6403, 2, (some 41), true, false, 152, 152, 1520,
    (some ⟨3, 151, 1460, [126, 87, 142, 86]⟩),
    (some ⟨1, [85, 145, 125], [11, 7, 9], 3, [17, 19]⟩), [160, 161, 164], [106], [151]⟩,
   ⟨17, 6403, 1, (some 2), true, false, 157, 157, 1570,
    (some ⟨2, 155, 1520, [85, 145, 125]⟩),
    (some ⟨0, [121, 84, 101, 83], [8, 11, 12, 10], 4, [81, 85, 88, 81, 92]⟩), [17, 19], [5, 8], [155]⟩,
   ⟨17, 6403, 0, (some 13), false, true, 161, 161, 1610,
    (some ⟨1, 161, 1570, [121, 84, 101, 83]⟩),
    none, [81, 85, 88, 81, 92], [], [161]⟩]),
  (train_ko3_7, [
   ⟨18, 7, 4, (some 36), true, false, 127, 127, 1270,
    none,
    (some ⟨3, [127, 93, 92, 91, 90], [18, 7, 6, 8, 12], 5, [48, 47, 46]⟩), [], [31, 33], [127]⟩,
   ⟨18, 7, 3, (some 31), true, false, 134, 134, 1340,
    (some ⟨4, 132, 1270, [127, 93, 92, 91, 90]⟩),
    (some ⟨2, [126, 87, 142, 86], [23, 5, 19, 16], 6, [160, 161, 164]⟩), [48, 47, 46], [18, 23, 24], [132]⟩,
   ⟨18, 7, 2, (some 41), true, false, 143, 143, 1430,
    (some ⟨3, 140, 1340, [126, 87, 142, 86]⟩),
    (some ⟨1, [85, 145, 125], [11, 17, 9], 4, [17, 19]⟩), [160, 161, 164], [106], [140]⟩,
   ⟨18, 7, 1, (some 2), true, false, 151, 151, 1510,
    (some ⟨2, 147, 1430, [85, 145, 125]⟩),
    (some ⟨0, [121, 84, 101, 83], [8, 13, 22, 10], 5, [82, 84, 86, 89, 90, 92]⟩), [17, 19], [5, 8], [147]⟩,
   ⟨18, 7, 0, (some 15), false, true, 156, 156, 1560,
    (some ⟨1, 156, 1510, [121, 84, 101, 83]⟩),
    none, [82, 84, 86, 89, 90, 92], [], [156]⟩]),
  (train_ko3_9, [
   ⟨19, 9, 4, (some 36), true, false, 158, 158, 1580,
    none,
    (some ⟨3, [127, 93, 92, 91, 90], [18, 7, 6, 8, 12], 5, [48, 47, 46]⟩), [], [31, 33], [158]⟩,
   ⟨19, 9, 3, (some 31), true, false, 165, 165, 1650,
    (some ⟨4, 163, 1580, [127, 93, 92, 91, 90]⟩),
    (some ⟨2, [126, 87, 142, 86], [23, 5, 19, 16], 6, [160, 161, 164]⟩), [48, 47, 46], [18, 23, 24], [163]⟩,
   ⟨19, 9, 2, (some 41), true, false, 173, 173, 1730,
    (some ⟨3, 171, 1650, [126, 87, 142, 86]⟩),
    (some ⟨1, [85, 145, 125], [11, 17, 9], 4, [17, 19]⟩), [160, 161, 164], [106], [171]⟩,
   ⟨19, 9, 1, (some 2), true, false, 179, 185, 1850,
    (some ⟨2, 177, 1730, [85, 145, 125]⟩),
    (some ⟨0, [121, 84, 101, 83], [8, 13, 22, 10], 5, [82, 84, 86, 89, 90, 92]⟩), [17, 19], [5, 8], [177]⟩,
   ⟨19, 9, 0, (some 15), false, true, 184, 190, 1900,
    (some ⟨1, 190, 1850, [121, 84, 101, 83]⟩),
    none, [82, 84, 86, 89, 90, 92], [], [190]⟩]),
  (train_ko3_11, [
   ⟨20, 11, 4, (some 36), true, false, 196, 204, 2040,
    none,
    (some ⟨3, [127, 93, 92, 91, 90], [18, 7, 6, 8, 12], 5, [48, 47, 46]⟩), [], [31, 33], [196]⟩,
   ⟨20, 11, 3, (some 31), true, false, 203, 211, 2110,
    (some ⟨4, 209, 2040, [127, 93, 92, 91, 90]⟩),
    (some ⟨2, [126, 87, 142, 86], [23, 5, 19, 16], 6, [160, 161, 164]⟩), [48, 47, 46], [18, 23, 24], [209]⟩,
   ⟨20, 11, 2, (some 41), true, false, 211, 219, 2190,
    (some ⟨3, 217, 2110, [126, 87, 142, 86]⟩),
    (some ⟨1, [85, 145, 125], [11, 17, 9], 4, [17, 19]⟩), [160, 161, 164], [106], [217]⟩,
   ⟨20, 11, 1, (some 2), true, false, 217, 225, 2250,
    (some ⟨2, 223, 2190, [85, 145, 125]⟩),
    (some ⟨0, [121, 84, 101, 83], [8, 13, 22, 10], 5, [82, 84, 86, 89, 90, 92]⟩), [17, 19], [5, 8], [223]⟩,
   ⟨20, 11, 0, (some 15), false, true, 222, 230, 2300,
    (some ⟨1, 230, 2250, [121, 84, 101, 83]⟩),
    none, [82, 84, 86, 89, 90, 92], [], [230]⟩])]

theorem ko3n6Plan_sections : ko3n6Plan.map Prod.fst = ko3 := rfl

theorem ko3n6Plan_ok : netKoR.PlanOK "14:00" ko3n6Delays 40 netKoRSpecial ko3n6Plan :=
  ko3Plan_ok.again rfl (by decide +kernel) (by decide +kernel) (by decide +kernel) (by decide +kernel)

theorem ko3n6_cost : netKoR.costOK ko3n6Plan 176 = true := by decide +kernel

/-- the departures: train and station -/
def ko3n6Nodes : List (Nat × Nat) := [
  (5, 0), (9, 0), (9, 1), (7, 0), (19, 1), (13, 1), (3, 0), (3, 1), (13, 4), (2, 3), (9, 3),
  (20, 4), (20, 3), (20, 2), (20, 1), (9, 2), (1, 0), (12, 1), (16, 4), (5, 3), (5, 4), (16, 3),
  (16, 2), (16, 1), (4, 0), (4, 1), (4, 2), (4, 3), (1, 1), (1, 2), (1, 3), (1, 4), (14, 3),
  (14, 2), (14, 1), (6, 0), (15, 1), (6, 2), (10, 3), (7, 3), (10, 2), (7, 2), (10, 1), (7, 1),
  (5, 1), (5, 2), (17, 4), (6, 3), (13, 3), (13, 2), (10, 0)]

/-- the choices -/
def ko3n6Choices : List CodedNet.Choice := [
  .first 1 5 0, .first 7 9 0, .first 7 10 0, .first 7 9 1, .first 7 10 1, .first 9 10 2,
  .against 7 19 0 1, .against 3 13 0 1, .against 2 13 3 4, .against 20 9 4 3, .against 9 19 0 1,
  .first 3 1 0, .against 12 1 1 0, .against 12 3 1 0, .against 16 4 4 3, .against 5 16 3 4,
  .first 5 4 3, .against 12 4 1 0, .against 4 13 0 1, .first 12 13 1, .against 14 1 3 2,
  .against 14 6 1 0, .against 14 4 3 2, .first 15 20 1, .against 16 6 3 2, .first 3 5 0,
  .first 5 4 0, .against 12 5 1 0, .first 7 10 2, .first 7 10 3, .first 3 4 0, .first 7 9 2,
  .first 7 9 3, .against 14 5 3 2, .against 17 6 4 3, .first 9 10 3, .first 1 4 2, .first 1 4 3,
  .against 1 13 0 1, .against 7 20 3 4, .against 20 10 4 3, .first 5 4 2, .against 5 13 0 1]

/-- the inequalities -/
def ko3n6Arcs : ArcTree :=
  .node ⟨.track, 2, 1, 0, 0, 74, false⟩ (.node ⟨.track, 4, 2, 0, 0, 177, false⟩ (.node
  ⟨.track, 3, 4, 0, 0, 180, false⟩ (.node ⟨.run, 0, 7, 8, 7, 0, false⟩ (.node
  ⟨.run, 0, 3, 16, 5, 0, false⟩ (.node ⟨.run, 0, 27, 28, 6, 0, false⟩ (.node
  ⟨.run, 0, 42, 40, 6, 0, false⟩ .none .none) (.node ⟨.come, 82, 39, 12, 6, 0, false⟩ .none .none))
  (.node ⟨.run, 0, 33, 34, 8, 0, false⟩ (.node ⟨.come, 67, 33, 46, 7, 0, false⟩ .none .none) (.node
  ⟨.track, 11, 16, 43, 0, 4, false⟩ .none .none))) (.node ⟨.run, 0, 22, 23, 8, 0, false⟩ (.node
  ⟨.run, 0, 17, 29, 5, 0, false⟩ (.node ⟨.follow, 53, 1, 25, 2, 0, false⟩ .none .none) (.node
  ⟨.come, 17, 10, 9, 6, 0, false⟩ .none .none)) (.node ⟨.follow, 60, 39, 40, 3, 0, false⟩ (.node
  ⟨.come, 77, 17, 6, 4, 0, false⟩ .none .none) .none))) (.node ⟨.run, 0, 13, 14, 8, 0, false⟩
  (.node ⟨.come, 32, 19, 20, 6, 0, false⟩ (.node ⟨.follow, 33, 20, 28, 3, 0, false⟩ (.node
  ⟨.come, 55, 18, 1, 6, 0, false⟩ .none .none) (.node ⟨.come, 79, 40, 12, 6, 0, false⟩ .none
  .none)) (.node ⟨.come, 45, 33, 27, 7, 0, false⟩ (.node ⟨.follow, 73, 30, 27, 2, 0, false⟩ .none
  .none) (.node ⟨.track, 5, 4, 0, 0, 164, false⟩ .none .none))) (.node
  ⟨.come, 35, 18, 25, 6, 0, false⟩ (.node ⟨.run, 0, 31, 32, 6, 0, false⟩ (.node
  ⟨.track, 66, 11, 42, 0, 4, false⟩ .none .none) (.node ⟨.come, 15, 7, 6, 6, 0, false⟩ .none
  .none)) (.node ⟨.follow, 61, 7, 25, 3, 0, false⟩ (.node ⟨.follow, 12, 41, 16, 3, 0, false⟩ .none
  .none) .none)))) (.node ⟨.come, 13, 4, 5, 5, 0, false⟩ (.node ⟨.come, 20, 11, 12, 6, 0, false⟩
  (.node ⟨.come, 26, 17, 18, 4, 0, false⟩ (.node ⟨.come, 38, 6, 25, 5, 0, false⟩ (.node
  ⟨.follow, 10, 43, 44, 3, 0, false⟩ .none .none) (.node ⟨.follow, 47, 37, 15, 4, 0, false⟩ .none
  .none)) (.node ⟨.come, 44, 36, 35, 5, 0, false⟩ (.node ⟨.come, 41, 33, 30, 7, 0, false⟩ .none
  .none) (.node ⟨.track, 9, 44, 51, 0, 4, false⟩ .none .none))) (.node
  ⟨.come, 36, 25, 18, 5, 0, false⟩ (.node ⟨.run, 0, 29, 30, 4, 0, false⟩ (.node
  ⟨.track, 64, 16, 44, 0, 4, false⟩ .none .none) (.node ⟨.run, 0, 49, 50, 6, 0, false⟩ .none
  .none)) (.node ⟨.follow, 51, 7, 1, 3, 0, false⟩ (.node ⟨.follow, 72, 39, 11, 3, 0, false⟩ .none
  .none) .none))) (.node ⟨.come, 22, 5, 2, 6, 0, false⟩ (.node ⟨.come, 31, 20, 19, 6, 0, false⟩
  (.node ⟨.come, 29, 19, 28, 6, 0, false⟩ (.node ⟨.run, 0, 45, 46, 4, 0, false⟩ .none .none) (.node
  ⟨.track, 34, 28, 46, 0, 4, false⟩ .none .none)) (.node ⟨.come, 50, 38, 22, 5, 0, false⟩ (.node
  ⟨.follow, 75, 31, 28, 3, 0, false⟩ .none .none) .none)) (.node ⟨.run, 0, 25, 26, 6, 0, false⟩
  (.node ⟨.come, 21, 2, 5, 5, 0, false⟩ (.node ⟨.follow, 65, 40, 11, 3, 0, false⟩ .none .none)
  (.node ⟨.come, 85, 1, 6, 4, 0, false⟩ .none .none)) (.node ⟨.track, 59, 40, 41, 0, 4, false⟩
  (.node ⟨.come, 80, 12, 40, 6, 0, false⟩ .none .none) .none))))) (.node
  ⟨.track, 8, 3, 4, 0, 4, false⟩ (.node ⟨.come, 14, 5, 4, 6, 0, false⟩ (.node
  ⟨.come, 18, 9, 10, 6, 0, false⟩ (.node ⟨.run, 0, 16, 11, 6, 0, false⟩ (.node
  ⟨.follow, 39, 18, 6, 4, 0, false⟩ (.node ⟨.track, 57, 42, 43, 0, 4, false⟩ .none .none) (.node
  ⟨.follow, 66, 11, 40, 3, 0, false⟩ .none .none)) (.node ⟨.run, 0, 34, 35, 6, 0, false⟩ (.node
  ⟨.come, 69, 47, 48, 6, 0, false⟩ .none .none) (.node ⟨.track, 10, 43, 4, 0, 4, false⟩ .none
  .none))) (.node ⟨.run, 0, 23, 24, 6, 0, false⟩ (.node ⟨.follow, 24, 17, 7, 2, 0, false⟩ (.node
  ⟨.follow, 34, 28, 20, 3, 0, false⟩ .none .none) (.node ⟨.run, 0, 9, 49, 7, 0, false⟩ .none
  .none)) (.node ⟨.follow, 62, 25, 7, 3, 0, false⟩ (.node ⟨.follow, 59, 40, 39, 3, 0, false⟩ .none
  .none) .none))) (.node ⟨.run, 0, 14, 15, 6, 0, false⟩ (.node ⟨.run, 0, 20, 21, 6, 0, false⟩
  (.node ⟨.come, 30, 28, 19, 6, 0, false⟩ (.node ⟨.run, 0, 1, 45, 4, 0, false⟩ .none .none) (.node
  ⟨.follow, 84, 27, 46, 3, 0, false⟩ .none .none)) (.node ⟨.follow, 48, 15, 37, 4, 0, false⟩ (.node
  ⟨.track, 76, 28, 30, 0, 4, false⟩ .none .none) .none)) (.node ⟨.follow, 40, 6, 18, 2, 0, false⟩
  (.node ⟨.follow, 23, 7, 17, 3, 0, false⟩ (.node ⟨.follow, 63, 42, 16, 3, 0, false⟩ .none .none)
  (.node ⟨.come, 86, 6, 1, 5, 0, false⟩ .none .none)) (.node ⟨.follow, 54, 25, 1, 3, 0, false⟩
  (.node ⟨.come, 19, 12, 11, 6, 0, false⟩ .none .none) .none)))) (.node
  ⟨.come, 16, 6, 7, 5, 0, false⟩ (.node ⟨.run, 0, 12, 13, 7, 0, false⟩ (.node
  ⟨.come, 28, 7, 18, 6, 0, false⟩ (.node ⟨.come, 37, 25, 6, 5, 0, false⟩ (.node
  ⟨.run, 0, 44, 42, 5, 0, false⟩ .none .none) (.node ⟨.come, 81, 12, 39, 6, 0, false⟩ .none .none))
  (.node ⟨.come, 46, 27, 33, 5, 0, false⟩ (.node ⟨.follow, 74, 27, 30, 3, 0, false⟩ .none .none)
  (.node ⟨.track, 6, 51, 0, 0, 177, false⟩ .none .none))) (.node ⟨.come, 27, 18, 7, 6, 0, false⟩
  (.node ⟨.run, 0, 30, 31, 6, 0, false⟩ (.node ⟨.follow, 7, 44, 3, 3, 0, false⟩ .none .none) (.node
  ⟨.run, 0, 50, 6, 5, 0, false⟩ .none .none)) (.node ⟨.come, 56, 1, 18, 4, 0, false⟩ (.node
  ⟨.track, 71, 11, 41, 0, 4, false⟩ .none .none) .none))) (.node ⟨.run, 0, 2, 3, 6, 0, false⟩
  (.node ⟨.run, 0, 19, 22, 7, 0, false⟩ (.node ⟨.come, 25, 18, 17, 6, 0, false⟩ (.node
  ⟨.run, 0, 46, 20, 6, 0, false⟩ .none .none) (.node ⟨.follow, 83, 46, 27, 2, 0, false⟩ .none
  .none)) (.node ⟨.follow, 52, 1, 7, 2, 0, false⟩ (.node ⟨.come, 78, 6, 17, 5, 0, false⟩ .none
  .none) .none)) (.node ⟨.run, 0, 26, 27, 5, 0, false⟩ (.node ⟨.come, 42, 30, 33, 5, 0, false⟩
  (.node ⟨.come, 68, 46, 33, 5, 0, false⟩ .none .none) (.node ⟨.track, 1, 17, 0, 0, 88, false⟩
  .none .none)) (.node ⟨.follow, 58, 41, 42, 3, 0, false⟩ (.node ⟨.follow, 76, 28, 31, 3, 0, false⟩
  .none .none) .none)))))

/-- the bounds of the departures -/
def ko3n6Times : TimeTree :=
  .node 0 0 0 (.node 88 0 128 (.node 186 0 226 (.node 79 0 119 (.node 217 4 257 (.node 89 0 129
  .none .none) (.node 139 0 179 .none .none)) (.node 124 0 164 (.node 192 4 232 .none .none)
  .none)) (.node 197 4 237 (.node 109 0 149 (.node 100 4 140 .none .none) (.node 164 0 204 .none
  .none)) (.node 91 0 131 (.node 180 0 220 .none .none) .none))) (.node 179 4 219 (.node 61 0 101
  (.node 74 0 114 (.node 86 0 126 .none .none) (.node 68 0 108 .none .none)) (.node 77 0 117 (.node
  185 0 225 .none .none) .none)) (.node 203 0 243 (.node 114 6 154 (.node 220 4 260 .none .none)
  .none) (.node 79 0 119 (.node 92 0 132 .none .none) .none)))) (.node 180 0 220 (.node 177 0 217
  (.node 86 4 126 (.node 191 0 231 (.node 95 6 135 .none .none) (.node 133 4 173 .none .none))
  (.node 130 4 170 (.node 194 4 234 .none .none) .none)) (.node 196 0 236 (.node 104 0 144 (.node
  114 0 154 .none .none) .none) (.node 100 4 140 (.node 183 0 223 .none .none) .none))) (.node 79 6
  119 (.node 64 4 104 (.node 77 4 117 (.node 94 0 134 .none .none) (.node 74 0 114 .none .none))
  (.node 83 0 123 (.node 188 0 228 .none .none) .none)) (.node 211 0 251 (.node 116 0 156 (.node
  126 0 166 .none .none) .none) (.node 83 0 123 (.node 96 0 136 .none .none) .none))))

/-- some of the cases -/
def ko3n6Case0 : SumTree :=
  .cases [38, 39, 41, 42, 43] 13 (.cases [26, 7, 107] 20 (.cases [81, 42, 43] 39 (.cases [99] 9
  (.leaf [92]) (.leaf [9, 10, 11, 12])) (.leaf [93])) (.leaf [46, 47, 48])) (.leaf [18, 38, 110])

/-- some of the cases -/
def ko3n6Case1 : SumTree :=
  .cases [26, 7, 107] 21 (.cases [] 39 (.cases [99, 10, 11, 12] 20 (.leaf [81, 42, 43]) (.cases
  [46, 47, 48] 33 (.cases [] 24 (.cases [] 14 (.leaf [37]) (.cases [] 22 (.cases [51, 31] 17
  (.cases [27] 9 (.cases [92] 30 (.leaf [59, 29, 30, 31]) (.leaf [56, 7, 107])) (.cases
  [9, 10, 11, 12] 18 (.cases [] 15 (.cases [21, 22, 23, 24] 23 (.cases [] 10 (.cases [45] 30 (.leaf
  [59, 29, 34, 30, 31]) (.leaf [56, 7, 107])) (.leaf [13, 14, 15, 16, 9, 10, 11, 12])) (.leaf
  [52])) (.leaf [19, 20])) (.leaf [33, 29, 30, 31]))) (.leaf [25, 26, 7, 107])) (.cases
  [50, 47, 79, 48, 70, 20] 23 (.leaf [97]) (.leaf [52])))) (.leaf [53, 23, 24])) (.leaf
  [78, 47, 48]))) (.cases [93] 29 (.leaf [88]) (.cases [] 40 (.leaf [98, 55]) (.cases [95, 93] 31
  (.cases [] 32 (.leaf [77]) (.cycle 11 [75, 76, 16])) (.cycle 16 [73, 74, 15]))))) (.leaf [49])

/-- some of the cases -/
def ko3n6Case2 : SumTree :=
  .cases [18] 20 (.cases [81, 42, 43] 15 (.cases [21, 22, 23, 24] 39 (.cases [99] 9 (.leaf [92])
  (.cases [9, 10, 11, 12] 19 (.leaf [32]) (.leaf [28]))) (.leaf [93])) (.leaf [19, 20])) (.cases
  [46, 47, 48] 9 (.cases [92] 39 (.cases [99, 10, 92, 11, 12] 42 (.leaf [109]) (.cases [108] 15
  (.cases [] 27 (.cases [] 19 (.leaf [32, 108, 68, 69, 70, 21, 22, 23, 24]) (.cases
  [28, 67, 68, 69, 70, 21, 22, 23, 24] 23 (.leaf [97]) (.leaf [52]))) (.leaf [58])) (.leaf
  [19, 20]))) (.cases [93] 29 (.leaf [88, 61, 91, 16]) (.cases [] 35 (.cycle 11 [90, 91, 16])
  (.cases [] 42 (.leaf [109]) (.cases [] 15 (.cases [21, 22, 23, 24] 40 (.leaf [98, 55]) (.cases
  [95, 10, 92, 93, 11, 12] 19 (.leaf [32]) (.leaf [28]))) (.leaf [19, 20])))))) (.cases
  [9, 10, 11, 12] 21 (.cases [] 24 (.cases [] 22 (.cases [51, 31] 10 (.cases [45] 8 (.cases
  [103, 104, 105, 106] 23 (.cases [] 27 (.cases [67] 42 (.leaf [109]) (.cases [] 15 (.cases [] 19
  (.leaf [32, 108, 68, 69, 70, 21, 22, 23, 24]) (.leaf [28, 67, 68, 69, 70, 20])) (.leaf
  [19, 20]))) (.leaf [58])) (.leaf [52])) (.cases [8] 23 (.cases [] 42 (.leaf [109]) (.cases [108]
  15 (.cases [] 27 (.cases [] 19 (.leaf [32, 108, 68, 69, 70, 21, 22, 23, 24]) (.cases
  [28, 67, 68, 69, 70, 21, 22, 23, 24] 31 (.cases [] 28 (.cycle 42 [64, 65, 66]) (.cases [] 32
  (.cases [] 29 (.cycle 40 [61, 62, 63]) (.leaf [55, 77, 9, 10, 11, 12])) (.cycle 11
  [75, 76, 16]))) (.cycle 16 [73, 74, 15]))) (.leaf [58])) (.leaf [19, 20]))) (.leaf [52]))) (.leaf
  [13, 14, 15, 16, 9, 10, 11, 12])) (.cases [50, 47, 48] 23 (.cases [] 10 (.cases [45] 33 (.cases
  [79, 70, 20] 8 (.leaf [103, 104, 105, 106]) (.leaf [8])) (.leaf [78, 47, 48])) (.leaf
  [13, 14, 15, 16, 9, 10, 11, 12])) (.leaf [52]))) (.leaf [53, 23, 24])) (.leaf [49])))

/-- some of the cases -/
def ko3n6Case3 : SumTree :=
  .cases [103, 104, 105, 106, 6, 7] 12 (.leaf [38, 39, 41, 42, 43]) (.cases [17] 20 (.leaf
  [81, 42, 43]) (.cases [46, 47, 48] 15 (.cases [21, 22, 23, 24] 40 (.leaf [98]) (.cases
  [95, 10, 11, 12] 10 (.cases [45] 39 (.cases [99] 9 (.leaf [92]) (.leaf [9, 10, 11, 12])) (.leaf
  [93])) (.leaf [13, 14, 15, 16]))) (.leaf [19, 20])))

/-- some of the cases -/
def ko3n6Case4 : SumTree :=
  .cases [99, 10, 92, 11, 12] 37 (.cases [] 18 (.cases [34, 6, 7] 12 (.leaf [38, 39, 41, 42, 43])
  (.cases [17] 13 (.cases [] 20 (.leaf [81, 42, 43]) (.cases [46, 47, 48] 15 (.cases
  [21, 22, 23, 24] 17 (.leaf [27, 34, 6, 7]) (.cases [25] 19 (.leaf [32, 6, 7]) (.leaf
  [28, 26, 7]))) (.leaf [19, 20]))) (.leaf [18]))) (.cases [33, 29, 30, 31] 21 (.cases [] 20
  (.cases [81, 42, 43, 85] 30 (.cases [59, 29, 30, 31] 19 (.leaf [32, 6, 7]) (.leaf [28])) (.leaf
  [56, 7])) (.cases [46, 47, 48] 19 (.cases [32, 6, 33, 7, 29, 30, 31] 12 (.leaf
  [38, 39, 41, 42, 43]) (.cases [17, 32, 6, 33, 7, 29, 30, 31] 14 (.leaf [37]) (.cases
  [36, 22, 23, 24] 15 (.cases [] 23 (.cases [97] 41 (.cases [] 16 (.leaf [35]) (.cycle 27
  [31, 101, 102])) (.leaf [100, 70, 21, 22, 23, 24])) (.leaf [52])) (.leaf [19, 20])))) (.cases
  [28] 33 (.cases [] 14 (.leaf [37]) (.cases [] 13 (.cases [26, 7] 27 (.cases [] 22 (.cases [] 15
  (.cases [21, 22, 23, 24] 17 (.cases [27, 29, 30, 31] 23 (.cases [97] 30 (.leaf
  [59, 29, 30, 31, 36, 22, 23, 24]) (.leaf [56, 7])) (.cases [52] 30 (.leaf [59, 29, 30, 31])
  (.leaf [56, 7]))) (.leaf [25, 26, 7])) (.leaf [19, 20])) (.leaf [50, 47, 48])) (.leaf
  [58, 26, 7])) (.cases [18] 23 (.cases [97] 28 (.cycle 42 [64, 65, 66]) (.cases [] 29 (.cycle 40
  [61, 62, 63]) (.leaf [55, 99, 92]))) (.leaf [52])))) (.leaf [78, 47, 48])))) (.leaf [49])))
  (.leaf [94, 43])

/-- some of the cases -/
def ko3n6Case5 : SumTree :=
  .cases [93] 37 (.cases [] 18 (.cases [34, 6, 7] 29 (.leaf [88, 61, 91, 16]) (.cases [] 35 (.cycle
  11 [90, 91, 16]) (.cases [] 12 (.leaf [38, 39, 41, 42, 43]) (.cases [17] 20 (.leaf [81, 42, 43])
  (.cases [46, 47, 48] 15 (.cases [21, 22, 23, 24] 40 (.leaf [98, 55, 89]) (.cases
  [95, 10, 92, 93, 11, 12] 23 (.leaf [97]) (.leaf [52]))) (.leaf [19, 20])))))) (.cases
  [33, 29, 30, 31] 11 (.leaf [44, 39, 41, 42, 43, 85]) (.cases [] 20 (.cases [81, 42, 43, 85] 30
  (.cases [59, 29, 30, 31] 19 (.leaf [32, 6, 7]) (.leaf [28])) (.leaf [56, 7])) (.cases
  [46, 47, 48] 40 (.cases [98] 23 (.leaf [97]) (.cases [52] 16 (.leaf [35]) (.cases [] 12 (.leaf
  [38, 39, 41, 42, 43]) (.cases [17] 13 (.cases [] 17 (.cases [] 15 (.cases [] 19 (.leaf
  [32, 6, 7]) (.leaf [28, 26, 7])) (.leaf [19, 20])) (.leaf [25])) (.leaf [18]))))) (.cases
  [95, 10, 92, 93, 11, 12] 12 (.leaf [38, 39, 40, 41, 7, 42, 43]) (.cases [17] 13 (.cases [] 17
  (.cases [] 22 (.cases [] 14 (.leaf [37]) (.cases [] 15 (.cases [21, 22, 23, 24] 23 (.cases [97]
  19 (.leaf [32, 6, 7]) (.leaf [28, 26, 7])) (.cases [52] 16 (.leaf [35, 36, 22, 23, 24]) (.cases
  [] 32 (.cases [77] 30 (.leaf [59, 29, 30, 31, 72, 21, 22, 23, 24]) (.leaf [56, 7])) (.cases [96]
  30 (.leaf [59, 29, 30, 31, 72, 21, 22, 23, 24]) (.leaf [56, 7]))))) (.leaf [19, 20]))) (.leaf
  [50, 47, 48])) (.leaf [25, 26, 7])) (.leaf [18]))))))) (.leaf [94, 43])

/-- some of the cases -/
def ko3n6Case6 : SumTree :=
  .cases [81, 42, 43] 23 (.cases [] 35 (.cycle 11 [90, 91, 16]) (.cases [] 13 (.cases [] 22 (.cases
  [51] 14 (.leaf [37]) (.cases [] 15 (.cases [] 16 (.leaf [35, 36, 22, 23, 24]) (.cases [] 36
  (.cases [] 31 (.cases [] 37 (.cases [85, 72, 21, 22, 23, 24] 32 (.cases [] 29 (.leaf
  [88, 89, 9, 10, 11, 12]) (.cases [55, 77, 9, 10, 11, 12] 12 (.cases [38] 38 (.leaf [87]) (.cases
  [86] 11 (.leaf [44, 39, 41, 42, 43, 85]) (.leaf [40, 7]))) (.leaf [17]))) (.cycle 11
  [75, 76, 16])) (.cycle 30 [83, 31, 84])) (.cycle 16 [73, 74, 15])) (.cases [82, 42, 43] 19 (.leaf
  [32, 6, 7]) (.leaf [28, 26, 7])))) (.leaf [19, 20]))) (.leaf [50, 81, 42, 43])) (.leaf [18])))
  (.leaf [52])

/-- some of the cases -/
def ko3n6Case7 : SumTree :=
  .cases [32, 6, 7] 21 (.cases [] 33 (.cases [] 24 (.cases [] 14 (.leaf [37]) (.cases [] 22 (.cases
  [51, 31] 34 (.leaf [80]) (.cases [] 17 (.cases [27] 18 (.leaf [34, 6, 7]) (.cases
  [33, 29, 30, 31, 36, 22, 23, 24] 23 (.cases [] 15 (.cases [] 16 (.cases [35, 36, 22, 23, 24] 30
  (.cases [59] 25 (.cases [57] 26 (.leaf [71, 29, 30, 31, 36, 22, 23, 24]) (.leaf
  [60, 68, 69, 70, 35, 36, 22, 23, 24])) (.leaf [54, 7, 59, 29, 30, 31])) (.leaf [56, 7])) (.cases
  [72, 21, 22, 23, 24] 30 (.leaf [59, 29, 30, 31, 72, 21, 22, 23, 24]) (.cases [56, 7] 31 (.cases
  [] 28 (.cycle 42 [64, 65, 66]) (.cases [] 32 (.cases [] 29 (.cycle 40 [61, 62, 63]) (.leaf
  [55, 77, 9, 10, 11, 12])) (.cycle 11 [75, 76, 16]))) (.cycle 16 [73, 74, 15])))) (.leaf
  [19, 20])) (.leaf [52]))) (.leaf [25, 32, 6, 7]))) (.cases [50, 47, 79, 48, 70, 20] 31 (.cases []
  28 (.cycle 42 [64, 65, 66]) (.cases [] 32 (.cases [] 29 (.cycle 40 [61, 62, 63]) (.leaf
  [55, 77, 9, 10, 11, 12])) (.cycle 11 [75, 76, 16]))) (.cycle 16 [73, 74, 15])))) (.leaf
  [53, 23, 24])) (.leaf [78, 47, 48])) (.leaf [49])

/-- some of the cases -/
def ko3n6Case8 : SumTree :=
  .cases [28] 21 (.cases [] 22 (.cases [51, 31] 13 (.cases [26, 7] 24 (.cases [] 14 (.leaf [37])
  (.cases [] 18 (.cases [34, 28, 26, 7] 31 (.cases [] 28 (.cycle 42 [64, 65, 66]) (.cases [] 32
  (.cases [] 29 (.cycle 40 [61, 62, 63]) (.leaf [55, 77, 9, 10, 11, 12])) (.cycle 11
  [75, 76, 16]))) (.cycle 16 [73, 74, 15])) (.cases [33] 17 (.cases [27, 29, 30, 31, 36] 15 (.cases
  [] 16 (.cases [35, 36, 22, 23, 24] 30 (.cases [59] 25 (.cases [57] 26 (.leaf
  [71, 29, 30, 31, 36, 22, 23, 24]) (.leaf [60, 68, 69, 70, 35, 36, 22, 23, 24])) (.leaf
  [54, 7, 59, 29, 30, 31, 36, 22, 23, 24])) (.leaf [56, 7])) (.cases [72, 21, 22, 23, 24] 23
  (.cases [] 31 (.cases [] 32 (.cases [] 30 (.leaf [59, 29, 30, 31, 72, 21, 22, 23, 24]) (.cases
  [56, 7] 28 (.cycle 42 [64, 65, 66]) (.cases [] 29 (.cycle 40 [61, 62, 63]) (.leaf
  [55, 77, 9, 10, 11, 12])))) (.cycle 11 [75, 76, 16])) (.cycle 16 [73, 74, 15])) (.leaf [52])))
  (.leaf [19, 20])) (.leaf [25, 26, 7])))) (.leaf [53, 23, 24])) (.cases [18] 23 (.cases [] 17
  (.leaf [27, 29, 30, 31]) (.cases [] 24 (.cases [] 14 (.leaf [37]) (.cases [] 15 (.cases [] 25
  (.cases [] 26 (.leaf [71, 29, 25, 30, 31]) (.cases [] 16 (.leaf [35, 36, 22, 23, 24]) (.cases []
  27 (.leaf [67, 68, 69, 70, 21, 22, 23, 24]) (.cases [] 28 (.cycle 42 [64, 65, 66]) (.cases [] 29
  (.cycle 40 [61, 62, 63]) (.cases [55] 18 (.leaf [34, 6, 7, 57, 58]) (.cases [33] 30 (.leaf
  [59, 29, 60, 30, 58, 31]) (.leaf [56, 7, 57, 58])))))))) (.leaf [54, 7, 18])) (.leaf [19, 20])))
  (.leaf [53, 23, 24]))) (.leaf [52]))) (.cases [50, 47, 48] 13 (.cases [26, 7] 17 (.leaf
  [27, 29, 30, 50, 47, 48]) (.cases [] 18 (.leaf [34, 28, 26, 7]) (.leaf [33, 25, 26, 7]))) (.leaf
  [18]))) (.leaf [49])

/-- some of the cases -/
def ko3n6Case9 : SumTree :=
  .cases [13, 14, 15, 16, 9, 10, 11, 12] 11 (.leaf [44, 39, 41, 42, 43]) (.cases [] 12 (.leaf
  [38, 39, 40, 41, 7, 42, 43]) (.cases [17] 13 (.cases [] 14 (.leaf [37]) (.cases [] 15 (.cases
  [21, 22, 23, 24] 16 (.leaf [35, 36, 22, 23, 24]) (.cases [] 17 (.cases [27] 18 (.leaf [34])
  (.cases [] 19 (.leaf [32, 6, 33, 7, 29, 30, 31]) (.leaf [28, 26, 27, 7, 29, 30, 31]))) (.leaf
  [25, 26, 7]))) (.leaf [19, 20]))) (.leaf [18])))

/-- all cases -/
def ko3n6Cases : SumTree :=
  .cases [] 0 (.cases [] 1 (.cases [] 2 (.leaf [115]) (.cases [] 3 (.cases [] 4 (.leaf [113, 114])
  (.cases [] 5 (.leaf [111, 112, 3]) (.cases [] 6 (.cases [5] 7 (.cases [107] 12 ko3n6Case0 (.cases
  [17] 13 ko3n6Case1 ko3n6Case2)) (.cases [6, 7] 8 ko3n6Case3 (.cases [8] 9 (.cases [92] 39
  ko3n6Case4 ko3n6Case5) (.cases [9, 10, 11, 12] 10 (.cases [45] 20 ko3n6Case6 (.cases [46, 47, 48]
  12 (.leaf [38, 39, 41, 42, 46, 43, 47, 48]) (.cases [17] 19 ko3n6Case7 ko3n6Case8)))
  ko3n6Case9)))) (.leaf [4, 3])))) (.leaf [2, 3]))) (.leaf [1])) (.leaf [0])

theorem ko3n6_cases : ko3n6Cases.check ko3n6Arcs 176 ko3n6Choices.length [] ko3n6Times 0 = true := by
  decide +kernel

theorem ko3n6_choices : ko3n6Choices.all (CodedNet.Choice.ok netKoR netKoRSpecial ko3n6Plan) = true := by
  decide +kernel

theorem ko3n6_arcs : ko3n6Arcs.toList.all
    (netKoR.arcOK netKoRSpecial ko3n6Plan ko3n6Nodes ko3n6Choices) = true := by decide +kernel

theorem ko3n6_times : netKoR.startOK ko3n6Plan ko3n6Nodes 0 40 ko3n6Times = true := by decide +kernel

end Verif.Real
