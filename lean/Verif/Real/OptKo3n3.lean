import Verif.Proofs.PlanSum
import Verif.Proofs.PlanAgain
import Verif.Real.PlanKo3

/-!
# The sheet of `Verif.Real.Ko3` with given delays: a plan, and that no plan is better

Generated; see `CodedNet.Item` and `Verif/Proofs/SumTree.lean`. Case 3,
`disturbances[3]`, of `/repo/solve_KO_GLC_problems.py`, line 119;
`d_max` is 40. The sum of the delays that count is 64/4.
-/

namespace Verif.Real

set_option maxRecDepth 100000

/-- the given delays -/
def ko3n3Delays : List (Int × ℚ) := [
  (101, 18), (1, 29), (3, 25)]

/-- the plan, items by sections -/
def ko3n3Plan : CodedNet.Plan := [
  (train_ko3_2, [
   ⟨0, 2, 0, (some 14), true, false, 0, 0, 0,
    none,
    (some ⟨1, [83, 101, 84, 121], [9, 19, 8, 8], 4, [5, 8]⟩), [], [61, 64, 69, 71, 87, 92], [0]⟩,
   ⟨0, 2, 1, (some 1), true, false, 8, 8, 80,
    (some ⟨0, 4, 0, [83, 101, 84, 121]⟩),
    (some ⟨2, [77, 144, 119], [15, 14, 8], 4, [107]⟩), [5, 8], [16, 2], [4]⟩,
   ⟨0, 2, 2, (some 40), true, false, 17, 17, 170,
    (some ⟨1, 12, 80, [77, 144, 119]⟩),
    (some ⟨3, [86, 142, 87, 126], [13, 13, 7, 9], 4, [18, 23]⟩), [107], [161, 164], [12]⟩,
   ⟨0, 2, 3, (some 30), true, false, 26, 26, 260,
    (some ⟨2, 21, 170, [86, 142, 87, 126]⟩),
    (some ⟨4, [90, 91, 92, 93, 127], [13, 9, 5, 7, 20], 5, [31, 33, 41]⟩), [18, 23], [47, 48], [21]⟩,
   ⟨0, 2, 4, (some 35), false, true, 31, 31, 310,
    (some ⟨3, 31, 260, [90, 91, 92, 93, 127]⟩),
    none, [31, 33, 41], [], [31]⟩]),
  (train_ko3_4602, [
   ⟨1, 4602, 0, (some 10), true, false, 18, 18, 180,
    none,
    (some ⟨1, [83, 101, 84, 121], [9, 12, 6, 7], 3, [5, 8]⟩), [], [66, 68, 71, 87, 92], [18]⟩,
   ⟨1, 4602, 1, (some 1), true, false, 25, 25, 250,
    (some ⟨0, 21, 180, [83, 101, 84, 121]⟩),
    (some ⟨2, [77, 144, 119], [11, 9, 8], 3, [107]⟩), [5, 8], [16, 2], [21]⟩,
   ⟨1, 4602, 2, (some 40), true, false, 29, 29, 290,
    (some ⟨1, 28, 250, [77, 144, 119]⟩),
    (some ⟨3, [86, 142, 87, 126], [13, 7, 7, 9], 4, [18, 23]⟩), [107], [161, 164], [28]⟩,
   ⟨1, 4602, 3, (some 30), true, false, 38, 38, 380,
    (some ⟨2, 33, 290, [86, 142, 87, 126]⟩),
    (some ⟨4, [90, 91, 92, 93, 127], [13, 9, 5, 7, 20], 5, [31, 34, 43]⟩), [18, 23], [47, 48], [33]⟩,
   ⟨1, 4602, 4, (some 38), true, false, 47, 47, 470,
    (some ⟨3, 43, 380, [90, 91, 92, 93, 127]⟩),
    none, [31, 34, 43], [], [43]⟩]),
  (train_ko3_4, [
   ⟨2, 4, 0, (some 14), true, false, 38, 38, 380,
    none,
    (some ⟨1, [83, 101, 84, 121], [9, 19, 8, 8], 4, [5, 8]⟩), [], [61, 64, 69, 71, 87, 92], [38]⟩,
   ⟨2, 4, 1, (some 1), true, false, 46, 46, 460,
    (some ⟨0, 42, 380, [83, 101, 84, 121]⟩),
    (some ⟨2, [77, 144, 119], [15, 14, 8], 4, [107]⟩), [5, 8], [16, 2], [42]⟩,
   ⟨2, 4, 2, (some 40), true, false, 55, 55, 550,
    (some ⟨1, 50, 460, [77, 144, 119]⟩),
    (some ⟨3, [86, 142, 87, 126], [13, 13, 7, 9], 4, [18, 23]⟩), [107], [161, 164], [50]⟩,
   ⟨2, 4, 3, (some 30), true, false, 64, 67, 670,
    (some ⟨2, 59, 550, [86, 142, 87, 126]⟩),
    (some ⟨4, [90, 91, 92, 93, 127], [13, 9, 5, 7, 20], 5, [31, 33, 41]⟩), [18, 23], [47, 48], [59]⟩,
   ⟨2, 4, 4, (some 35), false, true, 69, 72, 720,
    (some ⟨3, 72, 670, [90, 91, 92, 93, 127]⟩),
    none, [31, 33, 41], [], [72]⟩]),
  (train_ko3_102, [
   ⟨3, 102, 0, (some 16), true, false, 43, 43, 430,
    none,
    (some ⟨1, [83, 101, 84, 121], [9, 19, 8, 10], 5, [5, 8, 9]⟩), [], [62, 64, 69, 71, 87, 92], [43]⟩,
   ⟨3, 102, 1, (some 3), true, false, 52, 52, 520,
    (some ⟨0, 48, 430, [83, 101, 84, 121]⟩),
    none, [5, 8, 9], [], [48]⟩]),
  (train_ko3_6, [
   ⟨4, 6, 0, (some 14), true, false, 77, 86, 860,
    none,
    (some ⟨1, [83, 101, 84, 121], [9, 19, 8, 8], 4, [5, 8]⟩), [], [61, 64, 69, 71, 87, 92], [77]⟩,
   ⟨4, 6, 1, (some 1), true, false, 83, 92, 920,
    (some ⟨0, 90, 860, [83, 101, 84, 121]⟩),
    (some ⟨2, [77, 144, 119], [15, 14, 8], 4, [107]⟩), [5, 8], [16, 2], [90]⟩,
   ⟨4, 6, 2, (some 40), true, false, 91, 97, 970,
    (some ⟨1, 96, 920, [77, 144, 119]⟩),
    (some ⟨3, [86, 142, 87, 126], [13, 13, 7, 9], 4, [18, 23]⟩), [107], [161, 164], [96]⟩,
   ⟨4, 6, 3, (some 30), true, false, 100, 103, 1030,
    (some ⟨2, 101, 970, [86, 142, 87, 126]⟩),
    (some ⟨4, [90, 91, 92, 93, 127], [13, 9, 5, 7, 20], 5, [31, 33, 41]⟩), [18, 23], [47, 48], [101]⟩,
   ⟨4, 6, 4, (some 35), false, true, 105, 108, 1080,
    (some ⟨3, 108, 1030, [90, 91, 92, 93, 127]⟩),
    none, [31, 33, 41], [], [108]⟩]),
  (train_ko3_4604, [
   ⟨5, 4604, 0, (some 10), true, false, 88, 89, 890,
    none,
    (some ⟨1, [83, 101, 84, 121], [9, 12, 6, 7], 3, [5, 8]⟩), [], [66, 68, 71, 87, 92], [88]⟩,
   ⟨5, 4604, 1, (some 1), true, false, 92, 95, 950,
    (some ⟨0, 92, 890, [83, 101, 84, 121]⟩),
    (some ⟨2, [77, 144, 119], [11, 9, 8], 3, [107]⟩), [5, 8], [16, 2], [92]⟩,
   ⟨5, 4604, 2, (some 40), true, false, 96, 100, 1000,
    (some ⟨1, 98, 950, [77, 144, 119]⟩),
    (some ⟨3, [86, 142, 87, 126], [13, 7, 7, 9], 4, [18, 23]⟩), [107], [161, 164], [98]⟩,
   ⟨5, 4604, 3, (some 30), true, false, 104, 106, 1060,
    (some ⟨2, 104, 1000, [86, 142, 87, 126]⟩),
    (some ⟨4, [90, 91, 92, 93, 127], [13, 9, 5, 7, 20], 5, [31, 34, 43]⟩), [18, 23], [47, 48], [104]⟩,
   ⟨5, 4604, 4, (some 38), true, false, 114, 114, 1140,
    (some ⟨3, 111, 1060, [90, 91, 92, 93, 127]⟩),
    none, [31, 34, 43], [], [111]⟩]),
  (train_ko3_8, [
   ⟨6, 8, 0, (some 14), true, false, 114, 114, 1140,
    none,
    (some ⟨1, [83, 101, 84, 121], [9, 19, 8, 8], 4, [5, 8]⟩), [], [61, 64, 69, 71, 87, 92], [114]⟩,
   ⟨6, 8, 1, (some 1), true, false, 120, 120, 1200,
    (some ⟨0, 118, 1140, [83, 101, 84, 121]⟩),
    (some ⟨2, [77, 144, 119], [15, 14, 8], 4, [107]⟩), [5, 8], [16, 2], [118]⟩,
   ⟨6, 8, 2, (some 40), true, false, 126, 126, 1260,
    (some ⟨1, 124, 1200, [77, 144, 119]⟩),
    (some ⟨3, [86, 142, 87, 126], [13, 13, 7, 9], 4, [18, 23]⟩), [107], [161, 164], [124]⟩,
   ⟨6, 8, 3, (some 30), true, false, 133, 133, 1330,
    (some ⟨2, 130, 1260, [86, 142, 87, 126]⟩),
    (some ⟨4, [90, 91, 92, 93, 127], [13, 9, 5, 7, 20], 5, [31, 33, 41]⟩), [18, 23], [47, 48], [130]⟩,
   ⟨6, 8, 4, (some 35), false, true, 138, 138, 1380,
    (some ⟨3, 138, 1330, [90, 91, 92, 93, 127]⟩),
    none, [31, 33, 41], [], [138]⟩]),
  (train_ko3_10, [
   ⟨7, 10, 0, (some 14), true, false, 127, 127, 1270,
    none,
    (some ⟨1, [83, 101, 84, 121], [9, 19, 8, 8], 4, [5, 8]⟩), [], [61, 64, 69, 71, 87, 92], [127]⟩,
   ⟨7, 10, 1, (some 1), true, false, 133, 133, 1330,
    (some ⟨0, 131, 1270, [83, 101, 84, 121]⟩),
    (some ⟨2, [77, 144, 119], [15, 14, 8], 4, [107]⟩), [5, 8], [16, 2], [131]⟩,
   ⟨7, 10, 2, (some 40), true, false, 141, 141, 1410,
    (some ⟨1, 137, 1330, [77, 144, 119]⟩),
    (some ⟨3, [86, 142, 87, 126], [13, 13, 7, 9], 4, [18, 23]⟩), [107], [161, 164], [137]⟩,
   ⟨7, 10, 3, (some 30), true, false, 152, 152, 1520,
    (some ⟨2, 145, 1410, [86, 142, 87, 126]⟩),
    (some ⟨4, [90, 91, 92, 93, 127], [13, 9, 5, 7, 20], 5, [31, 33, 41]⟩), [18, 23], [47, 48], [145]⟩,
   ⟨7, 10, 4, (some 35), false, true, 157, 157, 1570,
    (some ⟨3, 157, 1520, [90, 91, 92, 93, 127]⟩),
    none, [31, 33, 41], [], [157]⟩]),
  (train_ko3_4606, [
   ⟨8, 4606, 0, (some 10), true, false, 142, 142, 1420,
    none,
    (some ⟨1, [83, 101, 84, 121], [9, 12, 6, 7], 3, [5, 8]⟩), [], [66, 68, 71, 87, 92], [142]⟩,
   ⟨8, 4606, 1, (some 1), true, false, 147, 147, 1470,
    (some ⟨0, 145, 1420, [83, 101, 84, 121]⟩),
    (some ⟨2, [77, 144, 119], [11, 9, 8], 3, [107]⟩), [5, 8], [16, 2], [145]⟩,
   ⟨8, 4606, 2, (some 40), true, false, 151, 152, 1520,
    (some ⟨1, 150, 1470, [77, 144, 119]⟩),
    (some ⟨3, [86, 142, 87, 126], [13, 7, 7, 9], 4, [18, 23]⟩), [107], [161, 164], [150]⟩,
   ⟨8, 4606, 3, (some 30), true, false, 159, 159, 1590,
    (some ⟨2, 156, 1520, [86, 142, 87, 126]⟩),
    (some ⟨4, [90, 91, 92, 93, 127], [13, 9, 5, 7, 20], 5, [31, 34, 43]⟩), [18, 23], [47, 48], [156]⟩,
   ⟨8, 4606, 4, (some 38), true, false, 167, 167, 1670,
    (some ⟨3, 164, 1590, [90, 91, 92, 93, 127]⟩),
    none, [31, 34, 43], [], [164]⟩]),
  (train_ko3_12, [
   ⟨9, 12, 0, (some 14), true, false, 144, 144, 1440,
    none,
    (some ⟨1, [83, 101, 84, 121], [9, 19, 8, 8], 4, [5, 8]⟩), [], [61, 64, 69, 71, 87, 92], [144]⟩,
   ⟨9, 12, 1, (some 1), true, false, 152, 152, 1520,
    (some ⟨0, 148, 1440, [83, 101, 84, 121]⟩),
    (some ⟨2, [77, 144, 119], [15, 14, 8], 4, [107]⟩), [5, 8], [16, 2], [148]⟩,
   ⟨9, 12, 2, (some 40), true, false, 166, 166, 1660,
    (some ⟨1, 156, 1520, [77, 144, 119]⟩),
    (some ⟨3, [86, 142, 87, 126], [13, 13, 7, 9], 4, [18, 23]⟩), [107], [161, 164], [156]⟩,
   ⟨9, 12, 3, (some 30), true, false, 174, 174, 1740,
    (some ⟨2, 170, 1660, [86, 142, 87, 126]⟩),
    (some ⟨4, [90, 91, 92, 93, 127], [13, 9, 5, 7, 20], 5, [31, 33, 41]⟩), [18, 23], [47, 48], [170]⟩,
   ⟨9, 12, 4, (some 35), false, true, 179, 179, 1790,
    (some ⟨3, 179, 1740, [90, 91, 92, 93, 127]⟩),
    none, [31, 33, 41], [], [179]⟩]),
  (train_ko3_14, [
   ⟨10, 14, 0, (some 14), true, false, 164, 164, 1640,
    none,
    (some ⟨1, [83, 101, 84, 121], [9, 19, 8, 8], 4, [5, 8]⟩), [], [61, 64, 69, 71, 87, 92], [164]⟩,
   ⟨10, 14, 1, (some 1), true, false, 180, 180, 1800,
    (some ⟨0, 168, 1640, [83, 101, 84, 121]⟩),
    (some ⟨2, [77, 144, 119], [15, 14, 8], 4, [107]⟩), [5, 8], [16, 2], [168]⟩,
   ⟨10, 14, 2, (some 40), true, false, 185, 185, 1850,
    (some ⟨1, 184, 1800, [77, 144, 119]⟩),
    (some ⟨3, [86, 142, 87, 126], [13, 13, 7, 9], 4, [18, 23]⟩), [107], [161, 164], [184]⟩,
   ⟨10, 14, 3, (some 30), true, false, 192, 192, 1920,
    (some ⟨2, 189, 1850, [86, 142, 87, 126]⟩),
    (some ⟨4, [90, 91, 92, 93, 127], [13, 9, 5, 7, 20], 5, [31, 33, 41]⟩), [18, 23], [47, 48], [189]⟩,
   ⟨10, 14, 4, (some 35), false, true, 197, 197, 1970,
    (some ⟨3, 197, 1920, [90, 91, 92, 93, 127]⟩),
    none, [31, 33, 41], [], [197]⟩]),
  (train_ko3_1, [
   ⟨11, 1, 4, (some 36), true, false, 27, 32, 320,
    none,
    (some ⟨3, [127, 93, 92, 91, 90], [18, 7, 6, 8, 12], 5, [48, 47, 46]⟩), [], [31, 33], [27]⟩,
   ⟨11, 1, 3, (some 31), true, false, 34, 39, 390,
    (some ⟨4, 37, 320, [127, 93, 92, 91, 90]⟩),
    (some ⟨2, [126, 87, 142, 86], [23, 5, 19, 16], 6, [160, 161, 164]⟩), [48, 47, 46], [18, 23, 24], [37]⟩,
   ⟨11, 1, 2, (some 41), true, false, 42, 47, 470,
    (some ⟨3, 45, 390, [126, 87, 142, 86]⟩),
    (some ⟨1, [85, 145, 125], [11, 17, 9], 4, [17, 19]⟩), [160, 161, 164], [106], [45]⟩,
   ⟨11, 1, 1, (some 2), true, false, 48, 53, 530,
    (some ⟨2, 51, 470, [85, 145, 125]⟩),
    (some ⟨0, [121, 84, 101, 83], [8, 13, 22, 10], 5, [82, 84, 86, 89, 90, 92]⟩), [17, 19], [5, 8], [51]⟩,
   ⟨11, 1, 0, (some 15), false, true, 53, 58, 580,
    (some ⟨1, 58, 530, [121, 84, 101, 83]⟩),
    none, [82, 84, 86, 89, 90, 92], [], [58]⟩]),
  (train_ko3_101, [
   ⟨12, 101, 1, (some 4), true, false, 77, 77, 770,
    none,
    (some ⟨0, [121, 84, 101, 83], [8, 13, 22, 10], 5, [82, 84, 86, 89, 90, 92]⟩), [], [5, 6, 7], [77]⟩,
   ⟨12, 101, 0, (some 39), false, true, 82, 82, 820,
    (some ⟨1, 82, 770, [121, 84, 101, 83]⟩),
    none, [82, 84, 86, 89, 90, 92], [], [82]⟩]),
  (train_ko3_6401, [
   ⟨13, 6401, 4, (some 36), true, false, 61, 61, 610,
    none,
    (some ⟨3, [127, 93, 92, 91, 90], [18, 7, 6, 8, 12], 5, [48, 47, 46]⟩), [], [31, 33], [61]⟩,
   ⟨13, 6401, 3, (some 31), true, false, 68, 68, 680,
    (some ⟨4, 66, 610, [127, 93, 92, 91, 90]⟩),
    (some ⟨2, [126, 87, 142, 86], [23, 5, 9, 16], 5, [160, 161, 164]⟩), [48, 47, 46], [18, 23, 24], [66]⟩,
   ⟨13, 6401, 2, (some 41), true, false, 74, 74, 740,
    (some ⟨3, 73, 680, [126, 87, 142, 86]⟩),
    (some ⟨1, [85, 145, 125], [11, 7, 9], 3, [17, 19]⟩), [160, 161, 164], [106], [73]⟩,
   ⟨13, 6401, 1, (some 2), true, false, 79, 81, 810,
    (some ⟨2, 77, 740, [85, 145, 125]⟩),
    (some ⟨0, [121, 84, 101, 83], [8, 11, 12, 10], 4, [81, 85, 88, 81, 92]⟩), [17, 19], [5, 8], [77]⟩,
   ⟨13, 6401, 0, (some 13), false, true, 83, 85, 850,
    (some ⟨1, 85, 810, [121, 84, 101, 83]⟩),
    none, [81, 85, 88, 81, 92], [], [85]⟩]),
  (train_ko3_3, [
   ⟨14, 3, 4, (some 36), true, false, 79, 79, 790,
    none,
    (some ⟨3, [127, 93, 92, 91, 90], [18, 7, 6, 8, 12], 5, [48, 47, 46]⟩), [], [31, 33], [79]⟩,
   ⟨14, 3, 3, (some 31), true, false, 86, 86, 860,
    (some ⟨4, 84, 790, [127, 93, 92, 91, 90]⟩),
    (some ⟨2, [126, 87, 142, 86], [23, 5, 19, 16], 6, [160, 161, 164]⟩), [48, 47, 46], [18, 23, 24], [84]⟩,
   ⟨14, 3, 2, (some 41), true, false, 94, 94, 940,
    (some ⟨3, 92, 860, [126, 87, 142, 86]⟩),
    (some ⟨1, [85, 145, 125], [11, 17, 9], 4, [17, 19]⟩), [160, 161, 164], [106], [92]⟩,
   ⟨14, 3, 1, (some 2), true, false, 100, 100, 1000,
    (some ⟨2, 98, 940, [85, 145, 125]⟩),
    (some ⟨0, [121, 84, 101, 83], [8, 13, 22, 10], 5, [82, 84, 86, 89, 90, 92]⟩), [17, 19], [5, 8], [98]⟩,
   ⟨14, 3, 0, (some 15), false, true, 105, 105, 1050,
    (some ⟨1, 105, 1000, [121, 84, 101, 83]⟩),
    none, [82, 84, 86, 89, 90, 92], [], [105]⟩]),
  (train_ko3_103, [
   ⟨15, 103, 1, (some 4), true, false, 205, 205, 2050,
    none,
    (some ⟨0, [121, 84, 101, 83], [8, 13, 22, 10], 5, [82, 84, 86, 89, 90, 92]⟩), [], [5, 6, 7], [205]⟩,
   ⟨15, 103, 0, (some 39), false, true, 210, 210, 2100,
    (some ⟨1, 210, 2050, [121, 84, 101, 83]⟩),
    none, [82, 84, 86, 89, 90, 92], [], [210]⟩]),
  (train_ko3_5, [
   ⟨16, 5, 4, (some 36), true, false, 94, 94, 940,
    none,
    (some ⟨3, [127, 93, 92, 91, 90], [18, 7, 6, 8, 12], 5, [48, 47, 46]⟩), [], [31, 33], [94]⟩,
   ⟨16, 5, 3, (some 31), true, false, 102, 105, 1050,
    (some ⟨4, 99, 940, [127, 93, 92, 91, 90]⟩),
    (some ⟨2, [126, 87, 142, 86], [23, 5, 19, 16], 6, [160, 161, 164]⟩), [48, 47, 46], [18, 23, 24], [99]⟩,
   ⟨16, 5, 2, (some 41), true, false, 110, 113, 1130,
    (some ⟨3, 111, 1050, [126, 87, 142, 86]⟩),
    (some ⟨1, [85, 145, 125], [11, 17, 9], 4, [17, 19]⟩), [160, 161, 164], [106], [111]⟩,
   ⟨16, 5, 1, (some 2), true, false, 119, 119, 1190,
    (some ⟨2, 117, 1130, [85, 145, 125]⟩),
    (some ⟨0, [121, 84, 101, 83], [8, 13, 22, 10], 5, [82, 84, 86, 89, 90, 92]⟩), [17, 19], [5, 8], [117]⟩,
   ⟨16, 5, 0, (some 15), false, true, 124, 124, 1240,
    (some ⟨1, 124, 1190, [121, 84, 101, 83]⟩),
    none, [82, 84, 86, 89, 90, 92], [], [124]⟩]),
  (train_ko3_6403, [
   ⟨17, 6403, 4, (some 36), true, false, 139, 139, 1390,
    none,
    (some ⟨3, [127, 93, 92, 91, 90], [18, 7, 6, 8, 12], 5, [48, 47, 46]⟩), [], [31, 33], [139]⟩,
   ⟨17, 6403, 3, (some 31), true, false, 146, 146, 1460,
    (some ⟨4, 144, 1390, [127, 93, 92, 91, 90]⟩),
    (some ⟨2, [126, 87, 142, 86], [23, 5, 9, 16], 5, [160, 161, 164]⟩), [48, 47, 46], [18, 23, 24], [144]⟩,
   ⟨17, 6403, 2, (some 41), true, false, 152, 152, 1520,
    (some ⟨3, 151, 1460, [126, 87, 142, 86]⟩),
    (some ⟨1, [85, 145, 125], [11, 7, 9], 3, [17, 19]⟩), [160, 161, 164], [106], [151]⟩,
   ⟨17, 6403, 1, (some 2), true, false, 157, 157, 1570,
    (some ⟨2, 155, 1520, [85, 145, 125]⟩),
    (some ⟨0, [121, 84, 101, 83], [8, 11, 12, 10], 4, [81, 85, 88, 81, 92]⟩), [17, 19], [5, 8], [155]⟩,
   ⟨17, 6403, 0, (some 13), false, true, 161, 161, 1610,
    (some ⟨1, 161, 1570, [121, 84, 101, 83]⟩),
    none, [81, 85, 88, 81, 92], [], [161]⟩]),
  (train_ko3_7, [
   ⟨18, 7, 4, (some 36), true, false, 127, 127, 1270,
    none,
    (some ⟨3, [127, 93, 92, 91, 90], [18, 7, 6, 8, 12], 5, [48, 47, 46]⟩), [], [31, 33], [127]⟩,
   ⟨18, 7, 3, (some 31), true, false, 134, 134, 1340,
    (some ⟨4, 132, 1270, [127, 93, 92, 91, 90]⟩),
    (some ⟨2, [126, 87, 142, 86], [23, 5, 19, 16], 6, [160, 161, 164]⟩), [48, 47, 46], [18, 23, 24], [132]⟩,
   ⟨18, 7, 2, (some 41), true, false, 143, 143, 1430,
    (some ⟨3, 140, 1340, [126, 87, 142, 86]⟩),
    (some ⟨1, [85, 145, 125], [11, 17, 9], 4, [17, 19]⟩), [160, 161, 164], [106], [140]⟩,
   ⟨18, 7, 1, (some 2), true, false, 151, 151, 1510,
    (some ⟨2, 147, 1430, [85, 145, 125]⟩),
    (some ⟨0, [121, 84, 101, 83], [8, 13, 22, 10], 5, [82, 84, 86, 89, 90, 92]⟩), [17, 19], [5, 8], [147]⟩,
   ⟨18, 7, 0, (some 15), false, true, 156, 156, 1560,
    (some ⟨1, 156, 1510, [121, 84, 101, 83]⟩),
    none, [82, 84, 86, 89, 90, 92], [], [156]⟩]),
  (train_ko3_9, [
   ⟨19, 9, 4, (some 36), true, false, 146, 146, 1460,
    none,
    (some ⟨3, [127, 93, 92, 91, 90], [18, 7, 6, 8, 12], 5, [48, 47, 46]⟩), [], [31, 33], [146]⟩,
   ⟨19, 9, 3, (some 31), true, false, 159, 159, 1590,
    (some ⟨4, 151, 1460, [127, 93, 92, 91, 90]⟩),
    (some ⟨2, [126, 87, 142, 86], [23, 5, 19, 16], 6, [160, 161, 164]⟩), [48, 47, 46], [18, 23, 24], [151]⟩,
   ⟨19, 9, 2, (some 41), true, false, 167, 167, 1670,
    (some ⟨3, 165, 1590, [126, 87, 142, 86]⟩),
    (some ⟨1, [85, 145, 125], [11, 17, 9], 4, [17, 19]⟩), [160, 161, 164], [106], [165]⟩,
   ⟨19, 9, 1, (some 2), true, false, 174, 174, 1740,
    (some ⟨2, 171, 1670, [85, 145, 125]⟩),
    (some ⟨0, [121, 84, 101, 83], [8, 13, 22, 10], 5, [82, 84, 86, 89, 90, 92]⟩), [17, 19], [5, 8], [171]⟩,
   ⟨19, 9, 0, (some 15), false, true, 179, 179, 1790,
    (some ⟨1, 179, 1740, [121, 84, 101, 83]⟩),
    none, [82, 84, 86, 89, 90, 92], [], [179]⟩]),
  (train_ko3_11, [
   ⟨20, 11, 4, (some 36), true, false, 196, 198, 1980,
    none,
    (some ⟨3, [127, 93, 92, 91, 90], [18, 7, 6, 8, 12], 5, [48, 47, 46]⟩), [], [31, 33], [196]⟩,
   ⟨20, 11, 3, (some 31), true, false, 203, 205, 2050,
    (some ⟨4, 203, 1980, [127, 93, 92, 91, 90]⟩),
    (some ⟨2, [126, 87, 142, 86], [23, 5, 19, 16], 6, [160, 161, 164]⟩), [48, 47, 46], [18, 23, 24], [203]⟩,
   ⟨20, 11, 2, (some 41), true, false, 211, 213, 2130,
    (some ⟨3, 211, 2050, [126, 87, 142, 86]⟩),
    (some ⟨1, [85, 145, 125], [11, 17, 9], 4, [17, 19]⟩), [160, 161, 164], [106], [211]⟩,
   ⟨20, 11, 1, (some 2), true, false, 217, 219, 2190,
    (some ⟨2, 217, 2130, [85, 145, 125]⟩),
    (some ⟨0, [121, 84, 101, 83], [8, 13, 22, 10], 5, [82, 84, 86, 89, 90, 92]⟩), [17, 19], [5, 8], [217]⟩,
   ⟨20, 11, 0, (some 15), false, true, 222, 224, 2240,
    (some ⟨1, 224, 2190, [121, 84, 101, 83]⟩),
    none, [82, 84, 86, 89, 90, 92], [], [224]⟩])]

theorem ko3n3Plan_sections : ko3n3Plan.map Prod.fst = ko3 := rfl

theorem ko3n3Plan_ok : netKoR.PlanOK "14:00" ko3n3Delays 40 netKoRSpecial ko3n3Plan :=
  ko3Plan_ok.again rfl (by decide +kernel) (by decide +kernel) (by decide +kernel) (by decide +kernel)

theorem ko3n3_cost : netKoR.costOK ko3n3Plan 64 = true := by decide +kernel

/-- the departures: train and station -/
def ko3n3Nodes : List (Nat × Nat) := [
  (0, 3), (11, 4), (11, 3), (11, 2), (11, 1), (13, 4), (2, 3), (10, 3), (20, 4), (20, 3), (20, 2),
  (20, 1), (4, 0), (12, 1), (13, 1), (4, 1), (4, 2), (4, 3), (13, 3), (13, 2), (3, 0), (3, 1)]

/-- the choices -/
def ko3n3Choices : List CodedNet.Choice := [
  .against 11 0 4 3, .against 2 13 3 4, .against 20 10 4 3, .against 12 4 1 0, .first 12 13 1,
  .against 4 13 0 1, .against 11 3 1 0]

/-- the inequalities -/
def ko3n3Arcs : ArcTree :=
  .node ⟨.come, 2, 1, 2, 6, 0, false⟩ (.node ⟨.run, 0, 2, 3, 7, 0, false⟩ (.node
  ⟨.run, 0, 4, 5, 6, 0, false⟩ (.node ⟨.run, 0, 10, 11, 8, 0, false⟩ (.node
  ⟨.run, 0, 13, 16, 6, 0, false⟩ .none .none) (.node ⟨.come, 1, 2, 1, 6, 0, false⟩ .none .none))
  (.node ⟨.come, 11, 13, 15, 5, 0, false⟩ (.node ⟨.come, 3, 7, 6, 6, 0, false⟩ .none .none) .none))
  (.node ⟨.come, 6, 8, 9, 6, 0, false⟩ (.node ⟨.come, 8, 13, 14, 5, 0, false⟩ (.node
  ⟨.run, 0, 17, 18, 6, 0, false⟩ .none .none) (.node ⟨.come, 13, 5, 21, 6, 0, false⟩ .none .none))
  (.node ⟨.follow, 9, 14, 15, 4, 0, false⟩ (.node ⟨.run, 0, 19, 20, 6, 0, false⟩ .none .none)
  .none))) (.node ⟨.run, 0, 3, 4, 8, 0, false⟩ (.node ⟨.come, 4, 6, 7, 6, 0, false⟩ (.node
  ⟨.run, 0, 11, 12, 6, 0, false⟩ (.node ⟨.run, 0, 16, 17, 5, 0, false⟩ .none .none) (.node
  ⟨.come, 14, 21, 5, 6, 0, false⟩ .none .none)) (.node ⟨.follow, 10, 15, 14, 2, 0, false⟩ (.node
  ⟨.run, 0, 6, 19, 7, 0, false⟩ .none .none) .none)) (.node ⟨.run, 0, 9, 10, 7, 0, false⟩ (.node
  ⟨.come, 12, 15, 13, 5, 0, false⟩ (.node ⟨.come, 5, 9, 8, 6, 0, false⟩ .none .none) (.node
  ⟨.run, 0, 21, 22, 7, 0, false⟩ .none .none)) (.node ⟨.come, 7, 14, 13, 6, 0, false⟩ (.node
  ⟨.run, 0, 20, 15, 5, 0, false⟩ .none .none) .none)))

/-- the bounds of the departures -/
def ko3n3Times : TimeTree :=
  .node 0 0 0 (.node 26 4 66 (.node 34 0 74 (.node 64 4 104 (.node 79 6 119 .none .none) .none)
  (.node 211 0 251 (.node 68 0 108 .none .none) .none)) (.node 48 4 88 (.node 196 0 236 (.node 91 0
  131 .none .none) .none) (.node 77 0 117 (.node 43 0 83 .none .none) .none))) (.node 27 0 67
  (.node 42 0 82 (.node 192 4 232 (.node 83 0 123 .none .none) .none) (.node 217 4 257 (.node 74 0
  114 .none .none) .none)) (.node 61 0 101 (.node 203 0 243 (.node 100 4 140 .none .none) .none)
  (.node 77 4 117 (.node 52 4 92 .none .none) .none)))

/-- some of the cases -/
def ko3n3Case0 : SumTree :=
  .cases [] 0 (.cases [23] 6 (.leaf [25, 26]) (.cases [24] 1 (.leaf [19, 20, 21, 22]) (.cases [4] 2
  (.leaf [18]) (.cases [5, 6, 7, 8] 4 (.leaf [13]) (.leaf [12]))))) (.cases [0, 1, 2, 3] 1 (.leaf
  [19, 20, 21, 22]) (.cases [4] 2 (.leaf [18]) (.cases [5, 6, 7, 8] 3 (.cases [14] 5 (.leaf [11])
  (.cases [] 4 (.leaf [13, 10, 15, 16, 17]) (.leaf [12, 14, 15, 16, 17]))) (.cases [9] 4 (.leaf
  [13]) (.cases [] 5 (.leaf [11, 12]) (.leaf [10, 9]))))))

/-- all cases -/
def ko3n3Cases : SumTree :=
  ko3n3Case0

theorem ko3n3_cases : ko3n3Cases.check ko3n3Arcs 64 ko3n3Choices.length [] ko3n3Times 0 = true := by
  decide +kernel

theorem ko3n3_choices : ko3n3Choices.all (CodedNet.Choice.ok netKoR netKoRSpecial ko3n3Plan) = true := by
  decide +kernel

theorem ko3n3_arcs : ko3n3Arcs.toList.all
    (netKoR.arcOK netKoRSpecial ko3n3Plan ko3n3Nodes ko3n3Choices) = true := by decide +kernel

theorem ko3n3_times : netKoR.startOK ko3n3Plan ko3n3Nodes 0 40 ko3n3Times = true := by decide +kernel

end Verif.Real
