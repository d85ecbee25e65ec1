import Verif.Real.Ko2
import Verif.Real.Specials
import Verif.Proofs.PlanAgain

/-!
# A plan for the shipped sheet of `Verif.Real.Ko2`

Generated; see `CodedNet.Item`. There are no delays given, `d_max` is 18.
-/

namespace Verif.Real

set_option maxRecDepth 100000

/-- the plan, items by sections -/
def ko2Plan : CodedNet.Plan := [
  (train_ko2_2, [
   ⟨0, 2, 0, (some 14), true, false, 0, 0, 0,
    none,
    (some ⟨1, [83, 101, 84, 121], [9, 19, 8, 8], 4, [5, 8]⟩), [], [61, 64, 69, 71, 87, 92], [0]⟩,
   ⟨0, 2, 1, (some 1), true, false, 6, 6, 60,
    (some ⟨0, 4, 0, [83, 101, 84, 121]⟩),
    (some ⟨2, [77, 144, 119], [15, 14, 8], 4, [107]⟩), [5, 8], [16, 2], [4]⟩,
   ⟨0, 2, 2, (some 40), true, false, 13, 18, 180,
    (some ⟨1, 10, 60, [77, 144, 119]⟩),
    (some ⟨3, [86, 142, 87, 126], [13, 13, 7, 9], 4, [18, 23]⟩), [107], [161, 164], [10]⟩,
   ⟨0, 2, 3, (some 30), true, false, 20, 24, 240,
    (some ⟨2, 22, 180, [86, 142, 87, 126]⟩),
    (some ⟨4, [90, 91, 92, 93, 127], [13, 9, 5, 7, 20], 5, [31, 33, 41]⟩), [18, 23], [47, 48], [22]⟩,
   ⟨0, 2, 4, (some 35), false, true, 25, 29, 290,
    (some ⟨3, 29, 240, [90, 91, 92, 93, 127]⟩),
    none, [31, 33, 41], [], [29]⟩]),
  (train_ko2_4602, [
   ⟨1, 4602, 0, (some 10), true, false, 7, 7, 70,
    none,
    (some ⟨1, [83, 101, 84, 121], [9, 12, 6, 7], 3, [5, 8]⟩), [], [66, 68, 71, 87, 92], [7]⟩,
   ⟨1, 4602, 1, (some 1), true, false, 13, 15, 150,
    (some ⟨0, 10, 70, [83, 101, 84, 121]⟩),
    (some ⟨2, [77, 144, 119], [11, 9, 8], 3, [107]⟩), [5, 8], [16, 2], [10]⟩,
   ⟨1, 4602, 2, (some 40), true, false, 17, 21, 210,
    (some ⟨1, 18, 150, [77, 144, 119]⟩),
    (some ⟨3, [86, 142, 87, 126], [13, 7, 7, 9], 4, [18, 23]⟩), [107], [161, 164], [18]⟩,
   ⟨1, 4602, 3, (some 30), true, false, 23, 27, 270,
    (some ⟨2, 25, 210, [86, 142, 87, 126]⟩),
    (some ⟨4, [90, 91, 92, 93, 127], [13, 9, 5, 7, 20], 5, [31, 34, 43]⟩), [18, 23], [47, 48], [25]⟩,
   ⟨1, 4602, 4, (some 38), true, false, 32, 33, 330,
    (some ⟨3, 32, 270, [90, 91, 92, 93, 127]⟩),
    none, [31, 34, 43], [], [32]⟩]),
  (train_ko2_4, [
   ⟨2, 4, 0, (some 14), true, false, 10, 11, 110,
    none,
    (some ⟨1, [83, 101, 84, 121], [9, 19, 8, 8], 4, [5, 8]⟩), [], [61, 64, 69, 71, 87, 92], [10]⟩,
   ⟨2, 4, 1, (some 1), true, false, 16, 17, 170,
    (some ⟨0, 15, 110, [83, 101, 84, 121]⟩),
    (some ⟨2, [77, 144, 119], [15, 14, 8], 4, [107]⟩), [5, 8], [16, 2], [15]⟩,
   ⟨2, 4, 2, (some 40), true, false, 23, 23, 230,
    (some ⟨1, 21, 170, [77, 144, 119]⟩),
    (some ⟨3, [86, 142, 87, 126], [13, 13, 7, 9], 4, [18, 23]⟩), [107], [161, 164], [21]⟩,
   ⟨2, 4, 3, (some 30), true, false, 30, 30, 300,
    (some ⟨2, 27, 230, [86, 142, 87, 126]⟩),
    (some ⟨4, [90, 91, 92, 93, 127], [13, 9, 5, 7, 20], 5, [31, 33, 41]⟩), [18, 23], [47, 48], [27]⟩,
   ⟨2, 4, 4, (some 35), false, true, 35, 35, 350,
    (some ⟨3, 35, 300, [90, 91, 92, 93, 127]⟩),
    none, [31, 33, 41], [], [35]⟩]),
  (train_ko2_102, [
   ⟨3, 102, 0, (some 16), true, false, 45, 47, 470,
    none,
    (some ⟨1, [83, 101, 84, 121], [9, 19, 8, 10], 5, [5, 8, 9]⟩), [], [62, 64, 69, 71, 87, 92], [45]⟩,
   ⟨3, 102, 1, (some 3), true, false, 53, 54, 540,
    (some ⟨0, 52, 470, [83, 101, 84, 121]⟩),
    none, [5, 8, 9], [], [52]⟩]),
  (train_ko2_6, [
   ⟨4, 6, 0, (some 14), true, false, 20, 20, 200,
    none,
    (some ⟨1, [83, 101, 84, 121], [9, 19, 8, 8], 4, [5, 8]⟩), [], [61, 64, 69, 71, 87, 92], [20]⟩,
   ⟨4, 6, 1, (some 1), true, false, 26, 26, 260,
    (some ⟨0, 24, 200, [83, 101, 84, 121]⟩),
    (some ⟨2, [77, 144, 119], [15, 14, 8], 4, [107]⟩), [5, 8], [16, 2], [24]⟩,
   ⟨4, 6, 2, (some 40), true, false, 33, 48, 480,
    (some ⟨1, 30, 260, [77, 144, 119]⟩),
    (some ⟨3, [86, 142, 87, 126], [13, 13, 7, 9], 4, [18, 23]⟩), [107], [161, 164], [30]⟩,
   ⟨4, 6, 3, (some 30), true, false, 40, 54, 540,
    (some ⟨2, 52, 480, [86, 142, 87, 126]⟩),
    (some ⟨4, [90, 91, 92, 93, 127], [13, 9, 5, 7, 20], 5, [31, 33, 41]⟩), [18, 23], [47, 48], [52]⟩,
   ⟨4, 6, 4, (some 35), false, true, 45, 59, 590,
    (some ⟨3, 59, 540, [90, 91, 92, 93, 127]⟩),
    none, [31, 33, 41], [], [59]⟩]),
  (train_ko2_8, [
   ⟨5, 8, 0, (some 14), true, false, 30, 30, 300,
    none,
    (some ⟨1, [83, 101, 84, 121], [9, 19, 8, 8], 4, [5, 8]⟩), [], [61, 64, 69, 71, 87, 92], [30]⟩,
   ⟨5, 8, 1, (some 1), true, false, 36, 44, 440,
    (some ⟨0, 34, 300, [83, 101, 84, 121]⟩),
    (some ⟨2, [77, 144, 119], [15, 14, 8], 4, [107]⟩), [5, 8], [16, 2], [34]⟩,
   ⟨5, 8, 2, (some 40), true, false, 43, 51, 510,
    (some ⟨1, 48, 440, [77, 144, 119]⟩),
    (some ⟨3, [86, 142, 87, 126], [13, 13, 7, 9], 4, [18, 23]⟩), [107], [161, 164], [48]⟩,
   ⟨5, 8, 3, (some 30), true, false, 50, 57, 570,
    (some ⟨2, 55, 510, [86, 142, 87, 126]⟩),
    (some ⟨4, [90, 91, 92, 93, 127], [13, 9, 5, 7, 20], 5, [31, 33, 41]⟩), [18, 23], [47, 48], [55]⟩,
   ⟨5, 8, 4, (some 35), false, true, 55, 62, 620,
    (some ⟨3, 62, 570, [90, 91, 92, 93, 127]⟩),
    none, [31, 33, 41], [], [62]⟩]),
  (train_ko2_4604, [
   ⟨6, 4604, 0, (some 10), true, false, 37, 41, 410,
    none,
    (some ⟨1, [83, 101, 84, 121], [9, 12, 6, 7], 3, [5, 8]⟩), [], [66, 68, 71, 87, 92], [37]⟩,
   ⟨6, 4604, 1, (some 1), true, false, 43, 48, 480,
    (some ⟨0, 44, 410, [83, 101, 84, 121]⟩),
    (some ⟨2, [77, 144, 119], [11, 9, 8], 3, [107]⟩), [5, 8], [16, 2], [44]⟩,
   ⟨6, 4604, 2, (some 40), true, false, 47, 54, 540,
    (some ⟨1, 51, 480, [77, 144, 119]⟩),
    (some ⟨3, [86, 142, 87, 126], [13, 7, 7, 9], 4, [18, 23]⟩), [107], [161, 164], [51]⟩,
   ⟨6, 4604, 3, (some 30), true, false, 53, 60, 600,
    (some ⟨2, 58, 540, [86, 142, 87, 126]⟩),
    (some ⟨4, [90, 91, 92, 93, 127], [13, 9, 5, 7, 20], 5, [31, 34, 43]⟩), [18, 23], [47, 48], [58]⟩,
   ⟨6, 4604, 4, (some 38), true, false, 62, 66, 660,
    (some ⟨3, 65, 600, [90, 91, 92, 93, 127]⟩),
    none, [31, 34, 43], [], [65]⟩]),
  (train_ko2_10, [
   ⟨7, 10, 0, (some 14), true, false, 40, 44, 440,
    none,
    (some ⟨1, [83, 101, 84, 121], [9, 19, 8, 8], 4, [5, 8]⟩), [], [61, 64, 69, 71, 87, 92], [40]⟩,
   ⟨7, 10, 1, (some 1), true, false, 46, 50, 500,
    (some ⟨0, 48, 440, [83, 101, 84, 121]⟩),
    (some ⟨2, [77, 144, 119], [15, 14, 8], 4, [107]⟩), [5, 8], [16, 2], [48]⟩,
   ⟨7, 10, 2, (some 40), true, false, 53, 56, 560,
    (some ⟨1, 54, 500, [77, 144, 119]⟩),
    (some ⟨3, [86, 142, 87, 126], [13, 13, 7, 9], 4, [18, 23]⟩), [107], [161, 164], [54]⟩,
   ⟨7, 10, 3, (some 30), true, false, 60, 63, 630,
    (some ⟨2, 60, 560, [86, 142, 87, 126]⟩),
    (some ⟨4, [90, 91, 92, 93, 127], [13, 9, 5, 7, 20], 5, [31, 33, 41]⟩), [18, 23], [47, 48], [60]⟩,
   ⟨7, 10, 4, (some 35), false, true, 65, 68, 680,
    (some ⟨3, 68, 630, [90, 91, 92, 93, 127]⟩),
    none, [31, 33, 41], [], [68]⟩]),
  (train_ko2_12, [
   ⟨8, 12, 0, (some 14), true, false, 50, 50, 500,
    none,
    (some ⟨1, [83, 101, 84, 121], [9, 19, 8, 8], 4, [5, 8]⟩), [], [61, 64, 69, 71, 87, 92], [50]⟩,
   ⟨8, 12, 1, (some 1), true, false, 56, 56, 560,
    (some ⟨0, 54, 500, [83, 101, 84, 121]⟩),
    (some ⟨2, [77, 144, 119], [15, 14, 8], 4, [107]⟩), [5, 8], [16, 2], [54]⟩,
   ⟨8, 12, 2, (some 40), true, false, 63, 79, 790,
    (some ⟨1, 60, 560, [77, 144, 119]⟩),
    (some ⟨3, [86, 142, 87, 126], [13, 13, 7, 9], 4, [18, 23]⟩), [107], [161, 164], [60]⟩,
   ⟨8, 12, 3, (some 30), true, false, 70, 85, 850,
    (some ⟨2, 83, 790, [86, 142, 87, 126]⟩),
    (some ⟨4, [90, 91, 92, 93, 127], [13, 9, 5, 7, 20], 5, [31, 33, 41]⟩), [18, 23], [47, 48], [83]⟩,
   ⟨8, 12, 4, (some 35), false, true, 75, 90, 900,
    (some ⟨3, 90, 850, [90, 91, 92, 93, 127]⟩),
    none, [31, 33, 41], [], [90]⟩]),
  (train_ko2_1, [
   ⟨9, 1, 4, (some 34), true, false, -7, -7, -70,
    none,
    (some ⟨3, [78, 79, 80, 81, 120], [18, 7, 6, 8, 12], 5, [46, 49]⟩), [], [30, 22], [-7]⟩,
   ⟨9, 1, 3, (some 31), true, false, 1, 1, 10,
    (some ⟨4, -2, -70, [78, 79, 80, 81, 120]⟩),
    (some ⟨2, [126, 87, 142, 86], [23, 5, 19, 16], 6, [160, 161, 164]⟩), [46, 49], [18, 23, 24], [-2]⟩,
   ⟨9, 1, 2, (some 41), true, false, 9, 9, 90,
    (some ⟨3, 7, 10, [126, 87, 142, 86]⟩),
    (some ⟨1, [85, 145, 125], [11, 17, 9], 4, [17, 19]⟩), [160, 161, 164], [106], [7]⟩,
   ⟨9, 1, 1, (some 2), true, false, 15, 15, 150,
    (some ⟨2, 13, 90, [85, 145, 125]⟩),
    (some ⟨0, [76, 130, 133, 122], [8, 12, 22, 10], 5, [82, 84, 86, 89, 91]⟩), [17, 19], [9, 7, 6], [13]⟩,
   ⟨9, 1, 0, (some 15), false, true, 20, 20, 200,
    (some ⟨1, 20, 150, [76, 130, 133, 122]⟩),
    none, [82, 84, 86, 89, 91], [], [20]⟩]),
  (train_ko2_101, [
   ⟨10, 101, 1, (some 4), true, false, 21, 21, 210,
    none,
    (some ⟨0, [76, 130, 133, 122], [8, 12, 22, 10], 5, [82, 84, 86, 89, 91]⟩), [], [7, 6], [21]⟩,
   ⟨10, 101, 0, (some 39), false, true, 26, 26, 260,
    (some ⟨1, 26, 210, [76, 130, 133, 122]⟩),
    none, [82, 84, 86, 89, 91], [], [26]⟩]),
  (train_ko2_3, [
   ⟨11, 3, 4, (some 34), true, false, 3, 3, 30,
    none,
    (some ⟨3, [78, 79, 80, 81, 120], [18, 7, 6, 8, 12], 5, [46, 49]⟩), [], [30, 22], [3]⟩,
   ⟨11, 3, 3, (some 31), true, false, 11, 11, 110,
    (some ⟨4, 8, 30, [78, 79, 80, 81, 120]⟩),
    (some ⟨2, [126, 87, 142, 86], [23, 5, 19, 16], 6, [160, 161, 164]⟩), [46, 49], [18, 23, 24], [8]⟩,
   ⟨11, 3, 2, (some 41), true, false, 19, 19, 190,
    (some ⟨3, 17, 110, [126, 87, 142, 86]⟩),
    (some ⟨1, [85, 145, 125], [11, 17, 9], 4, [17, 19]⟩), [160, 161, 164], [106], [17]⟩,
   ⟨11, 3, 1, (some 2), true, false, 25, 25, 250,
    (some ⟨2, 23, 190, [85, 145, 125]⟩),
    (some ⟨0, [76, 130, 133, 122], [8, 12, 22, 10], 5, [82, 84, 86, 89, 91]⟩), [17, 19], [9, 7, 6], [23]⟩,
   ⟨11, 3, 0, (some 15), false, true, 30, 30, 300,
    (some ⟨1, 30, 250, [76, 130, 133, 122]⟩),
    none, [82, 84, 86, 89, 91], [], [30]⟩]),
  (train_ko2_6401, [
   ⟨12, 6401, 4, (some 33), true, false, 14, 14, 140,
    none,
    (some ⟨3, [78, 79, 80, 81, 120], [18, 7, 6, 8, 12], 5, [46, 49]⟩), [], [36, 30, 22], [14]⟩,
   ⟨12, 6401, 3, (some 31), true, false, 22, 28, 280,
    (some ⟨4, 19, 140, [78, 79, 80, 81, 120]⟩),
    (some ⟨2, [126, 87, 142, 86], [23, 5, 9, 16], 5, [160, 161, 164]⟩), [46, 49], [18, 23, 24], [19]⟩,
   ⟨12, 6401, 2, (some 41), true, false, 28, 34, 340,
    (some ⟨3, 33, 280, [126, 87, 142, 86]⟩),
    (some ⟨1, [85, 145, 125], [11, 7, 9], 3, [17, 19]⟩), [160, 161, 164], [106], [33]⟩,
   ⟨12, 6401, 1, (some 2), true, false, 31, 37, 370,
    (some ⟨2, 37, 340, [85, 145, 125]⟩),
    (some ⟨0, [76, 130, 133, 122], [6, 10, 12, 10], 4, [81, 85, 88, 91]⟩), [17, 19], [9, 7, 6], [37]⟩,
   ⟨12, 6401, 0, (some 13), false, true, 35, 41, 410,
    (some ⟨1, 41, 370, [76, 130, 133, 122]⟩),
    none, [81, 85, 88, 91], [], [41]⟩]),
  (train_ko2_5, [
   ⟨13, 5, 4, (some 34), true, false, 18, 23, 230,
    none,
    (some ⟨3, [78, 79, 80, 81, 120], [18, 7, 6, 8, 12], 5, [46, 49]⟩), [], [30, 22], [18]⟩,
   ⟨13, 5, 3, (some 31), true, false, 26, 31, 310,
    (some ⟨4, 28, 230, [78, 79, 80, 81, 120]⟩),
    (some ⟨2, [126, 87, 142, 86], [23, 5, 19, 16], 6, [160, 161, 164]⟩), [46, 49], [18, 23, 24], [28]⟩,
   ⟨13, 5, 2, (some 41), true, false, 34, 39, 390,
    (some ⟨3, 37, 310, [126, 87, 142, 86]⟩),
    (some ⟨1, [85, 145, 125], [11, 17, 9], 4, [17, 19]⟩), [160, 161, 164], [106], [37]⟩,
   ⟨13, 5, 1, (some 2), true, false, 40, 45, 450,
    (some ⟨2, 43, 390, [85, 145, 125]⟩),
    (some ⟨0, [76, 130, 133, 122], [8, 12, 22, 10], 5, [82, 84, 86, 89, 91]⟩), [17, 19], [9, 7, 6], [43]⟩,
   ⟨13, 5, 0, (some 15), false, true, 45, 50, 500,
    (some ⟨1, 50, 450, [76, 130, 133, 122]⟩),
    none, [82, 84, 86, 89, 91], [], [50]⟩]),
  (train_ko2_7, [
   ⟨14, 7, 4, (some 34), true, false, 23, 26, 260,
    none,
    (some ⟨3, [78, 79, 80, 81, 120], [18, 7, 6, 8, 12], 5, [46, 49]⟩), [], [30, 22], [23]⟩,
   ⟨14, 7, 3, (some 31), true, false, 31, 35, 350,
    (some ⟨4, 31, 260, [78, 79, 80, 81, 120]⟩),
    (some ⟨2, [126, 87, 142, 86], [23, 5, 19, 16], 6, [160, 161, 164]⟩), [46, 49], [18, 23, 24], [31]⟩,
   ⟨14, 7, 2, (some 41), true, false, 39, 43, 430,
    (some ⟨3, 41, 350, [126, 87, 142, 86]⟩),
    (some ⟨1, [85, 145, 125], [11, 17, 9], 4, [17, 19]⟩), [160, 161, 164], [106], [41]⟩,
   ⟨14, 7, 1, (some 2), true, false, 45, 49, 490,
    (some ⟨2, 47, 430, [85, 145, 125]⟩),
    (some ⟨0, [76, 130, 133, 122], [8, 12, 22, 10], 5, [82, 84, 86, 89, 91]⟩), [17, 19], [9, 7, 6], [47]⟩,
   ⟨14, 7, 0, (some 15), false, true, 50, 54, 540,
    (some ⟨1, 54, 490, [76, 130, 133, 122]⟩),
    none, [82, 84, 86, 89, 91], [], [54]⟩]),
  (train_ko2_103, [
   ⟨15, 103, 1, (some 4), true, false, 51, 52, 520,
    none,
    (some ⟨0, [76, 130, 133, 122], [8, 12, 22, 10], 5, [82, 84, 86, 89, 91]⟩), [], [7, 6], [51]⟩,
   ⟨15, 103, 0, (some 39), false, true, 56, 57, 570,
    (some ⟨1, 57, 520, [76, 130, 133, 122]⟩),
    none, [82, 84, 86, 89, 91], [], [57]⟩]),
  (train_ko2_9, [
   ⟨16, 9, 4, (some 34), true, false, 33, 33, 330,
    none,
    (some ⟨3, [78, 79, 80, 81, 120], [18, 7, 6, 8, 12], 5, [46, 49]⟩), [], [30, 22], [33]⟩,
   ⟨16, 9, 3, (some 31), true, false, 41, 41, 410,
    (some ⟨4, 38, 330, [78, 79, 80, 81, 120]⟩),
    (some ⟨2, [126, 87, 142, 86], [23, 5, 19, 16], 6, [160, 161, 164]⟩), [46, 49], [18, 23, 24], [38]⟩,
   ⟨16, 9, 2, (some 41), true, false, 49, 49, 490,
    (some ⟨3, 47, 410, [126, 87, 142, 86]⟩),
    (some ⟨1, [85, 145, 125], [11, 17, 9], 4, [17, 19]⟩), [160, 161, 164], [106], [47]⟩,
   ⟨16, 9, 1, (some 2), true, false, 55, 55, 550,
    (some ⟨2, 53, 490, [85, 145, 125]⟩),
    (some ⟨0, [76, 130, 133, 122], [8, 12, 22, 10], 5, [82, 84, 86, 89, 91]⟩), [17, 19], [9, 7, 6], [53]⟩,
   ⟨16, 9, 0, (some 15), false, true, 60, 60, 600,
    (some ⟨1, 60, 550, [76, 130, 133, 122]⟩),
    none, [82, 84, 86, 89, 91], [], [60]⟩]),
  (train_ko2_6403, [
   ⟨17, 6403, 4, (some 33), true, false, 44, 56, 560,
    none,
    (some ⟨3, [78, 79, 80, 81, 120], [18, 7, 6, 8, 12], 5, [46, 49]⟩), [], [36, 30, 22], [44]⟩,
   ⟨17, 6403, 3, (some 31), true, false, 52, 65, 650,
    (some ⟨4, 61, 560, [78, 79, 80, 81, 120]⟩),
    (some ⟨2, [126, 87, 142, 86], [23, 5, 9, 16], 5, [160, 161, 164]⟩), [46, 49], [18, 23, 24], [61]⟩,
   ⟨17, 6403, 2, (some 41), true, false, 58, 72, 720,
    (some ⟨3, 70, 650, [126, 87, 142, 86]⟩),
    (some ⟨1, [85, 145, 125], [11, 7, 9], 3, [17, 19]⟩), [160, 161, 164], [106], [70]⟩,
   ⟨17, 6403, 1, (some 2), true, false, 61, 79, 790,
    (some ⟨2, 75, 720, [85, 145, 125]⟩),
    (some ⟨0, [76, 130, 133, 122], [6, 10, 12, 10], 4, [81, 85, 88, 91]⟩), [17, 19], [9, 7, 6], [75]⟩,
   ⟨17, 6403, 0, (some 13), false, true, 65, 83, 830,
    (some ⟨1, 83, 790, [76, 130, 133, 122]⟩),
    none, [81, 85, 88, 91], [], [83]⟩]),
  (train_ko2_11, [
   ⟨18, 11, 4, (some 34), true, false, 48, 48, 480,
    none,
    (some ⟨3, [78, 79, 80, 81, 120], [18, 7, 6, 8, 12], 5, [46, 49]⟩), [], [30, 22], [48]⟩,
   ⟨18, 11, 3, (some 31), true, false, 56, 61, 610,
    (some ⟨4, 53, 480, [78, 79, 80, 81, 120]⟩),
    (some ⟨2, [126, 87, 142, 86], [23, 5, 19, 16], 6, [160, 161, 164]⟩), [46, 49], [18, 23, 24], [53]⟩,
   ⟨18, 11, 2, (some 41), true, false, 64, 69, 690,
    (some ⟨3, 67, 610, [126, 87, 142, 86]⟩),
    (some ⟨1, [85, 145, 125], [11, 17, 9], 4, [17, 19]⟩), [160, 161, 164], [106], [67]⟩,
   ⟨18, 11, 1, (some 2), true, false, 70, 75, 750,
    (some ⟨2, 73, 690, [85, 145, 125]⟩),
    (some ⟨0, [76, 130, 133, 122], [8, 12, 22, 10], 5, [82, 84, 86, 89, 91]⟩), [17, 19], [9, 7, 6], [73]⟩,
   ⟨18, 11, 0, (some 15), false, true, 75, 80, 800,
    (some ⟨1, 80, 750, [76, 130, 133, 122]⟩),
    none, [82, 84, 86, 89, 91], [], [80]⟩]),
  (train_ko2_14, [
   ⟨19, 14, 0, (some 14), true, false, 60, 60, 600,
    none,
    (some ⟨1, [83, 101, 84, 121], [9, 19, 8, 8], 4, [5, 8]⟩), [], [61, 64, 69, 71, 87, 92], [60]⟩,
   ⟨19, 14, 1, (some 1), true, false, 66, 75, 750,
    (some ⟨0, 64, 600, [83, 101, 84, 121]⟩),
    (some ⟨2, [77, 144, 119], [15, 14, 8], 4, [107]⟩), [5, 8], [16, 2], [64]⟩,
   ⟨19, 14, 2, (some 40), true, false, 73, 82, 820,
    (some ⟨1, 79, 750, [77, 144, 119]⟩),
    (some ⟨3, [86, 142, 87, 126], [13, 13, 7, 9], 4, [18, 23]⟩), [107], [161, 164], [79]⟩,
   ⟨19, 14, 3, (some 30), true, false, 80, 88, 880,
    (some ⟨2, 86, 820, [86, 142, 87, 126]⟩),
    (some ⟨4, [90, 91, 92, 93, 127], [13, 9, 5, 7, 20], 5, [31, 33, 41]⟩), [18, 23], [47, 48], [86]⟩,
   ⟨19, 14, 4, (some 35), false, true, 85, 93, 930,
    (some ⟨3, 93, 880, [90, 91, 92, 93, 127]⟩),
    none, [31, 33, 41], [], [93]⟩]),
  (train_ko2_4606, [
   ⟨20, 4606, 0, (some 10), true, false, 67, 72, 720,
    none,
    (some ⟨1, [83, 101, 84, 121], [9, 12, 6, 7], 3, [5, 8]⟩), [], [66, 68, 71, 87, 92], [67]⟩,
   ⟨20, 4606, 1, (some 1), true, false, 73, 79, 790,
    (some ⟨0, 75, 720, [83, 101, 84, 121]⟩),
    (some ⟨2, [77, 144, 119], [11, 9, 8], 3, [107]⟩), [5, 8], [16, 2], [75]⟩,
   ⟨20, 4606, 2, (some 40), true, false, 77, 85, 850,
    (some ⟨1, 82, 790, [77, 144, 119]⟩),
    (some ⟨3, [86, 142, 87, 126], [13, 7, 7, 9], 4, [18, 23]⟩), [107], [161, 164], [82]⟩,
   ⟨20, 4606, 3, (some 30), true, false, 83, 91, 910,
    (some ⟨2, 89, 850, [86, 142, 87, 126]⟩),
    (some ⟨4, [90, 91, 92, 93, 127], [13, 9, 5, 7, 20], 5, [31, 34, 43]⟩), [18, 23], [47, 48], [89]⟩,
   ⟨20, 4606, 4, (some 38), true, false, 92, 97, 970,
    (some ⟨3, 96, 910, [90, 91, 92, 93, 127]⟩),
    none, [31, 34, 43], [], [96]⟩]),
  (train_ko2_16, [
   ⟨21, 16, 0, (some 14), true, false, 70, 75, 750,
    none,
    (some ⟨1, [83, 101, 84, 121], [9, 19, 8, 8], 4, [5, 8]⟩), [], [61, 64, 69, 71, 87, 92], [70]⟩,
   ⟨21, 16, 1, (some 1), true, false, 76, 81, 810,
    (some ⟨0, 79, 750, [83, 101, 84, 121]⟩),
    (some ⟨2, [77, 144, 119], [15, 14, 8], 4, [107]⟩), [5, 8], [16, 2], [79]⟩,
   ⟨21, 16, 2, (some 40), true, false, 83, 100, 1000,
    (some ⟨1, 85, 810, [77, 144, 119]⟩),
    (some ⟨3, [86, 142, 87, 126], [13, 13, 7, 9], 4, [18, 23]⟩), [107], [161, 164], [85]⟩,
   ⟨21, 16, 3, (some 30), true, false, 90, 106, 1060,
    (some ⟨2, 104, 1000, [86, 142, 87, 126]⟩),
    (some ⟨4, [90, 91, 92, 93, 127], [13, 9, 5, 7, 20], 5, [31, 33, 41]⟩), [18, 23], [47, 48], [104]⟩,
   ⟨21, 16, 4, (some 35), false, true, 95, 111, 1110,
    (some ⟨3, 111, 1060, [90, 91, 92, 93, 127]⟩),
    none, [31, 33, 41], [], [111]⟩]),
  (train_ko2_106, [
   ⟨22, 106, 0, (some 16), true, false, 75, 78, 780,
    none,
    (some ⟨1, [83, 101, 84, 121], [9, 19, 8, 10], 5, [5, 8, 9]⟩), [], [62, 64, 69, 71, 87, 92], [75]⟩,
   ⟨22, 106, 1, (some 3), true, false, 83, 85, 850,
    (some ⟨0, 83, 780, [83, 101, 84, 121]⟩),
    none, [5, 8, 9], [], [83]⟩]),
  (train_ko2_18, [
   ⟨23, 18, 0, (some 14), true, false, 80, 81, 810,
    none,
    (some ⟨1, [83, 101, 84, 121], [9, 19, 8, 8], 4, [5, 8]⟩), [], [61, 64, 69, 71, 87, 92], [80]⟩,
   ⟨23, 18, 1, (some 1), true, false, 86, 96, 960,
    (some ⟨0, 85, 810, [83, 101, 84, 121]⟩),
    (some ⟨2, [77, 144, 119], [15, 14, 8], 4, [107]⟩), [5, 8], [16, 2], [85]⟩,
   ⟨23, 18, 2, (some 40), true, false, 93, 103, 1030,
    (some ⟨1, 100, 960, [77, 144, 119]⟩),
    (some ⟨3, [86, 142, 87, 126], [13, 13, 7, 9], 4, [18, 23]⟩), [107], [161, 164], [100]⟩,
   ⟨23, 18, 3, (some 30), true, false, 100, 109, 1090,
    (some ⟨2, 107, 1030, [86, 142, 87, 126]⟩),
    (some ⟨4, [90, 91, 92, 93, 127], [13, 9, 5, 7, 20], 5, [31, 33, 41]⟩), [18, 23], [47, 48], [107]⟩,
   ⟨23, 18, 4, (some 35), false, true, 105, 114, 1140,
    (some ⟨3, 114, 1090, [90, 91, 92, 93, 127]⟩),
    none, [31, 33, 41], [], [114]⟩]),
  (train_ko2_20, [
   ⟨24, 20, 0, (some 14), true, false, 90, 92, 920,
    none,
    (some ⟨1, [83, 101, 84, 121], [9, 19, 8, 8], 4, [5, 8]⟩), [], [61, 64, 69, 71, 87, 92], [90]⟩,
   ⟨24, 20, 1, (some 1), true, false, 96, 99, 990,
    (some ⟨0, 96, 920, [83, 101, 84, 121]⟩),
    (some ⟨2, [77, 144, 119], [15, 14, 8], 4, [107]⟩), [5, 8], [16, 2], [96]⟩,
   ⟨24, 20, 2, (some 40), true, false, 103, 119, 1190,
    (some ⟨1, 103, 990, [77, 144, 119]⟩),
    (some ⟨3, [86, 142, 87, 126], [13, 13, 7, 9], 4, [18, 23]⟩), [107], [161, 164], [103]⟩,
   ⟨24, 20, 3, (some 30), true, false, 110, 125, 1250,
    (some ⟨2, 123, 1190, [86, 142, 87, 126]⟩),
    (some ⟨4, [90, 91, 92, 93, 127], [13, 9, 5, 7, 20], 5, [31, 33, 41]⟩), [18, 23], [47, 48], [123]⟩,
   ⟨24, 20, 4, (some 35), false, true, 115, 130, 1300,
    (some ⟨3, 130, 1250, [90, 91, 92, 93, 127]⟩),
    none, [31, 33, 41], [], [130]⟩]),
  (train_ko2_4608, [
   ⟨25, 4608, 0, (some 10), true, false, 97, 112, 1120,
    none,
    (some ⟨1, [83, 101, 84, 121], [9, 12, 6, 7], 3, [5, 8]⟩), [], [66, 68, 71, 87, 92], [97]⟩,
   ⟨25, 4608, 1, (some 1), true, false, 103, 119, 1190,
    (some ⟨0, 115, 1120, [83, 101, 84, 121]⟩),
    (some ⟨2, [77, 144, 119], [11, 9, 8], 3, [107]⟩), [5, 8], [16, 2], [115]⟩,
   ⟨25, 4608, 2, (some 40), true, false, 107, 125, 1250,
    (some ⟨1, 122, 1190, [77, 144, 119]⟩),
    (some ⟨3, [86, 142, 87, 126], [13, 7, 7, 9], 4, [18, 23]⟩), [107], [161, 164], [122]⟩,
   ⟨25, 4608, 3, (some 30), true, false, 113, 131, 1310,
    (some ⟨2, 129, 1250, [86, 142, 87, 126]⟩),
    (some ⟨4, [90, 91, 92, 93, 127], [13, 9, 5, 7, 20], 5, [31, 34, 43]⟩), [18, 23], [47, 48], [129]⟩,
   ⟨25, 4608, 4, (some 38), true, false, 122, 137, 1370,
    (some ⟨3, 136, 1310, [90, 91, 92, 93, 127]⟩),
    none, [31, 34, 43], [], [136]⟩]),
  (train_ko2_22, [
   ⟨26, 22, 0, (some 14), true, false, 100, 100, 1000,
    none,
    (some ⟨1, [83, 101, 84, 121], [9, 19, 8, 8], 4, [5, 8]⟩), [], [61, 64, 69, 71, 87, 92], [100]⟩,
   ⟨26, 22, 1, (some 1), true, false, 106, 115, 1150,
    (some ⟨0, 104, 1000, [83, 101, 84, 121]⟩),
    (some ⟨2, [77, 144, 119], [15, 14, 8], 4, [107]⟩), [5, 8], [16, 2], [104]⟩,
   ⟨26, 22, 2, (some 40), true, false, 113, 122, 1220,
    (some ⟨1, 119, 1150, [77, 144, 119]⟩),
    (some ⟨3, [86, 142, 87, 126], [13, 13, 7, 9], 4, [18, 23]⟩), [107], [161, 164], [119]⟩,
   ⟨26, 22, 3, (some 30), true, false, 120, 128, 1280,
    (some ⟨2, 126, 1220, [86, 142, 87, 126]⟩),
    (some ⟨4, [90, 91, 92, 93, 127], [13, 9, 5, 7, 20], 5, [31, 33, 41]⟩), [18, 23], [47, 48], [126]⟩,
   ⟨26, 22, 4, (some 35), false, true, 125, 133, 1330,
    (some ⟨3, 133, 1280, [90, 91, 92, 93, 127]⟩),
    none, [31, 33, 41], [], [133]⟩]),
  (train_ko2_108, [
   ⟨27, 108, 0, (some 16), true, false, 105, 105, 1050,
    none,
    (some ⟨1, [83, 101, 84, 121], [9, 19, 8, 10], 5, [5, 8, 9]⟩), [], [62, 64, 69, 71, 87, 92], [105]⟩,
   ⟨27, 108, 1, (some 3), true, false, 113, 113, 1130,
    (some ⟨0, 110, 1050, [83, 101, 84, 121]⟩),
    none, [5, 8, 9], [], [110]⟩]),
  (train_ko2_24, [
   ⟨28, 24, 0, (some 14), true, false, 110, 115, 1150,
    none,
    (some ⟨1, [83, 101, 84, 121], [9, 19, 8, 8], 4, [5, 8]⟩), [], [61, 64, 69, 71, 87, 92], [110]⟩,
   ⟨28, 24, 1, (some 1), true, false, 116, 121, 1210,
    (some ⟨0, 119, 1150, [83, 101, 84, 121]⟩),
    (some ⟨2, [77, 144, 119], [15, 14, 8], 4, [107]⟩), [5, 8], [16, 2], [119]⟩,
   ⟨28, 24, 2, (some 40), true, false, 123, 140, 1400,
    (some ⟨1, 125, 1210, [77, 144, 119]⟩),
    (some ⟨3, [86, 142, 87, 126], [13, 13, 7, 9], 4, [18, 23]⟩), [107], [161, 164], [125]⟩,
   ⟨28, 24, 3, (some 30), true, false, 130, 146, 1460,
    (some ⟨2, 144, 1400, [86, 142, 87, 126]⟩),
    (some ⟨4, [90, 91, 92, 93, 127], [13, 9, 5, 7, 20], 5, [31, 33, 41]⟩), [18, 23], [47, 48], [144]⟩,
   ⟨28, 24, 4, (some 35), false, true, 135, 151, 1510,
    (some ⟨3, 151, 1460, [90, 91, 92, 93, 127]⟩),
    none, [31, 33, 41], [], [151]⟩]),
  (train_ko2_13, [
   ⟨29, 13, 4, (some 34), true, false, 53, 60, 600,
    none,
    (some ⟨3, [78, 79, 80, 81, 120], [18, 7, 6, 8, 12], 5, [46, 49]⟩), [], [30, 22], [53]⟩,
   ⟨29, 13, 3, (some 31), true, false, 61, 68, 680,
    (some ⟨4, 65, 600, [78, 79, 80, 81, 120]⟩),
    (some ⟨2, [126, 87, 142, 86], [23, 5, 19, 16], 6, [160, 161, 164]⟩), [46, 49], [18, 23, 24], [65]⟩,
   ⟨29, 13, 2, (some 41), true, false, 69, 76, 760,
    (some ⟨3, 74, 680, [126, 87, 142, 86]⟩),
    (some ⟨1, [85, 145, 125], [11, 17, 9], 4, [17, 19]⟩), [160, 161, 164], [106], [74]⟩,
   ⟨29, 13, 1, (some 2), true, false, 75, 82, 820,
    (some ⟨2, 80, 760, [85, 145, 125]⟩),
    (some ⟨0, [76, 130, 133, 122], [8, 12, 22, 10], 5, [82, 84, 86, 89, 91]⟩), [17, 19], [9, 7, 6], [80]⟩,
   ⟨29, 13, 0, (some 15), false, true, 80, 87, 870,
    (some ⟨1, 87, 820, [76, 130, 133, 122]⟩),
    none, [82, 84, 86, 89, 91], [], [87]⟩]),
  (train_ko2_105, [
   ⟨30, 105, 1, (some 4), true, false, 81, 85, 850,
    none,
    (some ⟨0, [76, 130, 133, 122], [8, 12, 22, 10], 5, [82, 84, 86, 89, 91]⟩), [], [7, 6], [81]⟩,
   ⟨30, 105, 0, (some 39), false, true, 86, 90, 900,
    (some ⟨1, 90, 850, [76, 130, 133, 122]⟩),
    none, [82, 84, 86, 89, 91], [], [90]⟩]),
  (train_ko2_15, [
   ⟨31, 15, 4, (some 34), true, false, 63, 63, 630,
    none,
    (some ⟨3, [78, 79, 80, 81, 120], [18, 7, 6, 8, 12], 5, [46, 49]⟩), [], [30, 22], [63]⟩,
   ⟨31, 15, 3, (some 31), true, false, 71, 72, 720,
    (some ⟨4, 68, 630, [78, 79, 80, 81, 120]⟩),
    (some ⟨2, [126, 87, 142, 86], [23, 5, 19, 16], 6, [160, 161, 164]⟩), [46, 49], [18, 23, 24], [68]⟩,
   ⟨31, 15, 2, (some 41), true, false, 79, 80, 800,
    (some ⟨3, 78, 720, [126, 87, 142, 86]⟩),
    (some ⟨1, [85, 145, 125], [11, 17, 9], 4, [17, 19]⟩), [160, 161, 164], [106], [78]⟩,
   ⟨31, 15, 1, (some 2), true, false, 85, 88, 880,
    (some ⟨2, 84, 800, [85, 145, 125]⟩),
    (some ⟨0, [76, 130, 133, 122], [8, 12, 22, 10], 5, [82, 84, 86, 89, 91]⟩), [17, 19], [9, 7, 6], [84]⟩,
   ⟨31, 15, 0, (some 15), false, true, 90, 93, 930,
    (some ⟨1, 93, 880, [76, 130, 133, 122]⟩),
    none, [82, 84, 86, 89, 91], [], [93]⟩]),
  (train_ko2_6405, [
   ⟨32, 6405, 4, (some 33), true, false, 74, 85, 850,
    none,
    (some ⟨3, [78, 79, 80, 81, 120], [18, 7, 6, 8, 12], 5, [46, 49]⟩), [], [36, 30, 22], [74]⟩,
   ⟨32, 6405, 3, (some 31), true, false, 82, 94, 940,
    (some ⟨4, 90, 850, [78, 79, 80, 81, 120]⟩),
    (some ⟨2, [126, 87, 142, 86], [23, 5, 9, 16], 5, [160, 161, 164]⟩), [46, 49], [18, 23, 24], [90]⟩,
   ⟨32, 6405, 2, (some 41), true, false, 88, 101, 1010,
    (some ⟨3, 99, 940, [126, 87, 142, 86]⟩),
    (some ⟨1, [85, 145, 125], [11, 7, 9], 3, [17, 19]⟩), [160, 161, 164], [106], [99]⟩,
   ⟨32, 6405, 1, (some 2), true, false, 91, 108, 1080,
    (some ⟨2, 104, 1010, [85, 145, 125]⟩),
    (some ⟨0, [76, 130, 133, 122], [6, 10, 12, 10], 4, [81, 85, 88, 91]⟩), [17, 19], [9, 7, 6], [104]⟩,
   ⟨32, 6405, 0, (some 13), false, true, 95, 112, 1120,
    (some ⟨1, 112, 1080, [76, 130, 133, 122]⟩),
    none, [81, 85, 88, 91], [], [112]⟩]),
  (train_ko2_17, [
   ⟨33, 17, 4, (some 34), true, false, 78, 78, 780,
    none,
    (some ⟨3, [78, 79, 80, 81, 120], [18, 7, 6, 8, 12], 5, [46, 49]⟩), [], [30, 22], [78]⟩,
   ⟨33, 17, 3, (some 31), true, false, 86, 90, 900,
    (some ⟨4, 83, 780, [78, 79, 80, 81, 120]⟩),
    (some ⟨2, [126, 87, 142, 86], [23, 5, 19, 16], 6, [160, 161, 164]⟩), [46, 49], [18, 23, 24], [83]⟩,
   ⟨33, 17, 2, (some 41), true, false, 94, 98, 980,
    (some ⟨3, 96, 900, [126, 87, 142, 86]⟩),
    (some ⟨1, [85, 145, 125], [11, 17, 9], 4, [17, 19]⟩), [160, 161, 164], [106], [96]⟩,
   ⟨33, 17, 1, (some 2), true, false, 100, 104, 1040,
    (some ⟨2, 102, 980, [85, 145, 125]⟩),
    (some ⟨0, [76, 130, 133, 122], [8, 12, 22, 10], 5, [82, 84, 86, 89, 91]⟩), [17, 19], [9, 7, 6], [102]⟩,
   ⟨33, 17, 0, (some 15), false, true, 105, 109, 1090,
    (some ⟨1, 109, 1040, [76, 130, 133, 122]⟩),
    none, [82, 84, 86, 89, 91], [], [109]⟩]),
  (train_ko2_21, [
   ⟨34, 21, 4, (some 34), true, false, 83, 89, 890,
    none,
    (some ⟨3, [78, 79, 80, 81, 120], [18, 7, 6, 8, 12], 5, [46, 49]⟩), [], [30, 22], [83]⟩,
   ⟨34, 21, 3, (some 31), true, false, 91, 108, 1080,
    (some ⟨4, 94, 890, [78, 79, 80, 81, 120]⟩),
    (some ⟨2, [126, 87, 142, 86], [23, 5, 19, 16], 6, [160, 161, 164]⟩), [46, 49], [18, 23, 24], [94]⟩,
   ⟨34, 21, 2, (some 41), true, false, 99, 116, 1160,
    (some ⟨3, 114, 1080, [126, 87, 142, 86]⟩),
    (some ⟨1, [85, 145, 125], [11, 17, 9], 4, [17, 19]⟩), [160, 161, 164], [106], [114]⟩,
   ⟨34, 21, 1, (some 2), true, false, 105, 122, 1220,
    (some ⟨2, 120, 1160, [85, 145, 125]⟩),
    (some ⟨0, [76, 130, 133, 122], [8, 12, 22, 10], 5, [82, 84, 86, 89, 91]⟩), [17, 19], [9, 7, 6], [120]⟩,
   ⟨34, 21, 0, (some 15), false, true, 110, 127, 1270,
    (some ⟨1, 127, 1220, [76, 130, 133, 122]⟩),
    none, [82, 84, 86, 89, 91], [], [127]⟩]),
  (train_ko2_107, [
   ⟨35, 107, 1, (some 4), true, false, 111, 111, 1110,
    none,
    (some ⟨0, [76, 130, 133, 122], [8, 12, 22, 10], 5, [82, 84, 86, 89, 91]⟩), [], [7, 6], [111]⟩,
   ⟨35, 107, 0, (some 39), false, true, 116, 116, 1160,
    (some ⟨1, 116, 1110, [76, 130, 133, 122]⟩),
    none, [82, 84, 86, 89, 91], [], [116]⟩]),
  (train_ko2_23, [
   ⟨36, 23, 4, (some 34), true, false, 93, 103, 1030,
    none,
    (some ⟨3, [78, 79, 80, 81, 120], [18, 7, 6, 8, 12], 5, [46, 49]⟩), [], [30, 22], [93]⟩,
   ⟨36, 23, 3, (some 31), true, false, 101, 112, 1120,
    (some ⟨4, 108, 1030, [78, 79, 80, 81, 120]⟩),
    (some ⟨2, [126, 87, 142, 86], [23, 5, 19, 16], 6, [160, 161, 164]⟩), [46, 49], [18, 23, 24], [108]⟩,
   ⟨36, 23, 2, (some 41), true, false, 109, 120, 1200,
    (some ⟨3, 118, 1120, [126, 87, 142, 86]⟩),
    (some ⟨1, [85, 145, 125], [11, 17, 9], 4, [17, 19]⟩), [160, 161, 164], [106], [118]⟩,
   ⟨36, 23, 1, (some 2), true, false, 115, 126, 1260,
    (some ⟨2, 124, 1200, [85, 145, 125]⟩),
    (some ⟨0, [76, 130, 133, 122], [8, 12, 22, 10], 5, [82, 84, 86, 89, 91]⟩), [17, 19], [9, 7, 6], [124]⟩,
   ⟨36, 23, 0, (some 15), false, true, 120, 131, 1310,
    (some ⟨1, 131, 1260, [76, 130, 133, 122]⟩),
    none, [82, 84, 86, 89, 91], [], [131]⟩]),
  (train_ko2_6407, [
   ⟨37, 6407, 4, (some 33), true, false, 104, 107, 1070,
    none,
    (some ⟨3, [78, 79, 80, 81, 120], [18, 7, 6, 8, 12], 5, [46, 49]⟩), [], [36, 30, 22], [104]⟩,
   ⟨37, 6407, 3, (some 31), true, false, 112, 130, 1300,
    (some ⟨4, 112, 1070, [78, 79, 80, 81, 120]⟩),
    (some ⟨2, [126, 87, 142, 86], [23, 5, 9, 16], 5, [160, 161, 164]⟩), [46, 49], [18, 23, 24], [112]⟩,
   ⟨37, 6407, 2, (some 41), true, false, 118, 136, 1360,
    (some ⟨3, 135, 1300, [126, 87, 142, 86]⟩),
    (some ⟨1, [85, 145, 125], [11, 7, 9], 3, [17, 19]⟩), [160, 161, 164], [106], [135]⟩,
   ⟨37, 6407, 1, (some 2), true, false, 121, 139, 1390,
    (some ⟨2, 139, 1360, [85, 145, 125]⟩),
    (some ⟨0, [76, 130, 133, 122], [6, 10, 12, 10], 4, [81, 85, 88, 91]⟩), [17, 19], [9, 7, 6], [139]⟩,
   ⟨37, 6407, 0, (some 13), false, true, 125, 143, 1430,
    (some ⟨1, 143, 1390, [76, 130, 133, 122]⟩),
    none, [81, 85, 88, 91], [], [143]⟩]),
  (train_ko2_25, [
   ⟨38, 25, 4, (some 34), true, false, 108, 125, 1250,
    none,
    (some ⟨3, [78, 79, 80, 81, 120], [18, 7, 6, 8, 12], 5, [46, 49]⟩), [], [30, 22], [108]⟩,
   ⟨38, 25, 3, (some 31), true, false, 116, 133, 1330,
    (some ⟨4, 130, 1250, [78, 79, 80, 81, 120]⟩),
    (some ⟨2, [126, 87, 142, 86], [23, 5, 19, 16], 6, [160, 161, 164]⟩), [46, 49], [18, 23, 24], [130]⟩,
   ⟨38, 25, 2, (some 41), true, false, 124, 141, 1410,
    (some ⟨3, 139, 1330, [126, 87, 142, 86]⟩),
    (some ⟨1, [85, 145, 125], [11, 17, 9], 4, [17, 19]⟩), [160, 161, 164], [106], [139]⟩,
   ⟨38, 25, 1, (some 2), true, false, 130, 147, 1470,
    (some ⟨2, 145, 1410, [85, 145, 125]⟩),
    (some ⟨0, [76, 130, 133, 122], [8, 12, 22, 10], 5, [82, 84, 86, 89, 91]⟩), [17, 19], [9, 7, 6], [145]⟩,
   ⟨38, 25, 0, (some 15), false, true, 135, 152, 1520,
    (some ⟨1, 152, 1470, [76, 130, 133, 122]⟩),
    none, [82, 84, 86, 89, 91], [], [152]⟩])]

theorem ko2Plan_sections : ko2Plan.map Prod.fst = ko2 := rfl

theorem ko2Plan_ok : netKoR.PlanOK "14:00" [] 18 netKoRSpecial ko2Plan where
  special := netKoRSpecial_ok
  sections := by decide +kernel
  stock := by decide +kernel
  pairs := CodedNet.stationPairs_spec (n := netKoR.stations.length) (by decide +kernel)
  against := CodedNet.againstPairs_spec (n := netKoR.stations.length) (by decide +kernel)

end Verif.Real
