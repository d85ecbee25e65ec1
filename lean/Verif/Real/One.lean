import Verif.Real.Net

/-!
# The shipped sheet `/repo/data/trains_schedules_1track.csv`

Generated; a row is the number of its block and the cells `speed`, `Arr`, `Dep`, `Approx_enter`,
`Label`, `Shunting`, `Turnaround_time_minutes`.
-/

namespace Verif.Real

/-- train 94766 -/
def train_one_94766 : CodedSection := ⟨"KS - Os", 94766, "94766", "S5", "from Zwardoń", [
  (124, ⟨"", some "R", none, none, none, none, none, none⟩),
  (26, ⟨"", some "R", some "15:46", some "15:47", none, none, none, none⟩),
  (58, ⟨"", some "R", none, none, none, none, none, none⟩),
  (108, ⟨"", some "R", none, none, none, none, none, none⟩),
  (55, ⟨"", some "R", none, none, none, none, none, none⟩),
  (72, ⟨"", some "R", none, none, none, none, none, none⟩),
  (135, ⟨"", some "R", some "15:51", some "15:51", none, some "Katowice Podlesie", none, none⟩),
  (73, ⟨"", some "R", none, none, none, none, none, none⟩),
  (74, ⟨"", some "R", none, none, none, none, none, none⟩),
  (116, ⟨"", some "R", some "15:54", some "15:54", none, some "Katowice Piotrowice", none, none⟩),
  (8, ⟨"", some "R", some "15:57", some "15:57", none, some "Katowice Ligota", none, none⟩),
  (82, ⟨"", some "R", none, none, none, none, none, none⟩),
  (131, ⟨"", some "R", some "16:00", some "16:00", none, some "Katowice Brynów", none, none⟩),
  (65, ⟨"", some "R", none, none, none, none, none, none⟩),
  (112, ⟨"", some "R", none, none, none, none, none, none⟩),
  (15, ⟨"", some "R", some "16:04", none, none, some "Katowice", none, none⟩),
  (62, ⟨"", some "R", none, none, some "16:07", none, some "Y", none⟩)],
  "terminates in Katowice"⟩

/-- train 26103 -/
def train_one_26103 : CodedSection := ⟨"IC - IC", 26103, "26103", "BOLKO", "from Lublin Główny", [
  (67, ⟨"", some "IC", none, none, none, none, none, none⟩),
  (17, ⟨"", some "IC", none, none, some "16:00", none, none, none⟩),
  (104, ⟨"", some "IC", none, none, none, none, none, none⟩),
  (52, ⟨"", some "IC", none, none, none, none, none, none⟩),
  (14, ⟨"", some "IC", some "16:04", some "16:11", none, some "Katowice", none, none⟩),
  (83, ⟨"", some "IC", none, none, none, none, none, none⟩),
  (101, ⟨"", some "IC", none, none, none, none, none, none⟩),
  (84, ⟨"", some "IC", none, none, none, none, none, none⟩),
  (121, ⟨"", some "IC", none, none, none, none, none, none⟩),
  (1, ⟨"", some "R", some "16:17", some "16:17", none, some "Chorz�w Batory", none, none⟩),
  (77, ⟨"", some "IC", none, none, none, none, none, none⟩),
  (144, ⟨"", some "IC", none, none, none, none, none, none⟩),
  (119, ⟨"", some "IC", none, none, none, none, none, none⟩),
  (40, ⟨"", some "IC", none, none, none, none, none, none⟩),
  (86, ⟨"", some "IC", none, none, none, none, none, none⟩),
  (142, ⟨"", some "IC", none, none, none, none, none, none⟩),
  (87, ⟨"", some "IC", none, none, none, none, none, none⟩),
  (126, ⟨"", some "IC", none, none, none, none, none, none⟩),
  (30, ⟨"", some "IC", some "16:27", some "16:27", none, some "Zabrze", none, none⟩),
  (90, ⟨"", some "IC", none, none, none, none, none, none⟩),
  (91, ⟨"", some "IC", none, none, none, none, none, none⟩),
  (92, ⟨"", some "IC", none, none, none, none, none, none⟩),
  (93, ⟨"", some "IC", none, none, none, none, none, none⟩),
  (127, ⟨"", some "IC", none, none, none, none, none, none⟩),
  (38, ⟨"", some "IC", some "16:34", some "16:36", none, some "Gliwice", none, none⟩),
  (113, ⟨"", some "IC", none, none, none, none, none, none⟩)],
  "to Wrocław Główny"⟩

/-- train 421009 -/
def train_one_421009 : CodedSection := ⟨"IC - IC", 421009, "421009", "SZTYGAR", "from Katowice IC", [
  (66, ⟨"", some "R", none, none, some "15:50", none, some "Y", none⟩),
  (49, ⟨"", some "R", none, none, none, none, some "Y", none⟩),
  (11, ⟨"", some "R", none, none, some "15:55", some "Katowice", some "Y", none⟩)],
  "to Katowice platforms"⟩

/-- train 42100 -/
def train_one_42100 : CodedSection := ⟨"IC - IC", 42100, "42100", "SZTYGAR", "from Katowice", [
  (11, ⟨"", some "IC", none, some "16:08", none, some "Katowice", none, some 5⟩),
  (49, ⟨"", some "IC", none, none, none, none, none, none⟩),
  (104, ⟨"", some "IC", none, none, none, none, none, none⟩),
  (18, ⟨"", some "IC", none, none, some "16:12", none, none, none⟩),
  (106, ⟨"", some "IC", none, none, none, none, none, none⟩)],
  "to Lublin Główny"⟩

/-- train 5312 -/
def train_one_5312 : CodedSection := ⟨"IC - IC", 5312, "5312", "PIAST", "from Gdynia Główna via Wrocław", [
  (117, ⟨"", some "IC", none, none, none, none, none, none⟩),
  (33, ⟨"", some "IC", some "15:34", some "15:42", none, some "Gliwice", none, none⟩),
  (78, ⟨"", some "IC", none, none, none, none, none, none⟩),
  (79, ⟨"", some "IC", none, none, none, none, none, none⟩),
  (80, ⟨"", some "IC", none, none, none, none, none, none⟩),
  (81, ⟨"", some "IC", none, none, none, none, none, none⟩),
  (120, ⟨"", some "IC", none, none, none, none, none, none⟩),
  (31, ⟨"", some "IC", some "15:50", some "15:50", none, some "Zabrze", none, none⟩),
  (94, ⟨"", some "IC", none, none, none, none, none, none⟩),
  (95, ⟨"", some "IC", none, none, none, none, none, none⟩),
  (143, ⟨"", some "IC", none, none, none, none, none, none⟩),
  (128, ⟨"", some "IC", none, none, none, none, none, none⟩),
  (41, ⟨"", some "IC", none, none, none, none, none, none⟩),
  (85, ⟨"", some "IC", none, none, none, none, none, none⟩),
  (145, ⟨"", some "IC", none, none, none, none, none, none⟩),
  (125, ⟨"", some "IC", none, none, none, none, none, none⟩),
  (2, ⟨"", some "IC", none, none, none, none, none, none⟩),
  (76, ⟨"", some "IC", none, none, none, none, none, none⟩),
  (130, ⟨"", some "IC", none, none, none, none, none, none⟩),
  (133, ⟨"", some "IC", none, none, none, none, none, none⟩),
  (122, ⟨"", some "IC", none, none, none, none, none, none⟩),
  (13, ⟨"", some "IC", some "16:06", some "16:09", none, some "Katowice", none, none⟩),
  (49, ⟨"", some "IC", none, none, none, none, none, none⟩),
  (104, ⟨"", some "IC", none, none, none, none, none, none⟩),
  (20, ⟨"", some "IC", none, none, some "16:13", none, none, none⟩),
  (123, ⟨"", some "IC", none, none, none, none, none, none⟩)],
  "to Kraków Główny"⟩

/-- train 40518 -/
def train_one_40518 : CodedSection := ⟨"KS - Os", 40518, "40518", "S4", "from Tychy Lodowisko", [
  (111, ⟨"", some "R", none, none, none, none, none, none⟩),
  (26, ⟨"", some "R", some "15:44", some "15:51", none, some "Tychy", none, none⟩),
  (58, ⟨"", some "R", none, none, none, none, none, none⟩),
  (108, ⟨"", some "R", none, none, none, none, none, none⟩),
  (55, ⟨"", some "R", none, none, none, none, none, none⟩),
  (72, ⟨"", some "R", none, none, none, none, none, none⟩),
  (135, ⟨"", some "R", some "15:57", some "15:57", none, some "Katowice Podlesie", none, none⟩),
  (73, ⟨"", some "R", none, none, none, none, none, none⟩),
  (74, ⟨"", some "R", none, none, none, none, none, none⟩),
  (116, ⟨"", some "R", some "16:00", some "16:00", none, some "Katowice Piotrowice", none, none⟩),
  (8, ⟨"", some "R", some "16:02", some "16:03", none, some "Katowice Ligota", none, none⟩),
  (82, ⟨"", some "R", none, none, none, none, none, none⟩),
  (131, ⟨"", some "R", none, none, none, none, none, none⟩),
  (65, ⟨"", some "R", some "16:06", some "16:06", none, some "Katowice Brynów", none, none⟩),
  (112, ⟨"", some "R", none, none, none, none, none, none⟩),
  (15, ⟨"", some "R", some "16:09", none, none, some "Katowice", none, none⟩),
  (61, ⟨"", some "R", none, none, some "16:12", none, some "Y", none⟩)],
  "terminates in Katowice"⟩

/-- train 34319 -/
def train_one_34319 : CodedSection := ⟨"PR - R", 34319, "34319", "No name", "from Kraków Główny", [
  (88, ⟨"", some "R", none, none, none, none, none, none⟩),
  (19, ⟨"", some "R", some "16:10", some "16:10", none, some "Katowice Zawodzie", none, none⟩),
  (104, ⟨"", some "R", none, none, none, none, none, none⟩),
  (49, ⟨"", some "R", none, none, none, none, none, none⟩),
  (15, ⟨"", some "R", some "16:14", none, none, some "Katowice", none, none⟩)],
  "to Katowice"⟩

/-- train 343199 -/
def train_one_343199 : CodedSection := ⟨"PR - R", 343199, "343199", "No name", "from Katowice platforms", [
  (15, ⟨"", some "R", none, none, some "16:14", some "Katowice", some "Y", some 5⟩),
  (63, ⟨"", some "R", none, none, some "16:22", none, some "Y", none⟩)],
  "to Katowice STM"⟩

/-- train 14006 -/
def train_one_14006 : CodedSection := ⟨"IC - IC", 14006, "14006", "SILESIA", "from Warszawa Wschodnia", [
  (67, ⟨"", some "IC", none, none, none, none, none, none⟩),
  (17, ⟨"", some "IC", none, none, some "16:06", none, none, none⟩),
  (104, ⟨"", some "IC", none, none, none, none, none, none⟩),
  (52, ⟨"", some "IC", none, none, none, none, none, none⟩),
  (16, ⟨"", some "IC", some "16:10", some "16:19", none, some "Katowice", none, none⟩),
  (112, ⟨"", some "IC", none, none, none, none, none, none⟩),
  (65, ⟨"", some "IC", none, none, none, none, none, none⟩),
  (131, ⟨"", some "IC", none, none, none, none, none, none⟩),
  (82, ⟨"", some "IC", none, none, none, none, none, none⟩),
  (7, ⟨"", some "IC", none, none, none, none, none, none⟩),
  (116, ⟨"", some "IC", none, none, none, none, none, none⟩),
  (74, ⟨"", some "IC", none, none, none, none, none, none⟩),
  (73, ⟨"", some "IC", none, none, none, none, none, none⟩),
  (135, ⟨"", some "IC", none, none, none, none, none, none⟩),
  (72, ⟨"", some "IC", none, none, none, none, none, none⟩),
  (55, ⟨"", some "IC", none, none, none, none, none, none⟩),
  (108, ⟨"", some "IC", none, none, none, none, none, none⟩),
  (58, ⟨"", some "IC", none, none, none, none, none, none⟩),
  (29, ⟨"", some "IC", some "16:33", some "16:34", none, some "Tychy", none, none⟩),
  (109, ⟨"", some "IC", none, none, none, none, none, none⟩)],
  "to Praha Hlavni Nadrazi"⟩

/-- train 94611 -/
def train_one_94611 : CodedSection := ⟨"KS - OsP", 94611, "94611", "S6", "departs from Katowice", [
  (68, ⟨"", some "R", none, none, some "15:55", none, some "Y", none⟩),
  (10, ⟨"", some "R", none, some "16:12", none, some "Katowice", none, some 5⟩),
  (112, ⟨"", some "R", none, none, none, none, none, none⟩),
  (65, ⟨"", some "R", none, none, none, none, none, none⟩),
  (131, ⟨"", some "IC", none, none, none, none, none, none⟩),
  (82, ⟨"", some "R", none, none, none, none, none, none⟩),
  (7, ⟨"", some "R", some "16:17", some "16:18", none, some "Katowice Ligota", none, none⟩),
  (116, ⟨"", some "R", some "16:21", some "16:21", none, some "Katowice Piotrowice", none, none⟩),
  (74, ⟨"", some "R", none, none, none, none, none, none⟩),
  (73, ⟨"", some "R", none, none, none, none, none, none⟩),
  (135, ⟨"", some "IC", none, none, none, none, none, none⟩),
  (72, ⟨"", some "R", none, none, none, none, none, none⟩),
  (55, ⟨"", some "R", none, none, none, none, none, none⟩),
  (108, ⟨"", some "R", none, none, none, none, none, none⟩),
  (58, ⟨"", some "R", none, none, none, none, none, none⟩),
  (25, ⟨"", some "R", some "16:27", some "16:28", none, some "Tychy", none, none⟩),
  (89, ⟨"", some "R", none, none, none, none, none, none⟩)],
  "to Wisła Głębce"⟩

/-- train 40150 -/
def train_one_40150 : CodedSection := ⟨"KS - OsP", 40150, "40150", "S1 KARLIK", "from Gliwice", [
  (35, ⟨"", some "R", none, some "15:49", none, some "Gliwice", none, none⟩),
  (78, ⟨"", some "R", none, none, none, none, none, none⟩),
  (79, ⟨"", some "R", none, none, none, none, none, none⟩),
  (80, ⟨"", some "R", none, none, none, none, none, none⟩),
  (81, ⟨"", some "R", none, none, none, none, none, none⟩),
  (120, ⟨"", some "R", none, none, none, none, none, none⟩),
  (31, ⟨"", some "R", some "15:56", some "15:56", none, some "Zabrze", none, none⟩),
  (94, ⟨"", some "R", none, none, none, none, none, none⟩),
  (95, ⟨"", some "R", none, none, none, none, none, none⟩),
  (143, ⟨"", some "R", some "16:01", some "16:01", none, some "Ruda Slaska", none, none⟩),
  (128, ⟨"", some "R", none, none, none, none, none, none⟩),
  (41, ⟨"", some "R", some "16:03", some "16:03", none, some "Ruda Chebzie", none, none⟩),
  (85, ⟨"", some "R", none, none, none, none, none, none⟩),
  (145, ⟨"", some "R", some "16:06", some "16:06", none, some "Swietochlowice", none, none⟩),
  (125, ⟨"", some "R", none, none, none, none, none, none⟩),
  (2, ⟨"", some "R", some "16:10", some "16:10", none, some "Chorzów Batory", none, none⟩),
  (76, ⟨"", some "R", none, none, none, none, none, none⟩),
  (130, ⟨"", some "R", none, none, none, none, none, none⟩),
  (133, ⟨"", some "R", some "16:13", some "16:13", none, some "Katowice Załęże", none, none⟩),
  (122, ⟨"", some "R", none, none, none, none, none, none⟩),
  (13, ⟨"", some "R", some "16:16", some "16:18", none, some "Katowice", none, none⟩),
  (49, ⟨"", some "R", none, none, none, none, none, none⟩),
  (104, ⟨"", some "R", none, none, none, none, none, none⟩),
  (18, ⟨"", some "R", some "16:26", some "16:26", none, some "Katowice Zawodzie", none, none⟩),
  (106, ⟨"", some "R", none, none, none, none, none, none⟩)],
  "to Częstochowa"⟩

/-- train 41004 -/
def train_one_41004 : CodedSection := ⟨"IC - IC", 41004, "41004", "BATHORY", "from Budapest-Nyugati", [
  (109, ⟨"", some "IC", none, none, none, none, none, none⟩),
  (27, ⟨"", some "IC", some "16:00", some "16:01", none, none, none, none⟩),
  (58, ⟨"", some "IC", none, none, none, none, none, none⟩),
  (108, ⟨"", some "IC", none, none, none, none, none, none⟩),
  (55, ⟨"", some "IC", none, none, none, none, none, none⟩),
  (72, ⟨"", some "IC", none, none, none, none, none, none⟩),
  (135, ⟨"", some "IC", none, none, none, none, none, none⟩),
  (73, ⟨"", some "IC", none, none, none, none, none, none⟩),
  (74, ⟨"", some "IC", none, none, none, none, none, none⟩),
  (116, ⟨"", some "IC", none, none, none, none, none, none⟩),
  (8, ⟨"", some "IC", none, none, none, none, none, none⟩),
  (82, ⟨"", some "IC", none, none, none, none, none, none⟩),
  (131, ⟨"", some "IC", none, none, none, none, none, none⟩),
  (65, ⟨"", some "IC", none, none, none, none, none, none⟩),
  (112, ⟨"", some "IC", none, none, none, none, none, none⟩),
  (39, ⟨"", some "IC", some "16:15", some "16:25", none, some "Katowice", none, none⟩),
  (53, ⟨"", some "IC", none, none, none, none, none, none⟩),
  (104, ⟨"", some "IC", none, none, none, none, none, none⟩),
  (18, ⟨"", some "IC", none, none, some "16:29", none, none, none⟩),
  (106, ⟨"", some "IC", none, none, none, none, none, none⟩)],
  "to Brest-Centralnyi"⟩

/-- train 94113 -/
def train_one_94113 : CodedSection := ⟨"KS - OsP", 94113, "94113", "S5 SPRINTER", "departs from Katowice", [
  (68, ⟨"", some "R", none, none, some "16:07", none, some "Y", none⟩),
  (10, ⟨"", some "R", none, some "16:24", none, some "Katowice", none, some 5⟩),
  (112, ⟨"", some "R", none, none, none, none, none, none⟩),
  (65, ⟨"", some "R", none, none, none, none, none, none⟩),
  (131, ⟨"", some "IC", none, none, none, none, none, none⟩),
  (82, ⟨"", some "R", none, none, none, none, none, none⟩),
  (7, ⟨"", some "R", some "16:30", some "16:30", none, some "Katowice Ligota", none, none⟩),
  (116, ⟨"", some "R", some "16:33", some "16:33", none, some "Katowice Piotrowice", none, none⟩),
  (74, ⟨"", some "R", none, none, none, none, none, none⟩),
  (73, ⟨"", some "R", none, none, none, none, none, none⟩),
  (135, ⟨"", some "IC", none, none, none, none, none, none⟩),
  (72, ⟨"", some "R", none, none, none, none, none, none⟩),
  (55, ⟨"", some "R", none, none, none, none, none, none⟩),
  (108, ⟨"", some "R", none, none, none, none, none, none⟩),
  (58, ⟨"", some "R", none, none, none, none, none, none⟩),
  (25, ⟨"", some "R", some "16:39", some "16:41", none, some "Tychy", none, none⟩),
  (89, ⟨"", some "R", none, none, none, none, none, none⟩)],
  "to Żywiec"⟩

/-- train 40673 -/
def train_one_40673 : CodedSection := ⟨"KS - Os", 40673, "40673", "S1", "from Czestochowa", [
  (67, ⟨"", some "R", none, none, none, none, none, none⟩),
  (17, ⟨"", some "R", some "16:14", some "16:14", none, some "Katowice Zawodzie", none, none⟩),
  (104, ⟨"", some "R", none, none, none, none, none, none⟩),
  (52, ⟨"", some "R", none, none, none, none, none, none⟩),
  (14, ⟨"", some "R", some "16:18", some "16:30", none, some "Katowice", none, none⟩),
  (83, ⟨"", some "R", none, none, none, none, none, none⟩),
  (101, ⟨"", some "R", some "16:33", some "16:33", none, some "Katowice Załęże", none, none⟩),
  (84, ⟨"", some "R", none, none, none, none, none, none⟩),
  (121, ⟨"", some "R", none, none, none, none, none, none⟩),
  (1, ⟨"", some "R", some "16:36", some "16:36", none, some "Chorzów Batory", none, none⟩),
  (77, ⟨"", some "R", none, none, none, none, none, none⟩),
  (144, ⟨"", some "R", some "16:39", some "16:39", none, some "Świętochłowice", none, none⟩),
  (119, ⟨"", some "R", none, none, none, none, none, none⟩),
  (40, ⟨"", some "R", some "16:43", some "16:43", none, some "Ruda Chebzie", none, none⟩),
  (86, ⟨"", some "R", none, none, none, none, none, none⟩),
  (142, ⟨"", some "R", some "16:45", some "16:45", none, some "Ruda Śląska", none, none⟩),
  (87, ⟨"", some "R", none, none, none, none, none, none⟩),
  (126, ⟨"", some "R", none, none, none, none, none, none⟩),
  (30, ⟨"", some "R", some "16:50", some "16:50", none, some "Zabrze", none, none⟩),
  (90, ⟨"", some "R", none, none, none, none, none, none⟩),
  (91, ⟨"", some "R", none, none, none, none, none, none⟩),
  (92, ⟨"", some "R", none, none, none, none, none, none⟩),
  (93, ⟨"", some "R", none, none, none, none, none, none⟩),
  (127, ⟨"", some "R", none, none, none, none, none, none⟩),
  (35, ⟨"", some "R", some "16:57", none, none, some "Gliwice", none, none⟩)],
  "to Gliwice"⟩

/-- train 54101 -/
def train_one_54101 : CodedSection := ⟨"IC - TLK", 54101, "54101", "DOKER", "from Gdynia Główna via Koluszki", [
  (67, ⟨"", some "IC", none, none, none, none, none, none⟩),
  (17, ⟨"", some "IC", none, none, some "16:24", none, none, none⟩),
  (104, ⟨"", some "IC", none, none, none, none, none, none⟩),
  (49, ⟨"", some "IC", none, none, none, none, none, none⟩),
  (11, ⟨"", some "IC", some "16:28", none, none, some "Katowice", none, none⟩)],
  "to Katowice"⟩

/-- train 541019 -/
def train_one_541019 : CodedSection := ⟨"IC - TLK", 541019, "541019", "DOKER", "from Katowice platforms", [
  (11, ⟨"", some "R", none, none, some "16:28", some "Katowice", some "Y", some 5⟩),
  (49, ⟨"", some "R", none, none, none, none, some "Y", none⟩),
  (66, ⟨"", some "R", none, none, some "16:43", none, some "Y", none⟩)],
  "to Katowice KO(IC)"⟩

/-- train 40477 -/
def train_one_40477 : CodedSection := ⟨"KS - Os", 40477, "40477", "S4", "departs from Katowice", [
  (61, ⟨"", some "R", none, none, none, none, some "Y", none⟩),
  (16, ⟨"", some "R", none, some "16:29", none, some "Katowice", none, none⟩),
  (112, ⟨"", some "R", none, none, none, none, none, none⟩),
  (65, ⟨"", some "R", none, none, none, none, none, none⟩),
  (131, ⟨"", some "R", some "16:33", some "16:33", none, some "Katowice Brynów", none, none⟩),
  (82, ⟨"", some "R", none, none, none, none, none, none⟩),
  (7, ⟨"", some "R", some "16:35", some "16:36", none, some "Katowice Ligota", none, none⟩),
  (116, ⟨"", some "R", some "16:39", some "16:39", none, some "Katowice Piotrowice", none, none⟩),
  (74, ⟨"", some "R", none, none, none, none, none, none⟩),
  (73, ⟨"", some "R", none, none, none, none, none, none⟩),
  (135, ⟨"", some "R", some "16:42", some "16:42", none, some "Katowice Podlesie", none, none⟩),
  (72, ⟨"", some "R", none, none, none, none, none, none⟩),
  (55, ⟨"", some "R", none, none, none, none, none, none⟩),
  (108, ⟨"", some "R", none, none, none, none, none, none⟩),
  (58, ⟨"", some "R", none, none, none, none, none, none⟩),
  (25, ⟨"", some "R", some "16:47", some "16:55", none, some "Tychy", none, none⟩),
  (75, ⟨"", some "R", none, none, none, none, none, none⟩)],
  "to Tychy Lodowisko"⟩

/-- train 4500 -/
def train_one_4500 : CodedSection := ⟨"IC - EIP", 4500, "4500", "Pendolino", "from Gliwice", [
  (32, ⟨"", some "IC", none, some "16:07", none, some "Gliwice", none, none⟩),
  (78, ⟨"", some "IC", none, none, none, none, none, none⟩),
  (79, ⟨"", some "IC", none, none, none, none, none, none⟩),
  (80, ⟨"", some "IC", none, none, none, none, none, none⟩),
  (81, ⟨"", some "IC", none, none, none, none, none, none⟩),
  (120, ⟨"", some "IC", none, none, none, none, none, none⟩),
  (31, ⟨"", some "IC", some "16:16", some "16:16", none, some "Zabrze ", none, none⟩),
  (94, ⟨"", some "IC", none, none, none, none, none, none⟩),
  (95, ⟨"", some "IC", none, none, none, none, none, none⟩),
  (143, ⟨"", some "IC", none, none, none, none, none, none⟩),
  (128, ⟨"", some "IC", none, none, none, none, none, none⟩),
  (41, ⟨"", some "IC", none, none, none, none, none, none⟩),
  (85, ⟨"", some "IC", none, none, none, none, none, none⟩),
  (145, ⟨"", some "IC", none, none, none, none, none, none⟩),
  (125, ⟨"", some "IC", none, none, none, none, none, none⟩),
  (2, ⟨"", some "IC", none, none, none, none, none, none⟩),
  (76, ⟨"", some "IC", none, none, none, none, none, none⟩),
  (130, ⟨"", some "IC", none, none, none, none, none, none⟩),
  (133, ⟨"", some "IC", none, none, none, none, none, none⟩),
  (122, ⟨"", some "IC", none, none, none, none, none, none⟩),
  (11, ⟨"", some "IC", some "16:31", some "16:35", none, some "Katowice", none, none⟩),
  (49, ⟨"", some "IC", none, none, none, none, none, none⟩),
  (104, ⟨"", some "IC", none, none, none, none, none, none⟩),
  (18, ⟨"", some "IC", none, none, some "16:39", none, none, none⟩),
  (106, ⟨"", some "IC", none, none, none, none, none, none⟩)],
  "to Gdynia Główna via Warszawa"⟩

/-- train 94317 -/
def train_one_94317 : CodedSection := ⟨"KS - Os", 94317, "94317", "S8", "from Oświęcim", [
  (88, ⟨"", some "R", none, none, none, none, none, none⟩),
  (19, ⟨"", some "R", some "16:39", some "16:39", none, some "Katowice Zawodzie", none, none⟩),
  (104, ⟨"", some "R", none, none, none, none, none, none⟩),
  (48, ⟨"", some "R", none, none, none, none, none, none⟩),
  (14, ⟨"", some "R", some "16:44", some "16:50", none, some "Katowice", none, none⟩),
  (83, ⟨"", some "R", none, none, none, none, none, none⟩),
  (101, ⟨"", some "R", some "16:53", some "16:53", none, some "Katowice Załęże", none, none⟩),
  (84, ⟨"", some "R", none, none, none, none, none, none⟩),
  (121, ⟨"", some "R", none, none, none, none, none, none⟩),
  (3, ⟨"", some "R", some "16:57", some "16:58", none, some "Chorzów Batory", none, none⟩),
  (97, ⟨"", some "R", none, none, none, none, none, none⟩),
  (5, ⟨"", some "R", some "17:03", some "17:03", none, some "Chorzów Miasto", none, none⟩),
  (99, ⟨"", some "R", none, none, none, none, none, none⟩)],
  "to Lubliniec"⟩

/-- train 44717 -/
def train_one_44717 : CodedSection := ⟨"KS - Os", 44717, "44717", "S7", "departs from Katowice", [
  (62, ⟨"", some "R", none, none, some "16:25", none, some "Y", none⟩),
  (10, ⟨"", some "R", none, some "16:36", none, some "Katowice", none, none⟩),
  (112, ⟨"", some "R", none, none, none, none, none, none⟩),
  (65, ⟨"", some "R", none, none, none, none, none, none⟩),
  (131, ⟨"", some "R", some "16:39", some "16:39", none, some "Katowice Brynów", none, none⟩),
  (82, ⟨"", some "R", none, none, none, none, none, none⟩),
  (8, ⟨"", some "R", some "16:43", some "16:43", none, some "Katowice Ligota", none, none⟩),
  (146, ⟨"", some "R", some "16:47", some "16:47", none, some "Katowice Piotrowice", none, none⟩),
  (114, ⟨"", some "R", none, none, none, none, none, none⟩),
  (21, ⟨"", some "R", some "16:51", some "16:51", none, some "Miko��w Jamna", none, none⟩),
  (107, ⟨"", some "R", none, none, none, none, none, none⟩),
  (23, ⟨"", some "R", some "16:54", some "16:55", none, some "Miko��w", none, none⟩),
  (110, ⟨"", some "R", none, none, none, none, none, none⟩)],
  "to Racibórz"⟩

/-- train 64350 -/
def train_one_64350 : CodedSection := ⟨"KS - Os", 64350, "64350", "S8", "from Kluczbork", [
  (100, ⟨"", some "R", none, none, none, none, none, none⟩),
  (6, ⟨"", some "R", some "16:25", some "16:25", none, some "Chorzów Miasto", none, none⟩),
  (98, ⟨"", some "R", none, none, none, none, none, none⟩),
  (4, ⟨"", some "R", some "16:30", some "16:31", none, some "Chorzów Batory", none, none⟩),
  (76, ⟨"", some "R", none, none, none, none, none, none⟩),
  (130, ⟨"", some "R", none, none, none, none, none, none⟩),
  (133, ⟨"", some "R", some "16:34", some "16:34", none, some "Katowice Załęże", none, none⟩),
  (122, ⟨"", some "R", none, none, none, none, none, none⟩),
  (15, ⟨"", some "R", some "16:38", some "16:40", none, some "Katowice", none, none⟩),
  (53, ⟨"", some "R", none, none, none, none, none, none⟩),
  (104, ⟨"", some "R", none, none, none, none, none, none⟩),
  (20, ⟨"", some "R", some "16:44", some "16:44", none, some "Katowice Zawodzie", none, none⟩),
  (123, ⟨"", some "R", none, none, none, none, none, none⟩)],
  "to Oświęcim"⟩

/-- train 94717 -/
def train_one_94717 : CodedSection := ⟨"KS - Os", 94717, "94717", "S5", "departs from Katowice", [
  (61, ⟨"", some "R", none, none, some "16:30", none, some "Y", none⟩),
  (10, ⟨"", some "R", none, some "16:47", none, some "Katowice", none, none⟩),
  (112, ⟨"", some "R", none, none, none, none, none, none⟩),
  (65, ⟨"", some "R", none, none, none, none, none, none⟩),
  (131, ⟨"", some "R", some "16:51", some "16:51", none, some "Katowice Brynów", none, none⟩),
  (82, ⟨"", some "R", none, none, none, none, none, none⟩),
  (7, ⟨"", some "R", some "16:54", some "16:54", none, some "Katowice Ligota", none, none⟩),
  (116, ⟨"", some "R", some "16:57", some "16:57", none, some "Katowice Piotrowice", none, none⟩),
  (74, ⟨"", some "R", none, none, none, none, none, none⟩),
  (73, ⟨"", some "R", none, none, none, none, none, none⟩),
  (135, ⟨"", some "R", some "17:01", some "17:01", none, some "Katowice Podlesie", none, none⟩),
  (72, ⟨"", some "R", none, none, none, none, none, none⟩),
  (55, ⟨"", some "R", none, none, none, none, none, none⟩),
  (108, ⟨"", some "R", none, none, none, none, none, none⟩),
  (58, ⟨"", some "R", none, none, none, none, none, none⟩),
  (25, ⟨"", some "R", some "17:05", some "17:06", none, some "Tychy", none, none⟩),
  (89, ⟨"", some "R", none, none, none, none, none, none⟩)],
  "to Żywiec"⟩

/-- train 44862 -/
def train_one_44862 : CodedSection := ⟨"KS - Os", 44862, "44862", "S71", "from Chałupki", [
  (110, ⟨"", some "R", none, none, some "16:21", none, none, none⟩),
  (24, ⟨"", some "R", some "16:25", some "16:32", none, some "Miko��w", none, none⟩),
  (107, ⟨"", some "R", none, none, none, none, none, none⟩),
  (22, ⟨"", some "R", some "16:35", some "16:35", none, some "Miko��w Jamna", none, none⟩),
  (114, ⟨"", some "R", none, none, none, none, none, none⟩),
  (146, ⟨"", some "R", some "16:39", some "16:39", none, none, none, none⟩),
  (8, ⟨"", some "R", some "16:42", some "16:42", none, some "Katowice Ligota", none, none⟩),
  (82, ⟨"", some "R", none, none, none, none, none, none⟩),
  (131, ⟨"", some "R", none, none, none, none, none, none⟩),
  (65, ⟨"", some "R", some "16:45", some "16:45", none, some "Katowice Brynów", none, none⟩),
  (112, ⟨"", some "R", none, none, none, none, none, none⟩),
  (15, ⟨"", some "R", some "16:48", none, none, some "Katowice", none, none⟩),
  (63, ⟨"", some "R", none, none, none, none, some "Y", none⟩)],
  "terminates in Katowice"⟩

/-- train 40628 -/
def train_one_40628 : CodedSection := ⟨"KS - Os", 40628, "40628", "S1", "from Gliwice", [
  (35, ⟨"", some "R", none, some "16:16", none, some "Gliwice", none, none⟩),
  (78, ⟨"", some "R", none, none, none, none, none, none⟩),
  (79, ⟨"", some "R", none, none, none, none, none, none⟩),
  (80, ⟨"", some "R", none, none, none, none, none, none⟩),
  (81, ⟨"", some "R", none, none, none, none, none, none⟩),
  (120, ⟨"", some "R", none, none, none, none, none, none⟩),
  (31, ⟨"", some "R", some "16:23", some "16:23", none, some "Zabrze", none, none⟩),
  (94, ⟨"", some "R", none, none, none, none, none, none⟩),
  (95, ⟨"", some "R", none, none, none, none, none, none⟩),
  (143, ⟨"", some "R", some "16:27", some "16:27", none, some "Ruda Slaska", none, none⟩),
  (128, ⟨"", some "R", none, none, none, none, none, none⟩),
  (41, ⟨"", some "R", some "16:30", some "16:30", none, some "Ruda Chebzie", none, none⟩),
  (85, ⟨"", some "R", none, none, none, none, none, none⟩),
  (145, ⟨"", some "R", some "16:33", some "16:33", none, some "Swietochlowice", none, none⟩),
  (125, ⟨"", some "R", none, none, none, none, none, none⟩),
  (2, ⟨"", some "R", some "16:36", some "16:36", none, some "Chorzów Batory", none, none⟩),
  (76, ⟨"", some "R", none, none, none, none, none, none⟩),
  (130, ⟨"", some "R", none, none, none, none, none, none⟩),
  (133, ⟨"", some "R", some "16:40", some "16:40", none, some "Katowice Załęże", none, none⟩),
  (122, ⟨"", some "R", none, none, none, none, none, none⟩),
  (11, ⟨"", some "R", some "16:44", some "16:51", none, some "Katowice", none, none⟩),
  (49, ⟨"", some "R", none, none, none, none, none, none⟩),
  (104, ⟨"", some "R", none, none, none, none, none, none⟩),
  (18, ⟨"", some "R", some "16:54", some "16:54", none, some "Katowice Zawodzie", none, none⟩),
  (106, ⟨"", some "R", none, none, none, none, none, none⟩)],
  "to Częstochowa"⟩

/-- train 40675 -/
def train_one_40675 : CodedSection := ⟨"KS - OsP", 40675, "40675", "S1", "from Czestochowa", [
  (67, ⟨"", some "R", none, none, none, none, none, none⟩),
  (17, ⟨"", some "R", some "16:44", some "16:44", none, some "Katowice Zawodzie", none, none⟩),
  (104, ⟨"", some "R", none, none, none, none, none, none⟩),
  (52, ⟨"", some "R", none, none, none, none, none, none⟩),
  (16, ⟨"", some "R", some "16:48", some "16:55", none, some "Katowice", none, none⟩),
  (83, ⟨"", some "R", none, none, none, none, none, none⟩),
  (101, ⟨"", some "R", some "16:58", some "16:58", none, some "Katowice Załęże", none, none⟩),
  (84, ⟨"", some "R", none, none, none, none, none, none⟩),
  (121, ⟨"", some "R", none, none, none, none, none, none⟩),
  (1, ⟨"", some "R", some "17:02", some "17:02", none, some "Chorz�w Batory", none, none⟩),
  (77, ⟨"", some "R", none, none, none, none, none, none⟩),
  (144, ⟨"", some "R", some "17:05", some "17:05", none, some "�wi�toch�owice", none, none⟩),
  (119, ⟨"", some "R", none, none, none, none, none, none⟩),
  (40, ⟨"", some "R", some "17:08", some "17:08", none, some "Ruda Chebzie", none, none⟩),
  (86, ⟨"", some "R", none, none, none, none, none, none⟩),
  (142, ⟨"", some "R", some "17:10", some "17:10", none, some "Ruda �l�ska", none, none⟩),
  (87, ⟨"", some "R", none, none, none, none, none, none⟩),
  (126, ⟨"", some "R", none, none, none, none, none, none⟩),
  (30, ⟨"", some "R", some "17:15", some "17:15", none, some "Zabrze", none, none⟩),
  (90, ⟨"", some "R", none, none, none, none, none, none⟩),
  (91, ⟨"", some "R", none, none, none, none, none, none⟩),
  (92, ⟨"", some "R", none, none, none, none, none, none⟩),
  (93, ⟨"", some "R", none, none, none, none, none, none⟩),
  (127, ⟨"", some "R", none, none, none, none, none, none⟩),
  (35, ⟨"", some "R", some "17:22", none, none, some "Gliwice", none, none⟩)],
  "to Gliwice"⟩

/-- train 73000 -/
def train_one_73000 : CodedSection := ⟨"IC - IC", 73000, "73000", "WAWEL", "from Berlin Hauptbahnhof", [
  (117, ⟨"", some "IC", none, none, some "16:27", none, none, none⟩),
  (34, ⟨"", some "IC", some "16:29", some "16:31", none, some "Gliwice", none, none⟩),
  (78, ⟨"", some "IC", none, none, none, none, none, none⟩),
  (79, ⟨"", some "IC", none, none, none, none, none, none⟩),
  (80, ⟨"", some "IC", none, none, none, none, none, none⟩),
  (81, ⟨"", some "IC", none, none, none, none, none, none⟩),
  (120, ⟨"", some "IC", none, none, none, none, none, none⟩),
  (31, ⟨"", some "IC", some "16:38", some "16:38", none, some "Zabrze", none, none⟩),
  (94, ⟨"", some "IC", none, none, none, none, none, none⟩),
  (95, ⟨"", some "IC", none, none, none, none, none, none⟩),
  (143, ⟨"", some "IC", none, none, none, none, none, none⟩),
  (128, ⟨"", some "IC", none, none, none, none, none, none⟩),
  (41, ⟨"", some "IC", none, none, none, none, none, none⟩),
  (85, ⟨"", some "IC", none, none, none, none, none, none⟩),
  (145, ⟨"", some "IC", none, none, none, none, none, none⟩),
  (125, ⟨"", some "IC", none, none, none, none, none, none⟩),
  (2, ⟨"", some "IC", none, none, none, none, none, none⟩),
  (76, ⟨"", some "IC", none, none, none, none, none, none⟩),
  (130, ⟨"", some "IC", none, none, none, none, none, none⟩),
  (133, ⟨"", some "IC", none, none, none, none, none, none⟩),
  (122, ⟨"", some "IC", none, none, none, none, none, none⟩),
  (13, ⟨"", some "IC", some "16:53", some "16:58", none, some "Katowice", none, none⟩),
  (49, ⟨"", some "IC", none, none, none, none, none, none⟩),
  (104, ⟨"", some "IC", none, none, none, none, none, none⟩),
  (20, ⟨"", some "IC", none, none, some "17:02", none, none, none⟩),
  (123, ⟨"", some "IC", none, none, none, none, none, none⟩)],
  "to Kraków Główny"⟩

/-- train 4120 -/
def train_one_4120 : CodedSection := ⟨"IC - IC", 4120, "4120", "DASZYŃSKI", "from Bielsko-Biała Główna", [
  (124, ⟨"", some "IC", none, none, none, none, none, none⟩),
  (26, ⟨"", some "IC", some "16:41", some "16:41", none, some "Tychy", none, none⟩),
  (58, ⟨"", some "IC", none, none, none, none, none, none⟩),
  (108, ⟨"", some "IC", none, none, none, none, none, none⟩),
  (55, ⟨"", some "IC", none, none, none, none, none, none⟩),
  (72, ⟨"", some "IC", none, none, none, none, none, none⟩),
  (135, ⟨"", some "IC", none, none, none, none, none, none⟩),
  (73, ⟨"", some "IC", none, none, none, none, none, none⟩),
  (74, ⟨"", some "IC", none, none, none, none, none, none⟩),
  (116, ⟨"", some "IC", none, none, none, none, none, none⟩),
  (8, ⟨"", some "IC", none, none, none, none, none, none⟩),
  (82, ⟨"", some "IC", none, none, none, none, none, none⟩),
  (131, ⟨"", some "IC", none, none, none, none, none, none⟩),
  (65, ⟨"", some "IC", none, none, none, none, none, none⟩),
  (112, ⟨"", some "IC", none, none, none, none, none, none⟩),
  (39, ⟨"", some "IC", some "16:54", some "17:00", none, some "Katowice", none, none⟩),
  (49, ⟨"", some "IC", none, none, none, none, none, none⟩),
  (104, ⟨"", some "IC", none, none, none, none, none, none⟩),
  (18, ⟨"", some "IC", none, none, some "17:04", none, none, none⟩),
  (106, ⟨"", some "IC", none, none, none, none, none, none⟩)],
  "to Warszawa Wschodnia"⟩

/-- the sections of the sheet -/
def one : List CodedSection := [
  train_one_94766, train_one_26103, train_one_421009, train_one_42100, train_one_5312,
  train_one_40518, train_one_34319, train_one_343199, train_one_14006, train_one_94611,
  train_one_40150, train_one_41004, train_one_94113, train_one_40673, train_one_54101,
  train_one_541019, train_one_40477, train_one_4500, train_one_94317, train_one_44717,
  train_one_64350, train_one_94717, train_one_44862, train_one_40628, train_one_40675,
  train_one_73000, train_one_4120]

/-- the different runs from one station (by position) to the next one, and the blocks between -/
def oneRuns : List (Nat × Nat × List Nat) := [
  (9, 8, [58, 108, 55, 72, 135, 73, 74, 116]),
  (8, 1, [82, 131, 65, 112]),
  (1, 2, []),
  (0, 2, [104]),
  (2, 1, []),
  (1, 5, [83, 101, 84, 121]),
  (5, 6, [77, 144, 119, 40, 86, 142, 87, 126, 30, 90, 91, 92, 93, 127]),
  (4, 2, []),
  (2, 0, [104]),
  (6, 5, [78, 79, 80, 81, 120, 31, 94, 95, 143, 128, 41, 85, 145, 125]),
  (5, 1, [76, 130, 133, 122]),
  (1, 8, [112, 65, 131, 82]),
  (8, 9, [116, 74, 73, 135, 72, 55, 108, 58]),
  (3, 1, []),
  (2, 4, []),
  (5, 7, [97]),
  (8, 11, [146, 114]),
  (11, 10, [107]),
  (7, 5, [98]),
  (10, 11, [107]),
  (11, 8, [114, 146])]

end Verif.Real
